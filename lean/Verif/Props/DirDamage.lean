import Verif.Lemmas.DirDamage
import Verif.Props.Written

/-! C134: on a volume with checksums, damaged directories never lead to another file. -/

namespace MdRecover
open MdSpec Fixture Mkfs

section
variable [Build]

omit [Build] in
/-- C134: whichever blocks of directories cannot be used, what is found at the end of a path is what would be found
without the damage, or an error. -/
theorem C134_same_or_error (t : List Node) (bad : Nat → Nat → Bool) (names : List Bytes) : ∀ n,
    atPathDamaged t bad n names = .ok (atPath t n names) ∨ atPathDamaged t bad n names = .err .invalidData := by
  induction names with
  | nil => exact fun n => .inl rfl
  | cons name names ih =>
    intro n
    rw [atPathDamaged, atPath]
    rcases t[n]? with _ | b | es
    · exact .inl rfl
    · exact .inl rfl
    · simp only
      have key : ∀ (es : List (Bytes × Nat)) (m : Nat),
          (match (es.zipIdx m).find? (fun e => bad n e.2 || e.1.1 == name) with
            | some e => if bad n e.2 then .err .invalidData else atPathDamaged t bad e.1.2 names
            | none => .ok .missing) = (.ok (match es.find? (fun e => e.1 == name) with
              | some e => atPath t e.2 names
              | none => .missing) : Res Found) ∨
          (match (es.zipIdx m).find? (fun e => bad n e.2 || e.1.1 == name) with
            | some e => if bad n e.2 then .err .invalidData else atPathDamaged t bad e.1.2 names
            | none => .ok .missing) = (.err .invalidData : Res Found) := by
        intro es
        induction es with
        | nil => exact fun m => .inl rfl
        | cons e es ih2 =>
          intro m
          rw [List.zipIdx_cons]
          by_cases hb : bad n m = true
          · rw [List.find?_cons_of_pos (by simp [hb])]
            exact .inr (if_pos hb)
          · by_cases he : e.1 = name
            · rw [List.find?_cons_of_pos (by simp [he]), List.find?_cons_of_pos (by simp [he])]
              simp only [if_neg hb]
              exact ih e.2
            · rw [List.find?_cons_of_neg (by simp [he, hb]), List.find?_cons_of_neg (by simp [he])]
              exact ih2 (m + 1)
      exact key es 0

omit [Build] in
theorem atPath_ne_running (t : List Node) (names : List Bytes) : ∀ n, atPath t n names ≠ .running := by
  induction names with
  | nil =>
    intro n
    rw [atPath]
    rcases t[n]? with _ | b | es <;> exact fun h => nomatch h
  | cons name names ih =>
    intro n
    rw [atPath]
    rcases t[n]? with _ | b | es
    · exact fun h => nomatch h
    · exact fun h => nomatch h
    · simp only
      split
      · exact ih _
      · exact fun h => nomatch h

/-- C134, exactly: on every device with the content of the damaged volume, the program that follows a path and
reads the file finds what the blocks that are not damaged say, and returns an error if it comes to a damaged one
before it has found the name it is looking for.  On a device that may fail, it may return another error.  The same
bound on its loops is enough for all devices. -/
theorem C134_reads (k : Mkfs.Form) (hu : k.uuid.isSome) (t : List Node) (hf : Fits k t) (rest c : Bytes)
    (hd : DirectoriesDamaged k t (volume k t ++ rest) c) (hl : c.length < 2 ^ 57) (names : List Bytes) :
    ∃ N, ∀ {W D : Type} {F : Prop} {lim : Nat → Nat} {dev : StreamDev W D} {G : W → Prop}
      {Is : D → Bytes → Prop} {At : W → D → Nat → Prop}, SeekableVolume F lim dev G Is At →
      (lim c.length = U64 ∨ (F ∧ lim c.length ≤ U64)) →
      ∀ (w : W) (d : D), G w → Is d c → ∀ rounds,
        (readPath dev rounds d names w).2 =
          atPathDamaged t (damagedBlock k t (volume k t ++ rest) c) 0 names ∨
        (F ∧ ∃ e, (readPath dev rounds d names w).2 = .err e) ∨
        (rounds < N ∧ (readPath dev rounds d names w).2 = .ok .running) := by
  have hco := MkfsLemmas.openable_damaged rfl hf hd
  obtain ⟨w0, fs0, ho, hG0, hop⟩ := open_opened InMemory.volumeSpec (c := c) (w := ()) (d := InMemory.new c 512)
    trivial rfl hco hl
  obtain ⟨N, hN⟩ := MkfsLemmas.follow_damaged rfl hf hd InMemory.volumeSpec
    (show c.length < 2 ^ 64 by omega) hu names (w := w0) hf.root hG0 hop
  have hne : atPathDamaged t (damagedBlock k t (volume k t ++ rest) c) 0 names ≠ .ok .running := by
    rcases C134_same_or_error t (damagedBlock k t (volume k t ++ rest) c) names 0 with h | h
    · rw [h]
      exact fun h => atPath_ne_running t names 0 (Res.ok.inj h)
    · rw [h]
      exact fun h => nomatch h
  generalize atPathDamaged t (damagedBlock k t (volume k t ++ rest) c) 0 names = out at hN hne ⊢
  have h1 : ∀ rounds, N ≤ rounds → (readPath InMemory.streamDev rounds (InMemory.new c 512) names ()).2 = out :=
    fun rounds hr => by rw [readPath_eq ho]; exact hN rounds hr
  refine ⟨N, fun {W D F lim dev G Is At} hv hlim w d hG hI rounds => ?_⟩
  have h2 : (readPath InMemory.streamDev rounds (InMemory.new c 512) names ()).2 = out ∨ (rounds < N ∧
      (readPath InMemory.streamDev rounds (InMemory.new c 512) names ()).2 = .ok .running) := by
    rcases Nat.lt_or_ge rounds N with hr | hr
    · by_cases h : (readPath InMemory.streamDev rounds (InMemory.new c 512) names ()).2 = .ok .running
      · exact .inr ⟨hr, h⟩
      · have h3 := h1 N (Nat.le_refl _)
        rw [readPath_agree h (r2 := N) (by rw [h3]; exact hne)]
        exact .inl h3
    · exact .inl (h1 rounds hr)
  rcases Ext4Sim.readPath hv InMemory.seekableVolume hlim (d2 := InMemory.new c 512) ⟨hI, rfl⟩ rounds names w ()
    ⟨hG, trivial⟩ with ⟨t1, t2, a1, a2, e1, e2, rfl, -⟩ | ⟨t1, t2, e, e1, e2, -⟩ | ⟨t1, t2, e1, e2, -⟩ |
    ⟨hF, t1, e, e1, -⟩
  · rw [e1]
    rw [e2] at h2
    exact h2.imp id .inr
  · rw [e1]
    rw [e2] at h2
    exact h2.imp id .inr
  · rw [e1]
    rw [e2] at h2
    exact h2.imp id .inr
  · rw [e1]
    exact .inr (.inl ⟨hF, e, rfl⟩)

/-- C134: damaged directories never lead to another file: given enough rounds, the program returns what it would
return without the damage, or an error. -/
theorem C134_never_another (k : Mkfs.Form) (hu : k.uuid.isSome) (t : List Node) (hf : Fits k t) (rest c : Bytes)
    (hd : DirectoriesDamaged k t (volume k t ++ rest) c) (hl : c.length < 2 ^ 57) (names : List Bytes) :
    ∃ N, ∀ {W D : Type} {F : Prop} {lim : Nat → Nat} {dev : StreamDev W D} {G : W → Prop}
      {Is : D → Bytes → Prop} {At : W → D → Nat → Prop}, SeekableVolume F lim dev G Is At →
      (lim c.length = U64 ∨ (F ∧ lim c.length ≤ U64)) →
      ∀ (w : W) (d : D), G w → Is d c → ∀ rounds, N ≤ rounds →
        (readPath dev rounds d names w).2 = .ok (atPath t 0 names) ∨
        ∃ e, (readPath dev rounds d names w).2 = .err e := by
  obtain ⟨N, hN⟩ := C134_reads k hu t hf rest c hd hl names
  refine ⟨N, fun {W D F lim dev G Is At} hv hlim w d hG hI rounds hr => ?_⟩
  rcases hN hv hlim w d hG hI rounds with h | ⟨-, h⟩ | ⟨h, -⟩
  · rw [h]
    exact (C134_same_or_error t _ names 0).imp id fun h => ⟨_, h⟩
  · exact .inr h
  · omega

/-- C134, on a RAID6 array. -/
theorem C134_array (k : Mkfs.Form) (hu : k.uuid.isSome) (t : List Node) (hf : Fits k t) (rest content : Bytes)
    (hd : DirectoriesDamaged k t (volume k t ++ rest) content) (hl : content.length < 2 ^ 57) (names : List Bytes)
    {L n c size : Nat} :
    ∃ N, ∀ {W D : Type} {F : Prop} {dev : BlockDev W D} {G : W → Prop} {Is : D → Disk → Prop},
      DevSpec F dev G Is → ∀ {ord : IterOrder}, ord.Valid → ∀ {alg : Raid6Algorithm}
      {members : Nat → Disk} {devices : List (MdDevice D)}, Raid6Algorithm.fromLayout L = some alg →
      ReadableSet Is alg n c size members devices → Raid6Set L n c size members content →
      ∀ w, G w → ∀ rounds, N ≤ rounds →
        let r := (readPath (Reader.streamDev (MdArray.dev dev)) rounds
          (Reader.new (MdArray.open ord devices)) names w).2
        r = atPathDamaged t (damagedBlock k t (volume k t ++ rest) content) 0 names ∨ (F ∧ ∃ e, r = .err e) := by
  obtain ⟨N, h⟩ := C134_reads k hu t hf rest content hd hl names
  refine ⟨N, fun {W D F dev G Is} hd {ord} hord {alg members devices} hL hr hset w hG rounds hN => ?_⟩
  have ha := C16_array_device_partial hd hord hL hr hset
  rcases h (Reader.seekableVolume ha ⟨512, size * (n - 2), content⟩) (.inl rfl) w _ hG
    ⟨rfl, 0, Reader.at_new (ha.wf ⟨rfl, rfl⟩) ⟨rfl, rfl⟩⟩ rounds with h | h | ⟨h, -⟩
  · exact .inl h
  · exact .inr h
  · omega

/-- The name and the inode in what a call returns. -/
def seen (r : Res (Option DirEntry)) : Res (Option (Bytes × Nat)) :=
  (fun e => e.map fun e => (e.name.bytes, e.inode)) <$> r

/-- C134: damaged blocks do not hide the entries in other blocks, however many are damaged.  Once the damaged volume
is open, each directory of the table opens, and the calls that read its entries return in turn each entry in a block
that is not damaged, an error for each damaged block, and then that there are no more. -/
theorem C134_entries {W D : Type} {dev : StreamDev W D} {G : W → Prop} {Is : D → Bytes → Prop}
    {At : W → D → Nat → Prop} (hv : VolumeSpec False dev G Is At) (k : Mkfs.Form) (hu : k.uuid.isSome)
    (t : List Node) (hf : Fits k t) (rest c : Bytes) (hd : DirectoriesDamaged k t (volume k t ++ rest) c)
    (hl : c.length < 2 ^ 57) (w : W) (d : D) (hG : G w) (hI : Is d c) (i : Nat) (es : List (Bytes × Nat))
    (hi : t[i]? = some (.dir es)) (n : Nat) :
    ∃ w1 fs w2 fs' dir s' rs, Ext4Fs.open dev d w = (w1, .ok fs) ∧
      Ext4Fs.openFile dev (i + 2) (w1, fs) = ((w2, fs'), .ok (.directory dir)) ∧
      DirCalls dev (w2, dir) rs s' ∧
      rs.map seen = (es.zipIdx.map fun e =>
        if damagedBlock k t (volume k t ++ rest) c i e.2 then .err .invalidData
        else .ok (some (e.1.1, e.1.2 + 2))) ++ List.replicate n (.ok none) := by
  have hco := MkfsLemmas.openable_damaged rfl hf hd
  obtain ⟨w1, fs, h1, hG1, ho⟩ := open_opened hv hG hI hco hl
  have hc : c.length < 2 ^ 64 := by omega
  obtain ⟨w2, fs', dir, inode, h2, -, hleft⟩ := MkfsLemmas.left_damaged rfl hf hd hv hc hu hG1 ho hi
  have hlen : es.length = (es.zipIdx.map fun e =>
      MkfsLemmas.result k (damagedBlock k t (volume k t ++ rest) c i e.2) e.1).length := by simp
  obtain ⟨s', h3⟩ := Ext4Directory.calls_give hv hc (es.length + n) _ _ hleft
  rw [hlen, calls_eq] at h3
  refine ⟨w1, fs, w2, fs', dir, s', _, h1, h2, h3, ?_⟩
  rw [List.map_append, List.map_map, List.map_replicate]
  congr 1
  refine List.map_congr_left fun e he => ?_
  have he := List.fst_mem_of_mem_zipIdx he
  obtain ⟨-, v2, v3, v4, v5⟩ := MkfsLemmas.entry_values hf es (List.mem_of_getElem? hi) e.1 he
  show seen (MkfsLemmas.result k _ e.1) = _
  unfold MkfsLemmas.result
  by_cases hb : damagedBlock k t (volume k t ++ rest) c i e.2 = true
  · rw [if_pos hb, if_pos hb]
    rfl
  · rw [if_neg hb, if_neg hb]
    have hn : (DirEntry.mk (record k e.1)).name.bytes = e.1.1 := by
      rw [(C70_name_partial ⟨record k e.1⟩ v2).2 v5]
      exact v4
    show Res.ok (some ((DirEntry.mk (record k e.1)).name.bytes, (DirEntry.mk (record k e.1)).inode)) = _
    rw [hn, entry_inode, v3]

end

/-! ### A case -/

/-- A volume with up to four consecutive bytes of one block of a directory changed. -/
theorem directoriesDamaged_one {k : Mkfs.Form} {t : List Node} {a b : Bytes} {i j x : Nat}
    (hx : DirectoryBlock k t i j x) (h : DamagedIn (x * bs k) (x * bs k + bs k) a b) :
    DirectoriesDamaged k t a b := by
  refine ⟨?_, fun y => ?_⟩
  · obtain ⟨front, w, v, rest, rfl, rfl, h1, -⟩ := h
    simp [h1]
  · by_cases hy : y = x
    · subst hy
      refine .inr ⟨⟨i, j, hx⟩, ?_⟩
      obtain ⟨front, w, v, rest, g1, g2, g3, g4, g5⟩ := damaged_part h
      refine ⟨front, w, v, rest, g1, g2, g3, g4, g5, Nat.zero_le _, ?_⟩
      have := congrArg List.length g1
      rw [List.length_take, List.length_append, List.length_append] at this
      omega
    · exact .inl (damaged_other h hy)

/-- What is known of the damaged block. -/
theorem damagedBlock_one {k : Mkfs.Form} {t : List Node} {a b : Bytes} {x : Nat}
    (h : DamagedIn (x * bs k) (x * bs k + bs k) a b) (i j : Nat) :
    damagedBlock k t a b i j = (start k t i + j == x) := by
  unfold damagedBlock
  by_cases hy : start k t i + j = x
  · rw [hy]
    obtain ⟨front, w, v, rest, g1, g2, g3, g4, g5⟩ := damaged_part h
    have hne : blockOf b (bs k) x ≠ blockOf a (bs k) x := by
      unfold blockOf
      rw [g1, g2]
      intro he
      rw [List.append_assoc, List.append_assoc] at he
      exact g5 (List.append_inj_left (List.append_cancel_left he) g3.symm).symm
    rw [bne_iff_ne.2 hne]
    simp
  · rw [damaged_other h hy]
    simp [hy]

/-- C134: the second block of the root directory of the volume of C123 is damaged.  Then the file is still found in
the directory "d", whose entry is in the first block, but looking for "f" in the root is an error; and without
damage it is not. -/
theorem C134_case [Build] (u : Nat) (hu : u < 256 ^ 16) (b rest c : Bytes) (hb : b.length ≤ 2 ^ 24)
    (hr : rest.length < 2 ^ 56)
    (hd : DamagedIn (start ⟨0, some u⟩ (sampleTree b) 0 * 1024 + 1024)
      (start ⟨0, some u⟩ (sampleTree b) 0 * 1024 + 2048) (volume ⟨0, some u⟩ (sampleTree b) ++ rest) c) :
    DirectoriesDamaged ⟨0, some u⟩ (sampleTree b) (volume ⟨0, some u⟩ (sampleTree b) ++ rest) c ∧
    ∃ N, ∀ rounds, N ≤ rounds →
      (readPath InMemory.streamDev rounds (InMemory.new c 512) [[100], [103]] ()).2 = .ok (.content b) ∧
      (readPath InMemory.streamDev rounds (InMemory.new c 512) [[102]] ()).2 = .err .invalidData ∧
      (readPath InMemory.streamDev rounds (InMemory.new (volume ⟨0, some u⟩ (sampleTree b) ++ rest) 512)
        [[102]] ()).2 = .ok (.content b) := by
  have hf := sampleTree_fits_uuid (some u) (fun x h => by cases h; exact hu) b hb
  have hbs : bs ⟨0, some u⟩ = 1024 := rfl
  have hl : (volume ⟨0, some u⟩ (sampleTree b) ++ rest).length < 2 ^ 57 := by
    rw [List.length_append, MkfsLemmas.length_volume hf.sizes]
    have := hf.total
    rw [hbs]
    omega
  have hd' : DamagedIn ((start ⟨0, some u⟩ (sampleTree b) 0 + 1) * bs ⟨0, some u⟩)
      ((start ⟨0, some u⟩ (sampleTree b) 0 + 1) * bs ⟨0, some u⟩ + bs ⟨0, some u⟩)
      (volume ⟨0, some u⟩ (sampleTree b) ++ rest) c := by
    rw [hbs, Nat.add_mul]
    exact hd
  have hD := directoriesDamaged_one (i := 0) (j := 1) (t := sampleTree b) ⟨_, rfl, by simp, rfl⟩ hd'
  have e0 : blocks ⟨0, some u⟩ (.dir [([100], 1), ([102], 2)]) = 2 := (MkfsLemmas.blocks_dir _ (by simp)).2
  have hs1 : start ⟨0, some u⟩ (sampleTree b) 1 = start ⟨0, some u⟩ (sampleTree b) 0 + 2 := by
    unfold start sampleTree
    rw [List.map_cons, e0]
    simp
  have hbad := damagedBlock_one (t := sampleTree b) hd'
  have b00 := hbad 0 0
  have b01 := hbad 0 1
  have b10 := hbad 1 0
  rw [hs1] at b10
  have hlc : c.length < 2 ^ 57 := by rw [hD.length]; exact hl
  refine ⟨hD, ?_⟩
  obtain ⟨N1, h1⟩ := C134_reads ⟨0, some u⟩ rfl (sampleTree b) hf rest c hD hlc [[100], [103]]
  obtain ⟨N2, h2⟩ := C134_reads ⟨0, some u⟩ rfl (sampleTree b) hf rest c hD hlc [[102]]
  obtain ⟨N3, h3⟩ := C123_reads ⟨0, some u⟩ (sampleTree b) hf rest hl [[102]]
  generalize damagedBlock ⟨0, some u⟩ (sampleTree b) (volume ⟨0, some u⟩ (sampleTree b) ++ rest) c = bad at *
  have b00 : bad 0 0 = false := by rw [b00]; simp
  have b01 : bad 0 1 = true := by rw [b01]; simp
  have b10 : bad 1 0 = false := by rw [b10]; simp
  have r1 : atPathDamaged (sampleTree b) bad 0 [[100], [103]] = .ok (.content b) := by
    simp [atPathDamaged, sampleTree, atPath, List.zipIdx_cons, b00, b10]
  have r2 : atPathDamaged (sampleTree b) bad 0 [[102]] = .err .invalidData := by
    simp [atPathDamaged, sampleTree, List.zipIdx_cons, b00, b01]
  have r3 : atPath (sampleTree b) 0 [[102]] = .content b := by
    simp [sampleTree, atPath]
  refine ⟨max N1 (max N2 N3), fun rounds hr => ⟨?_, ?_, ?_⟩⟩
  · rcases h1 InMemory.seekableVolume (.inl rfl) () (InMemory.new c 512) trivial rfl rounds with h | ⟨h, -⟩ | ⟨h, -⟩
    · rw [h, r1]
    · exact h.elim
    · omega
  · rcases h2 InMemory.seekableVolume (.inl rfl) () (InMemory.new c 512) trivial rfl rounds with h | ⟨h, -⟩ | ⟨h, -⟩
    · rw [h, r2]
    · exact h.elim
    · omega
  · rcases h3 InMemory.seekableVolume (.inl rfl) () (InMemory.new _ 512) trivial rfl rounds with h | ⟨h, -⟩ | ⟨h, -⟩
    · rw [h, r3]
    · exact h.elim
    · omega

/-- C134: such damage is possible at each byte of the block. -/
theorem C134_case_exists (u : Nat) (hu : u < 256 ^ 16) (b rest : Bytes) (hb : b.length ≤ 2 ^ 24) (o : Nat)
    (ho : o < 1024) :
    ∃ c, DamagedIn (start ⟨0, some u⟩ (sampleTree b) 0 * 1024 + 1024)
      (start ⟨0, some u⟩ (sampleTree b) 0 * 1024 + 2048) (volume ⟨0, some u⟩ (sampleTree b) ++ rest) c ∧
      c[start ⟨0, some u⟩ (sampleTree b) 0 * 1024 + 1024 + o]? ≠
        (volume ⟨0, some u⟩ (sampleTree b) ++ rest)[start ⟨0, some u⟩ (sampleTree b) 0 * 1024 + 1024 + o]? := by
  have hf := sampleTree_fits_uuid (some u) (fun x h => by cases h; exact hu) b hb
  have hin := MkfsLemmas.inside_volume (c := volume ⟨0, some u⟩ (sampleTree b) ++ rest) rfl hf 0 _ rfl 1 (by
    rw [(MkfsLemmas.blocks_dir _ (by simp)).2]; simp)
  have hbs : bs ⟨0, some u⟩ = 1024 := rfl
  unfold BlockInside at hin
  rw [hbs, Nat.add_mul] at hin
  clear hf hbs
  generalize volume ⟨0, some u⟩ (sampleTree b) ++ rest = a at hin ⊢
  generalize start ⟨0, some u⟩ (sampleTree b) 0 = q at hin ⊢
  obtain ⟨p, hp⟩ : ∃ p, p = q * 1024 := ⟨_, rfl⟩
  rw [← hp] at hin ⊢
  have hlt : p + 1024 + o < a.length := by omega
  have hne : a[p + 1024 + o] ≠ if a[p + 1024 + o] = 0 then 1 else 0 := by
    intro h
    split at h
    · rename_i h0
      rw [h0] at h
      exact absurd h (by decide)
    · rename_i h0
      exact h0 h
  refine ⟨_, ⟨a.take (p + 1024 + o), [a[p + 1024 + o]], [if a[p + 1024 + o] = 0 then 1 else 0],
    a.drop (p + 1024 + o + 1), ?_, rfl, rfl, by simp, ?_, ?_, ?_⟩, ?_⟩
  · rw [List.append_assoc, List.singleton_append, List.getElem_cons_drop, List.take_append_drop]
  · exact fun h => hne (List.cons.inj h).1
  · rw [List.length_take]; omega
  · rw [List.length_take, List.length_singleton]; omega
  · have hl : (a.take (p + 1024 + o)).length = p + 1024 + o := by rw [List.length_take]; omega
    rw [List.append_assoc, List.getElem?_append_right (by omega), hl, Nat.sub_self, List.getElem?_eq_getElem hlt]
    intro h
    exact hne (Option.some.inj h).symm

/-! ### Without checksums -/

/-- One entry "f" for one of two files. -/
def forked (i : Nat) : List Node := [.dir [([102], i)], .file [1], .file [2]]

theorem forked_fits (i : Nat) (hi : i < 3) : Fits 0 (forked i) := by
  have e0 : blocks 0 (.dir [([102], i)]) = 1 := (MkfsLemmas.blocks_dir _ (by simp)).2
  have e1 : blocks 0 (.file [1]) = 1 := rfl
  have e2 : blocks 0 (.file [2]) = 1 := rfl
  refine ⟨by simp [forked], Nat.zero_le _, fun _ h => (by cases h), by simp [forked], ?_, ?_, ?_⟩
  · intro es he e hm
    simp only [forked, List.mem_cons, List.not_mem_nil, or_false, Node.dir.injEq, reduceCtorEq] at he
    subst he
    simp only [List.mem_cons, List.not_mem_nil, or_false] at hm
    subst hm
    exact ⟨by simp, by simp, by simpa [forked] using hi⟩
  · intro nd hn
    simp only [forked, List.mem_cons, List.not_mem_nil, or_false] at hn
    rcases hn with rfl | rfl | rfl <;> omega
  · unfold total start tableBlocks firstData forked
    rw [List.map_cons, List.map_cons, List.map_cons, e0, e1, e2]
    simp only [List.length_cons, List.length_nil, List.map_nil, List.take_succ_cons, List.take_zero, List.sum_cons,
      List.sum_nil]
    decide

set_option maxRecDepth 100000 in
theorem forked_volumes : volume 0 (forked 1) = (volume 0 (forked 1)).take 4096 ++ [3] ++ (volume 0 (forked 1)).drop 4097 ∧
    volume 0 (forked 2) = (volume 0 (forked 1)).take 4096 ++ [4] ++ (volume 0 (forked 1)).drop 4097 ∧
    ((volume 0 (forked 1)).take 4096).length = 4096 ∧ start 0 (forked 1) 0 = 4 := by
  decide +kernel

/-- C134: checksums are needed.  Without them one byte of a block of a directory can be changed so that a path leads
to another file, and there is no error. -/
theorem C134_without_checksums [Build] :
    DirectoriesDamaged 0 (forked 1) (volume 0 (forked 1)) (volume 0 (forked 2)) ∧
    atPath (forked 1) 0 [[102]] = .content [1] ∧
    ∃ N, ∀ rounds, N ≤ rounds →
      (readPath InMemory.streamDev rounds (InMemory.new (volume 0 (forked 2)) 512) [[102]] ()).2 =
        .ok (.content [2]) := by
  obtain ⟨h1, h2, h3, h4⟩ := forked_volumes
  refine ⟨?_, by simp [atPath, forked], ?_⟩
  · refine directoriesDamaged_one (i := 0) (j := 0) (x := 4) ⟨_, rfl, by simp, h4.symm⟩
      ⟨_, _, _, _, h1, h2, rfl, by simp, by decide, ?_, ?_⟩
    · rw [h3]; exact Nat.le_refl 4096
    · rw [h3]; exact (by decide : 4096 + 1 ≤ 4 * (1024 * 2 ^ 0) + 1024 * 2 ^ 0)
  · have hf := forked_fits 2 (by omega)
    have hl : (volume 0 (forked 2) ++ []).length < 2 ^ 57 := by
      rw [List.append_nil, MkfsLemmas.length_volume hf.sizes]
      have h5 := hf.total
      have h6 : bs 0 = 1024 := rfl
      clear h1 h2 h3 h4
      rw [h6]
      generalize total 0 (forked 2) = n at h5 ⊢
      omega
    obtain ⟨N, h⟩ := C123_reads 0 (forked 2) hf [] hl [[102]]
    rw [List.append_nil] at h
    clear h1 h2 h3 h4 hl hf
    generalize volume 0 (forked 2) = v at h ⊢
    refine ⟨N, fun rounds hr => ?_⟩
    rcases h InMemory.seekableVolume (.inl rfl) () (InMemory.new v 512) trivial rfl rounds with h | ⟨h, -⟩ | ⟨h, -⟩
    · rw [h]
      simp [atPath, forked]
    · exact h.elim
    · omega

end MdRecover
