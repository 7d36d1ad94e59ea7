import Verif.Lemmas.Mkfs
import Verif.Lemmas.Ext4Path
import Verif.Props.Ext4Damage
import Verif.Spec.DirDamage

namespace MdRecover
open MdSpec Mkfs

namespace MkfsLemmas
variable {k : Form} {t : List Node} {a c tail : Bytes}

theorem start_lt {i i' : Nat} {nd : Node} (hi : t[i]? = some nd) (h : i < i') :
    start k t i + blocks k nd ≤ start k t i' := by
  unfold start
  have h1 : ((t.map (blocks k)).take (i + 1)).sum = ((t.map (blocks k)).take i).sum + blocks k nd := by
    rw [List.take_add_one, List.sum_append]
    simp [hi]
  have h2 : ((t.map (blocks k)).take (i + 1)) = ((t.map (blocks k)).take i').take (i + 1) := by
    rw [List.take_take, Nat.min_eq_left (by omega)]
  have h3 := List.take_append_drop (i + 1) ((t.map (blocks k)).take i')
  have h4 := congrArg List.sum h3
  rw [List.sum_append, ← h2, h1] at h4
  omega

/-- A block belongs to one file or directory. -/
theorem start_inj {i i' j j' : Nat} {nd nd' : Node} (hi : t[i]? = some nd) (hi' : t[i']? = some nd')
    (hj : j < blocks k nd) (hj' : j' < blocks k nd') (h : start k t i + j = start k t i' + j') : i = i' := by
  rcases Nat.lt_trichotomy i i' with hlt | heq | hgt
  · have := start_lt (k := k) hi hlt
    omega
  · exact heq
  · have := start_lt (k := k) hi' hgt
    omega

section
variable (ha : a = volume k t ++ tail) (hf : Fits k t) (hd : DirectoriesDamaged k t a c)
include ha hf hd

omit ha hf in
/-- A block that belongs to no directory is as it was. -/
theorem block_same {x : Nat} (hx : ∀ i j, ¬ DirectoryBlock k t i j x) : blockOf c (bs k) x = blockOf a (bs k) x := by
  rcases hd.blocks x with h | ⟨⟨i, j, h⟩, -⟩
  · exact h
  · exact absurd h (hx i j)

omit ha hf in
/-- Everything before the files and directories is as it was. -/
theorem head_same {o n : Nat} (h : o + n ≤ (firstData k + 2 + tableBlocks k t) * bs k) :
    slice c o n = slice a o n := by
  have h1 : c.take ((firstData k + 2 + tableBlocks k t) * bs k) = a.take ((firstData k + 2 + tableBlocks k t) * bs k) := by
    rw [← flatMap_slices, ← flatMap_slices, List.flatMap_def, List.flatMap_def]
    congr 1
    refine List.map_congr_left fun x hx => ?_
    rw [List.mem_range] at hx
    refine block_same hd (x := x) fun i j => ?_
    rintro ⟨es, -, -, rfl⟩
    unfold start at hx
    omega
  have h2 : ∀ b : Bytes, slice b o n = slice (b.take ((firstData k + 2 + tableBlocks k t) * bs k)) o n := by
    intro b
    unfold slice
    rw [List.drop_take, List.take_take, Nat.min_eq_left (by omega)]
  rw [h2 c, h2 a, h1]

omit ha hf in
theorem sb_same : sbOf c = sbOf a := by
  refine head_same hd (o := 1024) (n := 1024) ?_
  have hh := header_fits (k := k) (t := t)
  rw [List.length_append, zeros_len, length_superblock] at hh
  have : (firstData k + 1) * bs k ≤ (firstData k + 2 + tableBlocks k t) * bs k := Nat.mul_le_mul_right _ (by omega)
  omega

theorem openable_damaged : Ext4Openable c := by
  have h := openable_volume ha hf
  have hs := sb_same hd
  have hl := hd.length
  exact ⟨by rw [hl]; exact h.long, by rw [hs]; exact h.readable, by rw [hs, hl]; exact h.fits⟩

theorem table_same (g : Nat) (hg : g = 0) : inodeTableOf c g = inodeTableOf a g := by
  subst hg
  have hs := sb_same hd
  have : descriptorOf c 0 = descriptorOf a 0 := by
    unfold descriptorOf
    rw [hs, groupTable_volume ha hf, (values_volume ha hf).descSize]
    refine head_same hd ?_
    have hb := bs_pos (k := k)
    have : (firstData k + 1 + 1) * bs k ≤ (firstData k + 2 + tableBlocks k t) * bs k :=
      Nat.mul_le_mul_right _ (by omega)
    rw [Nat.add_mul _ 1] at this
    omega
  unfold inodeTableOf
  rw [this]

theorem slot_same {i : Nat} (hi : i < t.length) : inodeSlot c (i + 2) = inodeSlot a (i + 2) := by
  have hs := sb_same hd
  have hv := values_volume ha hf
  have h := inodes_lt hf
  unfold inodeSlot
  rw [hs, hv.inodesPerGroup, table_same ha hf hd _ (Nat.div_eq_of_lt (by omega))]

theorem inode_same {i : Nat} (hi : i < t.length) : inodeBytes c (i + 2) = inodeBytes a (i + 2) := by
  have hs := sb_same hd
  unfold inodeBytes
  rw [hs, slot_same ha hf hd hi]
  refine head_same hd ?_
  rw [inodeSlot_volume ha hf i hi, (values_volume ha hf).inodeSize]
  have ht := table_fits hf.sizes
  rw [length_table hf.sizes] at ht
  rw [Nat.add_mul (firstData k + 2)]
  omega

theorem readable_same {i : Nat} (hi : i < t.length) (h : InodeReadable a (i + 2)) : InodeReadable c (i + 2) := by
  have hs := sb_same hd
  have hb := inode_same ha hf hd hi
  have hsl := slot_same ha hf hd hi
  exact ⟨h.pos, by rw [hs]; exact h.le, by rw [hs]; exact h.group, by rw [hs, hsl, hd.length]; exact h.inside,
    by rw [hb]; exact h.extra, by rw [hb]; exact h.length⟩

/-- What the inodes say is as it was. -/
theorem inode_damaged {i : Nat} {nd : Node} (hi : t[i]? = some nd) :
    InodeReadable c (i + 2) ∧ typeNumber c (i + 2) = mode nd / 2 ^ 12 ∧ hasExtents c (i + 2) ∧
    ¬ flagBit c (i + 2) 12 ∧ MdSpec.sizeOf c (i + 2) = size k nd ∧
    rootNode c (i + 2) = extentRoot (start k t i) (blocks k nd) := by
  obtain ⟨h1, h2, h3, h4, h5, h6⟩ := inode_volume ha hf i nd hi
  have hlt : i < t.length := (List.getElem?_eq_some_iff.mp hi).1
  have hb := inode_same ha hf hd hlt
  refine ⟨readable_same ha hf hd hlt h1, ?_, ?_, ?_, ?_, ?_⟩
  · unfold typeNumber at h2 ⊢; rw [hb]; exact h2
  · unfold hasExtents flagBit at h3 ⊢; rw [hb]; exact h3
  · unfold flagBit at h4 ⊢; rw [hb]; exact h4
  · unfold MdSpec.sizeOf at h5 ⊢; rw [hb]; exact h5
  · unfold rootNode at h6 ⊢; rw [hb]; exact h6

theorem blockSize_damaged : blockSizeOf (sbOf c) = bs k := by
  rw [sb_same hd]
  exact blockSize_volume ha hf

theorem blocks_damaged {i : Nat} {nd : Node} (hi : t[i]? = some nd) :
    Contiguous c (bs k) (rootNode c (i + 2)) 0 0 ((List.range (blocks k nd)).map (start k t i + ·)) ∧
    (∀ x ∈ (List.range (blocks k nd)).map (start k t i + ·), BlockInside c (bs k) x) := by
  have hb := hf.sizes nd (List.mem_of_getElem? hi)
  have hs := start_add ha hf i nd hi
  have ht := hf.total
  refine ⟨?_, ?_⟩
  · rw [(inode_damaged ha hf hd hi).2.2.2.2.2]
    have := contiguous_root c (bs k) (start k t i) (blocks k nd) (by omega) hb _ 0 (Nat.zero_add _)
    simpa using this
  · intro x hx
    simp only [List.mem_map, List.mem_range] at hx
    obtain ⟨j, hj, rfl⟩ := hx
    unfold BlockInside
    rw [hd.length]
    exact inside_volume ha hf i nd hi j hj

/-- Files are as they were. -/
theorem file_damaged {i : Nat} {b : Bytes} (hi : t[i]? = some (.file b)) : FileAt c (i + 2) b := by
  obtain ⟨h1, h2, h3, h4, h5, -⟩ := inode_damaged ha hf hd hi
  obtain ⟨b1, b2⟩ := blocks_damaged ha hf hd hi
  have b3 := (blocks_volume ha hf i _ hi).2.2
  have hb := hf.sizes _ (List.mem_of_getElem? hi)
  have hh := blocks_hold (k := k) (.file b)
  have hbz := blockSize_damaged ha hf hd
  have hsame : ((List.range (blocks k (.file b))).map (start k t i + ·)).flatMap (blockOf c (bs k)) =
      ((List.range (blocks k (.file b))).map (start k t i + ·)).flatMap (blockOf a (bs k)) := by
    rw [List.flatMap_def, List.flatMap_def]
    congr 1
    refine List.map_congr_left fun x hx => ?_
    simp only [List.mem_map, List.mem_range] at hx
    obtain ⟨j, hj, rfl⟩ := hx
    refine block_same hd fun i' j' => ?_
    rintro ⟨es, g1, g2, g3⟩
    have := start_inj (k := k) hi g1 hj (by rw [(length_dir hf i' es g1).2]; exact g2) g3
    subst this
    rw [hi] at g1
    cases g1
  refine ⟨h1, h2.trans (mode_file b), h3, _, by rw [hbz]; exact b1, by rw [hbz]; exact b2, ?_, ?_, ?_, ?_⟩
  · rw [List.length_map, List.length_range]; omega
  · rw [List.length_map, List.length_range, hbz, h5]; exact hh.1
  · intro _
    rw [List.length_map, List.length_range, hbz, h5]
    exact hh.2
  · rw [hbz, hsame, b3, h5]
    unfold padTo
    exact List.take_left.symm

theorem seed_damaged {i : Nat} {nd : Node} (hi : t[i]? = some nd) : InodeSeed c (i + 2) (seedOf k i) := by
  have h := seed_volume ha hf i nd hi
  have hlt : i < t.length := (List.getElem?_eq_some_iff.mp hi).1
  unfold InodeSeed HasChecksums VolumeSeed at h ⊢
  rw [sb_same hd, inode_same ha hf hd hlt]
  exact h

/-- What the calls return for an entry of a directory. -/
def result (k : Form) (bad : Bool) (e : Bytes × Nat) : Res (Option DirEntry) :=
  if bad then .err .invalidData else .ok (some ⟨record k e⟩)

/-- What the blocks of a directory give. -/
theorem results_damaged (hu : k.uuid.isSome) {i : Nat} {es : List (Bytes × Nat)} (hi : t[i]? = some (.dir es)) :
    List.Forall₂ (fun x rs => BlockResults (seedOf k i) (blockOf c (bs k) x) rs)
      ((List.range (blocks k (.dir es))).map (start k t i + ·))
      (es.zipIdx.map fun e => [result k (damagedBlock k t a c i e.2) e.1]) := by
  obtain ⟨-, hsound⟩ := entries_volume ha hf i es hi
  obtain ⟨-, hn⟩ := length_dir hf i es hi
  rw [List.forall₂_iff_get] at hsound ⊢
  obtain ⟨-, hsound⟩ := hsound
  refine ⟨by simp [hn], fun j hj1 hj2 => ?_⟩
  have hj : j < es.length := by simpa using hj2
  have h := hsound j hj1 (by simpa using hj)
  simp only [List.get_eq_getElem, List.getElem_map, List.getElem_range, List.getElem_zipIdx, Nat.zero_add] at h ⊢
  unfold damagedBlock result
  rcases hd.blocks (start k t i + j) with hs | ⟨-, hdam⟩
  · rw [hs, bne_self_eq_false]
    exact .inl ⟨h.1, _, h.2, rfl⟩
  · obtain ⟨u, hu⟩ := Option.isSome_iff_exists.1 hu
    have hseed : seedOf k i = some (seed u i).toNat := by unfold seedOf; rw [hu]; rfl
    obtain ⟨front, w, v, rest, g1, g2, g3, g4, g5, -⟩ := hdam
    have hne : blockOf c (bs k) (start k t i + j) ≠ blockOf a (bs k) (start k t i + j) := by
      rw [g1, g2]
      intro he
      rw [List.append_assoc, List.append_assoc] at he
      exact g5 (List.append_inj_left (List.append_cancel_left he) g3.symm).symm
    rw [bne_iff_ne.2 hne, if_pos rfl]
    refine .inr ⟨?_, rfl⟩
    have hs := h.1
    rw [hseed, g1] at hs
    rw [hseed, g2]
    exact C71_corruption _ front w v rest g4 g3 g5 hs

end
end MkfsLemmas

section
variable [Build] {W D : Type} {dev : StreamDev W D} {G : W → Prop} {Is : D → Bytes → Prop}
  {At : W → D → Nat → Prop}

/-- What looking for a name gives, from what the calls return. -/
def scan (name : Bytes) : List (Res (Option DirEntry)) → Res (Option Nat)
  | [] => .ok none
  | .ok (some e) :: rs => if Wanted name e then .ok (some e.inode) else scan name rs
  | .ok none :: _ => .ok none
  | .err e :: _ => .err e
  | .panic :: _ => .panic

theorem lookUp_scan (hv : VolumeSpec False dev G Is At) {c : Bytes} (hc : c.length < U64) {i : Inode}
    {name : Bytes} :
    ∀ (rs : List (Res (Option DirEntry))) (s : W × Ext4Directory D), Ext4Directory.Left Is G c i s rs →
      ∃ s' N, G s'.1 ∧ ∀ rounds, N ≤ rounds → ∀ k, rs.length < k →
        lookUp dev rounds name k s = (s', some <$> scan name rs) := by
  intro rs
  induction rs with
  | nil =>
    intro s hl
    obtain ⟨s', N, hG, h⟩ := lookUp_missing hv hc (name := name) [] s (by simp) hl
    exact ⟨s', N, hG, h⟩
  | cons r rs ih =>
    intro s hl
    obtain ⟨s1, r', h1, h0, h2, h3⟩ := Ext4Directory.call_gives hv hc hl
    rw [show r' = r from h0] at h1 h2
    rw [List.tail_cons] at h3
    obtain ⟨N1, h4⟩ := Ext4Directory.entryReturns_enough h1
    have hk : ∀ k, (r :: rs).length < k → ∃ j, k = j + 1 ∧ rs.length < j := fun k h => by
      rw [List.length_cons] at h
      exact ⟨k - 1, by omega, by omega⟩
    rcases r with (_ | e) | e | _
    · refine ⟨s1, N1, left_good h3, fun rounds hr k h => ?_⟩
      obtain ⟨j, rfl, -⟩ := hk k h
      exact lookUp_entry (o := none) (h4 rounds hr)
    · by_cases hw : Wanted name e
      · refine ⟨s1, N1, left_good h3, fun rounds hr k h => ?_⟩
        obtain ⟨j, rfl, -⟩ := hk k h
        rw [lookUp_entry (o := some e) (h4 rounds hr), scan, if_pos hw]
        exact if_pos hw
      · obtain ⟨s', N, hG, h5⟩ := ih s1 h3
        refine ⟨s', N1 + N, hG, fun rounds hr k h => ?_⟩
        obtain ⟨j, rfl, hj⟩ := hk k h
        rw [lookUp_entry (o := some e) (h4 rounds (by omega)), scan, if_neg hw, ← h5 rounds (by omega) j hj]
        exact if_neg hw
    · refine ⟨s1, N1, left_good h3, fun rounds hr k h => ?_⟩
      obtain ⟨j, rfl, -⟩ := hk k h
      rw [lookUp]
      exact SM.bind_err _ (h4 rounds hr)
    · exact absurd rfl h2

namespace MkfsLemmas
variable {k : Form} {t : List Node} {a c tail : Bytes}
variable (ha : a = volume k t ++ tail) (hf : Fits k t) (hd : DirectoriesDamaged k t a c)
include ha hf hd

/-- A damaged directory just opened. -/
theorem left_damaged (hv : VolumeSpec False dev G Is At) (hc : c.length < U64) (hu : k.uuid.isSome) {w : W}
    {fs : Ext4Fs D} (hG : G w) (ho : Opened Is c fs) {n : Nat} {es : List (Bytes × Nat)}
    (hn : t[n]? = some (.dir es)) :
    ∃ w' fs' d i, Ext4Fs.openFile dev (n + 2) (w, fs) = ((w', fs'), .ok (.directory d)) ∧ Opened Is c fs' ∧
      Ext4Directory.Left Is G c i (w', d) (es.zipIdx.map fun e => result k (damagedBlock k t a c n e.2) e.1) := by
  obtain ⟨r1, r2, r3, r4, r5, -⟩ := inode_damaged ha hf hd hn
  obtain ⟨hx, hin⟩ := blocks_damaged ha hf hd hn
  have hres := results_damaged ha hf hd hu hn
  have hbz := blockSize_damaged ha hf hd
  obtain ⟨hlen, hbl⟩ := length_dir hf n es hn
  have hb := hf.sizes _ (List.mem_of_getElem? hn)
  have hseed := seed_damaged ha hf hd hn
  have hsize : MdSpec.sizeOf c (n + 2) =
      ((List.range (blocks k (.dir es))).map (start k t n + ·)).length * blockSizeOf (sbOf c) := by
    rw [List.length_map, List.length_range, hbz, r5, hbl, hlen]
  have h32 : ((List.range (blocks k (.dir es))).map (start k t n + ·)).length < U32 := by
    rw [List.length_map, List.length_range]
    show _ < 2 ^ 32
    omega
  rw [← hbz] at hx hin hres
  generalize (List.range (blocks k (.dir es))).map (start k t n + ·) = xs at *
  obtain ⟨w', fs', r, h1, hG', ho', -, -, h2, -⟩ := C75_outcome hv c hc w fs hG ho (n + 2) r1
  obtain ⟨d, rfl⟩ := h2 (r2.trans (mode_dir es)) r4 r3
  obtain ⟨-, -, -, -, -, i, fs2, hi, ho2, -, -, -, h3⟩ := C75_success hv c w w' fs fs' hG ho (n + 2) _ h1
  obtain ⟨-, -, k1, -, -, -, -, -, k2, -⟩ := C60_fields _ _ _ i hi
  have k1 : i.fileSizeBytes = MdSpec.sizeOf c (n + 2) := k1
  have k2 : i.blocksBuffer = rootNode c (n + 2) := k2
  have k3 := inodeSeed_eq ho.superblock hi hseed
  obtain ⟨hinv, g1, g2, g3⟩ := Ext4Directory.open_inv (w := w') hG' ho2 h3 (fun _ => True) trivial
    (.inr (by rw [k1, hsize]; exact Nat.mul_le_mul_right _ (by omega)))
  have hpen : Ext4File.Pending c (blockSizeOf (sbOf c)) d.internal.stack 0 xs := by
    rw [g3, ← List.append_nil xs]
    refine .tree _ _ _ _ _ _ ?_ (.nil _)
    show Contiguous c _ i.blocksBuffer 0 0 xs
    rw [k2]
    exact hx
  refine ⟨w', fs', d, i, h1, ho', 0, xs, [], _,
    ⟨hinv.file, g2, hpen, by rw [Nat.zero_add, k1]; exact hsize, by rw [Nat.zero_add]; exact h32, hin⟩,
    .inl ⟨g1, rfl⟩, by rw [k3]; exact hres, ?_⟩
  rw [List.map_nil, List.nil_append]
  generalize es.zipIdx = l
  induction l with
  | nil => rfl
  | cons e l ih => rw [List.map_cons, List.map_cons, List.flatten_cons, ← ih]; rfl

omit ha hd [Build] in
/-- Looking for a name in a damaged directory. -/
theorem scan_damaged {n : Nat} {es : List (Bytes × Nat)} (hn : t[n]? = some (.dir es)) (name : Bytes)
    (bad : Nat → Bool) : ∀ l : List ((Bytes × Nat) × Nat), (∀ e ∈ l, e.1 ∈ es) →
    scan name (l.map fun e => result k (bad e.2) e.1) =
      match l.find? (fun e => bad e.2 || e.1.1 == name) with
      | some e => if bad e.2 then .err .invalidData else .ok (some (e.1.2 + 2))
      | none => .ok none := by
  intro l
  induction l with
  | nil => exact fun _ => rfl
  | cons e l ih =>
    intro hm
    have ih := ih fun x hx => hm x (List.mem_cons_of_mem _ hx)
    obtain ⟨v1, v2, v3, v4, v5⟩ := entry_values hf es (List.mem_of_getElem? hn) e.1 (hm e List.mem_cons_self)
    rw [List.map_cons]
    by_cases hb : bad e.2 = true
    · rw [List.find?_cons_of_pos (by simp [hb]), result, if_pos hb]
      simp only [if_pos hb]
      rfl
    · rw [result, if_neg hb, scan]
      have hw : Wanted name ⟨record k e.1⟩ ↔ e.1.1 = name := by
        rw [wanted_iff v2 fun _ => v5]
        unfold Names
        rw [v3, v4]
        exact ⟨fun h => h.2, fun h => ⟨by omega, h⟩⟩
      by_cases he : e.1.1 = name
      · rw [List.find?_cons_of_pos (by simp [he]), if_pos (hw.2 he), entry_inode, v3]
        simp only [if_neg hb]
      · rw [List.find?_cons_of_neg (by simp [he, hb]), if_neg (fun h => he (hw.1 h))]
        exact ih

/-- Following a path on the damaged volume. -/
theorem follow_damaged (hv : VolumeSpec False dev G Is At) (hc : c.length < U64) (hu : k.uuid.isSome)
    (names : List Bytes) : ∀ {n : Nat} {w : W} {fs : Ext4Fs D}, n < t.length → G w → Opened Is c fs →
      ∃ N, ∀ rounds, N ≤ rounds → (follow dev rounds names (n + 2) (w, fs)).2 =
        atPathDamaged t (damagedBlock k t a c) n names := by
  induction names with
  | nil =>
    intro n w fs hn hG ho
    have hi : t[n]? = some t[n] := List.getElem?_eq_getElem hn
    obtain ⟨h1, h2, h3, h4, -⟩ := inode_damaged ha hf hd hi
    unfold atPathDamaged atPath
    rw [hi]
    rcases hnd : t[n] with b | es
    · rw [hnd] at hi
      obtain ⟨s', N, h⟩ := follow_file hv hc hG ho (file_damaged ha hf hd hi)
      exact ⟨N, fun rounds hr => by rw [h rounds hr]⟩
    · rw [hnd] at h2
      rw [mode_dir] at h2
      obtain ⟨w2, fs2, r, g, -, -, -, -, k4, -⟩ := C75_outcome hv c hc w fs hG ho (n + 2) h1
      obtain ⟨f, rfl⟩ := k4 h2 h4 h3
      refine ⟨0, fun rounds _ => ?_⟩
      rw [follow, SM.bind_ok (h := g)]
      rfl
  | cons name names ih =>
    intro n w fs hn hG ho
    have hi : t[n]? = some t[n] := List.getElem?_eq_getElem hn
    obtain ⟨h1, h2, h3, h4, -⟩ := inode_damaged ha hf hd hi
    rw [atPathDamaged, hi]
    rcases hnd : t[n] with b | es
    · rw [hnd] at h2
      rw [mode_file] at h2
      obtain ⟨w2, fs2, r, g, -, -, k8, -⟩ := C75_outcome hv c hc w fs hG ho (n + 2) h1
      obtain ⟨f, rfl⟩ := k8 h2 h3
      refine ⟨0, fun rounds _ => ?_⟩
      rw [follow, SM.bind_ok (h := g)]
      rfl
    · rw [hnd] at hi
      obtain ⟨w1, fs1, d, i, g1, ho1, hleft⟩ := left_damaged ha hf hd hv hc hu hG ho hi
      obtain ⟨⟨w2, d2⟩, N1, hG2, g2⟩ := lookUp_scan hv hc (name := name) _ _ hleft
      rw [scan_damaged hf hi name (damagedBlock k t a c n) es.zipIdx fun e he => by
        exact List.fst_mem_of_mem_zipIdx he] at g2
      simp only
      rcases hfind : es.zipIdx.find? (fun e => damagedBlock k t a c n e.2 || e.1.1 == name) with _ | e
      · rw [hfind] at g2 ⊢
        refine ⟨N1 + (es.zipIdx.map fun e => result k (damagedBlock k t a c n e.2) e.1).length + 1,
          fun rounds hr => ?_⟩
        rw [follow, SM.bind_ok (h := g1)]
        simp only
        rw [SM.bind_ok (h := onHandle_eq fs1 (g2 rounds (by omega) rounds (by omega)))]
        rfl
      · rw [hfind] at g2 ⊢
        simp only at g2 ⊢
        by_cases hb : damagedBlock k t a c n e.2 = true
        · rw [if_pos hb] at g2 ⊢
          refine ⟨N1 + (es.zipIdx.map fun e => result k (damagedBlock k t a c n e.2) e.1).length + 1,
            fun rounds hr => ?_⟩
          rw [follow, SM.bind_ok (h := g1)]
          simp only
          rw [SM.bind_err (h := onHandle_eq fs1 (g2 rounds (by omega) rounds (by omega)))]
        · rw [if_neg hb] at g2 ⊢
          have he := List.fst_mem_of_mem_zipIdx (List.mem_of_find?_eq_some hfind)
          obtain ⟨-, -, hlt⟩ := hf.names _ (List.mem_of_getElem? hi) e.1 he
          obtain ⟨N, h⟩ := ih (w := w2) (fs := fs1) hlt hG2 ho1
          refine ⟨N1 + (es.zipIdx.map fun e => result k (damagedBlock k t a c n e.2) e.1).length + 1 + N,
            fun rounds hr => ?_⟩
          rw [follow_into g1 (g2 rounds (by omega) rounds (by omega))]
          exact h rounds (by omega)

end MkfsLemmas
end
end MdRecover
