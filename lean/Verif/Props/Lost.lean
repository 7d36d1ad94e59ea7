import Verif.Lemmas.SweepFailing
import Verif.Lemmas.Elsewhere
import Verif.Props.Elsewhere
import Verif.Props.PathFound
import Verif.Spec.Lost

/-! C138: what a device never returns has no influence, and blocks what lies behind it. -/

namespace MdRecover
open MdSpec Fixture

section
variable [Build] {W D : Type} {F : Prop} {dev : StreamDev W D} {G : W → Prop} {Is : D → Bytes → Prop}
  {At : W → D → Nat → Prop} {lost : Nat → Prop} {c : Bytes}

omit [Build] in
/-- C138: a device that never returns the bytes of some places is as well a device with anything else in these places:
whatever is shown of all devices with a content holds of it for all contents that differ there only. -/
theorem C138_any (hv : VolumeSpec F dev G Is At) (hl : Withholds lost dev G Is At) :
    VolumeSpec F dev G (fun d c' => ∃ c, Is d c ∧ SameExcept lost c c') At where
  seek := by
    rintro w d c' hG ⟨c, hI, hs⟩ p hp w' d' r h
    obtain ⟨h1, h2, h3⟩ := hv.seek hG hI p hp h
    refine ⟨h1, ⟨c, h2, hs⟩, ?_⟩
    rw [hs.1]
    exact h3
  read := by
    rintro w d c' p hG ⟨c, hI, hs⟩ hA buf w' d' r h
    obtain ⟨h1, h2, h3⟩ := hv.read hG hI hA buf h
    refine ⟨h1, ⟨c, h2, hs⟩, ?_⟩
    rcases h3 with ⟨j, buf', p', rfl, hr, hA'⟩ | h3
    · refine .inl ⟨j, buf', p', rfl, ⟨hr.le, hr.moved, ?_, by rw [hs.1]; exact hr.inside, by rw [hs.1]; exact hr.zero⟩, hA'⟩
      rw [hr.data]
      congr 1
      refine (hs.slice fun y y1 y2 _ => hl hG hI hA buf h y y1 y2).symm
    · exact .inr h3
  tryClone := by
    rintro w d c' hG ⟨c, hI, hs⟩ w' r h
    obtain ⟨h1, h2⟩ := hv.tryClone hG hI h
    refine ⟨h1, ?_⟩
    rcases h2 with ⟨d', rfl, h2⟩ | h2
    · exact .inl ⟨d', rfl, c, h2, hs⟩
    · exact .inr h2

omit [Build] in
/-- What is opened is opened as well on the changed content. -/
theorem opened_lost {y : Nat} {c' : Bytes} (hs : SameExcept (· = y) c c') (hy : lost y) (hf : FsIntact (· = y) c)
    {fs : Ext4Fs D} (ho : Opened Is c fs) : Opened (fun d c' => ∃ c, Is d c ∧ SameExcept lost c c') c' fs := by
  have hsb := Elsewhere.sb hs hf
  refine ⟨⟨c, ho.device, hs.1, fun x hx => hs.2 x fun h => hx (by rw [h]; exact hy)⟩, by rw [hs.1]; exact ho.long,
    by rw [hsb]; exact ho.readable, by rw [hsb, hs.1]; exact ho.fits, by rw [hsb]; exact ho.superblock, ?_⟩
  rw [ho.groups, hsb]
  refine List.map_congr_left fun i hi => ?_
  rw [Elsewhere.descriptor hs hf (List.mem_range.1 hi)]

omit [Build] in
theorem contiguous_lost {y bs : Nat} {c' root : Bytes} (hs : SameExcept (· = y) c c')
    (ht : ∀ node i, TreeNode c bs root node → nodeDepth node ≠ 0 → i < nodeEntries node →
      Intact (· = y) c (indexChild (nodeEntry node i) * bs) bs) {node : Bytes} {i p : Nat} {xs : List Nat}
    (h : Contiguous c bs node i p xs) (hn : TreeNode c bs root node) : Contiguous c' bs node i p xs := by
  induction h with
  | done node p => exact .done node p
  | extent node i p xs h1 h2 h3 h4 h5 _ ih => exact .extent node i p xs h1 h2 h3 h4 h5 (ih hn)
  | index node i p sub xs h1 h2 h3 h4 h5 _ _ ih1 ih2 =>
    have hb : blockOf c' bs (indexChild (nodeEntry node i)) = blockOf c bs (indexChild (nodeEntry node i)) :=
      hs.slice (ht node i hn h1 h2)
    refine .index node i p sub xs h1 h2 h3 h4 (by unfold BlockInside at *; rw [hs.1]; exact h5) ?_ (ih2 hn)
    rw [hb]
    exact ih1 (.child node i hn h1 h2 h3 h5)

/-- C138, files: if a byte of a block of a file is never returned by the device, then no calls on the open file,
however many and in whatever order with failures, return data from that block or from any behind it. -/
theorem C138_file (hv : VolumeSpec F dev G Is At) (hl : Withholds lost dev G Is At) (c : Bytes) (hc : c.length < U64)
    (w : W) (hG : G w) (fs : Ext4Fs D) (ho : Opened Is c fs) (inode : Inode) (f : Ext4File D)
    (hf : Ext4File.open fs inode = .ok f) (hw : BlocksCounted c inode.fileSizeBytes) (xs : List Nat)
    (hx : Contiguous c (blockSizeOf (sbOf c)) inode.blocksBuffer 0 0 xs) (j x : Nat) (hj : xs[j]? = some x)
    (hlost : BlockLost lost c inode.blocksBuffer x) (h : List (Bytes × Res (Nat × Bytes))) (s : W × Ext4File D)
    (hcalls : Calls dev (w, f) h s) : dataCalls h ≤ j := by
  obtain ⟨y, hy, y1, y2, y3, hfs, ht⟩ := hlost
  have hs : SameExcept (· = y) c (c.set y (c[y] + 1)) :=
    ⟨List.length_set, fun z hz => List.getElem?_set_ne (fun h => hz h.symm)⟩
  have hsb := Elsewhere.sb hs hfs
  have ho' := opened_lost (lost := lost) hs hy hfs ho
  have hx' := contiguous_lost hs ht hx .root
  generalize hs0 : (w, f) = s0 at hcalls
  induction hcalls with
  | nil => exact Nat.zero_le j
  | snoc s s' h buf r hcalls hret hr ih =>
    subst hs0
    have hC : dataCalls (h ++ [(buf, r)]) = dataCalls h + dataCalls [(buf, r)] := List.countP_append
    have hnone : gotData r = false → dataCalls (h ++ [(buf, r)]) ≤ j := by
      intro hg
      have h1 : dataCalls [(buf, r)] = 0 := by
        unfold dataCalls
        simp [hg]
      omega
    have hone : dataCalls [(buf, r)] ≤ 1 := List.countP_le_length
    by_contra hlt
    have hdj : dataCalls h = j := by omega
    rcases r with ⟨n, out⟩ | e | _
    · by_cases hn : n = 0
      · exact hlt (hnone (by simp [gotData, hn]))
      obtain ⟨x1, m1, m2, m3, -⟩ := C64_right_block hv c hc w hG fs ho inode f hf hw h s s' hcalls buf out n hret hn
      obtain ⟨x2, k1, -, k3, -⟩ := C64_right_block (C138_any hv hl) _ (by rw [hs.1]; exact hc) w hG fs ho' inode f hf
        (by unfold BlocksCounted at *; rw [hsb]; exact hw) h s s' hcalls buf out n hret hn
      rw [hsb] at k1 k3
      have q1 := (contiguous_map hx m1).2
      have q2 := (contiguous_map hx' k1).2
      rw [Nat.sub_zero, hdj, hj] at q1 q2
      cases q1
      cases q2
      have hbuf : blockSizeOf (sbOf c) ≤ buf.length := by
        by_contra hb
        obtain ⟨hi, -, -, -⟩ := Ext4File.open_inv (w := w) hG ho hf (fun _ => True) trivial
        obtain ⟨hi1, -⟩ := Ext4File.calls_inv hv hc (P := fun _ => True) (fun _ _ _ _ _ _ _ => trivial) hcalls hi hw
        obtain ⟨w1, f1⟩ := s
        have := ((Ext4File.returns_short hi1.opened (by omega)).1 hret).2
        cases this
      rw [m3] at k3
      have := congrArg (fun l => l[y - x * blockSizeOf (sbOf c)]?) k3
      simp only [List.getElem?_take, List.getElem?_drop] at this
      rw [if_pos (by omega), if_pos (by omega), show x * blockSizeOf (sbOf c) + (y - x * blockSizeOf (sbOf c)) = y by omega,
        List.getElem?_set_self y3, List.getElem?_eq_getElem y3] at this
      have := Option.some.inj this
      revert this
      generalize c[y] = b
      intro h
      have h := congrArg UInt8.toNat h
      rw [UInt8.toNat_add] at h
      have := b.toNat_lt
      simp at h
      omega
    · exact hlt (hnone rfl)
    · exact hlt (hnone rfl)

/-- C138, directories: if a byte of a block of a directory is never returned by the device, then no calls on the open
directory, however many, return an entry of that block or of any behind it. -/
theorem C138_listing (hv : VolumeSpec F dev G Is At) (hl : Withholds lost dev G Is At) {c : Bytes} (hc : c.length < U64) {w : W} (hG : G w)
    {fs : Ext4Fs D} (ho : Opened Is c fs) {inode : Inode} {d : Ext4Directory D}
    (hd : Ext4Directory.open fs inode = .ok d) {xs : List Nat}
    (hx : Contiguous c (blockSizeOf (sbOf c)) inode.blocksBuffer 0 0 xs)
    (hsize : inode.fileSizeBytes = xs.length * blockSizeOf (sbOf c)) (h32 : xs.length < U32)
    {rss : List (List (Res (Option DirEntry)))}
    (hrss : List.Forall₂ (fun x rs => BlockResults inode.metadataChecksumSeed
      (blockOf c (blockSizeOf (sbOf c)) x) rs) xs rss)
    {j x : Nat} (hj : xs[j]? = some x) (hlost : BlockLost lost c inode.blocksBuffer x)
    {h : List (Res (Option DirEntry))} {s : W × Ext4Directory D} (hcalls : DirCalls dev (w, d) h s) :
    entriesAmong h <+: entriesAmong (rss.take j).flatten := by
  have hw : BlocksCounted c inode.fileSizeBytes :=
    .inr (by rw [hsize]; exact Nat.mul_le_mul_right _ (by omega))
  obtain ⟨f, hf⟩ : ∃ f, Ext4File.open fs inode = .ok f := by
    unfold Ext4Directory.open at hd
    split at hd
    · cases hd
    · rcases hf : Ext4File.open fs inode with f | e | _
      · exact ⟨f, rfl⟩
      · rw [hf] at hd; cases hd
      · rw [hf] at hd; cases hd
  obtain ⟨g, rss', s', hg, hbuf, hres, hcase⟩ :=
    C72_follows hv c hc w hG fs ho inode d hd hw f hf h s hcalls
  have h1 := reads_data hv hc hG ho hf hx hsize h32 hg hbuf
  have h2 := results_data hres _ _ (List.forall₂_take (dataCalls g) hrss) h1
  have h3 : entriesAmong (rss.take (dataCalls g)).flatten <+: entriesAmong (rss.take j).flatten := by
    refine List.IsPrefix.filterMap _ ?_
    have hle := C138_file hv hl c hc w hG fs ho inode f hf hw xs hx j x hj hlost g s' hg
    obtain ⟨u, hu⟩ := List.take_prefix (dataCalls g) (rss.take j)
    rw [List.take_take, Nat.min_eq_left hle] at hu
    exact ⟨u.flatten, by rw [← List.flatten_append, hu]⟩
  rw [← h2] at h3
  rcases hcase with ⟨-, hpre⟩ | ⟨g', x', j', -, -, -, rfl⟩
  · exact (List.IsPrefix.filterMap _ hpre).trans h3
  · rw [entriesAmong_append]
    have : entriesAmong (List.replicate j' (.ok none)) = [] := by
      unfold entriesAmong
      rw [List.filterMap_eq_nil_iff]
      intro r hr
      rw [List.eq_of_mem_replicate hr]
    rw [this, List.append_nil]
    exact h3

/-- C138, paths: what following a path gives on a device that never returns some bytes is backed (as in C112) by every
content that differs there only: whatever was found was found without these bytes. -/
theorem C138_path (hv : VolumeSpec F dev G Is At) (hl : Withholds lost dev G Is At) (c c' : Bytes)
    (hs : SameExcept lost c c') (hc : c.length < U64) (ht : TableChecked c') (hcount : AllCounted c') (w : W) (hG : G w)
    (d : D) (hd : Is d c) (names : List Bytes) (rounds : Nat) (out : Found) (hne : out ≠ .running)
    (h : (readPath dev rounds d names w).2 = .ok out) : Ext4Readable (sbOf c') ∧ Backed c' names out :=
  C112_backed (C138_any hv hl) c' (by rw [hs.1]; exact hc) ht hcount w hG d ⟨c, hd, hs⟩ names rounds out hne h

end

/-! ### A case -/

theorem blind_plain (bad : Nat → Bool) : VolumeSpec True (blind bad) (fun _ => True) (fun d c => d.mem = c)
    (fun _ d p => d.pos = p ∧ p ≤ d.mem.length) where
  seek := by
    rintro w d c hG rfl p hp w' d' r h
    obtain ⟨h1, h2, h3⟩ := InMemory.volumeSpec.seek (w := w) (d := d) (c := d.mem) trivial rfl p hp h
    exact ⟨h1, h2, h3.imp_right fun h => ⟨.inl trivial, h.2⟩⟩
  read := by
    rintro w d c p hG rfl hA buf w' d' r h
    unfold blind at h
    simp only at h
    split at h
    · obtain ⟨h1, h2, h3⟩ := InMemory.volumeSpec.read (w := w) (d := d) (c := d.mem) trivial rfl hA buf h
      exact ⟨h1, h2, h3.imp_right fun h => h.1.elim⟩
    · cases h
      exact ⟨trivial, rfl, .inr ⟨trivial, _, rfl⟩⟩
  tryClone := by
    rintro w d c hG rfl w' r h
    cases h
    exact ⟨trivial, .inl ⟨_, rfl, rfl⟩⟩

theorem blind_withholds (bad : Nat → Bool) : Withholds (fun x => bad x = true) (blind bad) (fun _ => True)
    (fun d c => d.mem = c) (fun _ d p => d.pos = p ∧ p ≤ d.mem.length) := by
  rintro w d c p hG rfl hA buf ⟨w', d'⟩ j out h y h1 h2
  unfold blind at h
  simp only at h
  split at h
  · rename_i hint
    obtain ⟨-, -, ⟨j', b', p', e, hr, -⟩ | ⟨h, -⟩⟩ :=
      InMemory.volumeSpec.read (w := w) (d := d) (c := d.mem) trivial rfl hA buf h
    · cases e
      have hle := hr.le
      have hin := hr.inside (by omega)
      have hp := hA.1
      have := hint (y - d.pos) (by omega) (by omega)
      rw [show d.pos + (y - d.pos) = y by omega] at this
      simp [this]
    · exact h.elim
  · cases h

/-- C138, a case: one byte of block 9 of the hand-made filesystem is never returned.  It is the second block of the
file of inode 3; calls return data at most once, whatever calls are made. -/
theorem C138_case [Build] (y : Nat) (h1 : 9216 ≤ y) (h2 : y < 10240) (fs : Ext4Fs InMemory)
    (ho : Opened (fun d c => d.mem = c) smallFs fs) (f : Ext4File InMemory)
    (hf : Ext4File.open fs (inodeOf smallFs 3) = .ok f) (h : List (Bytes × Res (Nat × Bytes)))
    (s : Unit × Ext4File InMemory) (hcalls : Calls (blind (· == y)) ((), f) h s) : dataCalls h ≤ 1 := by
  have hbs := smallFs_like.blockSize
  have hlen := smallFs_length
  have hsz := tree_values.1.2.2.2.2.2
  obtain ⟨v1, v2, v3, v4, -, v6, -⟩ := small_values
  refine C138_file (blind_plain _) (blind_withholds _) smallFs (by omega) () trivial fs ho _ f hf
    (.inr (by rw [hsz, hbs]; decide)) [8, 9, 10] (by rw [hbs]; exact contiguous3.1) 1 9 rfl
    ⟨y, by simp, by rw [hbs]; omega, by rw [hbs]; omega, by omega, ⟨fun x g1 g2 _ g3 => by omega, ?_⟩, ?_⟩ h s hcalls
  · rw [v2, v3, v4]
    exact fun x g1 g2 _ g3 => by omega
  · rw [hbs]
    intro node i hn hd hi x g1 g2 _ g3
    have w3 : nodeDepth (root smallFs 3) = 1 ∧ nodeEntries (root smallFs 3) = 1 ∧
        indexChild (nodeEntry (root smallFs 3) 0) = 6 := by decide +kernel
    have w6 : nodeDepth (blockOf smallFs 1024 6) = 0 := by decide +kernel
    change TreeNode smallFs 1024 (root smallFs 3) node at hn
    have nodes : node = root smallFs 3 ∨ node = blockOf smallFs 1024 6 := by
      clear g1 g2 hi hd
      induction hn with
      | root => exact .inl rfl
      | child node i _ hd hi _ _ ih =>
        rcases ih with rfl | rfl
        · have hi0 : i = 0 := by rw [w3.2.1] at hi; omega
          subst hi0
          rw [w3.2.2]
          exact .inr rfl
        · exact absurd w6 hd
    rcases nodes with rfl | rfl
    · have hi0 : i = 0 := by rw [w3.2.1] at hi; omega
      subst hi0
      rw [w3.2.2] at g1 g2
      omega
    · exact hd w6

end MdRecover
