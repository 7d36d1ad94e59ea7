import Verif.Lemmas.Ext4FileEnd
import Verif.Lemmas.Ext4DirectoryRun
import Verif.Props.Ext4Open
import Verif.Spec.Ext4Session
import Verif.Spec.NoPanic

namespace MdRecover
open MdSpec
variable [Build]

/-- All nodes of the tree hold their entries. -/
def AllFit (c : Bytes) (node : Bytes) : Prop := ∀ x, TreeNode c (blockSizeOf (sbOf c)) node x → NodeFits x

omit [Build] in
theorem treeNode_trans {c : Bytes} {bs : Nat} {a b x : Bytes} (h : TreeNode c bs a b) (h' : TreeNode c bs b x) :
    TreeNode c bs a x := by
  induction h' with
  | root => exact h
  | child node i _ h1 h2 h3 h4 ih => exact .child node i ih h1 h2 h3 h4

omit [Build] in
theorem closed_allFit (c : Bytes) : Ext4File.Closed (AllFit c) c (blockSizeOf (sbOf c)) := by
  intro node i h h1 h2 h3 h4 x hx
  exact h x (treeNode_trans (.child node i .root h1 h2 h3 h4) hx)

section
variable {W D : Type} {F : Prop} {dev : StreamDev W D} {G : W → Prop} {Is : D → Bytes → Prop}
  {At : W → D → Nat → Prop}

namespace Ext4File
variable (hv : VolumeSpec F dev G Is At) {c : Bytes} (hc : c.length < U64) {i : Inode}
  (hsize : i.fileSizeBytes ≤ (U32 - 1) * blockSizeOf (sbOf c))
include hv hc hsize

/-- A round does not panic. -/
theorem step_ne_panic {s : W × Ext4File D} (hi : Inv Is G c (AllFit c) i s) {buf : Bytes}
    (hb : blockSizeOf (sbOf c) ≤ buf.length) : (step dev buf s).2 ≠ .panic := by
  obtain ⟨w, f⟩ := s
  have hst : StackOk (AllFit c) f.blockPos f.stack := hi.stack
  match hs : f.stack with
  | [] =>
    rw [step_empty dev buf w f hs]
    show (if _ then _ else _) ≠ _
    split <;> (intro h; cases h)
  | x :: rest =>
    rw [hs] at hst
    rcases hst.1 with ⟨n, pos, rfl, ht⟩ | ⟨node, k, j, rfl, -⟩
    · have hfit : NodeFits n.storage := ht _ .root
      rw [step_tree dev buf w f hs]
      by_cases hp : nodeEntries n.storage ≤ pos
      · rw [stepTree_done dev w _ rest hp]
        exact fun h => (by cases h)
      have hp : pos < nodeEntries n.storage := by omega
      by_cases hd : nodeDepth n.storage = 0
      · rw [stepTree_leaf dev w _ rest hp hfit hd]
        split <;> (intro h; cases h)
      · obtain ⟨w', fs', -, -, h1⟩ := stepTree_branch hv hc hi.good (f := { f with stack := rest }) hi.opened rest hp
          hfit hd
        rcases h1 with ⟨-, h1⟩ | ⟨-, ⟨-, e, h1⟩ | ⟨-, h1⟩⟩ <;> rw [h1] <;> (intro h; cases h)
    · rw [step_extent dev buf w f hs]
      by_cases h1 : (Extent.mk (nodeEntry node k)).length ≤ j
      · rw [stepExtent_done dev buf w _ rest h1]
        exact fun h => (by cases h)
      obtain ⟨w', fs', -, -, h2⟩ := stepExtent_block hv hc hi.good
        (f := { f with stack := rest }) hi.opened buf hb rest (Nat.lt_of_not_le h1)
      rcases h2 with ⟨-, h2⟩ | ⟨h3, ⟨-, k, h2⟩ | ⟨-, h2⟩⟩
      · rw [h2]; exact fun h => (by cases h)
      · rw [h2]; exact fun h => (by cases h)
      · have hlt : f.blockPos + 1 < U32 := by
          have h3 : f.bytePos < i.fileSizeBytes := by
            have : f.inode = i := hi.inode
            rw [← this]; exact h3
          have h4 : f.bytePos = min (f.blockPos * blockSizeOf (sbOf c)) i.fileSizeBytes := hi.bytes
          have h5 : f.blockPos * blockSizeOf (sbOf c) < (U32 - 1) * blockSizeOf (sbOf c) := by omega
          have := Nat.lt_of_mul_lt_mul_right h5
          omega
        rw [h2, if_pos hlt]
        exact fun h => (by cases h)

theorem loop_safe {buf : Bytes} (hb : blockSizeOf (sbOf c) ≤ buf.length) (fuel : Nat) :
    ∀ s : W × Ext4File D, Inv Is G c (AllFit c) i s →
      Inv Is G c (AllFit c) i (loop dev buf fuel s).1 ∧ (loop dev buf fuel s).2 ≠ .panic := by
  induction fuel with
  | zero => exact fun s hi => ⟨hi, fun h => (by cases h)⟩
  | succ k ih =>
    intro s hi
    obtain ⟨s1, r1, hs⟩ : ∃ s1 r1, step dev buf s = (s1, r1) := ⟨_, _, rfl⟩
    have hp : r1 ≠ .panic := by
      have := step_ne_panic hv hc hsize hi hb
      rw [hs] at this
      exact this
    obtain ⟨h1, -⟩ := step_inv hv hc (closed_allFit c) hi hb hs hp (.inr (.inr (.inl hsize)))
    by_cases h2 : r1 = .ok none
    · subst h2
      rw [loop_succ_none hs]
      exact ih s1 h1
    · rw [loop_succ_of hs h2]
      exact ⟨h1, hp⟩

/-- A call does not panic, however many rounds it is given. -/
theorem readNextBlock_safe (buf : Bytes) (fuel : Nat) {s : W × Ext4File D} (hi : Inv Is G c (AllFit c) i s) :
    Inv Is G c (AllFit c) i (readNextBlock dev fuel buf s).1 ∧ (readNextBlock dev fuel buf s).2 ≠ .panic := by
  obtain ⟨w, f⟩ := s
  by_cases hb : buf.length < blockSizeOf (sbOf c)
  · rw [readNextBlock_short hi.opened hb]
    exact ⟨hi, fun h => (by cases h)⟩
  · rw [readNextBlock_loop hi.opened (by omega)]
    exact loop_safe hv hc hsize (by omega) fuel _ hi

end Ext4File

namespace Ext4Directory
variable (hv : VolumeSpec F dev G Is At) {c : Bytes} (hc : c.length < U64) {i : Inode}
  (hsize : i.fileSizeBytes ≤ (U32 - 1) * blockSizeOf (sbOf c))
include hv hc hsize

theorem advance_safe (fuel : Nat) {s : W × Ext4Directory D} (hi : Inv Is G c (AllFit c) i s) :
    Inv Is G c (AllFit c) i (advance dev fuel s).1 ∧ (advance dev fuel s).2 ≠ .panic := by
  have hge := blockSize_ge c
  have hz : (zeros (blockSizeOf (sbOf c))).length = blockSizeOf (sbOf c) := List.length_replicate
  have hbs := Ext4File.blockSize_eq hi.file.opened
  obtain ⟨t, r0, h0⟩ : ∃ t r0, Ext4File.readNextBlock dev fuel (zeros (blockSizeOf (sbOf c))) (s.1, s.2.internal)
      = (t, r0) := ⟨_, _, rfl⟩
  obtain ⟨h1, h2⟩ := Ext4File.readNextBlock_safe hv hc hsize (zeros (blockSizeOf (sbOf c))) fuel hi.file
  rw [h0] at h1 h2
  have hadv := advance_eq hbs h0
  rw [hadv]
  match r0 with
  | .panic => exact absurd rfl h2
  | .err e => exact ⟨⟨h1, hi.current, hi.counted⟩, fun h => (by cases h)⟩
  | .ok none => exact ⟨⟨h1, hi.current, hi.counted⟩, fun h => (by cases h)⟩
  | .ok (some (n, out)) =>
    have hret : Returns dev (s.1, s.2.internal) (zeros (blockSizeOf (sbOf c))) t (.ok (n, out)) := ⟨fuel, h0⟩
    obtain ⟨-, h5⟩ := Ext4File.returns_inv hv hc (closed_allFit c) hi.file hret (fun h => (by cases h)) hi.counted
    have htb : toBlock (blockSizeOf (sbOf c)) s.2.internal.inode.metadataChecksumSeed n out ≠ .panic := by
      rcases h5 with ⟨-, ⟨e, h5⟩ | ⟨h5, -⟩⟩ | ⟨-, -, node, k, j, -, -, -, -, -, -, h9, h5⟩
      · cases h5
      · cases h5
        exact fun h => (by cases h)
      · cases h5
        rw [hz] at h9
        rw [toBlock_eq (by omega) (by unfold slice; rw [hz, List.length_take, List.length_drop]; omega)]
        split
        · exact fun h => (by cases h)
        · split <;> exact fun h => (by cases h)
    obtain ⟨s', r, h10, h11⟩ := afterRead_ends (s := s) (t := t) htb
    have h12 : advance dev fuel s = (s', some <$> r) := hadv.trans h10
    obtain ⟨h13, -⟩ := advances_inv hv hc (closed_allFit c) hi ⟨fuel, h12⟩ h11
    rw [← hadv, h12]
    refine ⟨h13, ?_⟩
    cases r with
    | ok _ => exact fun h => (by cases h)
    | err _ => exact fun h => (by cases h)
    | panic => exact absurd rfl h11

theorem loop_safe (fuel n : Nat) : ∀ s : W × Ext4Directory D, Inv Is G c (AllFit c) i s →
    Inv Is G c (AllFit c) i (loop dev fuel n s).1 ∧ (loop dev fuel n s).2 ≠ .panic := by
  induction n with
  | zero => exact fun s hi => ⟨hi, fun h => (by cases h)⟩
  | succ n ih =>
    intro s hi
    by_cases hb : ∃ b, s.2.current = .block b
    · obtain ⟨b, hb⟩ := hb
      rw [loop_block hb]
      have hcur := hi.current
      rw [hb] at hcur
      rcases currentOk_next hcur with ⟨e, b', h1, h2, -⟩ | h1
      · rw [h1]
        exact ⟨⟨hi.file, h2, hi.counted⟩, fun h => (by cases h)⟩
      · rw [h1]
        have hi' : Inv Is G c (AllFit c) i (withCurrent s (.block b)) := ⟨hi.file, hcur, hi.counted⟩
        obtain ⟨h3, h4⟩ := advance_safe hv hc hsize fuel hi'
        rcases ha : advance dev fuel (withCurrent s (.block b)) with ⟨s1, r1⟩
        rw [ha] at h3 h4
        simp only [ha]
        match r1 with
        | .ok none => exact ⟨h3, fun h => (by cases h)⟩
        | .ok (some ()) => exact ih s1 h3
        | .err e => exact ⟨h3, fun h => (by cases h)⟩
        | .panic => exact absurd rfl h4
    · rw [loop_fin fun b h => hb ⟨b, h⟩]
      exact ⟨hi, fun h => (by cases h)⟩

/-- A call does not panic, however many rounds it is given. -/
theorem readNextEntry_safe (fuel : Nat) {s : W × Ext4Directory D} (hi : Inv Is G c (AllFit c) i s) :
    Inv Is G c (AllFit c) i (readNextEntry dev fuel s).1 ∧ (readNextEntry dev fuel s).2 ≠ .panic := by
  by_cases hs : s.2.current = .start
  · rw [readNextEntry_start hs]
    obtain ⟨h3, h4⟩ := advance_safe hv hc hsize fuel hi
    rcases ha : advance dev fuel s with ⟨s1, r1⟩
    rw [ha] at h3 h4
    match r1 with
    | .ok none => exact ⟨h3, fun h => (by cases h)⟩
    | .ok (some ()) => exact loop_safe hv hc hsize fuel fuel s1 h3
    | .err e => exact ⟨h3, fun h => (by cases h)⟩
    | .panic => exact absurd rfl h4
  · rw [readNextEntry_other hs]
    exact loop_safe hv hc hsize fuel fuel s hi

end Ext4Directory

/-- What holds of a handle between calls. -/
def HandleOk (G : W → Prop) (Is : D → Bytes → Prop) (c : Bytes) : Handle D → Prop
  | .device d => Is d c
  | .fs fs => Opened Is c fs
  | .file f => ∃ i : Inode, i.fileSizeBytes ≤ (U32 - 1) * blockSizeOf (sbOf c) ∧
      ∀ w, G w → Ext4File.Inv Is G c (AllFit c) i (w, f)
  | .dir d => ∃ i : Inode, i.fileSizeBytes ≤ (U32 - 1) * blockSizeOf (sbOf c) ∧
      ∀ w, G w → Ext4Directory.Inv Is G c (AllFit c) i (w, d)

/-- A call that does not panic, and leaves good handles. -/
def CallOk (G : W → Prop) (Is : D → Bytes → Prop) (c : Bytes)
    (x : (W × Handle D) × Res (SessionOut × List (Handle D))) : Prop :=
  G x.1.1 ∧ HandleOk G Is c x.1.2 ∧ x.2 ≠ .panic ∧
    ∀ o new, x.2 = .ok (o, new) → o ≠ .panicked ∧ ∀ h ∈ new, HandleOk G Is c h

/-- An inode that is read. -/
theorem Ext4Fs.readInode_safe (hv : VolumeSpec F dev G Is At) {c : Bytes} (hs : HoldsWhatItDeclares c) {w : W}
    {fs : Ext4Fs D} (hG : G w) (ho : Opened Is c fs) (n : Nat) :
    ∃ w' fs' r, Ext4Fs.readInode dev n (w, fs) = ((w', fs'), r) ∧ G w' ∧ Opened Is c fs' ∧ r ≠ .panic ∧
      ∀ i, r = .ok i → InodeSlot c n ∧ Inode.new fs.superblock n (inodeBytes c n) = .ok i := by
  obtain ⟨w', fs', r, h1, hG', ho', -, h2⟩ := Ext4Fs.readInode_spec hv hG ho n
  refine ⟨w', fs', r, h1, hG', ho', ?_⟩
  rcases h2 with ⟨-, rfl⟩ | ⟨h2, ⟨-, e, rfl⟩ | ⟨h3, h4⟩⟩
  · exact ⟨fun h => (by cases h), fun i h => (by cases h)⟩
  · exact ⟨fun h => (by cases h), fun i h => (by cases h)⟩
  · have hslot : InodeSlot c n := ⟨ho.long, ho.readable, by omega, by omega, by omega, h3⟩
    obtain ⟨h5, h6⟩ := hs.inodes n hslot
    have h4 : r = Inode.new fs.superblock n (inodeBytes c n) := h4
    refine ⟨?_, fun i h => ⟨hslot, h4 ▸ h⟩⟩
    rw [h4, Ne, C60_panics_iff]
    omega

/-- A file that is opened. -/
theorem Ext4Fs.openFile_safe (hv : VolumeSpec F dev G Is At) {c : Bytes} (hs : HoldsWhatItDeclares c) {w : W}
    {fs : Ext4Fs D} (hG : G w) (ho : Opened Is c fs) (n : Nat) :
    ∃ w' fs' r, Ext4Fs.openFile dev n (w, fs) = ((w', fs'), r) ∧ G w' ∧ Opened Is c fs' ∧ r ≠ .panic ∧
      ∀ f, r = .ok f → ∀ h ∈ (ofOpened f).2, HandleOk G Is c h := by
  obtain ⟨w', fs', r, h1, hG', ho', h2⟩ := Ext4Fs.openFile_spec hv hG ho n
  refine ⟨w', fs', r, h1, hG', ho', ?_⟩
  rcases h2 with ⟨-, e, rfl⟩ | ⟨w1, fs2, q, hG1, ho2, -, h3, rfl⟩
  · exact ⟨fun h => (by cases h), fun i h => (by cases h)⟩
  obtain ⟨w2, fs3, q', h4, -, -, h5, h6⟩ := Ext4Fs.readInode_safe hv hs hG1 ho n
  rw [h3] at h4
  obtain ⟨-, rfl⟩ := Prod.mk.inj h4
  match q with
  | .panic => exact absurd rfl h5
  | .err e => exact ⟨fun h => (by cases h), fun i h => (by cases h)⟩
  | .ok i =>
    obtain ⟨hslot, hnew⟩ := h6 i rfl
    have hroot : i.blocksBuffer = rootNode c n := (C60_fields _ n _ i hnew).2.2.2.2.2.2.2.2.1
    have hsz : i.fileSizeBytes = sizeOf c n := (C60_fields _ n _ i hnew).2.2.1
    obtain ⟨k1, k2, k3, k4, k5⟩ := OpenedFile.open_spec (fs := fs2) hnew
    show OpenedFile.open fs2 i ≠ _ ∧ ∀ f, OpenedFile.open fs2 i = _ → _
    by_cases t8 : typeNumber c n = 8
    · by_cases he : hasExtents c n
      · obtain ⟨f, hf, hf'⟩ := k1 t8 he
        have ht : HasTree c n := ⟨.inl t8, he⟩
        rw [hf']
        refine ⟨fun h => (by cases h), fun f' h => ?_⟩
        cases h
        intro h hh
        cases List.mem_singleton.1 hh
        exact ⟨i, hsz ▸ hs.sizes n hslot ht, fun w hG => (Ext4File.open_inv hG ho2 hf (AllFit c)
          (fun x hx => hs.nodes n hslot ht x (hroot ▸ hx))).1⟩
      · rw [k2 t8 he]
        exact ⟨fun h => (by cases h), fun i h => (by cases h)⟩
    by_cases t4 : typeNumber c n = 4
    · by_cases he : ¬ flagBit c n 12 ∧ hasExtents c n
      · obtain ⟨d, hd, hd'⟩ := k3 t4 he.1 he.2
        have ht : HasTree c n := ⟨.inr t4, he.2⟩
        have hsize : i.fileSizeBytes ≤ (U32 - 1) * blockSizeOf (sbOf c) := hsz ▸ hs.sizes n hslot ht
        rw [hd']
        refine ⟨fun h => (by cases h), fun f' h => ?_⟩
        cases h
        intro h hh
        cases List.mem_singleton.1 hh
        exact ⟨i, hsize, fun w hG => (Ext4Directory.open_inv hG ho2 hd (AllFit c)
          (fun x hx => hs.nodes n hslot ht x (hroot ▸ hx)) (.inr hsize)).1⟩
      · rw [k4 t4 (Decidable.or_iff_not_imp_left.2 fun h1 h2 => he ⟨h1, h2⟩)]
        exact ⟨fun h => (by cases h), fun i h => (by cases h)⟩
    · rw [k5 t8 t4]
      refine ⟨fun h => (by cases h), fun f' h => ?_⟩
      cases h
      intro h hh
      cases hh

omit [Build] in
theorem onWorld_eq {S α : Type} {m : SM W α} {w w' : W} {r : Res α} (s : S) (h : m w = (w', r)) :
    onWorld m (w, s) = ((w', s), r) := by
  unfold onWorld SM.zoom
  simp only [h]

omit [Build] in
theorem onDeviceHandle_eq {d d' : D} {m : SM (W × D) (SessionOut × List (Handle D))} {w w' : W} {h : Handle D}
    {r : Res (SessionOut × List (Handle D))} (hm : m (w, d) = ((w', d'), r)) :
    onDeviceHandle d m (w, h) = ((w', .device d'), r) := by
  unfold onDeviceHandle SM.zoom
  simp only [hm]

omit [Build] in
theorem onFsHandle_eq {fs fs' : Ext4Fs D} {m : SM (W × Ext4Fs D) (SessionOut × List (Handle D))} {w w' : W}
    {h : Handle D} {r : Res (SessionOut × List (Handle D))} (hm : m (w, fs) = ((w', fs'), r)) :
    onFsHandle fs m (w, h) = ((w', .fs fs'), r) := by
  unfold onFsHandle SM.zoom
  simp only [hm]

omit [Build] in
/-- A call with a value that is given back. -/
theorem bind_value {S α : Type} {m : SM S α} {s s' : S} {r : Res α} (h : m s = (s', r)) (g : α → SessionOut × List (Handle D)) :
    (m >>= fun a => pure (g a)) s = (s', g <$> r) := by
  match r with
  | .ok a => rw [SM.bind_ok (h := h)]; rfl
  | .err e => rw [SM.bind_err (h := h)]; rfl
  | .panic => rw [SM.bind_panic (h := h)]; rfl

/-- The outcome is good if the call did not panic. -/
theorem callOk_map {c : Bytes} {w : W} {h : Handle D} {α : Type} {r : Res α} {g : α → SessionOut × List (Handle D)}
    (hG : G w) (hh : HandleOk G Is c h) (hr : r ≠ .panic)
    (hg : ∀ a, r = .ok a → (g a).1 ≠ .panicked ∧ ∀ h ∈ (g a).2, HandleOk G Is c h) :
    CallOk G Is c ((w, h), g <$> r) := by
  refine ⟨hG, hh, ?_, fun o new ho => ?_⟩
  · cases r with
    | ok _ => exact fun h => (by cases h)
    | err _ => exact fun h => (by cases h)
    | panic => exact absurd rfl hr
  · cases r with
    | ok a =>
      have := hg a rfl
      have ho : Res.ok (g a) = Res.ok (o, new) := ho
      rw [Res.ok.inj ho] at this
      exact this
    | err _ => cases ho
    | panic => cases ho

theorem callOk_err {c : Bytes} {w : W} {h : Handle D} {e : ErrKind} (hG : G w) (hh : HandleOk G Is c h) :
    CallOk G Is c ((w, h), (.err e : Res (SessionOut × List (Handle D)))) :=
  ⟨hG, hh, fun h => (by cases h), fun _ _ h => (by cases h)⟩

omit [Build] in
theorem ofBlock_ne (r : Option (Nat × Bytes)) : ofBlock r ≠ .panicked := by
  cases r <;> (intro h; cases h)

omit [Build] in
theorem ofEntry_ne (r : Option (Option DirEntry)) : ofEntry r ≠ .panicked := by
  cases r <;> (intro h; cases h)

omit [Build] in
theorem ofOpened_ne (f : OpenedFile D) : (ofOpened f).1 ≠ .panicked := by
  cases f <;> (intro h; cases h)

/-- No call on a good handle panics. -/
theorem handleCall_safe (hv : VolumeSpec F dev G Is At) {c : Bytes} (hc : c.length < U64)
    (hs : HoldsWhatItDeclares c) {call : SessionCall} (ht : call.wellTyped) {h : Handle D} {w : W} (hG : G w)
    (hh : HandleOk G Is c h) : CallOk G Is c (handleCall dev call h (w, h)) := by
  have hnone : CallOk G Is c ((w, h), (.ok (.noSuchHandle, []) : Res (SessionOut × List (Handle D)))) :=
    ⟨hG, hh, fun h => (by cases h), fun o new ho => by
      cases ho
      exact ⟨fun h => (by cases h), fun h hh => (by cases hh)⟩⟩
  have hb : 2048 ≤ c.length → Ext4Readable (sbOf c) → TableChecked c := by
    intro h1 h2
    right
    refine Nat.lt_of_not_le fun h3 => hs.opening ⟨h1, h2.ok, .inr ⟨h2, .inl h3⟩⟩
  match h, hh with
  | .device d, hd =>
    have hd : Is d c := hd
    cases call
    case clone =>
      obtain ⟨w', r, h1⟩ : ∃ w' r, dev.tryClone d w = (w', r) := ⟨_, _, rfl⟩
      obtain ⟨hG', h2⟩ := hv.tryClone hG hd h1
      show CallOk G Is c (onDeviceHandle d _ (w, _))
      rw [onDeviceHandle_eq (bind_value (onWorld_eq d h1) _)]
      refine callOk_map hG' hd (by rcases h2 with ⟨d', rfl, -⟩ | ⟨-, e, rfl⟩ <;> (intro h; cases h))
        fun a ha => ⟨SessionOut.noConfusion, fun h hm => ?_⟩
      · cases List.mem_singleton.1 hm
        rcases h2 with ⟨d', rfl, h2⟩ | ⟨-, e, rfl⟩ <;> cases ha
        exact h2
    case bytes p buf =>
      obtain ⟨w1, d1, r1, h1⟩ : ∃ w1 d1 r1, dev.seek (.start p) (w, d) = ((w1, d1), r1) := ⟨_, _, _, rfl⟩
      obtain ⟨hG1, hI1, h2⟩ := hv.seek hG hd p ht h1
      show CallOk G Is c (onDeviceHandle d _ (w, _))
      rcases h2 with ⟨q, rfl, hA, -⟩ | ⟨-, e, rfl⟩
      · obtain ⟨w2, d2, hG2, hI2, h3⟩ := volume_readExact hv hG1 hI1 hA buf
        obtain ⟨r2, h4, h5⟩ : ∃ r2, readExact dev.read buf (w1, d1) = ((w2, d2), r2) ∧ r2 ≠ .panic := by
          rcases h3 with ⟨-, e, h3⟩ | ⟨-, -, h3⟩ | ⟨-, -, h3⟩ <;> exact ⟨_, h3, fun h => (by cases h)⟩
        rw [onDeviceHandle_eq ((SM.bind_ok (h := h1) _).trans (bind_value h4 _))]
        exact callOk_map hG2 hI2 h5 fun a ha => ⟨fun h => (by cases h), fun h hm => (by cases hm)⟩
      · rw [onDeviceHandle_eq (SM.bind_err (h := h1) _)]
        exact callOk_err hG1 hI1
    case mount =>
      obtain ⟨w', r, h1⟩ : ∃ w' r, dev.tryClone d w = (w', r) := ⟨_, _, rfl⟩
      obtain ⟨hG', h2⟩ := hv.tryClone hG hd h1
      show CallOk G Is c (onDeviceHandle d _ (w, _))
      rcases h2 with ⟨d', rfl, h2⟩ | ⟨-, e, rfl⟩
      · obtain ⟨w2, r2, h3, hG2, h4⟩ := Ext4Fs.open_spec_readable hv hG' h2 hb
        rw [onDeviceHandle_eq ((SM.bind_ok (h := onWorld_eq d h1) _).trans (bind_value (onWorld_eq d h3) _))]
        refine callOk_map hG2 hd ?_ fun a ha => ⟨fun h => (by cases h), fun h hm => ?_⟩
        · rcases h4 with ⟨fs, rfl, -⟩ | ⟨-, e, rfl⟩ | ⟨h4, -⟩
          · exact fun h => (by cases h)
          · exact fun h => (by cases h)
          · exact absurd h4 hs.opening
        · cases List.mem_singleton.1 hm
          rcases h4 with ⟨fs, rfl, h4, -⟩ | ⟨-, e, rfl⟩ | ⟨-, rfl⟩ <;> cases ha
          exact h4
      · rw [onDeviceHandle_eq (SM.bind_err (h := onWorld_eq d h1) _)]
        exact callOk_err hG' hd
    all_goals exact hnone
  | .fs fs, ho =>
    have ho : Opened Is c fs := ho
    cases call
    case clone =>
      obtain ⟨w', r, h1, hG', h2⟩ := Ext4Fs.tryClone_spec hv hG ho
      show CallOk G Is c (onFsHandle fs _ (w, _))
      rw [onFsHandle_eq (bind_value (onWorld_eq fs h1) _)]
      refine callOk_map hG' ho ?_ fun a ha => ⟨fun h => (by cases h), fun h hm => ?_⟩
      · rcases h2 with ⟨d', rfl, -⟩ | ⟨-, e, rfl⟩ <;> exact fun h => (by cases h)
      · cases List.mem_singleton.1 hm
        rcases h2 with ⟨d', rfl, h2, -⟩ | ⟨-, e, rfl⟩ <;> cases ha
        exact h2
    case blockSize =>
      show CallOk G Is c (onFsHandle fs _ (w, _))
      have h1 : (SM.lift fs.blockSize : SM (W × Ext4Fs D) Nat) (w, fs) = ((w, fs), .ok (blockSizeOf (sbOf c))) := by
        rw [show fs.blockSize = .ok (blockSizeOf (sbOf c)) from ho.blockSize]; rfl
      rw [onFsHandle_eq (bind_value h1 _)]
      exact callOk_map hG ho (fun h => (by cases h)) fun a ha => ⟨fun h => (by cases h), fun h hm => (by cases hm)⟩
    case inode n =>
      obtain ⟨w', fs', r, h1, hG', ho', hr, -⟩ := Ext4Fs.readInode_safe hv hs hG ho n
      show CallOk G Is c (onFsHandle fs _ (w, _))
      rw [onFsHandle_eq (bind_value h1 _)]
      exact callOk_map hG' ho' hr fun a ha => ⟨fun h => (by cases h), fun h hm => (by cases hm)⟩
    case rootInode =>
      obtain ⟨w', fs', r, h1, hG', ho', hr, -⟩ := Ext4Fs.readInode_safe hv hs hG ho 2
      replace h1 : Ext4Fs.readRootInode dev (w, fs) = ((w', fs'), r) := h1
      show CallOk G Is c (onFsHandle fs _ (w, _))
      rw [onFsHandle_eq (bind_value h1 _)]
      exact callOk_map hG' ho' hr fun a ha => ⟨fun h => (by cases h), fun h hm => (by cases hm)⟩
    case block n buf =>
      obtain ⟨w', fs', r, h1, hG', ho', -, hr⟩ := Ext4Fs.readBlock_spec hv hG ho n buf
      show CallOk G Is c (onFsHandle fs _ (w, _))
      rw [onFsHandle_eq (bind_value h1 _)]
      refine callOk_map hG' ho' ?_ fun a ha => ⟨fun h => (by cases h), fun h hm => (by cases hm)⟩
      rcases hr with ⟨-, e, rfl⟩ | ⟨-, -, rfl⟩ <;> exact fun h => (by cases h)
    case openFile n =>
      obtain ⟨w', fs', r, h1, hG', ho', hr, h2⟩ := Ext4Fs.openFile_safe hv hs hG ho n
      show CallOk G Is c (onFsHandle fs _ (w, _))
      rw [onFsHandle_eq (bind_value h1 _)]
      exact callOk_map hG' ho' hr fun a ha => ⟨ofOpened_ne a, h2 a ha⟩
    all_goals exact hnone
  | .file f, ⟨i, hsize, hi⟩ =>
    cases call
    case fileSize =>
      exact ⟨hG, ⟨i, hsize, hi⟩, fun h => (by cases h), fun o new ho => by
        cases ho
        exact ⟨fun h => (by cases h), fun h hh => (by cases hh)⟩⟩
    case nextBlock rounds buf =>
      obtain ⟨h1, h2⟩ := Ext4File.readNextBlock_safe hv hc hsize buf rounds (hi w hG)
      rcases hr : Ext4File.readNextBlock dev rounds buf (w, f) with ⟨⟨w', f'⟩, r⟩
      rw [hr] at h1 h2
      have h3 : handleCall dev (.nextBlock rounds buf) (.file f) (w, .file f) = ((w', .file f'),
          (fun r => (ofBlock r, [])) <$> r) := by
        show onFileHandle f _ (w, _) = _
        unfold onFileHandle SM.zoom
        simp only [bind_value hr]
      rw [h3]
      refine callOk_map h1.good ⟨i, hsize, fun w hG => ⟨hG, h1.opened, h1.inode, h1.stack, h1.bytes⟩⟩ h2
        fun a ha => ⟨ofBlock_ne a, fun h hm => (by cases hm)⟩
    all_goals exact hnone
  | .dir d, ⟨i, hsize, hi⟩ =>
    cases call
    case nextEntry rounds =>
      obtain ⟨h1, h2⟩ := Ext4Directory.readNextEntry_safe hv hc hsize rounds (hi w hG)
      rcases hr : Ext4Directory.readNextEntry dev rounds (w, d) with ⟨⟨w', d'⟩, r⟩
      rw [hr] at h1 h2
      have h3 : handleCall dev (.nextEntry rounds) (.dir d) (w, .dir d) = ((w', .dir d'),
          (fun r => (ofEntry r, [])) <$> r) := by
        show onDirHandle d _ (w, _) = _
        unfold onDirHandle SM.zoom
        simp only [bind_value hr]
      rw [h3]
      refine callOk_map h1.file.good ⟨i, hsize, fun w hG => ⟨⟨hG, h1.file.opened, h1.file.inode, h1.file.stack,
        h1.file.bytes⟩, h1.current, h1.counted⟩⟩ h2
        fun a ha => ⟨ofEntry_ne a, fun h hm => (by cases hm)⟩
    all_goals exact hnone

/-- No call of a program panics. -/
theorem sessionStep_safe (hv : VolumeSpec F dev G Is At) {c : Bytes} (hc : c.length < U64)
    (hs : HoldsWhatItDeclares c) {call : SessionCall} (ht : call.wellTyped) (i : Nat) {s : W × List (Handle D)}
    (hG : G s.1) (hh : ∀ h ∈ s.2, HandleOk G Is c h) :
    G (sessionStep dev i call s).1.1 ∧ (∀ h ∈ (sessionStep dev i call s).1.2, HandleOk G Is c h) ∧
      (sessionStep dev i call s).2 ≠ .panicked := by
  unfold sessionStep
  rcases hi : s.2[i]? with _ | h
  · exact ⟨hG, hh, fun h => (by cases h)⟩
  · have hset : ∀ h', HandleOk G Is c h' → ∀ x ∈ s.2.set i h', HandleOk G Is c x := by
      intro h' hh' x hx
      rcases List.mem_or_eq_of_mem_set hx with hx | rfl
      · exact hh x hx
      · exact hh'
    obtain ⟨h1, h2, h3, h4⟩ := handleCall_safe hv hc hs ht hG (hh h (List.mem_of_getElem? hi))
    rcases hr : handleCall dev call h (s.1, h) with ⟨⟨w', h'⟩, r⟩
    rw [hr] at h1 h2 h3 h4
    simp only [hr]
    match r with
    | .ok (o, new) =>
      obtain ⟨h5, h6⟩ := h4 o new rfl
      refine ⟨h1, fun x hx => ?_, h5⟩
      rcases List.mem_append.1 hx with hx | hx
      · exact hset _ h2 x hx
      · exact h6 x hx
    | .err e => exact ⟨h1, hset _ h2, fun h => (by cases h)⟩
    | .panic => exact absurd rfl h3

theorem sessionRun_safe (hv : VolumeSpec F dev G Is At) {c : Bytes} (hc : c.length < U64)
    (hs : HoldsWhatItDeclares c) (ops : List (Nat × SessionCall)) (ht : ∀ x ∈ ops, x.2.wellTyped) :
    ∀ s : W × List (Handle D), G s.1 → (∀ h ∈ s.2, HandleOk G Is c h) →
      SessionOut.panicked ∉ sessionRun dev s ops := by
  induction ops with
  | nil => exact fun s _ _ h => (by cases h)
  | cons x ops ih =>
    intro s hG hh h
    obtain ⟨h1, h2, h3⟩ := sessionStep_safe hv hc hs (ht x List.mem_cons_self) x.1 hG hh
    rcases List.mem_cons.1 h with h | h
    · exact h3 h.symm
    · exact ih (fun y hy => ht y (List.mem_cons_of_mem _ hy)) _ h1 h2 h

end
end MdRecover
