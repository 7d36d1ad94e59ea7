import Verif.Lemmas.NoPanic
import Verif.Spec.Rounds

namespace MdRecover
open MdSpec

/-- What is left to do of a node from entry `pos` on. -/
def TreeLeft (c : Bytes) (bs : Nat) (node : Bytes) (pos a : Nat) : Prop :=
  (nodeDepth node = 0 ∧ a = 2 * (nodeEntries node - pos) + 1) ∨
  (nodeDepth node ≠ 0 ∧ ∃ k : Nat → Nat,
    (∀ i, pos ≤ i → i < nodeEntries node → BlockInside c bs (indexChild (nodeEntry node i)) →
      TreeRounds c bs (blockOf c bs (indexChild (nodeEntry node i))) (k i)) ∧
    a = ((List.range' pos (nodeEntries node - pos)).map fun i => k i + 1).sum + 1)

theorem treeLeft_zero {c : Bytes} {bs : Nat} {node : Bytes} {a : Nat} (h : TreeRounds c bs node a) :
    TreeLeft c bs node 0 a := by
  cases h with
  | leaf _ h => exact .inl ⟨h, rfl⟩
  | branch _ k h h1 => exact .inr ⟨h, k, fun i _ => h1 i, by rw [List.range_eq_range']; rfl⟩

/-- What is left to do of a stack. -/
def Weighs (c : Bytes) (bs : Nat) : List StackEntry → Nat → Prop
  | [], k => k = 0
  | .extent _ _ :: rest, k => ∃ k', Weighs c bs rest k' ∧ k = k' + 1
  | .tree t pos :: rest, k => ∃ a k', TreeLeft c bs t.node.storage pos a ∧ Weighs c bs rest k' ∧ k = a + k'

variable [Build]

section
variable {W D : Type} {F : Prop} {dev : StreamDev W D} {G : W → Prop} {Is : D → Bytes → Prop}
  {At : W → D → Nat → Prop}

namespace Ext4File

/-- Each round leaves less to do, or the call returns. -/
theorem step_weight (hv : VolumeSpec F dev G Is At) {c : Bytes} (hc : c.length < U64) {i : Inode}
    {s : W × Ext4File D} (hi : Inv Is G c (AllFit c) i s) {buf : Bytes}
    (hb : blockSizeOf (sbOf c) ≤ buf.length) {k : Nat} (hw : Weighs c (blockSizeOf (sbOf c)) s.2.stack k) :
    ∃ k', Weighs c (blockSizeOf (sbOf c)) (step dev buf s).1.2.stack k' ∧ k' ≤ k ∧
      ((step dev buf s).2 = .ok none → k' < k) := by
  obtain ⟨w, f⟩ := s
  have hst : StackOk (AllFit c) f.blockPos f.stack := hi.stack
  replace hw : Weighs c (blockSizeOf (sbOf c)) f.stack k := hw
  match hs : f.stack with
  | [] =>
    rw [step_empty dev buf w f hs]
    refine ⟨k, hw, Nat.le_refl _, ?_⟩
    show (if _ then _ else _) = _ → _
    split <;> (intro h; cases h)
  | x :: rest =>
    rw [hs] at hst hw
    rcases hst.1 with ⟨n, pos, rfl, ht⟩ | ⟨node, m, j, rfl, -⟩
    · have hfit : NodeFits n.storage := ht _ .root
      obtain ⟨a, k', hl, hw, rfl⟩ := hw
      rw [ExtentTree.node_fromInternal] at hl
      have ha : 0 < a := by rcases hl with ⟨-, rfl⟩ | ⟨-, -, -, rfl⟩ <;> omega
      rw [step_tree dev buf w f hs]
      by_cases hp : nodeEntries n.storage ≤ pos
      · rw [stepTree_done dev w _ rest hp]
        exact ⟨k', hw, by omega, fun _ => by omega⟩
      have hp : pos < nodeEntries n.storage := by omega
      rcases hl with ⟨hd, rfl⟩ | ⟨hd, q, hq, rfl⟩
      · rw [stepTree_leaf dev w _ rest hp hfit hd]
        split
        · exact ⟨_, ⟨_, ⟨_, k', .inl ⟨by rw [ExtentTree.node_fromInternal]; exact hd, rfl⟩, hw, rfl⟩, rfl⟩,
            by rw [ExtentTree.node_fromInternal]; omega, fun _ => by rw [ExtentTree.node_fromInternal]; omega⟩
        · exact ⟨k', hw, by omega, fun h => (by cases h)⟩
      · obtain ⟨w', fs', -, -, h1⟩ := stepTree_branch hv hc hi.good (f := { f with stack := rest }) hi.opened rest hp
          hfit hd
        have hsum : ((List.range' pos (nodeEntries n.storage - pos)).map fun i => q i + 1).sum =
            q pos + 1 + ((List.range' (pos + 1) (nodeEntries n.storage - (pos + 1))).map fun i => q i + 1).sum := by
          rw [show nodeEntries n.storage - pos = (nodeEntries n.storage - (pos + 1)) + 1 by omega, List.range'_succ]
          simp
        rcases h1 with ⟨-, h1⟩ | ⟨-, ⟨-, e, h1⟩ | ⟨hin, h1⟩⟩
        · rw [h1]
          exact ⟨k', hw, by omega, fun h => (by cases h)⟩
        · rw [h1]
          exact ⟨k', hw, by omega, fun h => (by cases h)⟩
        · rw [h1]
          refine ⟨q pos + (((List.range' (pos + 1) (nodeEntries n.storage - (pos + 1))).map fun i => q i + 1).sum + 1
              + k'), ⟨q pos, _, ?_, ⟨_, k', .inr ?_, hw, rfl⟩, rfl⟩, by omega, fun _ => by omega⟩
          · rw [ExtentTree.fromBlock, ExtentTree.node_fromInternal]
            exact treeLeft_zero (hq pos (Nat.le_refl _) hp hin)
          · rw [ExtentTree.node_fromInternal]
            exact ⟨hd, q, fun i h2 => hq i (by omega), rfl⟩
    · obtain ⟨k', hw, rfl⟩ := hw
      rw [step_extent dev buf w f hs]
      by_cases h1 : (Extent.mk (nodeEntry node m)).length ≤ j
      · rw [stepExtent_done dev buf w _ rest h1]
        exact ⟨k', hw, by omega, fun _ => by omega⟩
      obtain ⟨w', fs', -, -, h2⟩ := stepExtent_block hv hc hi.good
        (f := { f with stack := rest }) hi.opened buf hb rest (Nat.lt_of_not_le h1)
      rcases h2 with ⟨-, h2⟩ | ⟨-, ⟨-, k, h2⟩ | ⟨-, h2⟩⟩
      · rw [h2]
        exact ⟨k', hw, by omega, fun h => (by cases h)⟩
      · rw [h2]
        exact ⟨k', hw, by omega, fun h => (by cases h)⟩
      · rw [h2]
        have hw2 : Weighs c (blockSizeOf (sbOf c)) (.extent ⟨nodeEntry node m⟩ (j + 1) :: rest) (k' + 1) := ⟨k', hw, rfl⟩
        split
        · exact ⟨_, hw2, Nat.le_refl _, fun h => (by cases h)⟩
        · split <;> exact ⟨_, hw2, Nat.le_refl _, fun h => (by cases h)⟩

variable (hv : VolumeSpec F dev G Is At) {c : Bytes} (hc : c.length < U64) {i : Inode}
  (hsize : i.fileSizeBytes ≤ (U32 - 1) * blockSizeOf (sbOf c))
include hv hc hsize

theorem loop_weight {buf : Bytes} (hb : blockSizeOf (sbOf c) ≤ buf.length) (fuel : Nat) :
    ∀ (s : W × Ext4File D) (k : Nat), Inv Is G c (AllFit c) i s → Weighs c (blockSizeOf (sbOf c)) s.2.stack k →
      ∃ k', Weighs c (blockSizeOf (sbOf c)) (loop dev buf fuel s).1.2.stack k' ∧ k' ≤ k ∧
        (k < fuel → (loop dev buf fuel s).2 ≠ .ok none) := by
  induction fuel with
  | zero => exact fun s k _ hw => ⟨k, hw, Nat.le_refl _, fun h => absurd h (Nat.not_lt_zero _)⟩
  | succ m ih =>
    intro s k hi hw
    obtain ⟨k1, h1, h2, h3⟩ := step_weight hv hc hi hb hw
    obtain ⟨s1, r1, hs⟩ : ∃ s1 r1, step dev buf s = (s1, r1) := ⟨_, _, rfl⟩
    rw [hs] at h1 h3
    have hp : r1 ≠ .panic := by
      have := step_ne_panic hv hc hsize hi hb
      rw [hs] at this
      exact this
    by_cases h4 : r1 = .ok none
    · subst h4
      obtain ⟨hi1, -⟩ := step_inv hv hc (closed_allFit c) hi hb hs hp (.inr (.inr (.inl hsize)))
      rw [loop_succ_none hs]
      have h3 : k1 < k := h3 rfl
      obtain ⟨k2, h5, h6, h7⟩ := ih s1 k1 hi1 h1
      exact ⟨k2, h5, by omega, fun _ => h7 (by omega)⟩
    · rw [loop_succ_of hs h4]
      exact ⟨k1, h1, h2, fun _ => h4⟩

/-- A call that is given more rounds than there is to do returns. -/
theorem readNextBlock_weight (buf : Bytes) (fuel : Nat) {s : W × Ext4File D} {k : Nat}
    (hi : Inv Is G c (AllFit c) i s) (hw : Weighs c (blockSizeOf (sbOf c)) s.2.stack k) :
    ∃ k', Weighs c (blockSizeOf (sbOf c)) (readNextBlock dev fuel buf s).1.2.stack k' ∧ k' ≤ k ∧
      (k < fuel → (readNextBlock dev fuel buf s).2 ≠ .ok none) := by
  obtain ⟨w, f⟩ := s
  by_cases hb : buf.length < blockSizeOf (sbOf c)
  · rw [readNextBlock_short hi.opened hb]
    exact ⟨k, hw, Nat.le_refl _, fun _ h => (by cases h)⟩
  · rw [readNextBlock_loop hi.opened (by omega)]
    exact loop_weight hv hc hsize (by omega) fuel _ k hi hw

end Ext4File

namespace Ext4Directory

omit [Build] in
theorem afterRead_internal (s : W × Ext4Directory D) (t : W × Ext4File D) (bs : Nat) (r : Res (Option (Nat × Bytes))) :
    (afterRead s t bs r).1.2.internal = t.2 := by
  match r with
  | .ok none => rfl
  | .ok (some (n, out)) =>
    show (match toBlock bs s.2.internal.inode.metadataChecksumSeed n out with
      | .ok b => _ | .err e => _ | .panic => _ : (W × Ext4Directory D) × Res (Option Unit)).1.2.internal = _
    split <;> rfl
  | .err e => rfl
  | .panic => rfl

omit [Build] in
theorem afterRead_goes_on (s : W × Ext4Directory D) (t : W × Ext4File D) (bs : Nat) (r : Res (Option (Nat × Bytes)))
    (h : (afterRead s t bs r).2 = .ok none) : r = .ok none := by
  match r with
  | .ok none => rfl
  | .ok (some (n, out)) =>
    replace h : (match toBlock bs s.2.internal.inode.metadataChecksumSeed n out with
      | .ok b => _ | .err e => _ | .panic => _ : (W × Ext4Directory D) × Res (Option Unit)).2 = _ := h
    split at h <;> cases h
  | .err e => cases h
  | .panic => cases h

variable (hv : VolumeSpec F dev G Is At) {c : Bytes} (hc : c.length < U64) {i : Inode}
  (hsize : i.fileSizeBytes ≤ (U32 - 1) * blockSizeOf (sbOf c))
include hv hc hsize

theorem advance_weight (fuel : Nat) {s : W × Ext4Directory D} {k : Nat} (hi : Inv Is G c (AllFit c) i s)
    (hw : Weighs c (blockSizeOf (sbOf c)) s.2.internal.stack k) :
    ∃ k', Weighs c (blockSizeOf (sbOf c)) (advance dev fuel s).1.2.internal.stack k' ∧ k' ≤ k ∧
      (k < fuel → (advance dev fuel s).2 ≠ .ok none) := by
  have hbs := Ext4File.blockSize_eq hi.file.opened
  obtain ⟨t, r0, h0⟩ : ∃ t r0, Ext4File.readNextBlock dev fuel (zeros (blockSizeOf (sbOf c))) (s.1, s.2.internal)
      = (t, r0) := ⟨_, _, rfl⟩
  obtain ⟨k', h1, h2, h3⟩ := Ext4File.readNextBlock_weight hv hc hsize (zeros (blockSizeOf (sbOf c))) fuel hi.file hw
  rw [h0] at h1 h3
  rw [advance_eq hbs h0, afterRead_internal]
  exact ⟨k', h1, h2, fun h h4 => h3 h (afterRead_goes_on _ _ _ _ h4)⟩

/-- The blocks that are left. -/
theorem loop_weight (fuel n : Nat) : ∀ (s : W × Ext4Directory D) (k : Nat), Inv Is G c (AllFit c) i s →
    Weighs c (blockSizeOf (sbOf c)) s.2.internal.stack k →
    ∃ k', Weighs c (blockSizeOf (sbOf c)) (loop dev fuel n s).1.2.internal.stack k' ∧ k' ≤ k ∧
      (k < fuel → i.fileSizeBytes / blockSizeOf (sbOf c) + 1 - s.2.internal.blockPos + 2 ≤ n →
        (loop dev fuel n s).2 ≠ .ok none) := by
  have hge := blockSize_ge c
  induction n with
  | zero =>
    intro s k _ hw
    exact ⟨k, hw, Nat.le_refl _, fun _ h1 => by omega⟩
  | succ n ih =>
    intro s k hi hw
    by_cases hb : ∃ b, s.2.current = .block b
    · obtain ⟨b, hb⟩ := hb
      rw [loop_block hb]
      have hcur := hi.current
      rw [hb] at hcur
      rcases currentOk_next hcur with ⟨e, b', h1, h2, -⟩ | h1
      · rw [h1]
        exact ⟨k, hw, Nat.le_refl _, fun _ _ h => (by cases h)⟩
      · rw [h1]
        have hi' : Inv Is G c (AllFit c) i (withCurrent s (.block b)) := ⟨hi.file, hcur, hi.counted⟩
        have hw' : Weighs c (blockSizeOf (sbOf c)) (withCurrent s (.block b)).2.internal.stack k := hw
        obtain ⟨-, h4⟩ := advance_safe hv hc hsize fuel hi'
        obtain ⟨k1, h5, h6, h7⟩ := advance_weight hv hc hsize fuel hi' hw'
        rcases ha : advance dev fuel (withCurrent s (.block b)) with ⟨s1, r1⟩
        rw [ha] at h4 h5 h7
        simp only [ha]
        match r1 with
        | .ok none => exact ⟨k1, h5, h6, fun h _ => absurd rfl (h7 h)⟩
        | .ok (some ()) =>
          obtain ⟨h8, h9⟩ := advances_inv hv hc (closed_allFit c) hi' (r := .ok ()) ⟨fuel, ha⟩ fun h => (by cases h)
          obtain ⟨k2, g1, g2, g3⟩ := ih s1 k1 h8 h5
          refine ⟨k2, g1, by omega, fun h10 h11 => ?_⟩
          rcases h9 with ⟨-, h9⟩ | ⟨e, h9⟩ | ⟨-, h9, h13⟩
          · cases n with
            | zero => omega
            | succ n =>
              show (loop dev fuel (n + 1) s1).2 ≠ _
              rw [loop_fin fun b h => by rw [h9] at h; cases h]
              exact fun h => (by cases h)
          · cases h9
          · have h9 : s1.2.internal.blockPos = s.2.internal.blockPos + 1 := h9
            have h13 : s.2.internal.blockPos * blockSizeOf (sbOf c) < i.fileSizeBytes := h13
            have h14 : s.2.internal.blockPos ≤ i.fileSizeBytes / blockSizeOf (sbOf c) :=
              (Nat.le_div_iff_mul_le (by omega)).2 (by omega)
            exact g3 (by omega) (by omega)
        | .err e => exact ⟨k1, h5, h6, fun _ _ h => (by cases h)⟩
        | .panic => exact absurd rfl h4
    · rw [loop_fin fun b h => hb ⟨b, h⟩]
      exact ⟨k, hw, Nat.le_refl _, fun _ _ h => (by cases h)⟩

/-- A call that is given more rounds than there is to do, and one for each block, returns. -/
theorem readNextEntry_weight (fuel : Nat) {s : W × Ext4Directory D} {k : Nat} (hi : Inv Is G c (AllFit c) i s)
    (hw : Weighs c (blockSizeOf (sbOf c)) s.2.internal.stack k) :
    ∃ k', Weighs c (blockSizeOf (sbOf c)) (readNextEntry dev fuel s).1.2.internal.stack k' ∧ k' ≤ k ∧
      (k < fuel → i.fileSizeBytes / blockSizeOf (sbOf c) + 3 ≤ fuel → (readNextEntry dev fuel s).2 ≠ .ok none) := by
  by_cases hs : s.2.current = .start
  · rw [readNextEntry_start hs]
    obtain ⟨h3, h4⟩ := advance_safe hv hc hsize fuel hi
    obtain ⟨k1, h5, h6, h7⟩ := advance_weight hv hc hsize fuel hi hw
    rcases ha : advance dev fuel s with ⟨s1, r1⟩
    rw [ha] at h3 h4 h5 h7
    match r1 with
    | .ok none => exact ⟨k1, h5, h6, fun h _ => absurd rfl (h7 h)⟩
    | .ok (some ()) =>
      obtain ⟨k2, g1, g2, g3⟩ := loop_weight hv hc hsize fuel fuel s1 k1 h3 h5
      exact ⟨k2, g1, by omega, fun h8 h9 => g3 (by omega)
      (by generalize i.fileSizeBytes / blockSizeOf (sbOf c) = q at h9 ⊢; omega)⟩
    | .err e => exact ⟨k1, h5, h6, fun _ _ h => (by cases h)⟩
    | .panic => exact absurd rfl h4
  · rw [readNextEntry_other hs]
    obtain ⟨k2, g1, g2, g3⟩ := loop_weight hv hc hsize fuel fuel s k hi hw
    exact ⟨k2, g1, by omega, fun h8 h9 => g3 (by omega)
      (by generalize i.fileSizeBytes / blockSizeOf (sbOf c) = q at h9 ⊢; omega)⟩

end Ext4Directory

omit [Build] in
theorem bind_value_inv {S α β : Type} {m : SM S α} {k : α → SM S β} {s : S} {b : β}
    (h : ((m >>= k) s).2 = .ok b) : ∃ s' a, m s = (s', .ok a) ∧ (k a s').2 = .ok b := by
  rcases hm : m s with ⟨s', r⟩
  cases r with
  | ok a => rw [SM.bind_ok (h := hm)] at h; exact ⟨s', a, rfl, h⟩
  | err e => rw [SM.bind_err (h := hm)] at h; cases h
  | panic => rw [SM.bind_panic (h := hm)] at h; cases h

/-- There is no more to do on a handle than the rounds allow. -/
def Calm (c : Bytes) (R : Nat) : Handle D → Prop
  | .file f => ∃ k, Weighs c (blockSizeOf (sbOf c)) f.stack k ∧ k < R
  | .dir d => ∃ k, Weighs c (blockSizeOf (sbOf c)) d.internal.stack k ∧ k < R ∧
      d.internal.inode.fileSizeBytes / blockSizeOf (sbOf c) + 3 ≤ R
  | _ => True

/-- A call that returns and leaves calm handles. -/
def CallEnds (c : Bytes) (R : Nat) (x : (W × Handle D) × Res (SessionOut × List (Handle D))) : Prop :=
  Calm c R x.1.2 ∧ ∀ o new, x.2 = .ok (o, new) → o ≠ .running ∧ ∀ h ∈ new, Calm c R h

omit [Build] in
theorem callEnds_value {c : Bytes} {R : Nat} {w : W} {h : Handle D} {α : Type} {r : Res α}
    {g : α → SessionOut × List (Handle D)} (hh : Calm c R h)
    (hg : ∀ a, r = .ok a → (g a).1 ≠ .running ∧ ∀ h ∈ (g a).2, Calm c R h) : CallEnds c R ((w, h), g <$> r) := by
  refine ⟨hh, fun o new ho => ?_⟩
  cases r with
  | ok a =>
    have := hg a rfl
    have ho : Res.ok (g a) = Res.ok (o, new) := ho
    rw [Res.ok.inj ho] at this
    exact this
  | err _ => cases ho
  | panic => cases ho

omit [Build] in
/-- A call on a device or a filesystem that gives back a value made without a loop. -/
theorem callEnds_zoom {S : Type} {c : Bytes} {R : Nat} {get : W × Handle D → S} {set : W × Handle D → S → W × Handle D}
    {α : Type} {m : SM S α} {g : α → SessionOut × List (Handle D)} {s : W × Handle D}
    (hset : ∀ t, Calm c R (set s t).2) (hg : ∀ a t, m (get s) = (t, .ok a) → (g a).1 ≠ .running ∧ ∀ h ∈ (g a).2, Calm c R h) :
    CallEnds c R (SM.zoom get set (m >>= fun a => pure (g a)) s) := by
  rcases hm : m (get s) with ⟨t, r⟩
  unfold SM.zoom
  simp only [bind_value hm]
  exact callEnds_value (hset t) fun a ha => hg a t (by rw [hm, ha])

/-- A file that is opened. -/
theorem Ext4Fs.openFile_calm (hv : VolumeSpec F dev G Is At) {c : Bytes} (hs : HoldsWhatItDeclares c) {R : Nat}
    (hR : EnoughRounds c R) {w : W} {fs : Ext4Fs D} (hG : G w) (ho : Opened Is c fs) (n : Nat) {t : W × Ext4Fs D}
    {f : OpenedFile D} (h : Ext4Fs.openFile dev n (w, fs) = (t, .ok f)) : ∀ h ∈ (ofOpened f).2, Calm c R h := by
  obtain ⟨w', fs', r, h1, -, -, h2⟩ := Ext4Fs.openFile_spec hv hG ho n
  rw [h] at h1
  obtain ⟨-, h1⟩ := Prod.mk.inj h1
  rcases h2 with ⟨-, e, rfl⟩ | ⟨w1, fs2, q, hG1, ho2, -, h3, rfl⟩
  · cases h1
  obtain ⟨w2, fs3, q', h4, -, -, h5, h6⟩ := Ext4Fs.readInode_safe hv hs hG1 ho n
  rw [h3] at h4
  obtain ⟨-, rfl⟩ := Prod.mk.inj h4
  match q with
  | .panic => exact absurd rfl h5
  | .err e => cases h1
  | .ok i =>
    obtain ⟨hslot, hnew⟩ := h6 i rfl
    have hroot : i.blocksBuffer = rootNode c n := (C60_fields _ n _ i hnew).2.2.2.2.2.2.2.2.1
    have hsz : i.fileSizeBytes = sizeOf c n := (C60_fields _ n _ i hnew).2.2.1
    obtain ⟨k1, k2, k3, k4, k5⟩ := OpenedFile.open_spec (fs := fs2) hnew
    replace h1 : Res.ok f = OpenedFile.open fs2 i := h1
    have hstack : HasTree c n → ∃ k, Weighs c (blockSizeOf (sbOf c)) [.tree (.fromInternal (.fromInode i)) 0] k ∧
        k + sizeOf c n / blockSizeOf (sbOf c) + 3 ≤ R := by
      intro ht
      obtain ⟨k, hk, hkR⟩ := hR n hslot ht
      refine ⟨k, ⟨k, 0, ?_, rfl, rfl⟩, hkR⟩
      rw [ExtentTree.node_fromInternal]
      show TreeLeft c _ i.blocksBuffer 0 k
      rw [hroot]
      exact treeLeft_zero hk
    by_cases t8 : typeNumber c n = 8
    · by_cases he : hasExtents c n
      · obtain ⟨f', hf, hf'⟩ := k1 t8 he
        rw [hf'] at h1
        cases h1
        intro h hh
        cases List.mem_singleton.1 hh
        obtain ⟨k, h7, h8⟩ := hstack ⟨.inl t8, he⟩
        obtain ⟨-, -, -, h9⟩ := Ext4File.open_inv (w := w) hG ho2 hf (fun _ => True) trivial
        exact ⟨k, h9 ▸ h7, by generalize sizeOf c n / blockSizeOf (sbOf c) = q at h8; omega⟩
      · rw [k2 t8 he] at h1
        cases h1
    by_cases t4 : typeNumber c n = 4
    · by_cases he : ¬ flagBit c n 12 ∧ hasExtents c n
      · obtain ⟨d, hd, hd'⟩ := k3 t4 he.1 he.2
        have ht : HasTree c n := ⟨.inr t4, he.2⟩
        rw [hd'] at h1
        cases h1
        intro h hh
        cases List.mem_singleton.1 hh
        obtain ⟨k, h7, h8⟩ := hstack ht
        obtain ⟨h10, -, -, h9⟩ := Ext4Directory.open_inv (w := w) hG ho2 hd (fun _ => True) trivial
          (.inr (hsz ▸ hs.sizes n hslot ht))
        refine ⟨k, h9 ▸ h7, by generalize sizeOf c n / blockSizeOf (sbOf c) = q at h8; omega, ?_⟩
        have : d.internal.inode = i := h10.file.inode
        rw [this, hsz]
        omega
      · rw [k4 t4 (Decidable.or_iff_not_imp_left.2 fun h1 h2 => he ⟨h1, h2⟩)] at h1
        cases h1
    · rw [k5 t8 t4] at h1
      cases h1
      intro h hh
      cases hh

/-- Every call that is given enough rounds returns. -/
theorem handleCall_ends (hv : VolumeSpec F dev G Is At) {c : Bytes} (hc : c.length < U64)
    (hs : HoldsWhatItDeclares c) {R : Nat} (hR : EnoughRounds c R) {call : SessionCall} (ht : call.given R)
    {h : Handle D} {w : W} (hG : G w) (hh : HandleOk G Is c h) (hk : Calm c R h) :
    CallEnds c R (handleCall dev call h (w, h)) := by
  have hnone : CallEnds c R ((w, h), (.ok (.noSuchHandle, []) : Res (SessionOut × List (Handle D)))) :=
    ⟨hk, fun o new ho => by
      cases ho
      exact ⟨fun h => (by cases h), fun h hh => (by cases hh)⟩⟩
  match h, hh with
  | .device d, hd =>
    cases call
    case clone =>
      exact callEnds_zoom (fun _ => trivial) fun a t _ =>
        ⟨fun h => (by cases h), fun h hm => by cases List.mem_singleton.1 hm; trivial⟩
    case bytes p buf =>
      refine ⟨trivial, fun o new ho => ?_⟩
      obtain ⟨a, t, -, h2⟩ := bind_value_inv (m := dev.seek (.start p)) (s := (w, d)) ho
      obtain ⟨a, t, -, h2⟩ := bind_value_inv h2
      cases h2
      exact ⟨fun h => (by cases h), fun h hm => (by cases hm)⟩
    case mount =>
      refine ⟨trivial, fun o new ho => ?_⟩
      obtain ⟨a, t, -, h2⟩ := bind_value_inv (m := onWorld (dev.tryClone d)) (s := (w, d)) ho
      obtain ⟨a, t, -, h2⟩ := bind_value_inv h2
      cases h2
      exact ⟨fun h => (by cases h), fun h hm => by cases List.mem_singleton.1 hm; trivial⟩
    all_goals exact hnone
  | .fs fs, ho =>
    have ho : Opened Is c fs := ho
    cases call
    case clone =>
      exact callEnds_zoom (fun _ => trivial) fun a t _ =>
        ⟨fun h => (by cases h), fun h hm => by cases List.mem_singleton.1 hm; trivial⟩
    case blockSize =>
      exact callEnds_zoom (fun _ => trivial) fun a t _ => ⟨fun h => (by cases h), fun h hm => (by cases hm)⟩
    case inode n =>
      exact callEnds_zoom (fun _ => trivial) fun a t _ => ⟨fun h => (by cases h), fun h hm => (by cases hm)⟩
    case rootInode =>
      exact callEnds_zoom (fun _ => trivial) fun a t _ => ⟨fun h => (by cases h), fun h hm => (by cases hm)⟩
    case block n buf =>
      exact callEnds_zoom (fun _ => trivial) fun a t _ => ⟨fun h => (by cases h), fun h hm => (by cases hm)⟩
    case openFile n =>
      refine callEnds_zoom (fun _ => trivial) fun a t ha => ⟨?_, Ext4Fs.openFile_calm hv hs hR hG ho n ha⟩
      cases a <;> (intro h; cases h)
    all_goals exact hnone
  | .file f, ⟨i, hsize, hi⟩ =>
    cases call
    case fileSize =>
      exact ⟨hk, fun o new ho => by
        cases ho
        exact ⟨fun h => (by cases h), fun h hh => (by cases hh)⟩⟩
    case nextBlock rounds buf =>
      obtain ⟨k, h1, h2⟩ := hk
      obtain ⟨k', h3, h4, h5⟩ := Ext4File.readNextBlock_weight hv hc hsize buf rounds (hi w hG) h1
      rcases hr : Ext4File.readNextBlock dev rounds buf (w, f) with ⟨⟨w', f'⟩, r⟩
      rw [hr] at h3 h5
      have h6 : handleCall dev (.nextBlock rounds buf) (.file f) (w, .file f) = ((w', .file f'),
          (fun r => (ofBlock r, [])) <$> r) := by
        show onFileHandle f _ (w, _) = _
        unfold onFileHandle SM.zoom
        simp only [bind_value hr]
      have h7 : R ≤ rounds := ht
      have h5 : r ≠ .ok none := h5 (by omega)
      rw [h6]
      refine callEnds_value ⟨k', h3, by omega⟩ fun a ha => ⟨?_, fun h hm => (by cases hm)⟩
      cases a with
      | none => exact absurd ha h5
      | some a => exact fun h => (by cases h)
    all_goals exact hnone
  | .dir d, ⟨i, hsize, hi⟩ =>
    cases call
    case nextEntry rounds =>
      obtain ⟨k, h1, h2, h8⟩ := hk
      have hin : d.internal.inode = i := (hi w hG).file.inode
      rw [hin] at h8
      obtain ⟨k', h3, h4, h5⟩ := Ext4Directory.readNextEntry_weight hv hc hsize rounds (hi w hG) h1
      obtain ⟨h9, -⟩ := Ext4Directory.readNextEntry_safe hv hc hsize rounds (hi w hG)
      rcases hr : Ext4Directory.readNextEntry dev rounds (w, d) with ⟨⟨w', d'⟩, r⟩
      rw [hr] at h3 h5 h9
      have h6 : handleCall dev (.nextEntry rounds) (.dir d) (w, .dir d) = ((w', .dir d'),
          (fun r => (ofEntry r, [])) <$> r) := by
        show onDirHandle d _ (w, _) = _
        unfold onDirHandle SM.zoom
        simp only [bind_value hr]
      have h7 : R ≤ rounds := ht
      have h5 : r ≠ .ok none := h5 (by omega) (by omega)
      have hin' : d'.internal.inode = i := h9.file.inode
      rw [h6]
      refine callEnds_value ⟨k', h3, by omega, by rw [hin']; exact h8⟩ fun a ha => ⟨?_, fun h hm => (by cases hm)⟩
      cases a with
      | none => exact absurd ha h5
      | some a => exact fun h => (by cases h)
    all_goals exact hnone

theorem sessionStep_ends (hv : VolumeSpec F dev G Is At) {c : Bytes} (hc : c.length < U64)
    (hs : HoldsWhatItDeclares c) {R : Nat} (hR : EnoughRounds c R) {call : SessionCall} (ht : call.given R) (i : Nat)
    {s : W × List (Handle D)} (hG : G s.1) (hh : ∀ h ∈ s.2, HandleOk G Is c h) (hk : ∀ h ∈ s.2, Calm c R h) :
    (∀ h ∈ (sessionStep dev i call s).1.2, Calm c R h) ∧ (sessionStep dev i call s).2 ≠ .running := by
  unfold sessionStep
  rcases hi : s.2[i]? with _ | h
  · exact ⟨hk, fun h => (by cases h)⟩
  · have hset : ∀ h', Calm c R h' → ∀ x ∈ s.2.set i h', Calm c R x := by
      intro h' hh' x hx
      rcases List.mem_or_eq_of_mem_set hx with hx | rfl
      · exact hk x hx
      · exact hh'
    obtain ⟨h2, h4⟩ := handleCall_ends hv hc hs hR ht hG (hh h (List.mem_of_getElem? hi)) (hk h (List.mem_of_getElem? hi))
    rcases hr : handleCall dev call h (s.1, h) with ⟨⟨w', h'⟩, r⟩
    rw [hr] at h2 h4
    simp only [hr]
    match r with
    | .ok (o, new) =>
      obtain ⟨h5, h6⟩ := h4 o new rfl
      refine ⟨fun x hx => ?_, h5⟩
      rcases List.mem_append.1 hx with hx | hx
      · exact hset _ h2 x hx
      · exact h6 x hx
    | .err e => exact ⟨hset _ h2, fun h => (by cases h)⟩
    | .panic => exact ⟨hset _ h2, fun h => (by cases h)⟩

theorem sessionRun_ends (hv : VolumeSpec F dev G Is At) {c : Bytes} (hc : c.length < U64)
    (hs : HoldsWhatItDeclares c) {R : Nat} (hR : EnoughRounds c R) (ops : List (Nat × SessionCall))
    (ht : ∀ x ∈ ops, x.2.wellTyped) (hg : ∀ x ∈ ops, x.2.given R) :
    ∀ s : W × List (Handle D), G s.1 → (∀ h ∈ s.2, HandleOk G Is c h) → (∀ h ∈ s.2, Calm c R h) →
      SessionOut.running ∉ sessionRun dev s ops := by
  induction ops with
  | nil => exact fun s _ _ _ h => (by cases h)
  | cons x ops ih =>
    intro s hG hh hk h
    obtain ⟨h1, h2, -⟩ := sessionStep_safe hv hc hs (ht x List.mem_cons_self) x.1 hG hh
    obtain ⟨h3, h4⟩ := sessionStep_ends hv hc hs hR (hg x List.mem_cons_self) x.1 hG hh hk
    rcases List.mem_cons.1 h with h | h
    · exact h4 h.symm
    · exact ih (fun y hy => ht y (List.mem_cons_of_mem _ hy)) (fun y hy => hg y (List.mem_cons_of_mem _ hy)) _ h1 h2 h3 h

end
end MdRecover
