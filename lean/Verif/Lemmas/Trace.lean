import Verif.Spec.Trace
import Verif.Lemmas.Ext4Retry

/-! Lemmas about the requests made to a device. -/

namespace MdRecover
variable [Build]
open MdSpec

section
variable {W D : Type} {F : Prop} {dev : StreamDev W D} {G : W → Prop} {Is : D → Bytes → Prop}
  {At : W → D → Nat → Prop}

omit [Build] in
theorem logged_seek {pos : SeekFrom} {w w1 : W} {d d1 : D} {r : Res Nat} (l : List Asked)
    (h : dev.seek pos (w, d) = ((w1, d1), r)) :
    (loggedDev dev).seek pos ((w, l), d) = (((w1, l ++ [.seek pos]), d1), r) := by
  simp only [loggedDev, h]

omit [Build] in
theorem logged_read {buf : Bytes} {w w1 : W} {d d1 : D} {r : Res (Nat × Bytes)} (l : List Asked)
    (h : dev.read buf (w, d) = ((w1, d1), r)) :
    (loggedDev dev).read buf ((w, l), d) = (((w1, l ++ [.read buf.length (returnedBytes r)]), d1), r) := by
  simp only [loggedDev, h]

omit [Build] in
theorem logged_clone {w w1 : W} {d : D} {r : Res D} (l : List Asked) (h : dev.tryClone d w = (w1, r)) :
    (loggedDev dev).tryClone d (w, l) = ((w1, l), r) := by
  simp only [loggedDev, SM.zoom, h]

omit [Build] in
/-- The device with a log is as good as the device. -/
theorem loggedDev_spec (hv : VolumeSpec F dev G Is At) :
    VolumeSpec F (loggedDev dev) (fun w => G w.1) Is (fun w d p => At w.1 d p) where
  seek := by
    rintro ⟨w, l⟩ d c hG hd p hp ⟨w', l'⟩ d' r h
    rcases hx : dev.seek (.start p) (w, d) with ⟨⟨w1, d1⟩, r1⟩
    rw [logged_seek l hx] at h
    cases h
    exact hv.seek hG hd p hp hx
  read := by
    rintro ⟨w, l⟩ d c p hG hd hat buf ⟨w', l'⟩ d' r h
    rcases hx : dev.read buf (w, d) with ⟨⟨w1, d1⟩, r1⟩
    rw [logged_read l hx] at h
    cases h
    exact hv.read hG hd hat buf hx
  tryClone := by
    rintro ⟨w, l⟩ d c hG hd ⟨w', l'⟩ r h
    rcases hx : dev.tryClone d w with ⟨w1, r1⟩
    rw [logged_clone l hx] at h
    cases h
    exact hv.tryClone hG hd hx

omit [Build] in
theorem bytesReturned_append (a b : List Asked) : bytesReturned (a ++ b) = bytesReturned a + bytesReturned b := by
  unfold bytesReturned
  rw [List.map_append, List.sum_append]

omit [Build] in
theorem asks_append {bs m : Nat} {xs ys : List Nat} {a b : List Asked} (h : Asks bs m xs a) (h' : Asks bs m ys b) :
    Asks bs m (xs ++ ys) (a ++ b) := by
  induction h with
  | nil => exact h'
  | cons x xs reads rest h1 h2 _ ih =>
    rw [List.cons_append, List.cons_append, List.append_assoc]
    exact .cons x _ reads _ h1 h2 ih

omit [Build] in
/-- The reads made to fill a buffer. -/
theorem readExact_log (hv : VolumeSpec F dev G Is At) {c : Bytes} : ∀ (fuel : Nat) (buf : Bytes) (w : W)
    (l : List Asked) (d : D) (p : Nat) (s' : (W × List Asked) × D) (r : Res Bytes), G w → Is d c → At w d p →
    readExactLoop (loggedDev dev).read fuel buf ((w, l), d) = (s', r) →
    ∃ reads, s'.1.2 = l ++ reads ∧ (∀ a ∈ reads, ∃ k n, a = Asked.read k n ∧ k ≤ buf.length) ∧
      bytesReturned reads ≤ buf.length := by
  intro fuel
  induction fuel with
  | zero =>
    intro buf w l d p s' r _ _ _ h
    cases h
    exact ⟨[], (List.append_nil _).symm, fun a ha => (by cases ha), Nat.zero_le _⟩
  | succ fuel ih =>
    intro buf w l d p s' r hG hd hat h
    unfold readExactLoop at h
    by_cases hb : buf = []
    · rw [if_pos hb] at h
      cases h
      exact ⟨[], (List.append_nil _).symm, fun a ha => (by cases ha), Nat.zero_le _⟩
    rw [if_neg hb] at h
    rcases hx : dev.read buf (w, d) with ⟨⟨w1, d1⟩, r1⟩
    have hread : (loggedDev dev).read buf ((w, l), d) =
        (((w1, l ++ [.read buf.length (returnedBytes r1)]), d1), r1) := logged_read l hx
    obtain ⟨hG1, hd1, h1⟩ := hv.read hG hd hat buf hx
    rcases h1 with ⟨j, buf', p', rfl, hsr, hat1⟩ | ⟨-, e, rfl⟩
    · rw [SM.bind_ok (h := hread)] at h
      simp only at h
      have hlen : buf'.length = buf.length := by
        rw [hsr.data, List.length_append, List.length_take, List.length_drop, List.length_drop]
        have := hsr.le
        rcases Nat.eq_zero_or_pos j with h0 | h0
        · omega
        · have := hsr.inside h0
          omega
      have hone : ∀ a ∈ [Asked.read buf.length (returnedBytes (.ok (j, buf')))],
          ∃ k n, a = Asked.read k n ∧ k ≤ buf.length := by
        intro a ha
        rw [List.mem_singleton.1 ha]
        exact ⟨_, _, rfl, Nat.le_refl _⟩
      have hsum : bytesReturned [Asked.read buf.length (returnedBytes (.ok (j, buf')))] = j := rfl
      by_cases hj : j = 0
      · rw [if_pos hj] at h
        cases h
        exact ⟨_, rfl, hone, by rw [hsum]; omega⟩
      rw [if_neg hj, if_neg (by have := hsr.le; omega)] at h
      rcases hrec : readExactLoop (loggedDev dev).read fuel (buf'.drop j)
        ((w1, l ++ [.read buf.length (returnedBytes (.ok (j, buf')))]), d1) with ⟨s2, r2⟩
      obtain ⟨reads, h2, h3, h4⟩ := ih _ _ _ _ _ _ _ hG1 hd1 hat1 hrec
      rw [List.length_drop, hlen] at h3 h4
      have hs : s' = s2 := by
        rcases r2 with a | e | _
        · rw [SM.bind_ok (h := hrec)] at h
          cases h
          rfl
        · rw [SM.bind_err (h := hrec)] at h
          cases h
          rfl
        · rw [SM.bind_panic (h := hrec)] at h
          cases h
          rfl
      subst hs
      refine ⟨.read buf.length (returnedBytes (.ok (j, buf'))) :: reads, ?_, ?_, ?_⟩
      · rw [h2, List.append_assoc]
        rfl
      · intro a ha
        rcases List.mem_cons.1 ha with rfl | ha
        · exact ⟨_, _, rfl, Nat.le_refl _⟩
        · obtain ⟨k, n, ha, hk⟩ := h3 a ha
          exact ⟨k, n, ha, by omega⟩
      · have : bytesReturned (.read buf.length (returnedBytes (.ok (j, buf'))) :: reads) = j + bytesReturned reads := by
          unfold bytesReturned
          rw [List.map_cons, List.sum_cons]
          rfl
        have := hsr.le
        omega
    · rw [SM.bind_err (h := hread)] at h
      cases h
      refine ⟨_, rfl, ?_, Nat.zero_le _⟩
      intro a ha
      rw [List.mem_singleton.1 ha]
      exact ⟨_, _, rfl, Nat.le_refl _⟩

/-- The requests made to read a block. -/
theorem readBlock_log (hv : VolumeSpec F dev G Is At) {c : Bytes} {w : W} (hG : G w) {l : List Asked}
    {fs : Ext4Fs D} (ho : Opened Is c fs) {x : Nat} {buf : Bytes} {s' : (W × List Asked) × Ext4Fs D} {r : Res Bytes}
    (h : Ext4Fs.readBlock (loggedDev dev) x buf ((w, l), fs) = (s', r)) :
    (s'.1.2 = l ∧ ∃ e, r = .err e) ∨
      ∃ acc, s'.1.2 = l ++ acc ∧ Asks (blockSizeOf (sbOf c)) buf.length [x] acc := by
  unfold Ext4Fs.readBlock at h
  rw [SM.bind_ok (h := SM.get_apply _)] at h
  simp only at h
  rw [SM.bind_ok (a := blockSizeOf (sbOf c)) (s' := ((w, l), fs)) (h := by
    show (_, fs.blockSize) = _
    rw [show fs.blockSize = .ok (blockSizeOf (sbOf c)) from ho.blockSize])] at h
  split at h
  · cases h
    exact .inl ⟨rfl, _, rfl⟩
  by_cases hm : x * blockSizeOf (sbOf c) < U64
  · rw [SM.bind_ok (a := x * blockSizeOf (sbOf c)) (s' := ((w, l), fs)) (h := by
      unfold checkedMul64
      rw [if_pos hm]
      rfl)] at h
    rcases hx : dev.seek (.start (x * blockSizeOf (sbOf c))) (w, fs.device) with ⟨⟨w1, d1⟩, r1⟩
    have hseek : (loggedDev dev).seek (.start (x * blockSizeOf (sbOf c))) ((w, l), fs.device) =
        (((w1, l ++ [.seek (.start (x * blockSizeOf (sbOf c)))]), d1), r1) := logged_seek l hx
    have hon : Ext4Fs.onDevice ((loggedDev dev).seek (.start (x * blockSizeOf (sbOf c)))) ((w, l), fs) =
        (((w1, l ++ [.seek (.start (x * blockSizeOf (sbOf c)))]), { fs with device := d1 }), r1) := by
      unfold Ext4Fs.onDevice SM.zoom
      rw [hseek]
    obtain ⟨hG1, hd1, h1⟩ := hv.seek hG ho.device _ hm hx
    have hnil : Asks (blockSizeOf (sbOf c)) buf.length [x] [.seek (.start (x * blockSizeOf (sbOf c)))] :=
      .cons x [] [] [] (fun a ha => by cases ha) (Nat.zero_le _) .nil
    rcases h1 with ⟨q, rfl, hat, -⟩ | ⟨-, e, rfl⟩
    · rw [SM.bind_ok (h := hon)] at h
      rcases hrd : readExactLoop (loggedDev dev).read buf.length buf
        ((w1, l ++ [.seek (.start (x * blockSizeOf (sbOf c)))]), d1) with ⟨s2, r2⟩
      obtain ⟨reads, h2, h3, h4⟩ := readExact_log hv _ _ _ _ _ _ _ _ hG1 hd1 hat hrd
      have hon2 : Ext4Fs.onDevice (readExact (loggedDev dev).read buf)
          ((w1, l ++ [.seek (.start (x * blockSizeOf (sbOf c)))]), { fs with device := d1 }) =
          ((s2.1, { fs with device := s2.2 }), r2) := by
        unfold Ext4Fs.onDevice SM.zoom readExact
        rw [hrd]
      rw [hon2] at h
      cases h
      refine .inr ⟨.seek (.start (x * blockSizeOf (sbOf c))) :: (reads ++ []), ?_, .cons x [] reads [] h3 h4 .nil⟩
      rw [List.append_nil]
      show s2.1.2 = _
      rw [h2, List.append_assoc]
      rfl
    · rw [SM.bind_err (h := hon)] at h
      cases h
      exact .inr ⟨_, rfl, hnil⟩
  · rw [SM.bind_err (e := .invalidInput) (s' := ((w, l), fs)) (h := by
      unfold checkedMul64
      rw [if_neg hm]
      rfl)] at h
    cases h
    exact .inl ⟨rfl, _, rfl⟩

namespace Ext4File

/-- The blocks to which the entries of the stack lead. -/
inductive Left (c : Bytes) (bs : Nat) : List StackEntry → List Nat → Prop where
  | nil : Left c bs [] []
  | tree (n : ExtentNode) (pos : Nat) (rest : List StackEntry) (xs ys : List Nat) :
      ReadOrder c bs n.storage pos xs → Left c bs rest ys →
      Left c bs (.tree (.fromInternal n) pos :: rest) (xs ++ ys)
  | extent (e : Extent) (pos k : Nat) (rest : List StackEntry) (ys : List Nat) :
      e.length = pos + k → Left c bs rest ys →
      Left c bs (.extent e pos :: rest) ((List.range' pos k).map (extentStart e.storage + ·) ++ ys)

omit [Build] in
theorem _root_.MdSpec.Asks.mono {bs m m' : Nat} (hm : m ≤ m') {xs : List Nat} {l : List Asked} (h : Asks bs m xs l) :
    Asks bs m' xs l := by
  induction h with
  | nil => exact .nil
  | cons x xs reads rest h1 h2 _ ih =>
    refine .cons x xs reads rest (fun a ha => ?_) (by omega) ih
    obtain ⟨l, n, h3, h4⟩ := h1 a ha
    exact ⟨l, n, h3, by omega⟩

/-- Following an entry of a branch asks for nothing but the block with the child. -/
theorem stepBranch_log (hv : VolumeSpec F dev G Is At) {c : Bytes} {w : W} (hG : G w) {l : List Asked}
    {f : Ext4File D} (ho : Opened Is c f.fs) {n : ExtentNode} {pos : Nat} (rest : List StackEntry)
    (hp : pos < nodeEntries n.storage) (hf : NodeFits n.storage) (hd : nodeDepth n.storage ≠ 0)
    {s' : (W × List Asked) × Ext4File D} {r : Res (Option (Nat × Bytes))}
    (h : stepTree (loggedDev dev) (.fromInternal n) pos rest ((w, l), f) = (s', r)) :
    (s'.1.2 = l ∧ ∃ e, r = .err e) ∨ ∃ acc, s'.1.2 = l ++ acc ∧
      Asks (blockSizeOf (sbOf c)) (blockSizeOf (sbOf c)) [indexChild (nodeEntry n.storage pos)] acc := by
  unfold stepTree at h
  rw [if_pos (by
    unfold ExtentTree.entryCount
    rw [ExtentTree.node_fromInternal, ExtentNode.entryCount_eq]; exact hp),
    ExtentTree.fromInternal_branch hd] at h
  simp only at h
  unfold stepBranch at h
  rw [get_bind, ExtentNode.entryAt_fits hp hf, lift_bind] at h
  simp only [ExtentIndex.block_eq, ExtentIndex.leaf_eq] at h
  by_cases hfirst : entryFirst (nodeEntry n.storage pos) = f.blockPos
  rotate_left
  · rw [if_pos hfirst] at h
    cases h
    exact .inl ⟨rfl, _, rfl⟩
  rw [if_neg (not_not_intro hfirst), Ext4File.blockSize_eq ho, lift_bind] at h
  have hz : (zeros (blockSizeOf (sbOf c))).length = blockSizeOf (sbOf c) := List.length_replicate
  rcases hread : Ext4Fs.readBlock (loggedDev dev) (indexChild (nodeEntry n.storage pos))
    (zeros (blockSizeOf (sbOf c))) ((w, l), f.fs) with ⟨⟨⟨w1, l1⟩, fs1⟩, r1⟩
  have hlog := readBlock_log hv hG ho hread
  rw [hz] at hlog
  have hl : s'.1.2 = l1 ∧ ∀ e, r1 = .err e → r = .err e := by
    rcases r1 with a | e | _
    · rw [SM.bind_ok (h := Ext4File.onFs_eq hread)] at h
      cases h
      exact ⟨rfl, fun e he => (by cases he)⟩
    · rw [SM.bind_err (h := Ext4File.onFs_eq hread)] at h
      cases h
      exact ⟨rfl, fun e' he => (by cases he; rfl)⟩
    · rw [SM.bind_panic (h := Ext4File.onFs_eq hread)] at h
      cases h
      exact ⟨rfl, fun e he => (by cases he)⟩
  rcases hlog with ⟨h1, e, h2⟩ | ⟨acc, h1, h2⟩
  · exact .inl ⟨hl.1.trans h1, e, hl.2 e h2⟩
  · exact .inr ⟨acc, hl.1.trans h1, h2⟩

/-- Reading a block of an extent asks for nothing but this block. -/
theorem stepExtent_log (hv : VolumeSpec F dev G Is At) {c : Bytes} {w : W} (hG : G w) {l : List Asked}
    {f : Ext4File D} (ho : Opened Is c f.fs) (buf : Bytes) {e : Extent} {pos : Nat} (rest : List StackEntry)
    (hp : pos < e.length)
    {s' : (W × List Asked) × Ext4File D} {r : Res (Option (Nat × Bytes))}
    (h : stepExtent (loggedDev dev) e pos rest buf ((w, l), f) = (s', r)) :
    (s'.1.2 = l ∧ ∃ e, r = .err e) ∨ ∃ acc, s'.1.2 = l ++ acc ∧
      Asks (blockSizeOf (sbOf c)) buf.length [extentStart e.storage + pos] acc := by
  unfold stepExtent at h
  rw [get_bind] at h
  simp only at h
  rw [if_pos hp, Extent.start_eq] at h
  by_cases hb : f.bytePos ≥ f.fileSizeBytes
  · rw [if_pos hb] at h
    cases h
    exact .inl ⟨rfl, _, rfl⟩
  rw [if_neg hb] at h
  rcases hread : Ext4Fs.readBlock (loggedDev dev) (extentStart e.storage + pos) buf ((w, l), f.fs) with
    ⟨⟨⟨w1, l1⟩, fs1⟩, r1⟩
  have hlog := readBlock_log hv hG ho hread
  have hl : s'.1.2 = l1 ∧ ∀ e, r1 = .err e → r = .err e := by
    rcases r1 with a | e | _
    · rw [SM.bind_ok (h := Ext4File.onFs_eq hread), Ext4File.blockSize_eq ho, lift_bind] at h
      refine ⟨?_, fun e he => (by cases he)⟩
      unfold setStack at h
      rw [SM.bind_ok (h := SM.modify_apply _ _), SM.bind_ok (h := SM.modify_apply _ _)] at h
      rcases hadd : add32 f.blockPos 1 with p | e | _
      · rw [hadd, lift_bind, SM.bind_ok (h := SM.modify_apply _ _)] at h
        cases h
        rfl
      · rw [hadd, SM.bind_err (h := SM.lift_apply _ _)] at h
        cases h
        rfl
      · rw [hadd, SM.bind_panic (h := SM.lift_apply _ _)] at h
        cases h
        rfl
    · rw [SM.bind_err (h := Ext4File.onFs_eq hread)] at h
      cases h
      exact ⟨rfl, fun e' he => (by cases he; rfl)⟩
    · rw [SM.bind_panic (h := Ext4File.onFs_eq hread)] at h
      cases h
      exact ⟨rfl, fun e he => (by cases he)⟩
  rcases hlog with ⟨h1, e, h2⟩ | ⟨acc, h1, h2⟩
  · exact .inl ⟨hl.1.trans h1, e, hl.2 e h2⟩
  · exact .inr ⟨acc, hl.1.trans h1, h2⟩

/-- Where a file that is being read stands: the blocks to which it has yet to come. -/
structure Ahead (Is : D → Bytes → Prop) (G : W → Prop) (c : Bytes) (todo : List Nat)
    (s : (W × List Asked) × Ext4File D) : Prop where
  good : G s.1.1
  opened : Opened Is c s.2.fs
  left : Left c (blockSizeOf (sbOf c)) s.2.stack todo

/-- One round of the loop: what it asks for is what comes next. -/
theorem ahead_step (hv : VolumeSpec F dev G Is At) {c : Bytes} (hc : c.length < U64) {todo : List Nat}
    {s s' : (W × List Asked) × Ext4File D} {buf : Bytes} {r : Res (Option (Nat × Bytes))}
    (hb : blockSizeOf (sbOf c) ≤ buf.length) (h : Ahead Is G c todo s)
    (hs : step (loggedDev dev) buf s = (s', r)) (hr : r ≠ .panic) :
    ∃ acc ys todo', s'.1.2 = s.1.2 ++ acc ∧ Asks (blockSizeOf (sbOf c)) buf.length ys acc ∧
      Ahead Is G c todo' s' ∧ (ys ++ todo').Sublist todo ∧ ((∃ a, r = .ok a) → ys ++ todo' = todo) ∧
      (∀ b, r = .ok (some (0, b)) → todo = []) := by
  obtain ⟨⟨w, l⟩, f⟩ := s
  have hG : G w := h.good
  have hlv := loggedDev_spec hv
  -- a round that asks for nothing
  have quiet : ∀ (todo' : List Nat) (f' : Ext4File D), s' = ((w, l), f') →
      Opened Is c f'.fs → Left c (blockSizeOf (sbOf c)) f'.stack todo' → todo'.Sublist todo →
      ((∃ a, r = .ok a) → todo' = todo) → (∀ b, r = .ok (some (0, b)) → todo = []) →
      ∃ acc ys todo', s'.1.2 = l ++ acc ∧ Asks (blockSizeOf (sbOf c)) buf.length ys acc ∧
        Ahead Is G c todo' s' ∧ (ys ++ todo').Sublist todo ∧ ((∃ a, r = .ok a) → ys ++ todo' = todo) ∧
        (∀ b, r = .ok (some (0, b)) → todo = []) := by
    rintro todo' f' rfl h1 h2 h3 h4 h5
    exact ⟨[], [], todo', (List.append_nil _).symm, .nil, ⟨hG, h1, h2⟩, h3, h4, h5⟩
  have hleft := h.left
  simp only at hleft
  match hst : f.stack with
  | [] =>
    rw [hst] at hleft
    cases hleft
    rw [step_empty _ buf _ f hst] at hs
    cases hs
    exact quiet [] f rfl h.opened (by rw [hst]; exact .nil) (List.Sublist.refl _) (fun _ => rfl) (fun _ _ => rfl)
  | .tree t pos :: rest =>
    rw [hst] at hleft
    rw [step_tree _ buf _ f hst] at hs
    generalize hst0 : StackEntry.tree t pos :: rest = st at hleft
    cases hleft with
    | nil => cases hst0
    | extent => cases hst0
    | tree n pos rest xs ys horder hrest =>
      cases hst0
      have hor := horder
      generalize hstore : n.storage = node at horder
      cases horder with
      | done =>
        rw [stepTree_done _ _ _ rest (by rw [hstore])] at hs
        cases hs
        exact quiet ys _ rfl h.opened hrest (List.Sublist.refl _) (fun _ => rfl) (fun _ h => (by cases h))
      | extent _ _ xs' hd hi hm hnext =>
        subst hstore
        by_cases hf : NodeFits n.storage
        rotate_left
        · rw [stepTree_panics _ _ _ rest hi hf] at hs
          cases hs
          exact absurd rfl hr
        rw [stepTree_leaf _ _ _ rest hi hf hd] at hs
        split at hs
        · cases hs
          have hlen : (Extent.mk (nodeEntry n.storage pos)).length = extentLen (nodeEntry n.storage pos) := by
            rw [Extent.length_eq]
            unfold extentLen
            have : le (nodeEntry n.storage pos) 4 2 < 65536 := le_lt _ _ 2
            show le (nodeEntry n.storage pos) 4 2 % 0x8000 = _
            split <;> omega
          refine quiet _ _ rfl h.opened ?_ (List.Sublist.refl _) (fun _ => rfl) (fun _ h => (by cases h))
          rw [List.append_assoc, List.range_eq_range']
          exact .extent _ 0 _ _ _ (by rw [hlen]; omega) (.tree _ _ _ _ _ hnext hrest)
        · cases hs
          exact quiet ys _ rfl h.opened hrest (List.sublist_append_right _ _) (fun ⟨_, h⟩ => (by cases h))
            (fun _ h => (by cases h))
      | index _ _ sub xs' hd hi hsub hnext =>
        subst hstore
        by_cases hf : NodeFits n.storage
        rotate_left
        · rw [stepTree_panics _ _ _ rest hi hf] at hs
          cases hs
          exact absurd rfl hr
        have hlog := stepBranch_log hv hG (f := { f with stack := rest }) h.opened rest hi hf hd hs
        obtain ⟨w', fs', hG', ho', h3⟩ := stepTree_branch hlv hc (w := (w, l)) hG
          (f := { f with stack := rest }) h.opened rest hi hf hd
        have hfail : ∀ e, s' = (w', { f with stack := rest, fs := fs' }) → r = .err e →
            ∃ acc ys' todo', s'.1.2 = l ++ acc ∧ Asks (blockSizeOf (sbOf c)) buf.length ys' acc ∧
              Ahead Is G c todo' s' ∧
              (ys' ++ todo').Sublist (indexChild (nodeEntry n.storage pos) :: sub ++ xs' ++ ys) ∧
              ((∃ a, r = .ok a) → ys' ++ todo' = indexChild (nodeEntry n.storage pos) :: sub ++ xs' ++ ys) ∧
              (∀ b, r = .ok (some (0, b)) → indexChild (nodeEntry n.storage pos) :: sub ++ xs' ++ ys = []) := by
          rintro e rfl rfl
          rcases hlog with ⟨h1, -⟩ | ⟨acc, h1, h2⟩
          · refine ⟨[], [], ys, ?_, .nil, ⟨hG', ho', hrest⟩, ?_, fun ⟨_, h⟩ => (by cases h), fun _ h => (by cases h)⟩
            · rw [List.append_nil]
              exact h1
            · exact List.sublist_append_right _ _
          · refine ⟨acc, _, ys, h1, h2.mono hb, ⟨hG', ho', hrest⟩, ?_, fun ⟨_, h⟩ => (by cases h),
              fun _ h => (by cases h)⟩
            rw [List.append_assoc]
            exact (List.sublist_append_right (sub ++ xs') ys).cons_cons _ |>.trans (by
              rw [List.append_assoc]
              exact List.Sublist.refl _)
        rcases h3 with ⟨-, h3⟩ | ⟨-, ⟨-, e, h3⟩ | ⟨-, h3⟩⟩
        · rw [h3] at hs
          cases hs
          exact hfail _ rfl rfl
        · rw [h3] at hs
          cases hs
          exact hfail _ rfl rfl
        · rw [h3] at hs
          cases hs
          rcases hlog with ⟨-, e, h1⟩ | ⟨acc, h1, h2⟩
          · cases h1
          · have happ : [indexChild (nodeEntry n.storage pos)] ++ (sub ++ (xs' ++ ys)) =
                indexChild (nodeEntry n.storage pos) :: sub ++ xs' ++ ys := by simp
            exact ⟨acc, _, sub ++ (xs' ++ ys), h1, h2.mono hb,
              ⟨hG', ho', .tree _ _ _ _ _ hsub (.tree _ _ _ _ _ hnext hrest)⟩,
              by rw [happ], fun _ => happ, fun _ h => (by cases h)⟩
  | .extent e pos :: rest =>
    rw [hst] at hleft
    rw [step_extent _ buf _ f hst] at hs
    cases hleft with
    | extent _ _ k _ ys hlen hrest =>
      cases k with
      | zero =>
        rw [stepExtent_done _ buf _ _ rest (by omega)] at hs
        cases hs
        exact quiet ys _ rfl h.opened hrest (List.Sublist.refl _) (fun _ => rfl) (fun _ h => (by cases h))
      | succ k =>
        have hpos : pos < e.length := by omega
        have hlog := stepExtent_log hv hG (f := { f with stack := rest }) h.opened buf rest hpos hs
        obtain ⟨w', fs', hG', ho', h3⟩ := stepExtent_block hlv hc (w := (w, l)) hG
          (f := { f with stack := rest }) h.opened buf hb rest hpos
        have happ : [extentStart e.storage + pos] ++
            ((List.range' (pos + 1) k).map (extentStart e.storage + ·) ++ ys) =
            (List.range' pos (k + 1)).map (extentStart e.storage + ·) ++ ys := by
          rw [List.range'_succ, List.map_cons]
          rfl
        have hfail : ∀ e', s' = (w', { f with stack := rest, fs := fs' }) → r = .err e' →
            ∃ acc ys' todo', s'.1.2 = l ++ acc ∧ Asks (blockSizeOf (sbOf c)) buf.length ys' acc ∧
              Ahead Is G c todo' s' ∧
              (ys' ++ todo').Sublist ((List.range' pos (k + 1)).map (extentStart e.storage + ·) ++ ys) ∧
              ((∃ a, r = .ok a) → ys' ++ todo' = (List.range' pos (k + 1)).map (extentStart e.storage + ·) ++ ys) ∧
              (∀ b, r = .ok (some (0, b)) → (List.range' pos (k + 1)).map (extentStart e.storage + ·) ++ ys = []) := by
          rintro e' rfl rfl
          rcases hlog with ⟨h1, -⟩ | ⟨acc, h1, h2⟩
          · refine ⟨[], [], ys, ?_, .nil, ⟨hG', ho', hrest⟩, ?_, fun ⟨_, h⟩ => (by cases h), fun _ h => (by cases h)⟩
            · rw [List.append_nil]
              exact h1
            · exact List.sublist_append_right _ _
          · refine ⟨acc, _, ys, h1, h2, ⟨hG', ho', hrest⟩, ?_, fun ⟨_, h⟩ => (by cases h), fun _ h => (by cases h)⟩
            rw [← happ]
            exact (List.sublist_append_right _ ys).cons_cons _
        have hdone : ∀ g : Ext4File D, ∀ a, s' = (w', g) → r = .ok a → a.elim True (fun x => x.1 ≠ 0) → g.fs = fs' →
            g.stack = .extent e (pos + 1) :: rest →
            ∃ acc ys' todo', s'.1.2 = l ++ acc ∧ Asks (blockSizeOf (sbOf c)) buf.length ys' acc ∧
              Ahead Is G c todo' s' ∧
              (ys' ++ todo').Sublist ((List.range' pos (k + 1)).map (extentStart e.storage + ·) ++ ys) ∧
              ((∃ a, r = .ok a) → ys' ++ todo' = (List.range' pos (k + 1)).map (extentStart e.storage + ·) ++ ys) ∧
              (∀ b, r = .ok (some (0, b)) → (List.range' pos (k + 1)).map (extentStart e.storage + ·) ++ ys = []) := by
          rintro g a rfl rfl hne hfs hstk
          rcases hlog with ⟨-, e', h1⟩ | ⟨acc, h1, h2⟩
          · cases h1
          · refine ⟨acc, _, _, h1, h2, ⟨hG', ?_, ?_⟩, ?_, fun _ => happ, ?_⟩
            · show Opened Is c g.fs
              rw [hfs]
              exact ho'
            · show Left _ _ g.stack _
              rw [hstk]
              exact .extent e (pos + 1) k rest ys (by omega) hrest
            · rw [happ]
            · intro b hb
              cases hb
              exact absurd rfl hne
        rcases h3 with ⟨-, h3⟩ | ⟨hlt, ⟨-, k', h3⟩ | ⟨-, h3⟩⟩
        · rw [h3] at hs
          cases hs
          exact hfail _ rfl rfl
        · rw [h3] at hs
          cases hs
          exact hfail _ rfl rfl
        · have hlt : f.bytePos < f.fileSizeBytes := hlt
          have hbs : 0 < blockSizeOf (sbOf c) := Nat.mul_pos (by omega) (Nat.two_pow_pos _)
          have hne : min (f.fileSizeBytes - f.bytePos) (blockSizeOf (sbOf c)) ≠ 0 := by omega
          rw [h3] at hs
          split at hs
          · cases hs
            exact hdone _ _ rfl rfl hne rfl rfl
          · split at hs
            · cases hs
              exact absurd rfl hr
            · cases hs
              exact hdone _ _ rfl rfl hne rfl rfl

/-- Rounds that return nothing. -/
theorem ahead_silent (hv : VolumeSpec F dev G Is At) {c : Bytes} (hc : c.length < U64)
    {s s' : (W × List Asked) × Ext4File D} {buf : Bytes} (hb : blockSizeOf (sbOf c) ≤ buf.length)
    (hs : Silent (loggedDev dev) buf s s') : ∀ {todo : List Nat}, Ahead Is G c todo s →
    ∃ acc ys todo', s'.1.2 = s.1.2 ++ acc ∧ Asks (blockSizeOf (sbOf c)) buf.length ys acc ∧
      Ahead Is G c todo' s' ∧ ys ++ todo' = todo := by
  induction hs with
  | refl s => exact fun {todo} h => ⟨[], [], todo, (List.append_nil _).symm, .nil, h, rfl⟩
  | head s s1 s2 h1 _ ih =>
    intro todo h
    obtain ⟨acc1, ys1, todo1, h2, h3, h4, -, h5, -⟩ := ahead_step hv hc hb h h1 (fun h => (by cases h))
    obtain ⟨acc2, ys2, todo2, h6, h7, h8, h9⟩ := ih h4
    refine ⟨acc1 ++ acc2, ys1 ++ ys2, todo2, ?_, asks_append h3 h7, h8, ?_⟩
    · rw [h6, h2, List.append_assoc]
    · rw [List.append_assoc, h9, h5 ⟨_, rfl⟩]

/-- A call. -/
theorem ahead_returns (hv : VolumeSpec F dev G Is At) {c : Bytes} (hc : c.length < U64) {todo : List Nat}
    {s s' : (W × List Asked) × Ext4File D} {buf : Bytes} {r : Res (Nat × Bytes)} (h : Ahead Is G c todo s)
    (hret : Returns (loggedDev dev) s buf s' r) (hr : r ≠ .panic) :
    ∃ acc ys todo', s'.1.2 = s.1.2 ++ acc ∧ Asks (blockSizeOf (sbOf c)) buf.length ys acc ∧
      Ahead Is G c todo' s' ∧ (ys ++ todo').Sublist todo ∧
      ((buf.length < blockSizeOf (sbOf c) ∨ ∃ a, r = .ok a) → ys ++ todo' = todo) ∧
      (∀ b, r = .ok (0, b) → todo' = []) := by
  obtain ⟨w, f⟩ := s
  by_cases hb : buf.length < blockSizeOf (sbOf c)
  · obtain ⟨rfl, rfl⟩ := (returns_short h.opened hb).1 hret
    exact ⟨[], [], todo, (List.append_nil _).symm, .nil, h, List.Sublist.refl _, fun _ => rfl, fun _ h => (by cases h)⟩
  · have hb := Nat.le_of_not_lt hb
    obtain ⟨s1, h1, h2⟩ := (returns_iff h.opened hb).1 hret
    obtain ⟨acc1, ys1, todo1, h3, h4, h5, h6⟩ := ahead_silent hv hc hb h1 h
    obtain ⟨acc2, ys2, todo2, h7, h8, h9, h10, h11, h12⟩ := ahead_step hv hc hb h5 h2 (by
      intro h
      rcases r with a | e | _
      · cases h
      · cases h
      · exact hr rfl)
    refine ⟨acc1 ++ acc2, ys1 ++ ys2, todo2, ?_, asks_append h4 h8, h9, ?_, ?_, ?_⟩
    · rw [h7, h3, List.append_assoc]
    · rw [List.append_assoc, ← h6]
      exact h10.append_left ys1
    · rintro (h | ⟨a, rfl⟩)
      · omega
      · rw [List.append_assoc, h11 ⟨_, rfl⟩, h6]
    · rintro b rfl
      have := h12 b rfl
      subst this
      exact (List.append_eq_nil_iff.1 (List.sublist_nil.1 h10)).2

/-- A round of the loop on a file of which nothing more can be read asks for nothing. -/
theorem dead_step_log {dev : StreamDev W D} {c : Bytes} {s s' : W × Ext4File D} {buf : Bytes}
    {r : Res (Option (Nat × Bytes))} (h : Dead Is c s) (hs : step dev buf s = (s', r)) : s'.1 = s.1 := by
  obtain ⟨w, f⟩ := s
  have hstack := h.stack
  simp only at hstack
  match hst : f.stack with
  | [] =>
    rw [step_empty dev buf w f hst, if_neg h.bytes] at hs
    cases hs
    rfl
  | x :: rest =>
    rw [hst] at hstack
    obtain ⟨n, pos, rfl, hx⟩ := hstack x List.mem_cons_self
    rw [step_tree dev buf w f hst] at hs
    by_cases hp : pos < nodeEntries n.storage
    · obtain ⟨hf, hlt⟩ := hx pos (Nat.le_refl _) hp
      have hlt : f.blockPos < entryFirst (nodeEntry n.storage pos) := hlt
      by_cases h0 : nodeDepth n.storage = 0
      · rw [stepTree_leaf dev w _ rest hp hf h0, if_neg (by show ¬ _ = f.blockPos; omega)] at hs
        cases hs
        rfl
      · unfold stepTree at hs
        rw [if_pos (by
          unfold ExtentTree.entryCount
          rw [ExtentTree.node_fromInternal, ExtentNode.entryCount_eq]; omega),
          ExtentTree.fromInternal_branch h0] at hs
        simp only at hs
        unfold stepBranch at hs
        rw [get_bind, ExtentNode.entryAt_fits hp hf, lift_bind] at hs
        simp only [ExtentIndex.block_eq] at hs
        rw [if_pos (by omega)] at hs
        cases hs
        rfl
    · rw [stepTree_done dev w _ rest (by omega)] at hs
      cases hs
      rfl

theorem dead_silent_log {dev : StreamDev W D} {c : Bytes} {s s' : W × Ext4File D} {buf : Bytes}
    (h : Silent dev buf s s') (hd : Dead Is c s) : s'.1 = s.1 := by
  induction h with
  | refl => rfl
  | head _ _ _ h1 _ ih => exact (ih (dead_step hd h1).1).trans (dead_step_log hd h1)

theorem dead_returns_log {dev : StreamDev W D} {c : Bytes} {s s' : W × Ext4File D} {buf : Bytes}
    {r : Res (Nat × Bytes)} (hd : Dead Is c s) (h : Returns dev s buf s' r) : s'.1 = s.1 := by
  obtain ⟨w, f⟩ := s
  by_cases hb : buf.length < blockSizeOf (sbOf c)
  · obtain ⟨rfl, rfl⟩ := (returns_short hd.opened hb).1 h
    rfl
  · obtain ⟨s1, h1, h2⟩ := (returns_iff hd.opened (Nat.le_of_not_lt hb)).1 h
    exact (dead_step_log (dead_silent h1 hd) h2).trans (dead_silent_log h1 hd)

end Ext4File

end
end MdRecover
