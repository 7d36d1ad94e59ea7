import Verif.Spec.Front
import Verif.Lemmas.Salvage

/-! A file is read up to the first block that cannot be read. -/

namespace MdRecover
open MdSpec

/-- `m1` does what `m2` does, or fails. -/
def OrErr {S α : Type} (m1 m2 : SM S α) (s : S) : Prop := m1 s = m2 s ∨ ∃ s' e, m1 s = (s', .err e)

theorem OrErr.bind {S α β : Type} {m1 m2 : SM S α} {k1 k2 : α → SM S β} {s : S} (h : OrErr m1 m2 s)
    (hk : ∀ a s', m2 s = (s', .ok a) → OrErr (k1 a) (k2 a) s') : OrErr (m1 >>= k1) (m2 >>= k2) s := by
  rcases h with h | ⟨s', e, h⟩
  · rcases hm : m2 s with ⟨s', a | e | _⟩
    · rw [hm] at h
      unfold OrErr
      rw [SM.bind_ok (h := h), SM.bind_ok (h := hm)]
      exact hk a s' hm
    · rw [hm] at h
      left
      rw [SM.bind_err (h := h), SM.bind_err (h := hm)]
    · rw [hm] at h
      left
      rw [SM.bind_panic (h := h), SM.bind_panic (h := hm)]
  · exact .inr ⟨s', e, SM.bind_err _ h⟩

theorem OrErr.rfl {S α : Type} {m : SM S α} {s : S} : OrErr m m s := .inl (Eq.refl _)

theorem OrErr.of_eq {S α : Type} {m m' : SM S α} {s : S} (h : m s = m' s) : OrErr m m' s := .inl h

theorem OrErr.zoom {S T α : Type} {get : S → T} {put : S → T → S} {m1 m2 : SM T α} {s : S}
    (h : OrErr m1 m2 (get s)) : OrErr (SM.zoom get put m1) (SM.zoom get put m2) s := by
  unfold OrErr SM.zoom
  rcases h with h | ⟨s', e, h⟩
  · exact .inl (by rw [h])
  · exact .inr ⟨put s s', e, by rw [h]⟩

section
variable {W D : Type}

/-- Each read of `dev` does what `dev'` does, or fails. -/
def ReadsOrErr (dev dev' : StreamDev W D) : Prop := ∀ buf s, OrErr (dev.read buf) (dev'.read buf) s

theorem patched_or (dev : StreamDev W D) (At : W → D → Nat → Prop) (c : Bytes) : ReadsOrErr dev (patched dev At c) := by
  intro buf s
  rcases h : dev.read buf s with ⟨s', a | e | _⟩
  · exact .inl (patched_read_ok (by rw [h])).symm
  · exact .inr ⟨s', e, h⟩
  · left
    simp only [patched, h]

variable {dev dev' : StreamDev W D}

theorem ReadsOrErr.readExactLoop (h : ReadsOrErr dev dev') : ∀ (fuel : Nat) (buf : Bytes) (s : W × D),
    OrErr (readExactLoop dev.read fuel buf) (readExactLoop dev'.read fuel buf) s
  | 0, buf, s => by rw [MdRecover.readExactLoop, MdRecover.readExactLoop]; exact .rfl
  | fuel + 1, buf, s => by
    rw [MdRecover.readExactLoop, MdRecover.readExactLoop]
    by_cases hb : buf = []
    · rw [if_pos hb, if_pos hb]; exact .rfl
    rw [if_neg hb, if_neg hb]
    refine (h buf s).bind ?_
    rintro ⟨j, buf'⟩ s' -
    by_cases hj : j = 0
    · simp only [if_pos hj]; exact .rfl
    simp only [if_neg hj]
    by_cases hbl : buf'.length < j
    · rw [if_pos hbl, if_pos hbl]; exact .rfl
    rw [if_neg hbl, if_neg hbl]
    exact (h.readExactLoop fuel _ s').bind fun _ _ _ => .rfl

variable [Build]

theorem ReadsOrErr.readBlock (h : ReadsOrErr dev dev') (hs : dev.seek = dev'.seek) (b : Nat) (buf : Bytes)
    (s : W × Ext4Fs D) : OrErr (Ext4Fs.readBlock dev b buf) (Ext4Fs.readBlock dev' b buf) s := by
  unfold Ext4Fs.readBlock
  refine OrErr.bind .rfl fun fs s1 _ => OrErr.bind .rfl fun bs s1 _ => ?_
  split
  · exact .rfl
  · refine OrErr.bind .rfl fun p s1 _ => ?_
    rw [hs]
    refine OrErr.bind .rfl fun q s1 _ => ?_
    exact OrErr.zoom (h.readExactLoop _ buf _)

theorem ReadsOrErr.stepExtent (h : ReadsOrErr dev dev') (hs : dev.seek = dev'.seek) (e : Extent) (pos : Nat)
    (rest : List StackEntry) (buf : Bytes) (s : W × Ext4File D) :
    OrErr (Ext4File.stepExtent dev e pos rest buf) (Ext4File.stepExtent dev' e pos rest buf) s := by
  unfold Ext4File.stepExtent
  refine OrErr.bind .rfl fun f s1 _ => ?_
  split
  · dsimp only
    split
    · exact .rfl
    · exact OrErr.bind (OrErr.zoom (h.readBlock hs _ _ _)) fun _ _ _ => .rfl
  · exact .rfl

namespace Ext4File
variable {bad : Nat → Prop} {c : Bytes} {G : W → Prop} {Is : D → Bytes → Prop} {At : W → D → Nat → Prop}

/-- The nodes of the tree can be read. -/
structure NodesClear (bad : Nat → Prop) (c : Bytes) (P : Bytes → Prop) : Prop where
  closed : Ext4File.Closed P c (blockSizeOf (sbOf c))
  child : ∀ node i, P node → NodeFits node → i < nodeEntries node → nodeDepth node ≠ 0 →
    Intact bad c (indexChild (nodeEntry node i) * blockSizeOf (sbOf c)) (blockSizeOf (sbOf c))

/-- A round that returns nothing reads nodes only. -/
theorem step_silent (h : Agree bad c dev dev' G Is At) (hc : c.length < U64) {P : Bytes → Prop}
    (hP : NodesClear bad c P) {i : Inode}
    {s s' : W × Ext4File D} (hi : Ext4File.Inv Is G c P i s) {buf : Bytes}
    (hb : buf.length = blockSizeOf (sbOf c)) (h0 : Ext4File.step dev' buf s = (s', .ok none)) :
    Ext4File.step dev buf s = Ext4File.step dev' buf s := by
  obtain ⟨w, f⟩ := s
  have hst : Ext4File.StackOk P f.blockPos f.stack := hi.stack
  have hz : (zeros (blockSizeOf (sbOf c))).length = blockSizeOf (sbOf c) := List.length_replicate
  match hs : f.stack with
  | [] => rw [Ext4File.step_empty dev buf w f hs, Ext4File.step_empty dev' buf w f hs]
  | .tree t pos :: rest =>
    rw [hs] at hst
    obtain ⟨hx, -⟩ := hst
    obtain ⟨n, pos', heq, hPn⟩ : Ext4File.TreeOk P (.tree t pos) := by
      rcases hx with hx | ⟨_, _, _, hx, _⟩
      · exact hx
      · cases hx
    cases heq
    rw [Ext4File.step_tree dev buf w f hs, Ext4File.step_tree dev' buf w f hs]
    by_cases h1 : nodeEntries n.storage ≤ pos
    · rw [Ext4File.stepTree_done dev w _ rest h1, Ext4File.stepTree_done dev' w _ rest h1]
    have h1 : pos < nodeEntries n.storage := by omega
    by_cases h2 : NodeFits n.storage
    rotate_left
    · rw [Ext4File.stepTree_panics dev w _ rest h1 h2, Ext4File.stepTree_panics dev' w _ rest h1 h2]
    by_cases h3 : nodeDepth n.storage = 0
    · rw [Ext4File.stepTree_leaf dev w _ rest h1 h2 h3, Ext4File.stepTree_leaf dev' w _ rest h1 h2 h3]
    · have hlt : pos < (ExtentTree.fromInternal n).entryCount := by
        unfold ExtentTree.entryCount
        rw [ExtentTree.node_fromInternal, ExtentNode.entryCount_eq]; omega
      unfold Ext4File.stepTree
      rw [if_pos hlt, if_pos hlt, ExtentTree.fromInternal_branch h3]
      show Ext4File.stepBranch dev n pos rest _ = Ext4File.stepBranch dev' n pos rest _
      unfold Ext4File.stepBranch
      rw [Ext4File.get_bind, Ext4File.get_bind, ExtentNode.entryAt_fits h1 h2, Ext4File.lift_bind,
        Ext4File.lift_bind]
      simp only [ExtentIndex.block_eq, ExtentIndex.leaf_eq]
      split
      · rfl
      have hbs : (Ext4File.blockSize { f with stack := rest }) = .ok (blockSizeOf (sbOf c)) :=
        Ext4File.blockSize_eq hi.opened
      rw [hbs, Ext4File.lift_bind, Ext4File.lift_bind]
      refine SM.bind_congr (SM.zoom_congr (h.readBlock hi.good hi.opened ?_)) fun _ _ _ => rfl
      rw [hz]
      exact hP.child _ _ hPn h2 h1 h3
  | .extent e pos :: rest =>
    rw [Ext4File.step_extent dev buf w f hs, Ext4File.step_extent dev' buf w f hs]
    by_cases h5 : e.length ≤ pos
    · rw [Ext4File.stepExtent_done dev buf w _ rest h5, Ext4File.stepExtent_done dev' buf w _ rest h5]
    exfalso
    rw [Ext4File.step_extent dev' buf w f hs] at h0
    obtain ⟨w', fs', -, -, h3⟩ := stepExtent_block h.perfect hc hi.good
      (f := { f with stack := rest }) hi.opened buf (Nat.le_of_eq hb.symm) rest (show pos < e.length by omega)
    rcases h3 with ⟨-, h3⟩ | ⟨-, ⟨-, _, h3⟩ | ⟨-, h3⟩⟩
    · rw [h3] at h0; cases h0
    · rw [h3] at h0; cases h0
    · rw [h3] at h0
      split at h0
      · cases h0
      · split at h0 <;> cases h0

theorem silent_clear (h : Agree bad c dev dev' G Is At) (hc : c.length < U64) {P : Bytes → Prop}
    (hP : NodesClear bad c P) {i : Inode} {buf : Bytes}
    (hb : buf.length = blockSizeOf (sbOf c)) {s s' : W × Ext4File D} (hs : Silent dev' buf s s') :
    Inv Is G c P i s → Silent dev buf s s' := by
  induction hs with
  | refl => exact fun _ => .refl _
  | head s s1 s2 h1 _ ih =>
    intro hi
    obtain ⟨hi1, -⟩ := step_inv h.perfect hc hP.closed hi (Nat.le_of_eq hb.symm) h1 (by intro h; cases h)
      (.inr (.inr (.inr rfl)))
    exact .head _ s1 _ ((step_silent h hc hP hi hb h1).trans h1) (ih hi1)

omit [Build] in
theorem StackOk.true {P : Bytes → Prop} {p : Nat} {st : List StackEntry} (h : StackOk P p st) :
    StackOk (fun _ => True) p st := by
  cases st with
  | nil => trivial
  | cons x rest =>
    refine ⟨h.1.imp ?_ ?_, fun y hy => ?_⟩
    · rintro ⟨n, pos, h1, -⟩; exact ⟨n, pos, h1, trivial⟩
    · rintro ⟨n, a, b, h1, -, h2⟩; exact ⟨n, a, b, h1, trivial, h2⟩
    · obtain ⟨n, pos, h1, -⟩ := h.2 y hy; exact ⟨n, pos, h1, trivial⟩

omit [Build] in
theorem Inv.true {P : Bytes → Prop} {i : Inode} {s : W × Ext4File D} (h : Inv Is G c P i s) :
    Inv Is G c (fun _ => True) i s := ⟨h.good, h.opened, h.inode, h.stack.true, h.bytes⟩

theorem Silent.unique {buf : Bytes} {s a b : W × Ext4File D} (ha : Silent dev buf s a)
    (hna : ∀ t, step dev buf a ≠ (t, .ok none)) :
    Silent dev buf s b → (∀ t, step dev buf b ≠ (t, .ok none)) → a = b := by
  induction ha with
  | refl s =>
    intro hb _
    cases hb with
    | refl => rfl
    | head _ s1 _ h1 _ => exact absurd h1 (hna s1)
  | head s s1 s2 h1 _ ih =>
    intro hb hnb
    cases hb with
    | refl => exact absurd h1 (hnb s1)
    | head _ s1' _ h1' h2' =>
      rw [h1] at h1'
      cases h1'
      exact ih hna h2' hnb

/-- The next block: it is returned, or the call fails; it is returned if it can be read. -/
theorem next_or (h : Agree bad c dev dev' G Is At) (ho : ReadsOrErr dev dev') (hc : c.length < U64)
    {P : Bytes → Prop} (hP : NodesClear bad c P) {i : Inode} (hw : BlocksCounted c i.fileSizeBytes) {buf : Bytes}
    (hb : buf.length = blockSizeOf (sbOf c)) {p x : Nat} {xs : List Nat} {s : W × Ext4File D}
    (hi : Inv Is G c P i s) (hp : s.2.blockPos = p)
    (hpen : Pending c (blockSizeOf (sbOf c)) s.2.stack p (x :: xs))
    (hlt : p * blockSizeOf (sbOf c) < i.fileSizeBytes) (hp32 : p + 1 < U32)
    (hin : x * blockSizeOf (sbOf c) + buf.length ≤ c.length) :
    (∃ s', Returns dev s buf s' (.ok (min (i.fileSizeBytes - p * blockSizeOf (sbOf c))
        (blockSizeOf (sbOf c)), slice c (x * blockSizeOf (sbOf c)) buf.length)) ∧
      Inv Is G c P i s' ∧ s'.2.blockPos = p + 1 ∧
      Pending c (blockSizeOf (sbOf c)) s'.2.stack (p + 1) xs) ∨
    (¬ Intact bad c (x * blockSizeOf (sbOf c)) (blockSizeOf (sbOf c)) ∧ ∃ s' e, Returns dev s buf s' (.err e)) := by
  have hbl := Nat.le_of_eq hb.symm
  obtain ⟨s', hr, hi', hp', hpen'⟩ := pending_next h.perfect hc hbl hi.true hp hpen hlt hp32 hin
  have hiP' := (returns_inv h.perfect hc hP.closed hi hr (fun h => by cases h) hw).1
  obtain ⟨s1, hs1, hstep⟩ := (returns_iff (w := s.1) hi.opened hbl).1 hr
  obtain ⟨s2, hs2, h2⟩ := pending_stack h.perfect hc hbl hpen s hi.true hp rfl
  rcases h2 with ⟨h2, -⟩ | ⟨e, pos, rest, hst, hlen, hpen2⟩
  · cases h2
  have hx : x = extentStart e.storage + pos := by
    rw [hst] at hpen2
    generalize hxs : x :: xs = l at hpen2
    cases hpen2 with
    | extent e pos k rest p ys hl hpen =>
      cases k with
      | zero => omega
      | succ k =>
        rw [List.range'_succ, List.map_cons, List.cons_append] at hxs
        exact (List.cons.inj hxs).1
  obtain ⟨w2, f2⟩ := s2
  have hst : f2.stack = .extent e pos :: rest := hst
  have hi2 := (silent_inv h.perfect hc hP.closed hbl hs2 hi).1
  have hn2 : ∀ t, step dev' buf (w2, f2) ≠ (t, .ok none) := by
    intro t h0
    rw [Ext4File.step_extent dev' buf w2 f2 hst] at h0
    obtain ⟨w', fs', -, -, h3⟩ := stepExtent_block h.perfect hc hi2.good
      (f := { f2 with stack := rest }) hi2.opened buf hbl rest hlen
    rcases h3 with ⟨-, h3⟩ | ⟨-, ⟨-, _, h3⟩ | ⟨-, h3⟩⟩
    · rw [h3] at h0; cases h0
    · rw [h3] at h0; cases h0
    · rw [h3] at h0
      split at h0
      · cases h0
      · split at h0 <;> cases h0
  obtain rfl := Silent.unique hs1 (fun t ht => by rw [hstep] at ht; cases ht) hs2 hn2
  have hsd := silent_clear h hc hP hb hs2 hi
  have hor := ho.stepExtent h.seek e pos rest buf (w2, { f2 with stack := rest })
  by_cases hint : Intact bad c (x * blockSizeOf (sbOf c)) (blockSizeOf (sbOf c))
  · left
    refine ⟨s', (returns_iff (w := s.1) hi.opened hbl).2 ⟨_, hsd, ?_⟩, hiP', hp', hpen'⟩
    rw [← hstep, Ext4File.step_extent dev buf w2 f2 hst, Ext4File.step_extent dev' buf w2 f2 hst]
    unfold Ext4File.stepExtent
    rw [Ext4File.get_bind, Ext4File.get_bind]
    simp only [Extent.start_eq]
    rw [if_pos hlen, if_pos hlen]
    split
    · rfl
    refine SM.bind_congr (SM.zoom_congr (h.readBlock hi2.good hi2.opened ?_)) fun _ _ _ => rfl
    rw [hb, ← hx]
    exact hint
  · rcases hor with hor | ⟨t, e', hor⟩
    · left
      refine ⟨s', (returns_iff (w := s.1) hi.opened hbl).2 ⟨_, hsd, ?_⟩, hiP', hp', hpen'⟩
      rw [← hstep, Ext4File.step_extent dev buf w2 f2 hst, Ext4File.step_extent dev' buf w2 f2 hst]
      exact hor
    · right
      refine ⟨hint, t, e', (returns_iff (w := s.1) hi.opened hbl).2 ⟨_, hsd, ?_⟩⟩
      rw [Ext4File.step_extent dev buf w2 f2 hst]
      exact hor

/-- At the end nothing more is returned. -/
theorem end_clear (h : Agree bad c dev dev' G Is At) (hc : c.length < U64)
    {P : Bytes → Prop} (hP : NodesClear bad c P) {i : Inode} {buf : Bytes}
    (hb : buf.length = blockSizeOf (sbOf c)) {p : Nat} {s : W × Ext4File D}
    (hi : Inv Is G c P i s) (hp : s.2.blockPos = p)
    (hpen : Pending c (blockSizeOf (sbOf c)) s.2.stack p [])
    (hle : i.fileSizeBytes ≤ p * blockSizeOf (sbOf c)) : ∃ s', Returns dev s buf s' (.ok (0, buf)) := by
  have hbl := Nat.le_of_eq hb.symm
  obtain ⟨⟨w1, f1⟩, h1, h2⟩ := pending_stack h.perfect hc hbl hpen s hi.true hp rfl
  have hi1 := silent_inv h.perfect hc hP.closed hbl h1 hi
  have hbp : f1.blockPos = p := hi1.2.trans hp
  have hsz : f1.fileSizeBytes = i.fileSizeBytes := by
    have : f1.inode = i := hi1.1.inode
    unfold fileSizeBytes; rw [this]
  have hby : f1.bytePos = min (f1.blockPos * blockSizeOf (sbOf c)) i.fileSizeBytes := hi1.1.bytes
  rw [hbp] at hby
  rcases h2 with ⟨-, h2⟩ | ⟨e, pos, rest, hst, hlen, hpen2⟩
  · have hst := step_empty dev buf w1 f1 h2
    rw [if_pos (by omega)] at hst
    exact ⟨(w1, f1), (returns_iff (w := s.1) hi.opened hbl).2 ⟨_, silent_clear h hc hP hb h1 hi, hst⟩⟩
  · exfalso
    rw [hst] at hpen2
    generalize hxs : ([] : List Nat) = l at hpen2
    cases hpen2 with
    | extent e pos k rest p ys hl hpen =>
      cases k with
      | zero => omega
      | succ k =>
        rw [List.range'_succ, List.map_cons, List.cons_append] at hxs
        cases hxs

end Ext4File

variable {bad : Nat → Prop} {c : Bytes} {G : W → Prop} {Is : D → Bytes → Prop} {At : W → D → Nat → Prop}

theorem readFront_err {rounds bs k : Nat} {s s1 : W × Ext4File D} {e : ErrKind}
    (h : Ext4File.readNextBlock dev rounds (zeros bs) s = (s1, .err e)) :
    readFront dev rounds bs (k + 1) s = (s1, .ok ([], false)) := by
  rw [readFront, SM.bind_ok (h := attempt_err h)]
  rfl

theorem readFront_zero {rounds bs k : Nat} {s s1 : W × Ext4File D} {b : Bytes}
    (h : Ext4File.readNextBlock dev rounds (zeros bs) s = (s1, .ok (some (0, b)))) :
    readFront dev rounds bs (k + 1) s = (s1, .ok ([], true)) := by
  rw [readFront, SM.bind_ok (h := attempt_ok h)]
  rfl

theorem readFront_block {rounds bs k n : Nat} {s s1 s2 : W × Ext4File D} {b : Bytes} {r : Bytes × Bool}
    (h : Ext4File.readNextBlock dev rounds (zeros bs) s = (s1, .ok (some (n, b)))) (hn : n ≠ 0)
    (h2 : readFront dev rounds bs k s1 = (s2, .ok r)) :
    readFront dev rounds bs (k + 1) s = (s2, .ok (b.take n ++ r.1, r.2)) := by
  rw [readFront, SM.bind_ok (h := attempt_ok h)]
  simp only [if_neg hn]
  rw [SM.bind_ok (h := h2)]
  rfl

/-- Reading the blocks `xs`, from block `p` of the file on, as far as possible. -/
theorem readFront_pending (h : Agree bad c dev dev' G Is At) (ho : ReadsOrErr dev dev') (hc : c.length < U64)
    {P : Bytes → Prop} (hP : Ext4File.NodesClear bad c P) {i : Inode} (hw : BlocksCounted c i.fileSizeBytes) :
    ∀ (xs : List Nat) (p : Nat) (s : W × Ext4File D),
      (∀ x ∈ xs, BlockInside c (blockSizeOf (sbOf c)) x) →
      Ext4File.Inv Is G c P i s → s.2.blockPos = p →
      Ext4File.Pending c (blockSizeOf (sbOf c)) s.2.stack p xs →
      i.fileSizeBytes ≤ (p + xs.length) * blockSizeOf (sbOf c) →
      (xs ≠ [] → (p + xs.length) * blockSizeOf (sbOf c)
        < i.fileSizeBytes + blockSizeOf (sbOf c)) → p + xs.length < U32 →
      ∃ N s' q e, ∀ rounds, N ≤ rounds → ∀ k, xs.length < k →
        readFront dev rounds (blockSizeOf (sbOf c)) k s = (s', .ok (q, e)) ∧
        let b := (xs.flatMap (blockOf c (blockSizeOf (sbOf c)))).take (i.fileSizeBytes - p * blockSizeOf (sbOf c))
        q <+: b ∧ (e = true → q = b) ∧
        (∀ m, (∀ x ∈ xs.take m, Intact bad c (x * blockSizeOf (sbOf c)) (blockSizeOf (sbOf c))) →
          b.take (m * blockSizeOf (sbOf c)) <+: q) ∧
        ((∀ x ∈ xs, Intact bad c (x * blockSizeOf (sbOf c)) (blockSizeOf (sbOf c))) → e = true) := by
  intro xs
  have hz : (zeros (blockSizeOf (sbOf c))).length = blockSizeOf (sbOf c) := List.length_replicate
  induction xs with
  | nil =>
    intro p s _ hi hp hpen h1 _ _
    obtain ⟨s1, h4⟩ := Ext4File.end_clear h hc hP (buf := zeros (blockSizeOf (sbOf c))) hz hi hp hpen
      (by simpa using h1)
    obtain ⟨N, h5⟩ := returns_enough h4
    refine ⟨N, s1, [], true, fun rounds hr k hk => ?_⟩
    obtain ⟨k, rfl⟩ : ∃ j, k = j + 1 := ⟨k - 1, by simp only [List.length_nil] at hk; omega⟩
    refine ⟨readFront_zero (h5 rounds hr), ?_⟩
    simp
  | cons x xs ih =>
    intro p s hin hi hp hpen h1 h2 h3
    have h2 := h2 (fun h => (by cases h))
    simp only [List.length_cons] at h1 h2 h3
    have h4 : (p + (xs.length + 1)) * blockSizeOf (sbOf c)
        = p * blockSizeOf (sbOf c) + xs.length * blockSizeOf (sbOf c) + blockSizeOf (sbOf c) := by
      rw [Nat.add_mul, Nat.add_mul]; omega
    have hx := hin x List.mem_cons_self
    have hlen : p + 1 + xs.length = p + (xs.length + 1) := by omega
    rcases Ext4File.next_or h ho hc hP hw (buf := zeros (blockSizeOf (sbOf c))) hz hi hp hpen (by omega) (by omega)
      (by rw [hz]; exact hx) with ⟨s1, h5, hi1, hp1, hpen1⟩ | ⟨hnot, s1, e, h5⟩
    rotate_left
    · obtain ⟨N1, h7⟩ := returns_enough h5
      refine ⟨N1, s1, [], false, fun rounds hr k hk => ?_⟩
      obtain ⟨k, rfl⟩ : ∃ j, k = j + 1 := ⟨k - 1, by omega⟩
      refine ⟨readFront_err (h7 rounds hr), List.nil_prefix, fun h => (by cases h), fun m hm => ?_, fun hall => ?_⟩
      · cases m with
        | zero => rw [Nat.zero_mul, List.take_zero]
        | succ m => exact absurd (hm x (by simp)) hnot
      · exact absurd (hall x List.mem_cons_self) hnot
    obtain ⟨N, s', q, e, h6⟩ := ih (p + 1) s1 (fun y hy => hin y (List.mem_cons_of_mem _ hy)) hi1 hp1 hpen1
      (by rw [hlen]; exact h1) (fun _ => by rw [hlen]; exact h2) (by omega)
    obtain ⟨N1, h7⟩ := returns_enough h5
    have hb : (blockOf c (blockSizeOf (sbOf c)) x).length = blockSizeOf (sbOf c) := by
      unfold BlockInside at hx
      unfold blockOf
      rw [List.length_take, List.length_drop]; omega
    have e1 : (slice c (x * blockSizeOf (sbOf c)) (blockSizeOf (sbOf c))).take
        (min (i.fileSizeBytes - p * blockSizeOf (sbOf c)) (blockSizeOf (sbOf c)))
        = (blockOf c (blockSizeOf (sbOf c)) x).take (i.fileSizeBytes - p * blockSizeOf (sbOf c)) := by
      unfold slice blockOf
      rw [List.take_take, List.take_take]
      congr 1
      omega
    have e2 : i.fileSizeBytes - (p + 1) * blockSizeOf (sbOf c)
        = i.fileSizeBytes - p * blockSizeOf (sbOf c) - blockSizeOf (sbOf c) := by
      rw [Nat.add_mul]; omega
    refine ⟨N1 + N, s', (blockOf c (blockSizeOf (sbOf c)) x).take (i.fileSizeBytes - p * blockSizeOf (sbOf c)) ++ q, e,
      fun rounds hr k hk => ?_⟩
    obtain ⟨k, rfl⟩ : ∃ j, k = j + 1 := ⟨k - 1, by omega⟩
    simp only [List.length_cons] at hk
    have hpos := Ext4Directory.blockSize_ge c
    obtain ⟨g1, g2, g3, g4, g5⟩ := h6 rounds (by omega) k (by omega)
    have g0 := readFront_block (h7 rounds (by omega)) (by omega) g1
    rw [hz, e1] at g0
    refine ⟨g0, ?_⟩
    rw [e2] at g2 g3 g4
    intro b
    have hbe : b = (blockOf c (blockSizeOf (sbOf c)) x).take (i.fileSizeBytes - p * blockSizeOf (sbOf c)) ++
        (xs.flatMap (blockOf c (blockSizeOf (sbOf c)))).take
          (i.fileSizeBytes - p * blockSizeOf (sbOf c) - blockSizeOf (sbOf c)) := by
      show ((x :: xs).flatMap _).take _ = _
      rw [List.flatMap_cons, List.take_append, hb]
    rw [hbe]
    refine ⟨List.prefix_append_right_inj _ |>.2 g2, fun he => by rw [g3 he], fun m hm => ?_, fun hall =>
      g5 fun y hy => hall y (List.mem_cons_of_mem _ hy)⟩
    cases m with
    | zero => rw [Nat.zero_mul, List.take_zero]; exact List.nil_prefix
    | succ m =>
      have g4 := g4 m fun y hy => hm y (by rw [List.take_succ_cons]; exact List.mem_cons_of_mem _ hy)
      rw [List.take_append]
      refine List.IsPrefix.trans ?_ (List.prefix_append_right_inj _ |>.2 g4)
      have hl1 : ((blockOf c (blockSizeOf (sbOf c)) x).take (i.fileSizeBytes - p * blockSizeOf (sbOf c))).length =
          min (i.fileSizeBytes - p * blockSizeOf (sbOf c)) (blockSizeOf (sbOf c)) := by
        rw [List.length_take, hb]
      rw [List.take_of_length_le (by rw [hl1, Nat.add_mul]; omega), hl1]
      refine List.prefix_append_right_inj _ |>.2 ?_
      by_cases hfull : blockSizeOf (sbOf c) ≤ i.fileSizeBytes - p * blockSizeOf (sbOf c)
      · rw [Nat.min_eq_right hfull, Nat.add_mul, Nat.one_mul, Nat.add_sub_cancel]
      · rw [show i.fileSizeBytes - p * blockSizeOf (sbOf c) - blockSizeOf (sbOf c) = 0 by omega]
        simp

theorem followFront_into {rounds n m : Nat} {name : Bytes} {names : List Bytes} {w w' w'' : W} {fs fs' : Ext4Fs D}
    {d d' : Ext4Directory D} (h1 : Ext4Fs.openFile dev n (w, fs) = ((w', fs'), .ok (.directory d)))
    (h2 : lookUp dev rounds name rounds (w', d) = ((w'', d'), .ok (some (some m)))) :
    followFront dev rounds (name :: names) n (w, fs) = followFront dev rounds names m (w'', fs') := by
  rw [followFront, SM.bind_ok (h := h1)]
  simp only
  rw [SM.bind_ok (h := onHandle_eq fs' h2)]

/-- Following a path to the directory at its end, or to a file. -/
theorem followFront_leads (h : Agree bad c dev dev' G Is At) (hc : c.length < U64) {n m : Nat}
    {front : List Bytes} (hl : Leads c CleanName n front m) :
    (∀ f name r k, front = f ++ name :: r → Leads c CleanName n f k → InodeIntact bad c k) →
    ∀ {w : W} {fs : Ext4Fs D}, G w → Opened Is c fs →
      ∃ w' fs' N, G w' ∧ Opened Is c fs' ∧ ∀ rounds, N ≤ rounds →
        followFront dev rounds front n (w, fs) = followFront dev rounds [] m (w', fs') := by
  induction hl with
  | here n => exact fun _ {w fs} hG ho => ⟨w, fs, 0, hG, ho, fun _ _ => rfl⟩
  | into n m name names before after e hd hn hb hcl hle ih =>
    intro hint w fs hG ho
    have hin := hint [] _ _ n rfl (.here n)
    obtain ⟨w1, fs1, d, i, h1, ho1, hleft⟩ := directory_left h.perfect hc hG ho hd
    have hG1 : G w1 := left_good hleft
    obtain ⟨i', hinv⟩ := h.directory_inv hG ho hd hG1 h1
    have hrec := directory_record hd
    have hw : ∀ x ∈ before ++ [e], (Wanted name ⟨x⟩ ↔ Names name x) := fun x hx =>
      wanted_iff (hrec x (by
        rcases List.mem_append.1 hx with h | h
        · exact List.mem_append_left _ h
        · rw [List.mem_singleton] at h; subst h; simp)) (hcl x hx)
    have hleft : Ext4Directory.Left Is G c i (w1, d) (((before.map DirEntry.mk).map fun x => .ok (some x)) ++
        .ok (some ⟨e⟩) :: after.map fun e => .ok (some ⟨e⟩)) := by
      rw [List.map_map]
      rw [List.map_append, List.map_cons] at hleft
      exact hleft
    obtain ⟨⟨w2, d2⟩, N1, hG2, h2⟩ := lookUp_found h.perfect hc
      ((hw e (by simp)).2 hn) _ (before.map DirEntry.mk) (w1, d) (fun x hx => by
        obtain ⟨y, hy, rfl⟩ := List.mem_map.1 hx
        rw [hw y (List.mem_append_left _ hy)]
        exact hb y hy) hleft
    rw [entry_inode] at h2
    obtain ⟨w', fs', N, hG', ho', h3⟩ := ih (fun f nm r k hf hk => hint (name :: f) nm r k (by rw [hf]; rfl)
      (.into n k name f before after e hd hn hb hcl hk)) (w := w2) hG2 ho1
    refine ⟨w', fs', N1 + before.length + 1 + N, hG', ho', fun rounds hr => ?_⟩
    have h4 := h2 rounds (by omega) rounds (by rw [List.length_map]; omega)
    rw [← h.lookUp hc hin.clear rounds name rounds hinv] at h4
    rw [← h.openFile (s := (w, fs)) hG ho hin.1] at h1
    rw [followFront_into h1 h4]
    exact h3 rounds (by omega)

/-- Reading the file at the end of a path, as far as possible. -/
theorem followFront_file (h : Agree bad c dev dev' G Is At) (ho : ReadsOrErr dev dev') (hc : c.length < U64) {w : W}
    {fs : Ext4Fs D} (hG : G w) (hop : Opened Is c fs) {n : Nat} {content : Bytes} (hf : FileAt c n content)
    (hslot : Intact bad c (inodeSlot c n) (le (sbOf c) 0x58 2)) (hn : NodesIntact bad c n) :
    ∃ N s' q e, ∀ rounds, N ≤ rounds → followFront dev rounds [] n (w, fs) = (s', .ok (some (q, e))) ∧
      q <+: content ∧ (e = true → q = content) ∧
      (∀ m, FrontIntact bad c n m → content.take (m * blockSizeOf (sbOf c)) <+: q) ∧
      ((∀ m, FrontIntact bad c n m) → e = true) := by
  obtain ⟨xs, hx, hin, h32, hsize, hlast, rfl⟩ := hf.blocks
  obtain ⟨w', fs', r, h1, hG', ho', h2, -⟩ := C75_outcome h.perfect c hc w fs hG hop n hf.readable
  obtain ⟨f, rfl⟩ := h2 hf.type hf.extents
  obtain ⟨-, -, -, -, -, i, fs2, hi, ho2, -, -, h3, -⟩ := C75_success h.perfect c w w' fs fs' hG hop n _ h1
  obtain ⟨-, -, k1, -, -, -, -, -, k2, -⟩ := C60_fields _ _ _ i hi
  have k1 : i.fileSizeBytes = sizeOf c n := k1
  have k2 : i.blocksBuffer = rootNode c n := k2
  obtain ⟨hinv, g1, -, g3⟩ := Ext4File.open_inv (w := w') hG' ho2 h3
    (TreeNode c (blockSizeOf (sbOf c)) (rootNode c n)) (by rw [k2]; exact .root)
  have hpen : Ext4File.Pending c (blockSizeOf (sbOf c)) f.stack 0 xs := by
    rw [g3, ← List.append_nil xs]
    refine .tree _ _ _ _ _ _ ?_ (.nil _)
    show Contiguous c _ i.blocksBuffer 0 0 xs
    rw [k2]
    exact hx
  have hP : Ext4File.NodesClear bad c (TreeNode c (blockSizeOf (sbOf c)) (rootNode c n)) :=
    ⟨fun node i h1 h2 h3 h4 h5 => .child node i h1 h2 h3 h4 h5, fun node i h1 h2 h3 h4 => hn node i h1 h2 h3 h4⟩
  obtain ⟨N, ⟨w2, f2⟩, q, e, h4⟩ := readFront_pending h ho hc hP
    (.inr (by rw [k1]; exact Nat.le_trans hsize (Nat.mul_le_mul_right _ (by omega)))) xs 0 (w', f) hin hinv g1 hpen
    (by rw [Nat.zero_add, k1]; exact hsize) (by rw [Nat.zero_add, k1]; exact hlast)
    (by rw [Nat.zero_add]; exact h32)
  rw [k1, Nat.zero_mul, Nat.sub_zero] at h4
  rw [← h.openFile (s := (w, fs)) hG hop hslot] at h1
  have h6 : (SM.lift f.blockSize : SM (W × Ext4Fs D) Nat) (w', fs') = ((w', fs'), .ok (blockSizeOf (sbOf c))) := by
    rw [SM.lift_apply, Ext4File.blockSize_eq hinv.opened]
  refine ⟨N + xs.length + 1, (w2, fs'), q, e, fun rounds hr => ?_⟩
  obtain ⟨j1, j2, j3, j4, j5⟩ := h4 rounds (by omega) rounds (by omega)
  refine ⟨?_, j2, j3, fun m hm => j4 m (hm xs hx), fun hall => j5 fun x hxm => hall xs.length xs hx x (by
    rw [List.take_length]; exact hxm)⟩
  rw [followFront, SM.bind_ok (h := h1)]
  simp only
  rw [SM.bind_ok (h := h6), SM.bind_ok (h := onHandle_eq fs' j1)]
  rfl

end
end MdRecover
