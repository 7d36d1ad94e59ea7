import Verif.Lemmas.Ext4File

namespace MdRecover
variable [Build]
open MdSpec

namespace Ext4File
variable {W D : Type} {F : Prop} {dev : StreamDev W D} {G : W → Prop} {Is : D → Bytes → Prop}
  {At : W → D → Nat → Prop}

/-- Rounds of the loop that go on. -/
inductive Silent (dev : StreamDev W D) (buf : Bytes) : W × Ext4File D → W × Ext4File D → Prop where
  | refl (s : W × Ext4File D) : Silent dev buf s s
  | head (s s' s'' : W × Ext4File D) : step dev buf s = (s', .ok none) → Silent dev buf s' s'' →
      Silent dev buf s s''

theorem Silent.trans {buf : Bytes} {s s' s'' : W × Ext4File D} (h : Silent dev buf s s')
    (h' : Silent dev buf s' s'') : Silent dev buf s s'' := by
  induction h with
  | refl => exact h'
  | head _ _ _ h1 _ ih => exact .head _ _ _ h1 (ih h')

theorem Silent.single {buf : Bytes} {s s' : W × Ext4File D} (h : step dev buf s = (s', .ok none)) :
    Silent dev buf s s' := .head _ _ _ h (.refl _)

theorem loop_succ_none {buf : Bytes} {s s' : W × Ext4File D} (h : step dev buf s = (s', .ok none))
    (k : Nat) : loop dev buf (k + 1) s = loop dev buf k s' := by
  show (step dev buf >>= _) s = _
  rw [SM.bind_ok (h := h)]

theorem loop_succ_of {buf : Bytes} {s s' : W × Ext4File D} {r : Res (Option (Nat × Bytes))}
    (h : step dev buf s = (s', r)) (hr : r ≠ .ok none) (k : Nat) :
    loop dev buf (k + 1) s = (s', r) := by
  show (step dev buf >>= _) s = _
  match r with
  | .ok (some a) => rw [SM.bind_ok (h := h)]; rfl
  | .ok none => exact absurd rfl hr
  | .err e => rw [SM.bind_err (h := h)]
  | .panic => rw [SM.bind_panic (h := h)]

theorem Silent.loop {buf : Bytes} {s s' s'' : W × Ext4File D} {r : Res (Option (Nat × Bytes))}
    (h : Silent dev buf s s') (h' : step dev buf s' = (s'', r)) (hr : r ≠ .ok none) :
    ∃ fuel, loop dev buf fuel s = (s'', r) := by
  induction h with
  | refl => exact ⟨1, loop_succ_of h' hr 0⟩
  | head _ _ _ h1 _ ih =>
    obtain ⟨k, hk⟩ := ih h'
    exact ⟨k + 1, by rw [loop_succ_none h1, hk]⟩

theorem loop_silent {buf : Bytes} {fuel : Nat} {s s' : W × Ext4File D}
    {r : Res (Option (Nat × Bytes))} (h : Ext4File.loop dev buf fuel s = (s', r)) (hr : r ≠ .ok none) :
    ∃ s1, Silent dev buf s s1 ∧ step dev buf s1 = (s', r) := by
  induction fuel generalizing s with
  | zero =>
    have : ((s, Res.ok none) : (W × Ext4File D) × Res (Option (Nat × Bytes))) = (s', r) := h
    cases this
    exact absurd rfl hr
  | succ k ih =>
    obtain ⟨s1, r1, hs⟩ : ∃ s1 r1, step dev buf s = (s1, r1) := ⟨_, _, rfl⟩
    by_cases h1 : r1 = .ok none
    · subst h1
      rw [loop_succ_none hs] at h
      obtain ⟨s2, h2, h3⟩ := ih h
      exact ⟨s2, .head _ _ _ hs h2, h3⟩
    · rw [loop_succ_of hs h1] at h
      cases h
      exact ⟨s, .refl _, hs⟩

/-- The loop goes on without end if every state it reaches goes on. -/
theorem loop_none {buf : Bytes} {P : W × Ext4File D → Prop}
    (hP : ∀ s, P s → ∃ s', step dev buf s = (s', .ok none) ∧ P s') (fuel : Nat) :
    ∀ s, P s → ∃ s', Ext4File.loop dev buf fuel s = (s', .ok none) := by
  induction fuel with
  | zero => exact fun s _ => ⟨s, rfl⟩
  | succ k ih =>
    intro s hs
    obtain ⟨s', h1, h2⟩ := hP s hs
    obtain ⟨s'', h3⟩ := ih s' h2
    exact ⟨s'', by rw [loop_succ_none h1, h3]⟩

omit [Build] in
theorem map_some_ne (r : Res (Nat × Bytes)) : (some <$> r : Res (Option (Nat × Bytes))) ≠ .ok none := by
  cases r <;> (intro h; cases h)

omit [Build] in
theorem map_some_surj {r : Res (Option (Nat × Bytes))} (h : r ≠ .ok none) :
    ∃ r', r = some <$> r' := by
  match r with
  | .ok (some a) => exact ⟨.ok a, rfl⟩
  | .ok none => exact absurd rfl h
  | .err e => exact ⟨.err e, rfl⟩
  | .panic => exact ⟨.panic, rfl⟩

omit [Build] in
theorem map_some_inj {r r' : Res (Nat × Bytes)} (h : some <$> r = some <$> r') : r = r' := by
  cases r <;> cases r' <;> cases h <;> rfl

theorem readNextBlock_short {c : Bytes} {w : W} {f : Ext4File D} (ho : Opened Is c f.fs)
    {buf : Bytes} (hb : buf.length < blockSizeOf (sbOf c)) (fuel : Nat) :
    readNextBlock dev fuel buf (w, f) = ((w, f), .err .invalidInput) := by
  unfold readNextBlock
  rw [get_bind, blockSize_eq ho, lift_bind, if_pos hb]
  rfl

theorem readNextBlock_loop {c : Bytes} {w : W} {f : Ext4File D} (ho : Opened Is c f.fs)
    {buf : Bytes} (hb : blockSizeOf (sbOf c) ≤ buf.length) (fuel : Nat) :
    readNextBlock dev fuel buf (w, f) = loop dev buf fuel (w, f) := by
  unfold readNextBlock
  rw [get_bind, blockSize_eq ho, lift_bind, if_neg (by omega)]

theorem returns_short {c : Bytes} {w : W} {f : Ext4File D} (ho : Opened Is c f.fs) {buf : Bytes}
    (hb : buf.length < blockSizeOf (sbOf c)) {s' : W × Ext4File D} {r : Res (Nat × Bytes)} :
    Returns dev (w, f) buf s' r ↔ s' = (w, f) ∧ r = .err .invalidInput := by
  constructor
  · rintro ⟨fuel, h⟩
    rw [readNextBlock_short ho hb] at h
    cases r <;> cases h
    exact ⟨rfl, rfl⟩
  · rintro ⟨rfl, rfl⟩
    exact ⟨0, readNextBlock_short ho hb 0⟩

theorem returns_iff {c : Bytes} {w : W} {f : Ext4File D} (ho : Opened Is c f.fs) {buf : Bytes}
    (hb : blockSizeOf (sbOf c) ≤ buf.length) {s' : W × Ext4File D} {r : Res (Nat × Bytes)} :
    Returns dev (w, f) buf s' r ↔
      ∃ s1, Silent dev buf (w, f) s1 ∧ step dev buf s1 = (s', some <$> r) := by
  constructor
  · rintro ⟨fuel, h⟩
    rw [readNextBlock_loop ho hb] at h
    exact loop_silent h (map_some_ne r)
  · rintro ⟨s1, h1, h2⟩
    obtain ⟨fuel, h3⟩ := h1.loop h2 (map_some_ne r)
    exact ⟨fuel, by rw [readNextBlock_loop ho hb, h3]⟩

/-- A tree on the stack. -/
def TreeOk (P : Bytes → Prop) (x : StackEntry) : Prop :=
  ∃ n pos, x = .tree (.fromInternal n) pos ∧ P n.storage

/-- An extent on the stack, with the next block to be `p`. -/
def ExtentOk (P : Bytes → Prop) (p : Nat) (x : StackEntry) : Prop :=
  ∃ node i j, x = .extent ⟨nodeEntry node i⟩ j ∧ P node ∧ nodeDepth node = 0 ∧
    i < nodeEntries node ∧ NodeFits node ∧ entryFirst (nodeEntry node i) + j = p

/-- Only the top of the stack may be an extent. -/
def StackOk (P : Bytes → Prop) (p : Nat) : List StackEntry → Prop
  | [] => True
  | x :: rest => (TreeOk P x ∨ ExtentOk P p x) ∧ ∀ y ∈ rest, TreeOk P y

omit [Build] in
theorem StackOk.of_trees {P : Bytes → Prop} {st : List StackEntry} (h : ∀ y ∈ st, TreeOk P y)
    (p : Nat) : StackOk P p st := by
  cases st with
  | nil => trivial
  | cons x rest =>
    exact ⟨.inl (h x List.mem_cons_self), fun y hy => h y (List.mem_cons_of_mem _ hy)⟩

/-- `P` holds of the children of the nodes of which it holds. -/
def Closed (P : Bytes → Prop) (c : Bytes) (bs : Nat) : Prop :=
  ∀ node i, P node → nodeDepth node ≠ 0 → i < nodeEntries node → NodeFits node →
    BlockInside c bs (indexChild (nodeEntry node i)) → P (blockOf c bs (indexChild (nodeEntry node i)))

/-- What holds of an open file between calls. -/
structure Inv (Is : D → Bytes → Prop) (G : W → Prop) (c : Bytes) (P : Bytes → Prop)
    (i : Inode) (s : W × Ext4File D) : Prop where
  good : G s.1
  opened : Opened Is c s.2.fs
  inode : s.2.inode = i
  stack : StackOk P s.2.blockPos s.2.stack
  bytes : s.2.bytePos = min (s.2.blockPos * blockSizeOf (sbOf c)) i.fileSizeBytes

/-- One round: the invariant is kept, and what is returned is right. -/
theorem step_inv (hv : VolumeSpec F dev G Is At) {c : Bytes} (hc : c.length < U64)
    {P : Bytes → Prop} (hP : Closed P c (blockSizeOf (sbOf c))) {i : Inode} {s : W × Ext4File D}
    (hi : Inv Is G c P i s) {buf : Bytes} (hb : blockSizeOf (sbOf c) ≤ buf.length)
    {s' : W × Ext4File D} {r : Res (Option (Nat × Bytes))} (h : step dev buf s = (s', r))
    (hr : r ≠ .panic)
    (hw : Build.overflowChecks = true ∨ s.2.blockPos + 1 < U32 ∨
      i.fileSizeBytes ≤ (U32 - 1) * blockSizeOf (sbOf c) ∨ r = .ok none) :
    Inv Is G c P i s' ∧
      ((s'.2.blockPos = s.2.blockPos ∧ (r = .ok none ∨ (∃ e, r = .err e) ∨
        (r = .ok (some (0, buf)) ∧ i.fileSizeBytes ≤ s.2.blockPos * blockSizeOf (sbOf c)))) ∨
       (s'.2.blockPos = s.2.blockPos + 1 ∧
          s.2.blockPos * blockSizeOf (sbOf c) < i.fileSizeBytes ∧
          ∃ node k j, P node ∧ nodeDepth node = 0 ∧ k < nodeEntries node ∧ NodeFits node ∧
          entryFirst (nodeEntry node k) + j = s.2.blockPos ∧
          j < (Extent.mk (nodeEntry node k)).length ∧
          (extentStart (nodeEntry node k) + j) * blockSizeOf (sbOf c) + buf.length ≤ c.length ∧
          r = .ok (some (min (i.fileSizeBytes - s.2.blockPos * blockSizeOf (sbOf c))
              (blockSizeOf (sbOf c)),
            slice c ((extentStart (nodeEntry node k) + j) * blockSizeOf (sbOf c)) buf.length)))) := by
  obtain ⟨w, f⟩ := s
  have hpos : 0 < blockSizeOf (sbOf c) := Nat.mul_pos (by omega) (Nat.two_pow_pos _)
  have hsz : f.fileSizeBytes = i.fileSizeBytes := by unfold fileSizeBytes; rw [hi.inode]
  have hby : f.bytePos = min (f.blockPos * blockSizeOf (sbOf c)) i.fileSizeBytes := hi.bytes
  have hst : StackOk P f.blockPos f.stack := hi.stack
  match hs : f.stack with
  | [] =>
    rw [step_empty dev buf w f hs] at h
    obtain ⟨rfl, rfl⟩ := Prod.mk.inj h
    refine ⟨hi, .inl ⟨rfl, ?_⟩⟩
    rw [hsz]
    split
    · right; right
      refine ⟨rfl, ?_⟩
      show _ ≤ f.blockPos * _
      omega
    · exact .inr (.inl ⟨_, rfl⟩)
  | .tree t pos :: rest =>
    rw [hs] at hst
    obtain ⟨hx, hrest⟩ := hst
    obtain ⟨n, pos', heq, hPn⟩ : TreeOk P (.tree t pos) := by
      rcases hx with hx | ⟨_, _, _, hx, _⟩
      · exact hx
      · cases hx
    cases heq
    rw [step_tree dev buf w f hs] at h
    have hbase : ∀ fs', Opened Is c fs' → ∀ w', G w' →
        Inv Is G c P i (w', { f with fs := fs', stack := rest }) := fun fs' ho w' hG =>
      ⟨hG, ho, hi.inode, StackOk.of_trees hrest _, hi.bytes⟩
    by_cases h1 : nodeEntries n.storage ≤ pos
    · rw [stepTree_done dev w _ rest h1] at h
      cases h
      exact ⟨hbase f.fs hi.opened w hi.good, .inl ⟨rfl, .inl rfl⟩⟩
    have h1 : pos < nodeEntries n.storage := by omega
    by_cases h2 : NodeFits n.storage
    rotate_left
    · rw [stepTree_panics dev w _ rest h1 h2] at h
      cases h
      exact absurd rfl hr
    by_cases h3 : nodeDepth n.storage = 0
    · rw [stepTree_leaf dev w _ rest h1 h2 h3] at h
      by_cases h4 : entryFirst (nodeEntry n.storage pos) = f.blockPos
      · rw [if_pos h4] at h
        cases h
        refine ⟨⟨hi.good, hi.opened, hi.inode, ⟨.inr ⟨n.storage, pos, 0, rfl, hPn, h3, h1, h2, h4⟩, ?_⟩,
          hi.bytes⟩, .inl ⟨rfl, .inl rfl⟩⟩
        intro y hy
        rcases List.mem_cons.1 hy with rfl | hy
        · exact ⟨n, pos + 1, rfl, hPn⟩
        · exact hrest y hy
      · rw [if_neg h4] at h
        cases h
        exact ⟨hbase f.fs hi.opened w hi.good, .inl ⟨rfl, .inr (.inl ⟨_, rfl⟩)⟩⟩
    · obtain ⟨w', fs', hG', ho', h4⟩ := stepTree_branch hv hc hi.good
        (f := { f with stack := rest }) hi.opened rest h1 h2 h3
      rcases h4 with ⟨-, h4⟩ | ⟨-, ⟨-, e, h4⟩ | ⟨h5, h4⟩⟩
      · rw [h4] at h
        cases h
        exact ⟨hbase fs' ho' w' hG', .inl ⟨rfl, .inr (.inl ⟨_, rfl⟩)⟩⟩
      · rw [h4] at h
        cases h
        exact ⟨hbase fs' ho' w' hG', .inl ⟨rfl, .inr (.inl ⟨_, rfl⟩)⟩⟩
      · rw [h4] at h
        cases h
        refine ⟨⟨hG', ho', hi.inode, ⟨.inl ⟨_, 0, rfl, hP _ _ hPn h3 h1 h2 h5⟩, ?_⟩, hi.bytes⟩,
          .inl ⟨rfl, .inl rfl⟩⟩
        intro y hy
        rcases List.mem_cons.1 hy with rfl | hy
        · exact ⟨n, pos + 1, rfl, hPn⟩
        · exact hrest y hy
  | .extent e pos :: rest =>
    rw [hs] at hst
    obtain ⟨hx, hrest⟩ := hst
    obtain ⟨node, k, j, heq, hPn, h1, h2, h3, h4⟩ : ExtentOk P f.blockPos (.extent e pos) := by
      rcases hx with ⟨_, _, hx, _⟩ | hx
      · cases hx
      · exact hx
    cases heq
    rw [step_extent dev buf w f hs] at h
    have hbase : ∀ fs', Opened Is c fs' → ∀ w', G w' →
        Inv Is G c P i (w', { f with fs := fs', stack := rest }) := fun fs' ho w' hG =>
      ⟨hG, ho, hi.inode, StackOk.of_trees hrest _, hi.bytes⟩
    by_cases h5 : (Extent.mk (nodeEntry node k)).length ≤ pos
    · rw [stepExtent_done dev buf w _ rest h5] at h
      cases h
      exact ⟨hbase f.fs hi.opened w hi.good, .inl ⟨rfl, .inl rfl⟩⟩
    obtain ⟨w', fs', hG', ho', h6⟩ := stepExtent_block hv hc hi.good
      (f := { f with stack := rest }) hi.opened buf hb rest (Nat.lt_of_not_le h5)
    rcases h6 with ⟨-, h6⟩ | ⟨h7, ⟨-, e, h6⟩ | ⟨h8, h6⟩⟩
    · rw [h6] at h
      cases h
      exact ⟨hbase fs' ho' w' hG', .inl ⟨rfl, .inr (.inl ⟨_, rfl⟩)⟩⟩
    · rw [h6] at h
      cases h
      exact ⟨hbase fs' ho' w' hG', .inl ⟨rfl, .inr (.inl ⟨_, rfl⟩)⟩⟩
    · rw [h6] at h
      have h7 : f.bytePos < i.fileSizeBytes := hsz ▸ h7
      have hlt : f.blockPos * blockSizeOf (sbOf c) < i.fileSizeBytes := by omega
      split at h
      rotate_left
      · rename_i hge
        have hge : ¬ f.blockPos + 1 < U32 := hge
        split at h
        · cases h
          exact absurd rfl hr
        · rename_i hn
          rcases hw with hw | hw | hw | hw
          · exact absurd hw hn
          · exact absurd hw hge
          · have h5 : f.blockPos * blockSizeOf (sbOf c) < (U32 - 1) * blockSizeOf (sbOf c) := by omega
            have := Nat.lt_of_mul_lt_mul_right h5
            omega
          · rw [← (Prod.mk.inj h).2] at hw
            cases hw
      have hbe : f.bytePos = f.blockPos * blockSizeOf (sbOf c) := by omega
      obtain ⟨rfl, rfl⟩ := Prod.mk.inj h
      refine ⟨⟨hG', ho', hi.inode, ⟨.inr ⟨node, k, pos + 1, rfl, hPn, h1, h2, h3, ?_⟩, hrest⟩, ?_⟩,
        .inr ⟨rfl, hlt, node, k, pos, hPn, h1, h2, h3, h4, Nat.lt_of_not_le h5, h8, ?_⟩⟩
      · show _ = f.blockPos + 1
        omega
      · show f.bytePos + min (f.fileSizeBytes - f.bytePos) _ = min ((f.blockPos + 1) * _) _
        rw [hsz, Nat.add_mul]
        omega
      · show Res.ok (some (min (f.fileSizeBytes - f.bytePos) _, _)) = _
        rw [hsz, hbe]

/-- Rounds that go on keep the invariant and the position. -/
theorem silent_inv (hv : VolumeSpec F dev G Is At) {c : Bytes} (hc : c.length < U64)
    {P : Bytes → Prop} (hP : Closed P c (blockSizeOf (sbOf c))) {i : Inode} {buf : Bytes}
    (hb : blockSizeOf (sbOf c) ≤ buf.length) {s s' : W × Ext4File D} (h : Silent dev buf s s')
    (hi : Inv Is G c P i s) : Inv Is G c P i s' ∧ s'.2.blockPos = s.2.blockPos := by
  induction h with
  | refl => exact ⟨hi, rfl⟩
  | head s s' s'' h1 _ ih =>
    obtain ⟨h2, h3⟩ := step_inv hv hc hP hi hb h1 (by intro h; cases h) (.inr (.inr (.inr rfl)))
    obtain ⟨h4, h5⟩ := ih h2
    refine ⟨h4, h5.trans ?_⟩
    rcases h3 with ⟨h3, -⟩ | ⟨-, -, _, _, _, _, _, _, _, _, _, _, h3⟩
    · exact h3
    · cases h3

/-- A call: the invariant is kept, and what is returned is right. -/
theorem returns_inv (hv : VolumeSpec F dev G Is At) {c : Bytes} (hc : c.length < U64)
    {P : Bytes → Prop} (hP : Closed P c (blockSizeOf (sbOf c))) {i : Inode} {s s' : W × Ext4File D}
    (hi : Inv Is G c P i s) {buf : Bytes} {r : Res (Nat × Bytes)} (h : Returns dev s buf s' r)
    (hr : r ≠ .panic) (hw : BlocksCounted c i.fileSizeBytes) :
    Inv Is G c P i s' ∧
      ((s'.2.blockPos = s.2.blockPos ∧ ((∃ e, r = .err e) ∨
        (r = .ok (0, buf) ∧ i.fileSizeBytes ≤ s.2.blockPos * blockSizeOf (sbOf c)))) ∨
       (s'.2.blockPos = s.2.blockPos + 1 ∧
          s.2.blockPos * blockSizeOf (sbOf c) < i.fileSizeBytes ∧
          ∃ node k j, P node ∧ nodeDepth node = 0 ∧ k < nodeEntries node ∧ NodeFits node ∧
          entryFirst (nodeEntry node k) + j = s.2.blockPos ∧
          j < (Extent.mk (nodeEntry node k)).length ∧
          (extentStart (nodeEntry node k) + j) * blockSizeOf (sbOf c) + buf.length ≤ c.length ∧
          r = .ok (min (i.fileSizeBytes - s.2.blockPos * blockSizeOf (sbOf c))
              (blockSizeOf (sbOf c)),
            slice c ((extentStart (nodeEntry node k) + j) * blockSizeOf (sbOf c)) buf.length))) := by
  obtain ⟨w, f⟩ := s
  by_cases hb : buf.length < blockSizeOf (sbOf c)
  · obtain ⟨rfl, rfl⟩ := (returns_short hi.opened hb).1 h
    exact ⟨hi, .inl ⟨rfl, .inl ⟨_, rfl⟩⟩⟩
  have hb : blockSizeOf (sbOf c) ≤ buf.length := by omega
  obtain ⟨s1, h1, h2⟩ := (returns_iff hi.opened hb).1 h
  obtain ⟨hi1, hp1⟩ := silent_inv hv hc hP hb h1 hi
  have hr' : (some <$> r : Res (Option (Nat × Bytes))) ≠ .panic := by
    cases r <;> (intro h; first | exact hr rfl | cases h)
  obtain ⟨hi2, h3⟩ := step_inv hv hc hP hi1 hb h2 hr'
    (hw.elim .inl fun h => .inr (.inr (.inl h)))
  rw [hp1] at h3
  refine ⟨hi2, ?_⟩
  rcases h3 with ⟨h3, h4⟩ | ⟨h3, h4, node, k, j, h5, h6, h7, h8, h9, h10, h11, h12⟩
  · refine .inl ⟨h3, ?_⟩
    rcases h4 with h4 | ⟨e, h4⟩ | ⟨h4, h5⟩
    · exact absurd h4 (map_some_ne r)
    · exact .inl ⟨e, map_some_inj h4⟩
    · exact .inr ⟨map_some_inj h4, h5⟩
  · exact .inr ⟨h3, h4, node, k, j, h5, h6, h7, h8, h9, h10, h11, map_some_inj h12⟩

omit [Build] in
theorem gotData_min {a b : Nat} {x : Bytes} (ha : 0 < a) (hb : 0 < b) :
    gotData (.ok (min a b, x)) = true := by
  unfold gotData
  simp only [bne_iff_ne]
  omega

/-- After any calls the invariant holds, and the position is the number of calls that returned
data. -/
theorem calls_inv (hv : VolumeSpec F dev G Is At) {c : Bytes} (hc : c.length < U64)
    {P : Bytes → Prop} (hP : Closed P c (blockSizeOf (sbOf c))) {i : Inode} {s s' : W × Ext4File D}
    {h : List (Bytes × Res (Nat × Bytes))} (hcalls : Calls dev s h s') (hi : Inv Is G c P i s)
    (hw : BlocksCounted c i.fileSizeBytes) :
    Inv Is G c P i s' ∧ s'.2.blockPos = s.2.blockPos + dataCalls h := by
  have hpos : 0 < blockSizeOf (sbOf c) := Nat.mul_pos (by omega) (Nat.two_pow_pos _)
  induction hcalls with
  | nil => exact ⟨hi, rfl⟩
  | snoc s' s'' h buf r _ h2 h3 ih =>
    obtain ⟨hi', hp⟩ := ih
    obtain ⟨hi'', h4⟩ := returns_inv hv hc hP hi' h2 h3 hw
    refine ⟨hi'', ?_⟩
    have hd : dataCalls (h ++ [(buf, r)]) = dataCalls h + if gotData r then 1 else 0 := by
      unfold dataCalls
      rw [List.countP_append]
      congr 1
      simp only [List.countP_cons, List.countP_nil, Nat.zero_add]
    rw [hd, ← Nat.add_assoc, ← hp]
    rcases h4 with ⟨h4, ⟨e, rfl⟩ | ⟨rfl, -⟩⟩ | ⟨h4, h5, _, _, _, _, _, _, _, _, _, _, rfl⟩
    · rw [h4]; rfl
    · rw [h4]; rfl
    · rw [h4, gotData_min (by omega) hpos]; rfl

omit [Build] in
/-- A file just opened. -/
theorem open_inv {c : Bytes} {w : W} (hG : G w) {fs : Ext4Fs D} (ho : Opened Is c fs)
    {inode : Inode} {f : Ext4File D} (h : Ext4File.open fs inode = .ok f) (P : Bytes → Prop)
    (hP : P inode.blocksBuffer) :
    Inv Is G c P inode (w, f) ∧ f.blockPos = 0 ∧ f.bytePos = 0 ∧
      f.stack = [.tree (.fromInternal (.fromInode inode)) 0] := by
  unfold Ext4File.open ExtentTree.fromInode at h
  split at h
  · cases h
    refine ⟨⟨hG, ho, rfl, ⟨.inl ⟨_, 0, rfl, hP⟩, fun y hy => ?_⟩, ?_⟩, rfl, rfl, rfl⟩
    · cases hy
    · show 0 = min (0 * _) _
      rw [Nat.zero_mul, Nat.zero_min]
  · cases h

end Ext4File
end MdRecover
