import Verif.Lemmas.Ext4FileEnd

namespace MdRecover
variable [Build]
open MdSpec

namespace Ext4File
variable {W D : Type} {F : Prop} {dev : StreamDev W D} {G : W → Prop} {Is : D → Bytes → Prop}
  {At : W → D → Nat → Prop}

theorem loop_more {buf : Bytes} {fuel : Nat} {s s' : W × Ext4File D}
    {r : Res (Option (Nat × Bytes))} (h : Ext4File.loop dev buf fuel s = (s', r)) (hr : r ≠ .ok none)
    (k : Nat) : Ext4File.loop dev buf (fuel + k) s = (s', r) := by
  induction fuel generalizing s with
  | zero =>
    have : ((s, Res.ok none) : (W × Ext4File D) × Res (Option (Nat × Bytes))) = (s', r) := h
    cases this
    exact absurd rfl hr
  | succ n ih =>
    obtain ⟨s1, r1, hs⟩ : ∃ s1 r1, step dev buf s = (s1, r1) := ⟨_, _, rfl⟩
    rw [Nat.add_right_comm]
    by_cases h1 : r1 = .ok none
    · subst h1
      rw [loop_succ_none hs] at h ⊢
      exact ih h
    · rw [loop_succ_of hs h1] at h ⊢
      exact h

theorem readNextBlock_more {buf : Bytes} {fuel : Nat} {s s' : W × Ext4File D}
    {r : Res (Option (Nat × Bytes))} (h : readNextBlock dev fuel buf s = (s', r))
    (hr : r ≠ .ok none) (k : Nat) : readNextBlock dev (fuel + k) buf s = (s', r) := by
  unfold readNextBlock at h ⊢
  rw [get_bind] at h ⊢
  rcases hb : s.2.blockSize with bs | e | _
  · simp only [hb, lift_bind] at h ⊢
    split at h
    · rename_i hlt
      rw [if_pos hlt]; exact h
    · rename_i hlt
      rw [if_neg hlt]
      exact loop_more h hr k
  · simp only [hb] at h ⊢; exact h
  · simp only [hb] at h ⊢; exact h

/-- A call has one outcome. -/
theorem returns_unique {s s1 s2 : W × Ext4File D} {buf : Bytes} {r1 r2 : Res (Nat × Bytes)}
    (h1 : Returns dev s buf s1 r1) (h2 : Returns dev s buf s2 r2) : s1 = s2 ∧ r1 = r2 := by
  obtain ⟨f1, h1⟩ := h1
  obtain ⟨f2, h2⟩ := h2
  have h1 := readNextBlock_more h1 (map_some_ne r1) f2
  have h2 := readNextBlock_more h2 (map_some_ne r2) f1
  rw [Nat.add_comm, h2] at h1
  obtain ⟨h3, h4⟩ := Prod.mk.inj h1
  exact ⟨h3.symm, (map_some_inj h4).symm⟩

theorem Calls.cons {s s1 s' : W × Ext4File D} {buf : Bytes} {r : Res (Nat × Bytes)}
    {h : List (Bytes × Res (Nat × Bytes))} (h1 : Returns dev s buf s1 r) (hr : r ≠ .panic)
    (h2 : Calls dev s1 h s') : Calls dev s ((buf, r) :: h) s' := by
  induction h2 with
  | nil => exact .snoc s s _ [] buf r (.nil s) h1 hr
  | snoc s' s'' h buf' r' _ h3 h4 ih =>
    have := Calls.snoc s s' s'' ((buf, r) :: h) buf' r' ih h3 h4
    exact this

/-- What reading a file of `size` bytes in blocks `xs` returns from block `p` on. -/
def expected (c : Bytes) (bs size : Nat) : Nat → List Nat → List Bytes →
    List (Bytes × Res (Nat × Bytes))
  | _, _, [] => []
  | p, [], buf :: bufs => (buf, .ok (0, buf)) :: expected c bs size p [] bufs
  | p, x :: xs, buf :: bufs =>
    (buf, .ok (min (size - p * bs) bs, slice c (x * bs) buf.length)) ::
      expected c bs size (p + 1) xs bufs

omit [Build] in
theorem expected_fst (c : Bytes) (bs size : Nat) (p : Nat) (xs : List Nat) (bufs : List Bytes) :
    (expected c bs size p xs bufs).map Prod.fst = bufs := by
  induction bufs generalizing p xs with
  | nil => cases xs <;> rfl
  | cons buf bufs ih =>
    cases xs with
    | nil => rw [expected, List.map_cons, ih]
    | cons x xs => rw [expected, List.map_cons, ih]

omit [Build] in
theorem expected_data (c : Bytes) (bs size : Nat) (p : Nat) (xs : List Nat) (bufs : List Bytes)
    (hl : xs.length ≤ bufs.length) (hb : ∀ buf ∈ bufs, bs ≤ buf.length)
    (hin : ∀ x ∈ xs, x * bs + bs ≤ c.length)
    (hsize : size ≤ (p + xs.length) * bs) :
    dataOf (expected c bs size p xs bufs) = (xs.flatMap (blockOf c bs)).take (size - p * bs) := by
  induction bufs generalizing p xs with
  | nil =>
    cases xs with
    | nil => exact List.take_nil.symm
    | cons x xs => simp at hl
  | cons buf bufs ih =>
    have hb' : ∀ b ∈ bufs, bs ≤ b.length := fun b h => hb b (List.mem_cons_of_mem _ h)
    cases xs with
    | nil =>
      rw [expected]
      have := ih p [] (Nat.zero_le _) hb' (fun _ h => (by cases h)) hsize
      unfold dataOf at this ⊢
      rw [List.flatMap_cons, this]
      simp
    | cons x xs =>
      rw [expected]
      simp only [List.length_cons] at hl hsize
      have := ih (p + 1) xs (by omega) hb' (fun y h => hin y (List.mem_cons_of_mem _ h))
        (by rw [Nat.add_assoc, Nat.add_comm 1]; exact hsize)
      unfold dataOf at this ⊢
      rw [List.flatMap_cons, this]
      show (slice c (x * bs) buf.length).take _ ++ _ = _
      have hx := hin x List.mem_cons_self
      have hlen : (blockOf c bs x).length = bs := by
        unfold blockOf
        rw [List.length_take, List.length_drop]; omega
      have hbuf := hb buf List.mem_cons_self
      have h1 : (slice c (x * bs) buf.length).take (min (size - p * bs) bs)
          = (blockOf c bs x).take (size - p * bs) := by
        unfold slice blockOf
        rw [List.take_take, List.take_take]
        congr 1
        omega
      rw [h1, List.flatMap_cons, List.take_append, hlen]
      congr 2
      rw [Nat.add_mul]; omega

/-- Reading a file whose blocks are mapped without gaps. -/
theorem calls_expected (hv : VolumeSpec False dev G Is At) {c : Bytes} (hc : c.length < U64)
    {i : Inode} (bufs : List Bytes) :
    ∀ (p : Nat) (xs : List Nat) (s : W × Ext4File D),
      (∀ buf ∈ bufs, blockSizeOf (sbOf c) ≤ buf.length ∧
        ∀ x ∈ xs, x * blockSizeOf (sbOf c) + buf.length ≤ c.length) →
      Inv Is G c (fun _ => True) i s → s.2.blockPos = p →
      Pending c (blockSizeOf (sbOf c)) s.2.stack p xs →
      i.fileSizeBytes ≤ (p + xs.length) * blockSizeOf (sbOf c) →
      (xs ≠ [] → (p + xs.length) * blockSizeOf (sbOf c)
        < i.fileSizeBytes + blockSizeOf (sbOf c)) → p + xs.length < U32 →
      ∃ s', Calls dev s (expected c (blockSizeOf (sbOf c)) i.fileSizeBytes p xs bufs) s' := by
  induction bufs with
  | nil =>
    intro p xs s _ _ _ _ _ _ _
    exact ⟨s, by cases xs <;> exact .nil s⟩
  | cons buf bufs ih =>
    intro p xs s hbufs hi hp hpen h1 h2 h3
    have hb := (hbufs buf List.mem_cons_self).1
    cases xs with
    | nil =>
      obtain ⟨s1, h4, hi1, hp1, hpen1⟩ := pending_end hv hc hb hi hp hpen (by simpa using h1)
      obtain ⟨s', h5⟩ := ih p [] s1
        (fun b hb => ⟨(hbufs b (List.mem_cons_of_mem _ hb)).1, fun _ h => (by cases h)⟩)
        hi1 hp1 hpen1 h1 h2 h3
      exact ⟨s', Calls.cons h4 (fun h => (by cases h)) h5⟩
    | cons x xs =>
      have h2 := h2 (fun h => (by cases h))
      simp only [List.length_cons] at h1 h2 h3
      have h4 : (p + (xs.length + 1)) * blockSizeOf (sbOf c)
          = p * blockSizeOf (sbOf c) + xs.length * blockSizeOf (sbOf c) + blockSizeOf (sbOf c) := by
        rw [Nat.add_mul, Nat.add_mul]; omega
      obtain ⟨s1, h5, hi1, hp1, hpen1⟩ := pending_next hv hc hb hi hp hpen (by omega) (by omega)
        ((hbufs buf List.mem_cons_self).2 x List.mem_cons_self)
      have hlen : p + 1 + xs.length = p + (xs.length + 1) := by omega
      obtain ⟨s', h6⟩ := ih (p + 1) xs s1
        (fun b hb => ⟨(hbufs b (List.mem_cons_of_mem _ hb)).1, fun y hy =>
          (hbufs b (List.mem_cons_of_mem _ hb)).2 y (List.mem_cons_of_mem _ hy)⟩)
        hi1 hp1 hpen1 (by rw [hlen]; exact h1) (fun _ => by rw [hlen]; exact h2) (by omega)
      exact ⟨s', Calls.cons h5 (fun h => (by cases h)) h6⟩

omit [Build] in
theorem expected_nil_get (c : Bytes) (bs size p : Nat) (bufs : List Bytes) (k : Nat) (buf : Bytes)
    (h : bufs[k]? = some buf) :
    (expected c bs size p [] bufs)[k]? = some (buf, .ok (0, buf)) := by
  induction bufs generalizing k with
  | nil => cases h
  | cons b bufs ih =>
    rw [expected]
    cases k with
    | zero => cases h; rfl
    | succ k => exact ih k h

omit [Build] in
theorem expected_get (c : Bytes) (bs size p : Nat) (xs : List Nat) (bufs : List Bytes) (k : Nat)
    (buf : Bytes) (h : bufs[k]? = some buf) :
    (∀ x, xs[k]? = some x → (expected c bs size p xs bufs)[k]?
      = some (buf, .ok (min (size - (p + k) * bs) bs, slice c (x * bs) buf.length))) ∧
    (xs.length ≤ k → (expected c bs size p xs bufs)[k]? = some (buf, .ok (0, buf))) := by
  induction bufs generalizing k p xs with
  | nil => cases h
  | cons b bufs ih =>
    cases xs with
    | nil => exact ⟨fun x hx => (by cases hx), fun _ => expected_nil_get c bs size p _ k buf h⟩
    | cons y xs =>
      rw [expected]
      cases k with
      | zero =>
        cases h
        refine ⟨fun x hx => ?_, fun hx => ?_⟩
        · cases hx; rfl
        · simp at hx
      | succ k =>
        obtain ⟨h1, h2⟩ := ih (p + 1) xs k h
        refine ⟨fun x hx => ?_, fun hx => ?_⟩
        · have := h1 x hx
          rw [Nat.add_assoc, Nat.add_comm 1] at this
          exact this
        · exact h2 (by simpa using hx)

end Ext4File
end MdRecover
