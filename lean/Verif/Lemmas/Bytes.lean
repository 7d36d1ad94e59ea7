import Verif.Model.Layout

namespace MdRecover

@[simp] theorem leBytes_length (n v : Nat) : (leBytes n v).length = n := by
  induction n generalizing v with
  | zero => rfl
  | succ n ih => simp [leBytes, ih]

@[simp] theorem beBytes_length (n v : Nat) : (beBytes n v).length = n := by simp [beBytes]

theorem leNat_leBytes_mod (n v : Nat) : leNat (leBytes n v) = v % 256 ^ n := by
  induction n generalizing v with
  | zero => simp [leBytes, leNat, Nat.mod_one]
  | succ n ih =>
    simp only [leBytes, leNat, ih]
    rw [UInt8.toNat_ofNat_of_lt' (by simp only [UInt8.size]; omega), Nat.pow_succ', Nat.mod_mul]

theorem leNat_leBytes {n v : Nat} (h : v < 256 ^ n) : leNat (leBytes n v) = v := by
  rw [leNat_leBytes_mod, Nat.mod_eq_of_lt h]

theorem beNat_beBytes {n v : Nat} (h : v < 256 ^ n) : beNat (beBytes n v) = v := by
  simp [beNat, beBytes, leNat_leBytes h]

theorem leNat_lt (b : Bytes) : leNat b < 256 ^ b.length := by
  induction b with
  | nil => simp [leNat]
  | cons x b ih =>
    have := x.toNat_lt
    simp only [leNat, List.length_cons, Nat.pow_succ']
    omega

theorem beNat_lt (b : Bytes) : beNat b < 256 ^ b.length := by
  simpa [beNat] using leNat_lt b.reverse

theorem leBytes_leNat (b : Bytes) : leBytes b.length (leNat b) = b := by
  induction b with
  | nil => rfl
  | cons x b ih =>
    have h := x.toNat_lt
    simp only [leNat, List.length_cons, leBytes]
    rw [show (x.toNat + 256 * leNat b) % 256 = x.toNat by omega,
      show (x.toNat + 256 * leNat b) / 256 = leNat b by omega, ih]
    simp

theorem beBytes_beNat (b : Bytes) : beBytes b.length (beNat b) = b := by
  have := leBytes_leNat b.reverse
  rw [List.length_reverse] at this
  simp [beBytes, beNat, this]

theorem leNat_inj {a b : Bytes} (hl : a.length = b.length) (h : leNat a = leNat b) : a = b := by
  rw [← leBytes_leNat a, ← leBytes_leNat b, hl, h]

theorem leBytes_inj {n v w : Nat} (hv : v < 256 ^ n) (hw : w < 256 ^ n)
    (h : leBytes n v = leBytes n w) : v = w := by
  rw [← leNat_leBytes hv, ← leNat_leBytes hw, h]

@[simp] theorem slice_length (b : Bytes) (off n : Nat) :
    (slice b off n).length = min n (b.length - off) := by simp [slice]

theorem slice_length_of {b : Bytes} {off n : Nat} (h : off + n ≤ b.length) :
    (slice b off n).length = n := by rw [slice_length]; omega

theorem slice_slice {b : Bytes} {o n p m : Nat} (h : p + m ≤ n) :
    slice (slice b o n) p m = slice b (o + p) m := by
  simp only [slice, List.drop_take, List.drop_drop, List.take_take]
  rw [Nat.min_eq_left (by omega)]

theorem slice_append_left {a b : Bytes} {o n : Nat} (h : o + n ≤ a.length) :
    slice (a ++ b) o n = slice a o n := by
  simp only [slice, List.drop_append]
  rw [List.take_append_of_le_length (by simp; omega)]

theorem slice_append_right (a b : Bytes) (o n : Nat) :
    slice (a ++ b) (a.length + o) n = slice b o n := by
  unfold slice
  rw [← List.drop_drop, List.drop_left]

/-- The `i`-th of several byte strings written one after the other. -/
theorem slice_flatten {cs : List Bytes} {c : Bytes} (i off w : Nat) (h : cs[i]? = some c)
    (ho : ((cs.map List.length).take i).sum = off) (hw : c.length = w) :
    slice cs.flatten off w = c := by
  induction cs generalizing i off with
  | nil => simp at h
  | cons x cs ih =>
    cases i with
    | zero =>
      simp at h ho
      subst h ho hw
      simp [slice]
    | succ i =>
      simp at h ho
      have := ih i _ h rfl
      rw [← ho, List.flatten_cons, slice_append_right, this]

theorem drop_flatten {cs : List Bytes} (i off : Nat)
    (ho : ((cs.map List.length).take i).sum = off) :
    cs.flatten.drop off = (cs.drop i).flatten := by
  induction cs generalizing i off with
  | nil => simp
  | cons x cs ih =>
    cases i with
    | zero => simp at ho; subst ho; simp
    | succ i =>
      simp at ho
      rw [← ho, List.flatten_cons, ← List.drop_drop, List.drop_left, ih i _ rfl]
      simp

/-- The `i`-th of equally long byte strings written one after the other. -/
theorem slice_flatten_uniform {cs : List Bytes} {w i : Nat} {c : Bytes}
    (hw : ∀ c ∈ cs, c.length = w) (h : cs[i]? = some c) : slice cs.flatten (i * w) w = c := by
  refine slice_flatten i _ _ h ?_ (hw c (List.mem_of_getElem? h))
  have hi : i < cs.length := (List.getElem?_eq_some_iff.mp h).1
  have : (cs.map List.length).take i = List.replicate i w := by
    apply List.ext_getElem?
    intro j
    simp only [List.getElem?_map, List.getElem?_replicate, List.getElem?_take]
    split
    · rename_i hj
      rw [List.getElem?_eq_getElem (by omega)]
      simp [hw _ (List.getElem_mem _)]
    · rfl
  rw [this]; simp

theorem length_flatten_uniform {cs : List Bytes} {w : Nat} (hw : ∀ c ∈ cs, c.length = w) :
    cs.flatten.length = cs.length * w := by
  induction cs with
  | nil => simp
  | cons x cs ih =>
    have h1 := hw x (by simp)
    have h2 := ih (fun c hc => hw c (by simp [hc]))
    rw [List.flatten_cons, List.length_append, h1, h2, List.length_cons, Nat.succ_mul]; omega

namespace Layout
variable {F : Type} [DecidableEq F]

/-- A field of a layout ends inside it. -/
theorem offset_width_le_size {l : Layout F} {f : F} (h : f ∈ l.map Prod.fst) :
    l.offset f + l.width f ≤ l.size := by
  induction l with
  | nil => simp at h
  | cons a l ih =>
    obtain ⟨g, w⟩ := a
    simp only [offset, width, size]
    split
    · omega
    · next hne =>
      have : f ∈ l.map Prod.fst := by
        simp only [List.map_cons, List.mem_cons] at h
        rcases h with h | h
        · exact absurd h.symm hne
        · exact h
      have := ih this
      omega

/-- Two fields of a layout do not overlap. -/
theorem disjoint {l : Layout F} {f g : F} (hf : f ∈ l.map Prod.fst) (hg : g ∈ l.map Prod.fst)
    (hne : f ≠ g) :
    l.offset f + l.width f ≤ l.offset g ∨ l.offset g + l.width g ≤ l.offset f := by
  induction l with
  | nil => simp at hf
  | cons a l ih =>
    obtain ⟨x, w⟩ := a
    simp only [List.map_cons, List.mem_cons] at hf hg
    simp only [offset, width]
    by_cases h1 : x = f
    · have h2 : x ≠ g := fun h => hne (h1.symm.trans h)
      rw [if_pos h1, if_pos h1, if_neg h2, if_neg h2]; omega
    · by_cases h2 : x = g
      · rw [if_neg h1, if_neg h1, if_pos h2, if_pos h2]; omega
      · rw [if_neg h1, if_neg h1, if_neg h2, if_neg h2]
        have := ih (hf.resolve_left (fun h => h1 h.symm)) (hg.resolve_left (fun h => h2 h.symm))
        omega

end Layout
end MdRecover
