import Verif.Lemmas.ArrayRead

/-! Every content has an encoding as a RAID6 array, so the hypotheses of the read theorems can always be
met. -/

namespace MdRecover
open MdSpec

theorem slice_flatten_const {bs : Nat} : ∀ (l : List Bytes), (∀ b ∈ l, b.length = bs) → ∀ i b,
    l[i]? = some b → slice l.flatten (i * bs) bs = b
  | [], _, i, b, h => by simp at h
  | a :: l, hl, 0, b, h => by
    have ha := hl a (by simp)
    simp only [List.getElem?_cons_zero, Option.some.injEq] at h
    subst h
    simp [slice, ← ha]
  | a :: l, hl, i + 1, b, h => by
    have ha := hl a (by simp)
    have ih := slice_flatten_const l (fun x hx => hl x (by simp [hx])) i b (by simpa using h)
    unfold slice at ih ⊢
    rw [List.flatten_cons, Nat.add_mul, Nat.one_mul, Nat.add_comm, ← ha, ← List.drop_drop,
      List.drop_left, ha]
    exact ih

theorem length_flatten_const {bs : Nat} : ∀ (l : List Bytes), (∀ b ∈ l, b.length = bs) →
    l.flatten.length = l.length * bs
  | [], _ => by simp
  | a :: l, hl => by
    have ha := hl a (by simp)
    have ih := length_flatten_const l (fun x hx => hl x (by simp [hx]))
    rw [List.flatten_cons, List.length_append, ih, ha, List.length_cons, Nat.add_mul, Nat.one_mul,
      Nat.add_comm]

/-- The data sector of device `d`, if it has one in this row. -/
def dataSector (n c : Nat) (content : Bytes) (row : List MdSpec.Role) (s d : Nat) : Bytes :=
  match row[d]? with
  | some (.D i) => slice content (((s / c * (n - 2) + i) * c + s % c) * 512) 512
  | _ => zeros 512

/-- Sector `s` of device `d`: data, XOR of the data, or zeros for Q. -/
def encodeSector (L n c : Nat) (content : Bytes) (d s : Nat) : Bytes :=
  match raid6Row L n (s / c) with
  | none => zeros 512
  | some row =>
    if row[d]? = some .P then
      (List.range 512).map fun j =>
        xorBytes ((dataDevices row).map fun e => (dataSector n c content row s e).getD j 0)
    else dataSector n c content row s d

/-- The members. -/
def encodeMember (L n c size : Nat) (content : Bytes) (d : Nat) : Bytes :=
  ((List.range size).map (encodeSector L n c content d)).flatten

theorem raid6Row_D_lt {L n s d i : Nat} {row : List MdSpec.Role} (hn : 3 ≤ n)
    (hrow : raid6Row L n s = some row) (hd : row[d]? = some (.D i)) : i < n - 2 := by
  have hm := (raid6Row_perm hn hrow).mem_iff.mp (List.mem_of_getElem? hd)
  simpa [dataRoles] using hm

theorem encodeSector_length {L n c size : Nat} {content : Bytes} (hn : 3 ≤ n) (hc : 0 < c)
    (hdvd : c ∣ size) (hlen : content.length = size * (n - 2) * 512) {s : Nat} (hs : s < size)
    (d : Nat) : (encodeSector L n c content d s).length = 512 := by
  unfold encodeSector
  cases hrow : raid6Row L n (s / c) with
  | none => exact MdArray.zeros_length 512
  | some row =>
    simp only
    split
    · simp
    · unfold dataSector
      split
      · rename_i i hi
        have hi' := raid6Row_D_lt hn hrow hi
        obtain ⟨k, hk⟩ := hdvd
        rw [Nat.mul_comm] at hk
        rw [hk] at hs
        have := capacity_backward hc hi' hs
        rw [← hk] at this
        have := MdArray.fit_sector this (Nat.le_of_eq hlen.symm)
        unfold slice
        rw [List.length_take, List.length_drop]
        omega
      · exact MdArray.zeros_length 512

theorem encodeMember_length {L n c size : Nat} {content : Bytes} (hn : 3 ≤ n) (hc : 0 < c)
    (hdvd : c ∣ size) (hlen : content.length = size * (n - 2) * 512) (d : Nat) :
    (encodeMember L n c size content d).length = size * 512 := by
  unfold encodeMember
  rw [length_flatten_const (bs := 512)]
  · simp
  · intro x hx
    obtain ⟨s, hs, rfl⟩ := List.mem_map.mp hx
    exact encodeSector_length hn hc hdvd hlen (List.mem_range.mp hs) d

/-- Every content of the right length is the content of some RAID6 array, for every layout and
geometry. -/
theorem encode_set {L n c size : Nat} {content : Bytes} (hn : 3 ≤ n) (hn' : n < U32) (hc : 0 < c)
    (hdvd : c ∣ size) (hbytes : size * (n - 2) * 512 < U64)
    (hlen : content.length = size * (n - 2) * 512) (members : Nat → Disk)
    (hm : ∀ d, d < n → encodeMember L n c size content d <+: (members d).content) :
    Raid6Set L n c size members content := by
  have hall : ∀ d, ∀ b ∈ (List.range size).map (encodeSector L n c content d), b.length = 512 := by
    intro d b hb
    obtain ⟨s, hs, rfl⟩ := List.mem_map.mp hb
    exact encodeSector_length hn hc hdvd hlen (List.mem_range.mp hs) d
  have hsec : ∀ d s, d < n → s < size → (members d).sector s = encodeSector L n c content d s := by
    intro d s hd hs
    obtain ⟨rest, hr⟩ := hm d hd
    have hl : (encodeMember L n c size content d).length = size * 512 := by
      rw [encodeMember, length_flatten_const _ (hall d)]
      simp
    have hfit := MdArray.fit_sector hs (Nat.le_of_eq hl.symm)
    unfold Disk.sector
    rw [← hr, slice, List.drop_append_of_le_length ((Nat.le_add_right _ _).trans hfit),
      List.take_append_of_le_length (by
        rw [List.length_drop]; exact Nat.le_sub_of_add_le (by rw [Nat.add_comm]; exact hfit))]
    exact slice_flatten_const _ (hall d) s _ (by simp [hs])
  obtain ⟨k, hk⟩ := hdvd
  rw [Nat.mul_comm] at hk
  refine ⟨hn, hn', hc, ⟨k, by rw [hk, Nat.mul_comm]⟩, hbytes, hlen, ?_, ?_, ?_⟩
  · intro d hd
    refine Nat.le_trans (Nat.le_of_eq ?_) (hm d hd).length_le
    rw [encodeMember, length_flatten_const _ (hall d)]
    simp
  · intro b hb row d hrow hd
    rw [hk] at hb
    obtain ⟨h1, h2⟩ := capacity_forward hc hb
    rw [← hk] at h2
    have hdn : d < n := by
      have := (List.getElem?_eq_some_iff.mp hd).1
      rwa [raid6Row_length hn hrow] at this
    rw [hsec d _ hdn h2]
    have hdiv : (b / c / (n - 2) * c + b % c) / c = b / c / (n - 2) := by
      rw [Nat.mul_comm, Nat.mul_add_div hc, Nat.div_eq_of_lt (Nat.mod_lt _ hc), Nat.add_zero]
    have hmod : (b / c / (n - 2) * c + b % c) % c = b % c := by
      rw [Nat.mul_comm, Nat.mul_add_mod, Nat.mod_mod]
    unfold encodeSector
    rw [hdiv, hrow]
    simp only
    rw [if_neg (by rw [hd]; simp)]
    unfold dataSector
    rw [hd]
    simp only
    rw [hdiv, hmod]
    congr 2
    have e1 : b / c / (n - 2) * (n - 2) + b / c % (n - 2) = b / c := by
      rw [Nat.mul_comm]; exact Nat.div_add_mod _ _
    rw [e1, Nat.mul_comm]
    exact (Nat.div_add_mod b c).symm
  · intro s hs row hrow p hp j hj
    have hlt : ∀ {d r}, row[d]? = some r → d < n := by
      intro d r hd
      have := (List.getElem?_eq_some_iff.mp hd).1
      rwa [raid6Row_length hn hrow] at this
    simp only
    rw [hsec p s (hlt hp) hs]
    have hP : encodeSector L n c content p s = (List.range 512).map fun j =>
        xorBytes ((dataDevices row).map fun e => (dataSector n c content row s e).getD j 0) := by
      unfold encodeSector
      rw [hrow]
      simp only
      rw [if_pos hp]
    rw [hP, List.getD_eq_getElem?_getD, List.getElem?_map, List.getElem?_range hj]
    simp only [Option.map_some, Option.getD_some]
    congr 1
    apply List.map_congr_left
    intro e he
    obtain ⟨he1, he2⟩ := List.mem_filter.mp he
    have hen : e < n := by
      have := List.mem_range.mp he1
      rwa [raid6Row_length hn hrow] at this
    rw [hsec e s hen hs]
    have : row[e]? ≠ some .P := by
      intro h; rw [h] at he2; simp at he2
    unfold encodeSector
    rw [hrow]
    simp only
    rw [if_neg this]

end MdRecover
