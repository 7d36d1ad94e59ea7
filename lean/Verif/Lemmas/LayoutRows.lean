import Verif.Lemmas.Raid
import Mathlib.Data.List.Perm.Basic

namespace MdRecover
open MdSpec

@[simp] theorem length_dataRoles (k : Nat) : (dataRoles k).length = k := by simp [dataRoles]

theorem dataRoles_get {k i : Nat} (h : i < k) : (dataRoles k)[i]? = some (Role.D i) := by
  simp [dataRoles, h]

theorem insert_get_lt {k p i : Nat} (h : i < p) (hk : i < k) :
    ((dataRoles k).insertIdx p Role.P)[i]? = some (Role.D i) := by
  rw [List.getElem?_insertIdx_of_lt h, dataRoles_get hk]

theorem insert_get_ge {k p i : Nat} (h : p ≤ i) (hk : i < k) :
    ((dataRoles k).insertIdx p Role.P)[i + 1]? = some (Role.D i) := by
  rw [List.getElem?_insertIdx_of_gt (by omega)]
  simp [dataRoles_get hk]

theorem insert_get {k p i : Nat} (hk : i < k) :
    ((dataRoles k).insertIdx p Role.P)[i + if i ≥ p then 1 else 0]? = some (Role.D i) := by
  by_cases h : i ≥ p
  · rw [if_pos h]; exact insert_get_ge h hk
  · rw [if_neg h]; exact insert_get_lt (by omega) hk

theorem insert_get_self {k p : Nat} (h : p ≤ k) :
    ((dataRoles k).insertIdx p Role.P)[p]? = some Role.P := by
  simp [List.getElem?_insertIdx_self, h]

/-- Index arithmetic of left rotations: device `(n-1-s%n + j) % n` of the row `b.rotate (s+1)`
holds `b[j]`. -/
theorem rotate_left_idx {n s j : Nat} (hn : 0 < n) (hj : j < n) :
    ((n - 1 - s % n + j) % n + (s + 1)) % n = j := by
  have hr : s % n < n := Nat.mod_lt _ hn
  have hs := Nat.div_add_mod s n
  rw [Nat.mod_add_mod]
  have : n - 1 - s % n + j + (s + 1) = j + n * (s / n + 1) := by
    rw [Nat.mul_add]; omega
  rw [this, Nat.add_mul_mod_self_left, Nat.mod_eq_of_lt hj]

theorem rotate_right_idx {n s j : Nat} (hn : 0 < n) (hj : j < n) :
    ((s % n + j) % n + (n - s % n)) % n = j := by
  have hr : s % n < n := Nat.mod_lt _ hn
  rw [Nat.mod_add_mod]
  have : s % n + j + (n - s % n) = j + n := by omega
  rw [this, Nat.add_mod_right, Nat.mod_eq_of_lt hj]

theorem rotate_left_get {l : List Role} {n s j : Nat} (hl : l.length = n) (hj : j < n) :
    (l.rotate (s + 1))[(n - 1 - s % n + j) % n]? = l[j]? := by
  have hn : 0 < n := by omega
  rw [List.getElem?_rotate (by rw [hl]; exact Nat.mod_lt _ hn), hl, rotate_left_idx hn hj]

theorem rotate_right_get {l : List Role} {n s j : Nat} (hl : l.length = n) (hj : j < n) :
    (l.rotate (n - s % n))[(s % n + j) % n]? = l[j]? := by
  have hn : 0 < n := by omega
  rw [List.getElem?_rotate (by rw [hl]; exact Nat.mod_lt _ hn), hl, rotate_right_idx hn hj]

/-- Every RAID5 row is an arrangement of P and the data chunks. -/
theorem raid5Row_perm {L n s : Nat} {row : List Role} (hn : 2 ≤ n)
    (h : raid5Row L n s = some row) : row.Perm (Role.P :: dataRoles (n - 1)) := by
  have hr : s % n < n := Nat.mod_lt _ (by omega)
  unfold raid5Row at h
  split at h <;> simp only [Option.some.injEq, reduceCtorEq] at h <;> subst h
  · exact List.perm_insertIdx _ _ (by rw [length_dataRoles]; omega)
  · exact List.perm_insertIdx _ _ (by rw [length_dataRoles]; omega)
  · exact List.rotate_perm _ _
  · exact List.rotate_perm _ _
  · exact List.Perm.refl _
  · exact List.perm_append_singleton _ _

/-- Where the model's closed forms put P and the data chunks in the RAID5 row. -/
theorem raid5Row_get {L n s : Nat} {alg : Raid5Algorithm} (hn : 2 ≤ n)
    (h : Raid5Algorithm.fromLayout L = some alg) :
    ∃ row, raid5Row L n s = some row ∧ row[alg.parityOf n s]? = some Role.P ∧
      ∀ i, i < n - 1 → row[alg.dataOf n s i]? = some (Role.D i) := by
  have hr : s % n < n := Nat.mod_lt _ (by omega)
  have hlen : (Role.P :: dataRoles (n - 1)).length = n := by simp; omega
  unfold Raid5Algorithm.fromLayout at h
  split at h <;> simp only [Option.some.injEq, reduceCtorEq] at h <;> subst h <;>
    refine ⟨_, rfl, ?_, ?_⟩
  · exact insert_get_self (by omega)
  · exact fun i hi => insert_get hi
  · exact insert_get_self (by omega)
  · exact fun i hi => insert_get hi
  · have := rotate_left_get (s := s) (j := 0) hlen (by omega)
    rw [Nat.add_zero, Nat.mod_eq_of_lt (by omega)] at this
    simpa [Raid5Algorithm.parityOf] using this
  · intro i hi
    have := rotate_left_get (s := s) (j := 1 + i) hlen (by omega)
    rw [← Nat.add_assoc] at this
    simp only [Raid5Algorithm.dataOf, Raid5Algorithm.parityOf, this]
    rw [Nat.add_comm 1 i, List.getElem?_cons_succ, dataRoles_get hi]
  · have := rotate_right_get (s := s) (j := 0) hlen (by omega)
    rw [Nat.add_zero, Nat.mod_mod] at this
    simpa [Raid5Algorithm.parityOf] using this
  · intro i hi
    have := rotate_right_get (s := s) (j := 1 + i) hlen (by omega)
    rw [← Nat.add_assoc] at this
    simp only [Raid5Algorithm.dataOf, Raid5Algorithm.parityOf, this]
    rw [Nat.add_comm 1 i, List.getElem?_cons_succ, dataRoles_get hi]
  · rfl
  · intro i hi
    simp only [Raid5Algorithm.dataOf]
    rw [List.getElem?_cons_succ, dataRoles_get hi]
  · simp [Raid5Algorithm.parityOf]
  · intro i hi
    simp only [Raid5Algorithm.dataOf]
    rw [List.getElem?_append_left (by simpa using hi), dataRoles_get hi]

theorem pqRow_perm {n p : Nat} :
    (pqRow n p).Perm (Role.P :: Role.Q :: dataRoles (n - 2)) := by
  unfold pqRow
  simp only
  split
  · rw [List.cons_append]
    exact ((List.perm_append_singleton _ _).cons _).trans (List.Perm.swap _ _ _)
  · have : (dataRoles (n - 2)).take p ++ [Role.P, Role.Q] ++ (dataRoles (n - 2)).drop p =
      (dataRoles (n - 2)).take p ++ ([Role.P, Role.Q] ++ (dataRoles (n - 2)).drop p) := by simp
    rw [this]
    refine (List.perm_append_comm_assoc _ _ _).trans ?_
    rw [List.take_append_drop]; rfl

theorem pqRow_P {n p : Nat} (hn : 3 ≤ n) (hp : p < n) : (pqRow n p)[p]? = some Role.P := by
  unfold pqRow
  simp only
  split
  · rw [List.getElem?_append_right (by simp; omega)]
    have : p - (Role.Q :: dataRoles (n - 2)).length = 0 := by simp; omega
    rw [this]; rfl
  · rw [List.append_assoc, List.getElem?_append_right (by simp)]
    have : p ≤ n - 2 := by omega
    simp [this]

theorem pqRow_Q {n p : Nat} (hn : 3 ≤ n) (hp : p < n) :
    (pqRow n p)[(p + 1) % n]? = some Role.Q := by
  unfold pqRow
  simp only
  split
  · have : p + 1 = n := by omega
    simp [this]
  · rw [Nat.mod_eq_of_lt (by omega), List.append_assoc, List.getElem?_append_right (by simp)]
    have h : p ≤ n - 2 := by omega
    have : p + 1 - (List.take p (dataRoles (n - 2))).length = 1 := by simp [h]
    rw [this]; rfl

theorem pqRow_D {n p i : Nat} (hn : 3 ≤ n) (hp : p < n) (hi : i < n - 2) :
    (pqRow n p)[i + if (p + 1) % n = 0 then 1 else if i ≥ p then 2 else 0]? =
      some (Role.D i) := by
  unfold pqRow
  simp only
  split
  · have : p + 1 = n := by omega
    rw [this, Nat.mod_self, if_pos rfl]
    rw [List.cons_append, List.getElem?_cons_succ, List.getElem?_append_left (by simpa using hi),
      dataRoles_get hi]
  · rw [Nat.mod_eq_of_lt (by omega), if_neg (by omega)]
    by_cases h : i ≥ p
    · rw [if_pos h, List.append_assoc, List.getElem?_append_right (by simp; omega)]
      have : i + 2 - (List.take p (dataRoles (n - 2))).length = (i - p) + 2 := by
        simp; omega
      rw [this]
      simp only [List.cons_append, List.nil_append, List.getElem?_cons_succ, List.getElem?_drop]
      rw [Nat.add_sub_cancel' h, dataRoles_get hi]
    · rw [if_neg h, List.append_assoc, List.getElem?_append_left (by simp; omega)]
      rw [Nat.add_zero, List.getElem?_take_of_lt (by omega), dataRoles_get hi]

theorem raid6Row_perm {L n s : Nat} {row : List Role} (hn : 3 ≤ n)
    (h : raid6Row L n s = some row) :
    row.Perm (Role.P :: Role.Q :: dataRoles (n - 2)) := by
  have hr : ∀ s, s % n < n := fun s => Nat.mod_lt _ (by omega)
  have h6 : ∀ {L : Nat}, (raid5Row L (n - 1) s).map (· ++ [Role.Q]) = some row →
      row.Perm (Role.P :: Role.Q :: dataRoles (n - 2)) := by
    intro L h
    rw [Option.map_eq_some_iff] at h
    obtain ⟨r, hr, rfl⟩ := h
    have := raid5Row_perm (by omega) hr
    refine (List.perm_append_singleton _ _).trans ((this.cons _).trans ?_)
    exact List.Perm.swap _ _ _
  unfold raid6Row at h
  split at h
  case h_10 => exact h6 h
  case h_11 => exact h6 h
  case h_12 => exact h6 h
  case h_13 => exact h6 h
  case h_14 => exact h6 h
  all_goals simp only [Option.some.injEq, reduceCtorEq] at h
  all_goals subst h
  · exact pqRow_perm
  · exact pqRow_perm
  · exact List.rotate_perm _ _
  · exact List.rotate_perm _ _
  · exact List.Perm.refl _
  · exact List.perm_append_comm
  · exact pqRow_perm
  · exact pqRow_perm
  · refine (List.rotate_perm _ _).trans ?_
    rw [List.cons_append]
    exact (List.perm_append_singleton _ _).cons _

namespace Raid6Algorithm

/-- Closed form of the P device. -/
def pOf (alg : Raid6Algorithm) (n s : Nat) : Nat :=
  match alg with
  | leftAsymmetric | leftSymmetric | rotatingNContinue => n - 1 - s % n
  | rightAsymmetric | rightSymmetric | rotating0Restart => s % n
  | parity0 => 0
  | parityN => n - 2
  | rotatingNRestart => n - 1 - (s + 1) % n
  | leftAsymmetric6 | leftSymmetric6 => n - 2 - s % (n - 1)
  | rightAsymmetric6 | rightSymmetric6 => s % (n - 1)
  | parity06 => 0

/-- Closed form of the Q device. -/
def qOf (alg : Raid6Algorithm) (n s : Nat) : Nat :=
  match alg with
  | leftAsymmetric | rightAsymmetric | leftSymmetric | rightSymmetric
  | rotating0Restart | rotatingNRestart => (pOf alg n s + 1) % n
  | parity0 => 1
  | parityN => n - 1
  | rotatingNContinue => (pOf alg n s + n - 1) % n
  | leftAsymmetric6 | rightAsymmetric6 | leftSymmetric6 | rightSymmetric6 | parity06 => n - 1

/-- Closed form of the data device. -/
def dataOf (alg : Raid6Algorithm) (n s i : Nat) : Nat :=
  match alg with
  | leftAsymmetric | rightAsymmetric | rotating0Restart | rotatingNRestart =>
      i + (if qOf alg n s = 0 then 1 else if i ≥ pOf alg n s then 2 else 0)
  | leftSymmetric | rightSymmetric => (pOf alg n s + 2 + i) % n
  | parity0 => i + 2
  | parityN => i
  | rotatingNContinue => (pOf alg n s + 1 + i) % n
  | leftAsymmetric6 | rightAsymmetric6 => i + (if i ≥ pOf alg n s then 1 else 0)
  | leftSymmetric6 | rightSymmetric6 => (pOf alg n s + 1 + i) % (n - 1)
  | parity06 => i + 1

end Raid6Algorithm

theorem raid5_append_Q {L n s : Nat} {alg : Raid5Algorithm} (hn : 3 ≤ n)
    (h : Raid5Algorithm.fromLayout L = some alg) :
    ∃ row, (raid5Row L (n - 1) s).map (· ++ [Role.Q]) = some row ∧
      row[alg.parityOf (n - 1) s]? = some Role.P ∧ row[n - 1]? = some Role.Q ∧
      ∀ i, i < n - 2 → row[alg.dataOf (n - 1) s i]? = some (Role.D i) := by
  obtain ⟨row, hrow, hP, hD⟩ := raid5Row_get (s := s) (show 2 ≤ n - 1 by omega) h
  have hlen : row.length = n - 1 := by
    rw [(raid5Row_perm (by omega) hrow).length_eq]; simp; omega
  have key : ∀ {j : Nat} {r : Role}, row[j]? = some r → (row ++ [Role.Q])[j]? = some r := by
    intro j r hj
    obtain ⟨hlt, _⟩ := List.getElem?_eq_some_iff.mp hj
    rw [List.getElem?_append_left hlt, hj]
  refine ⟨row ++ [Role.Q], by rw [hrow]; rfl, key hP, ?_, fun i hi => key (hD i (by omega))⟩
  rw [← hlen]; simp

/-- Where the model's closed forms put P, Q and the data chunks in the RAID6 row. -/
theorem raid6Row_get {L n s : Nat} {alg : Raid6Algorithm} (hn : 3 ≤ n)
    (h : Raid6Algorithm.fromLayout L = some alg) :
    ∃ row, raid6Row L n s = some row ∧ row[alg.pOf n s]? = some Role.P ∧
      row[alg.qOf n s]? = some Role.Q ∧
      ∀ i, i < n - 2 → row[alg.dataOf n s i]? = some (Role.D i) := by
  have hr : s % n < n := Nat.mod_lt _ (by omega)
  have hr1 : (s + 1) % n < n := Nat.mod_lt _ (by omega)
  have hlen : (Role.P :: Role.Q :: dataRoles (n - 2)).length = n := by simp; omega
  have hlen' : (Role.P :: dataRoles (n - 2) ++ [Role.Q]).length = n := by simp; omega
  unfold Raid6Algorithm.fromLayout at h
  split at h <;> simp only [Option.some.injEq, reduceCtorEq] at h <;> subst h
  · exact ⟨_, rfl, pqRow_P hn (by omega), pqRow_Q hn (by omega),
      fun i hi => pqRow_D hn (by omega) hi⟩
  · exact ⟨_, rfl, pqRow_P hn hr, pqRow_Q hn hr, fun i hi => pqRow_D hn hr hi⟩
  · refine ⟨_, rfl, ?_, ?_, ?_⟩
    · have := rotate_left_get (s := s) (j := 0) hlen (by omega)
      rw [Nat.add_zero, Nat.mod_eq_of_lt (by omega)] at this
      simpa [Raid6Algorithm.pOf] using this
    · exact rotate_left_get (s := s) (j := 1) hlen (by omega)
    · intro i hi
      have := rotate_left_get (s := s) (j := 2 + i) hlen (by omega)
      rw [← Nat.add_assoc] at this
      simp only [Raid6Algorithm.dataOf, Raid6Algorithm.pOf, this]
      rw [Nat.add_comm 2 i, List.getElem?_cons_succ, List.getElem?_cons_succ, dataRoles_get hi]
  · refine ⟨_, rfl, ?_, ?_, ?_⟩
    · have := rotate_right_get (s := s) (j := 0) hlen (by omega)
      rw [Nat.add_zero, Nat.mod_mod] at this
      simpa [Raid6Algorithm.pOf] using this
    · exact rotate_right_get (s := s) (j := 1) hlen (by omega)
    · intro i hi
      have := rotate_right_get (s := s) (j := 2 + i) hlen (by omega)
      rw [← Nat.add_assoc] at this
      simp only [Raid6Algorithm.dataOf, Raid6Algorithm.pOf, this]
      rw [Nat.add_comm 2 i, List.getElem?_cons_succ, List.getElem?_cons_succ, dataRoles_get hi]
  · refine ⟨_, rfl, rfl, rfl, ?_⟩
    intro i hi
    simp only [Raid6Algorithm.dataOf]
    rw [List.getElem?_cons_succ, List.getElem?_cons_succ, dataRoles_get hi]
  · refine ⟨_, rfl, ?_, ?_, ?_⟩
    · simp only [Raid6Algorithm.pOf]
      rw [List.getElem?_append_right (by simp)]; simp
    · simp only [Raid6Algorithm.qOf]
      rw [List.getElem?_append_right (by simp; omega)]
      have : n - 1 - (dataRoles (n - 2)).length = 1 := by simp; omega
      rw [this]; rfl
    · intro i hi
      simp only [Raid6Algorithm.dataOf]
      rw [List.getElem?_append_left (by simpa using hi), dataRoles_get hi]
  · exact ⟨_, rfl, pqRow_P hn hr, pqRow_Q hn hr, fun i hi => pqRow_D hn hr hi⟩
  · exact ⟨_, rfl, pqRow_P hn (by omega), pqRow_Q hn (by omega),
      fun i hi => pqRow_D hn (by omega) hi⟩
  · refine ⟨_, rfl, ?_, ?_, ?_⟩
    · have := rotate_left_get (s := s) (j := 0) hlen' (by omega)
      rw [Nat.add_zero, Nat.mod_eq_of_lt (by omega)] at this
      simpa [Raid6Algorithm.pOf] using this
    · have := rotate_left_get (s := s) (j := n - 1) hlen' (by omega)
      simp only [Raid6Algorithm.qOf, Raid6Algorithm.pOf]
      rw [show n - 1 - s % n + n - 1 = n - 1 - s % n + (n - 1) by omega, this]
      rw [List.getElem?_append_right (by simp; omega)]
      have : n - 1 - (Role.P :: dataRoles (n - 2)).length = 0 := by simp; omega
      rw [this]; rfl
    · intro i hi
      have := rotate_left_get (s := s) (j := 1 + i) hlen' (by omega)
      rw [← Nat.add_assoc] at this
      simp only [Raid6Algorithm.dataOf, Raid6Algorithm.pOf, this]
      rw [Nat.add_comm 1 i, List.cons_append, List.getElem?_cons_succ,
        List.getElem?_append_left (by simpa using hi), dataRoles_get hi]
  · exact raid5_append_Q hn (L := 0) rfl
  · exact raid5_append_Q hn (L := 1) rfl
  · exact raid5_append_Q hn (L := 2) rfl
  · exact raid5_append_Q hn (L := 3) rfl
  · exact raid5_append_Q (s := s) hn (L := 4) rfl

end MdRecover
