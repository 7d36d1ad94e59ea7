import Verif.Lemmas.Raid6

/-!
C01-C09: the RAID5 and RAID6 address computations.
`U64`, `U32` are the numbers of `u64`/`u32` values, so the bounds `< U64`, `< U32` on arguments only say
that the arguments are machine integers.
-/

namespace MdRecover
open MdSpec

/-- C01. -/
theorem C01_raid6_roles_distinct (alg : Raid6Algorithm) {sector c n sec p q d : Nat}
    (hs : sector < U64) (hn' : n < U32)
    (h : alg.computeSector sector c n = some (sec, p, q, d)) :
    p < n ∧ q < n ∧ d < n ∧ p ≠ q ∧ p ≠ d ∧ q ≠ d ∧
      sec = sector / (c * (n - 2)) * c + sector % c := by
  obtain ⟨hc, hn, e1, rfl, rfl, rfl⟩ := alg.computeSector_some hs hn' h
  obtain ⟨L, hL⟩ := alg.exists_layout
  have hi : sector / c % (n - 2) < n - 2 := Nat.mod_lt _ (by omega)
  obtain ⟨row, hrow, hP, hQ, hD⟩ := raid6Row_get (s := sector / c / (n - 2)) hn hL
  have hD := hD _ hi
  refine ⟨alg.pOf_lt hn, alg.qOf_lt hn, alg.dataOf_lt hn hi, ?_, ?_, ?_, ?_⟩
  · intro e; rw [e, hQ] at hP; cases hP
  · intro e; rw [e, hD] at hP; cases hP
  · intro e; rw [e, hD] at hQ; cases hQ
  · rw [e1, Nat.div_div_eq_div_mul]

example := C01_raid6_roles_distinct .rotatingNContinue (sector := 1000003) (c := 128) (n := 7)
  (sec := 200003) (p := 5) (q := 4) (d := 1) (by decide) (by decide) (by decide)

example : Raid6Algorithm.rotatingNContinue.computeSector 1000003 128 7 =
    some (200003, 5, 4, 1) := by decide

theorem raid6_injective (alg : Raid6Algorithm)
    {s₁ s₂ c n sec p₁ q₁ p₂ q₂ d : Nat}
    (h₁ : s₁ < U64) (h₂ : s₂ < U64) (hn' : n < U32)
    (e₁ : alg.computeSector s₁ c n = some (sec, p₁, q₁, d))
    (e₂ : alg.computeSector s₂ c n = some (sec, p₂, q₂, d)) : s₁ = s₂ := by
  obtain ⟨hc, hn, a₁, _, _, b₁⟩ := alg.computeSector_some h₁ hn' e₁
  obtain ⟨_, _, a₂, _, _, b₂⟩ := alg.computeSector_some h₂ hn' e₂
  obtain ⟨L, hL⟩ := alg.exists_layout
  have hm₁ : s₁ % c < c := Nat.mod_lt _ hc
  have hm₂ : s₂ % c < c := Nat.mod_lt _ hc
  have k₁ := logical_coords (t := 0) (m := 1) (i := 0) (r := s₁ % c) (by omega) hm₁
  have hdiv : ∀ t r, r < c → (t * c + r) / c = t ∧ (t * c + r) % c = r := by
    intro t r hr
    rw [Nat.mul_comm]
    exact ⟨by rw [Nat.mul_add_div hc, Nat.div_eq_of_lt hr, Nat.add_zero],
      by rw [Nat.mul_add_mod, Nat.mod_eq_of_lt hr]⟩
  obtain ⟨t₁, r₁⟩ := hdiv (s₁ / c / (n - 2)) (s₁ % c) hm₁
  obtain ⟨t₂, r₂⟩ := hdiv (s₂ / c / (n - 2)) (s₂ % c) hm₂
  rw [← a₁] at t₁ r₁
  rw [← a₂] at t₂ r₂
  have ht : s₁ / c / (n - 2) = s₂ / c / (n - 2) := t₁.symm.trans t₂
  have hr : s₁ % c = s₂ % c := r₁.symm.trans r₂
  obtain ⟨row, hrow, _, _, hD⟩ := raid6Row_get (s := s₁ / c / (n - 2)) hn hL
  have hD₁ := hD _ (Nat.mod_lt (s₁ / c) (show 0 < n - 2 by omega))
  have hD₂ := hD _ (Nat.mod_lt (s₂ / c) (show 0 < n - 2 by omega))
  rw [← b₁] at hD₁
  rw [ht, ← b₂] at hD₂
  rw [hD₁] at hD₂
  simp only [Option.some.injEq, Role.D.injEq] at hD₂
  rw [← logical_recompose s₁ c (n - 2), ← logical_recompose s₂ c (n - 2), ht, hr, hD₂]

/-- C02.  Two different logical sectors are at different places. -/
theorem C02_raid6_injective (alg : Raid6Algorithm)
    {s₁ s₂ c n sec₁ sec₂ p₁ q₁ d₁ p₂ q₂ d₂ : Nat}
    (h₁ : s₁ < U64) (h₂ : s₂ < U64) (hn' : n < U32) (hne : s₁ ≠ s₂)
    (e₁ : alg.computeSector s₁ c n = some (sec₁, p₁, q₁, d₁))
    (e₂ : alg.computeSector s₂ c n = some (sec₂, p₂, q₂, d₂)) : (d₁, sec₁) ≠ (d₂, sec₂) := by
  intro h
  cases h
  exact hne (raid6_injective alg h₁ h₂ hn' e₁ e₂)

example := C02_raid6_injective .leftSymmetric (s₁ := 77) (s₂ := 111) (c := 8) (n := 5) (sec₁ := 29)
  (sec₂ := 39) (p₁ := 1) (q₁ := 2) (d₁ := 3) (p₂ := 0) (q₂ := 1) (d₂ := 3)
  (by decide) (by decide) (by decide) (by decide) (by decide) (by decide)

/-- Two sectors of one chunk, and two of the same device in different stripes. -/
example : Raid6Algorithm.leftSymmetric.computeSector 77 8 5 = some (29, 1, 2, 3) ∧
    Raid6Algorithm.leftSymmetric.computeSector 78 8 5 = some (30, 1, 2, 3) ∧
    Raid6Algorithm.leftSymmetric.computeSector 111 8 5 = some (39, 0, 1, 3) := by decide

/-- C03.  If the layout table says device `d` holds the `i`-th data chunk of the stripe containing
sector `sec`, then the logical sector made of these coordinates is mapped exactly there (provided
it is a `u64`, and, for the layout called rotating-N-restart, not in the last stripe that a `u64` can number). -/
theorem C03_raid6_covers_data_slots {L n c sec d i : Nat} {alg : Raid6Algorithm} {row : List Role}
    (hL : Raid6Algorithm.fromLayout L = some alg) (hc : 0 < c) (hn : 3 ≤ n) (hn' : n < U32)
    (hrow : raid6Row L n (sec / c) = some row) (hd : row[d]? = some (Role.D i))
    (hfit : ((sec / c) * (n - 2) + i) * c + sec % c < U64)
    (hcorner : alg = .rotatingNRestart → sec / c + 1 < U64) :
    ∃ p q, alg.computeSector (((sec / c) * (n - 2) + i) * c + sec % c) c n =
        some (sec, p, q, d) ∧ row[p]? = some Role.P ∧ row[q]? = some Role.Q := by
  have hi := raid6Row_mem_D hn hrow hd
  obtain ⟨k1, k2, k3, k4⟩ := logical_coords (t := sec / c) hi (Nat.mod_lt sec hc)
  obtain ⟨row', hrow', hP, hQ, hD⟩ := raid6Row_get (s := sec / c) hn hL
  rw [hrow] at hrow'
  cases hrow'
  have hd' : d = alg.dataOf n (sec / c) i := row_inj (raid6Row_nodup hn hrow) hd (hD i hi)
  refine ⟨_, _, ?_, hP, hQ⟩
  rw [alg.computeSector_closed hfit hc hn hn' (fun h => by rw [k1, k3]; exact hcorner h), k1, k2, k3,
    k4, Nat.div_add_mod', ← hd']

example := C03_raid6_covers_data_slots (L := 2) (n := 5) (c := 8) (sec := 1000) (d := 2) (i := 1)
  (alg := .leftSymmetric) (row := [.Q, .D 0, .D 1, .D 2, .P]) (by decide) (by decide) (by decide)
  (by decide) (by decide) (by decide) (by decide) (by decide)

example : raid6Row 2 5 (1000 / 8) = some [.Q, .D 0, .D 1, .D 2, .P] := by decide

/-- C03, other half: the slot of a P or Q position is never returned as a data slot (together with
C02 and the above: logical sectors and data slots are in bijection). -/
theorem C03_raid6_data_only (alg : Raid6Algorithm) {L sector c n sec p q d : Nat} {row : List Role}
    (hL : Raid6Algorithm.fromLayout L = some alg) (hs : sector < U64) (hn' : n < U32)
    (h : alg.computeSector sector c n = some (sec, p, q, d))
    (hrow : raid6Row L n (sec / c) = some row) :
    ∃ i, i < n - 2 ∧ row[d]? = some (Role.D i) ∧
      sector = ((sec / c) * (n - 2) + i) * c + sec % c := by
  obtain ⟨hc, hn, e1, rfl, rfl, rfl⟩ := alg.computeSector_some hs hn' h
  have hm : sector % c < c := Nat.mod_lt _ hc
  have hi : sector / c % (n - 2) < n - 2 := Nat.mod_lt _ (by omega)
  have hd1 : sec / c = sector / c / (n - 2) := by
    rw [e1, Nat.mul_comm, Nat.mul_add_div hc, Nat.div_eq_of_lt hm, Nat.add_zero]
  have hd2 : sec % c = sector % c := by
    rw [e1, Nat.mul_comm, Nat.mul_add_mod, Nat.mod_eq_of_lt hm]
  obtain ⟨row', hrow', _, _, hD⟩ := raid6Row_get (s := sector / c / (n - 2)) hn hL
  rw [hd1, hrow'] at hrow
  cases hrow
  exact ⟨_, hi, hD _ hi, by rw [hd1, hd2, logical_recompose]⟩

example := C03_raid6_data_only .leftSymmetric (L := 2) (sector := 77) (c := 8) (n := 5) (sec := 29)
  (p := 1) (q := 2) (d := 3) (row := [.D 2, .P, .Q, .D 0, .D 1]) (by decide) (by decide) (by decide)
  (by decide) (by decide)

/-- C04. -/
theorem C04_raid6_layout_table {L sector c n sec p q d : Nat} {alg : Raid6Algorithm}
    (hL : Raid6Algorithm.fromLayout L = some alg) (hs : sector < U64) (hn' : n < U32)
    (h : alg.computeSector sector c n = some (sec, p, q, d)) :
    ∃ row, raid6Row L n (sector / c / (n - 2)) = some row ∧
      row.Perm (Role.P :: Role.Q :: dataRoles (n - 2)) ∧
      row[p]? = some Role.P ∧ row[q]? = some Role.Q ∧
      row[d]? = some (Role.D (sector / c % (n - 2))) := by
  obtain ⟨hc, hn, e1, rfl, rfl, rfl⟩ := alg.computeSector_some hs hn' h
  obtain ⟨row, hrow, hP, hQ, hD⟩ := raid6Row_get (s := sector / c / (n - 2)) hn hL
  exact ⟨row, hrow, raid6Row_perm hn hrow, hP, hQ, hD _ (Nat.mod_lt _ (by omega))⟩

example := C04_raid6_layout_table (L := 10) (alg := .rotatingNContinue) (sector := 1000003) (c := 128)
  (n := 7) (sec := 200003) (p := 5) (q := 4) (d := 1) (by decide) (by decide) (by decide) (by decide)

/-- C04: the layout numbers understood are exactly those of the table. -/
theorem C04_raid6_layout_numbers (L n s : Nat) :
    (Raid6Algorithm.fromLayout L).isSome ↔ (raid6Row L n s).isSome := by
  unfold Raid6Algorithm.fromLayout raid6Row
  split <;> simp [raid5Row]

example : Raid6Algorithm.fromLayout 10 = some .rotatingNContinue ∧
    Raid6Algorithm.rotatingNContinue.computeSector 1000003 128 7 = some (200003, 5, 4, 1) ∧
    raid6Row 10 7 (1000003 / 128 / 5) =
      some [.D 1, .D 2, .D 3, .D 4, .Q, .P, .D 0] := by decide

/-- C05. -/
theorem C05_raid6_total (alg : Raid6Algorithm) {sector c n : Nat}
    (hs : sector < U64) (hn' : n < U32) :
    alg.computeSector sector c n = none ↔
      c = 0 ∨ n < 3 ∨
        (alg = .rotatingNRestart ∧ sector / c / (n - 2) = 18446744073709551615) := by
  constructor
  · intro h
    by_contra hbad
    simp only [not_or, not_and] at hbad
    obtain ⟨h1, h2, h3⟩ := hbad
    have hle : sector / c / (n - 2) ≤ sector :=
      (Nat.div_le_self _ _).trans (Nat.div_le_self _ _)
    rw [alg.computeSector_closed hs (by omega) (by omega) hn'
      (fun e => by have := h3 e; omega)] at h
    cases h
  · intro h
    refine alg.computeSector_none ?_
    rcases h with h | h | ⟨h, h'⟩
    · exact .inl h
    · exact .inr (.inl h)
    · exact .inr (.inr ⟨h, by rw [h']⟩)

example := C05_raid6_total .rotatingNRestart (sector := 18446744073709551615) (c := 1) (n := 3)
  (by decide) (by decide)

example : Raid6Algorithm.rotatingNRestart.computeSector 18446744073709551615 1 3 = none ∧
    (Raid6Algorithm.rotatingNRestart.computeSector 18446744073709551614 1 3).isSome := by decide

/-- C06. -/
theorem C06_raid5_roles_distinct (alg : Raid5Algorithm) {sector c n sec p d : Nat}
    (hs : sector < U64) (hn' : n < U32)
    (h : alg.computeSector sector c n = some (sec, p, d)) :
    p < n ∧ d < n ∧ p ≠ d ∧ sec = sector / (c * (n - 1)) * c + sector % c := by
  obtain ⟨hc, hn, e1, rfl, rfl⟩ := alg.computeSector_some hs hn' h
  obtain ⟨L, hL⟩ := alg.exists_layout
  have hi : sector / c % (n - 1) < n - 1 := Nat.mod_lt _ (by omega)
  obtain ⟨row, hrow, hP, hD⟩ := raid5Row_get (s := sector / c / (n - 1)) hn hL
  have hD := hD _ hi
  refine ⟨alg.parityOf_lt hn, alg.dataOf_lt hn hi, ?_, ?_⟩
  · intro e; rw [e, hD] at hP; cases hP
  · rw [e1, Nat.div_div_eq_div_mul]

example := C06_raid5_roles_distinct .leftSymmetric (sector := 12345) (c := 64) (n := 4) (sec := 4153)
  (p := 3) (d := 0) (by decide) (by decide) (by decide)

example : Raid5Algorithm.leftSymmetric.computeSector 12345 64 4 = some (4153, 3, 0) := by decide

theorem raid5_injective (alg : Raid5Algorithm) {s₁ s₂ c n sec p₁ p₂ d : Nat}
    (h₁ : s₁ < U64) (h₂ : s₂ < U64) (hn' : n < U32)
    (e₁ : alg.computeSector s₁ c n = some (sec, p₁, d))
    (e₂ : alg.computeSector s₂ c n = some (sec, p₂, d)) : s₁ = s₂ := by
  obtain ⟨hc, hn, a₁, _, b₁⟩ := alg.computeSector_some h₁ hn' e₁
  obtain ⟨_, _, a₂, _, b₂⟩ := alg.computeSector_some h₂ hn' e₂
  obtain ⟨L, hL⟩ := alg.exists_layout
  have hm₁ : s₁ % c < c := Nat.mod_lt _ hc
  have hm₂ : s₂ % c < c := Nat.mod_lt _ hc
  have hdiv : ∀ t r, r < c → (t * c + r) / c = t ∧ (t * c + r) % c = r := by
    intro t r hr
    rw [Nat.mul_comm]
    exact ⟨by rw [Nat.mul_add_div hc, Nat.div_eq_of_lt hr, Nat.add_zero],
      by rw [Nat.mul_add_mod, Nat.mod_eq_of_lt hr]⟩
  obtain ⟨t₁, r₁⟩ := hdiv (s₁ / c / (n - 1)) (s₁ % c) hm₁
  obtain ⟨t₂, r₂⟩ := hdiv (s₂ / c / (n - 1)) (s₂ % c) hm₂
  rw [← a₁] at t₁ r₁
  rw [← a₂] at t₂ r₂
  have ht : s₁ / c / (n - 1) = s₂ / c / (n - 1) := t₁.symm.trans t₂
  have hr : s₁ % c = s₂ % c := r₁.symm.trans r₂
  obtain ⟨row, hrow, _, hD⟩ := raid5Row_get (s := s₁ / c / (n - 1)) hn hL
  have hD₁ := hD _ (Nat.mod_lt (s₁ / c) (show 0 < n - 1 by omega))
  have hD₂ := hD _ (Nat.mod_lt (s₂ / c) (show 0 < n - 1 by omega))
  rw [← b₁] at hD₁
  rw [ht, ← b₂] at hD₂
  rw [hD₁] at hD₂
  simp only [Option.some.injEq, Role.D.injEq] at hD₂
  rw [← logical_recompose s₁ c (n - 1), ← logical_recompose s₂ c (n - 1), ht, hr, hD₂]

/-- C07, injectivity.  Two different logical sectors are at different places. -/
theorem C07_raid5_injective (alg : Raid5Algorithm) {s₁ s₂ c n sec₁ sec₂ p₁ p₂ d₁ d₂ : Nat}
    (h₁ : s₁ < U64) (h₂ : s₂ < U64) (hn' : n < U32) (hne : s₁ ≠ s₂)
    (e₁ : alg.computeSector s₁ c n = some (sec₁, p₁, d₁))
    (e₂ : alg.computeSector s₂ c n = some (sec₂, p₂, d₂)) : (d₁, sec₁) ≠ (d₂, sec₂) := by
  intro h
  cases h
  exact hne (raid5_injective alg h₁ h₂ hn' e₁ e₂)

example := C07_raid5_injective .leftSymmetric (s₁ := 12345) (s₂ := 12346) (c := 64) (n := 4)
  (sec₁ := 4153) (sec₂ := 4154) (p₁ := 3) (p₂ := 3) (d₁ := 0) (d₂ := 0)
  (by decide) (by decide) (by decide) (by decide) (by decide) (by decide)

example : Raid5Algorithm.leftSymmetric.computeSector 12345 64 4 = some (4153, 3, 0) ∧
    Raid5Algorithm.leftSymmetric.computeSector 12346 64 4 = some (4154, 3, 0) := by decide

/-- C07, every data slot of the table is the image of a logical sector. -/
theorem C07_raid5_covers_data_slots {L n c sec d i : Nat} {alg : Raid5Algorithm} {row : List Role}
    (hL : Raid5Algorithm.fromLayout L = some alg) (hc : 0 < c) (hn : 2 ≤ n) (hn' : n < U32)
    (hrow : raid5Row L n (sec / c) = some row) (hd : row[d]? = some (Role.D i))
    (hfit : ((sec / c) * (n - 1) + i) * c + sec % c < U64) :
    ∃ p, alg.computeSector (((sec / c) * (n - 1) + i) * c + sec % c) c n =
        some (sec, p, d) ∧ row[p]? = some Role.P := by
  have hi := raid5Row_mem_D hn hrow hd
  obtain ⟨k1, k2, k3, k4⟩ := logical_coords (t := sec / c) hi (Nat.mod_lt sec hc)
  obtain ⟨row', hrow', hP, hD⟩ := raid5Row_get (s := sec / c) hn hL
  rw [hrow] at hrow'
  cases hrow'
  have hd' : d = alg.dataOf n (sec / c) i := row_inj (raid5Row_nodup hn hrow) hd (hD i hi)
  refine ⟨_, ?_, hP⟩
  rw [alg.computeSector_closed hfit hc hn hn', k1, k2, k3, k4, Nat.div_add_mod', ← hd']

example := C07_raid5_covers_data_slots (L := 0) (n := 4) (c := 16) (sec := 777) (d := 1) (i := 1)
  (alg := .leftAsymmetric) (row := [.D 0, .D 1, .D 2, .P]) (by decide) (by decide) (by decide)
  (by decide) (by decide) (by decide) (by decide)

example : raid5Row 0 4 (777 / 16) = some [.D 0, .D 1, .D 2, .P] := by decide

/-- C08. -/
theorem C08_raid5_layout_table {L sector c n sec p d : Nat} {alg : Raid5Algorithm}
    (hL : Raid5Algorithm.fromLayout L = some alg) (hs : sector < U64) (hn' : n < U32)
    (h : alg.computeSector sector c n = some (sec, p, d)) :
    ∃ row, raid5Row L n (sector / c / (n - 1)) = some row ∧
      row.Perm (Role.P :: dataRoles (n - 1)) ∧ row[p]? = some Role.P ∧
      row[d]? = some (Role.D (sector / c % (n - 1))) := by
  obtain ⟨hc, hn, e1, rfl, rfl⟩ := alg.computeSector_some hs hn' h
  obtain ⟨row, hrow, hP, hD⟩ := raid5Row_get (s := sector / c / (n - 1)) hn hL
  exact ⟨row, hrow, raid5Row_perm hn hrow, hP, hD _ (Nat.mod_lt _ (by omega))⟩

example := C08_raid5_layout_table (L := 2) (alg := .leftSymmetric) (sector := 12345) (c := 64) (n := 4)
  (sec := 4153) (p := 3) (d := 0) (by decide) (by decide) (by decide) (by decide)

/-- C08: the layout numbers understood are exactly those of the table. -/
theorem C08_raid5_layout_numbers (L n s : Nat) :
    (Raid5Algorithm.fromLayout L).isSome ↔ (raid5Row L n s).isSome := by
  unfold Raid5Algorithm.fromLayout raid5Row
  split <;> simp

/-- C09. -/
theorem C09_raid5_total (alg : Raid5Algorithm) {sector c n : Nat}
    (hs : sector < U64) (hn' : n < U32) :
    alg.computeSector sector c n = none ↔ c = 0 ∨ n < 2 := by
  constructor
  · intro h
    by_contra hbad
    simp only [not_or] at hbad
    rw [alg.computeSector_closed hs (by omega) (by omega) hn'] at h
    cases h
  · exact alg.computeSector_none

example := C09_raid5_total .parityN (sector := 18446744073709551615) (c := 1) (n := 2)
  (by decide) (by decide)

example : (Raid5Algorithm.parityN.computeSector 18446744073709551615 1 2).isSome := by decide

end MdRecover
