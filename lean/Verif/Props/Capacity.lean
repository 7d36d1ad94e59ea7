import Verif.Model.Format
import Verif.Lemmas.Raid6

/-! C10: the block count of an array and the addresses of its blocks. -/

namespace MdRecover
open MdSpec

theorem capacity_forward {b k c m : Nat} (hc : 0 < c) (hb : b < k * c * m) :
    b / c / m < k ∧ b / c / m * c + b % c < k * c := by
  have h1 : b / c / m < k := by
    rw [Nat.div_div_eq_div_mul]
    apply Nat.div_lt_of_lt_mul
    calc b < k * c * m := hb
      _ = c * m * k := by ring
  refine ⟨h1, ?_⟩
  have h2 : b % c < c := Nat.mod_lt _ hc
  calc b / c / m * c + b % c < b / c / m * c + c := by omega
    _ = (b / c / m + 1) * c := by ring
    _ ≤ k * c := Nat.mul_le_mul_right _ h1

theorem capacity_backward {sec k c m i : Nat} (hc : 0 < c) (hi : i < m) (hs : sec < k * c) :
    (sec / c * m + i) * c + sec % c < k * c * m := by
  have h1 : sec / c < k := Nat.div_lt_of_lt_mul (by rw [Nat.mul_comm]; exact hs)
  have h2 : sec % c < c := Nat.mod_lt _ hc
  have h3 : sec / c * m + i < k * m := by
    calc sec / c * m + i < sec / c * m + m := by omega
      _ = (sec / c + 1) * m := by ring
      _ ≤ k * m := Nat.mul_le_mul_right _ h1
  calc (sec / c * m + i) * c + sec % c < (sec / c * m + i) * c + c := by omega
    _ = (sec / c * m + i + 1) * c := by ring
    _ ≤ k * m * c := Nat.mul_le_mul_right _ h3
    _ = k * c * m := by ring

theorem dataSectorCount_raid6 {f : MdFormat} {alg : Raid6Algorithm} {count : Nat}
    (ha : f.algorithm = .raid6 alg) (h : f.dataSectorCount = some count) :
    2 ≤ f.deviceCount ∧ count = f.sectorsPerDevice * (f.deviceCount - 2) ∧ count < U64 := by
  unfold MdFormat.dataSectorCount MdFormat.dataDeviceCount MdFormat.parityDeviceCount at h
  rw [ha] at h
  by_cases h2 : 2 ≤ f.deviceCount
  · simp only [MdAlgorithm.parityDeviceCount, Option.bind_eq_bind, Option.bind_some,
      checkedSub_pos h2] at h
    unfold checkedMul64 at h
    split at h
    · simp only [Option.some.injEq] at h
      subst h
      exact ⟨h2, rfl, by assumption⟩
    · cases h
  · simp only [MdAlgorithm.parityDeviceCount, Option.bind_eq_bind, Option.bind_some,
      checkedSub_neg h2, Option.bind_none] at h
    cases h

theorem dataSectorCount_raid5 {f : MdFormat} {alg : Raid5Algorithm} {count : Nat}
    (ha : f.algorithm = .raid5 alg) (h : f.dataSectorCount = some count) :
    1 ≤ f.deviceCount ∧ count = f.sectorsPerDevice * (f.deviceCount - 1) ∧ count < U64 := by
  unfold MdFormat.dataSectorCount MdFormat.dataDeviceCount MdFormat.parityDeviceCount at h
  rw [ha] at h
  by_cases h2 : 1 ≤ f.deviceCount
  · simp only [MdAlgorithm.parityDeviceCount, Option.bind_eq_bind, Option.bind_some,
      checkedSub_pos h2] at h
    unfold checkedMul64 at h
    split at h
    · simp only [Option.some.injEq] at h
      subst h
      exact ⟨h2, rfl, by assumption⟩
    · cases h
  · simp only [MdAlgorithm.parityDeviceCount, Option.bind_eq_bind, Option.bind_some,
      checkedSub_neg h2, Option.bind_none] at h
    cases h

/-- C10, RAID6: a block below the block count has an address, inside the members. -/
theorem C10_raid6_blocks_inside {f : MdFormat} {alg : Raid6Algorithm} {count b : Nat}
    (ha : f.algorithm = .raid6 alg) (hcount : f.dataSectorCount = some count)
    (hn' : f.deviceCount < U32) (hs : f.sectorsPerDevice < U64) (hc : 0 < f.chunkSize)
    (hdvd : f.chunkSize ∣ f.sectorsPerDevice) (hb : b < count) :
    ∃ sec p q d, alg.computeSector b f.chunkSize f.deviceCount = some (sec, p, q, d) ∧
      sec < f.sectorsPerDevice ∧ d < f.deviceCount := by
  obtain ⟨h2, rfl, hlt⟩ := dataSectorCount_raid6 ha hcount
  obtain ⟨k, hk⟩ := hdvd
  rw [Nat.mul_comm] at hk
  have hn : 3 ≤ f.deviceCount := by
    rcases Nat.lt_or_ge f.deviceCount 3 with h | h
    · have : f.deviceCount - 2 = 0 := by omega
      rw [this] at hb; omega
    · exact h
  rw [hk] at hb
  obtain ⟨h3, h4⟩ := capacity_forward hc hb
  have hkle : k ≤ f.sectorsPerDevice := by rw [hk]; exact Nat.le_mul_of_pos_right _ hc
  rw [alg.computeSector_closed (by rw [← hk] at hb; omega) hc hn hn' (fun _ => by omega)]
  refine ⟨_, _, _, _, rfl, by rw [hk]; exact h4, ?_⟩
  exact alg.dataOf_lt hn (Nat.mod_lt _ (by omega))

example := C10_raid6_blocks_inside (f := ⟨.raid6 .leftSymmetric, 6, 1024, 128⟩) (count := 4096) (b := 4095)
  rfl (by decide) (by decide) (by decide) (by decide) (by decide) (by decide)

/-- C10, RAID6: every data slot inside the members is the address of a block below the count. -/
theorem C10_raid6_slots_covered {f : MdFormat} {alg : Raid6Algorithm} {L count sec d i : Nat}
    {row : List Role}
    (ha : f.algorithm = .raid6 alg) (hL : Raid6Algorithm.fromLayout L = some alg)
    (hcount : f.dataSectorCount = some count)
    (hn : 3 ≤ f.deviceCount) (hn' : f.deviceCount < U32) (hsU : f.sectorsPerDevice < U64)
    (hc : 0 < f.chunkSize)
    (hdvd : f.chunkSize ∣ f.sectorsPerDevice) (hs : sec < f.sectorsPerDevice)
    (hrow : raid6Row L f.deviceCount (sec / f.chunkSize) = some row)
    (hd : row[d]? = some (Role.D i)) :
    ∃ b p q, b < count ∧ alg.computeSector b f.chunkSize f.deviceCount = some (sec, p, q, d) := by
  obtain ⟨_, rfl, hlt⟩ := dataSectorCount_raid6 ha hcount
  obtain ⟨k, hk⟩ := hdvd
  rw [Nat.mul_comm] at hk
  have hi := raid6Row_mem_D hn hrow hd
  have hb := capacity_backward hc hi (by rw [← hk]; exact hs)
  rw [← hk] at hb
  obtain ⟨k1, k2, k3, k4⟩ := logical_coords (t := sec / f.chunkSize) hi (Nat.mod_lt sec hc)
  obtain ⟨row', hrow', hP, hQ, hD⟩ := raid6Row_get (s := sec / f.chunkSize) hn hL
  rw [hrow] at hrow'
  cases hrow'
  have hd' := row_inj (raid6Row_nodup hn hrow) hd (hD i hi)
  have hle : sec / f.chunkSize ≤ sec := Nat.div_le_self _ _
  refine ⟨_, alg.pOf f.deviceCount (sec / f.chunkSize), alg.qOf f.deviceCount (sec / f.chunkSize),
    hb, ?_⟩
  rw [alg.computeSector_closed (by omega) hc hn hn' (fun _ => by rw [k1, k3]; omega), k1, k2, k3,
    k4, Nat.div_add_mod', ← hd']

example := C10_raid6_slots_covered (f := ⟨.raid6 .leftSymmetric, 6, 1024, 128⟩) (L := 2) (count := 4096)
  (sec := 900) (d := 3) (i := 3) (row := [.D 0, .D 1, .D 2, .D 3, .P, .Q]) rfl rfl (by decide) (by decide) (by decide)
  (by decide) (by decide) (by decide) (by decide) (by decide) (by decide)

/-- C10, RAID5: a block below the block count has an address, inside the members. -/
theorem C10_raid5_blocks_inside {f : MdFormat} {alg : Raid5Algorithm} {count b : Nat}
    (ha : f.algorithm = .raid5 alg) (hcount : f.dataSectorCount = some count)
    (hn' : f.deviceCount < U32) (hc : 0 < f.chunkSize)
    (hdvd : f.chunkSize ∣ f.sectorsPerDevice) (hb : b < count) :
    ∃ sec p d, alg.computeSector b f.chunkSize f.deviceCount = some (sec, p, d) ∧
      sec < f.sectorsPerDevice ∧ d < f.deviceCount := by
  obtain ⟨h2, rfl, hlt⟩ := dataSectorCount_raid5 ha hcount
  obtain ⟨k, hk⟩ := hdvd
  rw [Nat.mul_comm] at hk
  have hn : 2 ≤ f.deviceCount := by
    rcases Nat.lt_or_ge f.deviceCount 2 with h | h
    · have : f.deviceCount - 1 = 0 := by omega
      rw [this] at hb; omega
    · exact h
  rw [hk] at hb
  obtain ⟨h3, h4⟩ := capacity_forward hc hb
  rw [alg.computeSector_closed (by rw [← hk] at hb; omega) hc hn hn']
  refine ⟨_, _, _, rfl, by rw [hk]; exact h4, ?_⟩
  exact alg.dataOf_lt hn (Nat.mod_lt _ (by omega))

example := C10_raid5_blocks_inside (f := ⟨.raid5 .rightAsymmetric, 4, 1024, 128⟩) (count := 3072) (b := 3071)
  rfl (by decide) (by decide) (by decide) (by decide) (by decide)

/-- C10, RAID5: every data slot inside the members is the address of a block below the count. -/
theorem C10_raid5_slots_covered {f : MdFormat} {alg : Raid5Algorithm} {L count sec d i : Nat}
    {row : List Role}
    (ha : f.algorithm = .raid5 alg) (hL : Raid5Algorithm.fromLayout L = some alg)
    (hcount : f.dataSectorCount = some count)
    (hn : 2 ≤ f.deviceCount) (hn' : f.deviceCount < U32) (hc : 0 < f.chunkSize)
    (hdvd : f.chunkSize ∣ f.sectorsPerDevice) (hs : sec < f.sectorsPerDevice)
    (hrow : raid5Row L f.deviceCount (sec / f.chunkSize) = some row)
    (hd : row[d]? = some (Role.D i)) :
    ∃ b p, b < count ∧ alg.computeSector b f.chunkSize f.deviceCount = some (sec, p, d) := by
  obtain ⟨_, rfl, hlt⟩ := dataSectorCount_raid5 ha hcount
  obtain ⟨k, hk⟩ := hdvd
  rw [Nat.mul_comm] at hk
  have hi := raid5Row_mem_D hn hrow hd
  have hb := capacity_backward hc hi (by rw [← hk]; exact hs)
  rw [← hk] at hb
  obtain ⟨k1, k2, k3, k4⟩ := logical_coords (t := sec / f.chunkSize) hi (Nat.mod_lt sec hc)
  obtain ⟨row', hrow', hP, hD⟩ := raid5Row_get (s := sec / f.chunkSize) hn hL
  rw [hrow] at hrow'
  cases hrow'
  have hd' := row_inj (raid5Row_nodup hn hrow) hd (hD i hi)
  refine ⟨_, alg.parityOf f.deviceCount (sec / f.chunkSize), hb, ?_⟩
  rw [alg.computeSector_closed (by omega) hc hn hn', k1, k2, k3, k4, Nat.div_add_mod', ← hd']

example := C10_raid5_slots_covered (f := ⟨.raid5 .leftAsymmetric, 4, 1024, 128⟩) (L := 0) (count := 3072)
  (sec := 900) (d := 2) (i := 1) (row := [.P, .D 0, .D 1, .D 2]) rfl rfl (by decide) (by decide) (by decide)
  (by decide) (by decide) (by decide) (by decide) (by decide)

/-- A format meeting the hypotheses of the C10 theorems. -/
example : (⟨.raid6 .leftSymmetric, 6, 1024, 128⟩ : MdFormat).dataSectorCount = some 4096 ∧
    128 ∣ 1024 := by decide

/-- The divisibility hypothesis of C10 is needed: with 12 sectors per device and chunks of 8, block
23 of 24 would be at sector 15 of a 12-sector member. -/
theorem C10_needs_divisibility :
    ∃ (f : MdFormat) (alg : Raid6Algorithm) (b count sec p q d : Nat),
      f.algorithm = .raid6 alg ∧ f.dataSectorCount = some count ∧ b < count ∧ 0 < f.chunkSize ∧
      alg.computeSector b f.chunkSize f.deviceCount = some (sec, p, q, d) ∧
      f.sectorsPerDevice ≤ sec :=
  ⟨⟨.raid6 .parityN, 4, 12, 8⟩, .parityN, 23, 24, 15, 2, 3, 0, by decide⟩

end MdRecover
