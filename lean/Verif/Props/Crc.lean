import Verif.Lemmas.Crc

/- C52, C53: the ext4 checksum. -/

namespace MdRecover

open MdSpec

/-- C52: the checksum of a concatenation is the checksum of the second part, started from the
checksum of the first. -/
theorem C52_pieces (initial : BitVec 32) (a b : Bytes) :
    ext4Crc32c initial (a ++ b) = ext4Crc32c (ext4Crc32c initial a) b := by
  simp [ext4Crc32c, List.foldl_append]

/-- C52: the table-driven computation equals the bit-serial definition. -/
theorem C52_bit_serial (initial : BitVec 32) (bytes : Bytes) :
    ext4Crc32c initial bytes = crcBitSerial initial (bitsOf bytes) :=
  ext4Crc32c_serial initial bytes

/-- C52: the checksum is the one and only value that is the remainder of polynomial division by
the Castagnoli generator. -/
theorem C52_polynomial_division (initial : BitVec 32) (bytes : Bytes) (c : BitVec 32) :
    ext4Crc32c initial bytes = c ↔ IsCrc32c initial bytes c := by
  constructor
  · rintro rfl; exact ext4Crc32c_isCrc initial bytes
  · intro h
    have h' := ext4Crc32c_isCrc initial bytes
    unfold IsCrc32c at h h'
    exact regPoly_inj (h'.trans h.symm)

/-- C53: strings of the same length that differ, and only inside 32 consecutive bits, have
different checksums. -/
theorem C53_burst (initial : BitVec 32) (k : Nat) (a b : Bytes) (hd : DifferInBurst k a b)
    (hne : a ≠ b) : ext4Crc32c initial a ≠ ext4Crc32c initial b :=
  burst_detected hd hne initial

/-- C53 for whole bytes: any change inside a window of four consecutive bytes. -/
theorem C53_four_bytes (initial : BitVec 32) (front rest w v : Bytes) (hw : w.length ≤ 4)
    (hl : w.length = v.length) (hne : w ≠ v) :
    ext4Crc32c initial (front ++ w ++ rest) ≠ ext4Crc32c initial (front ++ v ++ rest) := by
  apply burst_detected (k := 8 * front.length)
  · refine ⟨by simp [hl], fun i hi => ?_⟩
    have hf : ∀ l m : Bytes, bitsOf (l ++ m) = bitsOf l ++ bitsOf m := by
      intro l m; simp [bitsOf]
    simp only [hf]
    have h1 := bitsOf_length front
    have h2 := bitsOf_length w
    have h3 := bitsOf_length v
    rcases hi with hi | hi
    · rw [List.append_assoc, List.append_assoc, List.getElem?_append_left (by omega),
        List.getElem?_append_left (by omega)]
    · rw [List.getElem?_append_right (by rw [List.length_append]; omega),
        List.getElem?_append_right (by rw [List.length_append]; omega)]
      simp only [List.length_append, h2, h3, hl]
  · intro h
    apply hne
    simpa using h

/-- C53 for the checksum seed: for one and the same string, different initial values give
different checksums. -/
theorem C53_seed (a b : BitVec 32) (bytes : Bytes) (hne : a ≠ b) :
    ext4Crc32c a bytes ≠ ext4Crc32c b bytes := by
  intro h
  apply hne
  obtain ⟨q, hq⟩ := regPoly_fold (bitsOf bytes) a
  obtain ⟨r, hr⟩ := regPoly_fold (bitsOf bytes) b
  rw [ext4Crc32c_serial, ext4Crc32c_serial] at h
  have h' : (bitsOf bytes).foldl crcStep a = (bitsOf bytes).foldl crcStep b := h
  rw [h'] at hq
  have hd : castagnoli ∣ (bitsPoly (regBits a) - bitsPoly (regBits b))
      * Polynomial.X ^ (bitsOf bytes).length := ⟨q - r, by linear_combination hq - hr⟩
  have hd' := (castagnoli_coprime_X.pow_right).dvd_of_dvd_mul_right hd
  apply regPoly_inj
  by_contra hne0
  have := Polynomial.degree_le_of_dvd hd' (sub_ne_zero.2 hne0)
  rw [castagnoli_degree] at this
  have h1 := bitsPoly_degree (regBits a)
  have h2 := bitsPoly_degree (regBits b)
  rw [regBits_length] at h1 h2
  exact absurd (lt_of_le_of_lt (Polynomial.degree_sub_le _ _) (max_lt h1 h2)) (not_lt.2 this)

/-- The published check value of CRC32C for "123456789", 0xE3069283, without its final
inversion. -/
example : ext4Crc32c crcInitial [49, 50, 51, 52, 53, 54, 55, 56, 57] = 0x1cf96d7c#32 := by
  decide +kernel

/-- Two strings that differ only inside the 32 bits from bit 4 on. -/
example : DifferInBurst 4 [0x12, 0x34, 0x56, 0x78, 0x9a, 0xbc] [0xe2, 0, 0, 0, 0x97, 0xbc] := by
  refine ⟨rfl, fun i hi => ?_⟩
  have hin : ∀ i, i < 48 → (i < 4 ∨ 4 + 32 ≤ i) →
      (bitsOf [0x12, 0x34, 0x56, 0x78, 0x9a, 0xbc])[i]?
        = (bitsOf [0xe2, 0, 0, 0, 0x97, 0xbc])[i]? := by decide +kernel
  by_cases h : i < 48
  · exact hin i h hi
  · rw [List.getElem?_eq_none, List.getElem?_eq_none] <;> rw [bitsOf_length] <;> simp <;> omega

end MdRecover
