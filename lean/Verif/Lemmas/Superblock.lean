import Verif.Lemmas.MdOnDisk
import Verif.Model.SuperblockV0
import Verif.Model.SuperblockV1

namespace MdRecover
open MdSpec

theorem hasBit_iff (n i : Nat) : hasBit n i = decide (n / 2 ^ i % 2 = 1) := by
  rw [hasBit, Nat.testBit_eq_decide_div_mod_eq]

theorem Role.isSpare_eq (r : Role) : r.isSpare = decide (r.val = 0xffff) := rfl
theorem Role.isFaulty_eq (r : Role) : r.isFaulty = decide (r.val = 0xfffe) := rfl
theorem Role.isJournal_eq (r : Role) : r.isJournal = decide (r.val = 0xfffd) := rfl
theorem Role.isInvalid_eq (r : Role) :
    r.isInvalid = (decide (0xfeff < r.val) && decide (r.val < 0xfffd)) := rfl
theorem Role.isValid_eq (r : Role) :
    r.isValid = !(decide (0xfeff ≤ r.val) && decide (r.val < 0xfffd)) := rfl
theorem Role.deviceNumber_eq (r : Role) :
    r.deviceNumber = if r.val ≤ 0xfeff then some r.val else none := rfl

/-- A reader that fills the whole buffer at once. -/
theorem readExact_full {S : Type} {read : Bytes → SM S (Nat × Bytes)} {buf out : Bytes} {s s' : S}
    (h : read buf s = (s', .ok (buf.length, out))) (hl : out.length = buf.length) (hb : buf ≠ []) :
    readExact read buf s = (s', .ok out) := by
  unfold readExact
  obtain ⟨n, hn⟩ : ∃ n, buf.length = n + 1 :=
    ⟨buf.length - 1, by have := List.length_pos_iff.mpr hb; omega⟩
  rw [hn]
  unfold readExactLoop
  rw [if_neg hb, SM.bind_ok (h := h)]
  simp only
  rw [if_neg (by omega), if_neg (by omega)]
  rw [SM.bind_ok (s' := s') (a := [])]
  · rw [List.append_nil, List.take_of_length_le (by omega)]; rfl
  · rw [List.drop_of_length_le (by omega)]
    cases n <;> simp [readExactLoop]

/-- Writing an integer in a byte order. -/
def Endian.enc : Endian → Nat → Nat → Bytes
  | .little => leBytes
  | .big => beBytes

@[simp] theorem Endian.enc_length (e : Endian) (n v : Nat) : (e.enc n v).length = n := by
  cases e <;> simp [enc]

theorem Endian.nat_enc (e : Endian) {n v : Nat} (h : v < 256 ^ n) : e.nat (e.enc n v) = v := by
  cases e
  · exact leNat_leBytes h
  · exact beNat_beBytes h

theorem Endian.nat_lt (e : Endian) (b : Bytes) : e.nat b < 256 ^ b.length := by
  cases e
  · exact leNat_lt b
  · exact beNat_lt b

/-- An integer field at offset `o` of width `w`. -/
theorem Layout.nat_at {F : Type} [DecidableEq F] (l : Layout F) (e : Endian) (b : Bytes) (f : F)
    (o w : Nat) (ho : l.offset f = o) (hw : l.width f = w) :
    l.nat e b f = e.nat (slice b o w) := by
  subst ho hw; rfl

theorem v1_get (s : SuperblockV1) (f : V1Field) (o w : Nat) (ho : v1Layout.offset f = o := by rfl)
    (hw : v1Layout.width f = w := by rfl) : s.get f = leNat (slice s.buffer o w) :=
  Layout.nat_at _ _ _ _ _ _ ho hw

theorem v1_reshape (s : SuperblockV1) : s.reshape =
    { newAlgorithm := MdAlgorithm.fromLevelAndLayout (leNat (slice s.buffer 100 4))
        (leNat (slice s.buffer 116 4))
      reshapePosition := leNat (slice s.buffer 104 8)
      deltaDevices := leNat (slice s.buffer 112 4)
      newChunkSize := leNat (slice s.buffer 120 4)
      newOffset := leNat (slice s.buffer 124 4) } := by
  have hb : v1Layout.bytes s.buffer .reshapeStatus = slice s.buffer 100 28 := rfl
  have h : ∀ f o w, v1ReshapeLayout.offset f = o → v1ReshapeLayout.width f = w → o + w ≤ 28 →
      v1ReshapeLayout.nat .little (slice s.buffer 100 28) f = leNat (slice s.buffer (100 + o) w) := by
    intro f o w ho hw hle
    rw [Layout.nat_at _ _ _ _ o w ho hw, slice_slice hle]; rfl
  simp only [SuperblockV1.reshape, hb]
  rw [h .newLevel 0 4 rfl rfl (by omega), h .newLayout 16 4 rfl rfl (by omega),
    h .reshapePosition 4 8 rfl rfl (by omega), h .deltaDevices 12 4 rfl rfl (by omega),
    h .newChunkSize 20 4 rfl rfl (by omega), h .newOffset 24 4 rfl rfl (by omega)]

theorem v1_deviceRoles (s : SuperblockV1) : s.deviceRoles = .ok
    ((List.range (min (leNat (slice s.buffer 220 4)) ((s.buffer.length - 256) / 2))).map
      fun i => ⟨leNat (slice s.buffer (256 + 2 * i) 2)⟩) := by
  have ht : v1Layout.tail s.buffer .devRoles = s.buffer.drop 256 := rfl
  unfold SuperblockV1.deviceRoles
  simp only [ht, v1_get s .maxDevices 220 4, List.length_drop, SuperblockV1.readU16Into]
  rw [if_neg (by omega)]
  simp only [List.map_map]
  congr 1
  apply List.map_congr_left
  intro i hi
  simp only [Function.comp, slice, List.drop_drop]

theorem v0_reshape (e : Endian) (b : Bytes) :
    SuperblockV0.reshapeOfView e (v0Layout.bytes b .reshapeStatus) =
    { newAlgorithm := MdAlgorithm.fromLevelAndLayout (e.nat (slice b 184 4)) (e.nat (slice b 192 4))
      reshapePosition := e.nat (slice b 176 8)
      deltaDevices := e.nat (slice b 188 4)
      newChunkSize := e.nat (slice b 196 4)
      newOffset := 0 } := by
  have hb : v0Layout.bytes b .reshapeStatus = slice b 176 24 := rfl
  have h : ∀ f o w, v0ReshapeLayout.offset f = o → v0ReshapeLayout.width f = w → o + w ≤ 24 →
      v0ReshapeLayout.nat e (slice b 176 24) f = e.nat (slice b (176 + o) w) := by
    intro f o w ho hw hle
    rw [Layout.nat_at _ _ _ _ o w ho hw, slice_slice hle]
  simp only [SuperblockV0.reshapeOfView, hb]
  rw [h .newLevel 8 4 rfl rfl (by omega), h .newLayout 16 4 rfl rfl (by omega),
    h .reshapePosition 0 8 rfl rfl (by omega), h .deltaDevices 12 4 rfl rfl (by omega),
    h .newChunkSize 20 4 rfl rfl (by omega)]

theorem descriptor_ofView (e : Endian) (b : Bytes) : DeviceDescriptor.ofView e b =
    { index := e.nat (slice b 0 4), major := e.nat (slice b 4 4), minor := e.nat (slice b 8 4),
      role := ⟨e.nat (slice b 12 4)⟩, state := e.nat (slice b 16 4) } := rfl

/-- All fields of a version-0 superblock by their offsets. -/
theorem v0_ofView (e : Endian) (b : Bytes) : SuperblockV0.ofView e b =
    { magic := e.nat (slice b 0 4)
      majorVersion := e.nat (slice b 4 4)
      minorVersion := e.nat (slice b 8 4)
      arrayUuid0 := e.nat (slice b 20 4)
      arrayUuid1 := e.nat (slice b 52 4)
      arrayUuid2 := e.nat (slice b 56 4)
      arrayUuid3 := e.nat (slice b 60 4)
      level := e.nat (slice b 28 4)
      layout := e.nat (slice b 256 4)
      sectorsPerDevice := e.nat (slice b 32 4)
      totalDeviceCount := e.nat (slice b 36 4)
      raidDeviceCount := e.nat (slice b 40 4)
      chunkSize := e.nat (slice b 260 4)
      eventCount := e.nat (slice b 156 8)
      reshapeStatus :=
        { newAlgorithm := MdAlgorithm.fromLevelAndLayout (e.nat (slice b 184 4))
            (e.nat (slice b 192 4))
          reshapePosition := e.nat (slice b 176 8)
          deltaDevices := e.nat (slice b 188 4)
          newChunkSize := e.nat (slice b 196 4)
          newOffset := 0 }
      devices := (List.range 27).map fun i =>
        DeviceDescriptor.ofView e (slice b (512 + 128 * i) 128)
      thisDevice := DeviceDescriptor.ofView e (slice b 3968 128) } := by
  have h1 := v0_reshape e b
  have h2 : (List.range 27).map (fun i => DeviceDescriptor.ofView e
      (slice (v0Layout.bytes b .devices) (i * v0DescriptorLayout.size) v0DescriptorLayout.size)) =
      (List.range 27).map fun i => DeviceDescriptor.ofView e (slice b (512 + 128 * i) 128) := by
    apply List.map_congr_left
    intro i hi
    have hi := List.mem_range.mp hi
    rw [show v0Layout.bytes b .devices = slice b 512 3456 from rfl,
      show v0DescriptorLayout.size = 128 from rfl, slice_slice (by omega), Nat.mul_comm]
  unfold SuperblockV0.ofView
  simp only [h1, h2]
  rfl

theorem length_of_readExactLoop {S : Type} {read : Bytes → SM S (Nat × Bytes)}
    (hlen : ∀ buf s s' n buf', read buf s = (s', .ok (n, buf')) → buf'.length = buf.length)
    (fuel : Nat) (buf : Bytes) (s s' : S) (out : Bytes) (hf : buf.length ≤ fuel)
    (h : readExactLoop read fuel buf s = (s', .ok out)) : out.length = buf.length := by
  induction fuel generalizing buf s s' out with
  | zero =>
    have : buf = [] := List.length_eq_zero_iff.mp (by omega)
    simp [readExactLoop] at h
    obtain ⟨_, rfl⟩ := h
    simp [this]
  | succ fuel ih =>
    unfold readExactLoop at h
    split at h
    · rename_i hb
      simp at h
      obtain ⟨_, rfl⟩ := h
      simp [hb]
    · rw [SM.bind_apply] at h
      split at h
      · rename_i s1 r hr
        obtain ⟨n, buf'⟩ := r
        have h1 := hlen _ _ _ _ _ hr
        simp only at h
        split at h
        · simp at h
        · split at h
          · simp at h
          · rename_i hn hle
            rw [SM.bind_apply] at h
            split at h
            · rename_i s2 rest hrest
              have := ih (buf'.drop n) s1 s2 rest (by rw [List.length_drop]; omega) hrest
              simp at h
              obtain ⟨_, rfl⟩ := h
              simp at this ⊢
              omega
            · simp at h
            · simp at h
      · simp at h
      · simp at h

theorem v0_valid_iff (e : Endian) (b : Bytes) :
    (SuperblockV0.ofView e b).valid = true ↔ V0Acceptable e b := by
  rw [v0_ofView]
  simp only [SuperblockV0.valid, SuperblockV0.validMagic, SuperblockV0.validMajorVersion,
    SuperblockV0.validDeviceDescriptors, Bool.and_eq_true, decide_eq_true_eq, List.all_eq_true,
    V0Acceptable, and_assoc]
  refine and_congr Iff.rfl (and_congr Iff.rfl ⟨fun h i hi hn => ?_, fun h d hd => ?_⟩)
  · have hm := h (DeviceDescriptor.ofView e (slice b (512 + 128 * i) 128)) (by
      apply List.mem_of_getElem? (i := i)
      rw [List.getElem?_take, if_pos hn, List.getElem?_map, List.getElem?_range hi]; rfl)
    rw [DeviceDescriptor.isValid, Role.isValid_eq, descriptor_ofView] at hm
    simp only [slice_slice (show 12 + 4 ≤ 128 by decide)] at hm
    simp at hm
    omega
  · obtain ⟨i, hi⟩ := List.getElem?_of_mem hd
    rw [List.getElem?_take] at hi
    split at hi
    · rename_i hn
      rcases Nat.lt_or_ge i 27 with h27 | h27
      · rw [List.getElem?_map, List.getElem?_range h27] at hi
        simp only [Option.map_some, Option.some.injEq] at hi
        subst hi
        have := h i h27 hn
        rw [DeviceDescriptor.isValid, Role.isValid_eq, descriptor_ofView]
        simp only [slice_slice (show 12 + 4 ≤ 128 by decide)]
        simp
        omega
      · rw [List.getElem?_eq_none (by simp; omega)] at hi
        cases hi
    · cases hi

theorem v0_decode_of_acceptable {e : Endian} {buf : Bytes} (hacc : V0Acceptable e buf) :
    SuperblockV0.decode buf = SuperblockV0.ofView e buf := by
  have hd : SuperblockV0.decode buf = if leNat (slice buf 0 4) = 0xa92b4efc then
      SuperblockV0.ofView .little buf else SuperblockV0.ofView .big buf := rfl
  have hswap : leNat (slice buf 0 4) = 0xa92b4efc → beNat (slice buf 0 4) ≠ 0xa92b4efc := by
    intro h1 h2
    have hlen : (slice buf 0 4).length = 4 := by
      have hlt := leNat_lt (slice buf 0 4)
      have hle : (slice buf 0 4).length ≤ 4 := by rw [slice_length]; omega
      rcases Nat.lt_or_ge (slice buf 0 4).length 4 with hne | hne
      · have : 256 ^ (slice buf 0 4).length ≤ 256 ^ 3 := Nat.pow_le_pow_right (by decide) (by omega)
        omega
      · omega
    have e1 := leBytes_leNat (slice buf 0 4)
    rw [hlen, h1] at e1
    rw [← e1] at h2
    exact absurd h2 (by decide)
  rw [hd]
  cases e with
  | little => exact if_pos hacc.1
  | big => exact if_neg fun h => hswap h hacc.1

theorem v0_decode_valid_iff (buf : Bytes) :
    (∃ e, V0Acceptable e buf) ↔ (SuperblockV0.decode buf).valid = true := by
  constructor
  · rintro ⟨e, h⟩
    rw [v0_decode_of_acceptable h]
    exact (v0_valid_iff e buf).mpr h
  · intro h
    have hd : SuperblockV0.decode buf = if leNat (slice buf 0 4) = 0xa92b4efc then
      SuperblockV0.ofView .little buf else SuperblockV0.ofView .big buf := rfl
    rw [hd] at h
    split at h
    · exact ⟨_, (v0_valid_iff _ _).mp h⟩
    · exact ⟨_, (v0_valid_iff _ _).mp h⟩

end MdRecover
