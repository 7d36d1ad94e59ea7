import Verif.Lemmas.Superblock

/-! C28 and C37-C43: roles and superblocks. -/

namespace MdRecover
open MdSpec

/-! ## C28 -/

/-- C28: a 16-bit role is exactly one of: active position, journal, faulty, spare, invalid. -/
theorem C28_exactly_one (r : Role) (h : r.val < U16) :
    [r.deviceNumber.isSome, r.isJournal, r.isFaulty, r.isSpare, r.isInvalid].count true = 1 := by
  have hn : r.deviceNumber.isSome = decide (r.val ≤ 0xfeff) := by
    rw [Role.deviceNumber_eq]
    by_cases hv : r.val ≤ 0xfeff <;> simp [hv]
  rw [hn, Role.isJournal_eq, Role.isFaulty_eq, Role.isSpare_eq, Role.isInvalid_eq]
  rcases (by omega : r.val ≤ 0xfeff ∨ r.val = 0xfffd ∨ r.val = 0xfffe ∨ r.val = 0xffff ∨
    (0xfeff < r.val ∧ r.val < 0xfffd)) with h | h | h | h | h
  · rw [decide_eq_true h, decide_eq_false (by omega : ¬ r.val = 0xfffd),
      decide_eq_false (by omega : ¬ r.val = 0xfffe), decide_eq_false (by omega : ¬ r.val = 0xffff),
      decide_eq_false (by omega : ¬ 0xfeff < r.val)]; rfl
  · rw [h]; rfl
  · rw [h]; rfl
  · rw [h]; rfl
  · rw [decide_eq_false (by omega : ¬ r.val ≤ 0xfeff), decide_eq_false (by omega : ¬ r.val = 0xfffd),
      decide_eq_false (by omega : ¬ r.val = 0xfffe), decide_eq_false (by omega : ¬ r.val = 0xffff),
      decide_eq_true h.1, decide_eq_true h.2]; rfl

example := C28_exactly_one ⟨0xfffe⟩ (by decide)

/-- C28: which values each class consists of; a position's device number is the value itself. -/
theorem C28_classes (r : Role) :
    (∀ n, r.deviceNumber = some n ↔ (r.val = n ∧ n ≤ 0xfeff)) ∧
    (r.isJournal = true ↔ r.val = 0xfffd) ∧ (r.isFaulty = true ↔ r.val = 0xfffe) ∧
    (r.isSpare = true ↔ r.val = 0xffff) ∧
    (r.isInvalid = true ↔ 0xff00 ≤ r.val ∧ r.val ≤ 0xfffc) := by
  refine ⟨fun n => ?_, ?_, ?_, ?_, ?_⟩
  · rw [Role.deviceNumber_eq]
    by_cases hv : r.val ≤ 0xfeff
    · simp [hv]; omega
    · simp [hv]; omega
  · rw [Role.isJournal_eq]; simp
  · rw [Role.isFaulty_eq]; simp
  · rw [Role.isSpare_eq]; simp
  · rw [Role.isInvalid_eq]; simp; omega

/-- C28: a role other than the largest position is reported valid iff it is not reported invalid.
Missing for the full claim: the value 0xfeff, for which it is false (`C28_max_position`). -/
theorem C28_valid_iff_not_invalid_partial (r : Role) (h : r.val ≠ 0xfeff) :
    r.isValid = !r.isInvalid := by
  rw [Role.isValid_eq, Role.isInvalid_eq]
  have : decide (0xfeff ≤ r.val) = decide (0xfeff < r.val) := decide_eq_decide.mpr (by omega)
  rw [this]

example := C28_valid_iff_not_invalid_partial ⟨0xff00⟩ (by decide)

/-- C28 is false at the largest position: it has a device number and is neither valid nor invalid. -/
theorem C28_max_position : ∃ r : Role, r.val < U16 ∧ r.deviceNumber = some 0xfeff ∧
    r.isValid = false ∧ r.isInvalid = false :=
  ⟨⟨0xfeff⟩, by decide, rfl, rfl, rfl⟩

/-- C28: a version-0.90 role (32 bits) above 16 bits is in none of the classes, but counts as valid. -/
theorem C28_wide_roles_unclassified (r : Role) (h : U16 ≤ r.val) :
    r.deviceNumber = none ∧ r.isJournal = false ∧ r.isFaulty = false ∧ r.isSpare = false ∧
      r.isInvalid = false ∧ r.isValid = true := by
  rw [Role.deviceNumber_eq, Role.isJournal_eq, Role.isFaulty_eq, Role.isSpare_eq,
    Role.isInvalid_eq, Role.isValid_eq]
  simp; omega

example := C28_wide_roles_unclassified ⟨0x12345⟩ (by decide)

example : ∃ r : Role, U16 ≤ r.val := ⟨⟨U16⟩, by decide⟩
example : (Role.mk 3).deviceNumber = some 3 ∧ (Role.mk 0xff07).isInvalid = true := ⟨rfl, rfl⟩

/-! ## C37 -/

/-- C37: once 4096 bytes have been read, a version-1 superblock read succeeds, with those bytes, iff
the first little-endian word is the magic number and the second is 1; otherwise it is InvalidData.
If the bytes cannot be read, that error is the result. -/
theorem C37_accepted_iff {S : Type} (reader : Bytes → SM S (Nat × Bytes)) (minor : Nat) (s s' : S) :
    (∀ buf, readExact reader (zeros 4096) s = (s', .ok buf) →
      (leNat (slice buf 0 4) = 0xa92b4efc ∧ leNat (slice buf 4 4) = 1 →
        SuperblockV1.read reader minor s = (s', .ok ⟨buf, minor⟩)) ∧
      (¬ (leNat (slice buf 0 4) = 0xa92b4efc ∧ leNat (slice buf 4 4) = 1) →
        SuperblockV1.read reader minor s = (s', .err .invalidData))) ∧
    (∀ e, readExact reader (zeros 4096) s = (s', .err e) →
      SuperblockV1.read reader minor s = (s', .err e)) ∧
    (readExact reader (zeros 4096) s = (s', .panic) →
      SuperblockV1.read reader minor s = (s', .panic)) := by
  have hv : ∀ buf, (SuperblockV1.mk buf minor).valid =
      decide (leNat (slice buf 0 4) = 0xa92b4efc ∧ leNat (slice buf 4 4) = 1) := by
    intro buf
    rw [Bool.decide_and]
    rfl
  refine ⟨fun buf h => ?_, fun e h => SM.bind_err _ h, fun h => SM.bind_panic _ h⟩
  unfold SuperblockV1.read
  rw [SM.bind_ok (h := h), hv]
  exact ⟨fun hc => by rw [decide_eq_true hc]; rfl, fun hc => by rw [decide_eq_false hc]; rfl⟩

/-- Witness for C37: a reader delivering a superblock with the right magic and version. -/
example : ∃ (reader : Bytes → SM Unit (Nat × Bytes)) (buf : Bytes),
    readExact reader (zeros 4096) () = ((), .ok buf) ∧ leNat (slice buf 0 4) = 0xa92b4efc ∧
      leNat (slice buf 4 4) = 1 := by
  refine ⟨fun b => pure (b.length, leBytes 4 0xa92b4efc ++ leBytes 4 1 ++ b.drop 8),
    leBytes 4 0xa92b4efc ++ leBytes 4 1 ++ (zeros 4096).drop 8, ?_, rfl, rfl⟩
  have hz : (zeros 4096).length = 4096 := List.length_replicate
  refine readExact_full rfl ?_ ?_
  · rw [List.length_append, List.length_drop, hz]; rfl
  · intro h; rw [h] at hz; simp at hz

/-! ## C38 -/

/-- C38: every value given by the accessors is the little-endian value at the documented offset, for every
content. -/
theorem C38_offsets (b : Bytes) (minor : Nat) :
    let s := SuperblockV1.mk b minor
    let p := s.toSuperblock
    p.majorVersion = leNat (slice b 4 4) ∧ p.minorVersion = minor ∧
    s.features = leNat (slice b 8 4) ∧
    p.arrayUuid = .long (slice b 16 16) ∧ p.arrayName = some (slice b 32 32) ∧
    p.algorithm = MdAlgorithm.fromLevelAndLayout (leNat (slice b 72 4)) (leNat (slice b 76 4)) ∧
    p.sectorsPerDevice = leNat (slice b 80 8) ∧ p.chunkSize = leNat (slice b 88 4) ∧
    p.raidDeviceCount = leNat (slice b 92 4) ∧ p.dataOffset = leNat (slice b 128 8) ∧
    p.deviceRoleIndex = leNat (slice b 160 4) ∧ p.eventCount = leNat (slice b 200 8) :=
  ⟨rfl, rfl, rfl, rfl, rfl, rfl, rfl, rfl, rfl, rfl, rfl, rfl⟩

/-- C38: every field lies inside the 4096 bytes that are read, and the fields before the role table fill
the first 256 bytes without overlap or gap (so no accessor is out of range). -/
theorem C38_fields_inside (f : V1Field) : v1Layout.offset f + v1Layout.width f ≤ 256 ∧
    v1Layout.size = 256 := by
  cases f <;> decide

/-- C38: values written in the md version-1 format are read back by the accessors. -/
theorem C38_round_trip (m : Mdp1) (h : m.Wf) (minor : Nat) :
    let s := SuperblockV1.mk m.encode minor
    let p := s.toSuperblock
    (s.valid = true ↔ m.magic = 0xa92b4efc ∧ m.major_version = 1) ∧
    p.majorVersion = m.major_version ∧ p.minorVersion = minor ∧
    p.arrayUuid = .long m.set_uuid ∧ p.arrayName = some m.set_name ∧
    p.algorithm = MdAlgorithm.fromLevelAndLayout m.level m.layout ∧
    p.sectorsPerDevice = m.size ∧ p.chunkSize = m.chunksize ∧
    p.raidDeviceCount = m.raid_disks ∧
    p.reshapeStatus = (if m.feature_map / 4 % 2 = 1 then
      some { newAlgorithm := MdAlgorithm.fromLevelAndLayout m.new_level m.new_layout
             reshapePosition := m.reshape_position, deltaDevices := m.delta_disks
             newChunkSize := m.new_chunk, newOffset := m.new_offset } else none) ∧
    p.dataOffset = m.data_offset ∧ p.deviceRoleIndex = m.dev_number ∧ p.eventCount = m.events ∧
    p.deviceRoles = (m.dev_roles.take m.max_dev).map Role.mk ∧
    s.bitmapOffset = (if m.feature_map % 2 = 1 then some m.bitmap_offset else none) ∧
    s.pplInfo = (if m.feature_map / 1024 % 2 = 1 then
      some ((if m.bitmap_offset % 65536 < 32768 then (m.bitmap_offset % 65536 : Nat)
        else (m.bitmap_offset % 65536 : Nat) - 65536 : Int), m.bitmap_offset / 65536) else none) ∧
    s.recoveryOffset = (if m.feature_map / 2 % 2 = 1 then some m.recovery_offset else none) ∧
    s.journalTail = (if m.feature_map / 512 % 2 = 1 then some m.recovery_offset else none) := by
  intro s p
  have hf : s.features = m.feature_map := by
    show leNat (slice m.encode 8 4) = _
    rw [Mdp1.slice_feature_map h, leNat_leBytes h.feature_map]
  have hro : s.get .recoveryOffsetOrJournalTail = m.recovery_offset := by
    show leNat (slice m.encode 152 8) = _
    rw [Mdp1.slice_recovery_offset h, leNat_leBytes h.recovery_offset]
  have hm : leNat (slice m.encode 0 4) = m.magic := by
    rw [Mdp1.slice_magic h, leNat_leBytes h.magic]
  have hv : leNat (slice m.encode 4 4) = m.major_version := by
    rw [Mdp1.slice_major_version h, leNat_leBytes h.major_version]
  refine ⟨?_, hv, rfl, ?_, ?_, ?_, ?_, ?_, ?_, ?_, ?_, ?_, ?_, ?_, ?_, ?_, ?_, ?_⟩
  · show (decide (leNat (slice m.encode 0 4) = 0xa92b4efc) &&
      decide (leNat (slice m.encode 4 4) = 1)) = true ↔ _
    rw [hm, hv]; simp
  · show ArrayUuid.long (slice m.encode 16 16) = _
    rw [Mdp1.slice_set_uuid h]
  · show some (slice m.encode 32 32) = _
    rw [Mdp1.slice_set_name h]
  · show MdAlgorithm.fromLevelAndLayout (leNat (slice m.encode 72 4)) (leNat (slice m.encode 76 4)) = _
    rw [Mdp1.slice_level h, Mdp1.slice_layout h, leNat_leBytes h.level, leNat_leBytes h.layout]
  · show leNat (slice m.encode 80 8) = _
    rw [Mdp1.slice_size h, leNat_leBytes h.size]
  · show leNat (slice m.encode 88 4) = _
    rw [Mdp1.slice_chunksize h, leNat_leBytes h.chunksize]
  · show leNat (slice m.encode 92 4) = _
    rw [Mdp1.slice_raid_disks h, leNat_leBytes h.raid_disks]
  · show (if hasBit s.features 2 = true then some s.reshape else none) = _
    rw [hf, hasBit_iff, v1_reshape]
    show (if decide (m.feature_map / 2 ^ 2 % 2 = 1) = true then some (ReshapeStatus.mk
      (MdAlgorithm.fromLevelAndLayout (leNat (slice m.encode 100 4)) (leNat (slice m.encode 116 4)))
      (leNat (slice m.encode 104 8)) (leNat (slice m.encode 112 4)) (leNat (slice m.encode 120 4))
      (leNat (slice m.encode 124 4))) else none) = _
    rw [Mdp1.slice_new_level h, Mdp1.slice_new_layout h, Mdp1.slice_reshape_position h,
      Mdp1.slice_delta_disks h, Mdp1.slice_new_chunk h, Mdp1.slice_new_offset h,
      leNat_leBytes h.new_level, leNat_leBytes h.new_layout, leNat_leBytes h.reshape_position,
      leNat_leBytes h.delta_disks, leNat_leBytes h.new_chunk, leNat_leBytes h.new_offset]
    simp only [decide_eq_true_eq, Nat.reducePow]
  · show leNat (slice m.encode 128 8) = _
    rw [Mdp1.slice_data_offset h, leNat_leBytes h.data_offset]
  · show leNat (slice m.encode 160 4) = _
    rw [Mdp1.slice_dev_number h, leNat_leBytes h.dev_number]
  · show leNat (slice m.encode 200 8) = _
    rw [Mdp1.slice_events h, leNat_leBytes h.events]
  · show s.deviceRoles.toOption.getD [] = _
    rw [v1_deviceRoles]
    show (List.range (min (leNat (slice m.encode 220 4)) ((m.encode.length - 256) / 2))).map
      (fun i => Role.mk (leNat (slice m.encode (256 + 2 * i) 2))) = _
    have hl2 : ∀ c ∈ m.dev_roles.map (leBytes 2), c.length = 2 := by
      intro c hc
      obtain ⟨r, _, rfl⟩ := List.mem_map.mp hc
      exact leBytes_length 2 r
    have hd := Mdp1.drop_roles h
    have hlen : (m.encode.length - 256) / 2 = 1920 := by
      rw [← List.length_drop, hd, length_flatten_uniform hl2, List.length_map, h.roles_length]
    rw [hlen, Mdp1.slice_max_dev h, leNat_leBytes h.max_dev]
    apply List.ext_getElem?
    intro i
    simp only [List.getElem?_map, List.getElem?_take]
    rcases Nat.lt_or_ge i (min m.max_dev 1920) with hi | hi
    · have hi' : i < m.dev_roles.length := by rw [h.roles_length]; omega
      rw [List.getElem?_range hi, if_pos (by omega), List.getElem?_eq_getElem hi']
      simp only [Option.map_some, Option.some.injEq, Role.mk.injEq]
      have : slice m.encode (256 + 2 * i) 2 = leBytes 2 m.dev_roles[i] := by
        have h1 : slice (m.encode.drop 256) (i * 2) 2 = leBytes 2 m.dev_roles[i] := by
          rw [hd]
          refine slice_flatten_uniform hl2 ?_
          rw [List.getElem?_map, List.getElem?_eq_getElem hi', Option.map_some]
        rw [← h1]
        simp only [slice, List.drop_drop, Nat.mul_comm]
      rw [this, leNat_leBytes (h.roles _ (List.getElem_mem hi'))]
    · rw [List.getElem?_eq_none (by simp; omega)]
      split
      · rw [List.getElem?_eq_none (by rw [h.roles_length]; omega)]; rfl
      · rfl
  · show (if hasBit s.features 0 = true then some (leNat (slice m.encode 96 4)) else none) = _
    rw [hf, hasBit_iff, Mdp1.slice_bitmap_offset h, leNat_leBytes h.bitmap_offset]
    simp only [decide_eq_true_eq, Nat.pow_zero, Nat.div_one]
  · have hb : v1Layout.bytes s.buffer .bitmapOffsetOrPplInfo = leBytes 4 m.bitmap_offset :=
      Mdp1.slice_bitmap_offset h
    have h0 : leNat (slice (leBytes 4 m.bitmap_offset) 0 2) = m.bitmap_offset % 65536 := by
      show leNat (leBytes 2 m.bitmap_offset) = _
      rw [leNat_leBytes_mod]
    have h1 : leNat (slice (leBytes 4 m.bitmap_offset) 2 2) = m.bitmap_offset / 65536 := by
      show leNat (leBytes 2 (m.bitmap_offset / 256 / 256)) = _
      have := h.bitmap_offset
      rw [leNat_leBytes_mod]; omega
    unfold SuperblockV1.pplInfo
    simp only [hf, hasBit_iff, hb, h0, h1, decide_eq_true_eq, Nat.reducePow]
  · show (if hasBit s.features 1 = true then some (s.get .recoveryOffsetOrJournalTail) else none) = _
    rw [hf, hasBit_iff, hro]
    simp only [decide_eq_true_eq, Nat.pow_one]
  · show (if hasBit s.features 9 = true then some (s.get .recoveryOffsetOrJournalTail) else none) = _
    rw [hf, hasBit_iff, hro]
    simp only [decide_eq_true_eq, Nat.reducePow]

/-- A RAID6 version-1 superblock with a reshape under way. -/
def sampleMdp1 : Mdp1 where
  magic := 0xa92b4efc
  major_version := 1
  feature_map := 5
  pad0 := 0
  set_uuid := List.replicate 16 7
  set_name := 115 :: List.replicate 31 0
  ctime := 1
  level := 6
  layout := 2
  size := 4096
  chunksize := 128
  raid_disks := 4
  bitmap_offset := 8
  new_level := 6
  reshape_position := 1024
  delta_disks := 1
  new_layout := 2
  new_chunk := 64
  new_offset := 0
  data_offset := 2048
  data_size := 4096
  super_offset := 8
  recovery_offset := 0
  dev_number := 2
  cnt_corrected_read := 0
  device_uuid := List.replicate 16 9
  devflags := 0
  bblog_shift := 0
  bblog_size := 8
  bblog_offset := 16
  utime := 2
  events := 77
  resync_offset := 0
  sb_csum := 0
  max_dev := 4
  pad3 := List.replicate 32 0
  dev_roles := [0, 1, 2, 0xffff] ++ List.replicate 1916 0xffff

theorem sampleMdp1_wf : sampleMdp1.Wf := by
  constructor
  all_goals first | exact Nat.lt_of_sub_pos (by decide) | skip
  · exact List.length_replicate
  · show (115 :: List.replicate 31 (0 : UInt8)).length = 32
    rw [List.length_cons, List.length_replicate]
  · exact List.length_replicate
  · exact List.length_replicate
  · show ([0, 1, 2, 0xffff] ++ List.replicate 1916 0xffff).length = 1920
    rw [List.length_append, List.length_replicate]; rfl
  · intro r hr
    rcases List.mem_append.mp hr with h | h
    · simp at h; omega
    · have := List.eq_of_mem_replicate h; omega

/-- Witness for C38 (and C39, C43): the hypotheses hold for a concrete superblock. -/
example : ∃ m : Mdp1, m.Wf ∧ m.feature_map / 4 % 2 = 1 ∧ m.delta_disks = 1 :=
  ⟨sampleMdp1, sampleMdp1_wf, rfl, rfl⟩

/-! ## C39 -/

/-- C39: the role table of a 4096-byte superblock is computed without panic, has min(max_dev, 1920) entries,
and entry `i` is the 16-bit value at offset 256 + 2i. -/
theorem C39_role_table (b : Bytes) (minor : Nat) (hb : b.length = 4096) :
    ∃ roles, (SuperblockV1.mk b minor).deviceRoles = .ok roles ∧
      (SuperblockV1.mk b minor).toSuperblock.deviceRoles = roles ∧
      roles.length = min (leNat (slice b 220 4)) 1920 ∧
      ∀ i, i < roles.length → roles[i]? = some ⟨leNat (slice b (256 + 2 * i) 2)⟩ := by
  refine ⟨_, v1_deviceRoles _, ?_, ?_, ?_⟩
  · show (SuperblockV1.mk b minor).deviceRoles.toOption.getD [] = _
    rw [v1_deviceRoles]; rfl
  · simp [hb]
  · intro i hi
    rw [List.length_map, List.length_range] at hi
    rw [List.getElem?_map, List.getElem?_range hi]; rfl

example := C39_role_table (List.replicate 4096 3) 2 List.length_replicate

/-- C39: no content and no length of the storage makes the role table computation panic. -/
theorem C39_no_panic (s : SuperblockV1) : s.deviceRoles ≠ .panic := by
  rw [v1_deviceRoles]; exact fun h => by cases h

/-- Witness for C39. -/
example : ∃ b : Bytes, b.length = 4096 := ⟨List.replicate 4096 3, List.length_replicate⟩

/-! ## C40 -/

/-- C40: values written in the 0.90 format, in either byte order, are what the accessors return.
The right-hand sides do not depend on the byte order `e`. -/
theorem C40_round_trip (m : Mdp0) (h : m.Wf) (e : Endian) :
    let p := (SuperblockV0.ofView e (m.encode e.enc)).toSuperblock
    p.majorVersion = m.major_version ∧ p.minorVersion = m.minor_version ∧
    p.arrayUuid = (if m.minor_version < 90 then .short (leBytes 4 m.set_uuid0) else
      .long (leBytes 4 m.set_uuid0 ++ leBytes 4 m.set_uuid1 ++ leBytes 4 m.set_uuid2 ++
        leBytes 4 m.set_uuid3)) ∧
    p.arrayName = none ∧ p.algorithm = MdAlgorithm.fromLevelAndLayout m.level m.layout ∧
    p.sectorsPerDevice = m.size ∧ p.chunkSize = m.chunk_size ∧ p.raidDeviceCount = m.raid_disks ∧
    p.reshapeStatus = some
      { newAlgorithm := MdAlgorithm.fromLevelAndLayout m.new_level m.new_layout
        reshapePosition := m.reshape_position, deltaDevices := m.delta_disks
        newChunkSize := m.new_chunk, newOffset := 0 } ∧
    p.dataOffset = 0 ∧ p.deviceRoleIndex = m.this_disk.number ∧ p.eventCount = m.events ∧
    p.deviceRoles = (m.disks.take m.nr_disks).map (fun d => ⟨d.raid_disk⟩) := by
  have he := e.enc_length
  have r4 : ∀ o v, v < U32 → slice (m.encode e.enc) o 4 = e.enc 4 v →
      e.nat (slice (m.encode e.enc) o 4) = v := fun o v hv hs => by rw [hs, e.nat_enc hv]
  have r8 : ∀ o v, v < U64 → slice (m.encode e.enc) o 8 = e.enc 8 v →
      e.nat (slice (m.encode e.enc) o 8) = v := fun o v hv hs => by rw [hs, e.nat_enc hv]
  intro p
  have hp : p = _ := congrArg SuperblockV0.toSuperblock (v0_ofView e (m.encode e.enc))
  have hthis : (DeviceDescriptor.ofView e (slice (m.encode e.enc) 3968 128)).index =
      m.this_disk.number := by
    rw [Mdp0.slice_this_disk he h, descriptor_ofView]
    show e.nat (slice (m.this_disk.encode e.enc) 0 4) = _
    rw [MdpDisk.slice_number he h.this_disk, e.nat_enc h.this_disk.number]
  have hroles : ((List.range 27).map fun i =>
      DeviceDescriptor.ofView e (slice (m.encode e.enc) (512 + 128 * i) 128)).map (·.role) =
      m.disks.map (fun d => ⟨d.raid_disk⟩) := by
    apply List.ext_getElem?
    intro i
    simp only [List.map_map, List.getElem?_map]
    rcases Nat.lt_or_ge i 27 with hi | hi
    · have hi' : i < m.disks.length := by rw [h.disks_length]; exact hi
      rw [List.getElem?_range hi, List.getElem?_eq_getElem hi']
      simp only [Option.map_some, Function.comp, Option.some.injEq]
      have hs : slice (m.encode e.enc) (512 + 128 * i) 128 = m.disks[i].encode e.enc := by
        have h1 := slice_flatten_uniform (cs := m.disks.map (MdpDisk.encode e.enc)) (w := 128)
          (i := i) (c := m.disks[i].encode e.enc) (by
            intro c hc
            obtain ⟨d, hd, rfl⟩ := List.mem_map.mp hc
            exact MdpDisk.length_encode he (h.disks d hd))
          (by rw [List.getElem?_map, List.getElem?_eq_getElem hi', Option.map_some])
        rw [← Mdp0.slice_disks he h, slice_slice (by omega), Nat.mul_comm i 128] at h1
        exact h1
      have hw := h.disks _ (List.getElem_mem hi')
      rw [hs, descriptor_ofView]
      show Role.mk (e.nat (slice (m.disks[i].encode e.enc) 12 4)) = _
      rw [MdpDisk.slice_raid_disk he hw, e.nat_enc hw.raid_disk]
    · rw [List.getElem?_eq_none (by simp; omega), List.getElem?_eq_none (by
        rw [h.disks_length]; exact hi)]; rfl
  rw [hp]
  refine ⟨?_, ?_, ?_, rfl, ?_, ?_, ?_, ?_, ?_, rfl, hthis, ?_, ?_⟩
  · exact r4 4 _ h.major_version (Mdp0.slice_major_version he h)
  · exact r4 8 _ h.minor_version (Mdp0.slice_minor_version he h)
  · simp only [SuperblockV0.toSuperblock]
    rw [r4 8 _ h.minor_version (Mdp0.slice_minor_version he h),
      r4 20 _ h.set_uuid0 (Mdp0.slice_set_uuid0 he h),
      r4 52 _ h.set_uuid1 (Mdp0.slice_set_uuid1 he h),
      r4 56 _ h.set_uuid2 (Mdp0.slice_set_uuid2 he h),
      r4 60 _ h.set_uuid3 (Mdp0.slice_set_uuid3 he h)]
    rfl
  · simp only [SuperblockV0.toSuperblock]
    rw [r4 28 _ h.level (Mdp0.slice_level he h), r4 256 _ h.layout (Mdp0.slice_layout he h)]
  · exact r4 32 _ h.size (Mdp0.slice_size he h)
  · exact r4 260 _ h.chunk_size (Mdp0.slice_chunk_size he h)
  · exact r4 40 _ h.raid_disks (Mdp0.slice_raid_disks he h)
  · simp only [SuperblockV0.toSuperblock]
    rw [r4 184 _ h.new_level (Mdp0.slice_new_level he h),
      r4 192 _ h.new_layout (Mdp0.slice_new_layout he h),
      r8 176 _ h.reshape_position (Mdp0.slice_reshape_position he h),
      r4 188 _ h.delta_disks (Mdp0.slice_delta_disks he h),
      r4 196 _ h.new_chunk (Mdp0.slice_new_chunk he h)]
  · exact r8 156 _ h.events (Mdp0.slice_events he h)
  · simp only [SuperblockV0.toSuperblock]
    rw [r4 36 _ h.nr_disks (Mdp0.slice_nr_disks he h), List.map_take, hroles, ← List.map_take]

/-- C40: with the right magic number, reading recognises the byte order: the little- and big-endian forms
of the same values give equal superblocks. -/
theorem C40_byte_orders_agree (m : Mdp0) (h : m.Wf) (hm : m.md_magic = 0xa92b4efc) :
    (SuperblockV0.decode (m.encode leBytes)).toSuperblock =
      (SuperblockV0.decode (m.encode beBytes)).toSuperblock ∧
    SuperblockV0.decode (m.encode leBytes) = SuperblockV0.ofView .little (m.encode leBytes) ∧
    SuperblockV0.decode (m.encode beBytes) = SuperblockV0.ofView .big (m.encode beBytes) := by
  have hl : SuperblockV0.decode (m.encode leBytes) =
      SuperblockV0.ofView .little (m.encode leBytes) := by
    unfold SuperblockV0.decode
    rw [if_pos]
    show leNat (slice (m.encode leBytes) 0 4) = _
    rw [Mdp0.slice_md_magic leBytes_length h, leNat_leBytes h.md_magic, hm]
  have hb : SuperblockV0.decode (m.encode beBytes) =
      SuperblockV0.ofView .big (m.encode beBytes) := by
    unfold SuperblockV0.decode
    rw [if_neg]
    show ¬ leNat (slice (m.encode beBytes) 0 4) = _
    rw [Mdp0.slice_md_magic beBytes_length h, hm]
    decide
  refine ⟨?_, hl, hb⟩
  rw [hl, hb]
  have h1 := C40_round_trip m h .little
  have h2 := C40_round_trip m h .big
  simp only [Endian.enc] at h1 h2
  generalize (SuperblockV0.ofView .little (m.encode leBytes)).toSuperblock = p at h1
  generalize (SuperblockV0.ofView .big (m.encode beBytes)).toSuperblock = q at h2
  obtain ⟨a1, a2, a3, a4, a5, a6, a7, a8, a9, a10, a11, a12, a13⟩ := h1
  obtain ⟨b1, b2, b3, b4, b5, b6, b7, b8, b9, b10, b11, b12, b13⟩ := h2
  cases p; cases q
  simp_all

/-- A degraded-free RAID6 0.90 superblock. -/
def sampleMdp0 : Mdp0 where
  md_magic := 0xa92b4efc
  major_version := 0
  minor_version := 90
  patch_version := 3
  gvalid_words := 0
  set_uuid0 := 1
  ctime := 5
  level := 6
  size := 1024
  nr_disks := 4
  raid_disks := 4
  md_minor := 0
  not_persistent := 0
  set_uuid1 := 2
  set_uuid2 := 3
  set_uuid3 := 4
  gstate_creserved := List.replicate 64 0
  utime := 6
  state := 1
  active_disks := 4
  working_disks := 4
  failed_disks := 0
  spare_disks := 0
  sb_csum := 0
  events := 12
  cp_events := 12
  recovery_cp := 0
  reshape_position := 0
  new_level := 0
  delta_disks := 0
  new_layout := 0
  new_chunk := 0
  gstate_sreserved := List.replicate 56 0
  layout := 2
  chunk_size := 65536
  root_pv := 0
  root_block := 0
  pstate_reserved := List.replicate 240 0
  disks := (List.range 27).map fun i => ⟨i, 8, 16 * i, i, 6, List.replicate 108 0⟩
  this_disk := ⟨1, 8, 16, 1, 6, List.replicate 108 0⟩

theorem sampleMdp0_wf : sampleMdp0.Wf := by
  constructor
  all_goals first | exact Nat.lt_of_sub_pos (by decide) | skip
  · exact List.length_replicate
  · exact List.length_replicate
  · exact List.length_replicate
  · rfl
  · intro d hd
    obtain ⟨i, hi, rfl⟩ := List.mem_map.mp hd
    have := List.mem_range.mp hi
    exact ⟨by simp only; omega, by simp only; omega, List.length_replicate⟩
  · exact ⟨by decide, by decide, List.length_replicate⟩

/-- Witness for C40. -/
example : ∃ m : Mdp0, m.Wf ∧ m.md_magic = 0xa92b4efc := ⟨sampleMdp0, sampleMdp0_wf, rfl⟩

/-! ## C41 -/

/-- C41: once 4096 bytes have been read, a version-0 read succeeds iff, in the little-endian or in the
big-endian reading, the magic number is right, the major version is 0 and each of the first
`nr_disks` of the 27 descriptors has a role below 0xfeff or at least 0xfffd; the byte order used is the one
in which the magic number is right.  Otherwise the result is InvalidData. -/
theorem C41_accepted_iff {S : Type} (reader : Bytes → SM S (Nat × Bytes)) (s s' : S) :
    (∀ buf, readExact reader (zeros 4096) s = (s', .ok buf) →
      (∀ e, V0Acceptable e buf →
        SuperblockV0.read reader s = (s', .ok (SuperblockV0.ofView e buf))) ∧
      ((∀ e, ¬ V0Acceptable e buf) → SuperblockV0.read reader s = (s', .err .invalidData))) ∧
    (∀ k, readExact reader (zeros 4096) s = (s', .err k) →
      SuperblockV0.read reader s = (s', .err k)) ∧
    (readExact reader (zeros 4096) s = (s', .panic) →
      SuperblockV0.read reader s = (s', .panic)) := by
  refine ⟨fun buf h => ?_, fun e h => SM.bind_err _ h, fun h => SM.bind_panic _ h⟩
  have hr : SuperblockV0.read reader s =
      (if (SuperblockV0.decode buf).valid = true then (s', .ok (SuperblockV0.decode buf))
        else (s', .err .invalidData)) := by
    unfold SuperblockV0.read
    rw [show v0Layout.size = 4096 from rfl, SM.bind_ok (h := h)]
    split <;> rfl
  refine ⟨fun e hacc => ?_, fun hno => ?_⟩
  · rw [hr, if_pos ((v0_decode_valid_iff buf).mp ⟨e, hacc⟩), v0_decode_of_acceptable hacc]
  · rw [hr, if_neg]
    intro hv
    obtain ⟨e, he⟩ := (v0_decode_valid_iff buf).mpr hv
    exact hno e he

/-- Witness for C41: the sample superblock is acceptable in both byte orders. -/
theorem C41_witness (e : Endian) : V0Acceptable e (sampleMdp0.encode e.enc) := by
  have he := e.enc_length
  have h := sampleMdp0_wf
  refine ⟨?_, ?_, ?_⟩
  · rw [Mdp0.slice_md_magic he h, e.nat_enc h.md_magic]; rfl
  · rw [Mdp0.slice_major_version he h, e.nat_enc h.major_version]; rfl
  · intro i hi hn
    left
    have hi' : i < sampleMdp0.disks.length := by rw [h.disks_length]; exact hi
    have h1 := slice_flatten_uniform (cs := sampleMdp0.disks.map (MdpDisk.encode e.enc)) (w := 128)
      (i := i) (c := sampleMdp0.disks[i].encode e.enc) (by
        intro c hc
        obtain ⟨d, hd, rfl⟩ := List.mem_map.mp hc
        exact MdpDisk.length_encode he (h.disks d hd))
      (by rw [List.getElem?_map, List.getElem?_eq_getElem hi', Option.map_some])
    rw [← Mdp0.slice_disks he h, slice_slice (by omega), Nat.mul_comm i 128] at h1
    rw [← slice_slice (n := 128) (by omega), h1,
      MdpDisk.slice_raid_disk he (h.disks _ (List.getElem_mem hi')),
      e.nat_enc (h.disks _ (List.getElem_mem hi')).raid_disk]
    simp only [sampleMdp0, List.getElem_map, List.getElem_range]
    omega

/-! ## C42 -/

/-- C42: two version-1 superblocks have equal array uuids iff the 16 stored bytes are equal. -/
theorem C42_version_1 (a b : Mdp1) (ha : a.Wf) (hb : b.Wf) (i j : Nat) :
    (SuperblockV1.mk a.encode i).toSuperblock.arrayUuid =
      (SuperblockV1.mk b.encode j).toSuperblock.arrayUuid ↔ a.set_uuid = b.set_uuid := by
  rw [(C38_round_trip a ha i).2.2.2.1, (C38_round_trip b hb j).2.2.2.1]
  simp

/-- C42: two version-0 superblocks, in whatever byte orders, have equal array uuids iff the stored words are
equal: one word for minor versions below 90, four from 90 on; a short and a long uuid are never equal. -/
theorem C42_version_0 (a b : Mdp0) (ha : a.Wf) (hb : b.Wf) (e f : Endian) :
    (SuperblockV0.ofView e (a.encode e.enc)).toSuperblock.arrayUuid =
      (SuperblockV0.ofView f (b.encode f.enc)).toSuperblock.arrayUuid ↔
    ((a.minor_version < 90 ∧ b.minor_version < 90 ∧ a.set_uuid0 = b.set_uuid0) ∨
     (90 ≤ a.minor_version ∧ 90 ≤ b.minor_version ∧ a.set_uuid0 = b.set_uuid0 ∧
      a.set_uuid1 = b.set_uuid1 ∧ a.set_uuid2 = b.set_uuid2 ∧ a.set_uuid3 = b.set_uuid3)) := by
  rw [(C40_round_trip a ha e).2.2.1, (C40_round_trip b hb f).2.2.1]
  by_cases h1 : a.minor_version < 90 <;> by_cases h2 : b.minor_version < 90
  · simp only [if_pos h1, if_pos h2, ArrayUuid.short.injEq]
    constructor
    · exact fun h => .inl ⟨h1, h2, leBytes_inj ha.set_uuid0 hb.set_uuid0 h⟩
    · rintro (⟨_, _, h⟩ | ⟨h, _⟩)
      · rw [h]
      · omega
  · simp only [if_pos h1, if_neg h2]
    constructor
    · intro h; cases h
    · rintro (⟨_, h, _⟩ | ⟨h, _⟩) <;> omega
  · simp only [if_neg h1, if_pos h2]
    constructor
    · intro h; cases h
    · rintro (⟨h, _, _⟩ | ⟨_, h, _⟩) <;> omega
  · simp only [if_neg h1, if_neg h2, ArrayUuid.long.injEq]
    constructor
    · intro h
      obtain ⟨h, h3⟩ := List.append_inj h (by simp)
      obtain ⟨h, h4⟩ := List.append_inj h (by simp)
      obtain ⟨h, h5⟩ := List.append_inj h (by simp)
      exact .inr ⟨by omega, by omega, leBytes_inj ha.set_uuid0 hb.set_uuid0 h,
        leBytes_inj ha.set_uuid1 hb.set_uuid1 h5, leBytes_inj ha.set_uuid2 hb.set_uuid2 h4,
        leBytes_inj ha.set_uuid3 hb.set_uuid3 h3⟩
    · rintro (⟨h, _⟩ | ⟨_, _, e0, e1, e2, e3⟩)
      · omega
      · rw [e0, e1, e2, e3]

/-- Witness for C42. -/
example : ∃ (a b : Mdp0), a.Wf ∧ b.Wf ∧ a.minor_version = 90 ∧ a.set_uuid0 = b.set_uuid0 :=
  ⟨sampleMdp0, sampleMdp0, sampleMdp0_wf, sampleMdp0_wf, rfl, rfl⟩

/-! ## C43 -/

/-- C43: a version-1 superblock gives a reshape format iff the reshape-active feature bit is set, for a
non-negative delta and a device count that fits; the format has the stored new level, layout and
chunk size and `raid_disks + delta` devices.  Missing for the full claim: negative deltas, for which it is
false (`C43_negative_delta_is_lost`). -/
theorem C43_reshape_format_partial (m : Mdp1) (h : m.Wf) (minor : Nat)
    (hd : 0 ≤ signed32 m.delta_disks) (hs : (m.raid_disks : Int) + signed32 m.delta_disks < 4294967296) :
    MdFormat.fromSuperblockReshapeStatus (.superblock (SuperblockV1.mk m.encode minor).toSuperblock) =
      if m.feature_map / 4 % 2 = 1 then
        some { algorithm := MdAlgorithm.fromLevelAndLayout m.new_level m.new_layout
               deviceCount := ((m.raid_disks : Int) + signed32 m.delta_disks).toNat
               sectorsPerDevice := m.size, chunkSize := m.new_chunk }
      else none := by
  obtain ⟨-, -, -, -, -, -, hsz, -, hrd, hrs, -⟩ := C38_round_trip m h minor
  simp only [MdFormat.fromSuperblockReshapeStatus, DeviceSuperblock.asOption, Option.bind_some]
  rw [hrs]
  have hdd := h.delta_disks
  have hsg : signed32 m.delta_disks = m.delta_disks := by
    unfold signed32 at hd ⊢; split at hd <;> simp_all <;> omega
  rw [hsg] at hs ⊢
  split
  · simp only [Option.bind_some, MdFormat.ofReshape, hrd, hsz]
    unfold checkedAdd32
    rw [if_pos (by omega)]
    simp; omega
  · rfl

/-- C43 is false for negative deltas: for every array that is shrinking by at most its device count the
reshape format is lost. -/
theorem C43_negative_delta_is_lost (m : Mdp1) (h : m.Wf) (minor : Nat)
    (hneg : signed32 m.delta_disks < 0) (hle : 0 ≤ (m.raid_disks : Int) + signed32 m.delta_disks) :
    MdFormat.fromSuperblockReshapeStatus (.superblock (SuperblockV1.mk m.encode minor).toSuperblock) =
      none := by
  obtain ⟨-, -, -, -, -, -, hsz, -, hrd, hrs, -⟩ := C38_round_trip m h minor
  simp only [MdFormat.fromSuperblockReshapeStatus, DeviceSuperblock.asOption, Option.bind_some]
  rw [hrs]
  have hdd := h.delta_disks
  split
  · simp only [Option.bind_some, MdFormat.ofReshape, hrd]
    unfold checkedAdd32
    rw [if_neg]
    · rfl
    · unfold signed32 at hneg hle; split at hneg <;> omega
  · rfl

/-- Witnesses for C43: growing by one device, and shrinking by one. -/
example : 0 ≤ signed32 sampleMdp1.delta_disks ∧
    (sampleMdp1.raid_disks : Int) + signed32 sampleMdp1.delta_disks < 4294967296 := by decide
example : ∃ m : Mdp1, m.Wf ∧ signed32 m.delta_disks < 0 ∧
    0 ≤ (m.raid_disks : Int) + signed32 m.delta_disks ∧ m.feature_map / 4 % 2 = 1 := by
  have h := sampleMdp1_wf
  exact ⟨{ sampleMdp1 with delta_disks := 4294967295 },
    { h with delta_disks := by decide }, by decide, by decide, by decide⟩

end MdRecover
