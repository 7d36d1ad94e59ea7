import Verif.Props.EndToEnd

/-! Concrete cases for C87-C89: four disks and a spare. -/

namespace MdRecover
open MdSpec Fixture

/-- A disk of version 1.0: data, padding, superblock, rest. -/
def disk10 (data : Bytes) (pad : Nat) (m : Mdp1) : Bytes := data ++ zeros pad ++ (m.encode ++ zeros 4096)

theorem disk10_member {data : Bytes} {pad bs : Nat} {m : Mdp1} (hw : m.Wf) (h1 : m.magic = 0xa92b4efc)
    (h2 : m.major_version = 1) (hK : 4096 ∣ data.length + pad) (hK' : 8192 ≤ data.length + pad)
    (hU : data.length + pad + 8192 < U64) (h0 : 0 < bs) (hbs : bs < U32)
    (hd : bs ∣ data.length + pad + 8192) (hdata : 4100 ≤ data.length)
    (hm0 : leNat (slice data 0 4) ≠ 0xa92b4efc) (hm1 : leNat (slice data 4096 4) ≠ 0xa92b4efc) :
    Member10 ⟨disk10 data pad m, some bs⟩ m := by
  have he := Mdp1.length_encode hw
  have hlen : (disk10 data pad m).length = data.length + pad + 8192 := by
    simp only [disk10, List.length_append, length_zeros, he]
  have hbody : (data ++ zeros pad).length = data.length + pad := by
    rw [List.length_append, length_zeros]
  refine ⟨⟨bs, rfl, h0, hbs, by rw [hlen]; exact hd⟩, ⟨by rw [hlen]; omega, by rw [hlen]; exact hU⟩, hw, h1, h2,
    ⟨data.length + pad, ⟨hK, by rw [hlen], by rw [hlen]; omega⟩, ?_⟩, fun h => hm1 ?_, fun h => hm0 ?_⟩
  · have := slice_append_right (data ++ zeros pad) (m.encode ++ zeros 4096) 0 4096
    rw [hbody, Nat.add_zero] at this
    show slice (disk10 data pad m) _ _ = _
    rw [disk10, this, slice_append_left (by omega), slice, List.drop_zero, ← he, List.take_length]
  · rw [← h.1]
    show _ = leNat (slice (disk10 data pad m) _ _)
    rw [disk10, slice_append_left (by omega), slice_append_left (by omega)]
  · rw [← h.1]
    show _ = leNat (slice (disk10 data pad m) _ _)
    rw [disk10, slice_append_left (by omega), slice_append_left (by omega)]

/-- The superblock of device number `i`: an array of four members and a spare. -/
def caseSb (i : Nat) : Mdp1 :=
  { sampleMdp1 with
    feature_map := 0, size := 13, chunksize := 1, data_offset := 0, dev_number := i, max_dev := 5,
    dev_roles := [0, 1, 2, 3, 0xffff] ++ List.replicate 1915 0xffff }

theorem caseSb_wf {i : Nat} (hi : i < 5) : (caseSb i).Wf := by
  have h := sampleMdp1_wf
  refine ⟨h.magic, h.major_version, (by decide : 0 < U32), h.set_uuid, h.set_name, h.level, h.layout,
    (by decide : 13 < U64), (by decide : 1 < U32), h.raid_disks, h.bitmap_offset, h.new_level,
    h.reshape_position, h.delta_disks, h.new_layout, h.new_chunk, h.new_offset, (by decide : 0 < U64),
    h.recovery_offset, Nat.lt_trans hi (by decide), h.device_uuid, h.events, (by decide : 5 < U32), h.pad3,
    ?_, ?_⟩
  · show ([0, 1, 2, 3, 0xffff] ++ List.replicate 1915 0xffff).length = 1920
    rw [List.length_append, List.length_replicate]; rfl
  · intro r hr
    rcases List.mem_append.mp hr with h | h
    · simp at h; omega
    · have := List.eq_of_mem_replicate h; omega

theorem caseSb_features (i : Nat) : (caseSb i).feature_map / 4 % 2 = 0 := by
  show 0 / 4 % 2 = 0
  decide

theorem caseSb_table (i : Nat) : roleTable (caseSb i) = [0, 1, 2, 3, 0xffff] := by
  show ([0, 1, 2, 3, 0xffff] ++ List.replicate 1915 0xffff).take 5 = _
  exact List.take_left' rfl

/-- The data on device number `i`: the members of the array, and nothing on the spare. -/
def caseData (i : Nat) : Bytes := if i < 4 then encodeMember 2 4 1 13 smallFs i else zeros 6656

theorem caseData_length (i : Nat) : (caseData i).length = 6656 := by
  unfold caseData
  split
  · exact encodeMember_length (size := 13) (n := 4) (c := 1) (by decide) (by decide) ⟨13, rfl⟩ smallFs_length i
  · exact length_zeros _

set_option maxRecDepth 100000 in
theorem caseData_magic : ∀ i ∈ List.range 5, leNat (slice (caseData i) 0 4) ≠ 0xa92b4efc ∧
    leNat (slice (caseData i) 4096 4) ≠ 0xa92b4efc := by
  decide +kernel

/-- Device number `i`; their physical block sizes differ. -/
def caseFile (i : Nat) : OsFile := ⟨disk10 (caseData i) 1536 (caseSb i), some (if i = 0 then 4096 else 512)⟩

theorem caseFile_member {i : Nat} (hi : i < 5) : Member10 (caseFile i) (caseSb i) := by
  have hl := caseData_length i
  obtain ⟨h0, h1⟩ := caseData_magic i (List.mem_range.mpr hi)
  refine disk10_member (caseSb_wf hi) rfl rfl (by rw [hl]; exact ⟨2, rfl⟩) (by omega)
    (by rw [hl]; decide) ?_ ?_ ?_ (by omega) h0 h1
  · split <;> decide
  · split <;> decide
  · rw [hl]
    split
    · exact ⟨4, rfl⟩
    · exact ⟨32, rfl⟩

/-- Device number `i` is at the path `[i]`. -/
def caseFs : Bytes → Except Nat OsFile
  | [i] => if i.toNat < 5 then .ok (caseFile i.toNat) else .error 2
  | _ => .error 2

/-- The order in which the paths are given. -/
def caseOrder : List Nat := [2, 4, 0, 3, 1]

def casePaths : List Bytes := [[2], [4], [0], [3], [1]]

/-- Which path has member number `d`. -/
def casePlace (d : Nat) : Nat := [2, 4, 0, 3].getD d 0

theorem caseOrder_lt : ∀ j, j < 5 → caseOrder.getD j 0 < 5 := by decide

theorem case_arrayAt : ArrayAt caseFs casePaths 2 4 1 13 smallFs (fun j => caseFile (caseOrder.getD j 0))
    (fun j => caseSb (caseOrder.getD j 0)) casePlace := by
  refine ⟨⟨?_, fun j hj => caseFile_member (caseOrder_lt j hj), ?_, ?_, ?_, ?_, by decide⟩, ?_⟩
  · intro j path h
    have hj : j < 5 := (List.getElem?_eq_some_iff.mp h).1
    have : j = 0 ∨ j = 1 ∨ j = 2 ∨ j = 3 ∨ j = 4 := by omega
    rcases this with rfl | rfl | rfl | rfl | rfl <;> cases h <;> rfl
  · intro j _
    exact ⟨rfl, rfl, rfl, rfl, rfl, caseSb_features _, rfl⟩
  · intro i j _ _
    rw [caseSb_table, caseSb_table]
  · intro d hd
    rw [caseSb_table]
    have : d = 0 ∨ d = 1 ∨ d = 2 ∨ d = 3 := by omega
    rcases this with rfl | rfl | rfl | rfl <;> exact ⟨by decide, rfl⟩
  · intro j d hj hd h
    rw [caseSb_table] at h
    have hj : j < 5 := hj
    have : j = 0 ∨ j = 1 ∨ j = 2 ∨ j = 3 ∨ j = 4 := by omega
    rcases this with rfl | rfl | rfl | rfl | rfl <;> cases h <;> first | rfl | omega
  · refine encode_set (n := 4) (c := 1) (size := 13) (by decide) (by decide) (by decide) ⟨13, rfl⟩ (by decide) smallFs_length _ ?_
    intro d hd
    have hp : caseOrder.getD (casePlace d) 0 = d := by
      have : d = 0 ∨ d = 1 ∨ d = 2 ∨ d = 3 := by omega
      rcases this with rfl | rfl | rfl | rfl <;> rfl
    show _ <+: wholeBlocks (caseFile (caseOrder.getD (casePlace d) 0))
    rw [hp, wholeBlocks_member (caseFile_member (by omega : d < 5))]
    refine ⟨zeros 1536 ++ ((caseSb d).encode ++ zeros 4096), ?_⟩
    show _ = disk10 (caseData d) 1536 (caseSb d)
    rw [disk10, caseData, if_pos hd, List.append_assoc]

theorem case_inStep : InStep casePaths (fun j => caseSb (caseOrder.getD j 0)) where
  uuid _ _ _ _ := rfl
  name _ _ _ _ := rfl
  events _ _ _ _ := rfl
  distinct := by
    intro i j hi hj h
    have h : caseOrder.getD i 0 = caseOrder.getD j 0 := h
    have hi : i < 5 := hi
    have hj : j < 5 := hj
    have key : ∀ i, i < 5 → ∀ j, j < 5 → caseOrder.getD i 0 = caseOrder.getD j 0 → i = j := by decide
    exact key i hi j hj h

/-- C89 for the four disks and the spare: what a program sees of the filesystem on them. -/
theorem C89_case : ∃ s' devices, openPaths caseFs casePaths quiet = (s', .ok (devices.map .ok)) ∧
    ∀ ord : IterOrder, ord.Valid →
      sessionRun (Reader.streamDev (MdArray.dev NativeDev.streamDev.toBlockDev))
          (s'.os, [.device (Reader.new (MdArray.open ord devices))]) program =
        [.done, .number 1024, .newFile, .number 2500, .newDirectory,
          .data 1024 ((smallFs.drop 8192).take 1024),
          .entry (some ⟨[2, 0, 0, 0, 12, 0, 1, 2, 46, 0, 0, 0]⟩),
          .data 1024 ((smallFs.drop 9216).take 1024), .data 452 ((smallFs.drop 10240).take 1024),
          .data 0 (zeros 1024), .noSuchHandle, .error .invalidInput] := by
  obtain ⟨s', devices, h1, h2⟩ := C89_disks_to_files_partial case_arrayAt rfl quiet quiet_noFailures
    (by decide)
  refine ⟨s', devices, h1, fun ord hord => ?_⟩
  rw [h2 ord hord program program_wellTyped]
  exact program_outcomes

/-- C89, C87: the diagnosis of these disks has no complaint. -/
theorem C87_case {ord ord' : IterOrder} (hord : ord.Valid) (hord' : ord'.Valid) :
    ∃ s' d, mainProgram ord ord' caseFs casePaths quiet = (s', .ok (.diagnosis d)) ∧ Clean d :=
  C89_clean_partial case_arrayAt case_inStep hord hord' quiet quiet_noFailures (by decide)

/-- C87: the same disk given twice: there is a complaint. -/
theorem C87_case_complaint {ord ord' : IterOrder} (hord : ord.Valid) (hord' : ord'.Valid) :
    ¬ ∃ s' d, mainProgram ord ord' caseFs [[0], [0]] quiet = (s', .ok (.diagnosis d)) ∧ Clean d := by
  have hm := caseFile_member (i := 0) (by decide)
  rw [C87_clean_iff hord hord' caseFs [[0], [0]] quiet quiet_noFailures (by decide) (by
    intro path hp f hf
    have : path = [0] := by simpa using hp
    subst this
    cases hf
    exact hm.sane)]
  rintro ⟨-, found, h⟩
  have e : ∀ j, j < 2 → .superblock (found j) = DeviceSuperblock.superblock (found10 (caseSb 0)) := by
    intro j hj
    have : ([[0], [0]] : List Bytes)[j]? = some [0] := by
      have : j = 0 ∨ j = 1 := by omega
      rcases this with rfl | rfl <;> rfl
    have := h.has j [0] (caseFile 0) this rfl
    rw [wholeBlocks_member hm] at this
    exact C36_expected_unique this hm.expected
  have h0 := e 0 (by decide)
  have h1 := e 1 (by decide)
  have := h.distinct 0 1 (by decide) (by decide) (by
    rw [DeviceSuperblock.superblock.inj h0, DeviceSuperblock.superblock.inj h1])
  exact absurd this (by decide)

/-- C88 is false: only two of the four members are given.  The superblocks say that there are four; the
diagnosis has no complaint. -/
theorem C88_missing_members_unreported {ord ord' : IterOrder} (hord : ord.Valid) (hord' : ord'.Valid) :
    (∃ s' d, mainProgram ord ord' caseFs [[0], [2]] quiet = (s', .ok (.diagnosis d)) ∧ Clean d) ∧
    ∀ path ∈ [[0], [2]], ∃ f s, caseFs path = .ok f ∧ Expected f.content (.superblock s) ∧
      s.raidDeviceCount = 4 ∧ s.algorithm = .raid6 .leftSymmetric := by
  have hm : ∀ i, i < 5 → Member10 (caseFile i) (caseSb i) := fun i hi => caseFile_member hi
  have hfields : ∀ i, i < 5 → (found10 (caseSb i)).raidDeviceCount = 4 ∧
      (found10 (caseSb i)).algorithm = .raid6 .leftSymmetric := by
    intro i hi
    obtain ⟨-, -, h3, -, -, h6, -⟩ := found10_fields (caseSb_wf hi)
    exact ⟨h6, h3⟩
  constructor
  · refine (C87_clean_iff hord hord' caseFs [[0], [2]] quiet quiet_noFailures (by decide) ?_).mpr
      ⟨?_, fun j => found10 (caseSb (2 * j)), ⟨?_, ?_, ?_⟩⟩
    · intro path hp f hf
      have : path = [0] ∨ path = [2] := by simpa using hp
      rcases this with rfl | rfl <;> cases hf
      · exact (hm 0 (by decide)).sane
      · exact (hm 2 (by decide)).sane
    · intro path hp
      have : path = [0] ∨ path = [2] := by simpa using hp
      rcases this with rfl | rfl <;> rfl
    · intro j path f hj hf
      have hj' : j < 2 := (List.getElem?_eq_some_iff.mp hj).1
      have : j = 0 ∨ j = 1 := by omega
      rcases this with rfl | rfl <;> cases hj <;> cases hf
      · have := hm 0 (by decide)
        show Expected (wholeBlocks (caseFile 0)) _
        rw [wholeBlocks_member this]
        exact this.expected
      · have := hm 2 (by decide)
        show Expected (wholeBlocks (caseFile 2)) _
        rw [wholeBlocks_member this]
        exact this.expected
    · intro i j hi hj
      have hi : i < 2 := hi
      have hj : j < 2 := hj
      obtain ⟨a1, a2, a3, a4, a5, a6, a7, a8, a9, a10⟩ := found10_fields (caseSb_wf (i := 2 * i) (by omega))
      obtain ⟨b1, b2, b3, b4, b5, b6, b7, b8, b9, b10⟩ := found10_fields (caseSb_wf (i := 2 * j) (by omega))
      refine ⟨a1.trans b1.symm, ?_, a3.trans b3.symm, a4.trans b4.symm, a5.trans b5.symm,
        a6.trans b6.symm, (a7 (caseSb_features _)).trans (b7 (caseSb_features _)).symm, a9.trans b9.symm, ?_⟩
      · intro a b ha hb
        rw [a2] at ha
        rw [b2] at hb
        cases ha
        cases hb
        rfl
      · rw [a10, b10, caseSb_table, caseSb_table]
    · intro i j hi hj h
      have hi : i < 2 := hi
      have hj : j < 2 := hj
      obtain ⟨-, -, -, -, -, -, -, a8, -⟩ := found10_fields (caseSb_wf (i := 2 * i) (by omega))
      obtain ⟨-, -, -, -, -, -, -, b8, -⟩ := found10_fields (caseSb_wf (i := 2 * j) (by omega))
      rw [a8, b8] at h
      have h : 2 * i = 2 * j := h
      omega
  · intro path hp
    have : path = [0] ∨ path = [2] := by simpa using hp
    rcases this with rfl | rfl
    · exact ⟨caseFile 0, _, rfl, (hm 0 (by decide)).expected, hfields 0 (by decide)⟩
    · exact ⟨caseFile 2, _, rfl, (hm 2 (by decide)).expected, hfields 2 (by decide)⟩

/-- C88: four members in memory; the diagnosis has no complaint, and all are active. -/
example {ord ord' : IterOrder} (hord : ord.Valid) (hord' : ord'.Valid) (mem : Nat → Bytes) :
    let devices := memMembers .leftSymmetric 4 1 13 0 mem (fun _ => 512)
    Clean (ArrayDef.diagnose ord' (MdArray.open ord devices)) ∧
      ∀ m, m < 4 → ∃ x ∈ devices, (MdArray.open ord devices).devices.get m = some x := by
  intro devices
  have hr := reports_diagnose hord hord' devices
  have hc : Clean (ArrayDef.diagnose ord' (MdArray.open ord devices)) := by
    refine (clean_iff hr (found := fun j => ⟨1, 0, .long [], none, .raid6 .leftSymmetric, 13, 1, 4, none, 0, j,
      1, (List.range 4).map Role.mk⟩) ?_).mpr ⟨?_, ?_⟩
    · intro j hj
      simp only [devices, memMembers, List.getElem_map, List.getElem_range]
      rfl
    · exact fun i j _ _ => ⟨rfl, fun _ _ h => (by cases h), rfl, rfl, rfl, rfl, rfl, rfl, rfl⟩
    · exact fun i j _ _ h => h
  refine ⟨hc, C88_all_present_partial hord hr hc (by decide : 4 ≤ 0xff00) ?_ ?_⟩
  · intro x hx
    obtain ⟨i, hi, rfl⟩ := List.mem_map.mp hx
    have hi : i < 4 := List.mem_range.mp hi
    refine ⟨_, i, rfl, rfl, ?_, hi⟩
    simp [hi]
  · intro x hx s hs i j r _ h1 h2
    obtain ⟨k, hk, rfl⟩ := List.mem_map.mp hx
    cases hs
    simp only [List.getElem?_map, Option.map_eq_some_iff, List.getElem?_eq_some_iff, List.getElem_range,
      Role.mk.injEq] at h1 h2
    obtain ⟨a, ⟨-, rfl⟩, rfl⟩ := h1
    obtain ⟨b, ⟨-, rfl⟩, h⟩ := h2
    exact h.symm

/-- C89 for the four disks and the spare on a system where the reads go on failing. -/
example (s : System) (hs : s.nextId = 1) :
    ∃ s' rs, openPaths caseFs casePaths s = (s', .ok rs) ∧
      ((∃ path ∈ casePaths, ∃ e, .error (path, e) ∈ rs) ∨
       ∃ devices : List (MdDevice NativeDev), rs = devices.map .ok ∧
        ∀ ord : IterOrder, ord.Valid → ∀ ops : List (Nat × SessionCall), (∀ x ∈ ops, x.2.wellTyped) →
          let seen := sessionRun (Reader.streamDev (MdArray.dev NativeDev.streamDev.toBlockDev))
            (s'.os, [.device (Reader.new (MdArray.open ord devices))]) ops
          let right := sessionRun InMemory.streamDev ((), [.device (InMemory.new smallFs 512)]) ops
          seen = right ∨ ∃ k e, seen.take k = right.take k ∧ seen[k]? = some (.error e)) := by
  refine C89_failing_partial case_arrayAt ?_ rfl s (by rw [hs]; decide)
  intro j hj off e hp
  have hl : (caseFile (caseOrder.getD j 0)).content.length = 16384 := by
    show (disk10 _ _ _).length = _
    simp only [disk10, List.length_append, length_zeros, caseData_length,
      Mdp1.length_encode (caseSb_wf (caseOrder_lt j hj))]
  rw [hl] at hp
  have := hp.2.1
  omega

end MdRecover
