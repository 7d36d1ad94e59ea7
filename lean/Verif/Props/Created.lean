import Verif.Spec.Created
import Verif.Props.EndToEndCases
import Verif.Props.Selection
import Verif.Props.Written

/-! C124: arrays as they are created are read back. -/

namespace MdRecover
open MdSpec Fixture

namespace Created
variable {a : NewArray}

theorem superblock_wf (ha : a.Fits) {d : Nat} (hd : d < a.members) : (a.superblock d).Wf := by
  have hm := ha.members
  have hs := ha.size
  have hc := ha.chunk
  have z4 : 0 < U32 := by decide
  have z8 : 0 < U64 := by decide
  refine ⟨(by decide : 0xa92b4efc < U32), (by decide : 1 < U32), z4, ha.uuid, ha.name, (by decide : 6 < U32),
    ha.layout, ?_, hc.2.1, ?_, z4, z4, z8, z4, z4, z4, z4, z8, z8, ?_, zeros_len 16, ha.events, ?_, zeros_len 32,
    ?_, ?_⟩
  · show a.size < 2 ^ 64
    omega
  · show a.members < 2 ^ 32
    omega
  · show d < 2 ^ 32
    omega
  · show a.members < 2 ^ 32
    omega
  · show (List.range a.members ++ List.replicate (1920 - a.members) 0xffff).length = 1920
    rw [List.length_append, List.length_range, List.length_replicate]
    omega
  · intro r hr
    have hr : r ∈ List.range a.members ++ List.replicate (1920 - a.members) 0xffff := hr
    show r < 2 ^ 16
    rcases List.mem_append.mp hr with h | h
    · have := List.mem_range.mp h
      omega
    · have := List.eq_of_mem_replicate h
      omega

theorem table (d : Nat) : roleTable (a.superblock d) = List.range a.members :=
  List.take_left' List.length_range

theorem disk_eq (data : Bytes) (d : Nat) :
    a.disk data d = disk10 data (4096 - data.length % 4096 + 8192) (a.superblock d) := rfl

theorem member {data : Bytes} {d b : Nat} (ha : a.Fits) (hd : d < a.members)
    (hl : data.length = a.size * 512) (hu : Unmistakable data) (hb : b ∣ 4096) :
    Member10 ⟨a.disk data d, some b⟩ (a.superblock d) := by
  have hs := ha.size
  have h4 : 4096 ∣ data.length + (4096 - data.length % 4096 + 8192) := by
    have := Nat.mod_lt data.length (show 0 < 4096 by decide)
    exact ⟨data.length / 4096 + 3, by omega⟩
  have hb0 : 0 < b := Nat.pos_of_dvd_of_pos hb (by decide)
  have hb1 : b ≤ 4096 := Nat.le_of_dvd (by decide) hb
  rw [disk_eq]
  refine disk10_member (superblock_wf ha hd) rfl rfl h4 (by omega) ?_ hb0 ?_ ?_ (by omega) hu.1 hu.2
  · show _ < 2 ^ 64
    have := Nat.mod_lt data.length (show 0 < 4096 by decide)
    omega
  · show b < 2 ^ 32
    omega
  · exact Nat.dvd_trans hb (Nat.dvd_add h4 ⟨2, rfl⟩)

end Created

/-- Whether disks make up an array depends on the first `size` sectors of its members only. -/
theorem _root_.MdSpec.Raid6Set.extend {L n c size : Nat} {m m' : Nat → Disk} {content : Bytes}
    (h : Raid6Set L n c size m content) (hl : ∀ d, d < n → size * 512 ≤ (m' d).content.length)
    (he : ∀ d s, d < n → s < size → (m' d).sector s = (m d).sector s) : Raid6Set L n c size m' content := by
  refine ⟨h.devices, h.devices_lt, h.chunk, h.whole_chunks, h.bytes_lt, h.length, hl,
    fun b hb row d hrow hr => ?_, fun s hs row hrow p hp i hi => ?_⟩
  · have hd : d < n := by rw [← raid6Row_length h.devices hrow]; exact (List.getElem?_eq_some_iff.1 hr).1
    have hlt : b / c / (n - 2) * c + b % c < size := by
      obtain ⟨q, rfl⟩ := h.whole_chunks
      have h1 : b / c < q * (n - 2) := by
        rw [Nat.div_lt_iff_lt_mul h.chunk]
        calc b < c * q * (n - 2) := hb
          _ = q * (n - 2) * c := by rw [Nat.mul_assoc, Nat.mul_comm]
      have h2 : b / c / (n - 2) < q := by
        rw [Nat.div_lt_iff_lt_mul (by have := h.devices; omega)]
        exact h1
      have h3 := Nat.mod_lt b h.chunk
      have h4 : (b / c / (n - 2) + 1) * c ≤ q * c := Nat.mul_le_mul_right _ h2
      rw [Nat.add_mul, Nat.one_mul, Nat.mul_comm q c] at h4
      omega
    rw [he d _ hd hlt]
    exact h.data b hb row d hrow hr
  · have hrl := raid6Row_length h.devices hrow
    have hmap : (dataDevices row).map (fun d => ((m' d).sector s).getD i 0) =
        (dataDevices row).map fun d => ((m d).sector s).getD i 0 := by
      refine List.map_congr_left fun d hd => ?_
      have := List.mem_range.1 (List.mem_filter.1 hd).1
      rw [he d s (by omega) hs]
    show ((m' p).sector s).getD i 0 = xorBytes ((dataDevices row).map fun d => ((m' d).sector s).getD i 0)
    rw [hmap, he p s (by rw [← hrl]; exact (List.getElem?_eq_some_iff.1 hp).1) hs]
    exact h.parity s hs row hrow p hp i hi

section
variable {a : NewArray} {order : List Nat} {paths : List Bytes} {fs : Bytes → Except Nat OsFile}
  {data : Nat → Bytes} {b : Nat → Nat} {content : Bytes}

theorem _root_.MdSpec.NewArray.GivenAt.place (h : a.GivenAt fs paths order data b) {j : Nat}
    (hj : j < paths.length) : order[j]? = some (order.getD j 0) ∧ order.getD j 0 < a.members := by
  have hlen : order.length = a.members := by rw [h.perm.length_eq, List.length_range]
  have hlt : j < order.length := by rw [hlen, ← h.count]; exact hj
  have e : order[j]? = some (order.getD j 0) := by
    rw [List.getD_eq_getElem?_getD, List.getElem?_eq_getElem hlt]
    rfl
  refine ⟨e, ?_⟩
  have := h.perm.mem_iff.mp (List.mem_of_getElem? e)
  exact List.mem_range.mp this

/-- C124, whatever is in the data areas: the disks, given in any order, are members of an array (C113), the superblocks
are in step, and on each of them its data come first. -/
theorem C124_members (h : a.GivenAt fs paths order data b) :
    MembersAt fs paths a.layout a.members a.chunk a.size
      (fun j => ⟨a.disk (data (order.getD j 0)) (order.getD j 0), some (b (order.getD j 0))⟩)
      (fun j => a.superblock (order.getD j 0)) (fun d => order.idxOf d) ∧
    InStep paths (fun j => a.superblock (order.getD j 0)) ∧
    ∀ d, d < a.members → data d <+: (asDisk ⟨a.disk (data (order.getD (order.idxOf d) 0))
      (order.getD (order.idxOf d) 0), some (b (order.getD (order.idxOf d) 0))⟩).content := by
  have hnd : order.Nodup := h.perm.nodup_iff.mpr List.nodup_range
  have hlen : order.length = a.members := by rw [h.perm.length_eq, List.length_range]
  have hidx : ∀ d, d < a.members → order.idxOf d < paths.length ∧ order.getD (order.idxOf d) 0 = d := by
    intro d hd
    have hm : d ∈ order := h.perm.mem_iff.mpr (List.mem_range.mpr hd)
    have hlt := List.idxOf_lt_length_of_mem hm
    have hc := h.count
    refine ⟨by omega, ?_⟩
    rw [List.getD_eq_getElem?_getD, List.getElem?_eq_getElem hlt]
    exact List.getElem_idxOf hlt
  have hinj : ∀ i j, i < paths.length → j < paths.length → order.getD i 0 = order.getD j 0 → i = j := by
    intro i j hi hj he
    have e1 := (h.place hi).1
    have e2 := (h.place hj).1
    rw [he] at e1
    obtain ⟨l1, g1⟩ := List.getElem?_eq_some_iff.mp e1
    obtain ⟨l2, g2⟩ := List.getElem?_eq_some_iff.mp e2
    exact (List.Nodup.getElem_inj_iff hnd).mp (g1.trans g2.symm)
  have hrole : ∀ e d, e < a.members → (roleTable (a.superblock e))[e]? = some d → e = d := by
    intro e d he hr
    rw [Created.table, List.getElem?_range he] at hr
    exact Option.some.inj hr
  refine ⟨⟨?_, ?_, ?_, ?_, ?_, ?_, ?_⟩, ?_, ?_⟩
  · intro j path hj
    exact h.at_path j path _ hj (h.place (List.getElem?_eq_some_iff.mp hj).1).1
  · intro j hj
    have hd := (h.place hj).2
    exact Created.member h.fits hd (h.length _ hd) (h.unmistakable _ hd) (h.blocks _ hd)
  · intro j _
    exact ⟨rfl, rfl, rfl, rfl, rfl, (by show 0 / 4 % 2 = 0; decide), rfl⟩
  · intro i j _ _
    rw [Created.table, Created.table]
  · intro d hd
    obtain ⟨h1, h2⟩ := hidx d hd
    refine ⟨h1, ?_⟩
    show (roleTable (a.superblock (order.getD (order.idxOf d) 0)))[order.getD (order.idxOf d) 0]? = some d
    rw [h2, Created.table, List.getElem?_range hd]
  · intro j d hj hd hr
    have := hrole _ d (h.place hj).2 hr
    obtain ⟨h1, h2⟩ := hidx d hd
    exact hinj _ _ hj h1 (this.trans h2.symm)
  · have := h.fits.members
    omega
  · exact ⟨fun _ _ _ _ => rfl, fun _ _ _ _ => rfl, fun _ _ _ _ => rfl, fun i j hi hj he => hinj i j hi hj he⟩
  · intro d hd
    rw [(hidx d hd).2]
    show data d <+: wholeBlocks ⟨a.disk (data d) d, some (b d)⟩
    rw [wholeBlocks_member (Created.member h.fits hd (h.length _ hd) (h.unmistakable _ hd) (h.blocks _ hd))]
    exact ⟨zeros (4096 - (data d).length % 4096 + 8192) ++ ((a.superblock d).encode ++ zeros 4096),
      (List.append_assoc _ _ _).symm⟩

/-- C124: the disks of a new array, given in any order, are an array in the sense of C87 to C89, and the
superblocks are in step. -/
theorem C124_created (h : a.GivenAt fs paths order data b)
    (hset : Raid6Set a.layout a.members a.chunk a.size (fun d => ⟨512, a.size, data d⟩) content) :
    ArrayAt fs paths a.layout a.members a.chunk a.size content
      (fun j => ⟨a.disk (data (order.getD j 0)) (order.getD j 0), some (b (order.getD j 0))⟩)
      (fun j => a.superblock (order.getD j 0)) (fun d => order.idxOf d) ∧
    InStep paths (fun j => a.superblock (order.getD j 0)) := by
  obtain ⟨h1, h2, h3⟩ := C124_members h
  refine ⟨⟨h1, hset.extend (fun d hd => ?_) fun d s hd hs => ?_⟩, h2⟩
  · have := (h3 d hd).length_le
    rwa [h.length d hd] at this
  · obtain ⟨r, hr⟩ := h3 d hd
    unfold Disk.sector
    rw [← hr, slice_append_left]
    rw [h.length d hd]
    omega

/-- C124: the diagnosis of the disks of a new array has no complaint. -/
theorem C124_diagnosis (h : a.GivenAt fs paths order data b)
    (hset : Raid6Set a.layout a.members a.chunk a.size (fun d => ⟨512, a.size, data d⟩) content)
    {ord ord' : IterOrder} (hord : ord.Valid) (hord' : ord'.Valid) (s : System)
    (hos : NativeDev.NoFailures s.os) (hi : s.nextId + paths.length < U64) :
    ∃ s' d, mainProgram ord ord' fs paths s = (s', .ok (.diagnosis d)) ∧ Clean d := by
  obtain ⟨h1, h2⟩ := C124_created h hset
  exact C89_clean_partial h1 h2 hord hord' s hos hi

variable [Build]

/-- C124: every program that uses the array sees what it would see on its content in memory. -/
theorem C124_sessions (h : a.GivenAt fs paths order data b)
    (hset : Raid6Set a.layout a.members a.chunk a.size (fun d => ⟨512, a.size, data d⟩) content)
    {alg : Raid6Algorithm} (hL : Raid6Algorithm.fromLayout a.layout = some alg) (s : System)
    (hos : NativeDev.NoFailures s.os) (hi : s.nextId + paths.length < U64) :
    ∃ s' devices, openPaths fs paths s = (s', .ok (devices.map .ok)) ∧
      ∀ ord : IterOrder, ord.Valid → ∀ ops : List (Nat × SessionCall), (∀ x ∈ ops, x.2.wellTyped) →
        sessionRun (Reader.streamDev (MdArray.dev NativeDev.streamDev.toBlockDev))
            (s'.os, [.device (Reader.new (MdArray.open ord devices))]) ops =
          sessionRun InMemory.streamDev ((), [.device (InMemory.new content 512)]) ops :=
  C89_disks_to_files_partial (C124_created h hset).1 hL s hos hi

/-- C124: files and directories written on a new array are read back from its disks. -/
theorem C124_files (k : Mkfs.Form) (t : List Node) (hf : Mkfs.Fits k t) (rest : Bytes)
    (hl : (Mkfs.volume k t ++ rest).length < 2 ^ 57) (names : List Bytes) :
    ∃ N, ∀ {a : NewArray} {fs : Bytes → Except Nat OsFile} {paths : List Bytes} {order : List Nat}
      {data : Nat → Bytes} {b : Nat → Nat}, a.GivenAt fs paths order data b →
      Raid6Set a.layout a.members a.chunk a.size (fun d => ⟨512, a.size, data d⟩) (Mkfs.volume k t ++ rest) →
      ∀ {alg : Raid6Algorithm}, Raid6Algorithm.fromLayout a.layout = some alg →
      ∀ s : System, NativeDev.NoFailures s.os → s.nextId + paths.length < U64 →
      ∃ s' devices, openPaths fs paths s = (s', .ok (devices.map .ok)) ∧
        ∀ ord : IterOrder, ord.Valid → ∀ rounds, N ≤ rounds →
          (readPath (Reader.streamDev (MdArray.dev NativeDev.streamDev.toBlockDev)) rounds
            (Reader.new (MdArray.open ord devices)) names s'.os).2 = .ok (atPath t 0 names) := by
  obtain ⟨N, hN⟩ := C123_disks k t hf rest hl names
  exact ⟨N, fun {_ _ _ _ _ _} h hset {_} hL s hos hi => hN (C124_created h hset).1 hL s hos hi⟩

omit [Build] in
/-- C124: every content of the right length has such members. -/
theorem C124_every_content (ha : a.Fits) (hlen : content.length = a.size * (a.members - 2) * 512) :
    ∃ data : Nat → Bytes, (∀ d, (data d).length = a.size * 512) ∧
      Raid6Set a.layout a.members a.chunk a.size (fun d => ⟨512, a.size, data d⟩) content := by
  have hm := ha.members
  refine ⟨encodeMember a.layout a.members a.chunk a.size content, fun d => ?_, ?_⟩
  · exact encodeMember_length hm.1 ha.chunk.1 ha.chunk.2.2 hlen d
  · exact encode_set hm.1 (by show _ < 2 ^ 32; omega) ha.chunk.1 ha.chunk.2.2 ha.size.2.2 hlen _
      (fun d _ => List.prefix_rfl)

end

/-! ### A case -/

/-- An array of four members, of nine sectors each. -/
def newCase : NewArray := ⟨List.replicate 16 9, 110 :: List.replicate 31 0, 2, 4, 1, 9, 3⟩

theorem newCase_fits : newCase.Fits :=
  ⟨rfl, rfl, by decide, by decide, ⟨by decide, by decide, ⟨9, rfl⟩⟩, by decide, by decide⟩

/-- The tree of C123, with a file of three bytes, fills it. -/
def newVolume : Bytes := Mkfs.volume 0 (sampleTree [1, 2, 3])

def newData (d : Nat) : Bytes := encodeMember 2 4 1 9 newVolume d

/-- The disks are given in the order 2, 0, 3, 1. -/
def newFs : Bytes → Except Nat OsFile
  | [i] => .ok ⟨newCase.disk (newData i.toNat) i.toNat, some 512⟩
  | _ => .error 2

theorem newVolume_length : newVolume.length = 9216 := by
  unfold newVolume
  rw [MkfsLemmas.length_volume (sampleTree_fits _ (by decide)).sizes]
  decide +kernel

set_option maxRecDepth 100000 in
theorem newData_unmistakable : ∀ d ∈ List.range 4, leNat ((newData d).take 4) ≠ 0xa92b4efc ∧
    leNat (((newData d).drop 4096).take 4) ≠ 0xa92b4efc := by
  decide +kernel

theorem newCase_given : newCase.GivenAt newFs [[2], [0], [3], [1]] [2, 0, 3, 1] newData (fun _ => 512) where
  fits := newCase_fits
  perm := by decide
  count := rfl
  at_path := by
    intro j path d hj hd
    have hlt : j < 4 := (List.getElem?_eq_some_iff.mp hj).1
    have : j = 0 ∨ j = 1 ∨ j = 2 ∨ j = 3 := by omega
    rcases this with rfl | rfl | rfl | rfl <;> cases hj <;> cases hd <;> rfl
  length d _ := encodeMember_length (n := 4) (size := 9) (by decide) (by decide) ⟨9, rfl⟩ newVolume_length d
  unmistakable d hd := newData_unmistakable d (List.mem_range.mpr hd)
  blocks _ _ := by decide

/-- C124: the disks of this array, in that order: no complaint, and the file is found along a path. -/
theorem C124_case : (∀ {ord ord' : IterOrder}, ord.Valid → ord'.Valid →
      ∃ s' d, mainProgram ord ord' newFs [[2], [0], [3], [1]] quiet = (s', .ok (.diagnosis d)) ∧ Clean d) ∧
    ∃ N s' devices, openPaths newFs [[2], [0], [3], [1]] quiet = (s', .ok (devices.map .ok)) ∧
      ∀ ord : IterOrder, ord.Valid → ∀ rounds, N ≤ rounds →
        (readPath (Reader.streamDev (MdArray.dev NativeDev.streamDev.toBlockDev)) rounds
          (Reader.new (MdArray.open ord devices)) [[100], [117, 112], [100], [103]] s'.os).2 =
            .ok (.content [1, 2, 3]) := by
  have hf := sampleTree_fits [1, 2, 3] (by decide)
  have hset : Raid6Set newCase.layout newCase.members newCase.chunk newCase.size
      (fun d => ⟨512, newCase.size, newData d⟩) (newVolume ++ []) := by
    refine encode_set (n := 4) (c := 1) (size := 9) (by decide) (by decide) (by decide) ⟨9, rfl⟩ (by decide)
      (by rw [List.append_nil]; exact newVolume_length) _ (fun d _ => ?_)
    rw [List.append_nil]
    exact List.prefix_rfl
  refine ⟨fun hord hord' => C124_diagnosis newCase_given hset hord hord' quiet quiet_noFailures (by decide), ?_⟩
  obtain ⟨N, hN⟩ := C124_files 0 _ hf [] (by
    rw [List.append_nil]
    show newVolume.length < _
    rw [newVolume_length]
    decide) [[100], [117, 112], [100], [103]]
  obtain ⟨s', devices, h1, h2⟩ := hN newCase_given hset rfl quiet quiet_noFailures (by decide)
  exact ⟨N, s', devices, h1, h2⟩

end MdRecover
