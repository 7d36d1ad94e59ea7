import Verif.Props.Rescue
import Verif.Props.Created

/-! C132: from the damaged disks of an array to the files on it. -/

namespace MdRecover
open MdSpec

section
variable {W D : Type}

/-- A device that fails less often. -/
theorem _root_.MdSpec.PatchyVolume.mono {bad bad' : Nat → Prop} {lim : Nat → Nat} {dev : StreamDev W D} {G : W → Prop}
    {Is : D → Bytes → Prop} {At : W → D → Nat → Prop} (h : PatchyVolume bad lim dev G Is At)
    (hb : ∀ x, bad x → bad' x) : PatchyVolume bad' lim dev G Is At :=
  { h with readOk := fun hG hI hA buf hn hi => h.readOk hG hI hA buf hn fun x h1 h2 h3 h4 => hi x h1 h2 h3 (hb x h4) }

end

section
variable {a : NewArray} {fs : Bytes → Except Nat OsFile} {paths : List Bytes} {order : List Nat} {data : Nat → Bytes}
  {b : Nat → Nat}

/-- C132, the diagnosis: whatever is in the data areas of the disks of an array, the diagnosis has no complaint. -/
theorem C132_diagnosis (h : a.GivenAt fs paths order data b) {ord ord' : IterOrder} (hord : ord.Valid)
    (hord' : ord'.Valid) (s : System) (hos : NativeDev.NoFailures s.os) (hi : s.nextId + paths.length < U64) :
    ∃ s' d, mainProgram ord ord' fs paths s = (s', .ok (.diagnosis d)) ∧ Clean d :=
  clean_membersAt (C124_members h).1 (C124_members h).2.1 hord hord' s hos hi

/-- The data the disks of an array have now, after damage, and had before, with the rest of the disks behind it. -/
theorem damaged_disks (h : a.GivenAt fs paths order data b) {good : Nat → Bytes} {content : Bytes}
    (hset : Raid6Set a.layout a.members a.chunk a.size (fun d => ⟨512, a.size, good d⟩) content)
    (hg : ∀ d, d < a.members → (good d).length = a.size * 512)
    (hdam : OneDamaged a.members a.size (fun d => ⟨512, a.size, good d⟩) fun d => ⟨512, a.size, data d⟩) :
    let now := fun d => asDisk ⟨a.disk (data (order.getD (order.idxOf d) 0)) (order.getD (order.idxOf d) 0),
      some (b (order.getD (order.idxOf d) 0))⟩
    ∃ before : Nat → Disk, Raid6Set a.layout a.members a.chunk a.size before content ∧
      OneDamaged a.members a.size before now ∧
      ∀ x, Affected a.layout a.members a.chunk before now x →
        Affected a.layout a.members a.chunk (fun d => ⟨512, a.size, good d⟩) (fun d => ⟨512, a.size, data d⟩) x := by
  intro now
  have hpre := (C124_members h).2.2
  have hrest : ∀ d, ∃ r, d < a.members → data d ++ r = (now d).content := by
    intro d
    by_cases hd : d < a.members
    · obtain ⟨r, hr⟩ := hpre d hd
      exact ⟨r, fun _ => hr⟩
    · exact ⟨[], fun h => absurd h hd⟩
  choose r hr using hrest
  have hsame : ∀ d s, d < a.members → s < a.size →
      (⟨512, a.size, good d ++ r d⟩ : Disk).sector s = (⟨512, a.size, good d⟩ : Disk).sector s := by
    intro d s hd hs
    unfold Disk.sector
    rw [slice_append_left]
    rw [hg d hd]
    omega
  have hnow : ∀ d s, d < a.members → s < a.size → (now d).sector s = (⟨512, a.size, data d⟩ : Disk).sector s := by
    intro d s hd hs
    unfold Disk.sector
    rw [← hr d hd, slice_append_left]
    rw [h.length d hd]
    omega
  have hbehind : ∀ d s, d < a.members → ¬ s < a.size →
      (now d).sector s = (⟨512, a.size, good d ++ r d⟩ : Disk).sector s := by
    intro d s hd hs
    unfold Disk.sector
    rw [← hr d hd]
    unfold slice
    show ((data d ++ r d).drop (s * 512)).take 512 = ((good d ++ r d).drop (s * 512)).take 512
    rw [List.drop_append, List.drop_append, h.length d hd, hg d hd,
      List.drop_eq_nil_of_le (as := data d) (by rw [h.length d hd]; omega),
      List.drop_eq_nil_of_le (as := good d) (by rw [hg d hd]; omega)]
  refine ⟨fun d => ⟨512, a.size, good d ++ r d⟩, hset.extend (fun d hd => ?_) hsame, ⟨fun d hd => ?_, ?_⟩, ?_⟩
  · show _ ≤ (good d ++ r d).length
    rw [List.length_append, hg d hd]
    omega
  · have := (hpre d hd).length_le
    rwa [h.length d hd] at this
  · intro s hs d d' hd hd' h1 h2
    refine hdam.one s hs d d' hd hd' (fun e => h1 ?_) (fun e => h2 ?_)
    · rw [hnow d s hd hs, hsame d s hd hs]
      exact e
    · rw [hnow d' s hd' hs, hsame d' s hd' hs]
      exact e
  · rintro x ⟨row, d, role, h1, h2, h3, h4⟩
    have hd : d < a.members := by
      rw [← raid6Row_length hset.devices h1]
      exact (List.getElem?_eq_some_iff.1 h2).1
    refine ⟨row, d, role, h1, h2, h3, fun e => h4 ?_⟩
    by_cases hs : x / a.chunk / (a.members - 2) * a.chunk + x % a.chunk < a.size
    · rw [hnow d _ hd hs, hsame d _ hd hs]
      exact e
    · exact hbehind d _ hd hs

end

section
open Mkfs
variable [Build]

/-- C132: files were written on a new array (C123, C124); then its disks were damaged, in each sector of the data areas
on one disk at most, not always the same one.  The disks, given in any order, are opened, and the program of C130 saves
of each file and directory what lies in front of the first damage to the data or P in the same sector of the disks, if
nothing in front of the files is damaged so, and no block of a directory on the way up to the entry that is followed. -/
theorem C132_disks (k : Mkfs.Form) (t : List Node) (hf : Fits k t) (rest : Bytes)
    (hl : (volume k t ++ rest).length < 2 ^ 57) (targets : List (List Bytes × Nat))
    (hp : ∀ p ∈ targets, WayClear (fun _ => False) k t 0 p.1 p.2 ∧
      ((∃ b, t[p.2]? = some (.file b)) ∨ ∃ es, t[p.2]? = some (.dir es)) ∧ ∀ name ∈ p.1, isDots name = false) :
    ∃ N, ∀ {a : NewArray} {fs : Bytes → Except Nat OsFile} {paths : List Bytes} {order : List Nat}
      {data good : Nat → Bytes} {b : Nat → Nat}, a.GivenAt fs paths order data b →
      Raid6Set a.layout a.members a.chunk a.size (fun d => ⟨512, a.size, good d⟩) (volume k t ++ rest) →
      (∀ d, d < a.members → (good d).length = a.size * 512) →
      OneDamaged a.members a.size (fun d => ⟨512, a.size, good d⟩) (fun d => ⟨512, a.size, data d⟩) →
      ∀ {alg : Raid6Algorithm}, Raid6Algorithm.fromLayout a.layout = some alg →
      let bad := fun x => Affected a.layout a.members a.chunk (fun d => ⟨512, a.size, good d⟩)
        (fun d => ⟨512, a.size, data d⟩) (x / 512)
      HeadIntact bad k t →
      ∀ s : System, NativeDev.NoFailures s.os → s.nextId + paths.length < U64 →
      ∃ s' devices, openPaths fs paths s = (s', .ok (devices.map .ok)) ∧
        ∀ ord : IterOrder, ord.Valid → ∀ rounds, N ≤ rounds → ∀ depth,
          ∃ y, (rescueTree (Reader.streamDev (MdArray.dev NativeDev.streamDev.toBlockDev)) rounds depth
            (Reader.new (MdArray.open ord devices)) s'.os).2 = .ok y ∧
          ∀ p ∈ targets, WayClear bad k t 0 p.1 p.2 → p.1.length < depth →
            RescuedNode bad k t p.2 (rescuedAt y p.1) := by
  obtain ⟨N, hN⟩ := C130_written k t hf rest hl targets hp
  refine ⟨N, fun {a fs paths order data good b} h hset hg hdam {alg} hL => ?_⟩
  intro bad hh s hos hi
  obtain ⟨before, hset', hdam', hsub⟩ := damaged_disks h hset hg hdam
  let now := fun d => asDisk ⟨a.disk (data (order.getD (order.idxOf d) 0)) (order.getD (order.idxOf d) 0),
    some (b (order.getD (order.idxOf d) 0))⟩
  have hm := (C124_members h).1
  obtain ⟨s', devices, h1, hG, hr⟩ := opened_disks hm hL s hos hi
  refine ⟨s', devices, h1, fun ord hord rounds hn depth => ?_⟩
  have hd := NativeDev.streamDevSpec_reliable.toDev.patchy
  have hr' : ReadableSet (fun d k => ∃ u : Nat → Prop, NativeDev.IsDisk d k ∧ u = fun _ => False) alg a.members a.chunk
      a.size now devices :=
    ⟨fun x hx => by
        obtain ⟨k, hk⟩ := hr.disk x hx
        exact ⟨k, _, hk, rfl⟩,
      hr.superblocks,
      fun d hd => by
        obtain ⟨x, hx, hk⟩ := hr.member d hd
        exact ⟨x, hx, _, hk, rfl⟩⟩
  have ha := C101_array hd hord hL hr' (unreadable := fun _ _ => False) (fun d hd x hx => ⟨by
    obtain ⟨y, hy, hk⟩ := hr.member d hd
    have h1 := (C24_active_iff hord devices d x).mpr hx
    rw [(C24_active_iff hord devices d y).mpr hy] at h1
    cases h1
    exact hk, rfl⟩) hset' hdam'
  have hv := (Reader.patchyVolume ha ⟨512, a.size * (a.members - 2), volume k t ++ rest⟩
    (fun x => Affected a.layout a.members a.chunk before now x ∨
      StripeUnreadable a.members a.chunk now (fun _ _ => False) x)).mono
    (bad' := bad) (by
    rintro x (h | ⟨d, -, y, -, -, h⟩)
    · exact hsub _ h
    · exact h.elim)
  exact hN hv (by simp only [noLimit]; omega) (by simp only [noLimit]; omega) hh s'.os _ hG
    ⟨rfl, 0, Reader.at_new (ha.wf ⟨rfl, rfl, rfl⟩) ⟨rfl, rfl, rfl⟩⟩ rounds hn depth

/-- C132, if reads and ioctls fail, at any time, while the disks are opened or later (and there are no superblocks of
version 0.90 besides, to which the program would fall back): disks whose superblocks describe an array, with a
filesystem that holds what it declares, damaged in each sector on one disk at most.  Either some path is reported with
an error; or the program of C130 does not panic, and what it saves was written there. -/
theorem C132_failing {fs : Bytes → Except Nat OsFile} {paths : List Bytes} {L n c size : Nat} {file : Nat → OsFile}
    {sb : Nat → Mdp1} {place : Nat → Nat} {good : Nat → Disk} {content : Bytes}
    (h : MembersAt fs paths L n c size file sb place)
    (h0 : ∀ j, j < paths.length → ∀ off e, Place090 (file j).content.length off → ¬ V0At (file j).content off e)
    (hset : Raid6Set L n c size good content) (hdam : OneDamaged n size good fun d => asDisk (file (place d)))
    {alg : Raid6Algorithm} (hL : Raid6Algorithm.fromLayout L = some alg) (ht : TableChecked content)
    (hs : HoldsWhatItDeclares content) (s : System) (hi : s.nextId + paths.length < U64) :
    ∃ s' rs, openPaths fs paths s = (s', .ok rs) ∧
      ((∃ path ∈ paths, ∃ e, .error (path, e) ∈ rs) ∨
       ∃ devices : List (MdDevice NativeDev), rs = devices.map .ok ∧
        ∀ ord : IterOrder, ord.Valid → ∀ rounds depth,
          let r := (rescueTree (Reader.streamDev (MdArray.dev NativeDev.streamDev.toBlockDev)) rounds depth
            (Reader.new (MdArray.open ord devices)) s'.os).2
          (∃ y, r = .ok y ∧ Ext4Readable (sbOf content) ∧ RescuedFound content depth 2 y) ∨ ∃ e, r = .err e) := by
  obtain ⟨s', rs, hrun, -, ho⟩ := openPaths_spec True (fun _ => True) (fun _ _ _ _ => trivial)
    (fun _ _ _ _ => trivial) (fun _ _ _ _ => trivial) fs paths s trivial hi h.sane
  refine ⟨s', rs, hrun, ?_⟩
  have hlen : content.length < U64 := by
    rw [hset.length]
    exact hset.bytes_lt
  by_cases hne : (partitionResult rs).2 = []
  · right
    obtain ⟨h1, h2⟩ := h.opened ho hne
    refine ⟨(partitionResult rs).1, partitionResult_ok rs hne, fun ord hord rounds depth => ?_⟩
    have ha : DevSpec True (MdArray.dev NativeDev.streamDev.toBlockDev) (fun _ => True) (fun a k =>
        a = MdArray.open ord (partitionResult rs).1 ∧ k = ⟨512, size * (n - 2), content⟩) := by
      by_cases hm : ∃ d ∈ (partitionResult rs).1, d.superblock = .tooSmall ∨ d.superblock = .missing
      · exact disabled_devSpec NativeDev.streamDev.toBlockDev (fun _ => True) hord hm
          ⟨(by decide : 0 < 512), (by decide : 512 < U32), hset.length, hset.bytes_lt⟩ rfl
      · refine C100_array_device NativeDev.streamDevSpec_honest.toDev hord hL
          (h.readable hL h1 fun j hj => ⟨?_, (h2 j hj).1⟩) hset hdam
        rcases (h2 j hj).2 with h3 | ⟨-, h3 | h3⟩
        · exact h3
        · exact absurd ⟨_, List.getElem_mem hj, .inr h3⟩ hm
        · have hj' : j < paths.length := by omega
          exact (h.member j hj').genuine (h0 j hj') h3
    rcases C130_backed (Reader.volumeSpec ha ⟨512, size * (n - 2), content⟩) content hlen ht hs s'.os trivial
      (Reader.new (MdArray.open ord (partitionResult rs).1))
      ⟨rfl, 0, Reader.at_new (ha.wf ⟨rfl, rfl⟩) ⟨rfl, rfl⟩⟩ rounds depth with h | ⟨-, h⟩
    · exact .inl h
    · exact .inr h
  · left
    obtain ⟨⟨path, e⟩, he⟩ := List.exists_mem_of_ne_nil _ hne
    refine ⟨path, ho.errors_sublist.subset (List.mem_map_of_mem (f := (·.1)) he), e, ?_⟩
    exact mem_of_partitionResult he

theorem _root_.MdSpec.Ext4Openable.tableChecked {c : Bytes} (h : Ext4Openable c) (hl : c.length < U64) :
    TableChecked c :=
  .inr (by have := h.fits; omega)

/-! ### A case -/

section
open Fixture
omit [Build]

/-- Sector 5 has been overwritten. -/
def hitSector (l z : Bytes) : Bytes := l.take 2560 ++ (z ++ l.drop 3072)

theorem hitSector_length {l z : Bytes} (hl : l.length = 4608) (hz : z.length = 512) : (hitSector l z).length = 4608 := by
  simp only [hitSector, List.length_append, List.length_take, List.length_drop, hl, hz]
  rfl

theorem hitSector_get {l z : Bytes} (hl : l.length = 4608) (hz : z.length = 512) (i : Nat)
    (hi : i < 2560 ∨ 3072 ≤ i) : (hitSector l z)[i]? = l[i]? := by
  have h1 : (l.take 2560).length = 2560 := by rw [List.length_take, hl]; rfl
  rw [hitSector, List.getElem?_append, h1, List.getElem?_append, hz]
  rcases hi with hi | hi
  · rw [if_pos hi, List.getElem?_take, if_pos hi]
  · rw [if_neg (by omega), if_neg (by omega), List.getElem?_drop]
    rw [show 3072 + (i - 2560 - 512) = i by omega]

theorem hitSector_sector {l z : Bytes} (hl : l.length = 4608) (hz : z.length = 512) {n s : Nat} (hs : s ≠ 5) :
    (⟨512, n, hitSector l z⟩ : Disk).sector s = (⟨512, n, l⟩ : Disk).sector s := by
  unfold Disk.sector slice
  apply List.ext_getElem?
  intro i
  rw [List.getElem?_take, List.getElem?_take, List.getElem?_drop, List.getElem?_drop]
  split
  · rw [hitSector_get hl hz _ (by omega)]
  · rfl

/-- The disks of C124, with sector 5 of disk `e` overwritten by `z`. -/
def hurtData (e : Nat) (z : Bytes) (d : Nat) : Bytes := if d = e then hitSector (newData d) z else newData d

def hurtFs (e : Nat) (z : Bytes) : Bytes → Except Nat OsFile
  | [i] => .ok ⟨newCase.disk (hurtData e z i.toNat) i.toNat, some 512⟩
  | _ => .error 2

theorem newData_length (d : Nat) : (newData d).length = 4608 :=
  encodeMember_length (n := 4) (size := 9) (by decide) (by decide) ⟨9, rfl⟩ newVolume_length d

theorem hurt_given (e : Nat) {z : Bytes} (hz : z.length = 512) :
    newCase.GivenAt (hurtFs e z) [[2], [0], [3], [1]] [2, 0, 3, 1] (hurtData e z) (fun _ => 512) where
  fits := newCase_fits
  perm := by decide
  count := rfl
  at_path := by
    intro j path d hj hd
    have hlt : j < 4 := (List.getElem?_eq_some_iff.mp hj).1
    have : j = 0 ∨ j = 1 ∨ j = 2 ∨ j = 3 := by omega
    rcases this with rfl | rfl | rfl | rfl <;> cases hj <;> cases hd <;> rfl
  length d _ := by
    show (if d = e then _ else _ : Bytes).length = 4608
    split
    · exact hitSector_length (newData_length d) hz
    · exact newData_length d
  unmistakable d hd := by
    have h := newData_unmistakable d (List.mem_range.mpr hd)
    have ht : ∀ p, p < 2556 ∨ 3072 ≤ p → ((hurtData e z d).drop p).take 4 = ((newData d).drop p).take 4 := by
      intro p hp
      unfold hurtData
      split
      · apply List.ext_getElem?
        intro i
        rw [List.getElem?_take, List.getElem?_take, List.getElem?_drop, List.getElem?_drop]
        split
        · rw [hitSector_get (newData_length d) hz _ (by omega)]
        · rfl
      · rfl
    refine ⟨?_, ?_⟩
    · rw [ht 0 (by decide)]
      exact h.1
    · rw [ht 4096 (by decide)]
      exact h.2
  blocks _ _ := by decide

theorem hurt_set : Raid6Set newCase.layout newCase.members newCase.chunk newCase.size
    (fun d => ⟨512, newCase.size, newData d⟩) (Mkfs.volume 0 (sampleTree [1, 2, 3]) ++ []) := by
  refine encode_set (n := 4) (c := 1) (size := 9) (by decide) (by decide) (by decide) ⟨9, rfl⟩ (by decide)
    (by rw [List.append_nil]; exact newVolume_length) _ (fun d _ => ?_)
  rw [List.append_nil]
  exact List.prefix_rfl

theorem hurt_same {e : Nat} {z : Bytes} (hz : z.length = 512) {d s : Nat}
    (h : SectorDamaged (fun d => ⟨512, newCase.size, newData d⟩)
      (fun d => ⟨512, newCase.size, hurtData e z d⟩) d s) : d = e ∧ s = 5 := by
  by_cases hd : d = e
  · refine ⟨hd, Decidable.byContradiction fun hs => h ?_⟩
    show (⟨512, newCase.size, if d = e then hitSector (newData d) z else newData d⟩ : Disk).sector s = _
    rw [if_pos hd]
    exact hitSector_sector (newData_length d) hz hs
  · refine absurd ?_ h
    show (⟨512, newCase.size, if d = e then hitSector (newData d) z else newData d⟩ : Disk).sector s = _
    rw [if_neg hd]

theorem hurt_damaged (e : Nat) {z : Bytes} (hz : z.length = 512) : OneDamaged newCase.members newCase.size
    (fun d => ⟨512, newCase.size, newData d⟩) (fun d => ⟨512, newCase.size, hurtData e z d⟩) :=
  ⟨fun d hd => le_of_eq ((hurt_given e hz).length d hd).symm,
    fun _ _ _ _ _ _ h h' => (hurt_same hz h).1.trans (hurt_same hz h').1.symm⟩

/-- C132: sector 5 of any one disk is overwritten by anything.  No complaint; and as it belongs to the second block of
the root directory, the file "g" in the directory "d", whose entry is in the first, is saved. -/
theorem C132_case [Build] (e : Nat) (z : Bytes) (hz : z.length = 512) :
    (∀ {ord ord' : IterOrder}, ord.Valid → ord'.Valid →
      ∃ s' d, mainProgram ord ord' (hurtFs e z) [[2], [0], [3], [1]] quiet = (s', .ok (.diagnosis d)) ∧ Clean d) ∧
    ∃ N s' devices, openPaths (hurtFs e z) [[2], [0], [3], [1]] quiet = (s', .ok (devices.map .ok)) ∧
      ∀ ord : IterOrder, ord.Valid → ∀ rounds, N ≤ rounds →
        ∃ y, (rescueTree (Reader.streamDev (MdArray.dev NativeDev.streamDev.toBlockDev)) rounds 4
          (Reader.new (MdArray.open ord devices)) s'.os).2 = .ok y ∧
        ∃ all, rescuedAt y [[100], [103]] = some (.file [1, 2, 3] all) := by
  have hgiven := hurt_given e hz
  refine ⟨fun hord hord' => C132_diagnosis hgiven hord hord' quiet quiet_noFailures (by decide), ?_⟩
  have hf := sampleTree_fits [1, 2, 3] (by decide)
  have hset := hurt_set
  have hsame := fun d s => @hurt_same e z hz d s
  have hdam := hurt_damaged e hz
  have hbad : ∀ x, Affected newCase.layout newCase.members newCase.chunk (fun d => ⟨512, newCase.size, newData d⟩)
      (fun d => ⟨512, newCase.size, hurtData e z d⟩) (x / 512) → x / 512 / 2 = 5 := by
    rintro x ⟨row, d, role, -, -, -, h⟩
    have := (hsame _ _ h).2
    change x / 512 / 1 / 2 * 1 + x / 512 % 1 = 5 at this
    omega
  have hbs : bs 0 = 1024 := rfl
  have s0 : start 0 (sampleTree [1, 2, 3]) 0 = 4 := by decide +kernel
  have s1 : start 0 (sampleTree [1, 2, 3]) 1 = 6 := by decide +kernel
  have s2 : start 0 (sampleTree [1, 2, 3]) 2 = 8 := by decide +kernel
  have way : ∀ bad : Nat → Prop, (∀ x, bad x → x / 512 / 2 = 5) →
      WayClear bad 0 (sampleTree [1, 2, 3]) 0 [[100], [103]] 2 := by
    intro bad h
    refine ⟨[], ([100], 1), [([102], 2)], rfl, rfl, fun _ h => (by cases h), fun x g1 g2 g3 => ?_,
      [], ([103], 2), [([117, 112], 0)], rfl, rfl, fun _ h => (by cases h), fun x g1 g2 g3 => ?_, rfl⟩
    · have g1 : start 0 (sampleTree [1, 2, 3]) 0 * bs 0 ≤ x := g1
      have g2 : x < (start 0 (sampleTree [1, 2, 3]) 0 + (0 + 1)) * bs 0 := g2
      rw [s0, hbs] at g1 g2
      have := h x g3
      omega
    · dsimp only at g1 g2
      rw [s1, hbs] at g1 g2
      have := h x g3
      omega
  obtain ⟨N, hN⟩ := C132_disks 0 _ hf [] (by
    rw [List.append_nil]
    show newVolume.length < _
    rw [newVolume_length]
    decide) [([[100], [103]], 2)] (by
      intro p hp
      simp only [List.mem_cons, List.not_mem_nil, or_false] at hp
      subst hp
      exact ⟨way _ fun _ h => h.elim, .inl ⟨_, rfl⟩, by decide⟩)
  obtain ⟨s', devices, h1, h2⟩ := hN hgiven hset (fun d _ => newData_length d) hdam rfl (by
    intro x hx h
    have := hbad x h
    have hx : x < start 0 (sampleTree [1, 2, 3]) 0 * bs 0 := hx
    rw [s0, hbs] at hx
    omega) quiet quiet_noFailures (by decide)
  refine ⟨N, s', devices, h1, fun ord hord rounds hr => ?_⟩
  obtain ⟨y, g1, g2⟩ := h2 ord hord rounds hr 4
  refine ⟨y, g1, ?_⟩
  have r := g2 _ List.mem_cons_self (way _ hbad) (by decide)
  match hz : rescuedAt y [[100], [103]], r with
  | some (.file q all), ⟨c, a1, a2, _, a4⟩ =>
    cases a1
    have := a4 1 (by
      intro x i1 i2 i3
      have := hbad x i3
      dsimp only at i1
      rw [s2, hbs] at i1
      omega)
    have e : q = [1, 2, 3] := (List.IsPrefix.eq_of_length_le this a2.length_le).symm
    exact ⟨all, by rw [e]⟩
  | some (.dir ys all), ⟨c, a1, _⟩ => cases a1

/-- C132, the same disks, read by a system that may fail at any time. -/
theorem C132_failing_case [Build] (e : Nat) (z : Bytes) (hz : z.length = 512) (s : System) (hs : s.nextId = 0) :
    ∃ s' rs, openPaths (hurtFs e z) [[2], [0], [3], [1]] s = (s', .ok rs) ∧
      ((∃ path ∈ [[2], [0], [3], [1]], ∃ e, .error (path, e) ∈ rs) ∨
       ∃ devices : List (MdDevice NativeDev), rs = devices.map .ok ∧
        ∀ ord : IterOrder, ord.Valid → ∀ rounds depth,
          let r := (rescueTree (Reader.streamDev (MdArray.dev NativeDev.streamDev.toBlockDev)) rounds depth
            (Reader.new (MdArray.open ord devices)) s'.os).2
          (∃ y, r = .ok y ∧ Ext4Readable (sbOf (Mkfs.volume 0 (sampleTree [1, 2, 3]) ++ [])) ∧
            RescuedFound (Mkfs.volume 0 (sampleTree [1, 2, 3]) ++ []) depth 2 y) ∨ ∃ e, r = .err e) := by
  have hgiven := hurt_given e hz
  obtain ⟨before, hset, hdam, -⟩ := damaged_disks hgiven hurt_set (fun d _ => newData_length d) (hurt_damaged e hz)
  have hf := sampleTree_fits [1, 2, 3] (by decide)
  have hop := MkfsLemmas.openable_volume (tail := []) rfl hf
  refine C132_failing (C124_members hgiven).1 (fun j hj off _ hp _ => ?_) hset hdam rfl
    (hop.tableChecked (lt_of_eq_of_lt hset.length hset.bytes_lt)) (MkfsLemmas.holds_volume rfl hf).1 s (by rw [hs]; decide)
  have hd := (hgiven.place hj).2
  have h1 := hgiven.length _ hd
  have h2 := Mdp1.length_encode (Created.superblock_wf newCase_fits hd)
  have h3 : (newCase.disk (hurtData e z ([2, 0, 3, 1].getD j 0)) ([2, 0, 3, 1].getD j 0)).length = 24576 := by
    unfold NewArray.disk
    rw [List.length_append, List.length_append, List.length_append, h1, h2, zeros_len, zeros_len]
    rfl
  have hp : Place090 (newCase.disk (hurtData e z ([2, 0, 3, 1].getD j 0)) ([2, 0, 3, 1].getD j 0)).length off := hp
  rw [h3] at hp
  have := hp.2.1
  omega

end
end
end MdRecover
