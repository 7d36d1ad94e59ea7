import Verif.Spec.AnyVersion
import Verif.Props.AnyMembers

/-! C114: from the disks to the files, with superblocks of any version 1 and any data offset. -/

namespace MdRecover
open MdSpec

section
variable {fs : Bytes → Except Nat OsFile} {paths : List Bytes} {alg : Raid6Algorithm} {L n c size : Nat}
  {file : Nat → OsFile} {sb : Nat → Superblock} {place : Nat → Nat}

theorem _root_.MdSpec.MembersFound.nonempty (h : MembersFound fs paths alg n c size file sb place) :
    0 < paths.length := by
  have := (h.placed 0 h.numbers.1).1
  omega

theorem _root_.MdSpec.MembersFound.sane (h : MembersFound fs paths alg n c size file sb place) :
    ∀ path ∈ paths, ∀ f, fs path = .ok f → Sane f := by
  intro path hp f hf bs' hbs'
  obtain ⟨j, hj, rfl⟩ := List.mem_iff_getElem.mp hp
  rw [h.at_path j _ (List.getElem?_eq_getElem hj)] at hf
  cases hf
  obtain ⟨bs, h1, h2, h3, h4⟩ := h.device j hj
  rw [h1] at hbs'
  cases hbs'
  exact ⟨h2, h3, h4⟩

theorem _root_.MdSpec.MembersFound.usable (h : MembersFound fs paths alg n c size file sb place) :
    ∀ path ∈ paths, unusable fs path = none := by
  intro path hp
  obtain ⟨j, hj, rfl⟩ := List.mem_iff_getElem.mp hp
  obtain ⟨bs, h1, -⟩ := h.device j hj
  simp [unusable, h.at_path j _ (List.getElem?_eq_getElem hj), h1]

/-- Devices on which the superblocks were found make up the array. -/
theorem _root_.MdSpec.MembersFound.readable (h : MembersFound fs paths alg n c size file sb place)
    {devices : List (MdDevice NativeDev)} (hlen : devices.length = paths.length)
    (hdev : ∀ j (hj : j < devices.length), devices[j].superblock = .superblock (sb j) ∧
      NativeDev.IsDisk devices[j].device (asDisk (file j))) :
    ReadableSet NativeDev.IsDisk alg n c size (fun d => asDisk (file (place d))) devices := by
  have hpos := h.nonempty
  have htab : ∀ x ∈ devices, ∃ s, x.superblock = .superblock s ∧ s.deviceRoles = (sb 0).deviceRoles := by
    intro x hx
    obtain ⟨j, hj, rfl⟩ := List.mem_iff_getElem.mp hx
    exact ⟨_, (hdev j hj).1, h.roles j 0 (by omega) hpos⟩
  have hcl : ∀ j (hj : j < devices.length) d, Claims devices devices[j] d ↔
      (sb j).deviceRoles[(sb j).deviceRoleIndex]? = some ⟨d⟩ ∧ d ≤ 0xfeff := by
    intro j hj d
    rw [claims_of_same_table htab (List.getElem_mem hj) (hdev j hj).1, h.roles j 0 (by omega) hpos]
  refine ⟨fun x hx => ?_, ⟨?_, fun x hx => ?_⟩, fun d hd => ?_⟩
  · obtain ⟨j, hj, rfl⟩ := List.mem_iff_getElem.mp hx
    exact ⟨_, (hdev j hj).2⟩
  · intro he
    rw [he] at hlen
    simp only [List.length_nil] at hlen
    omega
  · obtain ⟨j, hj, rfl⟩ := List.mem_iff_getElem.mp hx
    obtain ⟨g1, g2, g3, g4, g5⟩ := h.geometry j (by omega)
    exact ⟨_, (hdev j hj).1, g1, g2, g3, g4, g5⟩
  · obtain ⟨hp, hr⟩ := h.placed d hd
    have hp' : place d < devices.length := by omega
    have hn := h.numbers.2
    refine ⟨devices[place d], ⟨devices.take (place d), devices.drop (place d + 1), ?_,
      (hcl _ hp' d).mpr ⟨hr, by omega⟩, fun y hy hc => ?_⟩, (hdev _ hp').2⟩
    · rw [List.getElem_cons_drop, List.take_append_drop]
    · have key : ∃ (j : Nat) (hj : j < devices.length), j ≠ place d ∧ devices[j] = y := by
        rcases List.mem_append.mp hy with hy | hy
        · obtain ⟨j, hj, e⟩ := List.mem_take_iff_getElem.mp hy
          exact ⟨j, by omega, by omega, e⟩
        · obtain ⟨j, hj, e⟩ := List.mem_drop_iff_getElem.mp hy
          exact ⟨j + (place d + 1), by omega, by omega, by rw [← e]; congr 1; omega⟩
      obtain ⟨j, hj, hne, rfl⟩ := key
      exact hne (h.sole j d (by omega) hd ((hcl j hj d).mp hc).1)

/-- All devices are opened, and make up the array. -/
theorem opened_found (h : MembersFound fs paths alg n c size file sb place) (s : System)
    (hos : NativeDev.NoFailures s.os) (hi : s.nextId + paths.length < U64) :
    ∃ s' devices, openPaths fs paths s = (s', .ok (devices.map .ok)) ∧ NativeDev.NoFailures s'.os ∧
      ReadableSet NativeDev.IsDisk alg n c size (fun d => asDisk (file (place d))) devices := by
  obtain ⟨s', rs, hrun, hG, ho⟩ := openPaths_spec False NativeDev.NoFailures
    (fun _ _ h hl => ⟨fun c hc => h.1 c (hl.1 hc), fun c hc => h.2 c (hl.2 hc)⟩)
    (fun _ c h hc => h.1 c hc) (fun _ c h hc => h.2 c hc) fs paths s hos hi h.sane
  have hne : (partitionResult rs).2 = [] := by
    rw [ho.errors_eq, List.filterMap_eq_nil_iff]
    intro path hp
    rw [complaint, h.usable path hp]
    rfl
  obtain ⟨h1, h2⟩ := ho.opened hne
  refine ⟨s', (partitionResult rs).1, by rw [← partitionResult_ok rs hne]; exact hrun, hG,
    h.readable h1 fun j hj => ?_⟩
  have hj' : j < paths.length := by omega
  obtain ⟨m, g1, ⟨f, hf, -, hd, hc⟩, -⟩ := h2 j _ (List.getElem?_eq_getElem hj')
  rw [h.at_path j _ (List.getElem?_eq_getElem hj')] at hf
  cases hf
  rw [List.getElem?_eq_getElem hj] at g1
  cases g1
  rcases hc with hc | ⟨h, -⟩
  · exact ⟨C36_expected_unique hc (h.found j hj'), hd⟩
  · exact h.elim

/-- C114, what is read: all disks are opened, and whatever data offsets their superblocks give, the array is that of
their sectors counted from the first of each disk: it has the content in the places for data (C113), its sectors can
be read where P agrees, and what a program does with the filesystem gives the same results as on a plain device with
this content, up to the first error. -/
theorem C114_read [Build] (h : MembersFound fs paths alg n c size file sb place)
    (hL : Raid6Algorithm.fromLayout L = some alg) {content : Bytes}
    (hset : Raid6Members L n c size (fun d => asDisk (file (place d))) content)
    (s : System) (hos : NativeDev.NoFailures s.os) (hi : s.nextId + paths.length < U64) :
    ∃ s' devices, openPaths fs paths s = (s', .ok (devices.map .ok)) ∧
      ∀ ord : IterOrder, ord.Valid →
        (∀ b, b < size * (n - 2) → ∀ buf : Bytes, buf.length = 512 →
          let r := ((MdArray.dev NativeDev.streamDev.toBlockDev).readBlock b buf
            (s'.os, MdArray.open ord devices)).2
          (StripeSound L n c (fun d => asDisk (file (place d))) b →
            r = .ok (512, (content.drop (b * 512)).take 512)) ∧
          (¬ StripeSound L n c (fun d => asDisk (file (place d))) b → r = .err .invalidData)) ∧
        ∀ ops : List (Nat × SessionCall), (∀ x ∈ ops, x.2.wellTyped) →
          let seen := sessionRun (Reader.streamDev (MdArray.dev NativeDev.streamDev.toBlockDev))
            (s'.os, [.device (Reader.new (MdArray.open ord devices))]) ops
          let plain := sessionRun InMemory.streamDev ((), [.device (InMemory.new content 512)]) ops
          seen = plain ∨ ∃ k e, seen.take k = plain.take k ∧ seen[k]? = some (.error e) := by
  obtain ⟨s', devices, h1, hG, hr⟩ := opened_found h s hos hi
  exact ⟨s', devices, h1, fun ord hord => ⟨fun b hb buf hl =>
    C113_sectors NativeDev.streamDevSpec_reliable.toDev hord hL hr hset s'.os hG b hb buf hl,
    fun ops hops => C113_ext4 NativeDev.streamDevSpec_reliable.toDev hord hL hr hset s'.os hG ops hops⟩⟩

/-- C114, the array that is read right: if the members hold an array from their first sectors on, a program sees its
content (C89 for all versions). -/
theorem C114_right [Build] (h : MembersFound fs paths alg n c size file sb place)
    (hL : Raid6Algorithm.fromLayout L = some alg) {content : Bytes}
    (hset : Raid6Set L n c size (fun d => asDisk (file (place d))) content)
    (s : System) (hos : NativeDev.NoFailures s.os) (hi : s.nextId + paths.length < U64) :
    ∃ s' devices, openPaths fs paths s = (s', .ok (devices.map .ok)) ∧
      ∀ ord : IterOrder, ord.Valid → ∀ ops : List (Nat × SessionCall), (∀ x ∈ ops, x.2.wellTyped) →
        sessionRun (Reader.streamDev (MdArray.dev NativeDev.streamDev.toBlockDev))
            (s'.os, [.device (Reader.new (MdArray.open ord devices))]) ops =
          sessionRun InMemory.streamDev ((), [.device (InMemory.new content 512)]) ops := by
  obtain ⟨s', devices, h1, hG, hr⟩ := opened_found h s hos hi
  exact ⟨s', devices, h1, fun ord hord ops hops =>
    C77_ext4_on_array NativeDev.streamDevSpec_reliable.toDev hord hL hr hset s'.os hG ops hops⟩

end

/-! ## Superblocks of version 1 -/

/-- The superblock found on a member. -/
def foundV1 (m : Mdp1) (minor : Nat) : Superblock := (SuperblockV1.mk m.encode minor).toSuperblock

theorem v1At_encode {content : Bytes} {m : Mdp1} (hw : m.Wf) (hm : m.magic = 0xa92b4efc) (hv : m.major_version = 1)
    {off : Nat} (hs : slice content off 4096 = m.encode) : V1At content off := by
  have h1 : ∀ a k, a + k ≤ 4096 → slice content (off + a) k = slice m.encode a k := by
    intro a k hak
    rw [← hs]
    unfold slice
    rw [List.drop_take, List.drop_drop, List.take_take]
    congr 1
    omega
  refine ⟨?_, ?_⟩
  · have := h1 0 4 (by omega)
    rw [Nat.add_zero] at this
    rw [this, Mdp1.slice_magic hw, leNat_leBytes hw.magic, hm]
  · rw [h1 4 4 (by omega), Mdp1.slice_major_version hw, leNat_leBytes hw.major_version, hv]

theorem _root_.MdSpec.MemberV1.whole {f : OsFile} {m : Mdp1} {minor : Nat} (h : MemberV1 f m minor) :
    wholeBlocks f = f.content := by
  obtain ⟨bs, hp, h0, -, hd⟩ := h.blocks
  simp only [wholeBlocks, hp]
  rw [Nat.div_mul_cancel hd, List.take_length]

theorem _root_.MdSpec.MemberV1.expected {f : OsFile} {m : Mdp1} {minor : Nat} (h : MemberV1 f m minor) :
    Expected f.content (.superblock (foundV1 m minor)) := by
  have hv : ∀ {off}, slice f.content off 4096 = m.encode → V1At f.content off :=
    fun hs => v1At_encode h.wf h.magic h.version hs
  have hst := h.stored
  cases hst with
  | v12 hs =>
    have := Expected.v12 h.size.1 (hv hs)
    rwa [v1Result, hs] at this
  | v11 h2 hs =>
    have := Expected.v11 h.size.1 h2 (hv hs)
    rwa [v1Result, hs] at this
  | v10 h2 h1 hp hs =>
    have := Expected.v10 h.size.1 h2 h1 hp (hv hs)
    rwa [v1Result, hs] at this

/-- What the fields of the found superblocks are. -/
theorem foundV1_fields {m : Mdp1} (h : m.Wf) (minor : Nat) :
    (foundV1 m minor).arrayUuid = .long m.set_uuid ∧ (foundV1 m minor).arrayName = some m.set_name ∧
    (foundV1 m minor).algorithm = MdAlgorithm.fromLevelAndLayout m.level m.layout ∧
    (foundV1 m minor).sectorsPerDevice = m.size ∧ (foundV1 m minor).chunkSize = m.chunksize ∧
    (foundV1 m minor).raidDeviceCount = m.raid_disks ∧
    (m.feature_map / 4 % 2 = 0 → (foundV1 m minor).reshapeStatus = none) ∧
    (foundV1 m minor).deviceRoleIndex = m.dev_number ∧ (foundV1 m minor).eventCount = m.events ∧
    (foundV1 m minor).deviceRoles = (roleTable m).map Role.mk ∧
    (foundV1 m minor).dataOffset = m.data_offset ∧ (foundV1 m minor).minorVersion = minor := by
  obtain ⟨-, -, h12, h1, h2, h3, h4, h5, h6, h7, h11, h8, h9, h10, -⟩ := C38_round_trip m h minor
  refine ⟨h1, h2, h3, h4, h5, h6, fun hf => ?_, h8, h9, h10, h11, h12⟩
  refine Eq.trans h7 (if_neg ?_)
  omega

section
variable {fs : Bytes → Except Nat OsFile} {paths : List Bytes} {alg : Raid6Algorithm} {L n c size : Nat}
  {file : Nat → OsFile} {sb : Nat → Mdp1} {minor place : Nat → Nat}

/-- C114, superblocks of version 1.0, 1.1 and 1.2, also mixed, with any data offsets, meet the hypotheses of the
theorems above. -/
theorem C114_stored (h : MembersV1 fs paths L n c size file sb minor place)
    (hL : Raid6Algorithm.fromLayout L = some alg) :
    MembersFound fs paths alg n c size file (fun j => foundV1 (sb j) (minor j)) place where
  at_path := h.at_path
  device := fun j hj => by
    obtain ⟨bs, h1, h2, h3, -⟩ := (h.member j hj).blocks
    exact ⟨bs, h1, h2, h3, (h.member j hj).size.2⟩
  found := fun j hj => by
    rw [(h.member j hj).whole]
    exact (h.member j hj).expected
  geometry := fun j hj => by
    obtain ⟨-, -, h3, h4, h5, h6, h7, -⟩ := foundV1_fields (h.member j hj).wf (minor j)
    obtain ⟨g1, g2, g3, g4, g5, g6⟩ := h.geometry j hj
    refine ⟨?_, h6.trans g3, h4.trans g4, h5.trans g5, h7 g6⟩
    rw [h3, g1, g2]
    simp only [MdAlgorithm.fromLevelAndLayout, hL]
    rfl
  roles := fun i j hi hj => by
    obtain ⟨-, -, -, -, -, -, -, -, -, a, -⟩ := foundV1_fields (h.member i hi).wf (minor i)
    obtain ⟨-, -, -, -, -, -, -, -, -, b, -⟩ := foundV1_fields (h.member j hj).wf (minor j)
    rw [a, b, h.roles i j hi hj]
  placed := fun d hd => by
    obtain ⟨hp, hr⟩ := h.placed d hd
    obtain ⟨-, -, -, -, -, -, -, a, -, b, -⟩ := foundV1_fields (h.member _ hp).wf (minor (place d))
    refine ⟨hp, ?_⟩
    rw [a, b, List.getElem?_map, hr]
    rfl
  sole := fun j d hj hd hr => by
    obtain ⟨-, -, -, -, -, -, -, a, -, b, -⟩ := foundV1_fields (h.member _ hj).wf (minor j)
    rw [a, b, List.getElem?_map, Option.map_eq_some_iff] at hr
    obtain ⟨x, hx, he⟩ := hr
    refine h.sole j d hj hd ?_
    rw [hx]
    exact congrArg (fun r : Role => some r.val) he
  numbers := h.numbers

/-- C114, the report: if, moreover, the superblocks agree in the rest, the program prints a diagnosis without complaint,
whatever the data offsets and the minor versions. -/
theorem C114_clean (h : MembersV1 fs paths L n c size file sb minor place)
    (hL : Raid6Algorithm.fromLayout L = some alg) (hs : InStep paths sb)
    {ord ord' : IterOrder} (hord : ord.Valid) (hord' : ord'.Valid) (s : System)
    (hos : NativeDev.NoFailures s.os) (hi : s.nextId + paths.length < U64) :
    ∃ s' d, mainProgram ord ord' fs paths s = (s', .ok (.diagnosis d)) ∧ Clean d := by
  have hf := C114_stored h hL
  refine (C87_clean_iff hord hord' fs paths s hos hi hf.sane).mpr
    ⟨hf.usable, fun j => foundV1 (sb j) (minor j), ⟨fun j path f hj hfs => ?_, fun i j hi hj => ?_,
      fun i j hi hj he => ?_⟩⟩
  · rw [h.at_path j path hj] at hfs
    cases hfs
    exact hf.found j (List.getElem?_eq_some_iff.mp hj).1
  · obtain ⟨a1, a2, a3, a4, a5, a6, a7, a8, a9, a10, -⟩ := foundV1_fields (h.member i hi).wf (minor i)
    obtain ⟨b1, b2, b3, b4, b5, b6, b7, b8, b9, b10, -⟩ := foundV1_fields (h.member j hj).wf (minor j)
    obtain ⟨g1, g2, g3, g4, g5, g6⟩ := h.geometry i hi
    obtain ⟨k1, k2, k3, k4, k5, k6⟩ := h.geometry j hj
    constructor
    · rw [a1, b1, hs.uuid i j hi hj]
    · intro a b ha hb
      rw [a2] at ha
      rw [b2] at hb
      cases ha
      cases hb
      exact hs.name i j hi hj
    · rw [a3, b3, g1, g2, k1, k2]
    · rw [a4, b4, g4, k4]
    · rw [a5, b5, g5, k5]
    · rw [a6, b6, g3, k3]
    · rw [a7 g6, b7 k6]
    · rw [a9, b9, hs.events i j hi hj]
    · rw [a10, b10, h.roles i j hi hj]
  · obtain ⟨-, -, -, -, -, -, -, a8, -⟩ := foundV1_fields (h.member i hi).wf (minor i)
    obtain ⟨-, -, -, -, -, -, -, b8, -⟩ := foundV1_fields (h.member j hj).wf (minor j)
    rw [a8, b8] at he
    exact hs.distinct i j hi hj he

end

/-! ## Filesystems that cannot be opened -/

section
variable {W D : Type} {F : Prop} {dev : StreamDev W D} {G : W → Prop} {Is : D → Bytes → Prop}
  {At : W → D → Nat → Prop}

/-- Opening a volume with another magic number in the place of that of ext4 fails, however the code is built. -/
theorem open_no_magic [Build] (hv : VolumeSpec F dev G Is At) {c : Bytes} {w : W} {d : D} (hG : G w) (hI : Is d c)
    (hm : le c 1080 2 ≠ 0xef53) : ∃ w' e, Ext4Fs.open dev d w = (w', .err e) := by
  have hbody : ∃ s e, Ext4Fs.openBody dev (w, d) = (s, .err e) := by
    unfold Ext4Fs.openBody
    rcases hs : dev.seek (.start 1024) (w, d) with ⟨⟨w1, d1⟩, r1⟩
    obtain ⟨hG1, hI1, h1⟩ := hv.seek hG hI 1024 (by omega) hs
    rcases h1 with ⟨q, rfl, hA1, hq1, hq2⟩ | ⟨h1, e, rfl⟩
    rotate_left
    · exact ⟨_, e, SM.bind_err (h := hs) _⟩
    rw [SM.bind_ok (h := hs)]
    obtain ⟨w2, d2, r2, h2, hG2, hI2, h3⟩ := Ext4Fs.sb_read_spec hv hG1 hI1 hA1
    rcases h3 with ⟨h3, e, rfl⟩ | ⟨hp, hok, rfl⟩
    · exact ⟨_, e, SM.bind_err (h := h2) _⟩
    have hq : q = 1024 := by
      by_contra hne
      have : ¬ 1024 ≤ c.length := fun h => hne (hq1 h)
      have := hq2 (by omega)
      omega
    subst hq
    refine absurd (Eq.trans ?_ hok.magic) hm
    unfold le slice
    rw [List.drop_take, List.drop_drop, List.take_take]
    rfl
  obtain ⟨s, e, hb⟩ := hbody
  unfold Ext4Fs.open SM.withLocal
  rw [SM.bind_err (h := hb)]
  exact ⟨_, e, rfl⟩

end

section
variable {fs : Bytes → Except Nat OsFile} {paths : List Bytes} {alg : Raid6Algorithm} {L n c size : Nat}
  {file : Nat → OsFile} {place : Nat → Nat}

/-- In arrays with chunks of at least 3 sectors, the place of the magic number of an ext4 filesystem is on one of the
members, at the same distance from its first sector. -/
theorem magic_place {members : Nat → Disk} {content : Bytes} (hset : Raid6Members L n c size members content)
    (hL : Raid6Algorithm.fromLayout L = some alg) (hc : 3 ≤ c) (hsize : 0 < size) :
    ∃ d, d < n ∧ le content 1080 2 = le (members d).content 1080 2 := by
  have hn := hset.devices
  obtain ⟨row, hrow, -, -, hD⟩ := raid6Row_get (s := 2 / c / (n - 2)) hn hL
  have hcs : c ≤ size := Nat.le_of_dvd hsize hset.whole_chunks
  have h0 : 2 / c = 0 := Nat.div_eq_of_lt (by omega)
  have hi : 2 / c % (n - 2) < n - 2 := Nat.mod_lt _ (by omega)
  have h2 : 2 < size * (n - 2) := Nat.lt_of_lt_of_le (by omega) (Nat.le_mul_of_pos_right _ (by omega))
  have he := hset.data 2 h2 row _ hrow (hD _ hi)
  refine ⟨alg.dataOf n (2 / c / (n - 2)) (2 / c % (n - 2)), alg.dataOf_lt hn hi, ?_⟩
  have hs : 2 / c / (n - 2) * c + 2 % c = 2 := by
    rw [h0, Nat.zero_div, Nat.zero_mul, Nat.zero_add, Nat.mod_eq_of_lt (by omega)]
  rw [hs] at he
  have key : ∀ x : Bytes, le x 1080 2 = leNat (slice (slice x (2 * 512) 512) 56 2) := by
    intro x
    unfold le slice
    rw [List.drop_take, List.drop_drop, List.take_take]
    rfl
  rw [key, key, he]
  rfl

/-- C114, arrays that cannot be read: if no member has the magic number of ext4 at 1080 bytes from its own beginning,
the filesystem on the array is refused, whatever is in the data areas that its superblocks point to. -/
theorem C114_refused [Build] {sb : Nat → Superblock} (h : MembersFound fs paths alg n c size file sb place)
    (hL : Raid6Algorithm.fromLayout L = some alg) (hn : 3 ≤ n) (hc : 3 ≤ c) (hdvd : c ∣ size) (hpos : 0 < size)
    (hbytes : size * (n - 2) * 512 < U64)
    (hsize : ∀ d, d < n → size * 512 ≤ (asDisk (file (place d))).content.length)
    (hmagic : ∀ j, j < paths.length → le (wholeBlocks (file j)) 1080 2 ≠ 0xef53)
    (s : System) (hos : NativeDev.NoFailures s.os) (hi : s.nextId + paths.length < U64) :
    ∃ s' devices, openPaths fs paths s = (s', .ok (devices.map .ok)) ∧
      ∀ ord : IterOrder, ord.Valid → ∃ w e,
        Ext4Fs.open (Reader.streamDev (MdArray.dev NativeDev.streamDev.toBlockDev))
          (Reader.new (MdArray.open ord devices)) s'.os = (w, .err e) := by
  obtain ⟨s', devices, h1, hG, hr⟩ := opened_found h s hos hi
  have hn' : n < U32 := Nat.lt_of_le_of_lt h.numbers.2 (by decide)
  obtain ⟨content, hset, -⟩ := C113_content hL hn hn' (by omega) hdvd hbytes hsize
  refine ⟨s', devices, h1, fun ord hord => ?_⟩
  have ha := C113_array_device NativeDev.streamDevSpec_reliable.toDev hord hL hr hset
  obtain ⟨d, hd, he⟩ := magic_place hset hL hc hpos
  refine open_no_magic (Reader.seekableVolume ha ⟨512, size * (n - 2), content⟩).toVolumeSpec hG
    ⟨rfl, 0, Reader.at_new (ha.wf ⟨rfl, rfl⟩) ⟨rfl, rfl⟩⟩ ?_
  rw [he]
  exact hmagic _ (h.placed d hd).1

/-- The bytes of role `i` of a superblock. -/
theorem Mdp1.le_role {m : Mdp1} (h : m.Wf) {i r : Nat} (hr : m.dev_roles[i]? = some r) :
    le m.encode (256 + 2 * i) 2 = r := by
  have hlt := h.roles r (List.mem_of_getElem? hr)
  unfold le
  rw [← List.drop_drop, Mdp1.drop_roles h]
  have := slice_flatten_const (bs := 2) (m.dev_roles.map (leBytes 2)) (fun x hx => by
    obtain ⟨y, -, rfl⟩ := List.mem_map.mp hx
    exact leBytes_length _ _) i (leBytes 2 r) (by rw [List.getElem?_map, hr]; rfl)
  unfold slice at this
  rw [Nat.mul_comm, this, leNat_leBytes hlt]

/-- C114, version 1.1: the superblocks are at the beginning of the disks, where the code looks for the array.  If their
role number 412 is not 0xef53 (61267; superblocks of arrays of fewer devices have 0xffff or 0xfffe here), an ext4
filesystem is refused on every such array with chunks of at least 3 sectors. -/
theorem C114_version11 [Build] {sb : Nat → Mdp1} (h : MembersV1 fs paths L n c size file sb (fun _ => 1) place)
    (hL : Raid6Algorithm.fromLayout L = some alg) (hn : 3 ≤ n) (hc : 3 ≤ c) (hdvd : c ∣ size) (hpos : 0 < size)
    (hbytes : size * (n - 2) * 512 < U64)
    (hsize : ∀ d, d < n → size * 512 ≤ (file (place d)).content.length)
    (hrole : ∀ j, j < paths.length → (sb j).dev_roles[412]? ≠ some 0xef53)
    (s : System) (hos : NativeDev.NoFailures s.os) (hi : s.nextId + paths.length < U64) :
    ∃ s' devices, openPaths fs paths s = (s', .ok (devices.map .ok)) ∧
      ∀ ord : IterOrder, ord.Valid → ∃ w e,
        Ext4Fs.open (Reader.streamDev (MdArray.dev NativeDev.streamDev.toBlockDev))
          (Reader.new (MdArray.open ord devices)) s'.os = (w, .err e) := by
  refine C114_refused (C114_stored h hL) hL hn hc hdvd hpos hbytes (fun d hd => ?_) (fun j hj hm => ?_) s hos hi
  · show _ ≤ (wholeBlocks (file (place d))).length
    rw [(h.member _ (h.placed d hd).1).whole]
    exact hsize d hd
  · have hmem := h.member j hj
    have hst := hmem.stored
    rw [hmem.whole] at hm
    generalize hk : (1 : Nat) = k at hst
    cases hst with
    | v12 => omega
    | v10 => omega
    | v11 _ hs =>
      have hlt : 412 < (sb j).dev_roles.length := by rw [hmem.wf.roles_length]; decide
      refine hrole j hj ?_
      rw [List.getElem?_eq_getElem hlt, ← hm]
      have h1 := Mdp1.le_role hmem.wf (List.getElem?_eq_getElem hlt)
      rw [← h1, ← hs]
      unfold le slice
      rw [List.drop_zero, List.drop_take, List.take_take]
      rfl

end

/-! ## Cases -/

/-- The arrays of C89 are among those of C114. -/
theorem _root_.MdSpec.MembersAt.anyVersion {fs : Bytes → Except Nat OsFile} {paths : List Bytes} {L n c size : Nat}
    {file : Nat → OsFile} {sb : Nat → Mdp1} {place : Nat → Nat} (h : MembersAt fs paths L n c size file sb place) :
    MembersV1 fs paths L n c size file sb (fun _ => 0) place where
  at_path := h.at_path
  member := fun j hj => by
    have hm := h.member j hj
    obtain ⟨off, hp, hs⟩ := hm.stored
    exact ⟨hm.blocks, hm.size, hm.wf, hm.magic, hm.version, .v10 hm.only.1 hm.only.2 hp hs⟩
  geometry := fun j hj => by
    obtain ⟨g1, g2, g3, g4, g5, g6, -⟩ := h.geometry j hj
    exact ⟨g1, g2, g3, g4, g5, g6⟩
  roles := h.roles
  placed := h.placed
  sole := h.sole
  numbers := h.numbers

/-- C114, an array that is read right. -/
theorem C114_right_case [Build] : ∃ s' devices, openPaths caseFs casePaths Fixture.quiet = (s', .ok (devices.map .ok)) ∧
    ∀ ord : IterOrder, ord.Valid → ∀ ops : List (Nat × SessionCall), (∀ x ∈ ops, x.2.wellTyped) →
      sessionRun (Reader.streamDev (MdArray.dev NativeDev.streamDev.toBlockDev))
          (s'.os, [.device (Reader.new (MdArray.open ord devices))]) ops =
        sessionRun InMemory.streamDev ((), [.device (InMemory.new Fixture.smallFs 512)]) ops :=
  C114_right (C114_stored case_arrayAt.toMembersAt.anyVersion (alg := .leftSymmetric) rfl) (L := 2) rfl
    case_arrayAt.data Fixture.quiet Fixture.quiet_noFailures (by decide)

namespace Fixture

/-- The superblock of device number `i`: chunks of 13 sectors; the data area begins at sector 16. -/
def lateSb (i : Nat) : Mdp1 := { caseSb i with chunksize := 13, data_offset := 16 }

theorem lateSb_wf {i : Nat} (hi : i < 5) : (lateSb i).Wf := by
  have h := caseSb_wf hi
  exact ⟨h.magic, h.major_version, h.feature_map, h.set_uuid, h.set_name, h.level, h.layout, h.size,
    (by decide : 13 < U32), h.raid_disks, h.bitmap_offset, h.new_level, h.reshape_position, h.delta_disks,
    h.new_layout, h.new_chunk, h.new_offset, (by decide : 16 < U64), h.recovery_offset, h.dev_number, h.device_uuid,
    h.events, h.max_dev, h.pad3, h.roles_length, h.roles⟩

/-- Device number `i`: the superblock of version 1.2 or 1.1, and behind it the member of an array with a filesystem. -/
def lateFile (minor i : Nat) : OsFile :=
  ⟨(if minor = 2 then zeros 4096 ++ (lateSb i).encode else (lateSb i).encode ++ zeros 4096) ++
    encodeMember 2 4 13 13 smallFs i, some 512⟩

def lateFs (minor : Nat) : Bytes → Except Nat OsFile
  | [i] => if i.toNat < 4 then .ok (lateFile minor i.toNat) else .error 2
  | _ => .error 2

def latePaths : List Bytes := [[0], [1], [2], [3]]

end Fixture

open Fixture

theorem slice_zeros_le {a o k : Nat} (h : o + k ≤ a) : slice (zeros a) o k = zeros k := by
  unfold slice zeros
  rw [List.drop_replicate, List.take_replicate, Nat.min_eq_left (by omega)]

theorem lateFile_length {minor i : Nat} (hi : i < 4) : (lateFile minor i).content.length = 14848 := by
  have he := Mdp1.length_encode (lateSb_wf (by omega : i < 5))
  have hd : (encodeMember 2 4 13 13 smallFs i).length = 6656 :=
    encodeMember_length (size := 13) (n := 4) (c := 13) (by decide) (by decide) ⟨1, rfl⟩ smallFs_length i
  show ((if minor = 2 then _ else _) ++ _ : Bytes).length = _
  rw [List.length_append, hd]
  split <;> rw [List.length_append, he, length_zeros]

theorem lateFile_member {minor i : Nat} (hm : minor = 1 ∨ minor = 2) (hi : i < 4) :
    MemberV1 (lateFile minor i) (lateSb i) minor := by
  have hw := lateSb_wf (by omega : i < 5)
  have he := Mdp1.length_encode hw
  have hl := lateFile_length (minor := minor) hi
  refine ⟨⟨512, rfl, by decide, by decide, by rw [hl]; exact ⟨29, rfl⟩⟩, by rw [hl]; decide, hw, rfl, rfl, ?_⟩
  rcases hm with rfl | rfl
  · refine .v11 (fun h => ?_) ?_
    · have h1 := h.1
      have : slice (lateFile 1 i).content 4096 4 = zeros 4 := by
        show slice ((lateSb i).encode ++ zeros 4096 ++ _) (4096 + 0) 4 = _
        have := slice_append_right (lateSb i).encode (zeros 4096 ++ encodeMember 2 4 13 13 smallFs i) 0 4
        rw [he] at this
        rw [List.append_assoc, this, slice_append_left (by rw [length_zeros]; decide), slice_zeros_le (by decide)]
      rw [this] at h1
      revert h1
      decide
    · show slice ((lateSb i).encode ++ zeros 4096 ++ _) 0 4096 = _
      rw [List.append_assoc, slice_append_left (by omega), slice, List.drop_zero, ← he, List.take_length]
  · refine .v12 ?_
    show slice (zeros 4096 ++ (lateSb i).encode ++ _) 4096 4096 = _
    have := slice_append_right (zeros 4096) ((lateSb i).encode ++ encodeMember 2 4 13 13 smallFs i) 0 4096
    rw [length_zeros, Nat.add_zero] at this
    rw [List.append_assoc, this, slice_append_left (by omega), slice, List.drop_zero]
    conv_lhs => rw [← he, List.take_length]

theorem late_members {minor : Nat} (hm : minor = 1 ∨ minor = 2) :
    MembersV1 (lateFs minor) latePaths 2 4 13 13 (lateFile minor) lateSb (fun _ => minor) id := by
  have hcases : ∀ j, j < 4 → j = 0 ∨ j = 1 ∨ j = 2 ∨ j = 3 := fun j h => by omega
  refine ⟨fun j path h => ?_, fun j hj => lateFile_member hm hj, fun j hj => ?_, fun i j _ _ => ?_, fun d hd => ?_,
    fun j d hj hd h => ?_, by decide⟩
  · have hj : j < 4 := (List.getElem?_eq_some_iff.mp h).1
    rcases hcases j hj with rfl | rfl | rfl | rfl <;> cases h <;> rfl
  · exact ⟨rfl, rfl, rfl, rfl, rfl, caseSb_features j⟩
  · exact (caseSb_table i).trans (caseSb_table j).symm
  · refine ⟨hd, ?_⟩
    rw [show roleTable (lateSb (id d)) = _ from caseSb_table d]
    rcases hcases d hd with rfl | rfl | rfl | rfl <;> rfl
  · rw [show roleTable (lateSb j) = _ from caseSb_table j] at h
    rcases hcases j hj with rfl | rfl | rfl | rfl <;> cases h <;> rfl

/-- C114, a case: a healthy array with an ext4 filesystem, with superblocks of version 1.2 or 1.1 as most arrays have
them; the data areas begin at sector 16 of the disks, as the superblocks say.  The report finds nothing wrong, and the
filesystem is refused. -/
theorem C114_case [Build] {minor : Nat} (hm : minor = 1 ∨ minor = 2) :
    Raid6Set 2 4 13 13 (fun d => ⟨512, 13, (lateFile minor d).content.drop ((lateSb d).data_offset * 512)⟩) smallFs ∧
    Ext4Openable smallFs ∧
    (∀ ord ord' : IterOrder, ord.Valid → ord'.Valid →
      ∃ s' d, mainProgram ord ord' (lateFs minor) latePaths quiet = (s', .ok (.diagnosis d)) ∧ Clean d) ∧
    ∃ s' devices, openPaths (lateFs minor) latePaths quiet = (s', .ok (devices.map .ok)) ∧
      ∀ ord : IterOrder, ord.Valid → ∃ w e,
        Ext4Fs.open (Reader.streamDev (MdArray.dev NativeDev.streamDev.toBlockDev))
          (Reader.new (MdArray.open ord devices)) s'.os = (w, .err e) := by
  have h := late_members hm
  refine ⟨?_, fixture_openable.2, fun ord ord' hord hord' => C114_clean h (alg := .leftSymmetric) rfl
    ⟨fun _ _ _ _ => rfl, fun _ _ _ _ => rfl, fun _ _ _ _ => rfl, fun _ _ _ _ h => h⟩ hord hord' quiet
    quiet_noFailures (by decide), ?_⟩
  · refine encode_set (n := 4) (c := 13) (size := 13) (by decide) (by decide) (by decide) ⟨1, rfl⟩ (by decide)
      smallFs_length _ ?_
    intro d hd
    have he := Mdp1.length_encode (lateSb_wf (by omega : d < 5))
    refine ⟨[], ?_⟩
    rw [List.append_nil]
    show _ = ((if minor = 2 then _ else _) ++ _ : Bytes).drop (16 * 512)
    rw [List.drop_left']
    split <;> rw [List.length_append, he, length_zeros]
  · rcases hm with rfl | rfl
    · refine C114_version11 h (alg := .leftSymmetric) rfl (by decide) (by decide) ⟨1, rfl⟩ (by decide) (by decide)
        (fun d hd => ?_) (fun j _ => ?_) quiet quiet_noFailures (by decide)
      · rw [show id d = d from rfl, lateFile_length hd]
        decide
      · show ([0, 1, 2, 3, 0xffff] ++ List.replicate 1915 0xffff)[412]? ≠ _
        rw [List.getElem?_append_right (by decide), List.getElem?_replicate]
        decide
    · refine C114_refused (C114_stored h (alg := .leftSymmetric) rfl) (L := 2) rfl (by decide) (by decide) ⟨1, rfl⟩
        (by decide) (by decide) (fun d hd => ?_) (fun j hj => ?_) quiet quiet_noFailures (by decide)
      · show _ ≤ (wholeBlocks (lateFile 2 d)).length
        rw [(h.member d hd).whole, lateFile_length hd]
        decide
      · rw [(h.member j hj).whole]
        have hz : slice (lateFile 2 j).content 1080 2 = zeros 2 := by
          show slice (zeros 4096 ++ (lateSb j).encode ++ _) 1080 2 = _
          rw [List.append_assoc, slice_append_left (by rw [length_zeros]; omega), slice_zeros_le (by omega)]
        change leNat (slice (lateFile 2 j).content 1080 2) ≠ _
        rw [hz]
        decide

end MdRecover
