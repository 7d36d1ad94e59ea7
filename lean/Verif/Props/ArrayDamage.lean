import Verif.Spec.ArrayDamage
import Verif.Props.ArrayRead
import Verif.Props.Raid6Read
import Verif.Props.Ext4Path
import Verif.Props.EndToEndCases

/-! C100: damage to members of a RAID6 array. -/

namespace MdRecover
open MdSpec

theorem sector_ext {a b : Bytes} (ha : a.length = 512) (hb : b.length = 512)
    (h : ∀ i, i < 512 → a.getD i 0 = b.getD i 0) : a = b := by
  refine List.ext_getElem (by rw [ha, hb]) fun i h1 h2 => ?_
  have := h i (by omega)
  rwa [List.getD_eq_getElem _ _ h1, List.getD_eq_getElem _ _ h2] at this

/-- The members have been damaged: the sector read gives the logical content, or an error if the damage is on
data or P. -/
theorem pure_readSector_damaged {L n c size : Nat} {alg : Raid6Algorithm} {good bad : Nat → Disk}
    {content : Bytes} (hL : Raid6Algorithm.fromLayout L = some alg)
    (hset : Raid6Set L n c size good content) (hdam : OneDamaged n size good bad) {disks : Nat → Option Disk}
    (hdisks : ∀ d, d < n → disks d = some (bad d)) {b : Nat} (hb : b < size * (n - 2)) :
    (¬ Affected L n c good bad b ∧ (alg.readSector b c n (MdArray.pureFn (MdArray.memberAnswer disks)) ()).2 =
      .ok (slice content (b * 512) 512)) ∨
    (Affected L n c good bad b ∧ (alg.readSector b c n (MdArray.pureFn (MdArray.memberAnswer disks)) ()).2 =
      .err .invalidData) := by
  have hn := hset.devices
  have hc := hset.chunk
  obtain ⟨k, hk⟩ := hset.whole_chunks
  rw [Nat.mul_comm] at hk
  have hbl := hset.bytes_lt
  have hsle : size ≤ size * (n - 2) := Nat.le_mul_of_pos_right _ (by omega)
  rw [hk] at hb
  obtain ⟨h3, h4⟩ := capacity_forward hc hb
  rw [← hk] at hb h4
  have hkle : k ≤ size := by rw [hk]; exact Nat.le_mul_of_pos_right _ hc
  have hbU : b < U64 := by omega
  obtain ⟨row, hrow, hP, hQ, hD⟩ := raid6Row_get (s := b / c / (n - 2)) hn hL
  have hi : b / c % (n - 2) < n - 2 := Nat.mod_lt _ (by omega)
  have hd := hD _ hi
  have hsec : b / (c * (n - 2)) * c + b % c = b / c / (n - 2) * c + b % c := by
    rw [Nat.div_div_eq_div_mul]
  have hdivc : (b / c / (n - 2) * c + b % c) / c = b / c / (n - 2) := by
    rw [Nat.mul_comm, Nat.mul_add_div hc, Nat.div_eq_of_lt (Nat.mod_lt _ hc), Nat.add_zero]
  have hlen : ∀ (m : Nat → Disk), (∀ d, d < n → size * 512 ≤ (m d).content.length) → ∀ d, d < n →
      ((m d).sector (b / c / (n - 2) * c + b % c)).length = 512 := fun m hm d hdn =>
    MdArray.sector_length (MdArray.fit_sector h4 (hm d hdn))
  have hrel : ReliableRead (MdArray.pureFn (MdArray.memberAnswer disks)) (fun d s => (bad d).sector s) n
      (b / (c * (n - 2)) * c + b % c) := by
    intro _ d buf hdn hbuf
    have hsz := hdam.member_size d hdn
    rw [hsec]
    clear hsec hdivc hlen
    have hsize : size * 512 < U64 := MdArray.fit_total hsle hbl
    generalize b / c / (n - 2) * c + b % c = sec at h4 ⊢
    clear hb hbl hsle hbU hi hrow hP hQ hD hd h3 hk hkle
    have hfit : sec * 512 + 512 ≤ (bad d).content.length := MdArray.fit_sector h4 hsz
    have hl := MdArray.sector_length hfit
    refine ⟨hl, ?_⟩
    show MdArray.memberAnswer disks d _ buf = _
    unfold MdArray.memberAnswer
    rw [if_neg (by omega), hdisks d hdn]
    simp only
    rw [if_neg (by omega), if_neg (by omega), MdArray.overwrite_full (by rw [hl, hbuf])]
  have hcons := hset.parity _ h4 row (by rw [hdivc]; exact hrow)
  have hrowlen := raid6Row_length hn hrow
  have hlt : ∀ {d role}, row[d]? = some role → d < n := by
    intro d role h
    have := (List.getElem?_eq_some_iff.1 h).1
    omega
  by_cases hA : Affected L n c good bad b
  · refine .inr ⟨hA, ?_⟩
    obtain ⟨row', d', role, hrow', hd', hq, hdiff⟩ := hA
    rw [hrow] at hrow'
    cases hrow'
    have hdn := hlt hd'
    obtain ⟨i, hi512, hne⟩ : ∃ i, i < 512 ∧ ((bad d').sector (b / c / (n - 2) * c + b % c)).getD i 0 ≠
        ((good d').sector (b / c / (n - 2) * c + b % c)).getD i 0 := by
      by_contra hall
      refine hdiff (sector_ext (hlen bad hdam.member_size d' hdn) (hlen good hset.member_size d' hdn)
        fun i hi => ?_)
      by_contra h
      exact hall ⟨i, hi, h⟩
    rw [← hsec] at hcons hne
    have hone : ∀ d, d < n → d ≠ d' → (bad d).sector (b / (c * (n - 2)) * c + b % c) =
        (good d).sector (b / (c * (n - 2)) * c + b % c) := by
      intro d hd1 hd2
      rw [hsec]
      by_contra h
      exact hd2 (hdam.one _ h4 d d' hd1 hdn h hdiff)
    refine C12_raid6_single_corruption_detected (good := fun d s => (good d).sector s)
      (bad := fun d s => if d < n then (bad d).sector s else (good d).sector s) () hL hbU hc hn hset.devices_lt
      (fun _ => by omega) hrow hcons hdn (by rw [hd']; intro h; exact hq (Option.some.inj h)) ?_ hi512
      (by rw [if_pos hdn]; exact hne) ?_
    · intro d hd2
      split
      · exact hone d ‹_› hd2
      · rfl
    · intro st d buf hd1 hbuf
      beta_reduce
      rw [if_pos hd1]
      exact hrel st d buf hd1 hbuf
  · refine .inl ⟨hA, ?_⟩
    have hsame : ∀ d role, row[d]? = some role → role ≠ .Q →
        (bad d).sector (b / c / (n - 2) * c + b % c) = (good d).sector (b / c / (n - 2) * c + b % c) := by
      intro d role h1 h2
      by_contra h
      exact hA ⟨row, d, role, hrow, h1, h2, h⟩
    have hcons' : PConsistent row (fun d s => (bad d).sector s) (b / c / (n - 2) * c + b % c) := by
      intro p hp i hi
      have := hcons p hp i hi
      simp only at this ⊢
      rw [hsame p _ hp (by decide), this]
      congr 1
      refine List.map_congr_left fun d hd => ?_
      unfold dataDevices at hd
      rw [List.mem_filter] at hd
      cases hr : row[d]? with
      | none => rw [hr] at hd; cases hd.2
      | some role =>
        rw [hsame d role hr]
        rintro rfl
        rw [hr] at hd
        cases hd.2
    rw [← hsec] at hcons'
    have := C11_raid6_read_consistent () hL hbU hc hn hset.devices_lt (fun _ => by omega) hrow hd hrel hcons'
    rw [this, hsec, hset.data b hb row _ hrow hd, hsame _ _ hd (by intro h; cases h)]

section
variable {W D : Type} {F : Prop} {dev : BlockDev W D} {G : W → Prop} {Is : D → Disk → Prop}

/-- C100, sectors: members that do not fail, but in each sector of which at most one has been damaged.  Reading
a sector of the array gives what was written there, and says InvalidData exactly if the damage is on data or P
of that sector's stripe.  (Damage to Q has no effect.) -/
theorem C100_sectors (hd : DevSpec False dev G Is) {ord : IterOrder} (hord : ord.Valid)
    {L n c size : Nat} {alg : Raid6Algorithm} {good bad : Nat → Disk} {content : Bytes}
    {devices : List (MdDevice D)} (hL : Raid6Algorithm.fromLayout L = some alg)
    (hr : ReadableSet Is alg n c size bad devices) (hset : Raid6Set L n c size good content)
    (hdam : OneDamaged n size good bad) (w : W) (hG : G w) (b : Nat) (hb : b < size * (n - 2)) (buf : Bytes)
    (hl : buf.length = 512) :
    (¬ Affected L n c good bad b → ((MdArray.dev dev).readBlock b buf (w, MdArray.open ord devices)).2 =
      .ok (512, (content.drop (b * 512)).take 512)) ∧
    (Affected L n c good bad b → ((MdArray.dev dev).readBlock b buf (w, MdArray.open ord devices)).2 =
      .err .invalidData) := by
  obtain ⟨disks, h1, h2⟩ := hr.disks hord
  obtain ⟨-, -, k3⟩ := MdArray.readBlock_spec hd h1 b buf hG
  rcases k3 with ⟨hF, -⟩ | h
  · exact hF.elim
  rcases pure_readSector_damaged hL hset hdam h2 hb with ⟨hA, hs⟩ | ⟨hA, hs⟩
  · refine ⟨fun _ => h.trans ?_, fun h => absurd h hA⟩
    rw [hr.formatInUse]
    unfold MdArray.pureRead
    rw [if_neg (by omega)]
    simp only [MdAlgorithm.readSector]
    rw [hs]
    simp only
    have hlen : (slice content (b * 512) 512).length = 512 := by
      unfold slice
      rw [List.length_take, List.length_drop, hset.length]
      have := MdArray.fit_sector hb (Nat.le_refl _)
      omega
    rw [if_neg (by omega)]
    rfl
  · refine ⟨fun h => absurd hA h, fun _ => h.trans ?_⟩
    rw [hr.formatInUse]
    unfold MdArray.pureRead
    rw [if_neg (by omega)]
    simp only [MdAlgorithm.readSector]
    rw [hs]

/-- C100, the array as a device: it holds what was written, but may fail.  The members may fail, too. -/
theorem C100_array_device (hd : DevSpec F dev G Is) {ord : IterOrder} (hord : ord.Valid)
    {L n c size : Nat} {alg : Raid6Algorithm} {good bad : Nat → Disk} {content : Bytes}
    {devices : List (MdDevice D)} (hL : Raid6Algorithm.fromLayout L = some alg)
    (hr : ReadableSet Is alg n c size bad devices) (hset : Raid6Set L n c size good content)
    (hdam : OneDamaged n size good bad) :
    DevSpec True (MdArray.dev dev) G
      (fun a k => a = MdArray.open ord devices ∧ k = ⟨512, size * (n - 2), content⟩) where
  wf := by
    rintro a k ⟨-, rfl⟩
    exact ⟨(by decide : 0 < 512), (by decide : 512 < U32), hset.length, hset.bytes_lt⟩
  blockSize := by
    rintro w a k hG ⟨-, rfl⟩
    exact ⟨hG, .inl rfl⟩
  blockCount := by
    rintro w a k hG ⟨rfl, rfl⟩
    refine ⟨hG, .inl ?_⟩
    have hlt : size * (n - 2) < U64 :=
      Nat.lt_of_le_of_lt (Nat.le_mul_of_pos_right _ (by decide)) hset.bytes_lt
    have h3 := hset.devices
    show (MdArray.blockCount (MdArray.open ord devices)) = _
    unfold MdArray.blockCount
    rw [hr.formatInUse]
    simp only [Res.ofOption, bind, Res.bind, MdFormat.dataSectorCount, MdFormat.dataDeviceCount,
      MdFormat.parityDeviceCount, MdAlgorithm.parityDeviceCount, Option.bind_some]
    rw [checkedSub_pos (by omega)]
    simp only [Option.bind_some]
    rw [checkedMul64_pos hlt]
  readBlock := by
    rintro w a k hG ⟨rfl, rfl⟩ b buf hb hl
    obtain ⟨disks, h1, h2⟩ := hr.disks hord
    obtain ⟨k1, k2, k3⟩ := MdArray.readBlock_spec hd h1 b buf hG
    refine ⟨k1, ⟨k2, rfl⟩, ?_⟩
    rcases k3 with ⟨-, e, h⟩ | h
    · exact .inr ⟨trivial, e, h⟩
    rw [hr.formatInUse] at h
    unfold MdArray.pureRead at h
    simp only at hl hb
    rw [if_neg (by omega)] at h
    simp only [MdAlgorithm.readSector] at h
    rcases pure_readSector_damaged hL hset hdam h2 hb with ⟨-, hs⟩ | ⟨-, hs⟩
    · rw [hs] at h
      refine .inl (h.trans ?_)
      simp only
      have hlen : (slice content (b * 512) 512).length = 512 := by
        unfold slice
        rw [List.length_take, List.length_drop, hset.length]
        have := MdArray.fit_sector hb (Nat.le_refl _)
        omega
      rw [if_neg (by omega)]
      rfl
    · rw [hs] at h
      exact .inr ⟨trivial, _, h⟩
  tryClone := by
    rintro w a k hG ⟨rfl, rfl⟩
    exact ⟨hG, .inl ⟨_, rfl, rfl, rfl⟩⟩

/-- C100, ext4 on the array: what a program does with the filesystem gives the same results as on a plain device
with what was written, up to the first error. -/
theorem C100_ext4 [Build] (hd : DevSpec F dev G Is) {ord : IterOrder} (hord : ord.Valid)
    {L n c size : Nat} {alg : Raid6Algorithm} {good bad : Nat → Disk} {content : Bytes}
    {devices : List (MdDevice D)} (hL : Raid6Algorithm.fromLayout L = some alg)
    (hr : ReadableSet Is alg n c size bad devices) (hset : Raid6Set L n c size good content)
    (hdam : OneDamaged n size good bad) (w : W) (hG : G w)
    (ops : List (Nat × SessionCall)) (hops : ∀ x ∈ ops, x.2.wellTyped) :
    sessionRun (Reader.streamDev (MdArray.dev dev))
        (w, [.device (Reader.new (MdArray.open ord devices))]) ops =
      sessionRun InMemory.streamDev ((), [.device (InMemory.new content 512)]) ops ∨
    ∃ k e, (sessionRun (Reader.streamDev (MdArray.dev dev))
        (w, [.device (Reader.new (MdArray.open ord devices))]) ops).take k =
        (sessionRun InMemory.streamDev ((), [.device (InMemory.new content 512)]) ops).take k ∧
      (sessionRun (Reader.streamDev (MdArray.dev dev))
        (w, [.device (Reader.new (MdArray.open ord devices))]) ops)[k]? = some (.error e) := by
  have ha := C100_array_device hd hord hL hr hset hdam
  rcases C76_failing_device (Reader.seekableVolume ha ⟨512, size * (n - 2), content⟩)
    InMemory.seekableVolume content w () _ (InMemory.new content 512) hG trivial
    ⟨rfl, 0, Reader.at_new (ha.wf ⟨rfl, rfl⟩) ⟨rfl, rfl⟩⟩ rfl (.inl rfl) ops hops with h | ⟨-, h⟩
  · exact .inl h
  · exact .inr h

/-- C100, files: following a path gives what the content that was written says, or an error. -/
theorem C100_path [Build] {L n c size : Nat} {content : Bytes} (hc : Ext4Openable content)
    (hl : content.length < 2 ^ 57) (names : List Bytes) (out : Found) (hs : Says content names out) :
    ∃ N, ∀ {W D : Type} {F : Prop} {dev : BlockDev W D} {G : W → Prop} {Is : D → Disk → Prop},
      DevSpec F dev G Is → ∀ {ord : IterOrder}, ord.Valid → ∀ {alg : Raid6Algorithm}
      {good bad : Nat → Disk} {devices : List (MdDevice D)}, Raid6Algorithm.fromLayout L = some alg →
      ReadableSet Is alg n c size bad devices → Raid6Set L n c size good content → OneDamaged n size good bad →
      ∀ w, G w → ∀ rounds,
        let r := (readPath (Reader.streamDev (MdArray.dev dev)) rounds
          (Reader.new (MdArray.open ord devices)) names w).2
        r = .ok out ∨ (∃ e, r = .err e) ∨ (rounds < N ∧ r = .ok .running) := by
  obtain ⟨N, h⟩ := C98_failing_partial content hc hl names out hs
  refine ⟨N, fun {W D F dev G Is} hd {ord} hord {alg good bad devices} hL hr hset hdam w hG rounds => ?_⟩
  have ha := C100_array_device hd hord hL hr hset hdam
  have := h (Reader.seekableVolume ha ⟨512, size * (n - 2), content⟩) (.inl rfl) w _ hG
    ⟨rfl, 0, Reader.at_new (ha.wf ⟨rfl, rfl⟩) ⟨rfl, rfl⟩⟩ rounds
  rcases this with h | ⟨-, h⟩ | h
  · exact .inl h
  · exact .inr (.inl h)
  · exact .inr (.inr h)

end

/-- The devices opened from disks nothing of which fails. -/
theorem opened_disks {fs : Bytes → Except Nat OsFile} {paths : List Bytes} {L n c size : Nat}
    {file : Nat → OsFile} {sb : Nat → Mdp1} {place : Nat → Nat} [Build]
    (h : MembersAt fs paths L n c size file sb place) {alg : Raid6Algorithm}
    (hL : Raid6Algorithm.fromLayout L = some alg) (s : System) (hos : NativeDev.NoFailures s.os)
    (hi : s.nextId + paths.length < U64) :
    ∃ s' devices, openPaths fs paths s = (s', .ok (devices.map .ok)) ∧ NativeDev.NoFailures s'.os ∧
      ReadableSet NativeDev.IsDisk alg n c size (fun d => asDisk (file (place d))) devices := by
  obtain ⟨s', rs, hrun, hG, ho⟩ := openPaths_spec False NativeDev.NoFailures
    (fun _ _ h hl => ⟨fun c hc => h.1 c (hl.1 hc), fun c hc => h.2 c (hl.2 hc)⟩)
    (fun _ c h hc => h.1 c hc) (fun _ c h hc => h.2 c hc) fs paths s hos hi h.sane
  have hne : (partitionResult rs).2 = [] := by
    rw [ho.errors_eq, List.filterMap_eq_nil_iff]
    intro path hp
    rw [complaint, h.usable path hp]
    rfl
  obtain ⟨h1, h2⟩ := h.opened ho hne
  exact ⟨s', (partitionResult rs).1, by rw [← partitionResult_ok rs hne]; exact hrun, hG,
    h.readable hL h1 fun j hj => ⟨(h2 j hj).2.resolve_right fun h => h.1, (h2 j hj).1⟩⟩

/-- C100, from the disks to the files (superblocks of version 1.0, as in C89): disks with intact superblocks, whose
data areas were `good` and have been damaged, in each sector on one member at most; nothing fails.  All are opened,
the sectors of the array made of them are as said above, and what a program does with the filesystem on it gives
the same results as without the damage, up to the first error. -/
theorem C100_disks [Build] {fs : Bytes → Except Nat OsFile} {paths : List Bytes} {L n c size : Nat}
    {file : Nat → OsFile} {sb : Nat → Mdp1} {place : Nat → Nat} {good : Nat → Disk} {content : Bytes}
    (h : MembersAt fs paths L n c size file sb place) (hset : Raid6Set L n c size good content)
    (hdam : OneDamaged n size good fun d => asDisk (file (place d))) {alg : Raid6Algorithm}
    (hL : Raid6Algorithm.fromLayout L = some alg) (s : System) (hos : NativeDev.NoFailures s.os)
    (hi : s.nextId + paths.length < U64) :
    ∃ s' devices, openPaths fs paths s = (s', .ok (devices.map .ok)) ∧
      ∀ ord : IterOrder, ord.Valid →
        (∀ b, b < size * (n - 2) → ∀ buf : Bytes, buf.length = 512 →
          let r := ((MdArray.dev NativeDev.streamDev.toBlockDev).readBlock b buf
            (s'.os, MdArray.open ord devices)).2
          (¬ Affected L n c good (fun d => asDisk (file (place d))) b →
            r = .ok (512, (content.drop (b * 512)).take 512)) ∧
          (Affected L n c good (fun d => asDisk (file (place d))) b → r = .err .invalidData)) ∧
        ∀ ops : List (Nat × SessionCall), (∀ x ∈ ops, x.2.wellTyped) →
          let seen := sessionRun (Reader.streamDev (MdArray.dev NativeDev.streamDev.toBlockDev))
            (s'.os, [.device (Reader.new (MdArray.open ord devices))]) ops
          let right := sessionRun InMemory.streamDev ((), [.device (InMemory.new content 512)]) ops
          seen = right ∨ ∃ k e, seen.take k = right.take k ∧ seen[k]? = some (.error e) := by
  obtain ⟨s', devices, h1, hG, hr⟩ := opened_disks h hL s hos hi
  exact ⟨s', devices, h1, fun ord hord => ⟨fun b hb buf hl =>
    C100_sectors NativeDev.streamDevSpec_reliable.toDev hord hL hr hset hdam s'.os hG b hb buf hl,
    fun ops hops => C100_ext4 NativeDev.streamDevSpec_reliable.toDev hord hL hr hset hdam s'.os hG ops hops⟩⟩

/-- One member replaced by something else. -/
def Fixture.replaced (mem : Nat → Bytes) (j : Nat) (x : Bytes) (i : Nat) : Bytes := if i = j then x else mem i
open Fixture (replaced)

/-- In-memory members with any content, one of which now holds anything: they meet the hypotheses of the
theorems above. -/
theorem replaced_damage {L n c size : Nat} {alg : Raid6Algorithm} {content : Bytes} {bs : Nat → Nat}
    (hn : 3 ≤ n) (hn' : n ≤ 0xff00) (hc : 0 < c)
    (hdvd : c ∣ size) (hbytes : size * (n - 2) * 512 < U64) (hlen : content.length = size * (n - 2) * 512)
    (hbs : ∀ i, i < n → 0 < bs i ∧ bs i < U32 ∧ bs i ∣ size * 512) (j : Nat) {x : Bytes}
    (hx : x.length = size * 512) :
    let mem := replaced (encodeMember L n c size content) j x
    let good : Nat → Disk := fun i => ⟨bs i, size * 512 / bs i, encodeMember L n c size content i⟩
    let bad : Nat → Disk := fun i => ⟨bs i, size * 512 / bs i, mem i⟩
    ReadableSet InMemory.IsDisk alg n c size bad (memMembers alg n c size 0 mem bs) ∧
      Raid6Set L n c size good content ∧ OneDamaged n size good bad := by
  intro mem good bad
  have hml := encodeMember_length (L := L) hn hc hdvd hlen
  have hsU : size * 512 < U64 :=
    MdArray.fit_total (Nat.le_mul_of_pos_right _ (by omega)) hbytes
  have hmem : ∀ i, (mem i).length = size * 512 := by
    intro i
    show (if i = j then x else _).length = _
    split
    · exact hx
    · exact hml i
  refine ⟨?_, ?_, ?_, ?_⟩
  · have hr := memMembers_readable (alg := alg) (c := c) (size := size) (offset := 0)
      (mem := mem) (bs := bs) (n := n) (by omega) hn' (fun i hi => by
        obtain ⟨h1, h2, h3⟩ := hbs i hi
        rw [hmem]
        exact ⟨h1, h2, hsU, h3⟩)
    have he : (fun i => (⟨bs i, (mem i).length / bs i, mem i⟩ : Disk)) = bad := by
      funext i
      rw [hmem]
    rwa [he] at hr
  · exact encode_set (L := L) hn (Nat.lt_of_le_of_lt hn' (by decide)) hc hdvd hbytes hlen good
      (fun i _ => List.prefix_refl _)
  · intro d _
    exact Nat.le_of_eq (hmem d).symm
  · intro s _ d d' _ _ h h'
    have key : ∀ e, SectorDamaged good bad e s → e = j := by
      intro e he
      by_contra hne
      refine he ?_
      show slice (if e = j then x else _) _ _ = _
      rw [if_neg hne]
      rfl
    rw [key d h, key d' h']

/-- C100 for any content, layout and geometry, and anything in the place of any one member: what a program does
with the filesystem gives the same results as without the damage, up to the first error. -/
theorem C100_one_member_replaced [Build] {ord : IterOrder} (hord : ord.Valid) {L n c size : Nat}
    {alg : Raid6Algorithm} {content : Bytes} {bs : Nat → Nat}
    (hL : Raid6Algorithm.fromLayout L = some alg) (hn : 3 ≤ n) (hn' : n ≤ 0xff00) (hc : 0 < c)
    (hdvd : c ∣ size) (hbytes : size * (n - 2) * 512 < U64) (hlen : content.length = size * (n - 2) * 512)
    (hbs : ∀ i, i < n → 0 < bs i ∧ bs i < U32 ∧ bs i ∣ size * 512) (j : Nat) {x : Bytes}
    (hx : x.length = size * 512) (ops : List (Nat × SessionCall)) (hops : ∀ x ∈ ops, x.2.wellTyped) :
    let run := sessionRun (Reader.streamDev (MdArray.dev InMemory.dev)) ((), [.device (Reader.new
      (MdArray.open ord (memMembers alg n c size 0 (replaced (encodeMember L n c size content) j x) bs)))]) ops
    let plain := sessionRun InMemory.streamDev ((), [.device (InMemory.new content 512)]) ops
    run = plain ∨ ∃ k e, run.take k = plain.take k ∧ run[k]? = some (.error e) := by
  obtain ⟨h1, h2, h3⟩ := replaced_damage (alg := alg) (L := L) hn hn' hc hdvd hbytes hlen hbs j hx
  exact C100_ext4 InMemory.devSpec hord hL h1 h2 h3 () trivial ops hops

/-- C100, why at most one: on three members, all of which but the one with Q have been damaged in the same
sectors, the damage can be such that other data are returned, whatever was written and whatever the other data
are. -/
theorem C100_two_members_unnoticed {ord : IterOrder} (hord : ord.Valid) {L c size : Nat}
    {alg : Raid6Algorithm} {content other : Bytes}
    (hL : Raid6Algorithm.fromLayout L = some alg) (hc : 0 < c) (hdvd : c ∣ size)
    (hbytes : size * 512 < U64) (hlen : content.length = size * 512) (hlen' : other.length = size * 512) :
    ∃ good bad : Nat → Disk, Raid6Set L 3 c size good content ∧
      ReadableSet InMemory.IsDisk alg 3 c size bad
        (memMembers alg 3 c size 0 (fun i => (bad i).content) fun _ => 512) ∧
      (∀ s, s < size → ∃ d, d < 3 ∧ ¬ SectorDamaged good bad d s) ∧
      ∀ b, b < size → ∀ buf : Bytes, buf.length = 512 →
        ((MdArray.dev InMemory.dev).readBlock b buf ((), MdArray.open ord
          (memMembers alg 3 c size 0 (fun i => (bad i).content) fun _ => 512))).2 =
          .ok (512, (other.drop (b * 512)).take 512) := by
  have e3 : size * (3 - 2) * 512 = size * 512 := by rw [show 3 - 2 = 1 from rfl, Nat.mul_one]
  rw [← e3] at hlen hlen' hbytes
  have hml := encodeMember_length (L := L) (by decide) hc hdvd hlen'
  let good : Nat → Disk := fun i => ⟨512, size, encodeMember L 3 c size content i⟩
  let bad : Nat → Disk := fun i => ⟨512, size, encodeMember L 3 c size other i⟩
  refine ⟨good, bad, ?_, ?_, ?_, ?_⟩
  · exact encode_set (by decide) (by decide) hc hdvd hbytes hlen good (fun i _ => List.prefix_refl _)
  · have hr := memMembers_readable (alg := alg) (c := c) (size := size) (offset := 0)
      (mem := encodeMember L 3 c size other) (bs := fun _ => 512) (n := 3) (by decide) (by decide) (fun i hi => by
        rw [hml, ← e3]
        exact ⟨by decide, by decide, hbytes, by rw [e3]; exact Nat.dvd_mul_left _ _⟩)
    have he : (fun i => (⟨512, (encodeMember L 3 c size other i).length / 512,
        encodeMember L 3 c size other i⟩ : Disk)) = bad := by
      funext i
      rw [hml, Nat.mul_div_cancel _ (by decide)]
    rwa [he] at hr
  · intro s hs
    obtain ⟨row, hrow, hP, hQ, hD⟩ := raid6Row_get (n := 3) (s := s / c) (by decide) hL
    have hlt := (List.getElem?_eq_some_iff.1 hQ).1
    rw [raid6Row_length (by decide) hrow] at hlt
    refine ⟨_, hlt, fun h => h ?_⟩
    have key : ∀ x : Bytes, x.length = size * (3 - 2) * 512 →
        slice (encodeMember L 3 c size x (alg.qOf 3 (s / c))) (s * 512) 512 = zeros 512 := by
      intro x hx
      have h1 : ∀ b ∈ (List.range size).map (encodeSector L 3 c x (alg.qOf 3 (s / c))), b.length = 512 := by
        intro b hb
        obtain ⟨s, hs, rfl⟩ := List.mem_map.mp hb
        exact encodeSector_length (by decide) hc hdvd hx (List.mem_range.mp hs) _
      have h2 := slice_flatten_const _ h1 s _ (by simp [hs]; rfl)
      refine h2.trans ?_
      unfold encodeSector
      rw [hrow]
      simp only
      rw [if_neg (by rw [hQ]; simp)]
      unfold dataSector
      rw [hQ]
    exact (key other hlen').trans (key content hlen).symm
  · intro b hb buf hl
    exact C16_round_trip_partial hord hL (by decide) (by decide) hc hdvd hbytes hlen'
      (fun i _ => ⟨by decide, by decide, Nat.dvd_mul_left _ _⟩) (by rwa [Nat.mul_one]) hl

/-- The array of sevens (C17), with bytes 5 (of Q) and 600 (of data) of member 0 changed. -/
def Fixture.scratched : Nat → Bytes :=
  replaced (encodeMember 2 4 1 2 (List.replicate 2048 7)) 0
    (Fixture.patch (Fixture.patch (encodeMember 2 4 1 2 (List.replicate 2048 7) 0) 600 [8]) 5 [9])

/-- C100, a case: the first two sectors are read in spite of the damage to Q; the others, in whose stripe data
have been damaged, are not, not even the one of them whose own bytes are intact. -/
theorem C100_case {ord : IterOrder} (hord : ord.Valid) (b : Nat) (hb : b < 4) (buf : Bytes)
    (hl : buf.length = 512) :
    ((MdArray.dev InMemory.dev).readBlock b buf ((), MdArray.open ord
      (memMembers .leftSymmetric 4 1 2 0 Fixture.scratched fun _ => 512))).2 =
      if b < 2 then .ok (512, List.replicate 512 7) else .err .invalidData := by
  have hx : (Fixture.patch (Fixture.patch (encodeMember 2 4 1 2 (List.replicate 2048 7) 0) 600 [8]) 5
      [9]).length = 2 * 512 := by decide +kernel
  obtain ⟨h1, h2, h3⟩ := replaced_damage (alg := .leftSymmetric) (L := 2) (n := 4) (c := 1) (size := 2)
    (content := List.replicate 2048 7) (bs := fun _ => 512) (by decide) (by decide) (by decide) (by decide)
    (by decide) List.length_replicate (fun _ _ => by decide) 0 hx
  obtain ⟨k1, k2⟩ := C100_sectors InMemory.devSpec hord (L := 2) rfl h1 h2 h3 () trivial b hb buf hl
  by_cases hb2 : b < 2
  · rw [if_pos hb2]
    refine (k1 ?_).trans ?_
    · rintro ⟨row, d, role, e1, e2, e3, e4⟩
      have hz : b / 1 / (4 - 2) = 0 := by omega
      have hz' : b / 1 / (4 - 2) * 1 + b % 1 = 0 := by omega
      rw [hz] at e1
      rw [hz'] at e4
      cases e1
      refine e4 ?_
      by_cases h0 : d = 0
      · subst h0
        cases e2
        exact absurd rfl e3
      · show slice (if d = 0 then _ else _) _ _ = _
        rw [if_neg h0]
        rfl
    · rw [List.drop_replicate, List.take_replicate, show min 512 (2048 - b * 512) = 512 by omega]
  · rw [if_neg hb2]
    refine k2 ⟨[.D 0, .D 1, .P, .Q], 0, .D 0, ?_, rfl, by decide, ?_⟩
    · rw [show b / 1 / (4 - 2) = 1 by omega]
      rfl
    · rw [show b / 1 / (4 - 2) * 1 + b % 1 = 1 by omega]
      unfold SectorDamaged
      decide +kernel

namespace Fixture

/-- The data on disk 1 of C89, with four bytes changed, from byte `p` on. -/
def hitData (p : Nat) : Bytes := patch (caseData 1) p [1, 2, 3, 4]

/-- The disks of C89, with this data on disk 1. -/
def hitFile (p i : Nat) : OsFile := if i = 1 then ⟨disk10 (hitData p) 1536 (caseSb 1), some 512⟩ else caseFile i

/-- Disk number `i` is at the path `[i]`. -/
def hitFs (p : Nat) : Bytes → Except Nat OsFile
  | [i] => if i.toNat < 5 then .ok (hitFile p i.toNat) else .error 2
  | _ => .error 2

end Fixture
open Fixture

/-- The bytes are within the data, and leave no superblock there. -/
def Fixture.HitAt (p : Nat) : Prop := p + 4 ≤ 6656 ∧ leNat (slice (hitData p) 0 4) ≠ 0xa92b4efc ∧
  leNat (slice (hitData p) 4096 4) ≠ 0xa92b4efc

theorem hitData_length {p : Nat} (hp : p + 4 ≤ 6656) : (hitData p).length = 6656 := by
  have h := caseData_length 1
  unfold hitData patch
  rw [List.length_append, List.length_append, List.length_take, List.length_drop, h,
    show ([1, 2, 3, 4] : Bytes).length = 4 from rfl]
  omega

set_option maxRecDepth 100000 in
theorem hit_5000 : HitAt 5000 := by
  unfold HitAt
  decide +kernel

theorem hitFile_member {p : Nat} (hp : HitAt p) {i : Nat} (hi : i < 5) : Member10 (hitFile p i) (caseSb i) := by
  by_cases h1 : i = 1
  · subst h1
    obtain ⟨hp, h0, h1⟩ := hp
    have hl := hitData_length hp
    refine disk10_member (caseSb_wf hi) rfl rfl (by rw [hl]; exact ⟨2, rfl⟩) (by omega)
      (by rw [hl]; decide) (by decide) (by decide) ?_ (by omega) h0 h1
    rw [hl]
    exact ⟨32, rfl⟩
  · rw [hitFile, if_neg h1]
    exact caseFile_member hi

theorem hit_membersAt {p : Nat} (hp : HitAt p) : MembersAt (hitFs p) casePaths 2 4 1 13
    (fun j => hitFile p (caseOrder.getD j 0))
    (fun j => caseSb (caseOrder.getD j 0)) casePlace := by
  obtain ⟨-, -, h3, h4, h5, h6, h7⟩ := case_arrayAt.toMembersAt
  refine ⟨?_, fun j hj => hitFile_member hp (caseOrder_lt j hj), h3, h4, h5, h6, h7⟩
  intro j path h
  have hj : j < 5 := (List.getElem?_eq_some_iff.mp h).1
  have : j = 0 ∨ j = 1 ∨ j = 2 ∨ j = 3 ∨ j = 4 := by omega
  rcases this with rfl | rfl | rfl | rfl | rfl <;> cases h <;> rfl

theorem asDisk_content {f : OsFile} {m : Mdp1} (h : Member10 f m) : (asDisk f).content = f.content :=
  wholeBlocks_member h

theorem hit_damage {p : Nat} (hh : HitAt p) :
    OneDamaged 4 13 (fun d => asDisk (caseFile (caseOrder.getD (casePlace d) 0)))
      fun d => asDisk (hitFile p (caseOrder.getD (casePlace d) 0)) := by
  have hp : ∀ d, d < 4 → caseOrder.getD (casePlace d) 0 = d := by decide
  refine ⟨fun d hd => ?_, fun s _ d d' hd hd' h h' => ?_⟩
  · show _ ≤ (asDisk (hitFile p (caseOrder.getD (casePlace d) 0))).content.length
    have hm := hitFile_member hh (i := d) (by omega)
    rw [hp d hd, asDisk_content hm]
    exact Nat.le_trans (by decide) hm.size.1
  · have key : ∀ e, e < 4 → SectorDamaged (fun d => asDisk (caseFile (caseOrder.getD (casePlace d) 0)))
        (fun d => asDisk (hitFile p (caseOrder.getD (casePlace d) 0))) e s → e = 1 := by
      intro e he hs
      by_contra hne
      refine hs ?_
      show (asDisk (hitFile p (caseOrder.getD (casePlace e) 0))).sector s =
        (asDisk (caseFile (caseOrder.getD (casePlace e) 0))).sector s
      rw [hp e he, hitFile, if_neg hne]
    rw [key d hd h, key d' hd' h']

/-- C100 for these disks: the damage is on a sector of the array, which cannot be read; what a program sees of the
filesystem is what it sees without the damage, up to the first error. -/
theorem C100_disks_case [Build] : ∃ s' devices, openPaths (hitFs 5000) casePaths quiet = (s', .ok (devices.map .ok)) ∧
    ∀ ord : IterOrder, ord.Valid →
      (∃ b, b < 26 ∧ ∀ buf : Bytes, buf.length = 512 → ((MdArray.dev NativeDev.streamDev.toBlockDev).readBlock b buf
        (s'.os, MdArray.open ord devices)).2 = .err .invalidData) ∧
      ∀ ops : List (Nat × SessionCall), (∀ x ∈ ops, x.2.wellTyped) →
        let seen := sessionRun (Reader.streamDev (MdArray.dev NativeDev.streamDev.toBlockDev))
          (s'.os, [.device (Reader.new (MdArray.open ord devices))]) ops
        let right := sessionRun InMemory.streamDev ((), [.device (InMemory.new smallFs 512)]) ops
        seen = right ∨ ∃ k e, seen.take k = right.take k ∧ seen[k]? = some (.error e) := by
  obtain ⟨s', devices, h1, h2⟩ := C100_disks (hit_membersAt hit_5000) case_arrayAt.data (hit_damage hit_5000) (alg := .leftSymmetric)
    rfl quiet quiet_noFailures (by decide)
  refine ⟨s', devices, h1, fun ord hord => ⟨⟨18, by decide, fun buf hl => ?_⟩, (h2 ord hord).2⟩⟩
  refine ((h2 ord hord).1 18 (by decide) buf hl).2 ⟨[.D 0, .D 1, .P, .Q], 1, .D 1, rfl, rfl, by decide, ?_⟩
  intro h
  have e1 : (asDisk (hitFile 5000 1)).sector 9 = slice (hitData 5000) (9 * 512) 512 := by
    unfold Disk.sector
    rw [asDisk_content (hitFile_member hit_5000 (by decide))]
    show slice (disk10 (hitData 5000) 1536 (caseSb 1)) _ _ = _
    have := hitData_length (p := 5000) (by decide)
    rw [disk10, slice_append_left (by rw [List.length_append]; omega), slice_append_left (by omega)]
  have e2 : (asDisk (caseFile 1)).sector 9 = slice (caseData 1) (9 * 512) 512 := by
    unfold Disk.sector
    rw [asDisk_content (caseFile_member (by decide))]
    show slice (disk10 (caseData 1) 1536 (caseSb 1)) _ _ = _
    have := caseData_length 1
    rw [disk10, slice_append_left (by rw [List.length_append]; omega), slice_append_left (by omega)]
  have h : (asDisk (hitFile 5000 1)).sector 9 = (asDisk (caseFile 1)).sector 9 := h
  rw [e1, e2] at h
  have h3 := congrArg (fun l : Bytes => l.getD 392 0) h
  revert h3
  decide +kernel

end MdRecover
