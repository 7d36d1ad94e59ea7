import Verif.Spec.AnyMembers
import Verif.Props.Patchy
import Verif.Props.PathFound

/-! C113: RAID6 arrays whose members contain anything. -/

namespace MdRecover
open MdSpec

/-- The members contain anything: the sector read gives what is in the place for these data, if P agrees with the
data, and an error otherwise. -/
theorem pure_readSector_any {L n c size : Nat} {alg : Raid6Algorithm} {members : Nat → Disk}
    {content : Bytes} (hL : Raid6Algorithm.fromLayout L = some alg)
    (hset : Raid6Members L n c size members content) {disks : Nat → Option Disk}
    (hdisks : ∀ d, d < n → disks d = some (members d)) {b : Nat} (hb : b < size * (n - 2)) :
    (StripeSound L n c members b ∧ (alg.readSector b c n (MdArray.pureFn (MdArray.memberAnswer disks)) ()).2 =
      .ok (slice content (b * 512) 512)) ∨
    (¬ StripeSound L n c members b ∧ (alg.readSector b c n (MdArray.pureFn (MdArray.memberAnswer disks)) ()).2 =
      .err .invalidData) := by
  have hn := hset.devices
  have hc := hset.chunk
  obtain ⟨k, hk⟩ := hset.whole_chunks
  rw [Nat.mul_comm] at hk
  have hbl := hset.bytes_lt
  have hsle : size ≤ size * (n - 2) := Nat.le_mul_of_pos_right _ (by omega)
  rw [hk] at hb
  obtain ⟨h3, h4⟩ := capacity_forward hc hb
  rw [← hk] at hb h4
  have hkle : k ≤ size := by rw [hk]; exact Nat.le_mul_of_pos_right _ hc
  have hbU : b < U64 := by omega
  obtain ⟨row, hrow, hP, hQ, hD⟩ := raid6Row_get (s := b / c / (n - 2)) hn hL
  have hi : b / c % (n - 2) < n - 2 := Nat.mod_lt _ (by omega)
  have hd := hD _ hi
  have hsec : b / (c * (n - 2)) * c + b % c = b / c / (n - 2) * c + b % c := by
    rw [Nat.div_div_eq_div_mul]
  have hrel : ReliableRead (MdArray.pureFn (MdArray.memberAnswer disks)) (fun d s => (members d).sector s) n
      (b / c / (n - 2) * c + b % c) := by
    intro _ d buf hdn hbuf
    have hsz := hset.member_size d hdn
    clear hsec
    have hsize : size * 512 < U64 := MdArray.fit_total hsle hbl
    generalize b / c / (n - 2) * c + b % c = sec at h4 ⊢
    clear hb hbl hsle hbU hi hrow hP hQ hD hd h3 hk hkle
    have hfit : sec * 512 + 512 ≤ (members d).content.length := MdArray.fit_sector h4 hsz
    have hl := MdArray.sector_length hfit
    refine ⟨hl, ?_⟩
    show MdArray.memberAnswer disks d _ buf = _
    unfold MdArray.memberAnswer
    rw [if_neg (by omega), hdisks d hdn]
    simp only
    rw [if_neg (by omega), if_neg (by omega), MdArray.overwrite_full (by rw [hl, hbuf])]
  by_cases hA : StripeSound L n c members b
  · refine .inl ⟨hA, ?_⟩
    have hcons := hA row hrow
    rw [← hsec] at hcons hrel
    have := C11_raid6_read_consistent () hL hbU hc hn hset.devices_lt (fun _ => by omega) hrow hd hrel hcons
    rw [this, hsec, hset.data b hb row _ hrow hd]
  · refine .inr ⟨hA, ?_⟩
    have hcs := alg.computeSector_closed hbU hc hn hset.devices_lt (fun _ => by omega)
    have hrb := Raid6Algorithm.readBuffers_reliable hrel (List.range n) ()
      (fun x hx => List.mem_range.mp hx)
    rw [(Raid6Algorithm.readSector_eval (s := ()) (store := fun d s => (members d).sector s) hn hrow hcs hP hQ
      (alg.dataOf_lt hn hi) (Prod.ext rfl hrb)).2 fun h => hA fun row' hrow' => ?_]
    rw [hrow] at hrow'
    cases hrow'
    exact h

/-- C113, the content: whatever the disks contain, if they are large enough they are the members of an array in this
sense, with one content. -/
theorem C113_content {L n c size : Nat} {alg : Raid6Algorithm} {members : Nat → Disk}
    (hL : Raid6Algorithm.fromLayout L = some alg) (hn : 3 ≤ n) (hn' : n < U32) (hc : 0 < c) (hdvd : c ∣ size)
    (hbytes : size * (n - 2) * 512 < U64) (hsize : ∀ d, d < n → size * 512 ≤ (members d).content.length) :
    ∃! content, Raid6Members L n c size members content := by
  have hsec : ∀ b, b < size * (n - 2) → b / c / (n - 2) * c + b % c < size := by
    intro b hb
    obtain ⟨k, hk⟩ := hdvd
    rw [Nat.mul_comm] at hk
    rw [hk] at hb
    have := (capacity_forward hc hb).2
    rwa [← hk] at this
  let sect : Nat → Bytes := fun b => (members (alg.dataOf n (b / c / (n - 2)) (b / c % (n - 2)))).sector
    (b / c / (n - 2) * c + b % c)
  have hlen : ∀ b, b < size * (n - 2) → (sect b).length = 512 := by
    intro b hb
    have hi : b / c % (n - 2) < n - 2 := Nat.mod_lt _ (by omega)
    exact MdArray.sector_length (MdArray.fit_sector (hsec b hb) (hsize _ (alg.dataOf_lt hn hi)))
  have hall : ∀ x ∈ (List.range (size * (n - 2))).map sect, x.length = 512 := by
    intro x hx
    obtain ⟨b, hb, rfl⟩ := List.mem_map.1 hx
    exact hlen b (List.mem_range.1 hb)
  have hfl : (((List.range (size * (n - 2))).map sect).flatten).length = size * (n - 2) * 512 := by
    have h := List.eq_replicate_iff.2 ⟨rfl, fun x (hx : x ∈ ((List.range (size * (n - 2))).map sect).map List.length) =>
      by obtain ⟨y, hy, rfl⟩ := List.mem_map.1 hx; exact hall y hy⟩
    rw [List.length_flatten, h, List.sum_replicate, List.length_map, List.length_map, List.length_range, smul_eq_mul]
  refine ⟨((List.range (size * (n - 2))).map sect).flatten, ⟨hn, hn', hc, hdvd, hbytes, hfl, hsize, ?_⟩, ?_⟩
  · intro b hb row d hrow hd
    obtain ⟨row', hrow', -, -, hD⟩ := raid6Row_get (s := b / c / (n - 2)) hn hL
    rw [hrow] at hrow'
    cases hrow'
    have hi : b / c % (n - 2) < n - 2 := Nat.mod_lt _ (by omega)
    rw [row_inj (raid6Row_nodup hn hrow) hd (hD _ hi)]
    exact slice_flatten_const _ hall b _ (by rw [List.getElem?_map, List.getElem?_range hb]; rfl)
  · intro other ho
    refine List.ext_getElem (by rw [ho.length, hfl]) fun i h1 h2 => ?_
    have hb : i / 512 < size * (n - 2) := by
      rw [ho.length] at h1
      exact Nat.div_lt_of_lt_mul (by rwa [Nat.mul_comm])
    obtain ⟨row, hrow, -, -, hD⟩ := raid6Row_get (s := i / 512 / c / (n - 2)) hn hL
    have hi : i / 512 / c % (n - 2) < n - 2 := Nat.mod_lt _ (by omega)
    have e1 := ho.data _ hb row _ hrow (hD _ hi)
    have e2 : slice ((List.range (size * (n - 2))).map sect).flatten (i / 512 * 512) 512 = sect (i / 512) :=
      slice_flatten_const _ hall (i / 512) _ (by rw [List.getElem?_map, List.getElem?_range hb]; rfl)
    have e3 : slice other (i / 512 * 512) 512 =
        slice ((List.range (size * (n - 2))).map sect).flatten (i / 512 * 512) 512 := e1.trans e2.symm
    have e4 := congrArg (fun l : Bytes => l[i % 512]?) e3
    unfold slice at e4
    simp only [List.getElem?_take, List.getElem?_drop, if_pos (Nat.mod_lt i (by decide : 512 > 0))] at e4
    rw [show i / 512 * 512 + i % 512 = i by omega, List.getElem?_eq_getElem h1, List.getElem?_eq_getElem h2] at e4
    exact Option.some.inj e4

section
variable {W D : Type} {F : Prop} {dev : BlockDev W D} {G : W → Prop} {Is : D → Disk → Prop}

/-- C113, sectors: members that do not fail, and contain anything.  A sector of the array is what is in its place, if
P of its stripe is the XOR of the data there, and cannot be read otherwise. -/
theorem C113_sectors (hd : DevSpec False dev G Is) {ord : IterOrder} (hord : ord.Valid)
    {L n c size : Nat} {alg : Raid6Algorithm} {members : Nat → Disk} {content : Bytes}
    {devices : List (MdDevice D)} (hL : Raid6Algorithm.fromLayout L = some alg)
    (hr : ReadableSet Is alg n c size members devices) (hset : Raid6Members L n c size members content)
    (w : W) (hG : G w) (b : Nat) (hb : b < size * (n - 2)) (buf : Bytes) (hl : buf.length = 512) :
    (StripeSound L n c members b → ((MdArray.dev dev).readBlock b buf (w, MdArray.open ord devices)).2 =
      .ok (512, (content.drop (b * 512)).take 512)) ∧
    (¬ StripeSound L n c members b → ((MdArray.dev dev).readBlock b buf (w, MdArray.open ord devices)).2 =
      .err .invalidData) := by
  obtain ⟨disks, h1, h2⟩ := hr.disks hord
  obtain ⟨-, -, k3⟩ := MdArray.readBlock_spec hd h1 b buf hG
  rcases k3 with ⟨hF, -⟩ | h
  · exact hF.elim
  rw [hr.formatInUse] at h
  unfold MdArray.pureRead at h
  rw [if_neg (by omega)] at h
  simp only [MdAlgorithm.readSector] at h
  rcases pure_readSector_any hL hset h2 hb with ⟨hA, hs⟩ | ⟨hA, hs⟩
  · rw [hs] at h
    refine ⟨fun _ => h.trans ?_, fun h => absurd hA h⟩
    have hlen : (slice content (b * 512) 512).length = 512 := by
      unfold slice
      rw [List.length_take, List.length_drop, hset.length]
      have := MdArray.fit_sector hb (Nat.le_refl _)
      omega
    simp only
    rw [if_neg (by omega)]
    rfl
  · rw [hs] at h
    exact ⟨fun h => absurd h hA, fun _ => h⟩

/-- C113, the array as a device: whatever the members contain, and also if they fail, the array is a device with this
content that may fail. -/
theorem C113_array_device (hd : DevSpec F dev G Is) {ord : IterOrder} (hord : ord.Valid)
    {L n c size : Nat} {alg : Raid6Algorithm} {members : Nat → Disk} {content : Bytes}
    {devices : List (MdDevice D)} (hL : Raid6Algorithm.fromLayout L = some alg)
    (hr : ReadableSet Is alg n c size members devices) (hset : Raid6Members L n c size members content) :
    DevSpec True (MdArray.dev dev) G
      (fun a k => a = MdArray.open ord devices ∧ k = ⟨512, size * (n - 2), content⟩) where
  wf := by
    rintro a k ⟨-, rfl⟩
    exact ⟨(by decide : 0 < 512), (by decide : 512 < U32), hset.length, hset.bytes_lt⟩
  blockSize := by
    rintro w a k hG ⟨-, rfl⟩
    exact ⟨hG, .inl rfl⟩
  blockCount := by
    rintro w a k hG ⟨rfl, rfl⟩
    refine ⟨hG, .inl ?_⟩
    have hlt : size * (n - 2) < U64 :=
      Nat.lt_of_le_of_lt (Nat.le_mul_of_pos_right _ (by decide)) hset.bytes_lt
    have h3 := hset.devices
    show (MdArray.blockCount (MdArray.open ord devices)) = _
    unfold MdArray.blockCount
    rw [hr.formatInUse]
    simp only [Res.ofOption, bind, Res.bind, MdFormat.dataSectorCount, MdFormat.dataDeviceCount,
      MdFormat.parityDeviceCount, MdAlgorithm.parityDeviceCount, Option.bind_some]
    rw [checkedSub_pos (by omega)]
    simp only [Option.bind_some]
    rw [checkedMul64_pos hlt]
  readBlock := by
    rintro w a k hG ⟨rfl, rfl⟩ b buf hb hl
    obtain ⟨disks, h1, h2⟩ := hr.disks hord
    obtain ⟨k1, k2, k3⟩ := MdArray.readBlock_spec hd h1 b buf hG
    refine ⟨k1, ⟨k2, rfl⟩, ?_⟩
    rcases k3 with ⟨-, e, h⟩ | h
    · exact .inr ⟨trivial, e, h⟩
    rw [hr.formatInUse] at h
    unfold MdArray.pureRead at h
    simp only at hl hb
    rw [if_neg (by omega)] at h
    simp only [MdAlgorithm.readSector] at h
    rcases pure_readSector_any hL hset h2 hb with ⟨-, hs⟩ | ⟨-, hs⟩
    · rw [hs] at h
      refine .inl (h.trans ?_)
      simp only
      have hlen : (slice content (b * 512) 512).length = 512 := by
        unfold slice
        rw [List.length_take, List.length_drop, hset.length]
        have := MdArray.fit_sector hb (Nat.le_refl _)
        omega
      rw [if_neg (by omega)]
      rfl
    · rw [hs] at h
      exact .inr ⟨trivial, _, h⟩
  tryClone := by
    rintro w a k hG ⟨rfl, rfl⟩
    exact ⟨hG, .inl ⟨_, rfl, rfl, rfl⟩⟩

/-- C113, ext4 on the array: what a program does with the filesystem gives the same results as on a plain device with
this content, up to the first error. -/
theorem C113_ext4 [Build] (hd : DevSpec F dev G Is) {ord : IterOrder} (hord : ord.Valid)
    {L n c size : Nat} {alg : Raid6Algorithm} {members : Nat → Disk} {content : Bytes}
    {devices : List (MdDevice D)} (hL : Raid6Algorithm.fromLayout L = some alg)
    (hr : ReadableSet Is alg n c size members devices) (hset : Raid6Members L n c size members content)
    (w : W) (hG : G w) (ops : List (Nat × SessionCall)) (hops : ∀ x ∈ ops, x.2.wellTyped) :
    let seen := sessionRun (Reader.streamDev (MdArray.dev dev))
      (w, [.device (Reader.new (MdArray.open ord devices))]) ops
    let plain := sessionRun InMemory.streamDev ((), [.device (InMemory.new content 512)]) ops
    seen = plain ∨ ∃ k e, seen.take k = plain.take k ∧ seen[k]? = some (.error e) := by
  have ha := C113_array_device hd hord hL hr hset
  rcases C76_failing_device (Reader.seekableVolume ha ⟨512, size * (n - 2), content⟩)
    InMemory.seekableVolume content w () _ (InMemory.new content 512) hG trivial
    ⟨rfl, 0, Reader.at_new (ha.wf ⟨rfl, rfl⟩) ⟨rfl, rfl⟩⟩ rfl (.inl rfl) ops hops with h | ⟨-, h⟩
  · exact .inl h
  · exact .inr h

/-- C113, what a path leads to: if following a path on the array arrives at an answer, what it went by is in the places
for data of the members (C112). -/
theorem C113_found [Build] (hd : DevSpec F dev G Is) {ord : IterOrder} (hord : ord.Valid) {L n c size : Nat}
    {alg : Raid6Algorithm} {members : Nat → Disk} {devices : List (MdDevice D)} {content : Bytes}
    (hL : Raid6Algorithm.fromLayout L = some alg) (hr : ReadableSet Is alg n c size members devices)
    (hset : Raid6Members L n c size members content) (ht : TableChecked content)
    (hcount : AllCounted content) (w : W) (hG : G w) (names : List Bytes) (rounds : Nat) (out : Found)
    (hne : out ≠ .running)
    (h : (readPath (Reader.streamDev (MdArray.dev dev)) rounds (Reader.new (MdArray.open ord devices)) names w).2
      = .ok out) : Ext4Readable (sbOf content) ∧ Backed content names out := by
  have ha := C113_array_device hd hord hL hr hset
  exact C112_backed (Reader.seekableVolume ha ⟨512, size * (n - 2), content⟩).toVolumeSpec content
    (by rw [hset.length]; exact hset.bytes_lt) ht hcount w hG _
    ⟨rfl, 0, Reader.at_new (ha.wf ⟨rfl, rfl⟩) ⟨rfl, rfl⟩⟩ names rounds out hne h

end

section
variable {W D : Type} {dev : BlockDev W D} {G : W → Prop} {Is : D → Disk → (Nat → Prop) → Prop}

/-- C113, sectors of members with unreadable blocks: a sector of the array can be read, and is what is in its place,
if P of its stripe is the XOR of the data there and the same sector of every member can be read. -/
theorem C113_array_patchy (h : PatchyDev dev G Is) {ord : IterOrder} (hord : ord.Valid)
    {L n c size : Nat} {alg : Raid6Algorithm} {members : Nat → Disk} {unreadable : Nat → Nat → Prop}
    {content : Bytes} {devices : List (MdDevice D)} (hL : Raid6Algorithm.fromLayout L = some alg)
    (hr : ReadableSet (fun d k => ∃ u, Is d k u) alg n c size members devices)
    (hu : ∀ d, d < n → ∀ x, SoleClaim devices x d → Is x.device (members d) (unreadable d))
    (hset : Raid6Members L n c size members content) :
    PatchyDev (MdArray.dev dev) G (fun a k bad => a = MdArray.open ord devices ∧
      k = ⟨512, size * (n - 2), content⟩ ∧
      bad = fun b => ¬ StripeSound L n c members b ∨ StripeUnreadable n c members unreadable b) where
  wf := by
    rintro a k bad ⟨rfl, rfl, -⟩
    exact (C113_array_device h.toDevEx hord hL hr hset).wf ⟨rfl, rfl⟩
  blockSize := by
    rintro w a k bad hG ⟨-, rfl, -⟩
    exact ⟨hG, rfl⟩
  blockCount := by
    rintro w a k bad hG ⟨rfl, rfl, -⟩
    refine ⟨hG, ?_⟩
    have hlt : size * (n - 2) < U64 :=
      Nat.lt_of_le_of_lt (Nat.le_mul_of_pos_right _ (by decide)) hset.bytes_lt
    have h3 := hset.devices
    show (MdArray.blockCount (MdArray.open ord devices)) = _
    unfold MdArray.blockCount
    rw [hr.formatInUse]
    simp only [Res.ofOption, bind, Res.bind, MdFormat.dataSectorCount, MdFormat.dataDeviceCount,
      MdFormat.parityDeviceCount, MdAlgorithm.parityDeviceCount, Option.bind_some]
    rw [checkedSub_pos (by omega)]
    simp only [Option.bind_some]
    rw [checkedMul64_pos hlt]
  tryClone := by
    rintro w a k bad hG ⟨rfl, rfl, rfl⟩
    exact ⟨hG, _, rfl, rfl, rfl, rfl⟩
  readBlock := by
    rintro w a k bad hG ⟨rfl, rfl, rfl⟩ b buf hb hl
    simp only at hl hb
    obtain ⟨h1, ⟨h2, -⟩, h3⟩ :=
      (C113_array_device h.toDevEx hord hL hr hset).readBlock hG ⟨rfl, rfl⟩ b buf hb hl
    refine ⟨h1, ⟨h2, rfl, rfl⟩, ?_⟩
    by_cases hbad : ¬ StripeSound L n c members b ∨ StripeUnreadable n c members unreadable b
    · exact h3.imp_right fun h => ⟨hbad, h.2⟩
    refine .inl ?_
    obtain ⟨hA, hS⟩ := not_or.mp hbad
    obtain ⟨disks, k1, k2⟩ := hr.disks hord
    have hsim : MdArray.SimulatesAt (fun d sec => d < n → SectorUnreadable (members d) (unreadable d) sec) G
        (fun w d sec b => MdArray.memberRead dev (MdArray.open ord devices).devices d sec b w)
        (MdArray.memberAnswer disks) := by
      intro w d sec buf hG
      obtain ⟨g1, g2⟩ := MdArray.memberRead_spec h.toDevEx k1 d sec buf hG
      refine ⟨g1, ?_⟩
      by_cases hx : d < n → SectorUnreadable (members d) (unreadable d) sec
      · exact g2.imp_left fun h => ⟨hx, h.2⟩
      · obtain ⟨hd, hs⟩ := Classical.not_imp.mp hx
        obtain ⟨x, hx1, -⟩ := hr.member d hd
        exact .inr (MdArray.memberRead_patchy h ((C24_active_iff hord devices d x).mpr hx1)
          (hu d hd x hx1) (k2 d hd) sec buf hG hs)
    have hbU : b < U64 :=
      Nat.lt_of_lt_of_le hb (Nat.le_of_lt (Nat.lt_of_le_of_lt (Nat.le_mul_of_pos_right _ (by decide)) hset.bytes_lt))
    have hread := MdArray.readSector_simAt hsim alg (sector := b) (c := c) (n := n) hbU hset.devices_lt hG
      fun d hd hx => hS ⟨d, hd, hx hd⟩
    rcases pure_readSector_any hL hset k2 hb with ⟨-, hs⟩ | ⟨hA', -⟩
    rotate_left
    · exact absurd hA' hA
    rw [hs] at hread
    show (MdArray.readBlock dev b buf (w, MdArray.open ord devices)).2 = _
    unfold MdArray.readBlock
    rw [if_neg (by omega)]
    simp only
    rw [hr.formatInUse]
    simp only [MdAlgorithm.readSector]
    rcases hre : alg.readSector b c n
      (fun w d sec b => MdArray.memberRead dev (MdArray.open ord devices).devices d sec b w) w with ⟨w', r⟩
    rw [hre] at hread
    simp only at hread
    subst hread
    simp only
    have hlen : (slice content (b * 512) 512).length = 512 := by
      unfold slice
      rw [List.length_take, List.length_drop, hset.length]
      have := MdArray.fit_sector hb (Nat.le_refl _)
      omega
    rw [if_neg (by omega)]
    rfl

/-- C113, files on the array: a path is followed to what the data of the members say if every sector of the array that
is needed for it is in a stripe where P is the XOR of the data and everything can be read. -/
theorem C113_array_path [Build] (h : PatchyDev dev G Is) {ord : IterOrder} (hord : ord.Valid)
    {L n c size : Nat} {alg : Raid6Algorithm} {members : Nat → Disk} {unreadable : Nat → Nat → Prop}
    {content : Bytes} {devices : List (MdDevice D)} (hL : Raid6Algorithm.fromLayout L = some alg)
    (hr : ReadableSet (fun d k => ∃ u, Is d k u) alg n c size members devices)
    (hu : ∀ d, d < n → ∀ x, SoleClaim devices x d → Is x.device (members d) (unreadable d))
    (hset : Raid6Members L n c size members content)
    (hc : Ext4Openable content) (hl : content.length < 2 ^ 57) (w : W) (hG : G w) (names : List Bytes)
    (out : Found) (hs : Says content names out)
    (hp : PathIntact (fun x => ¬ StripeSound L n c members (x / 512) ∨
      StripeUnreadable n c members unreadable (x / 512)) content names) :
    (∃ N, ∀ rounds, N ≤ rounds → (readPath (Reader.streamDev (MdArray.dev dev)) rounds
      (Reader.new (MdArray.open ord devices)) names w).2 = .ok out) ∧
    ∀ rounds, (readPath (Reader.streamDev (MdArray.dev dev)) rounds
        (Reader.new (MdArray.open ord devices)) names w).2 = .ok out ∨
      (readPath (Reader.streamDev (MdArray.dev dev)) rounds
        (Reader.new (MdArray.open ord devices)) names w).2 = .ok .running := by
  have ha := C113_array_patchy h hord hL hr hu hset
  exact C101_path (Reader.patchyVolume ha ⟨512, size * (n - 2), content⟩ _) hc hl
    (by simp only [noLimit]; omega) w hG _
    ⟨rfl, 0, Reader.at_new (ha.wf ⟨rfl, rfl, rfl⟩) ⟨rfl, rfl, rfl⟩⟩ names out hs hp

end

/-- C113, from the disks to the files (superblocks of version 1.0, as in C89): disks with intact superblocks whose data
areas contain anything; nothing fails.  All are opened; they have one content, in the places for data; the sectors of
the array made of them are as said above; what a program does with the filesystem on it gives the same results as on a
plain device with that content, up to the first error; and whatever it finds by following a path is there. -/
theorem C113_disks [Build] {fs : Bytes → Except Nat OsFile} {paths : List Bytes} {L n c size : Nat}
    {file : Nat → OsFile} {sb : Nat → Mdp1} {place : Nat → Nat}
    (h : MembersAt fs paths L n c size file sb place) {alg : Raid6Algorithm}
    (hL : Raid6Algorithm.fromLayout L = some alg) (hn : 3 ≤ n) (hn' : n < U32) (hc : 0 < c) (hdvd : c ∣ size)
    (hbytes : size * (n - 2) * 512 < U64)
    (hsize : ∀ d, d < n → size * 512 ≤ (asDisk (file (place d))).content.length)
    (s : System) (hos : NativeDev.NoFailures s.os) (hi : s.nextId + paths.length < U64) :
    ∃ s' devices content, openPaths fs paths s = (s', .ok (devices.map .ok)) ∧
      Raid6Members L n c size (fun d => asDisk (file (place d))) content ∧
      ∀ ord : IterOrder, ord.Valid →
        (∀ b, b < size * (n - 2) → ∀ buf : Bytes, buf.length = 512 →
          let r := ((MdArray.dev NativeDev.streamDev.toBlockDev).readBlock b buf
            (s'.os, MdArray.open ord devices)).2
          (StripeSound L n c (fun d => asDisk (file (place d))) b →
            r = .ok (512, (content.drop (b * 512)).take 512)) ∧
          (¬ StripeSound L n c (fun d => asDisk (file (place d))) b → r = .err .invalidData)) ∧
        (∀ ops : List (Nat × SessionCall), (∀ x ∈ ops, x.2.wellTyped) →
          let seen := sessionRun (Reader.streamDev (MdArray.dev NativeDev.streamDev.toBlockDev))
            (s'.os, [.device (Reader.new (MdArray.open ord devices))]) ops
          let plain := sessionRun InMemory.streamDev ((), [.device (InMemory.new content 512)]) ops
          seen = plain ∨ ∃ k e, seen.take k = plain.take k ∧ seen[k]? = some (.error e)) ∧
        (TableChecked content → AllCounted content → ∀ names rounds out, out ≠ .running →
          (readPath (Reader.streamDev (MdArray.dev NativeDev.streamDev.toBlockDev)) rounds
            (Reader.new (MdArray.open ord devices)) names s'.os).2 = .ok out →
          Ext4Readable (sbOf content) ∧ Backed content names out) := by
  obtain ⟨s', devices, h1, hG, hr⟩ := opened_disks h hL s hos hi
  obtain ⟨content, hset, -⟩ := C113_content hL hn hn' hc hdvd hbytes hsize
  exact ⟨s', devices, content, h1, hset, fun ord hord => ⟨fun b hb buf hl =>
    C113_sectors NativeDev.streamDevSpec_reliable.toDev hord hL hr hset s'.os hG b hb buf hl,
    fun ops hops => C113_ext4 NativeDev.streamDevSpec_reliable.toDev hord hL hr hset s'.os hG ops hops,
    fun ht hcount names rounds out hne hf =>
      C113_found NativeDev.streamDevSpec_reliable.toDev hord hL hr hset ht hcount s'.os hG names rounds out hne hf⟩⟩

/-! ## Cases -/

/-- In-memory members with any content whatever meet the hypotheses of the theorems above. -/
theorem any_memory {L n c size : Nat} {alg : Raid6Algorithm} {mem : Nat → Bytes} {bs : Nat → Nat}
    (hL : Raid6Algorithm.fromLayout L = some alg) (hn : 3 ≤ n) (hn' : n ≤ 0xff00) (hc : 0 < c)
    (hdvd : c ∣ size) (hbytes : size * (n - 2) * 512 < U64) (hmem : ∀ i, (mem i).length = size * 512)
    (hbs : ∀ i, i < n → 0 < bs i ∧ bs i < U32 ∧ bs i ∣ size * 512) :
    let members : Nat → Disk := fun i => ⟨bs i, size * 512 / bs i, mem i⟩
    ReadableSet InMemory.IsDisk alg n c size members (memMembers alg n c size 0 mem bs) ∧
      ∃! content, Raid6Members L n c size members content := by
  intro members
  have hsU : size * 512 < U64 :=
    MdArray.fit_total (Nat.le_mul_of_pos_right _ (by omega)) hbytes
  refine ⟨?_, C113_content hL hn (Nat.lt_of_le_of_lt hn' (by decide)) hc hdvd hbytes fun d _ => ?_⟩
  · have hr := memMembers_readable (alg := alg) (c := c) (size := size) (offset := 0)
      (mem := mem) (bs := bs) (n := n) (by omega) hn' (fun i hi => by
        obtain ⟨h1, h2, h3⟩ := hbs i hi
        rw [hmem]
        exact ⟨h1, h2, hsU, h3⟩)
    have he : (fun i => (⟨bs i, (mem i).length / bs i, mem i⟩ : Disk)) = members := by
      funext i
      rw [hmem]
    rwa [he] at hr
  · exact Nat.le_of_eq (hmem d).symm

/-- Four members of two sectors that were never an array: each is filled with bytes of its own. -/
def Fixture.fourDisks (i : Nat) : Bytes :=
  List.replicate 512 ([0x55, 0x0f, 0xf0, 0xff].getD i 0) ++ List.replicate 512 ([0x12, 0x34, 0x56, 0x78].getD i 0)

/-- C113, a case: in the first stripe (Q, D0, D1, P), by chance, P is the XOR of the data, and the two sectors are read:
they are those of members 1 and 2.  In the other it is not, and nothing is read. -/
theorem C113_case {ord : IterOrder} (hord : ord.Valid) (b : Nat) (hb : b < 4) (buf : Bytes)
    (hl : buf.length = 512) :
    ((MdArray.dev InMemory.dev).readBlock b buf ((), MdArray.open ord
      (memMembers .leftSymmetric 4 1 2 0 Fixture.fourDisks fun _ => 512))).2 =
      if b = 0 then .ok (512, List.replicate 512 0x0f) else if b = 1 then .ok (512, List.replicate 512 0xf0)
      else .err .invalidData := by
  have hlen : ∀ i, (Fixture.fourDisks i).length = 2 * 512 := by
    intro i
    rw [Fixture.fourDisks, List.length_append, List.length_replicate, List.length_replicate]
  obtain ⟨h1, content, h2, -⟩ := any_memory (L := 2) (n := 4) (c := 1) (size := 2) (alg := .leftSymmetric)
    (mem := Fixture.fourDisks) (bs := fun _ => 512) rfl (by decide) (by decide) (by decide) (by decide) (by decide)
    hlen (fun _ _ => by decide)
  obtain ⟨k1, k2⟩ := C113_sectors InMemory.devSpec hord (L := 2) rfl h1 h2 () trivial b hb buf hl
  have hsound : ∀ j, j < 2 → StripeSound 2 4 1 (fun i => (⟨512, 2 * 512 / 512, Fixture.fourDisks i⟩ : Disk)) j := by
    intro j hj row hrow
    have hz : j / 1 / (4 - 2) = 0 := by omega
    rw [hz] at hrow ⊢
    cases hrow
    have hz' : 0 * 1 + j % 1 = 0 := by omega
    rw [hz']
    intro p hp i hi
    have : p = 3 := by
      match p, hp with
      | 3, _ => rfl
      | 0, h => cases h
      | 1, h => cases h
      | 2, h => cases h
      | q + 4, h => cases h
    subst this
    have hs : ∀ d, (⟨512, 2 * 512 / 512, Fixture.fourDisks d⟩ : Disk).sector 0 =
        List.replicate 512 ([0x55, 0x0f, 0xf0, 0xff].getD d 0) := by
      intro d
      unfold Disk.sector slice Fixture.fourDisks
      rw [Nat.zero_mul, List.drop_zero, List.take_left' List.length_replicate]
    have hg : ∀ x : UInt8, (List.replicate 512 x).getD i 0 = x := by
      intro x
      rw [List.getD_eq_getElem _ _ (by rw [List.length_replicate]; exact hi), List.getElem_replicate]
    simp only [hs, hg]
    decide +kernel
  have hdata := h2.data b (by omega)
  by_cases h0 : b = 0
  · subst h0
    rw [if_pos rfl, k1 (hsound 0 (by decide))]
    have := hdata [.Q, .D 0, .D 1, .P] 1 rfl rfl
    unfold slice at this
    rw [this]
    decide +kernel
  · rw [if_neg h0]
    by_cases h1 : b = 1
    · subst h1
      rw [if_pos rfl, k1 (hsound 1 (by decide))]
      have := hdata [.Q, .D 0, .D 1, .P] 2 rfl rfl
      unfold slice at this
      rw [this]
      decide +kernel
    · rw [if_neg h1]
      refine k2 fun h => ?_
      have hz : b / 1 / (4 - 2) = 1 := by omega
      have hz' : b / 1 / (4 - 2) * 1 + b % 1 = 1 := by omega
      unfold StripeSound at h
      rw [hz', hz] at h
      have := h [.D 0, .D 1, .P, .Q] rfl 2 rfl 0 (by decide)
      revert this
      decide +kernel

open Fixture in
/-- C113, disks: the damaged disks of C100 meet the hypotheses. -/
theorem C113_disks_case [Build] : ∃ s' devices content,
    openPaths (hitFs 5000) casePaths quiet = (s', .ok (devices.map .ok)) ∧
    Raid6Members 2 4 1 13
      (fun d => asDisk (hitFile 5000 (caseOrder.getD (casePlace d) 0))) content ∧
    ∀ ord : IterOrder, ord.Valid → ∀ ops : List (Nat × SessionCall), (∀ x ∈ ops, x.2.wellTyped) →
      let seen := sessionRun (Reader.streamDev (MdArray.dev NativeDev.streamDev.toBlockDev))
        (s'.os, [.device (Reader.new (MdArray.open ord devices))]) ops
      let plain := sessionRun InMemory.streamDev ((), [.device (InMemory.new content 512)]) ops
      seen = plain ∨ ∃ k e, seen.take k = plain.take k ∧ seen[k]? = some (.error e) := by
  obtain ⟨s', devices, content, h1, h2, h3⟩ := C113_disks (hit_membersAt hit_5000) (alg := .leftSymmetric) rfl
    (by decide) (by decide) (by decide) (by decide) (by decide) (hit_damage hit_5000).member_size quiet
    quiet_noFailures (by decide)
  exact ⟨s', devices, content, h1, h2, fun ord hord => (h3 ord hord).2.1⟩

end MdRecover
