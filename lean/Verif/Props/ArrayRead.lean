import Verif.Lemmas.Array
import Verif.Lemmas.ArrayRead
import Verif.Lemmas.Devices
import Verif.Lemmas.Encode
import Verif.Props.ArrayOpen

/-! C16-C19 and C21: reading an array through its members. -/

namespace MdRecover
open MdSpec

variable {W D : Type}

/-- Among `devices`, `x` is the only one (at its place) which claims to be member `n`. -/
def SoleClaim (devices : List (MdDevice D)) (x : MdDevice D) (n : Nat) : Prop :=
  ∃ l₁ l₂, devices = l₁ ++ x :: l₂ ∧ Claims devices x n ∧ ∀ y ∈ l₁ ++ l₂, ¬ Claims devices y n

/-- What is needed of devices given to `open` for their array to be readable: every device is some disk; all
superblocks describe the same RAID6 format and no reshape; each member number has one device, with the
disk `members d`. -/
structure ReadableSet (Is : D → Disk → Prop) (alg : Raid6Algorithm) (n c size : Nat)
    (members : Nat → Disk) (devices : List (MdDevice D)) : Prop where
  disk : ∀ x ∈ devices, ∃ k, Is x.device k
  superblocks : AllHave devices fun s => s.algorithm = .raid6 alg ∧ s.raidDeviceCount = n ∧
    s.sectorsPerDevice = size ∧ s.chunkSize = c ∧ s.reshapeStatus = none
  member : ∀ d, d < n → ∃ x, SoleClaim devices x d ∧ Is x.device (members d)

namespace ReadableSet
variable {Is : D → Disk → Prop} {alg : Raid6Algorithm} {n c size : Nat} {members : Nat → Disk}
  {devices : List (MdDevice D)}

theorem formatInUse (h : ReadableSet Is alg n c size members devices) (ord : IterOrder) :
    MdArray.formatInUse (MdArray.open ord devices) = some ⟨.raid6 alg, n, size, c⟩ := by
  have h1 : (MdArray.open ord devices).format = some ⟨.raid6 alg, n, size, c⟩ := by
    rw [C22_format_iff]
    refine ⟨h.superblocks.1, fun d hd => ?_⟩
    obtain ⟨s, hs, e1, e2, e3, e4, _⟩ := h.superblocks.2 d hd
    exact ⟨s, hs, e1, e2, e3, e4⟩
  have h2 : (MdArray.open ord devices).newFormat = none := by
    cases hf : (MdArray.open ord devices).newFormat with
    | none => rfl
    | some f =>
      rw [C22_new_format_iff] at hf
      obtain ⟨x, hx⟩ := List.exists_mem_of_ne_nil _ hf.1
      obtain ⟨s, hs, st, hst, _⟩ := hf.2 x hx
      obtain ⟨s', hs', _, _, _, _, e⟩ := h.superblocks.2 x hx
      rw [hs] at hs'
      cases hs'
      rw [e] at hst
      cases hst
  unfold MdArray.formatInUse
  rw [h1, h2]
  rfl

theorem disks (h : ReadableSet Is alg n c size members devices) {ord : IterOrder}
    (hord : ord.Valid) : ∃ disks : Nat → Option Disk,
      MdArray.Disks Is (MdArray.open ord devices).devices disks ∧
        ∀ d, d < n → disks d = some (members d) := by
  have hex : ∀ d, ∃ k : Option Disk,
      (((MdArray.open ord devices).devices.get d = none ∧ k = none) ∨
        ∃ x k', (MdArray.open ord devices).devices.get d = some x ∧ k = some k' ∧ Is x.device k') ∧
      (d < n → k = some (members d)) := by
    intro d
    by_cases hd : d < n
    · obtain ⟨x, hx, hi⟩ := h.member d hd
      have := (C24_active_iff hord devices d x).mpr hx
      exact ⟨some (members d), .inr ⟨x, _, this, rfl, hi⟩, fun _ => rfl⟩
    · cases hg : (MdArray.open ord devices).devices.get d with
      | none => exact ⟨none, .inl ⟨rfl, rfl⟩, fun h => absurd h hd⟩
      | some x =>
        obtain ⟨l₁, l₂, he, _⟩ := (C24_active_iff hord devices d x).mp hg
        obtain ⟨k, hk⟩ := h.disk x (by rw [he]; simp)
        exact ⟨some k, .inr ⟨x, k, rfl, rfl, hk⟩, fun h => absurd h hd⟩
  exact ⟨fun d => (hex d).choose, fun d => (hex d).choose_spec.1, fun d => (hex d).choose_spec.2⟩

end ReadableSet

/-! ## C16 -/

/-- C16 for data areas that begin at the first sector of the members: the array is a block device with
512-byte blocks which holds the logical content.  The members' block sizes are arbitrary, their order and
the hash order too; with `F := True` the members may fail at any time, and then the array may fail but
never gives other data.  Missing for the full claim: data areas that begin elsewhere, for which it is
false (`C17_data_offset_ignored`). -/
theorem C16_array_device_partial {F : Prop} {dev : BlockDev W D} {G : W → Prop}
    {Is : D → Disk → Prop} (hd : DevSpec F dev G Is) {ord : IterOrder} (hord : ord.Valid)
    {L n c size : Nat} {alg : Raid6Algorithm} {members : Nat → Disk} {content : Bytes}
    {devices : List (MdDevice D)} (hL : Raid6Algorithm.fromLayout L = some alg)
    (hr : ReadableSet Is alg n c size members devices)
    (hset : Raid6Set L n c size members content) :
    DevSpec F (MdArray.dev dev) G
      (fun a k => a = MdArray.open ord devices ∧ k = ⟨512, size * (n - 2), content⟩) where
  wf := by
    rintro a k ⟨-, rfl⟩
    exact ⟨(by decide : 0 < 512), (by decide : 512 < U32), hset.length, hset.bytes_lt⟩
  blockSize := by
    rintro w a k hG ⟨-, rfl⟩
    exact ⟨hG, .inl rfl⟩
  blockCount := by
    rintro w a k hG ⟨rfl, rfl⟩
    refine ⟨hG, .inl ?_⟩
    have hlt : size * (n - 2) < U64 :=
      Nat.lt_of_le_of_lt (Nat.le_mul_of_pos_right _ (by decide)) hset.bytes_lt
    have h3 := hset.devices
    show (MdArray.blockCount (MdArray.open ord devices)) = _
    unfold MdArray.blockCount
    rw [hr.formatInUse]
    simp only [Res.ofOption, bind, Res.bind, MdFormat.dataSectorCount, MdFormat.dataDeviceCount,
      MdFormat.parityDeviceCount, MdAlgorithm.parityDeviceCount, Option.bind_some]
    rw [checkedSub_pos (by omega)]
    simp only [Option.bind_some]
    rw [checkedMul64_pos hlt]
  readBlock := by
    rintro w a k hG ⟨rfl, rfl⟩ b buf hb hl
    obtain ⟨disks, h1, h2⟩ := hr.disks hord
    obtain ⟨k1, k2, k3⟩ := MdArray.readBlock_spec hd h1 b buf hG
    refine ⟨k1, ⟨k2, rfl⟩, ?_⟩
    rcases k3 with ⟨hF, e, h⟩ | h
    · exact .inr ⟨hF, e, h⟩
    · refine .inl (h.trans ?_)
      rw [hr.formatInUse]
      unfold MdArray.pureRead
      simp only at hl hb
      rw [if_neg (by omega)]
      simp only [MdAlgorithm.readSector]
      rw [MdArray.pure_readSector_set hL hset h2 hb]
      simp only
      have hlen : (slice content (b * 512) 512).length = 512 := by
        unfold slice
        rw [List.length_take, List.length_drop, hset.length]
        have := MdArray.fit_sector hb (Nat.le_refl _)
        omega
      rw [if_neg (by omega)]
      rfl
  tryClone := by
    rintro w a k hG ⟨rfl, rfl⟩
    exact ⟨hG, .inl ⟨_, rfl, rfl, rfl⟩⟩

/-! ## C17 -/

/-- The device with another data offset in its superblock. -/
def withOffset (o : MdDevice D → Nat) (d : MdDevice D) : MdDevice D :=
  { d with superblock := match d.superblock with
      | .superblock s => .superblock { s with dataOffset := o d }
      | x => x }

theorem withOffset_roles (o : MdDevice D → Nat) (d : MdDevice D) :
    (withOffset o d).superblock.asOption.map (·.deviceRoles) =
      d.superblock.asOption.map (·.deviceRoles) := by
  unfold withOffset; cases d.superblock <;> rfl

theorem withOffset_mergedRoles (o : MdDevice D → Nat) (devices : List (MdDevice D)) :
    MdArray.mergedRoles (devices.map (withOffset o)) = MdArray.mergedRoles devices := by
  unfold MdArray.mergedRoles
  rw [List.map_map]
  congr 1
  exact List.map_congr_left fun d _ => withOffset_roles o d

theorem withOffset_number (o : MdDevice D → Nat) (roles : Option (List Role)) (d : MdDevice D) :
    MdArray.deviceNumber roles (withOffset o d) = MdArray.deviceNumber roles d := by
  unfold MdArray.deviceNumber withOffset; cases d.superblock <;> rfl

theorem withOffset_get (o : MdDevice D → Nat) {ord : IterOrder} (hord : ord.Valid)
    (devices : List (MdDevice D)) (n : Nat) :
    (MdArray.open ord (devices.map (withOffset o))).devices.get n =
      ((MdArray.open ord devices).devices.get n).map (withOffset o) := by
  have hf : (devices.map (withOffset o)).filter (fun d =>
        decide (MdArray.deviceNumber (MdArray.mergedRoles (devices.map (withOffset o))) d = some n)) =
      (devices.filter (fun d =>
        decide (MdArray.deviceNumber (MdArray.mergedRoles devices) d = some n))).map
          (withOffset o) := by
    rw [List.filter_map]
    congr 1
    apply List.filter_congr
    intro d _
    simp only [Function.comp, withOffset_mergedRoles, withOffset_number]
  apply Option.ext
  intro x
  rw [MdArray.open_get hord, hf]
  constructor
  · intro h
    obtain ⟨y, hy, rfl⟩ := List.map_eq_singleton_iff.mp h
    rw [Option.map_eq_some_iff]
    exact ⟨y, (MdArray.open_get hord devices n y).mpr hy, rfl⟩
  · intro h
    obtain ⟨y, hy, rfl⟩ := Option.map_eq_some_iff.mp h
    rw [(MdArray.open_get hord devices n y).mp hy]
    rfl

/-- C17 is false: over reliable members, no read depends on the data offsets. -/
theorem C17_data_offset_ignored {dev : BlockDev W D} {G : W → Prop} {Is : D → Disk → Prop}
    (hd : DevSpec False dev G Is) {ord : IterOrder} (hord : ord.Valid) {devices : List (MdDevice D)}
    (hk : ∀ x ∈ devices, ∃ k, Is x.device k) (o : MdDevice D → Nat) (b : Nat) (buf : Bytes) {w : W}
    (hG : G w) :
    ((MdArray.dev dev).readBlock b buf (w, MdArray.open ord (devices.map (withOffset o)))).2 =
      ((MdArray.dev dev).readBlock b buf (w, MdArray.open ord devices)).2 := by
  have hex : ∀ d, ∃ k : Option Disk,
      ((MdArray.open ord devices).devices.get d = none ∧ k = none) ∨
        ∃ x k', (MdArray.open ord devices).devices.get d = some x ∧ k = some k' ∧
          Is x.device k' := by
    intro d
    cases hg : (MdArray.open ord devices).devices.get d with
    | none => exact ⟨none, .inl ⟨rfl, rfl⟩⟩
    | some x =>
      obtain ⟨l₁, l₂, he, _⟩ := (C24_active_iff hord devices d x).mp hg
      obtain ⟨k, hk⟩ := hk x (by rw [he]; simp)
      exact ⟨some k, .inr ⟨x, k, rfl, rfl, hk⟩⟩
  have h1 : MdArray.Disks Is (MdArray.open ord devices).devices (fun d => (hex d).choose) :=
    fun d => (hex d).choose_spec
  have h2 : MdArray.Disks Is (MdArray.open ord (devices.map (withOffset o))).devices
      (fun d => (hex d).choose) := by
    intro d
    rw [withOffset_get o hord]
    rcases h1 d with ⟨e1, e2⟩ | ⟨x, k, e1, e2, e3⟩
    · exact .inl ⟨by rw [e1]; rfl, e2⟩
    · exact .inr ⟨withOffset o x, k, by rw [e1]; rfl, e2, e3⟩
  obtain ⟨-, -, k1⟩ := MdArray.readBlock_spec hd h1 b buf hG
  obtain ⟨-, -, k2⟩ := MdArray.readBlock_spec hd h2 b buf hG
  rcases k1 with ⟨hF, -⟩ | k1
  · exact hF.elim
  rcases k2 with ⟨hF, -⟩ | k2
  · exact hF.elim
  have hfmt : MdArray.formatInUse (MdArray.open ord (devices.map (withOffset o))) =
      MdArray.formatInUse (MdArray.open ord devices) := by
    have e1 : ∀ d : MdDevice D, MdFormat.fromSuperblock (withOffset o d).superblock =
        MdFormat.fromSuperblock d.superblock := by
      intro d; unfold withOffset; cases d.superblock <;> rfl
    have e2 : ∀ d : MdDevice D, MdFormat.fromSuperblockReshapeStatus (withOffset o d).superblock =
        MdFormat.fromSuperblockReshapeStatus d.superblock := by
      intro d; unfold withOffset; cases d.superblock <;> rfl
    unfold MdArray.formatInUse MdArray.open
    simp only [List.map_map, Function.comp_def, e1, e2]
  show (MdArray.readBlock dev b buf _).2 = (MdArray.readBlock dev b buf _).2
  rw [k1, k2, hfmt]

/-- The data area of a disk: what follows the data offset. -/
def dataArea (k : Disk) (offset : Nat) : Disk := { k with content := k.content.drop (offset * 512) }

/-- C17 for data offset zero: the data area of each member is what follows the data offset of its superblock, and
the data areas hold the array's content; if the offsets are zero, reads return that content.  Missing for the full
claim: any other offset, for which it is false (`C17_reads_before_the_data_area`). -/
theorem C17_zero_offset_partial {F : Prop} {dev : BlockDev W D} {G : W → Prop}
    {Is : D → Disk → Prop} (hd : DevSpec F dev G Is) {ord : IterOrder} (hord : ord.Valid)
    {L n c size : Nat} {alg : Raid6Algorithm} {disks : Nat → Disk} {offset : Nat → Nat}
    {content : Bytes} {devices : List (MdDevice D)} (hL : Raid6Algorithm.fromLayout L = some alg)
    (hr : ReadableSet Is alg n c size disks devices)
    (hoff : ∀ d, d < n → ∀ x s, SoleClaim devices x d → x.superblock = .superblock s →
      s.dataOffset = offset d)
    (hzero : ∀ x ∈ devices, ∀ s, x.superblock = .superblock s → s.dataOffset = 0)
    (hset : Raid6Set L n c size (fun d => dataArea (disks d) (offset d)) content)
    {b : Nat} (hb : b < size * (n - 2)) {buf : Bytes} (hbuf : buf.length = 512) {w : W} (hG : G w) :
    Gives F ((MdArray.dev dev).readBlock b buf (w, MdArray.open ord devices)).2
      (512, (content.drop (b * 512)).take 512) := by
  have h0 : ∀ d, d < n → dataArea (disks d) (offset d) = disks d := by
    intro d hdn
    obtain ⟨x, hx, -⟩ := hr.member d hdn
    obtain ⟨l₁, l₂, he, -⟩ := id hx
    have hmem : x ∈ devices := by rw [he]; simp
    obtain ⟨s, hs, -⟩ := hr.superblocks.2 x hmem
    rw [← hoff d hdn x s hx hs, hzero x hmem s hs]
    simp [dataArea]
  have hr' : ReadableSet Is alg n c size (fun d => dataArea (disks d) (offset d)) devices :=
    ⟨hr.disk, hr.superblocks, fun d hdn => by simp only [h0 d hdn]; exact hr.member d hdn⟩
  exact ((C16_array_device_partial hd hord hL hr' hset).readBlock hG ⟨rfl, rfl⟩ b buf hb hbuf).2.2

/-! ## C18 -/

/-- C18 is false: with a larger buffer, a read that would succeed panics. -/
theorem C18_larger_buffer_panics {dev : BlockDev W D} {G : W → Prop}
    {Is : D → Disk → Prop} (hd : DevSpec False dev G Is) {ord : IterOrder} (hord : ord.Valid)
    {L n c size : Nat} {alg : Raid6Algorithm} {members : Nat → Disk} {content : Bytes}
    {devices : List (MdDevice D)} (hL : Raid6Algorithm.fromLayout L = some alg)
    (hr : ReadableSet Is alg n c size members devices)
    (hset : Raid6Set L n c size members content) {b : Nat} (hb : b < size * (n - 2)) {buf : Bytes}
    (hbuf : 512 < buf.length) {w : W} (hG : G w) :
    ((MdArray.dev dev).readBlock b buf (w, MdArray.open ord devices)).2 = .panic := by
  obtain ⟨disks, h1, h2⟩ := hr.disks hord
  obtain ⟨-, -, ⟨hF, -⟩ | h⟩ := MdArray.readBlock_spec hd h1 b buf hG
  · exact hF.elim
  refine h.trans ?_
  rw [hr.formatInUse]
  unfold MdArray.pureRead
  rw [if_neg (by omega)]
  simp only [MdAlgorithm.readSector]
  rw [MdArray.pure_readSector_set hL hset h2 hb]
  simp only
  rw [if_pos]
  unfold slice
  rw [List.length_take]
  omega

/-- C18 for buffers of at most 512 bytes: for any array over members that answer as disks or fail, and
any block number, the read gives an error or fills the buffer with 512 bytes; a shorter buffer is an error.
Missing for the full claim: larger buffers, for which it is false (`C18_larger_buffer_panics`). -/
theorem C18_exact_buffer_partial {F : Prop} {dev : BlockDev W D} {G : W → Prop}
    {Is : D → Disk → Prop} (hd : DevSpec F dev G Is) (a : ArrayDef D)
    (hk : ∀ d x, a.devices.get d = some x → ∃ k, Is x.device k)
    (hn : ∀ f, a.format = some f ∨ a.newFormat = some f → f.deviceCount < U32)
    {b : Nat} (hb : b < U64) (buf : Bytes) (hbuf : buf.length ≤ 512) {w : W} (hG : G w) :
    (∃ e, ((MdArray.dev dev).readBlock b buf (w, a)).2 = .err e) ∨
      (buf.length = 512 ∧ ∃ block : Bytes, block.length = 512 ∧
        ((MdArray.dev dev).readBlock b buf (w, a)).2 = .ok (512, block)) := by
  have hex : ∀ d, ∃ k : Option Disk, (a.devices.get d = none ∧ k = none) ∨
      ∃ x k', a.devices.get d = some x ∧ k = some k' ∧ Is x.device k' := by
    intro d
    cases hg : a.devices.get d with
    | none => exact ⟨none, .inl ⟨rfl, rfl⟩⟩
    | some x =>
      obtain ⟨k, hk⟩ := hk d x hg
      exact ⟨some k, .inr ⟨x, k, rfl, rfl, hk⟩⟩
  have h1 : MdArray.Disks Is a.devices (fun d => (hex d).choose) := fun d => (hex d).choose_spec
  have hf : ∀ f, MdArray.formatInUse a = some f → f.deviceCount < U32 := by
    intro f h
    unfold MdArray.formatInUse at h
    rcases Option.or_eq_some_iff.mp h with h | ⟨_, h⟩
    · exact hn f (.inr h)
    · exact hn f (.inl h)
  obtain ⟨-, -, ⟨-, h⟩ | h⟩ := MdArray.readBlock_spec hd h1 b buf hG
  · exact .inl h
  by_cases hs : buf.length < 512
  · refine .inl ⟨.invalidInput, h.trans ?_⟩
    unfold MdArray.pureRead
    rw [if_pos hs]
  rcases MdArray.pureRead_cases hb hf hbuf with ⟨e, he⟩ | ⟨blk, hl, he⟩
  · exact .inl ⟨e, h.trans he⟩
  · exact .inr ⟨by omega, blk, hl, h.trans he⟩

/-! ## C19 -/

/-- C19: the format in use is RAID6 and some member number has no active device.  No read gives data,
whatever the devices do. -/
theorem C19_missing_member_no_data (dev : BlockDev W D) (a : ArrayDef D) {f : MdFormat}
    {alg : Raid6Algorithm} (hf : a.newFormat = some f ∨ a.newFormat = none ∧ a.format = some f)
    (halg : f.algorithm = .raid6 alg) (hn : f.deviceCount < U32) {k : Nat} (hk : k < f.deviceCount)
    (hm : a.devices.get k = none) {b : Nat} (hb : b < U64) (buf : Bytes) (w : W) :
    ∀ v, ((MdArray.dev dev).readBlock b buf (w, a)).2 ≠ .ok v := by
  intro v h
  have hfi : MdArray.formatInUse a = some f := Option.or_eq_some_iff.mpr hf
  have h' : (MdArray.readBlock dev b buf (w, a)).2 = .ok v := h
  unfold MdArray.readBlock at h'
  by_cases hs : buf.length < 512
  · rw [if_pos hs] at h'; cases h'
  rw [if_neg hs] at h'
  simp only [hfi, halg, MdAlgorithm.readSector] at h'
  have hno := (C13_raid6_read_fails_with_member alg
    (f := fun w d sec b => MdArray.memberRead dev a.devices d sec b w) w hb hn hk
    (c := f.chunkSize) (fun s m bs hbs => by
      exfalso
      unfold MdArray.memberRead at hbs
      split at hbs
      · cases hbs
      · rw [hm] at hbs; cases hbs)).1
  split at h'
  · rename_i w' block heq
    exact hno block (by rw [heq])
  · cases h'
  · cases h'

/-- C19: if moreover the other members answer as disks or fail, a read with a 512-byte buffer is an
error. -/
theorem C19_missing_member_error {F : Prop} {dev : BlockDev W D} {G : W → Prop}
    {Is : D → Disk → Prop} (hd : DevSpec F dev G Is) (a : ArrayDef D)
    (hkk : ∀ d x, a.devices.get d = some x → ∃ k, Is x.device k) {f : MdFormat}
    {alg : Raid6Algorithm} (hf : a.newFormat = some f ∨ a.newFormat = none ∧ a.format = some f)
    (halg : f.algorithm = .raid6 alg) (hn : f.deviceCount < U32) {k : Nat} (hk : k < f.deviceCount)
    (hm : a.devices.get k = none) {b : Nat} (hb : b < U64) (buf : Bytes) {w : W} (hG : G w) :
    ∃ e, ((MdArray.dev dev).readBlock b buf (w, a)).2 = .err e := by
  have hno := C19_missing_member_no_data dev a hf halg hn hk hm hb buf w
  have hfi : MdArray.formatInUse a = some f := Option.or_eq_some_iff.mpr hf
  have hex : ∀ d, ∃ k : Option Disk, (a.devices.get d = none ∧ k = none) ∨
      ∃ x k', a.devices.get d = some x ∧ k = some k' ∧ Is x.device k' := by
    intro d
    cases hg : a.devices.get d with
    | none => exact ⟨none, .inl ⟨rfl, rfl⟩⟩
    | some x =>
      obtain ⟨k, hk⟩ := hkk d x hg
      exact ⟨some k, .inr ⟨x, k, rfl, rfl, hk⟩⟩
  have h1 : MdArray.Disks Is a.devices (fun d => (hex d).choose) := fun d => (hex d).choose_spec
  obtain ⟨-, -, ⟨-, h⟩ | h⟩ := MdArray.readBlock_spec hd h1 b buf hG
  · exact h
  by_cases hs : buf.length < 512
  · refine ⟨.invalidInput, h.trans ?_⟩
    unfold MdArray.pureRead
    rw [if_pos hs]
  refine Exists.imp (fun e he => h.trans he) ?_
  unfold MdArray.pureRead
  rw [if_neg hs, hfi]
  simp only
  rcases MdArray.pure_readSector (disks := fun d => (hex d).choose) f.algorithm (c := f.chunkSize)
    hb hn with ⟨e, he⟩ | ⟨blk, he, -⟩
  · rw [he]; exact ⟨e, rfl⟩
  · exfalso
    rw [halg] at he
    refine (C13_raid6_read_fails_with_member alg
      (f := MdArray.pureFn (MdArray.memberAnswer fun d => (hex d).choose)) () hb hn hk
      (c := f.chunkSize) (fun s m bs hbs => ?_)).1 blk he
    exfalso
    have hkn : (hex k).choose = none := by
      rcases h1 k with ⟨-, e⟩ | ⟨x, _, e, _⟩
      · exact e
      · rw [hm] at e; cases e
    exact MdArray.pureFn_none hkn hbs

/-! ## C21 -/

/-- One use of a set of array handles. -/
inductive HandleOp where
  | clone (i : Nat)
  | read (i b : Nat) (buf : Bytes)

/-- Runs one operation; a clone is added to the handles, a read changes its handle in place. -/
def stepHandles (dev : BlockDev W (ArrayDef D)) (op : HandleOp) (s : W × List (ArrayDef D)) :
    (W × List (ArrayDef D)) × Option (Res (Nat × Bytes)) :=
  match op with
  | .clone i => match s.2[i]? with
    | none => (s, none)
    | some a => match dev.tryClone a s.1 with
      | (w, .ok a') => ((w, s.2 ++ [a']), none)
      | (w, _) => ((w, s.2), none)
  | .read i b buf => match s.2[i]? with
    | none => (s, none)
    | some a => (((dev.readBlock b buf (s.1, a)).1.1, s.2.set i (dev.readBlock b buf (s.1, a)).1.2),
        some (dev.readBlock b buf (s.1, a)).2)

/-- Runs operations in order and gives the outcomes of the reads. -/
def runHandles (dev : BlockDev W (ArrayDef D)) :
    List HandleOp → W × List (ArrayDef D) → List (Option (Res (Nat × Bytes)))
  | [], _ => []
  | op :: ops, s => (stepHandles dev op s).2 :: runHandles dev ops (stepHandles dev op s).1

/-- C21: over reliable members, in any interleaving of clones and reads starting from one array, every
read of block `b` gives what the array would have given for `b` at the very start. -/
theorem C21_clones_read_identically {dev : BlockDev W D} {G : W → Prop} {Is : D → Disk → Prop}
    (hd : DevSpec False dev G Is) (a : ArrayDef D)
    (hk : ∀ d x, a.devices.get d = some x → ∃ k, Is x.device k) {w : W} (hG : G w)
    (ops : List HandleOp) (j i b : Nat) (buf : Bytes) (r : Res (Nat × Bytes))
    (hop : ops[j]? = some (.read i b buf))
    (hr : (runHandles (MdArray.dev dev) ops (w, [a]))[j]? = some (some r)) :
    r = ((MdArray.dev dev).readBlock b buf (w, a)).2 := by
  have hex : ∀ d, ∃ k : Option Disk, (a.devices.get d = none ∧ k = none) ∨
      ∃ x k', a.devices.get d = some x ∧ k = some k' ∧ Is x.device k' := by
    intro d
    cases hg : a.devices.get d with
    | none => exact ⟨none, .inl ⟨rfl, rfl⟩⟩
    | some x =>
      obtain ⟨k, hk⟩ := hk d x hg
      exact ⟨some k, .inr ⟨x, k, rfl, rfl, hk⟩⟩
  have h1 : MdArray.Disks Is a.devices (fun d => (hex d).choose) := fun d => (hex d).choose_spec
  have hread : ∀ {w : W}, G w → ∀ b buf, G ((MdArray.dev dev).readBlock b buf (w, a)).1.1 ∧
      ((MdArray.dev dev).readBlock b buf (w, a)).1.2 = a ∧
      ((MdArray.dev dev).readBlock b buf (w, a)).2 =
        MdArray.pureRead (MdArray.formatInUse a) (fun d => (hex d).choose) b buf := by
    intro w hG b buf
    obtain ⟨k1, k2, ⟨hF, -⟩ | k3⟩ := MdArray.readBlock_spec hd h1 b buf hG
    · exact hF.elim
    · exact ⟨k1, k2, k3⟩
  rw [(hread hG b buf).2.2]
  have gen : ∀ (ops : List HandleOp) (w : W) (hs : List (ArrayDef D)) (j : Nat), G w →
      (∀ x ∈ hs, x = a) → ops[j]? = some (.read i b buf) →
      (runHandles (MdArray.dev dev) ops (w, hs))[j]? = some (some r) →
      r = MdArray.pureRead (MdArray.formatInUse a) (fun d => (hex d).choose) b buf := by
    intro ops
    induction ops with
    | nil => intro w hs j _ _ h; simp at h
    | cons op ops ih =>
      intro w hs j hG hs' hop hr
      have hstep : G (stepHandles (MdArray.dev dev) op (w, hs)).1.1 ∧
          ∀ x ∈ (stepHandles (MdArray.dev dev) op (w, hs)).1.2, x = a := by
        cases op with
        | clone i =>
          unfold stepHandles
          cases hi : hs[i]? with
          | none => simp only [hi]; exact ⟨hG, hs'⟩
          | some x =>
            simp only [hi]
            have hx := hs' x (List.mem_of_getElem? hi)
            refine ⟨hG, fun y hy => ?_⟩
            rcases List.mem_append.mp hy with hy | hy
            · exact hs' y hy
            · exact (List.mem_singleton.mp hy).trans hx
        | read i b buf =>
          unfold stepHandles
          cases hi : hs[i]? with
          | none => simp only [hi]; exact ⟨hG, hs'⟩
          | some x =>
            simp only [hi]
            have hx := hs' x (List.mem_of_getElem? hi)
            subst hx
            obtain ⟨k1, k2, -⟩ := hread hG b buf
            refine ⟨k1, fun y hy => ?_⟩
            rcases List.mem_or_eq_of_mem_set hy with hy | hy
            · exact hs' y hy
            · exact hy.trans k2
      cases j with
      | zero =>
        simp only [List.getElem?_cons_zero, Option.some.injEq] at hop
        subst hop
        have hr1 := Option.some.inj hr
        unfold stepHandles at hr1
        cases hi : hs[i]? with
        | none => simp only [hi] at hr1; cases hr1
        | some x =>
          simp only [hi] at hr1
          have hr2 := Option.some.inj hr1
          have hx := hs' x (List.mem_of_getElem? hi)
          subst hx
          rw [← hr2, (hread hG b buf).2.2]
      | succ j =>
        simp only [List.getElem?_cons_succ] at hop
        simp only [runHandles, List.getElem?_cons_succ] at hr
        exact ih _ _ j hstep.1 hstep.2 hop hr
  exact gen ops w [a] j hG (by simp) hop hr

/-! ## Witnesses: in-memory members -/

/-- Member `i` of an array of `n`, in memory with block size `bs`. -/
def memMember (alg : Raid6Algorithm) (n c size offset : Nat) (mem : Bytes) (bs i : Nat) :
    MdDevice InMemory where
  id := ⟨i, none⟩
  superblock := .superblock
    { majorVersion := 1, minorVersion := 0, arrayUuid := .long [], arrayName := none
      algorithm := .raid6 alg, sectorsPerDevice := size, chunkSize := c
      raidDeviceCount := n, reshapeStatus := none, dataOffset := offset, deviceRoleIndex := i
      eventCount := 1, deviceRoles := (List.range n).map Role.mk }
  device := InMemory.new mem bs

/-- All members. -/
def memMembers (alg : Raid6Algorithm) (n c size offset : Nat) (mem : Nat → Bytes) (bs : Nat → Nat) :
    List (MdDevice InMemory) :=
  (List.range n).map fun i => memMember alg n c size offset (mem i) (bs i) i

theorem filterMap_replicate {α β : Type} (f : α → Option β) (a : α) (b : β) (h : f a = some b) :
    ∀ n, (List.replicate n a).filterMap f = List.replicate n b
  | 0 => rfl
  | n + 1 => by
    rw [List.replicate_succ, List.filterMap_cons_some h, filterMap_replicate f a b h n]; rfl

theorem memMembers_claims {alg : Raid6Algorithm} {n c size offset : Nat} {mem : Nat → Bytes}
    {bs : Nat → Nat} (hn : n ≤ 0xff00) {i : Nat} (hi : i < n) (d : Nat) :
    Claims (memMembers alg n c size offset mem bs)
      (memMember alg n c size offset (mem i) (bs i) i) d ↔ d = i := by
  have ht : Tables (memMembers alg n c size offset mem bs)
      (List.replicate n ((List.range n).map Role.mk)) := by
    unfold Tables memMembers
    rw [List.map_map, List.map_replicate, List.eq_replicate_iff]
    refine ⟨by simp, fun b hb => ?_⟩
    obtain ⟨j, -, rfl⟩ := List.mem_map.mp hb
    rfl
  have hcol : ∀ j, j < n → column (List.replicate n ((List.range n).map Role.mk)) j =
      List.replicate n ⟨j⟩ := by
    intro j hj
    exact filterMap_replicate _ _ _ (by simp [hj]) n
  have hcol' : ∀ j, ¬ j < n → column (List.replicate n ((List.range n).map Role.mk)) j = [] := by
    intro j hj
    unfold column
    rw [List.filterMap_eq_nil_iff]
    intro t ht
    rw [(List.mem_replicate.mp ht).2]
    simp; omega
  have hnc : ∀ j, ¬ Conflict (column (List.replicate n ((List.range n).map Role.mk)) j) := by
    rintro j ⟨a, ha, b, hb, -, -, hne⟩
    have ha := List.takeWhile_subset _ ha
    have hb := List.takeWhile_subset _ hb
    by_cases hj : j < n
    · rw [hcol j hj] at ha hb
      exact hne ((List.mem_replicate.mp ha).2.trans (List.mem_replicate.mp hb).2.symm)
    · rw [hcol' j hj] at ha; simp at ha
  have hmv : mergedValue (column (List.replicate n ((List.range n).map Role.mk)) i) = some ⟨i⟩ := by
    rw [hcol i hi]
    have h1 : invalidRole ⟨i⟩ = false := by simp [invalidRole]; omega
    have h2 : opinion ⟨i⟩ = true := by simp [opinion, h1]; omega
    unfold mergedValue
    have : n ≠ 0 := by omega
    rw [List.filter_replicate_of_neg (by simp [h1]), List.filter_replicate_of_pos h2]
    cases n with
    | zero => omega
    | succ n => rfl
  constructor
  · rintro ⟨tables, s, ht', -, hs, hv, -⟩
    have := tables_unique ht' ht
    subst this
    cases hs
    rw [hmv] at hv
    cases hv
    rfl
  · rintro rfl
    exact ⟨_, _, ht, hnc, rfl, hmv, by omega⟩

/-- In-memory members with any content of whole blocks meet `ReadableSet`. -/
theorem memMembers_readable {alg : Raid6Algorithm} {n c size offset : Nat} {mem : Nat → Bytes}
    {bs : Nat → Nat} (h0 : 0 < n) (hn : n ≤ 0xff00)
    (hm : ∀ i, i < n → 0 < bs i ∧ bs i < U32 ∧ (mem i).length < U64 ∧ bs i ∣ (mem i).length) :
    ReadableSet InMemory.IsDisk alg n c size (fun i => ⟨bs i, (mem i).length / bs i, mem i⟩)
      (memMembers alg n c size offset mem bs) where
  disk := by
    intro x hx
    obtain ⟨i, hi, rfl⟩ := List.mem_map.mp hx
    obtain ⟨h1, h2, h3, -⟩ := hm i (List.mem_range.mp hi)
    exact ⟨_, h1, h2, h3, rfl⟩
  superblocks := by
    refine ⟨fun h => ?_, fun x hx => ?_⟩
    · have := congrArg List.length h
      simp [memMembers] at this
      omega
    · obtain ⟨i, -, rfl⟩ := List.mem_map.mp hx
      exact ⟨_, rfl, rfl, rfl, rfl, rfl, rfl⟩
  member := by
    intro d hd
    refine ⟨memMember alg n c size offset (mem d) (bs d) d, ⟨
      ((List.range n).take d).map fun i => memMember alg n c size offset (mem i) (bs i) i,
      ((List.range n).drop (d + 1)).map fun i => memMember alg n c size offset (mem i) (bs i) i,
      ?_, (memMembers_claims hn hd d).mpr rfl, ?_⟩, ?_⟩
    · unfold memMembers
      conv => lhs; rw [← List.take_append_drop d (List.range n)]
      rw [List.map_append, List.drop_eq_getElem_cons (by simpa using hd), List.map_cons,
        List.getElem_range]
    · intro y hy
      have hcase : ∃ i, i < n ∧ i ≠ d ∧ y = memMember alg n c size offset (mem i) (bs i) i := by
        rcases List.mem_append.mp hy with hy | hy
        · obtain ⟨i, hi, rfl⟩ := List.mem_map.mp hy
          obtain ⟨j, hj, e⟩ := List.mem_take_iff_getElem.mp hi
          simp at hj e
          exact ⟨i, by omega, by omega, rfl⟩
        · obtain ⟨i, hi, rfl⟩ := List.mem_map.mp hy
          obtain ⟨j, hj, e⟩ := List.mem_drop_iff_getElem.mp hi
          simp at hj e
          exact ⟨i, by omega, by omega, rfl⟩
      obtain ⟨i, hi, hne, rfl⟩ := hcase
      rw [memMembers_claims hn hi]
      exact fun h => hne h.symm
    · obtain ⟨h1, h2, h3, h4⟩ := hm d hd
      refine ⟨h1, h2, h3, ?_⟩
      simp only [memMember, InMemory.new]
      rw [Nat.div_mul_cancel h4, List.take_length]

theorem read_mem {ord : IterOrder} (hord : ord.Valid) {L n c size offset : Nat}
    {alg : Raid6Algorithm} {content : Bytes} {mem : Nat → Bytes} {bs : Nat → Nat}
    (hL : Raid6Algorithm.fromLayout L = some alg) (hn : 3 ≤ n) (hn' : n ≤ 0xff00) (hc : 0 < c)
    (hdvd : c ∣ size) (hbytes : size * (n - 2) * 512 < U64)
    (hlen : content.length = size * (n - 2) * 512)
    (hmem : ∀ i, i < n → (mem i).length < U64 ∧ encodeMember L n c size content i <+: mem i)
    (hbs : ∀ i, i < n → 0 < bs i ∧ bs i < U32 ∧ bs i ∣ (mem i).length) {b : Nat}
    (hb : b < size * (n - 2)) {buf : Bytes} (hbuf : buf.length = 512) :
    ((MdArray.dev InMemory.dev).readBlock b buf ((), MdArray.open ord
      (memMembers alg n c size offset mem bs))).2 =
        .ok (512, (content.drop (b * 512)).take 512) := by
  have hr := memMembers_readable (alg := alg) (c := c) (size := size) (offset := offset)
    (mem := mem) (bs := bs) (n := n) (by omega) hn' (fun i hi => by
      obtain ⟨h1, h2, h3⟩ := hbs i hi
      exact ⟨h1, h2, (hmem i hi).1, h3⟩)
  have hset := encode_set (L := L) hn (Nat.lt_of_le_of_lt hn' (by decide)) hc hdvd hbytes hlen
    (fun i => ⟨bs i, (mem i).length / bs i, mem i⟩) (fun i hi => (hmem i hi).2)
  obtain ⟨-, -, h⟩ := (C16_array_device_partial InMemory.devSpec hord hL hr hset).readBlock
    (w := ()) trivial ⟨rfl, rfl⟩ b buf hb hbuf
  rcases h with h | ⟨hF, -⟩
  · exact h
  · exact hF.elim

/-- C16, round trip: any content, spread over in-memory members according to any of the RAID6 layouts,
any geometry and any block sizes, is read back from the opened array.  (So the hypotheses of
`C16_array_device_partial` can be met for every content.) -/
theorem C16_round_trip_partial {ord : IterOrder} (hord : ord.Valid) {L n c size : Nat}
    {alg : Raid6Algorithm} {content : Bytes} {bs : Nat → Nat}
    (hL : Raid6Algorithm.fromLayout L = some alg) (hn : 3 ≤ n) (hn' : n ≤ 0xff00) (hc : 0 < c)
    (hdvd : c ∣ size) (hbytes : size * (n - 2) * 512 < U64)
    (hlen : content.length = size * (n - 2) * 512)
    (hbs : ∀ i, i < n → 0 < bs i ∧ bs i < U32 ∧ bs i ∣ size * 512) {b : Nat}
    (hb : b < size * (n - 2)) {buf : Bytes} (hbuf : buf.length = 512) :
    ((MdArray.dev InMemory.dev).readBlock b buf ((), MdArray.open ord
      (memMembers alg n c size 0 (encodeMember L n c size content) bs))).2 =
        .ok (512, (content.drop (b * 512)).take 512) := by
  have hml := encodeMember_length (L := L) hn hc hdvd hlen
  have hsU : size * 512 < U64 :=
    MdArray.fit_total (Nat.le_mul_of_pos_right _ (by omega)) hbytes
  exact read_mem hord hL hn hn' hc hdvd hbytes hlen
    (fun i _ => ⟨by rw [hml]; exact hsU, List.prefix_refl _⟩)
    (fun i hi => by rw [hml]; exact hbs i hi) hb hbuf

/-- C17 is false: on each member, the data area of the array, which holds `content`, begins at sector `size`, as
its superblock says; the sectors before it hold something else, `other`.  Reads return `other`. -/
theorem C17_reads_before_the_data_area {ord : IterOrder} (hord : ord.Valid) {L n c size : Nat}
    {alg : Raid6Algorithm} {content other : Bytes}
    (hL : Raid6Algorithm.fromLayout L = some alg) (hn : 3 ≤ n) (hn' : n ≤ 0xff00) (hc : 0 < c)
    (hdvd : c ∣ size) (hbytes : size * (n - 2) * 512 < U64) (hbytes' : size * 1024 < U64)
    (hlen : content.length = size * (n - 2) * 512) (hlen' : other.length = size * (n - 2) * 512)
    {b : Nat} (hb : b < size * (n - 2)) {buf : Bytes} (hbuf : buf.length = 512) :
    ((MdArray.dev InMemory.dev).readBlock b buf ((), MdArray.open ord
      (memMembers alg n c size size
        (fun i => encodeMember L n c size other i ++ encodeMember L n c size content i)
        (fun _ => 512)))).2 =
        .ok (512, (other.drop (b * 512)).take 512) := by
  have hml := encodeMember_length (L := L) hn hc hdvd hlen
  have hml' := encodeMember_length (L := L) hn hc hdvd hlen'
  refine read_mem hord hL hn hn' hc hdvd hbytes hlen'
    (fun i _ => ⟨?_, List.prefix_append _ _⟩)
    (fun i hi => ⟨by decide, by decide, ?_⟩) hb hbuf
  · rw [List.length_append, hml, hml', ← Nat.mul_add]; exact hbytes'
  · rw [List.length_append, hml, hml']
    exact Nat.dvd_add (Nat.dvd_mul_left _ _) (Nat.dvd_mul_left _ _)

/-- A concrete array: left symmetric, four members of two sectors, blocks of 256 bytes, all bytes 7. -/
def sevens : List (MdDevice InMemory) :=
  memMembers .leftSymmetric 4 1 2 0 (encodeMember 2 4 1 2 (List.replicate 2048 7)) (fun _ => 256)

theorem sevens_readable : ReadableSet InMemory.IsDisk .leftSymmetric 4 1 2
    (fun i => ⟨256, (encodeMember 2 4 1 2 (List.replicate 2048 7) i).length / 256,
      encodeMember 2 4 1 2 (List.replicate 2048 7) i⟩) sevens := by
  refine memMembers_readable (by decide) (by decide) fun i _ => ?_
  rw [encodeMember_length (by decide) (by decide) (by decide) List.length_replicate]
  decide

theorem sevens_set : Raid6Set 2 4 1 2
    (fun i => ⟨256, (encodeMember 2 4 1 2 (List.replicate 2048 7) i).length / 256,
      encodeMember 2 4 1 2 (List.replicate 2048 7) i⟩) (List.replicate 2048 7) :=
  encode_set (by decide) (by decide) (by decide) (by decide) (by decide) List.length_replicate _
    (fun _ _ => List.prefix_refl _)

/-- C17, zero offset. -/
example (ord : IterOrder) (hord : ord.Valid) (buf : Bytes) (hbuf : buf.length = 512) :
    Gives False ((MdArray.dev InMemory.dev).readBlock 3 buf ((), MdArray.open ord sevens)).2
      (512, ((List.replicate 2048 7).drop (3 * 512)).take 512) :=
  C17_zero_offset_partial InMemory.devSpec hord (L := 2) (offset := fun _ => 0) rfl sevens_readable
    (fun d _ x s ⟨l₁, l₂, he, _⟩ hs => by
      have hx : x ∈ sevens := by rw [he]; simp
      obtain ⟨i, -, rfl⟩ := List.mem_map.mp hx
      cases hs; rfl)
    (fun x hx s hs => by
      obtain ⟨i, -, rfl⟩ := List.mem_map.mp hx
      cases hs; rfl)
    (by
      have h : (fun d => dataArea ⟨256, (encodeMember 2 4 1 2 (List.replicate 2048 7) d).length / 256,
          encodeMember 2 4 1 2 (List.replicate 2048 7) d⟩ 0) = fun d =>
          (⟨256, (encodeMember 2 4 1 2 (List.replicate 2048 7) d).length / 256,
          encodeMember 2 4 1 2 (List.replicate 2048 7) d⟩ : Disk) := by
        funext d; simp only [dataArea, Nat.zero_mul, List.drop_zero]
      rw [h]; exact sevens_set)
    (by decide) hbuf trivial

/-- C18: a 513-byte buffer panics. -/
example (ord : IterOrder) (hord : ord.Valid) (buf : Bytes) (hbuf : buf.length = 513) :
    ((MdArray.dev InMemory.dev).readBlock 3 buf ((), MdArray.open ord sevens)).2 = .panic :=
  C18_larger_buffer_panics InMemory.devSpec hord (L := 2) rfl sevens_readable sevens_set (by decide)
    (by omega) trivial

/-- C17: the offsets of these devices may be anything. -/
example (ord : IterOrder) (hord : ord.Valid) (o : MdDevice InMemory → Nat) (buf : Bytes) :
    ((MdArray.dev InMemory.dev).readBlock 3 buf ((), MdArray.open ord (sevens.map (withOffset o)))).2 =
      ((MdArray.dev InMemory.dev).readBlock 3 buf ((), MdArray.open ord sevens)).2 :=
  C17_data_offset_ignored InMemory.devSpec hord sevens_readable.disk o 3 buf trivial

/-- C18 (partial) and C21 apply to the opened array; C19 applies when there is no member 2. -/
example (ord : IterOrder) (hord : ord.Valid) (buf : Bytes) :
    let a := MdArray.open ord sevens
    (∀ d x, a.devices.get d = some x → ∃ k, InMemory.IsDisk x.device k) ∧
    (∀ f, a.format = some f ∨ a.newFormat = some f → f.deviceCount < U32) ∧
    let a' : ArrayDef InMemory := ⟨some ⟨.raid6 .leftSymmetric, 4, 2, 1⟩, none, [], []⟩
    ∃ e, ((MdArray.dev InMemory.dev).readBlock 0 buf ((), a')).2 = .err e := by
  refine ⟨fun d x h => ?_, fun f h => ?_, ?_⟩
  · obtain ⟨l₁, l₂, he, _⟩ := (C24_active_iff hord sevens d x).mp h
    exact sevens_readable.disk x (by rw [he]; simp)
  · have hs : ∀ x ∈ sevens, ∃ s, x.superblock = .superblock s ∧ s.raidDeviceCount = 4 ∧
        s.reshapeStatus = none := by
      intro x hx
      obtain ⟨i, -, rfl⟩ := List.mem_map.mp hx
      exact ⟨_, rfl, rfl, rfl⟩
    rcases h with h | h
    · rw [C22_format_iff] at h
      obtain ⟨x, hx⟩ := List.exists_mem_of_ne_nil _ h.1
      obtain ⟨s, e, h2⟩ := h.2 x hx
      obtain ⟨s', e', h3⟩ := hs x hx
      rw [e] at e'; cases e'
      rw [← h2.2.1, h3.1]; decide
    · rw [C22_new_format_iff] at h
      obtain ⟨x, hx⟩ := List.exists_mem_of_ne_nil _ h.1
      obtain ⟨s, e, st, h2, -⟩ := h.2 x hx
      obtain ⟨s', e', h3⟩ := hs x hx
      rw [e] at e'; cases e'
      rw [h3.2] at h2; cases h2
  · exact C19_missing_member_error InMemory.devSpec _ (fun d x h => by cases h) (.inr ⟨rfl, rfl⟩) rfl
      (by decide) (k := 2) (by decide) rfl (by decide) _ trivial

/-- C16: that array is a block device of four blocks, each all sevens. -/
example (ord : IterOrder) (hord : ord.Valid) :
    DevSpec False (MdArray.dev InMemory.dev) (fun _ => True)
      (fun a k => a = MdArray.open ord sevens ∧ k = ⟨512, 2 * (4 - 2), List.replicate 2048 7⟩) :=
  C16_array_device_partial InMemory.devSpec hord (L := 2) rfl sevens_readable sevens_set

/-- C16, round trip: right asymmetric, five members of six sectors in chunks of three, with blocks of 512, 1024
and 3072 bytes. -/
example (ord : IterOrder) (hord : ord.Valid) (content : Bytes) (hlen : content.length = 9216) (buf : Bytes)
    (hbuf : buf.length = 512) :=
  C16_round_trip_partial hord (L := 1) (n := 5) (c := 3) (size := 6) (alg := .rightAsymmetric)
    (content := content) (bs := fun i => if i = 0 then 512 else if i = 3 then 3072 else 1024) (b := 17) rfl
    (by decide) (by decide) (by decide) (by decide) (by decide) hlen (by decide) (by decide) hbuf

/-- C17 is false for a data area that begins at sector 2 of the members: the sevens before it are read, not the
content. -/
example (ord : IterOrder) (hord : ord.Valid) (content : Bytes) (hlen : content.length = 2048) (buf : Bytes)
    (hbuf : buf.length = 512) :=
  C17_reads_before_the_data_area hord (L := 2) (n := 4) (c := 1) (size := 2) (alg := .leftSymmetric)
    (content := content) (other := List.replicate 2048 7) (b := 3) rfl (by decide) (by decide) (by decide)
    (by decide) (by decide) (by decide) hlen List.length_replicate (by decide) hbuf

/-- C18 and C21 for the array of a few bytes that has no member: reads are errors, also through a clone. -/
example (ops : List HandleOp) (hops : ops = [.clone 0, .read 1 0 (zeros 512)]) :
    let a : ArrayDef InMemory := ⟨some ⟨.raid6 .leftSymmetric, 4, 2, 1⟩, none, [], []⟩
    (∃ e, ((MdArray.dev InMemory.dev).readBlock 0 (zeros 512) ((), a)).2 = .err e) ∧
    ∃ r, (runHandles (MdArray.dev InMemory.dev) ops ((), [a]))[1]? = some (some r) ∧
      r = ((MdArray.dev InMemory.dev).readBlock 0 (zeros 512) ((), a)).2 := by
  subst hops
  refine ⟨?_, _, rfl, ?_⟩
  · rcases C18_exact_buffer_partial InMemory.devSpec
      (⟨some ⟨.raid6 .leftSymmetric, 4, 2, 1⟩, none, [], []⟩ : ArrayDef InMemory) (fun d x h => by cases h)
      (fun f h => by rcases h with h | h <;> cases h <;> decide) (b := 0) (by decide) (zeros 512)
      (Nat.le_of_eq List.length_replicate) (w := ()) trivial with h | ⟨-, blk, -, h⟩
    · exact h
    · exact absurd h (C19_missing_member_no_data InMemory.dev _ (.inr ⟨rfl, rfl⟩) rfl (by decide) (k := 2)
        (by decide) rfl (by decide) _ _ _)
  · exact C21_clones_read_identically InMemory.devSpec
      (⟨some ⟨.raid6 .leftSymmetric, 4, 2, 1⟩, none, [], []⟩ : ArrayDef InMemory) (fun d x h => by cases h)
      (w := ()) trivial [.clone 0, .read 1 0 (zeros 512)] 1 1 0 (zeros 512) _ rfl rfl

end MdRecover
