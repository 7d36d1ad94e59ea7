import Verif.Spec.Ext4Damage
import Verif.Props.Ext4Open
import Verif.Props.Ext4Directory
import Verif.Props.Ext4DirectoryCases
import Verif.Props.Crc

/-! C99: damage to metadata that has checksums. -/

namespace MdRecover
open MdSpec

section
variable [Build] {W D : Type} {F : Prop} {dev : StreamDev W D} {G : W → Prop} {Is : D → Bytes → Prop}
  {At : W → D → Nat → Prop}

/-- A volume without a valid superblock is rejected. -/
theorem open_invalid (hv : VolumeSpec F dev G Is At) {c : Bytes} {w : W} {d : D} (hG : G w) (hI : Is d c)
    (hbad : ¬ Ext4SbOk (sbOf c)) : ∃ w' e, Ext4Fs.open dev d w = (w', .err e) ∧ G w' := by
  have h : ∃ w' d' e, Ext4Fs.openBody dev (w, d) = ((w', d'), .err e) ∧ G w' := by
    unfold Ext4Fs.openBody
    rcases hs : dev.seek (.start 1024) (w, d) with ⟨⟨w1, d1⟩, r1⟩
    obtain ⟨hG1, hI1, h1⟩ := hv.seek hG hI _ (by decide) hs
    rcases h1 with ⟨q, rfl, hA1, hq1, hq2⟩ | ⟨h1, e, rfl⟩
    rotate_left
    · exact ⟨w1, d1, e, SM.bind_err (h := hs) _, hG1⟩
    rw [SM.bind_ok (h := hs)]
    obtain ⟨w2, d2, r2, h2, hG2, hI2, h3⟩ := Ext4Fs.sb_read_spec hv hG1 hI1 hA1
    rcases h3 with ⟨h3, e, rfl⟩ | ⟨hp, hok, rfl⟩
    · exact ⟨w2, d2, e, SM.bind_err (h := h2) _, hG2⟩
    · have hq : q = 1024 := by
        by_contra hne
        have : ¬ 1024 ≤ c.length := fun h => hne (hq1 h)
        have := hq2 (by omega)
        omega
      subst hq
      exact absurd hok hbad
  obtain ⟨w', d', e, h, hG'⟩ := h
  refine ⟨w', e, ?_, hG'⟩
  unfold Ext4Fs.open SM.withLocal
  rw [SM.bind_err (h := h)]

omit [Build] in
/-- Damage inside a part. -/
theorem damaged_part {off n : Nat} {a b : Bytes} (h : DamagedIn off (off + n) a b) :
    ∃ front w v rest, (a.drop off).take n = front ++ w ++ rest ∧ (b.drop off).take n = front ++ v ++ rest ∧
      w.length = v.length ∧ w.length ≤ 4 ∧ w ≠ v := by
  obtain ⟨front, w, v, rest, rfl, rfl, h1, h2, h3, h4, h5⟩ := h
  have hp : ∀ z : Bytes, z.length = w.length → ((front ++ z ++ rest).drop off).take n =
      front.drop off ++ z ++ rest.take (n - (front.length - off + w.length)) := by
    intro z hz
    have hl : (front.drop off ++ z).length = front.length - off + w.length := by
      rw [List.length_append, List.length_drop, hz]
    rw [List.append_assoc, List.drop_append_of_le_length h4, ← List.append_assoc, List.take_append, hl,
      List.take_of_length_le (by rw [hl]; omega)]
  exact ⟨front.drop off, w, v, _, hp w rfl, hp v h1.symm, h1, h2, h3⟩

/-- C99, superblock (partial: also here damage goes unnoticed if it says that there is no checksum,
`C54_type_cleared`).  A volume that could be opened and whose superblock has a checksum is damaged somewhere in
its superblock.  Then opening it fails with an error, on every device. -/
theorem C99_superblock_partial (hv : VolumeSpec F dev G Is At) (c c' : Bytes) (hc : Ext4Openable c)
    (ht : le (sbOf c) 0x175 1 = 1) (hd : DamagedIn 1024 2048 c c') (ht' : le (sbOf c') 0x175 1 ≠ 0)
    (w : W) (hG : G w) (d : D) (hI : Is d c') : ∃ w' e, Ext4Fs.open dev d w = (w', .err e) := by
  obtain ⟨front, a, b, rest, h1, h2, h3, h4, h5⟩ := damaged_part (off := 1024) (n := 1024) hd
  have hl : (sbOf c).length = 1024 := by
    have := hc.long
    rw [sbOf, List.length_take, List.length_drop]
    omega
  have hval := (Ext4Superblock.valid_iff ⟨sbOf c⟩).2 hc.readable.ok
  rw [sbOf, h1] at hl hval ht
  have := C54_four_bytes front a b rest hl hval ht h4 h3 h5 (by rw [sbOf, h2] at ht'; exact ht')
  obtain ⟨w', e, h, -⟩ := open_invalid hv hG hI (fun hok => by
    have h := (Ext4Superblock.valid_iff ⟨sbOf c'⟩).2 hok
    rw [sbOf, h2, this] at h
    cases h)
  exact ⟨w', e, h⟩

omit [Build] in
/-- Damage inside one block leaves the others as they are. -/
theorem damaged_other {bs x y : Nat} {a b : Bytes} (h : DamagedIn (x * bs) (x * bs + bs) a b) (hy : y ≠ x) :
    blockOf b bs y = blockOf a bs y := by
  obtain ⟨front, w, v, rest, rfl, rfl, h1, -, -, h4, h5⟩ := h
  unfold blockOf
  rcases Nat.lt_or_gt_of_ne hy with hlt | hlt
  · have hle : y * bs + bs ≤ x * bs := by
      have := Nat.mul_le_mul_right bs (Nat.succ_le_of_lt hlt)
      rwa [Nat.succ_mul] at this
    have hp : ∀ z : Bytes, ((front ++ z ++ rest).drop (y * bs)).take bs = (front.drop (y * bs)).take bs := by
      intro z
      rw [List.append_assoc, List.drop_append_of_le_length (by omega),
        List.take_append_of_le_length (by rw [List.length_drop]; omega)]
    rw [hp, hp]
  · have hle : x * bs + bs ≤ y * bs := by
      have := Nat.mul_le_mul_right bs (Nat.succ_le_of_lt hlt)
      rwa [Nat.succ_mul] at this
    have hp : ∀ z : Bytes, z.length = w.length → (front ++ z ++ rest).drop (y * bs) =
        rest.drop (y * bs - (front.length + w.length)) := by
      intro z hz
      rw [List.drop_append, List.length_append, hz, List.drop_of_length_le
        (by rw [List.length_append, hz]; omega), List.nil_append]
    rw [hp w rfl, hp v h1.symm]

omit [Build] in
theorem calls_eq {α : Type} (l : List α) (z : α) (n : Nat) :
    ((List.range (l.length + n)).map fun k => l[k]?.getD z) = l ++ List.replicate n z := by
  refine List.ext_getElem? fun k => ?_
  rw [List.getElem?_map]
  by_cases hk : k < l.length + n
  · rw [List.getElem?_range hk, Option.map_some]
    by_cases h : k < l.length
    · rw [List.getElem?_append_left h, List.getElem?_eq_getElem h]
      rfl
    · rw [List.getElem?_append_right (by omega), List.getElem?_replicate, if_pos (by omega),
        List.getElem?_eq_none (by omega)]
      rfl
  · rw [List.getElem?_eq_none (by rw [List.length_range]; omega),
      List.getElem?_eq_none (by rw [List.length_append, List.length_replicate]; omega)]
    rfl

/-- A call that returns the record `e`. -/
abbrev returned (e : Bytes) : Res (Option DirEntry) := .ok (some ⟨e⟩)

/-- The block is sound and consists of the records `es`. -/
def SoundRecords (s : Nat) (b : Bytes) (es : List Bytes) : Prop :=
  BlockSound (some s) b ∧ Tiles (b.take (recordsEnd (some s) b)) es

/-- C99, directories (partial: inodes and group descriptors are not covered, see the next theorems, and extent
nodes are not, `C68_magic_ignored`).  In the volume `c` all blocks of a directory with checksums are sound.
In `c'` block `x` of the directory is damaged.  Then the calls return the records of the blocks before it, one
error, the records of the blocks after it, and then `None`. -/
theorem C99_directory_partial (hv : VolumeSpec False dev G Is At) (c c' : Bytes) (hc : c'.length < U64)
    (w : W) (hG : G w) (fs : Ext4Fs D) (ho : Opened Is c' fs) (inode : Inode) (d : Ext4Directory D)
    (hd : Ext4Directory.open fs inode = .ok d) (s : Nat) (hs : inode.metadataChecksumSeed = some s)
    (bs : Nat) (hbs : bs = blockSizeOf (sbOf c')) (before after : List Nat) (x : Nat)
    (hx : Contiguous c' bs inode.blocksBuffer 0 0 (before ++ x :: after)) (honce : x ∉ before ++ after)
    (hsize : inode.fileSizeBytes = (before ++ x :: after).length * bs)
    (h32 : (before ++ x :: after).length < U32) (hin : ∀ y ∈ before ++ x :: after, BlockInside c' bs y)
    (hdam : DamagedIn (x * bs) (x * bs + bs) c c') (es : List Bytes) (ess ess' : List (List Bytes))
    (h1 : List.Forall₂ (fun y es => SoundRecords s (blockOf c bs y) es) before ess)
    (h2 : SoundRecords s (blockOf c bs x) es)
    (h3 : List.Forall₂ (fun y es => SoundRecords s (blockOf c bs y) es) after ess') (n : Nat) :
    ∃ s', DirCalls dev (w, d) ((ess.flatten.map returned) ++ [.err .invalidData] ++
      (ess'.flatten.map returned) ++ List.replicate n (.ok none)) s' := by
  subst hbs
  have hpart : ∀ (ys : List Nat) (zs : List (List Bytes)), x ∉ ys →
      List.Forall₂ (fun y es => SoundRecords s (blockOf c (blockSizeOf (sbOf c')) y) es) ys zs →
      List.Forall₂ (fun y rs => BlockResults inode.metadataChecksumSeed
        (blockOf c' (blockSizeOf (sbOf c')) y) rs) ys
        (zs.map (List.map returned)) := by
    intro ys zs hys h
    induction h with
    | nil => exact .nil
    | cons h _ ih =>
      refine .cons ?_ (ih fun hm => hys (List.mem_cons_of_mem _ hm))
      rw [damaged_other hdam fun he => hys (he ▸ List.mem_cons_self), hs]
      exact .inl ⟨h.1, _, h.2, rfl⟩
  have hbad : ¬ BlockSound (some s) (blockOf c' (blockSizeOf (sbOf c')) x) := by
    obtain ⟨front, a, b, rest, g1, g2, g3, g4, g5⟩ := damaged_part hdam
    have := h2.1
    unfold blockOf at this ⊢
    rw [g1] at this
    rw [g2]
    exact C71_corruption s front a b rest g4 g3 g5 this
  have hall := List.rel_append (hpart before ess (fun h => honce (List.mem_append_left _ h)) h1)
    (List.Forall₂.cons (a := x) (b := [.err .invalidData]) (.inr ⟨by rw [hs]; exact hbad, rfl⟩)
      (hpart after ess' (fun h => honce (List.mem_append_right _ h)) h3))
  have hflat : (ess.map (List.map returned) ++
      [Res.err .invalidData] :: ess'.map (List.map returned)).flatten =
      (ess.flatten.map returned) ++ [Res.err .invalidData] ++
        (ess'.flatten.map returned) := by
    rw [List.flatten_append, List.flatten_cons, ← List.append_assoc, List.map_flatten, List.map_flatten]
  obtain ⟨s', h⟩ := C72_lists hv c' hc w hG fs ho inode d hd _ hx hsize h32 hin _ hall
    (((ess.flatten.map returned) ++
      [Res.err .invalidData] ++ (ess'.flatten.map returned)).length + n)
  rw [hflat, calls_eq] at h
  exact ⟨s', h⟩

end

namespace Fixture

/-- The bytes with `bs` at `off`. -/
def put (b : Bytes) (off : Nat) (bs : Bytes) : Bytes := b.take off ++ bs ++ b.drop (off + bs.length)

/-- The filesystem `sumFs` with the right checksum in its group descriptor, in inode 2 and in the three blocks
of the directory, the second of which has an entry "more". -/
def soundFs : Bytes :=
  put (put (put (put sumFs 2078 [200, 19]) 3452 [182, 109]) 3458 [65, 242]) 8192
    ([6, 0, 0, 0, 244, 3, 4, 1, 109, 111, 114, 101] ++ zeros 1000 ++
      [0, 0, 0, 0, 12, 0, 0, 222, 210, 242, 41, 184])

/-- The volume with one byte replaced. -/
def damagedAt (off : Nat) (x : UInt8) : Bytes := put soundFs off [x]

/-- Damage: the second character of the entry "more". -/
def dirFs : Bytes := damagedAt 8201 79
/-- Damage: the type of inode 2, directory, becomes regular file. -/
def inodeFs : Bytes := damagedAt 3329 129
/-- Damage: the inode table seems to start one block later. -/
def groupFs : Bytes := damagedAt 2056 4
/-- Damage: the superblock declares 9 inodes instead of 8. -/
def sbFs : Bytes := damagedAt 1024 9
/-- Damage: the superblock has a checksum of no type. -/
def typeFs : Bytes := damagedAt 1397 0

set_option maxRecDepth 100000 in
theorem soundFs_length : soundFs.length = 13312 := by decide +kernel

theorem damagedAt_damaged {off start stop : Nat} {x : UInt8} (h1 : start ≤ off) (h2 : off < stop)
    (hl : off < 13312) (hx : soundFs[off]? ≠ some x) : DamagedIn start stop soundFs (damagedAt off x) := by
  have hl' : off < soundFs.length := by rw [soundFs_length]; exact hl
  refine ⟨soundFs.take off, [soundFs[off]], [x], soundFs.drop (off + 1), ?_, rfl, rfl, Nat.le_of_ble_eq_true rfl, ?_, ?_, ?_⟩
  · rw [List.append_assoc, List.singleton_append, List.getElem_cons_drop, List.take_append_drop]
  · intro h
    refine hx ?_
    rw [List.getElem?_eq_getElem hl']
    exact congrArg some (List.cons.inj h).1
  · rw [List.length_take, soundFs_length]; omega
  · rw [List.length_take, soundFs_length]
    show min off 13312 + 1 ≤ stop
    omega

/-- What is to be known about a volume to open it and inode 2. -/
def Facts (c : Bytes) (slot : Nat) : Prop :=
  (Ext4Superblock.mk (sbOf c)).valid = .ok true ∧ Ext4Fs.unsupported ⟨sbOf c⟩ = false ∧ c.length = 13312 ∧
    blockSizeOf (sbOf c) = 1024 ∧ groupTableOf (sbOf c) = 2048 ∧ groupsOf (sbOf c) = 1 ∧
    le (sbOf c) 0xfe 2 = 64 ∧ le (sbOf c) 0x28 4 = 8 ∧ le (sbOf c) 0x58 2 = 256 ∧ le (sbOf c) 0 4 = 8 ∧
    inodeSlot c 2 = slot ∧ extraOf (inodeBytes c 2) = 32 ∧ (inodeBytes c 2).length = 256

instance (c : Bytes) (slot : Nat) : Decidable (Facts c slot) := by unfold Facts; infer_instance

set_option maxRecDepth 100000 in
theorem damage_facts : Facts soundFs 3328 ∧ Facts dirFs 3328 ∧ Facts inodeFs 3328 ∧ Facts groupFs 4352 ∧
    Facts typeFs 3328 := by decide +kernel

theorem Facts.openable {c : Bytes} {slot : Nat} (h : Facts c slot) : Ext4Openable c := by
  obtain ⟨a, b, v0, v1, v2, v3, v4, -⟩ := h
  exact ⟨by omega, readable_of a b, by rw [v2, v3, v4, v0]; omega⟩

theorem Facts.readable {c : Bytes} {slot : Nat} (h : Facts c slot) (hs : slot ≤ 13056) :
    InodeReadable c 2 := by
  obtain ⟨-, -, v0, v1, v2, v3, v4, v5, v6, v7, v8, v9, v10⟩ := h
  exact ⟨by omega, by rw [v7]; omega, by rw [v5, v3]; omega, by rw [v8, v6, v0]; omega, by rw [v9],
    by rw [v9, v10]; omega⟩

set_option maxRecDepth 100000 in
theorem damage_types :
    typeNumber soundFs 2 = 4 ∧ ¬ flagBit soundFs 2 12 ∧ hasExtents soundFs 2 ∧
    typeNumber inodeFs 2 = 8 ∧ hasExtents inodeFs 2 ∧ typeNumber groupFs 2 = 8 ∧ hasExtents groupFs 2 := by
  unfold flagBit hasExtents; decide +kernel

theorem IsCrc32c_of {s c : BitVec 32} {b : Bytes} (h : ext4Crc32c s b = c) : IsCrc32c s b c :=
  (C52_polynomial_division s b c).1 h

set_option maxRecDepth 100000 in
theorem sound_seeds : ext4Crc32c (BitVec.allOnes 32) (((sbOf soundFs).drop 0x68).take 16) = 1596037355 ∧
    ext4Crc32c 1596037355 (leBytes 4 2 ++ ((inodeBytes soundFs 2).drop 0x64).take 4) = 1970381644 ∧
    le (sbOf soundFs) 0x60 4 / 2 ^ 13 % 2 = 0 ∧ le (sbOf soundFs) 0x64 4 / 2 ^ 10 % 2 = 1 ∧
    le (sbOf soundFs) 0x175 1 = 1 ∧ le (sbOf sbFs) 0x175 1 = 1 := by decide +kernel

theorem sound_volumeSeed : VolumeSeed soundFs 1596037355 :=
  ⟨fun h => absurd h (by rw [sound_seeds.2.2.1]; decide), fun _ => IsCrc32c_of sound_seeds.1⟩

theorem sound_hasChecksums : HasChecksums soundFs := sound_seeds.2.2.2.1

theorem sound_inodeSeed : InodeSeed soundFs 2 (some 1970381644) :=
  ⟨fun _ => ⟨_, _, sound_volumeSeed, IsCrc32c_of sound_seeds.2.1, rfl⟩, fun h => absurd sound_hasChecksums h⟩

/-- The checksum as it should be in an inode. -/
def inodeSumOf (b : Bytes) : BitVec 32 := ext4Crc32c 1970381644 (zeroed (zeroed b 0x7c 2) 0x82 2)

/-- The checksum as it should be in descriptor 0. -/
def groupSumOf (b : Bytes) : BitVec 32 := ext4Crc32c 1596037355 (leBytes 4 0 ++ zeroed b 0x1e 2)

/-- The bytes of descriptor 0. -/
def group0 (c : Bytes) : Bytes := (c.drop (groupTableOf (sbOf c))).take (le (sbOf c) 0xfe 2)

set_option maxRecDepth 100000 in
theorem damage_sums :
    inodeSumOf (inodeBytes soundFs 2) = BitVec.ofNat 32
      (le (inodeBytes soundFs 2) 0x7c 2 + le (inodeBytes soundFs 2) 0x82 2 * 2 ^ 16) ∧
    inodeSumOf (inodeBytes inodeFs 2) ≠ BitVec.ofNat 32
      (le (inodeBytes inodeFs 2) 0x7c 2 + le (inodeBytes inodeFs 2) 0x82 2 * 2 ^ 16) ∧
    le (group0 soundFs) 0x1e 2 = (groupSumOf (group0 soundFs)).toNat % 2 ^ 16 ∧
    le (group0 groupFs) 0x1e 2 ≠ (groupSumOf (group0 groupFs)).toNat % 2 ^ 16 := by decide +kernel

/-- Opening the volume and its inode 2, in memory. -/
def opensAs (c : Bytes) (p : OpenedFile InMemory → Prop) : Prop :=
  ∃ fs fs' : Ext4Fs InMemory, ∃ f, Ext4Fs.open InMemory.streamDev ⟨c, 0, 512⟩ () = ((), .ok fs) ∧
    Ext4Fs.openFile InMemory.streamDev 2 ((), fs) = (((), fs'), .ok f) ∧ p f

theorem Facts.opens {c : Bytes} {slot : Nat} (h : Facts c slot) (hs : slot ≤ 13056) :
    (typeNumber c 2 = 4 → ¬ flagBit c 2 12 → hasExtents c 2 → opensAs c fun f => ∃ d, f = .directory d) ∧
    (typeNumber c 2 = 8 → hasExtents c 2 → opensAs c fun f => ∃ d, f = .regularFile d) := by
  obtain ⟨fs, h1, ho⟩ := opened_of h.openable (by rw [h.2.2.1]; omega)
  obtain ⟨⟨⟩, fs', r, h2, -, -, k1, -, k3, -⟩ := C75_outcome InMemory.volumeSpec c (by rw [h.2.2.1]; omega) ()
    fs trivial ho 2 (h.readable hs)
  refine ⟨fun a b d => ?_, fun a b => ?_⟩
  · obtain ⟨f, rfl⟩ := k3 a b d
    exact ⟨fs, fs', _, h1, h2, f, rfl⟩
  · obtain ⟨f, rfl⟩ := k1 a b
    exact ⟨fs, fs', _, h1, h2, f, rfl⟩

end Fixture

open Fixture

set_option maxRecDepth 100000 in
/-- Case for C99_superblock_partial: a volume whose superblock declares one more inode is rejected. -/
theorem C99_superblock_case : ∃ e, Ext4Fs.open InMemory.streamDev ⟨sbFs, 0, 512⟩ () = ((), .err e) := by
  obtain ⟨⟨⟩, e, h⟩ := C99_superblock_partial InMemory.volumeSpec soundFs sbFs damage_facts.1.openable
    sound_seeds.2.2.2.2.1 (damagedAt_damaged (by decide) (by decide) (by decide) (by decide +kernel))
    (by rw [sound_seeds.2.2.2.2.2]; decide) () trivial ⟨sbFs, 0, 512⟩ rfl
  exact ⟨e, h⟩

set_option maxRecDepth 100000 in
/-- C99 is false for the superblock: if the type of the checksum is damaged, the volume is opened. -/
theorem C99_type_unnoticed : Ext4Openable soundFs ∧ le (sbOf soundFs) 0x175 1 = 1 ∧
    DamagedIn 1024 2048 soundFs typeFs ∧
    ∃ fs, Ext4Fs.open InMemory.streamDev ⟨typeFs, 0, 512⟩ () = ((), .ok fs) := by
  refine ⟨damage_facts.1.openable, sound_seeds.2.2.2.2.1,
    damagedAt_damaged (by decide) (by decide) (by decide) (by decide +kernel), ?_⟩
  have hf := damage_facts.2.2.2.2
  obtain ⟨fs, h, -⟩ := opened_of hf.openable (by rw [hf.2.2.1]; omega)
  exact ⟨fs, h⟩

set_option maxRecDepth 100000 in
/-- C99 is false for inodes: in a volume with checksums, that of inode 2 is right and it is opened as a
directory; after one byte of the inode has been damaged its checksum is wrong, and it is opened, without an
error, as a regular file. -/
theorem C99_inode_unnoticed : HasChecksums soundFs ∧ InodeSeed soundFs 2 (some 1970381644) ∧
    InodeSum 1970381644 (inodeBytes soundFs 2) ∧ opensAs soundFs (fun f => ∃ d, f = .directory d) ∧
    DamagedIn (inodeSlot soundFs 2) (inodeSlot soundFs 2 + 256) soundFs inodeFs ∧
    ¬ InodeSum 1970381644 (inodeBytes inodeFs 2) ∧ opensAs inodeFs (fun f => ∃ d, f = .regularFile d) := by
  obtain ⟨f1, -, f3, -⟩ := damage_facts
  obtain ⟨t1, t2, t3, t4, t5, -⟩ := damage_types
  refine ⟨sound_hasChecksums, sound_inodeSeed, IsCrc32c_of damage_sums.1, (f1.opens (by decide)).1 t1 t2 t3,
    ?_, fun h => damage_sums.2.1 ((C52_polynomial_division _ _ _).2 h), (f3.opens (by decide)).2 t4 t5⟩
  rw [f1.2.2.2.2.2.2.2.2.2.2.1]
  exact damagedAt_damaged (by decide) (by decide) (by decide) (by decide +kernel)

set_option maxRecDepth 100000 in
/-- C99 is false for group descriptors: in a volume with checksums, that of descriptor 0 is right and inode 2
is opened as a directory; after one byte of the descriptor has been damaged its checksum is wrong, and what
is found in the place of inode 2 is opened, without an error, as a regular file. -/
theorem C99_group_unnoticed : HasChecksums soundFs ∧ VolumeSeed soundFs 1596037355 ∧
    GroupSum 1596037355 0 (group0 soundFs) ∧ opensAs soundFs (fun f => ∃ d, f = .directory d) ∧
    DamagedIn 2048 2112 soundFs groupFs ∧
    ¬ GroupSum 1596037355 0 (group0 groupFs) ∧ opensAs groupFs (fun f => ∃ d, f = .regularFile d) := by
  obtain ⟨f1, -, -, f4, -⟩ := damage_facts
  obtain ⟨t1, t2, t3, -, -, t6, t7⟩ := damage_types
  refine ⟨sound_hasChecksums, sound_volumeSeed, ⟨_, IsCrc32c_of rfl, damage_sums.2.2.1⟩,
    (f1.opens (by decide)).1 t1 t2 t3, damagedAt_damaged (by decide) (by decide) (by decide) (by decide +kernel),
    ?_, (f4.opens (by decide)).2 t6 t7⟩
  rintro ⟨s, h, h'⟩
  rw [← (C52_polynomial_division _ _ _).2 h] at h'
  exact damage_sums.2.2.2 h'

namespace Fixture

/-- Inode 2 of the volume with the damaged directory. -/
def dirInode : Inode := ⟨overwrite (zeros 160) ((dirFs.drop 3328).take 160), some 1970381644⟩

set_option maxRecDepth 100000 in
theorem dirInode_new : Inode.new ⟨sbOf dirFs⟩ 2 ((dirFs.drop 3328).take 256) = .ok dirInode ∧
    hasBit dirInode.flags 12 = false ∧ (hasBit dirInode.flags 19 && !hasBit dirInode.flags 28) = true ∧
    dirInode.fileSizeBytes = 3072 ∧ dirInode.blocksBuffer = sumInode.blocksBuffer := by
  decide +kernel

/-- The volume is opened and inode 2 read. -/
theorem dirFs_open : ∃ fs fs' : Ext4Fs InMemory,
    Ext4Fs.open InMemory.streamDev ⟨dirFs, 0, 512⟩ () = ((), .ok fs) ∧
      Ext4Fs.readInode InMemory.streamDev 2 ((), fs) = (((), fs'), .ok dirInode) ∧
      Opened (fun d c => d.mem = c) dirFs fs' := by
  have hf := damage_facts.2.1
  have hr := hf.readable (by decide)
  obtain ⟨fs, h1, ho⟩ := opened_of hf.openable (by rw [hf.2.2.1]; omega)
  obtain ⟨⟨⟩, fs', h2, -, ho'⟩ := C59_reads InMemory.volumeSpec dirFs () fs trivial ho 2 hr.pos hr.le hr.group
    hr.inside (by rw [hf.2.2.1]; omega)
  obtain ⟨-, -, v0, v1, v2, v3, v4, v5, v6, v7, v8, -⟩ := hf
  have h3 : fs.superblock = ⟨sbOf dirFs⟩ := by
    show Ext4Superblock.mk fs.superblock.bytes = _
    rw [ho.superblock]
  rw [h3, v8, v6, dirInode_new.1] at h2
  exact ⟨fs, fs', h1, h2, ho'⟩

/-- The tree of inode 2, which is one leaf. -/
theorem dirFs_contiguous : Contiguous dirFs 1024 dirInode.blocksBuffer 0 0 [5, 8, 9] := by
  rw [dirInode_new.2.2.2.2]
  obtain ⟨-, -, -, h1, h2, h3, h4, h5, h6, h7⟩ := sumInode_values
  have hf : NodeFits sumInode.blocksBuffer := by unfold NodeFits; omega
  have hl : ∀ k, k < 3 → extentLen (nodeEntry sumInode.blocksBuffer k) = 1 := fun k hk =>
    extentLen_of (h4 k hk).2 (by omega)
  have c3 : Contiguous dirFs 1024 sumInode.blocksBuffer 3 3 [] := by
    have := Contiguous.done (c := dirFs) (bs := 1024) sumInode.blocksBuffer 3
    rwa [h3] at this
  have c2 := Contiguous.extent (c := dirFs) (bs := 1024) sumInode.blocksBuffer 2 2 [] h2 (by omega) hf
    (h4 2 (by omega)).1 (by rw [(h4 2 (by omega)).2]; omega) (by rw [hl 2 (by omega)]; exact c3)
  rw [hl 2 (by omega), h7] at c2
  have c1 := Contiguous.extent (c := dirFs) (bs := 1024) sumInode.blocksBuffer 1 1 _ h2 (by omega) hf
    (h4 1 (by omega)).1 (by rw [(h4 1 (by omega)).2]; omega) (by rw [hl 1 (by omega)]; exact c2)
  rw [hl 1 (by omega), h6] at c1
  have c0 := Contiguous.extent (c := dirFs) (bs := 1024) sumInode.blocksBuffer 0 0 _ h2 (by omega) hf
    (h4 0 (by omega)).1 (by rw [(h4 0 (by omega)).2]; omega) (by rw [hl 0 (by omega)]; exact c1)
  rw [hl 0 (by omega), h5] at c0
  exact c0

set_option maxRecDepth 100000 in
theorem soundFs_tails : DirBlock.tailOk (blockOf soundFs 1024 5) 1012 1970381644 = true
    ∧ DirBlock.tailOk (blockOf soundFs 1024 8) 1012 1970381644 = true
    ∧ DirBlock.tailOk (blockOf soundFs 1024 9) 1012 1970381644 = true := by
  decide +kernel

/-- The records of a block of the sound volume. -/
def soundRecords (x : Nat) : List Bytes := listOf 127 ((blockOf soundFs 1024 x).take 1012)

theorem soundFs_records {x : Nat} (hx : x < 13)
    (ht : DirBlock.tailOk (blockOf soundFs 1024 x) 1012 1970381644 = true) :
    SoundRecords 1970381644 (blockOf soundFs 1024 x) (soundRecords x) := by
  have hl : (blockOf soundFs 1024 x).length = 1024 := by
    unfold blockOf
    rw [List.length_take, List.length_drop, soundFs_length]
    omega
  have := DirBlock.tailOk_iff (b := blockOf soundFs 1024 x) (by omega) 1970381644
  rw [hl] at this
  refine ⟨this.1 ht, ?_⟩
  have : recordsEnd (some 1970381644) (blockOf soundFs 1024 x) = 1012 := by
    show (blockOf soundFs 1024 x).length - 12 = 1012
    rw [hl]
  rw [this]
  refine tiles_listOf 127 _ ?_
  rw [List.length_take]
  omega

set_option maxRecDepth 100000 in
theorem sound_seen : ((([soundRecords 5].flatten.map returned) ++ [Res.err .invalidData] ++
      ([soundRecords 9].flatten.map returned) ++ List.replicate 2 (Res.ok none)).map seenRes)
      = [.ok (some ⟨2, ⟨[46]⟩, .directory⟩), .ok (some ⟨2, ⟨[46, 46]⟩, .directory⟩),
        .ok (some ⟨3, ⟨[100, 97, 116, 97]⟩, .regularFile⟩),
        .ok (some ⟨4, ⟨[108, 111, 111, 112]⟩, .regularFile⟩), .err .invalidData,
        .ok (some ⟨5, ⟨[101, 120, 116, 114, 97]⟩, .regularFile⟩), .ok none, .ok none]
    ∧ (soundRecords 8).map (fun e => seen ⟨e⟩) = [⟨6, ⟨[109, 111, 114, 101]⟩, .regularFile⟩] := by
  decide +kernel

end Fixture

set_option maxRecDepth 100000 in
/-- Case for C99_directory_partial: one character of the entry "more" has been damaged; instead of it there is
an error, and all other entries are listed. -/
theorem C99_directory_case : ∃ (fs fs' : Ext4Fs InMemory) (d : Ext4Directory InMemory)
    (h : List (Res (Option DirEntry))) (s' : Unit × Ext4Directory InMemory),
    Ext4Fs.open InMemory.streamDev ⟨dirFs, 0, 512⟩ () = ((), .ok fs) ∧
      Ext4Fs.readInode InMemory.streamDev 2 ((), fs) = (((), fs'), .ok dirInode) ∧
      Ext4Directory.open fs' dirInode = .ok d ∧ DirCalls InMemory.streamDev ((), d) h s' ∧
      h.map seenRes = [.ok (some ⟨2, ⟨[46]⟩, .directory⟩), .ok (some ⟨2, ⟨[46, 46]⟩, .directory⟩),
        .ok (some ⟨3, ⟨[100, 97, 116, 97]⟩, .regularFile⟩),
        .ok (some ⟨4, ⟨[108, 111, 111, 112]⟩, .regularFile⟩), .err .invalidData,
        .ok (some ⟨5, ⟨[101, 120, 116, 114, 97]⟩, .regularFile⟩), .ok none, .ok none] := by
  obtain ⟨fs, fs', h1, h2, ho⟩ := dirFs_open
  obtain ⟨-, -, v0, v1, -⟩ := damage_facts.2.1
  obtain ⟨-, a1, a2, a3, -⟩ := dirInode_new
  have hopen : Ext4Directory.open fs' dirInode = .ok ⟨fileOf fs' dirInode, .start⟩ := by
    unfold Ext4Directory.open
    rw [if_neg (by rw [a1]; decide), open_file fs' _ a2]
    rfl
  obtain ⟨s', h3⟩ := C99_directory_partial InMemory.volumeSpec soundFs dirFs (by rw [v0]; omega) () trivial fs'
    ho dirInode _ hopen 1970381644 rfl 1024 v1.symm [5] [9] 8 dirFs_contiguous (by decide)
    (by rw [a3]; rfl) (by decide) (by unfold BlockInside; rw [v0]; decide)
    (damagedAt_damaged (by decide) (by decide) (by decide) (by decide +kernel)) (soundRecords 8)
    [soundRecords 5] [soundRecords 9]
    (.cons (soundFs_records (by decide) soundFs_tails.1) .nil)
    (soundFs_records (by decide) soundFs_tails.2.1)
    (.cons (soundFs_records (by decide) soundFs_tails.2.2) .nil) 2
  exact ⟨fs, fs', _, _, s', h1, h2, hopen, h3, sound_seen.1⟩

set_option maxRecDepth 100000 in
/-- The checksums of the disk format as stated here are those of a real filesystem: the inode and the
descriptor of the tests of /repo, with the superblock of their image. -/
theorem C99_real_sums : ∃ s t : BitVec 32, VolumeSeed imageHead s ∧
    IsCrc32c s (leBytes 4 2 ++ (rootInode.drop 0x64).take 4) t ∧ InodeSum t rootInode ∧
    GroupSum s 0 descriptor := by
  have h : ext4Crc32c (BitVec.allOnes 32) (((sbOf imageHead).drop 0x68).take 16) = 533293768 ∧
      ¬ le (sbOf imageHead) 0x60 4 / 2 ^ 13 % 2 = 1 ∧
      ext4Crc32c 533293768 (leBytes 4 2 ++ (rootInode.drop 0x64).take 4) = 1485601019 ∧
      ext4Crc32c 1485601019 (zeroed (zeroed rootInode 0x7c 2) 0x82 2) =
        BitVec.ofNat 32 (le rootInode 0x7c 2 + le rootInode 0x82 2 * 2 ^ 16) ∧
      le descriptor 0x1e 2 =
        (ext4Crc32c 533293768 (leBytes 4 0 ++ zeroed descriptor 0x1e 2)).toNat % 2 ^ 16 := by
    rw [imageHead, rootInode, descriptor]; decide +kernel
  exact ⟨_, _, ⟨fun h' => absurd h' h.2.1, fun _ => IsCrc32c_of h.1⟩, IsCrc32c_of h.2.2.1,
    IsCrc32c_of h.2.2.2.1, _, IsCrc32c_of rfl, h.2.2.2.2⟩

end MdRecover
