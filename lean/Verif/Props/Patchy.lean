import Verif.Lemmas.PatchyExt4
import Verif.Lemmas.PatchyReader
import Verif.Lemmas.Ext4Unique
import Verif.Props.ArrayDamage

/-! C101: what cannot be read of a device hurts only what is stored there. -/

namespace MdRecover
open MdSpec Fixture

section
variable {W D : Type}

/-- C101, bytes: on a volume some bytes of which cannot be read, all others can. -/
theorem C101_read {bad : Nat → Prop} {lim : Nat → Nat} {dev : StreamDev W D} {G : W → Prop}
    {Is : D → Bytes → Prop} {At : W → D → Nat → Prop} (hv : PatchyVolume bad lim dev G Is At) {c : Bytes}
    (hc : c.length < U64) (hl : c.length ≤ lim c.length) (w : W) (hG : G w) (d : D) (hI : Is d c) (p : Nat)
    (buf : Bytes) (hp : p + buf.length ≤ c.length) (hi : Intact bad c p buf.length) :
    ((do let _ ← dev.seek (.start p); readExact dev.read buf : SM (W × D) Bytes) (w, d)).2 =
      .ok ((c.drop p).take buf.length) := by
  have ha := hv.agree hc hl
  obtain ⟨q, hq⟩ := hv.seekOk hG hI p (by omega) (by omega)
  rcases hs : dev.seek (.start p) (w, d) with ⟨⟨w1, d1⟩, r⟩
  rw [hs] at hq
  simp only at hq
  subst hq
  rw [SM.bind_ok (h := hs)]
  have hI' : (fun d c' => c' = c ∧ Is d c) d c := ⟨rfl, hI⟩
  rw [ha.readAt buf hG hI' (by omega) hs hi]
  obtain ⟨hG1, hI1, h1⟩ := ha.perfect.seek hG hI' p (by omega) hs
  rcases h1 with ⟨q', h1, hA, hq1, -⟩ | ⟨-, e, h1⟩
  · cases h1
    obtain ⟨w2, d2, -, -, h2⟩ := volume_readExact ha.perfect hG1 hI1 hA buf
    have hqp := hq1 (by omega)
    subst hqp
    rcases h2 with ⟨h, -⟩ | ⟨h, -⟩ | ⟨-, -, h2⟩
    · exact h.elim
    · omega
    · rw [h2]; rfl
  · cases h1

/-- C101, files: if the superblock, the group descriptors and, of every inode on the way, the inode and the blocks
of its extent tree can be read, following a path gives what the bytes of the volume say (C98). -/
theorem C101_path [Build] {bad : Nat → Prop} {lim : Nat → Nat} {dev : StreamDev W D} {G : W → Prop}
    {Is : D → Bytes → Prop} {At : W → D → Nat → Prop} (hv : PatchyVolume bad lim dev G Is At) {c : Bytes}
    (hc : Ext4Openable c) (hl : c.length < 2 ^ 57) (hlim : c.length ≤ lim c.length) (w : W) (hG : G w) (d : D)
    (hI : Is d c) (names : List Bytes) (out : Found) (hs : Says c names out) (hp : PathIntact bad c names) :
    (∃ N, ∀ rounds, N ≤ rounds → (readPath dev rounds d names w).2 = .ok out) ∧
    ∀ rounds, (readPath dev rounds d names w).2 = .ok out ∨
      (readPath dev rounds d names w).2 = .ok .running :=
  (hv.agree (by omega) hlim).readPath hG ⟨rfl, hI⟩ hc hl hs hp

/-- C101, all other files: if something needed cannot be read, the answer is an error, or the right one after
all. -/
theorem C101_otherwise [Build] {c : Bytes} (hc : Ext4Openable c) (hl : c.length < 2 ^ 57) (names : List Bytes)
    (out : Found) (hs : Says c names out) : ∃ N, ∀ {W D : Type} {bad : Nat → Prop} {lim : Nat → Nat}
      {dev : StreamDev W D} {G : W → Prop} {Is : D → Bytes → Prop} {At : W → D → Nat → Prop},
      PatchyVolume bad lim dev G Is At → lim c.length ≤ U64 → ∀ (w : W) (d : D), G w → Is d c → ∀ rounds,
        let r := (readPath dev rounds d names w).2
        r = .ok out ∨ (∃ e, r = .err e) ∨ (rounds < N ∧ r = .ok .running) := by
  obtain ⟨N, h⟩ := C98_failing_partial c hc hl names out hs
  refine ⟨N, fun {W D bad lim dev G Is At} hv hlim w d hG hI rounds => ?_⟩
  rcases h hv.toSeekableVolume (.inr ⟨trivial, hlim⟩) w d hG hI rounds with h | ⟨-, h⟩ | h
  · exact .inl h
  · exact .inr (.inl h)
  · exact .inr (.inr h)

/-- C101, opening: the superblock and the group descriptors are enough. -/
theorem C101_open [Build] {bad : Nat → Prop} {lim : Nat → Nat} {dev : StreamDev W D} {G : W → Prop}
    {Is : D → Bytes → Prop} {At : W → D → Nat → Prop} (hv : PatchyVolume bad lim dev G Is At) {c : Bytes}
    (hc : Ext4Openable c) (hl : c.length < 2 ^ 57) (hlim : c.length ≤ lim c.length) (w : W) (hG : G w) (d : D)
    (hI : Is d c) (hf : FsIntact bad c) : ∃ fs, (Ext4Fs.open dev d w).2 = .ok fs := by
  have ha := hv.agree (by omega) hlim
  have hI' : (fun d c' => c' = c ∧ Is d c) d c := ⟨rfl, hI⟩
  obtain ⟨w', fs, h1, -⟩ := open_opened ha.perfect hG hI' hc hl
  have hb : TableChecked c := .inr (by have := hc.fits; omega)
  rw [ha.openFs hG hI' hb hf, h1]
  exact ⟨fs, rfl⟩

end

section
variable {W D : Type} {dev : BlockDev W D} {G : W → Prop} {Is : D → Disk → (Nat → Prop) → Prop}

theorem _root_.MdSpec.PatchyDev.toDevEx (h : PatchyDev dev G Is) :
    DevSpec True dev G (fun d k => ∃ u, Is d k u) where
  wf := fun ⟨_, h1⟩ => h.wf h1
  blockSize := fun hG ⟨u, hI⟩ => (h.toDev u).blockSize hG hI
  blockCount := fun hG ⟨u, hI⟩ => (h.toDev u).blockCount hG hI
  readBlock := fun hG ⟨u, hI⟩ b buf hb hl => by
    obtain ⟨h1, h2, h3⟩ := (h.toDev u).readBlock hG hI b buf hb hl
    exact ⟨h1, ⟨u, h2⟩, h3⟩
  tryClone := fun hG ⟨u, hI⟩ => by
    obtain ⟨h1, h2⟩ := (h.toDev u).tryClone hG hI
    exact ⟨h1, h2.imp_left fun ⟨d', h3, h4⟩ => ⟨d', h3, u, h4⟩⟩

/-- C101, the array as a device: members with unreadable blocks, in each sector of which at most one has been
damaged besides.  A sector of the array can be read, and is what was written, unless the damage is on data or P
of its stripe, or the same sector of some member cannot be read. -/
theorem C101_array (h : PatchyDev dev G Is) {ord : IterOrder} (hord : ord.Valid)
    {L n c size : Nat} {alg : Raid6Algorithm} {good members : Nat → Disk} {unreadable : Nat → Nat → Prop}
    {content : Bytes} {devices : List (MdDevice D)} (hL : Raid6Algorithm.fromLayout L = some alg)
    (hr : ReadableSet (fun d k => ∃ u, Is d k u) alg n c size members devices)
    (hu : ∀ d, d < n → ∀ x, SoleClaim devices x d → Is x.device (members d) (unreadable d))
    (hset : Raid6Set L n c size good content) (hdam : OneDamaged n size good members) :
    PatchyDev (MdArray.dev dev) G (fun a k bad => a = MdArray.open ord devices ∧
      k = ⟨512, size * (n - 2), content⟩ ∧
      bad = fun b => Affected L n c good members b ∨ StripeUnreadable n c members unreadable b) where
  wf := by
    rintro a k bad ⟨rfl, rfl, -⟩
    exact (C100_array_device h.toDevEx hord hL hr hset hdam).wf ⟨rfl, rfl⟩
  blockSize := by
    rintro w a k bad hG ⟨-, rfl, -⟩
    exact ⟨hG, rfl⟩
  blockCount := by
    rintro w a k bad hG ⟨rfl, rfl, -⟩
    refine ⟨hG, ?_⟩
    have hlt : size * (n - 2) < U64 :=
      Nat.lt_of_le_of_lt (Nat.le_mul_of_pos_right _ (by decide)) hset.bytes_lt
    have h3 := hset.devices
    show (MdArray.blockCount (MdArray.open ord devices)) = _
    unfold MdArray.blockCount
    rw [hr.formatInUse]
    simp only [Res.ofOption, bind, Res.bind, MdFormat.dataSectorCount, MdFormat.dataDeviceCount,
      MdFormat.parityDeviceCount, MdAlgorithm.parityDeviceCount, Option.bind_some]
    rw [checkedSub_pos (by omega)]
    simp only [Option.bind_some]
    rw [checkedMul64_pos hlt]
  tryClone := by
    rintro w a k bad hG ⟨rfl, rfl, rfl⟩
    exact ⟨hG, _, rfl, rfl, rfl, rfl⟩
  readBlock := by
    rintro w a k bad hG ⟨rfl, rfl, rfl⟩ b buf hb hl
    simp only at hl hb
    obtain ⟨h1, ⟨h2, -⟩, h3⟩ :=
      (C100_array_device h.toDevEx hord hL hr hset hdam).readBlock hG ⟨rfl, rfl⟩ b buf hb hl
    refine ⟨h1, ⟨h2, rfl, rfl⟩, ?_⟩
    by_cases hbad : Affected L n c good members b ∨ StripeUnreadable n c members unreadable b
    · exact h3.imp_right fun h => ⟨hbad, h.2⟩
    refine .inl ?_
    obtain ⟨hA, hS⟩ := not_or.mp hbad
    obtain ⟨disks, k1, k2⟩ := hr.disks hord
    have hsim : MdArray.SimulatesAt (fun d sec => d < n → SectorUnreadable (members d) (unreadable d) sec) G
        (fun w d sec b => MdArray.memberRead dev (MdArray.open ord devices).devices d sec b w)
        (MdArray.memberAnswer disks) := by
      intro w d sec buf hG
      obtain ⟨g1, g2⟩ := MdArray.memberRead_spec h.toDevEx k1 d sec buf hG
      refine ⟨g1, ?_⟩
      by_cases hx : d < n → SectorUnreadable (members d) (unreadable d) sec
      · exact g2.imp_left fun h => ⟨hx, h.2⟩
      · obtain ⟨hd, hs⟩ := Classical.not_imp.mp hx
        obtain ⟨x, hx1, -⟩ := hr.member d hd
        exact .inr (MdArray.memberRead_patchy h ((C24_active_iff hord devices d x).mpr hx1)
          (hu d hd x hx1) (k2 d hd) sec buf hG hs)
    have hbU : b < U64 :=
      Nat.lt_of_lt_of_le hb (Nat.le_of_lt (Nat.lt_of_le_of_lt (Nat.le_mul_of_pos_right _ (by decide)) hset.bytes_lt))
    have hread := MdArray.readSector_simAt hsim alg (sector := b) (c := c) (n := n) hbU hset.devices_lt hG
      fun d hd hx => hS ⟨d, hd, hx hd⟩
    rcases pure_readSector_damaged hL hset hdam k2 hb with ⟨-, hs⟩ | ⟨hA', -⟩
    rotate_left
    · exact absurd hA' hA
    rw [hs] at hread
    show (MdArray.readBlock dev b buf (w, MdArray.open ord devices)).2 = _
    unfold MdArray.readBlock
    rw [if_neg (by omega)]
    simp only
    rw [hr.formatInUse]
    simp only [MdAlgorithm.readSector]
    rcases hre : alg.readSector b c n
      (fun w d sec b => MdArray.memberRead dev (MdArray.open ord devices).devices d sec b w) w with ⟨w', r⟩
    rw [hre] at hread
    simp only at hread
    subst hread
    simp only
    have hlen : (slice content (b * 512) 512).length = 512 := by
      unfold slice
      rw [List.length_take, List.length_drop, hset.length]
      have := MdArray.fit_sector hb (Nat.le_refl _)
      omega
    rw [if_neg (by omega)]
    rfl

/-- C101, files on an array: a path is followed to what was written if no sector of the array that is needed for it
is in a stripe with damage to data or P, or with something unreadable. -/
theorem C101_array_path [Build] (h : PatchyDev dev G Is) {ord : IterOrder} (hord : ord.Valid)
    {L n c size : Nat} {alg : Raid6Algorithm} {good members : Nat → Disk} {unreadable : Nat → Nat → Prop}
    {content : Bytes} {devices : List (MdDevice D)} (hL : Raid6Algorithm.fromLayout L = some alg)
    (hr : ReadableSet (fun d k => ∃ u, Is d k u) alg n c size members devices)
    (hu : ∀ d, d < n → ∀ x, SoleClaim devices x d → Is x.device (members d) (unreadable d))
    (hset : Raid6Set L n c size good content) (hdam : OneDamaged n size good members)
    (hc : Ext4Openable content) (hl : content.length < 2 ^ 57) (w : W) (hG : G w) (names : List Bytes)
    (out : Found) (hs : Says content names out)
    (hp : PathIntact (fun x => Affected L n c good members (x / 512) ∨
      StripeUnreadable n c members unreadable (x / 512)) content names) :
    (∃ N, ∀ rounds, N ≤ rounds → (readPath (Reader.streamDev (MdArray.dev dev)) rounds
      (Reader.new (MdArray.open ord devices)) names w).2 = .ok out) ∧
    ∀ rounds, (readPath (Reader.streamDev (MdArray.dev dev)) rounds
        (Reader.new (MdArray.open ord devices)) names w).2 = .ok out ∨
      (readPath (Reader.streamDev (MdArray.dev dev)) rounds
        (Reader.new (MdArray.open ord devices)) names w).2 = .ok .running := by
  have ha := C101_array h hord hL hr hu hset hdam
  exact C101_path (Reader.patchyVolume ha ⟨512, size * (n - 2), content⟩ _) hc hl
    (by simp only [noLimit]; omega) w hG _
    ⟨rfl, 0, Reader.at_new (ha.wf ⟨rfl, rfl, rfl⟩) ⟨rfl, rfl, rfl⟩⟩ names out hs hp

end

/-- Less that cannot be read. -/
theorem _root_.MdSpec.PathIntact.mono {bad bad' : Nat → Prop} {c : Bytes} {names : List Bytes}
    (h : PathIntact bad c names) (hb : ∀ x, bad' x → bad x) : PathIntact bad' c names := by
  have hi : ∀ {p len}, Intact bad c p len → Intact bad' c p len :=
    fun h x h1 h2 h3 h4 => h x h1 h2 h3 (hb x h4)
  exact ⟨⟨hi h.1.1, hi h.1.2⟩, fun front rest n h1 h2 =>
    ⟨hi (h.2 front rest n h1 h2).1, fun x hx => hi ((h.2 front rest n h1 h2).2 x hx)⟩⟩

/-- A device that never fails. -/
theorem _root_.MdSpec.DevSpec.patchy {W D : Type} {dev : BlockDev W D} {G : W → Prop} {Is : D → Disk → Prop}
    (h : DevSpec False dev G Is) : PatchyDev dev G (fun d k bad => Is d k ∧ bad = fun _ => False) where
  wf hI := h.wf hI.1
  blockSize hG hI := ⟨(h.blockSize hG hI.1).1, (h.blockSize hG hI.1).2.resolve_right fun h => h.1⟩
  blockCount hG hI := ⟨(h.blockCount hG hI.1).1, (h.blockCount hG hI.1).2.resolve_right fun h => h.1⟩
  readBlock hG hI b buf hb hl := by
    obtain ⟨h1, h2, h3⟩ := h.readBlock hG hI.1 b buf hb hl
    exact ⟨h1, ⟨h2, hI.2⟩, h3.imp_right fun h => h.1.elim⟩
  tryClone hG hI := by
    obtain ⟨h1, h2⟩ := h.tryClone hG hI.1
    obtain ⟨d', h3, h4⟩ := h2.resolve_right fun h => h.1
    exact ⟨h1, d', h3, h4, hI.2⟩

/-- C101, from the disks to the files (superblocks of version 1.0, as in C89 and C100): disks with intact
superblocks, whose data areas were `good` and have been damaged, in each sector on one member at most; nothing
fails.  A path for which no sector is needed whose stripe is damaged in data or P is followed to what was
written. -/
theorem C101_disks [Build] {fs : Bytes → Except Nat OsFile} {paths : List Bytes} {L n c size : Nat}
    {file : Nat → OsFile} {sb : Nat → Mdp1} {place : Nat → Nat} {good : Nat → Disk} {content : Bytes}
    (h : MembersAt fs paths L n c size file sb place) (hset : Raid6Set L n c size good content)
    (hdam : OneDamaged n size good fun d => asDisk (file (place d))) {alg : Raid6Algorithm}
    (hL : Raid6Algorithm.fromLayout L = some alg) (s : System) (hos : NativeDev.NoFailures s.os)
    (hi : s.nextId + paths.length < U64) (hc : Ext4Openable content) (hl : content.length < 2 ^ 57) :
    ∃ s' devices, openPaths fs paths s = (s', .ok (devices.map .ok)) ∧
      ∀ ord : IterOrder, ord.Valid → ∀ (names : List Bytes) (out : Found), Says content names out →
        PathIntact (fun x => Affected L n c good (fun d => asDisk (file (place d))) (x / 512)) content names →
        (∃ N, ∀ rounds, N ≤ rounds → (readPath
          (Reader.streamDev (MdArray.dev NativeDev.streamDev.toBlockDev)) rounds
          (Reader.new (MdArray.open ord devices)) names s'.os).2 = .ok out) ∧
        ∀ rounds, (readPath (Reader.streamDev (MdArray.dev NativeDev.streamDev.toBlockDev)) rounds
            (Reader.new (MdArray.open ord devices)) names s'.os).2 = .ok out ∨
          (readPath (Reader.streamDev (MdArray.dev NativeDev.streamDev.toBlockDev)) rounds
            (Reader.new (MdArray.open ord devices)) names s'.os).2 = .ok .running := by
  obtain ⟨s', devices, h1, hG, hr⟩ := opened_disks h hL s hos hi
  refine ⟨s', devices, h1, fun ord hord names out hs hp => ?_⟩
  have hd := NativeDev.streamDevSpec_reliable.toDev.patchy
  have hr' : ReadableSet (fun d k => ∃ u : Nat → Prop, NativeDev.IsDisk d k ∧ u = fun _ => False) alg n c size
      (fun d => asDisk (file (place d))) devices :=
    ⟨fun x hx => by
        obtain ⟨k, hk⟩ := hr.disk x hx
        exact ⟨k, _, hk, rfl⟩,
      hr.superblocks,
      fun d hd => by
        obtain ⟨x, hx, hk⟩ := hr.member d hd
        exact ⟨x, hx, _, hk, rfl⟩⟩
  refine C101_array_path hd hord hL hr' (unreadable := fun _ _ => False) (fun d hd x hx => ⟨?_, rfl⟩) hset hdam hc hl
    s'.os hG names out hs ?_
  · obtain ⟨y, hy, hk⟩ := hr.member d hd
    have h1 := (C24_active_iff hord devices d x).mpr hx
    rw [(C24_active_iff hord devices d y).mpr hy] at h1
    cases h1
    exact hk
  · have hb : ∀ x, (Affected L n c good (fun d => asDisk (file (place d))) (x / 512) ∨
        StripeUnreadable n c (fun d => asDisk (file (place d))) (fun _ _ => False) (x / 512)) →
        Affected L n c good (fun d => asDisk (file (place d))) (x / 512) := by
      rintro x (h | ⟨d, -, y, -, -, h⟩)
      · exact h
      · exact h.elim
    exact hp.mono hb

/-! ## Cases -/

/-- In-memory devices with these blocks unreadable. -/
def Fixture.flawed (bad : Nat → Bool) : BlockDev Unit InMemory :=
  { InMemory.dev with
    readBlock := fun b buf s => if bad b then (s, .err (.os 5)) else InMemory.readBlock b buf s }

theorem flawed_patchy (bad : Nat → Bool) : PatchyDev (flawed bad) (fun _ => True)
    (fun d k u => InMemory.IsDisk d k ∧ u = fun b => bad b = true) where
  wf hI := InMemory.devSpec.wf hI.1
  blockSize hG hI := InMemory.devSpec.patchy.blockSize hG ⟨hI.1, rfl⟩
  blockCount hG hI := InMemory.devSpec.patchy.blockCount hG ⟨hI.1, rfl⟩
  readBlock := by
    rintro w d k u hG ⟨hI, rfl⟩ b buf hb hl
    obtain ⟨-, h2, h3⟩ := InMemory.devSpec.readBlock hG hI b buf hb hl
    show _ ∧ (InMemory.IsDisk (if bad b then _ else _ : (Unit × InMemory) × Res (Nat × Bytes)).1.2 k ∧ _) ∧
      Gives _ (if bad b then _ else _ : (Unit × InMemory) × Res (Nat × Bytes)).2 _
    by_cases hbad : bad b = true
    · simp only [if_pos hbad]
      exact ⟨trivial, ⟨hI, trivial⟩, .inr ⟨hbad, _, rfl⟩⟩
    · simp only [if_neg hbad]
      exact ⟨trivial, ⟨h2, trivial⟩, h3.imp_right fun h => h.1.elim⟩
  tryClone hG hI := by
    obtain ⟨h1, d', h2, h3, -⟩ := InMemory.devSpec.patchy.tryClone hG ⟨hI.1, rfl⟩
    exact ⟨trivial, d', h2, h3, hI.2⟩

/-- What is needed to read the file "data" of the hand-made filesystem. -/
def Fixture.neededByte (x : Nat) : Prop := 1024 ≤ x ∧ x < 2112 ∨ 3328 ≤ x ∧ x < 3840 ∨ 5120 ≤ x ∧ x < 7168 ∨
  8192 ≤ x ∧ x < 11264

theorem data_leads [Build] : Leads smallFs CleanName 2 [[100, 97, 116, 97]] 3 := by
  obtain ⟨hr, hcl, -⟩ := root_names
  have hd := root_directory smallFs_like rfl rfl rfl
  obtain ⟨w, x, y, z, hl, hw, hx, hy, hz⟩ := split_four hr
  rw [hl] at hd hcl
  simp only [Prod.mk.injEq] at hw hx hy hz
  refine .into 2 3 _ _ [w, x] [z] y hd ⟨by omega, hy.2⟩ ?_ (fun e he _ => hcl e (by
    simp only [List.cons_append, List.nil_append, List.mem_cons, List.not_mem_nil, or_false] at he ⊢
    tauto)) ?_
  · intro e he
    rintro ⟨-, h⟩
    simp only [List.mem_cons, List.not_mem_nil, or_false] at he
    rcases he with rfl | rfl
    · rw [hw.2] at h; cases h
    · rw [hx.2] at h; cases h
  rw [hy.1]
  exact .here 3

theorem data_says [Build] : Says smallFs [[100, 97, 116, 97]] (.content ((smallFs.drop 8192).take 2500)) :=
  .content 3 _ data_leads file3

/-- The blocks of the root directory and of the file. -/
theorem data_blocks : (∀ x, TreeBlock smallFs 1024 (rootNode smallFs 2) x → x = 5) ∧
    ∀ x, TreeBlock smallFs 1024 (rootNode smallFs 3) x → x = 6 ∨ x = 8 ∨ x = 9 ∨ x = 10 := by
  have r2 : rootNode smallFs 2 = root smallFs 2 := by decide +kernel
  have r3 : rootNode smallFs 3 = root smallFs 3 := by decide +kernel
  have v2 : nodeDepth (root smallFs 2) = 0 ∧ nodeEntries (root smallFs 2) = 1 ∧
      extentLen (nodeEntry (root smallFs 2) 0) = 1 ∧ extentStart (nodeEntry (root smallFs 2) 0) = 5 := by
    decide +kernel
  have v3 : nodeDepth (root smallFs 3) = 1 ∧ nodeEntries (root smallFs 3) = 1 ∧
      indexChild (nodeEntry (root smallFs 3) 0) = 6 := by decide +kernel
  have v6 : nodeDepth (blockOf smallFs 1024 6) = 0 ∧ nodeEntries (blockOf smallFs 1024 6) = 2 ∧
      extentLen (nodeEntry (blockOf smallFs 1024 6) 0) = 1 ∧
      extentStart (nodeEntry (blockOf smallFs 1024 6) 0) = 8 ∧
      extentLen (nodeEntry (blockOf smallFs 1024 6) 1) = 2 ∧
      extentStart (nodeEntry (blockOf smallFs 1024 6) 1) = 9 := by decide +kernel
  rw [r2, r3]
  constructor
  · have nodes : ∀ node, TreeNode smallFs 1024 (root smallFs 2) node → node = root smallFs 2 := by
      intro node h
      induction h with
      | root => rfl
      | child node i _ hd _ _ _ ih => subst ih; exact absurd v2.1 hd
    rintro x ⟨node, i, hn, -, hi, h⟩
    obtain rfl := nodes node hn
    have hi0 : i = 0 := by rw [v2.2.1] at hi; omega
    subst hi0
    rcases h with ⟨h, -⟩ | ⟨-, j, hj, h⟩
    · exact absurd v2.1 h
    · rw [v2.2.2.1] at hj
      rw [v2.2.2.2] at h
      omega
  · have nodes : ∀ node, TreeNode smallFs 1024 (root smallFs 3) node →
        node = root smallFs 3 ∨ node = blockOf smallFs 1024 6 := by
      intro node h
      induction h with
      | root => exact .inl rfl
      | child node i _ hd hi _ _ ih =>
        rcases ih with rfl | rfl
        · have hi0 : i = 0 := by rw [v3.2.1] at hi; omega
          subst hi0
          rw [v3.2.2]
          exact .inr rfl
        · exact absurd v6.1 hd
    rintro x ⟨node, i, hn, -, hi, h⟩
    rcases nodes node hn with rfl | rfl
    · have hi0 : i = 0 := by rw [v3.2.1] at hi; omega
      subst hi0
      rcases h with ⟨-, h⟩ | ⟨h, -⟩
      · rw [v3.2.2] at h; omega
      · omega
    · rcases h with ⟨h, -⟩ | ⟨-, j, hj, h⟩
      · exact absurd v6.1 h
      · have hi01 : i = 0 ∨ i = 1 := by rw [v6.2.1] at hi; omega
        rcases hi01 with rfl | rfl
        · rw [v6.2.2.1] at hj
          rw [v6.2.2.2.1] at h
          omega
        · rw [v6.2.2.2.2.1] at hj
          rw [v6.2.2.2.2.2] at h
          omega

theorem data_intact [Build] {bad : Nat → Prop} (hb : ∀ x, bad x → ¬ neededByte x) :
    PathIntact bad smallFs [[100, 97, 116, 97]] := by
  obtain ⟨v1, v2, v3, v4, -, v6, -⟩ := small_values
  obtain ⟨b2, b3⟩ := data_blocks
  have s2 : inodeSlot smallFs 2 = 3328 := by decide +kernel
  have s3 : inodeSlot smallFs 3 = 3584 := by decide +kernel
  refine ⟨⟨fun x h1 h2 _ h4 => hb x h4 (.inl ⟨h1, by omega⟩), ?_⟩, ?_⟩
  · rw [v2, v3, v4]
    exact fun x h1 h2 _ h4 => hb x h4 (.inl ⟨by omega, by omega⟩)
  have i2 : InodeIntact bad smallFs 2 := by
    refine ⟨?_, ?_⟩
    · rw [s2, v6]
      exact fun x h1 h2 _ h4 => hb x h4 (.inr (.inl ⟨by omega, by omega⟩))
    · rw [v1]
      intro y hy
      rw [b2 y hy]
      exact fun x h1 h2 _ h4 => hb x h4 (.inr (.inr (.inl ⟨by omega, by omega⟩)))
  have i3 : InodeIntact bad smallFs 3 := by
    refine ⟨?_, ?_⟩
    · rw [s3, v6]
      exact fun x h1 h2 _ h4 => hb x h4 (.inr (.inl ⟨by omega, by omega⟩))
    · rw [v1]
      intro y hy x h1 h2 _ h4
      refine hb x h4 ?_
      rcases b3 y hy with rfl | rfl | rfl | rfl
      · exact .inr (.inr (.inl ⟨by omega, by omega⟩))
      · exact .inr (.inr (.inr ⟨by omega, by omega⟩))
      · exact .inr (.inr (.inr ⟨by omega, by omega⟩))
      · exact .inr (.inr (.inr ⟨by omega, by omega⟩))
  intro front rest n hf hl
  match front, hf with
  | [], _ =>
    cases hl
    exact i2
  | [a], hf =>
    have ha : a = [100, 97, 116, 97] := by simpa using (List.cons.inj hf).1.symm
    subst ha
    rw [leads_unique hl data_leads]
    exact i3
  | a :: b :: t, hf => simp at hf

/-- C101, a case: of a disk with the hand-made filesystem, in blocks of 512 bytes, only what is needed for the file
can be read.  It is read. -/
theorem C101_case [Build] : ∃ N, ∀ rounds, N ≤ rounds →
    (readPath (Reader.streamDev (flawed fun b => decide ¬ (2 ≤ b ∧ b < 5 ∨ 6 ≤ b ∧ b < 8 ∨ 10 ≤ b ∧ b < 14 ∨
      16 ≤ b ∧ b < 22))) rounds (Reader.new (InMemory.new smallFs 512)) [[100, 97, 116, 97]] ()).2 =
      .ok (.content ((smallFs.drop 8192).take 2500)) := by
  have hlen := smallFs_length
  have hp := flawed_patchy fun b => decide ¬ (2 ≤ b ∧ b < 5 ∨ 6 ≤ b ∧ b < 8 ∨ 10 ≤ b ∧ b < 14 ∨ 16 ≤ b ∧ b < 22)
  have hd : InMemory.IsDisk (InMemory.new smallFs 512) ⟨512, 26, smallFs⟩ := by
    refine ⟨by decide, by decide, by rw [InMemory.new, hlen]; decide, ?_⟩
    rw [InMemory.new]
    simp only
    rw [hlen]
    congr 1
    exact (List.take_of_length_le (by rw [hlen])).symm
  refine (C101_path (Reader.patchyVolume hp ⟨512, 26, smallFs⟩ _) fixture_openable.2 (by rw [hlen]; decide)
    (by rw [hlen]; decide) () trivial _ ⟨rfl, 0, Reader.at_new (InMemory.devSpec.wf hd) ⟨hd, rfl⟩⟩ _ _ data_says
    (data_intact ?_)).1
  intro x hx hn
  have hx := of_decide_eq_true hx
  unfold neededByte at hn
  simp only at hx
  omega

/-- C101, an array: the same filesystem on four disks, none of which can be read in sectors 0, 7, 11 and 12.  The file
is read. -/
theorem C101_array_case [Build] {ord : IterOrder} (hord : ord.Valid) : ∃ N, ∀ rounds, N ≤ rounds →
    (readPath (Reader.streamDev (MdArray.dev (flawed fun b => decide (b = 0 ∨ b = 7 ∨ b = 11 ∨ b = 12)))) rounds
      (Reader.new (MdArray.open ord (memMembers .leftSymmetric 4 1 13 0 (encodeMember 2 4 1 13 smallFs)
        fun _ => 512))) [[100, 97, 116, 97]] ()).2 = .ok (.content ((smallFs.drop 8192).take 2500)) := by
  have hlen := smallFs_length
  have hml := encodeMember_length (L := 2) (n := 4) (c := 1) (size := 13) (content := smallFs) (by decide)
    (by decide) (by decide) (by rw [hlen])
  have hr := memMembers_readable (alg := .leftSymmetric) (c := 1) (size := 13) (offset := 0)
    (mem := encodeMember 2 4 1 13 smallFs) (bs := fun _ => 512) (n := 4) (by decide) (by decide) (fun i _ => by
      rw [hml]
      decide)
  have he : (fun i => (⟨512, (encodeMember 2 4 1 13 smallFs i).length / 512, encodeMember 2 4 1 13 smallFs i⟩ : Disk)) =
      fun i => ⟨512, 13, encodeMember 2 4 1 13 smallFs i⟩ := by
    funext i
    rw [hml]
  rw [he] at hr
  have hset : Raid6Set 2 4 1 13 (fun i => ⟨512, 13, encodeMember 2 4 1 13 smallFs i⟩) smallFs :=
    encode_set (by decide) (by decide) (by decide) (by decide) (by decide) (by rw [hlen]) _
      (fun i _ => List.prefix_refl _)
  refine (C101_array_path (L := 2) (unreadable := fun _ b =>
    (fun b => decide (b = 0 ∨ b = 7 ∨ b = 11 ∨ b = 12) : Nat → Bool) b = true)
    (flawed_patchy _) hord rfl
    ⟨fun x hx => by
        obtain ⟨k, hk⟩ := hr.disk x hx
        exact ⟨k, _, hk, rfl⟩,
      hr.superblocks,
      fun d hd => by
        obtain ⟨x, hx, hk⟩ := hr.member d hd
        exact ⟨x, hx, _, hk, rfl⟩⟩ (fun d hd x hx => ⟨?_, rfl⟩) hset ⟨?_, fun s _ d d' _ _ h _ => absurd rfl h⟩
    fixture_openable.2 (by rw [hlen]; decide) () trivial _ _ data_says (data_intact ?_)).1
  · obtain ⟨y, hy, hk⟩ := hr.member d hd
    have h1 := (C24_active_iff hord _ d x).mpr hx
    rw [(C24_active_iff hord _ d y).mpr hy] at h1
    cases h1
    exact hk
  · intro d _
    show _ ≤ (encodeMember 2 4 1 13 smallFs d).length
    rw [hml]
  · rintro x (⟨row, d, role, -, -, -, h⟩ | ⟨d, -, y, h1, h2, h3⟩) hn
    · exact h rfl
    · have h3 := of_decide_eq_true h3
      unfold neededByte at hn
      simp only at h3
      omega

set_option maxRecDepth 100000 in
theorem hit_5700 : HitAt 5700 := by
  unfold HitAt
  decide +kernel

theorem slice_patch {b : Bytes} {off i n : Nat} {src : Bytes} (hb : off + src.length ≤ b.length)
    (h : i + n ≤ off ∨ off + src.length ≤ i) : slice (patch b off src) i n = slice b i n := by
  have ht : (b.take off).length = off := by rw [List.length_take]; omega
  unfold slice patch
  rcases h with h | h
  · rw [List.append_assoc, List.drop_append_of_le_length (by omega),
      List.take_append_of_le_length (by rw [List.length_drop]; omega), List.drop_take, List.take_take]
    congr 1
    omega
  · rw [List.drop_append, List.drop_of_length_le (by rw [List.length_append]; omega), List.nil_append,
      List.drop_drop, List.length_append, ht]
    congr 2
    omega

theorem hit_5700_other (s : Nat) (_hs : s < 13) (hne : s ≠ 11) :
    slice (hitData 5700) (s * 512) 512 = slice (caseData 1) (s * 512) 512 := by
  have hl := caseData_length 1
  have h4 : ([1, 2, 3, 4] : Bytes).length = 4 := rfl
  exact slice_patch (by omega) (by omega)

/-- The damage from byte 5700 on is in sector 11 of disk 1. -/
theorem hit_5700_sector {d s : Nat} (hd : d < 4) (hs : s < 13)
    (h : SectorDamaged (fun d => asDisk (caseFile (caseOrder.getD (casePlace d) 0)))
      (fun d => asDisk (hitFile 5700 (caseOrder.getD (casePlace d) 0))) d s) : s = 11 := by
  by_contra hne
  have hp : ∀ d, d < 4 → caseOrder.getD (casePlace d) 0 = d := by decide
  refine h ?_
  show (asDisk (hitFile 5700 (caseOrder.getD (casePlace d) 0))).sector s =
    (asDisk (caseFile (caseOrder.getD (casePlace d) 0))).sector s
  rw [hp d hd]
  by_cases h1 : d = 1
  swap
  · rw [hitFile, if_neg h1]
  subst h1
  unfold Disk.sector
  rw [asDisk_content (hitFile_member hit_5700 (by decide)), asDisk_content (caseFile_member (by decide))]
  have l1 := hitData_length hit_5700.1
  have l2 := caseData_length 1
  show slice (disk10 (hitData 5700) 1536 (caseSb 1)) _ _ = slice (disk10 (caseData 1) 1536 (caseSb 1)) _ _
  rw [disk10, disk10, slice_append_left (by rw [List.length_append]; omega), slice_append_left (by omega),
    slice_append_left (by rw [List.length_append]; omega), slice_append_left (by omega)]
  exact hit_5700_other s hs hne

/-- C101, disks: these disks, damaged in a block that the file does not use.  The file is read. -/
theorem C101_disks_case [Build] : ∃ s' devices,
    openPaths (hitFs 5700) casePaths quiet = (s', .ok (devices.map .ok)) ∧
    ∀ ord : IterOrder, ord.Valid → ∃ N, ∀ rounds, N ≤ rounds →
      (readPath (Reader.streamDev (MdArray.dev NativeDev.streamDev.toBlockDev)) rounds
        (Reader.new (MdArray.open ord devices)) [[100, 97, 116, 97]] s'.os).2 =
        .ok (.content ((smallFs.drop 8192).take 2500)) := by
  obtain ⟨s', devices, h1, h2⟩ := C101_disks (hit_membersAt hit_5700) case_arrayAt.data (hit_damage hit_5700)
    (alg := .leftSymmetric) rfl quiet quiet_noFailures (by decide) fixture_openable.2
    (by rw [smallFs_length]; decide)
  refine ⟨s', devices, h1, fun ord hord => (h2 ord hord _ _ data_says (data_intact ?_)).1⟩
  rintro x ⟨row, d, role, e1, e2, -, h⟩ hn
  have hd : d < 4 := by
    have := (List.getElem?_eq_some_iff.1 e2).1
    rwa [raid6Row_length (by decide) e1] at this
  unfold neededByte at hn
  have := hit_5700_sector hd (by omega) h
  omega

end MdRecover
