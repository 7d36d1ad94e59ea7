import Verif.Lemmas.Unreadable
import Verif.Props.Main

/-! C105: superblocks that cannot be read. -/

namespace MdRecover
open MdSpec

section
variable {W D : Type} {bad : Nat → Prop} {dev : StreamDev W D} {G : W → Prop} {Is : D → Disk → Bytes → Prop}
  {At : W → D → Nat → Prop}

/-- C105, what is reported: a place for a superblock that cannot be read to its end is passed over as if there were
no superblock.  Opening the device succeeds, with the first superblock that is at a readable place, or with
Missing. -/
theorem C105_exact (hd : FlawedStream bad dev G Is At) {w : W} {d : D} {k : Disk} {t : Bytes}
    (hG : G w) (hI : Is d k t) (ref : Option Bytes) {i : Nat} (hi : i < U64 - 1) :
    ∃ w' d' sb, MdDevice.fromBlockDevice dev ref ((w, d), i) =
        (((w', d'), i + 1), .ok ⟨⟨i, ref⟩, sb, d'⟩) ∧ G w' ∧ Is d' k t ∧
      ExpectedAmong (fun off => Intact bad k.content off 4096) k.content sb := by
  have hs : ∃ w1, G w1 ∧ MdDevice.deviceSize dev (w, d) = ((w1, d), .ok k.content.length) := by
    have hwf := hd.toDev.wf ⟨t, hI⟩
    obtain ⟨hG1, -⟩ := hd.toDev.blockCount hG ⟨t, hI⟩
    obtain ⟨hG2, -⟩ := hd.toDev.blockSize hG1 ⟨t, hI⟩
    refine ⟨_, hG2, ?_⟩
    unfold MdDevice.deviceSize
    rw [SM.bind_ok (h := SM.get_apply _)]
    simp only
    rw [SM.bind_ok (a := k.n) (s' := ((dev.blockCount d w).1, d))
        (h := by simp only [SM.zoom, (hd.sizeOk hG hI).2]),
      SM.bind_ok (a := k.bs) (s' := ((dev.blockSize d (dev.blockCount d w).1).1, d))
        (h := by simp only [SM.zoom, (hd.sizeOk hG1 hI).1])]
    rw [sizeBytes, checkedMul64_pos hwf.size_lt, hwf.len]; rfl
  obtain ⟨w1, hG1, h1⟩ := hs
  obtain ⟨w2, d2, sb, hG2, hI2, h2, hx⟩ := flawed_findSuperblock hd hG1 hI
  refine ⟨w2, d2, sb, ?_, hG2, hI2, hx⟩
  unfold MdDevice.fromBlockDevice
  rw [SM.bind_ok (a := k.content.length) (s' := ((w1, d), i)) (h := by simp only [SM.zoom, h1])]
  have hid : MdDeviceId.new ref i = (i + 1, .ok ⟨i, ref⟩) := by
    rw [newId_apply, if_neg (by omega), Nat.mod_eq_of_lt (by omega)]
  rw [SM.bind_ok (a := ⟨i, ref⟩) (s' := ((w1, d), i + 1)) (h := by simp only [SM.zoom, hid]),
    SM.bind_ok (a := sb) (s' := ((w2, d2), i + 1)) (h := by simp only [SM.zoom, h2])]
  rfl

end

/-- What counts does not depend on whether places without a superblock can be read. -/
theorem expectedAmong_iff {readable : Nat → Prop} {content : Bytes} {sb : DeviceSuperblock}
    (h : ∀ off, HoldsSuperblock content off → readable off) :
    ExpectedAmong readable content sb ↔ Expected content sb := by
  have h12 : V1At content 4096 ∧ readable 4096 ↔ V1At content 4096 :=
    and_iff_left_of_imp fun hv => h _ (.inl ⟨.inl rfl, hv⟩)
  have h11 : V1At content 0 ∧ readable 0 ↔ V1At content 0 :=
    and_iff_left_of_imp fun hv => h _ (.inl ⟨.inr (.inl rfl), hv⟩)
  have h10 : ∀ {off}, Place10 content.length off → (V1At content off ∧ readable off ↔ V1At content off) :=
    fun hp => and_iff_left_of_imp fun hv => h _ (.inl ⟨.inr (.inr hp), hv⟩)
  have h090 : ∀ {off e}, Place090 content.length off → (V0At content off e ∧ readable off ↔ V0At content off e) :=
    fun hp => and_iff_left_of_imp fun hv => h _ (.inr ⟨hp, _, hv⟩)
  constructor
  · intro hx
    cases hx with
    | tooSmall a => exact .tooSmall a
    | v12 a b c => exact .v12 a b
    | v11 a b c d => exact .v11 a (h12.not.mp b) c
    | v10 a b c d e f => exact .v10 a (h12.not.mp b) (h11.not.mp c) d e
    | v090 a b c d e f g _ => exact .v090 a (h12.not.mp b) (h11.not.mp c) d ((h10 d).not.mp e) f g
    | missing a b c d e f =>
      exact .missing a (h12.not.mp b) (h11.not.mp c) d ((h10 d).not.mp e) fun o x hp => (h090 hp).not.mp (f o x hp)
  · intro hx
    cases hx with
    | tooSmall a => exact .tooSmall a
    | v12 a b => exact .v12 a b (h12.mpr b).2
    | v11 a b c => exact .v11 a (h12.not.mpr b) c (h11.mpr c).2
    | v10 a b c d e => exact .v10 a (h12.not.mpr b) (h11.not.mpr c) d e ((h10 d).mpr e).2
    | v090 a b c d e f g =>
      exact .v090 a (h12.not.mpr b) (h11.not.mpr c) d ((h10 d).not.mpr e) f g ((h090 f).mpr g).2
    | missing a b c d e f =>
      exact .missing a (h12.not.mpr b) (h11.not.mpr c) d ((h10 d).not.mpr e)
        fun o x hp => (h090 hp).not.mpr (f o x hp)

section
variable {W D : Type} {bad : Nat → Prop} {dev : StreamDev W D} {G : W → Prop} {Is : D → Disk → Bytes → Prop}
  {At : W → D → Nat → Prop}

/-- C105 (partial: the superblocks on the device are readable; see `C105_taken_for_missing` and `C105_other_taken`
for what happens otherwise).  If no superblock on the device is hit by an unreadable byte, the device is reported
with the superblock it has, or as having none if it has none, whatever else of it cannot be read. -/
theorem C105_readable_partial (hd : FlawedStream bad dev G Is At) {w : W} {d : D} {k : Disk} {t : Bytes}
    (hG : G w) (hI : Is d k t) (ref : Option Bytes) {i : Nat} (hi : i < U64 - 1)
    (hr : ∀ off, HoldsSuperblock k.content off → Intact bad k.content off 4096) :
    ∃ s m, MdDevice.fromBlockDevice dev ref ((w, d), i) = (s, .ok m) ∧ Expected k.content m.superblock := by
  obtain ⟨w', d', sb, h, -, -, hx⟩ := C105_exact hd hG hI ref hi
  exact ⟨_, _, h, (expectedAmong_iff hr).mp hx⟩

/-- C105, why it is false as stated: a device on which there is a superblock, but none that can be read, is reported
as having none.  Nothing tells the user that something could not be read. -/
theorem C105_taken_for_missing (hd : FlawedStream bad dev G Is At) {w : W} {d : D} {k : Disk} {t : Bytes}
    (hG : G w) (hI : Is d k t) (ref : Option Bytes) {i : Nat} (hi : i < U64 - 1)
    (hs : 12288 ≤ k.content.length)
    (hr : ∀ off, HoldsSuperblock k.content off → ¬ Intact bad k.content off 4096) :
    ∃ s m, MdDevice.fromBlockDevice dev ref ((w, d), i) = (s, .ok m) ∧ m.superblock = .missing := by
  obtain ⟨w', d', sb, h, -, -, hx⟩ := C105_exact hd hG hI ref hi
  refine ⟨_, _, h, ?_⟩
  cases hx with
  | tooSmall a => omega
  | v12 a b c => exact absurd c (hr _ (.inl ⟨.inl rfl, b⟩))
  | v11 a b c d => exact absurd d (hr _ (.inl ⟨.inr (.inl rfl), c⟩))
  | v10 a b c d e f => exact absurd f (hr _ (.inl ⟨.inr (.inr d), e⟩))
  | v090 a b c d e f g r => exact absurd r (hr _ (.inr ⟨f, _, g⟩))
  | missing => rfl

/-- C105, why it is false as stated: if the superblock of the device cannot be read and there is another one, say a
remainder of an earlier use of the device, that one is taken. -/
theorem C105_other_taken (hd : FlawedStream bad dev G Is At) {w : W} {d : D} {k : Disk} {t : Bytes}
    (hG : G w) (hI : Is d k t) (ref : Option Bytes) {i : Nat} (hi : i < U64 - 1)
    (hs : 12288 ≤ k.content.length) (h12 : V1At k.content 4096) (hbad : ¬ Intact bad k.content 4096 4096)
    (h11 : V1At k.content 0) (hok : Intact bad k.content 0 4096) :
    Expected k.content (v1Result k.content 4096 2) ∧
    ∃ s m, MdDevice.fromBlockDevice dev ref ((w, d), i) = (s, .ok m) ∧ m.superblock = v1Result k.content 0 1 := by
  refine ⟨.v12 hs h12, ?_⟩
  obtain ⟨w', d', sb, h, -, -, hx⟩ := C105_exact hd hG hI ref hi
  refine ⟨_, _, h, ?_⟩
  cases hx with
  | tooSmall a => omega
  | v12 a b c => exact absurd c hbad
  | v11 => rfl
  | v10 a b c d e f => exact absurd ⟨h11, hok⟩ c
  | v090 a b c d e f g h => exact absurd ⟨h11, hok⟩ c
  | missing a b c => exact absurd ⟨h11, hok⟩ c

end

/-! ## The program -/

/-- C105, the program as a whole: one read error is enough.  If the only superblock of a block device is a 1.2
superblock and the first read fails, the program prints a diagnosis (and ends with status 0, C91) in which the device
is listed as having no superblock. -/
theorem C105_program {ord ord' : IterOrder} (hord : ord.Valid) (hord' : ord'.Valid) {f : OsFile} {bs : Nat}
    (hsane : Sane f) (hp : f.physical = some bs) (hdvd : bs ∣ f.content.length) (h1 : 16384 ≤ f.content.length)
    (h12 : V1At f.content 4096) (hno : ∀ off, HoldsSuperblock f.content off → off = 4096)
    (path : Bytes) (code : Nat) (os : NativeKernel) (hos : os.files.schedule = [.fail code]) (hio : os.ioctls = [])
    (n i : Nat) (hi : i < U64 - 1) :
    (∃ sb, Expected f.content (.superblock sb)) ∧
    ∃ s' d l, mainProgram ord ord' (fun _ => .ok f) [path] ⟨os, n, i⟩ = (s', .ok (.diagnosis d)) ∧
      d.missingSuperblock = some l ∧ ⟨i, some path⟩ ∈ l := by
  refine ⟨⟨_, .v12 (by omega) h12⟩, ?_⟩
  obtain ⟨hb0, hb1, hlt⟩ := hsane bs hp
  obtain ⟨w, d, hw, hwi, hopen, hdc, hdp, -⟩ : ∃ (w : NativeKernel) (d : NativeDev), w.files.schedule = [.fail code] ∧
      w.ioctls = [] ∧ NativeDev.openPath (fun _ => .ok f) path ⟨os, n, i⟩ = (⟨w, n + 1, i⟩, .ok d) ∧
      d.content = f.content ∧ d.physical = some bs ∧ d.ofd = n :=
    ⟨⟨⟨fun j => if j = n then 0 else os.files.offset j, os.files.schedule, os.files.beyond⟩, os.ioctls⟩,
      ⟨n, f.content, f.physical⟩, hos, hio, rfl, rfl, hp, rfl⟩
  have hsize : MdDevice.deviceSize NativeDev.streamDev (w, d) = ((w, d), .ok f.content.length) := by
    have hio' : ∀ a, NativeDev.ioctl a w = (w, NativeDev.reply a) := fun a => by
      unfold NativeDev.ioctl
      rw [hwi]
    have hbs : NativeDev.blockSize d w = (w, .ok bs) := by
      unfold NativeDev.blockSize
      rw [hio', hdp]; rfl
    have hbc : NativeDev.blockCount d w = (w, .ok (f.content.length / bs)) := by
      unfold NativeDev.blockCount
      rw [SM.bind_ok (a := f.content.length) (s' := w) (h := by rw [hio', hdp, hdc]; rfl), SM.bind_ok (h := hbs),
        SM.lift_apply, divP, if_neg (by omega)]
    unfold MdDevice.deviceSize
    rw [SM.bind_ok (h := SM.get_apply _)]
    simp only
    rw [SM.bind_ok (a := f.content.length / bs) (s' := (w, d)) (h := by
        simp only [SM.zoom, NativeDev.streamDev, hbc]),
      SM.bind_ok (a := bs) (s' := (w, d)) (h := by simp only [SM.zoom, NativeDev.streamDev, hbs])]
    rw [sizeBytes, checkedMul64_pos (by rw [Nat.div_mul_cancel hdvd]; exact hlt), Nat.div_mul_cancel hdvd]; rfl
  -- the disk, and the world after the failed read
  have hI : NativeDev.IsStream d ⟨bs, f.content.length / bs, f.content⟩ [] := by
    have h := d.isStream_of hdp hb0 hb1 (by rw [hdc]; exact hlt)
    rw [hdc, Nat.div_mul_cancel hdvd, List.take_length, List.drop_length] at h
    exact h
  have hfind : ∃ w' d', MdDevice.findSuperblock NativeDev.streamDev f.content.length (w, d) =
      ((w', d'), .ok .missing) := by
    have h10 := place10 (size := f.content.length) (by omega)
    rw [findSuperblock_ge _ (by omega), v1Probes_eq hlt]
    generalize (f.content.length / 512 - 16) / 8 * 4096 = off at h10
    have hoff : off ≠ 4096 := by
      have := h10.2.2
      omega
    have hle := h10.2.1
    obtain ⟨w1, hw1, hwi1, hs1⟩ : ∃ w1 : NativeKernel, w1.files.schedule = [.fail code] ∧ w1.ioctls = [] ∧
        NativeDev.streamDev.seek (.start 4096) (w, d) = ((w1, d), .ok 4096) := by
      have h : FileDev.seekRaw (.start 4096) (w.files, d.file 0) =
          ((⟨fun j => if j = d.ofd then 4096 else w.files.offset j, w.files.schedule, w.files.beyond⟩, d.file 0),
            .ok 4096) := by
        simp only [FileDev.seekRaw]
        rw [if_neg (by simp only [NativeDev.file, hdc]; omega)]
        rfl
      refine ⟨_, ?_, ?_, NativeDev.onFile_eq 0 _ w d h⟩
      · exact hw
      · exact hwi
    have hr1 : NativeDev.streamDev.read (zeros 4096) (w1, d) =
        ((⟨{ w1.files with schedule := [] }, []⟩, d), .err (.os code)) := by
      rw [← hwi1]
      refine NativeDev.onFile_eq 0 _ w1 d (K := { w1.files with schedule := [] }) (f := d.file 0) ?_
      unfold FileDev.readRaw
      rw [hw1]
    have hsb : SuperblockV1.read NativeDev.streamDev.read 2 (w1, d) =
        ((⟨{ w1.files with schedule := [] }, []⟩, d), .err (.os code)) := by
      refine SM.bind_err _ ?_
      unfold readExact
      rw [show (zeros 4096).length = 4095 + 1 from length_zeros _, readExactLoop, if_neg (by
        intro h
        have := congrArg List.length h
        rw [length_zeros] at this
        cases this)]
      exact SM.bind_err _ hr1
    have hG : NativeDev.NoFailures ⟨{ w1.files with schedule := [] }, []⟩ :=
      ⟨fun _ h => absurd h List.not_mem_nil, fun _ h => absurd h List.not_mem_nil⟩
    have hstep : MdDevice.probeV1 NativeDev.streamDev [(2, 4096), (1, 0), (0, off)] (w, d) =
        MdDevice.probeV1 NativeDev.streamDev [(1, 0), (0, off)] (⟨{ w1.files with schedule := [] }, []⟩, d) := by
      rw [probeV1_cons, SM.bind_ok (h := hs1),
        SM.bind_ok (s' := (⟨{ w1.files with schedule := [] }, []⟩, d)) (a := none)
          (h := by simp only [SM.attempt, hsb])]
    have h11 : ¬ V1At f.content 0 := fun h => by
      have := hno 0 (.inl ⟨.inr (.inl rfl), h⟩)
      omega
    have h10' : ¬ V1At f.content off := fun h => hoff (hno off (.inl ⟨.inr (.inr h10), h⟩))
    obtain ⟨w2, d2, hG2, hI2, h2⟩ := probeV1_step NativeDev.streamDevSpec_reliable hG hI 0 1 [(0, off)]
      (by simp only; omega)
    have h2 := (h2.resolve_left fun h => h.1).resolve_left fun h => h11 h.1
    obtain ⟨w3, d3, hG3, hI3, h3⟩ := probeV1_step NativeDev.streamDevSpec_reliable hG2 hI2 off 0 []
      (by simp only; omega)
    have h3 := (h3.resolve_left fun h => h.1).resolve_left fun h => h10' h.1
    rw [SM.bind_ok (a := none) (s' := (w3, d3)) (h := by rw [hstep, h2.2, h3.2]; rfl)]
    simp only
    rcases Nat.lt_or_ge f.content.length 65536 with h0 | h0
    · refine ⟨w3, d3, ?_⟩
      rw [SM.bind_ok (a := none) (s' := (w3, d3)) (h := by
        unfold MdDevice.probeV0; rw [if_neg (by omega)]; rfl)]
      rfl
    · obtain ⟨w4, d4, -, -, h4⟩ := probeV0_step NativeDev.streamDevSpec_reliable hG3 hI3 hlt h0
      rcases h4 with ⟨hF, -⟩ | ⟨e, o, ho, hv, -⟩ | ⟨-, h4⟩
      · exact hF.elim
      · have := hno o (.inr ⟨ho, e, hv⟩)
        subst this
        exact absurd ho.1 (by decide)
      · exact ⟨w4, d4, by rw [SM.bind_ok (h := h4)]; rfl⟩
  obtain ⟨w', d', hfind⟩ := hfind
  have hid : MdDeviceId.new (some path) i = (i + 1, .ok ⟨i, some path⟩) := by
    rw [newId_apply, if_neg (by omega), Nat.mod_eq_of_lt (by omega)]
  have hfrom : MdDevice.fromBlockDevice NativeDev.streamDev (some path) ((w, d), i) =
      (((w', d'), i + 1), .ok ⟨⟨i, some path⟩, .missing, d'⟩) := by
    unfold MdDevice.fromBlockDevice
    rw [SM.bind_ok (a := f.content.length) (s' := ((w, d), i)) (h := by simp only [SM.zoom, hsize]),
      SM.bind_ok (a := ⟨i, some path⟩) (s' := ((w, d), i + 1)) (h := by simp only [SM.zoom, hid]),
      SM.bind_ok (a := .missing) (s' := ((w', d'), i + 1)) (h := by simp only [SM.zoom, hfind])]
    rfl
  have hopens : openPaths (fun _ => .ok f) [path] ⟨os, n, i⟩ =
      (⟨w', n + 1, i + 1⟩, .ok [.ok ⟨⟨i, some path⟩, .missing, d'⟩]) := by
    have h : MdDevice.openPath (fun _ => .ok f) path ⟨os, n, i⟩ =
        (⟨w', n + 1, i + 1⟩, .ok ⟨⟨i, some path⟩, .missing, d'⟩) := by
      unfold MdDevice.openPath
      rw [SM.bind_ok (h := hopen)]
      simp only [SM.zoom, hfrom]
    unfold openPaths
    rw [SM.bind_ok (a := .ok ⟨⟨i, some path⟩, .missing, d'⟩) (s' := ⟨w', n + 1, i + 1⟩)
      (h := by simp only [SM.keepError, h])]
    rfl
  have hrep := reports_diagnose hord hord' [(⟨⟨i, some path⟩, .missing, d'⟩ : MdDevice NativeDev)]
  have hmain := mainProgram_of_devices (ord := ord) (ord' := ord') hopens rfl
  simp only [partitionResult] at hmain
  generalize ArrayDef.diagnose ord' (MdArray.open ord [(⟨⟨i, some path⟩, .missing, d'⟩ : MdDevice NativeDev)]) = dg
    at hrep hmain
  rcases hms : dg.missingSuperblock with _ | l
  · exact absurd rfl (hrep.missingSuperblock.absent.mp hms _ (List.mem_singleton.mpr rfl))
  · refine ⟨_, dg, l, hmain, hms, ?_⟩
    obtain ⟨x, hx, -⟩ := List.mem_map.mp (hrep.missingSuperblock.complete l hms _ (List.mem_singleton.mpr rfl) rfl)
    obtain ⟨m', hm', -, hid'⟩ := hrep.missingSuperblock.sound l hms x hx
    rw [List.mem_singleton.mp hm'] at hid'
    rw [← hid'] at hx
    exact hx

/-! ## Cases -/

namespace Fixture

/-- An in-memory device with these bytes unreadable: a read of a range with one of them fails. -/
def flawedStream (bad : Nat → Bool) : StreamDev Unit InMemory :=
  { InMemory.streamDev with
    read := fun buf s =>
      if (List.range buf.length).any (fun j => decide (s.2.pos + j < s.2.mem.length) && bad (s.2.pos + j)) then
        (s, .err (.os 5))
      else InMemory.streamDev.read buf s }

end Fixture
open Fixture

theorem flawedStream_spec (bad : Nat → Bool) : FlawedStream (fun x => bad x = true) (flawedStream bad)
    (fun _ => True) InMemory.IsStream (fun _ d p => d.pos = p ∧ p ≤ d.mem.length) := by
  have hs := InMemory.streamDevSpec
  have hany : ∀ (d : InMemory) (m : Nat), (List.range m).any
      (fun j => decide (d.pos + j < d.mem.length) && bad (d.pos + j)) = false ↔
      Intact (fun x => bad x = true) d.mem d.pos m := by
    intro d m
    rw [List.any_eq_false]
    constructor
    · intro h x h1 h2 h3 h4
      have := h (x - d.pos) (List.mem_range.mpr (by omega))
      rw [show d.pos + (x - d.pos) = x by omega] at this
      exact this (by rw [decide_eq_true h3, h4]; rfl)
    · intro h j hj hb
      rw [Bool.and_eq_true, decide_eq_true_eq] at hb
      exact h _ (by omega) (by have := List.mem_range.mp hj; omega) hb.1 hb.2
  have hread : ∀ (d : InMemory) buf, (flawedStream bad).read buf ((), d) =
      if (List.range buf.length).any (fun j => decide (d.pos + j < d.mem.length) && bad (d.pos + j)) then
        (((), d), .err (.os 5)) else InMemory.streamDev.read buf ((), d) := fun _ _ => rfl
  refine { toDev := ?_, seek := ?_, read := ?_, sizeOk := ?_, seekOk := ?_, readOk := ?_, readNo := ?_ }
  · exact ⟨hs.toDev.wf, fun hG hI => (hs.toDev.blockSize hG hI).imp_right fun h => h.imp_right fun h => h.1.elim,
      fun hG hI => (hs.toDev.blockCount hG hI).imp_right fun h => h.imp_right fun h => h.1.elim,
      fun hG hI b buf h1 h2 => (hs.toDev.readBlock hG hI b buf h1 h2).imp_right fun h =>
        h.imp_right fun h => h.imp_right fun h => h.1.elim,
      fun hG hI => (hs.toDev.tryClone hG hI).imp_right fun h => h.imp_right fun h => h.1.elim⟩
  · intro w d k t hG hI p hp w' d' r h
    obtain ⟨h1, h2, h3⟩ := hs.seek hG hI p hp h
    exact ⟨h1, h2, .inl (h3.resolve_right fun h => h.1)⟩
  · rintro ⟨⟩ d k t p hG hI hA buf w' d' r h
    rw [hread] at h
    split at h
    · cases h
      exact ⟨trivial, hI, .inr ⟨trivial, _, rfl⟩⟩
    · obtain ⟨h1, h2, h3⟩ := hs.read hG hI hA buf h
      exact ⟨h1, h2, .inl (h3.resolve_right fun h => h.1)⟩
  · intro w d k t hG hI
    exact ⟨(hs.toDev.blockSize hG ⟨t, hI⟩).2.resolve_right fun h => h.1,
      (hs.toDev.blockCount hG ⟨t, hI⟩).2.resolve_right fun h => h.1⟩
  · intro w d k t hG hI p hp
    obtain ⟨-, -, h3⟩ := hs.seek (w := w) hG hI p hp rfl
    obtain ⟨h3, -⟩ := h3.resolve_right fun h => h.1
    exact ⟨_, h3⟩
  · rintro ⟨⟩ d k t p hG hI ⟨rfl, hp⟩ buf hin
    rw [hread, ← hI.2, ← hany] at *
    rw [hin]
    obtain ⟨-, -, h3⟩ := hs.read (w := ()) hG hI ⟨rfl, hp⟩ buf rfl
    obtain ⟨j, buf', p', h3, -⟩ := h3.resolve_right fun h => h.1
    exact ⟨_, h3⟩
  · rintro ⟨⟩ d k t p hG hI ⟨rfl, hp⟩ buf n buf' h
    rw [hread] at h
    rw [← hI.2]
    split at h
    · cases h
    · rename_i hno
      rw [Bool.not_eq_true, hany] at hno
      obtain ⟨-, -, h3⟩ := hs.read (w := ()) hG hI ⟨rfl, hp⟩ buf rfl
      obtain ⟨j, buf'', p', h3, hsr, -⟩ := h3.resolve_right fun h => h.1
      rw [show (InMemory.streamDev.read buf ((), d)).2 = _ from h3] at h
      cases h
      exact fun x h1 h2 h3 => hno x h1 (by have := hsr.le; omega) h3

/-- A disk of 16384 bytes: this, then a superblock, then nothing. -/
def Fixture.diskWith (first second : Bytes) : Bytes := first ++ (second ++ zeros 8192)

theorem diskWith_length {a b : Bytes} (ha : a.length = 4096) (hb : b.length = 4096) :
    (diskWith a b).length = 16384 := by
  rw [diskWith, List.length_append, List.length_append, ha, hb, length_zeros]

theorem diskWith_first {a b : Bytes} (ha : a.length = 4096) {off n : Nat} (h : off + n ≤ 4096) :
    slice (diskWith a b) off n = slice a off n := by
  rw [diskWith, slice_append_left (by omega)]

theorem diskWith_second {a b : Bytes} (ha : a.length = 4096) (hb : b.length = 4096) {off n : Nat}
    (h : off + n ≤ 4096) : slice (diskWith a b) (4096 + off) n = slice b off n := by
  rw [diskWith, show 4096 + off = a.length + off by rw [ha], slice_append_right, slice_append_left (by omega)]

theorem diskWith_rest {a b : Bytes} (ha : a.length = 4096) (hb : b.length = 4096) {off n : Nat}
    (h : off + n ≤ 8192) : slice (diskWith a b) (8192 + off) n = zeros n := by
  rw [diskWith, show 8192 + off = a.length + (b.length + off) by omega, slice_append_right, slice_append_right,
    slice, zeros, List.drop_replicate, List.take_replicate]
  congr 1
  omega

theorem sample_v1At {m : Mdp1} (hm : m.Wf) (h0 : m.magic = 0xa92b4efc) (h1 : m.major_version = 1) {c : Bytes}
    {off : Nat} (h : ∀ o n, o + n ≤ 4096 → slice c (off + o) n = slice m.encode o n) : V1At c off := by
  have h2 := h 0 4 (by omega)
  rw [Nat.add_zero] at h2
  exact ⟨by rw [h2, Mdp1.slice_magic hm, leNat_leBytes (by rw [h0]; decide), h0],
    by rw [h 4 4 (by omega), Mdp1.slice_major_version hm, leNat_leBytes (by rw [h1]; decide), h1]⟩

theorem zeros_not_v1At {c : Bytes} {off : Nat} (h : slice c off 4 = zeros 4) : ¬ V1At c off := by
  rintro ⟨h1, -⟩
  rw [h] at h1
  exact absurd h1 (by decide)

/-- The only superblock of the disk with zeros and then the sample superblock is at 4096. -/
theorem diskWith_holds {off : Nat} : HoldsSuperblock (diskWith (zeros 4096) sampleMdp1.encode) off ↔ off = 4096 := by
  have hz : (zeros 4096).length = 4096 := length_zeros _
  have hl : sampleMdp1.encode.length = 4096 := Mdp1.length_encode sampleMdp1_wf
  have hlen := diskWith_length hz hl
  constructor
  · rintro (⟨rfl | rfl | h, hv⟩ | ⟨h, -⟩)
    · rfl
    · refine absurd hv (zeros_not_v1At ?_)
      rw [diskWith_first hz (by omega), slice, zeros, List.drop_zero, List.take_replicate]
      rfl
    · rw [Place10, hlen] at h
      have : off = 8192 := by omega
      subst this
      refine absurd hv (zeros_not_v1At ?_)
      exact diskWith_rest (off := 0) hz hl (by omega)
    · have := h.2.1
      omega
  · rintro rfl
    exact .inl ⟨.inl rfl, sample_v1At sampleMdp1_wf rfl rfl fun o n h => diskWith_second hz hl h⟩

/-- C105, a case: a disk with a 1.2 superblock, one byte of which cannot be read, is reported as having none; with
only other bytes unreadable, it is reported with its superblock. -/
theorem C105_case :
    (∃ s m, MdDevice.fromBlockDevice (flawedStream (· = 5000)) none
        (((), InMemory.new (diskWith (zeros 4096) sampleMdp1.encode) 512), 1) = (s, .ok m) ∧
      m.superblock = .missing) ∧
    (∃ s m, MdDevice.fromBlockDevice (flawedStream (fun x => x < 4096 || 8192 ≤ x)) none
        (((), InMemory.new (diskWith (zeros 4096) sampleMdp1.encode) 512), 1) = (s, .ok m) ∧
      m.superblock = v1Result (diskWith (zeros 4096) sampleMdp1.encode) 4096 2) := by
  have hz : (zeros 4096).length = 4096 := length_zeros _
  have hl : sampleMdp1.encode.length = 4096 := Mdp1.length_encode sampleMdp1_wf
  have hlen := diskWith_length hz hl
  have hh := @diskWith_holds
  generalize diskWith (zeros 4096) sampleMdp1.encode = c at *
  have hI : InMemory.IsStream (InMemory.new c 512) ⟨512, 32, c⟩ [] := by
    have h := (InMemory.new c 512).isStream_of (show 0 < 512 by decide) (show 512 < U32 by decide) (by
      rw [show (InMemory.new c 512).mem = c from rfl, hlen]; decide)
    rw [show (InMemory.new c 512).mem = c from rfl, show (InMemory.new c 512).blockSize = 512 from rfl,
      Nat.div_mul_cancel (by rw [hlen]; exact ⟨32, rfl⟩), List.take_length, List.drop_length, hlen] at h
    exact h
  refine ⟨?_, ?_⟩
  · refine C105_taken_for_missing (flawedStream_spec _) trivial hI none (by decide) (by simp only [hlen]; decide)
      fun off ho hin => ?_
    rw [hh.mp ho] at hin
    exact hin 5000 (by decide) (by decide) (by simp only [hlen]; decide) rfl
  · obtain ⟨s, m, h1, h2⟩ := C105_readable_partial (flawedStream_spec (fun x => x < 4096 || 8192 ≤ x)) trivial hI
      none (i := 1) (by decide) fun off ho x h1 h2 _ hb => by
        rw [hh.mp ho] at h1 h2
        simp only [Bool.or_eq_true, decide_eq_true_eq] at hb
        omega
    refine ⟨s, m, h1, C36_expected_unique h2 (.v12 (by simp only [hlen]; decide) ?_)⟩
    rcases hh.mpr rfl with ⟨-, h⟩ | ⟨h, -⟩
    · exact h
    · exact absurd h.1 (by decide)

/-- C105, a case of the program: a disk with a 1.2 superblock, and an error (EIO) at the first read. -/
theorem C105_program_case {ord ord' : IterOrder} (hord : ord.Valid) (hord' : ord'.Valid) :
    ∃ f : OsFile, (∃ sb, Expected f.content (.superblock sb)) ∧
      ∃ s' d l, mainProgram ord ord' (fun _ => .ok f) [[47, 120]] ⟨⟨⟨fun _ => 0, [.fail 5], fun _ => 0⟩, []⟩, 3, 1⟩ =
          (s', .ok (.diagnosis d)) ∧
        d.missingSuperblock = some l ∧ ⟨1, some [47, 120]⟩ ∈ l := by
  have hlen := diskWith_length (length_zeros 4096) (Mdp1.length_encode sampleMdp1_wf)
  refine ⟨⟨diskWith (zeros 4096) sampleMdp1.encode, some 512⟩, ?_⟩
  have hh := @diskWith_holds
  generalize diskWith (zeros 4096) sampleMdp1.encode = c at *
  refine C105_program hord hord' (f := ⟨c, some 512⟩) (bs := 512) ?_ rfl ?_ ?_ ?_ (fun off ho => hh.mp ho) _ 5 _ rfl rfl
    3 1 (by decide)
  · rintro _ ⟨⟩
    exact ⟨by decide, by decide, by simp only [hlen]; decide⟩
  · simp only [hlen]; exact ⟨32, rfl⟩
  · simp only [hlen]; decide
  · rcases hh.mpr rfl with ⟨-, h⟩ | ⟨h, -⟩
    · exact h
    · exact absurd h.1 (by decide)

/-- C105, a case of another superblock: in front of the superblock there is an older one, of other content.  With one
byte of the newer one unreadable, the device is reported with the older one. -/
theorem C105_other_case : ∃ old : Mdp1, ∃ c : Bytes, old.events < sampleMdp1.events ∧
    (∃ sb, Expected c (.superblock sb) ∧ sb.eventCount = sampleMdp1.events) ∧
    ∃ s m sb, MdDevice.fromBlockDevice (flawedStream (· = 5000)) none (((), InMemory.new c 512), 1) = (s, .ok m) ∧
      m.superblock = .superblock sb ∧ sb.eventCount = old.events := by
  have hw : ({ sampleMdp1 with events := 1 } : Mdp1).Wf := { sampleMdp1_wf with events := by decide }
  have hlo := Mdp1.length_encode hw
  have hl := Mdp1.length_encode sampleMdp1_wf
  have hlen := diskWith_length hlo hl
  have h0 : ∀ {o n}, o + n ≤ 4096 → slice (diskWith ({ sampleMdp1 with events := 1 } : Mdp1).encode
      sampleMdp1.encode) (0 + o) n = slice ({ sampleMdp1 with events := 1 } : Mdp1).encode o n := fun h => by
    rw [Nat.zero_add, diskWith_first hlo h]
  have h1 : ∀ {o n}, o + n ≤ 4096 → slice (diskWith ({ sampleMdp1 with events := 1 } : Mdp1).encode
      sampleMdp1.encode) (4096 + o) n = slice sampleMdp1.encode o n := fun h => diskWith_second hlo hl h
  refine ⟨{ sampleMdp1 with events := 1 }, diskWith ({ sampleMdp1 with events := 1 } : Mdp1).encode sampleMdp1.encode,
    by decide, ?_⟩
  generalize diskWith ({ sampleMdp1 with events := 1 } : Mdp1).encode sampleMdp1.encode = c at *
  have hev : ∀ (m : Mdp1) (off minor : Nat), m.Wf → (∀ {o n}, o + n ≤ 4096 → slice c (off + o) n = slice m.encode o n) →
      (SuperblockV1.mk (slice c off 4096) minor).toSuperblock.eventCount = m.events := by
    intro m off minor hm h
    show leNat (slice (slice c off 4096) 200 8) = m.events
    rw [slice_slice (by decide), h (by decide), Mdp1.slice_events hm, leNat_leBytes hm.events]
  have hI : InMemory.IsStream (InMemory.new c 512) ⟨512, 32, c⟩ [] := by
    have h := (InMemory.new c 512).isStream_of (show 0 < 512 by decide) (show 512 < U32 by decide) (by
      rw [show (InMemory.new c 512).mem = c from rfl, hlen]; decide)
    rw [show (InMemory.new c 512).mem = c from rfl, show (InMemory.new c 512).blockSize = 512 from rfl,
      Nat.div_mul_cancel (by rw [hlen]; exact ⟨32, rfl⟩), List.take_length, List.drop_length, hlen] at h
    exact h
  obtain ⟨hx, s, m, h2, h3⟩ := C105_other_taken (flawedStream_spec (fun x => decide (x = 5000))) trivial hI none (i := 1)
    (by decide) (by simp only [hlen]; decide) (sample_v1At sampleMdp1_wf rfl rfl fun o n h => h1 h)
    (fun h => h 5000 (by decide) (by decide) (by simp only [hlen]; decide) rfl)
    (sample_v1At hw rfl rfl fun o n h => h0 h)
    (fun x _ hx _ hb => by simp only [decide_eq_true_eq] at hb; omega)
  exact ⟨⟨_, hx, hev _ _ _ sampleMdp1_wf h1⟩, s, m, _, h2, h3, hev _ _ _ hw h0⟩

end MdRecover
