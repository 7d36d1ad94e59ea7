import Verif.Lemmas.Main
import Verif.Props.Diagnosis
import Verif.Props.Probe

/-! C78-C80: the program as a whole, from the paths on the command line to what is printed. -/

namespace MdRecover
open MdSpec

/-! ## C78 -/

theorem reports_diagnose {D : Type} {ord ord' : IterOrder} (hord : ord.Valid) (hord' : ord'.Valid)
    (devices : List (MdDevice D)) :
    Reports devices (ArrayDef.diagnose ord' (MdArray.open ord devices)) := by
  obtain ⟨a1, a2, a3, a4, a5, a6, a7, a8, a9⟩ := C29_disagreements_exact hord hord' devices
  obtain ⟨c1, c2⟩ := C30_listings_exact hord hord' devices
  exact ⟨c1, c2, a1, a2, a3, a4, a5, a6, a7, a8, a9, C31_duplicate_indexes_exact hord hord' devices⟩

theorem mainProgram_of_errors {ord ord' : IterOrder} {fs : Bytes → Except Nat OsFile} {paths : List Bytes}
    {s s' : System} {rs : List (Except (Bytes × ErrKind) (MdDevice NativeDev))}
    (h : openPaths fs paths s = (s', .ok rs)) (hne : (partitionResult rs).2 ≠ []) :
    mainProgram ord ord' fs paths s = (s', .ok (.errors (partitionResult rs).2)) := by
  unfold mainProgram
  rw [SM.bind_ok (h := h)]
  simp only
  rw [if_neg (by simpa using hne)]
  rfl

theorem mainProgram_of_devices {ord ord' : IterOrder} {fs : Bytes → Except Nat OsFile}
    {paths : List Bytes} {s s' : System} {rs : List (Except (Bytes × ErrKind) (MdDevice NativeDev))}
    (h : openPaths fs paths s = (s', .ok rs)) (hne : (partitionResult rs).2 = []) :
    mainProgram ord ord' fs paths s =
      (s', .ok (.diagnosis (ArrayDef.diagnose ord' (MdArray.open ord (partitionResult rs).1)))) := by
  unfold mainProgram
  rw [SM.bind_ok (h := h)]
  simp only
  rw [if_pos (by rw [hne]; rfl)]
  rfl

/-- C78, if no read and no ioctl fails: if some path cannot be opened or is not a block device, exactly those
paths are listed, in order, each with its reason, and nothing is diagnosed; otherwise the diagnosis printed is
one of exactly the devices at the paths, with the superblocks that are on them. -/
theorem C78_outcome {ord ord' : IterOrder} (hord : ord.Valid) (hord' : ord'.Valid)
    (fs : Bytes → Except Nat OsFile) (paths : List Bytes) (s : System)
    (hos : NativeDev.NoFailures s.os) (hi : s.nextId + paths.length < U64)
    (hsane : ∀ path ∈ paths, ∀ f, fs path = .ok f → Sane f) :
    (paths.filterMap (complaint fs) ≠ [] →
      ∃ s', mainProgram ord ord' fs paths s = (s', .ok (.errors (paths.filterMap (complaint fs))))) ∧
    (paths.filterMap (complaint fs) = [] →
      ∃ s' d devices, mainProgram ord ord' fs paths s = (s', .ok (.diagnosis d)) ∧
        Members (fun f sb => Expected (wholeBlocks f) sb) fs s.nextId paths devices ∧
        Reports devices d) := by
  obtain ⟨s', rs, h, -, ho⟩ := openPaths_spec False NativeDev.NoFailures
    (fun _ _ h hl => ⟨fun c hc => h.1 c (hl.1 hc), fun c hc => h.2 c (hl.2 hc)⟩)
    (fun _ c h hc => h.1 c hc) (fun _ c h hc => h.2 c hc) fs paths s hos hi hsane
  rw [← ho.errors_eq]
  refine ⟨fun hne => ⟨s', mainProgram_of_errors h hne⟩, fun hne => ?_⟩
  refine ⟨s', _, _, mainProgram_of_devices h hne, ?_, reports_diagnose hord hord' _⟩
  obtain ⟨h1, h2⟩ := ho.members hne
  refine ⟨h1, fun j path hj => ?_⟩
  obtain ⟨m, f, g1, g2, g3, g4, g5⟩ := h2 j path hj
  exact ⟨m, f, g1, g2, g3, g4, g5.resolve_right fun h => h.1⟩

/-- C78, if reads and ioctls may fail at any time: the program does not panic.  Either it lists some of the
paths, in order, among them all that cannot be used, and diagnoses nothing; or all paths can be used, and the
diagnosis printed is one of exactly the devices at the paths, each with what is expected, with another
superblock that is on it, or with none. -/
theorem C78_failing {ord ord' : IterOrder} (hord : ord.Valid) (hord' : ord'.Valid)
    (fs : Bytes → Except Nat OsFile) (paths : List Bytes) (s : System)
    (hi : s.nextId + paths.length < U64) (hsane : ∀ path ∈ paths, ∀ f, fs path = .ok f → Sane f) :
    (∃ s' l, mainProgram ord ord' fs paths s = (s', .ok (.errors l)) ∧ l ≠ [] ∧
      (l.map (·.1)).Sublist paths ∧
      (∀ path ∈ paths, unusable fs path ≠ none → path ∈ l.map (·.1)) ∧
      (∀ path e c, (path, e) ∈ l → fs path = .error c → e = .os c)) ∨
    (∃ s' d devices, mainProgram ord ord' fs paths s = (s', .ok (.diagnosis d)) ∧
      Members (fun f sb => FoundDespiteErrors (wholeBlocks f) sb) fs s.nextId paths devices ∧
      Reports devices d) := by
  obtain ⟨s', rs, h, -, ho⟩ := openPaths_spec True (fun _ => True) (fun _ _ _ _ => trivial)
    (fun _ _ _ _ => trivial) (fun _ _ _ _ => trivial) fs paths s trivial hi hsane
  by_cases hne : (partitionResult rs).2 = []
  · right
    refine ⟨s', _, _, mainProgram_of_devices h hne, ?_, reports_diagnose hord hord' _⟩
    obtain ⟨h1, h2⟩ := ho.members hne
    refine ⟨h1, fun j path hj => ?_⟩
    obtain ⟨m, f, g1, g2, g3, g4, g5⟩ := h2 j path hj
    exact ⟨m, f, g1, g2, g3, g4, g5.imp_right And.right⟩
  · left
    exact ⟨s', _, mainProgram_of_errors h hne, hne, ho.errors_sublist, ho.errors_complete.1,
      ho.errors_complete.2⟩

/-- C78: in terms of the paths, a diagnosis of these devices lists a path as too small iff the whole blocks of
the device at it are less than 12288 bytes. -/
theorem C78_too_small {fs : Bytes → Except Nat OsFile} {first : Nat} {paths : List Bytes}
    {devices : List (MdDevice NativeDev)} {d : Diagnosis}
    (hm : Members (fun f sb => Expected (wholeBlocks f) sb) fs first paths devices)
    (hr : Reports devices d) {j : Nat} {path : Bytes} {f : OsFile} (hj : paths[j]? = some path)
    (hf : fs path = .ok f) :
    (∃ l, d.deviceTooSmall = some l ∧ ⟨first + j, some path⟩ ∈ l) ↔ (wholeBlocks f).length < 12288 := by
  have key : ∀ (j : Nat) (m : MdDevice NativeDev), devices[j]? = some m →
      ∃ path f, paths[j]? = some path ∧ fs path = .ok f ∧ m.id = ⟨first + j, some path⟩ ∧
        Expected (wholeBlocks f) m.superblock := by
    intro j m h
    have hl := (List.getElem?_eq_some_iff.mp h).1
    rw [hm.1] at hl
    obtain ⟨m', f, g1, g2, -, g4, g5⟩ := hm.2 j _ (List.getElem?_eq_getElem hl)
    rw [h] at g1
    cases g1
    exact ⟨_, f, List.getElem?_eq_getElem hl, g2, g4, g5⟩
  have small : ∀ {c : Bytes} {sb : DeviceSuperblock}, Expected c sb →
      (sb = .tooSmall ↔ c.length < 12288) := by
    intro c sb h
    cases h <;> simp [v1Result, v0Result] <;> omega
  obtain ⟨m, f', g1, g2, -, g4, g5⟩ := hm.2 j path hj
  rw [hf] at g2
  cases g2
  have hmem := List.mem_of_getElem? g1
  constructor
  · rintro ⟨l, hl, hin⟩
    obtain ⟨m', hm', hs, hid⟩ := hr.deviceTooSmall.sound l hl _ hin
    obtain ⟨j', hj', hget⟩ := List.mem_iff_getElem.mp hm'
    obtain ⟨path', f'', k1, k2, k3, k4⟩ := key j' m' (by rw [List.getElem?_eq_getElem hj', hget])
    rw [k3] at hid
    simp only [MdDeviceId.mk.injEq, Option.some.injEq] at hid
    have : j' = j := by omega
    subst this
    rw [hj] at k1
    cases k1
    rw [hf] at k2
    cases k2
    exact (small k4).mp hs
  · intro hlt
    have hs := (small g5).mpr hlt
    rcases hl : d.deviceTooSmall with _ | l
    · exact absurd hs (hr.deviceTooSmall.absent.mp hl m hmem)
    · refine ⟨l, rfl, ?_⟩
      obtain ⟨i, hil, hie⟩ := List.mem_map.mp (hr.deviceTooSmall.complete l hl m hmem hs)
      obtain ⟨m', hm', -, hid⟩ := hr.deviceTooSmall.sound l hl i hil
      obtain ⟨j', hj', hget⟩ := List.mem_iff_getElem.mp hm'
      obtain ⟨path', f'', k1, k2, k3, -⟩ := key j' m' (by rw [List.getElem?_eq_getElem hj', hget])
      rw [g4] at hie
      rw [← hid, k3] at hie
      simp only at hie
      have : j' = j := by omega
      subst this
      rw [hj] at k1
      cases k1
      rw [← k3, hid]
      exact hil

/-! ## C79 -/

/-- C79: a path that is not a block device (such as an image in an ordinary file) is always complained about,
and then nothing is diagnosed, whatever the other paths and whatever fails. -/
theorem C79_only_block_devices {ord ord' : IterOrder} (hord : ord.Valid) (hord' : ord'.Valid)
    (fs : Bytes → Except Nat OsFile) (paths : List Bytes) (s : System)
    (hi : s.nextId + paths.length < U64) (hsane : ∀ path ∈ paths, ∀ f, fs path = .ok f → Sane f)
    {path : Bytes} {f : OsFile} (hp : path ∈ paths) (hf : fs path = .ok f) (hn : f.physical = none) :
    ∃ s' l, mainProgram ord ord' fs paths s = (s', .ok (.errors l)) ∧ path ∈ l.map (·.1) ∧
      (NativeDev.NoFailures s.os → (path, .os 25) ∈ l) := by
  have hu : unusable fs path = some (.os 25) := by simp [unusable, hf, hn]
  rcases C78_failing hord hord' fs paths s hi hsane with ⟨s', l, h, -, -, h2, -⟩ | ⟨s', d, ds, h, hm, -⟩
  · refine ⟨s', l, h, h2 path hp (by rw [hu]; simp), fun hos => ?_⟩
    have hmem : (path, ErrKind.os 25) ∈ paths.filterMap (complaint fs) :=
      List.mem_filterMap.mpr ⟨path, hp, by simp [complaint, hu]⟩
    obtain ⟨s'', h'⟩ := (C78_outcome hord hord' fs paths s hos hi hsane).1 (List.ne_nil_of_mem hmem)
    rw [h] at h'
    cases h'
    exact hmem
  · obtain ⟨j, hj, hget⟩ := List.mem_iff_getElem.mp hp
    obtain ⟨m, f', -, g2, g3, -⟩ := hm.2 j path (by rw [List.getElem?_eq_getElem hj, hget])
    rw [hf] at g2
    cases g2
    rw [hn] at g3
    cases g3

/-! ## C80 -/

/-- Cutting off less than a block, where the block size divides 4096, does not change what is expected. -/
theorem expected_of_take {c : Bytes} {bs : Nat} (h0 : 0 < bs) (hd : bs ∣ 4096) {sb : DeviceSuperblock}
    (h : Expected (c.take (c.length / bs * bs)) sb) : Expected c sb := by
  have hn := Nat.div_mul_le_self c.length bs
  have hlen : (c.take (c.length / bs * bs)).length = c.length / bs * bs := by
    rw [List.length_take, Nat.min_eq_left hn]
  -- multiples of 4096 do not tell the lengths apart
  have hmul : ∀ m, 4096 ∣ m → (m ≤ c.length / bs * bs ↔ m ≤ c.length) := by
    intro m hm
    refine ⟨fun h => by omega, fun h => ?_⟩
    obtain ⟨q, rfl⟩ := Nat.dvd_trans hd hm
    rw [Nat.mul_comm bs q]
    exact Nat.mul_le_mul_right _ ((Nat.le_div_iff_mul_le h0).mpr (by rw [Nat.mul_comm]; exact h))
  have hsl : ∀ off k, off + k ≤ c.length / bs * bs →
      slice (c.take (c.length / bs * bs)) off k = slice c off k := by
    intro off k hok
    rw [slice, slice, List.drop_take, List.take_take]
    congr 1
    omega
  have hv1 : ∀ off, off + 4096 ≤ c.length / bs * bs →
      (V1At (c.take (c.length / bs * bs)) off ↔ V1At c off) := by
    intro off hok
    rw [V1At, V1At, hsl off 4 (by omega), hsl (off + 4) 4 (by omega)]
  have hp10 : ∀ off, Place10 (c.length / bs * bs) off ↔ Place10 c.length off := by
    intro off
    rw [Place10, Place10]
    refine and_congr_right fun h4 => ?_
    rw [hmul (off + 8192) (Nat.dvd_add h4 ⟨2, rfl⟩), ← Nat.not_le, ← Nat.not_le (b := c.length),
      hmul (off + 8192 + 4096) (Nat.dvd_add (Nat.dvd_add h4 ⟨2, rfl⟩) ⟨1, rfl⟩)]
  have hp90 : ∀ off, Place090 (c.length / bs * bs) off ↔ Place090 c.length off := by
    intro off
    rw [Place090, Place090]
    refine and_congr_right fun h4 => ?_
    have h4 : 4096 ∣ off := Nat.dvd_trans ⟨16, rfl⟩ h4
    rw [hmul (off + 65536) (Nat.dvd_add h4 ⟨16, rfl⟩), ← Nat.not_le, ← Nat.not_le (b := c.length),
      hmul (off + 2 * 65536) (Nat.dvd_add h4 ⟨32, rfl⟩)]
  have h12 := hmul 12288 ⟨3, rfl⟩
  cases h with
  | tooSmall h => rw [hlen] at h; exact .tooSmall (by omega)
  | v12 g1 g2 =>
    rw [hlen] at g1
    rw [v1Result, hsl _ _ (by omega)]
    exact .v12 (by omega) ((hv1 _ (by omega)).mp g2)
  | v11 g1 g2 g3 =>
    rw [hlen] at g1
    rw [v1Result, hsl _ _ (by omega)]
    exact .v11 (by omega) (fun h => g2 ((hv1 _ (by omega)).mpr h)) ((hv1 _ (by omega)).mp g3)
  | v10 g1 g2 g3 g4 g5 =>
    rw [hlen] at g1 g4
    have := g4.2.1
    rw [v1Result, hsl _ _ (by omega)]
    exact .v10 (by omega) (fun h => g2 ((hv1 _ (by omega)).mpr h))
      (fun h => g3 ((hv1 _ (by omega)).mpr h)) ((hp10 _).mp g4) ((hv1 _ (by omega)).mp g5)
  | v090 g1 g2 g3 g4 g5 g6 g7 =>
    rw [hlen] at g1 g4 g6
    have := g4.2.1
    have := g6.2.1
    rw [V0At, hsl _ _ (by omega)] at g7
    rw [v0Result, hsl _ _ (by omega)]
    exact .v090 (by omega) (fun h => g2 ((hv1 _ (by omega)).mpr h))
      (fun h => g3 ((hv1 _ (by omega)).mpr h)) ((hp10 _).mp g4)
      (fun h => g5 ((hv1 _ (by omega)).mpr h)) ((hp90 _).mp g6) g7
  | missing g1 g2 g3 g4 g5 g6 =>
    rw [hlen] at g1 g4 g6
    have := g4.2.1
    refine .missing (by omega) (fun h => g2 ((hv1 _ (by omega)).mpr h))
      (fun h => g3 ((hv1 _ (by omega)).mpr h)) ((hp10 _).mp g4)
      (fun h => g5 ((hv1 _ (by omega)).mpr h)) (fun off e h1 h2 => ?_)
    have h1 := (hp90 _).mpr h1
    have := h1.2.1
    refine g6 off e h1 ?_
    rw [V0At, hsl _ _ (by omega)]
    exact h2

/-- C80 (partial: for physical block sizes that divide 4096; see `C80_large_blocks`).  The superblock found on
each device is the one expected from the whole content of the device, also if its size is not a multiple of its
physical block size. -/
theorem C80_true_size_partial {ord ord' : IterOrder} (hord : ord.Valid) (hord' : ord'.Valid)
    (fs : Bytes → Except Nat OsFile) (paths : List Bytes) (s : System)
    (hos : NativeDev.NoFailures s.os) (hi : s.nextId + paths.length < U64)
    (hsane : ∀ path ∈ paths, ∀ f, fs path = .ok f → Sane f)
    (huse : ∀ path ∈ paths, unusable fs path = none)
    (hdvd : ∀ path ∈ paths, ∀ f bs, fs path = .ok f → f.physical = some bs → bs ∣ 4096) :
    ∃ s' d devices, mainProgram ord ord' fs paths s = (s', .ok (.diagnosis d)) ∧
      Members (fun f sb => Expected f.content sb) fs s.nextId paths devices ∧ Reports devices d := by
  have hnil : paths.filterMap (complaint fs) = [] := by
    rw [List.filterMap_eq_nil_iff]
    intro path hp
    rw [complaint, huse path hp]; rfl
  obtain ⟨s', d, devices, h1, h2, h3⟩ :=
    (C78_outcome hord hord' fs paths s hos hi hsane).2 hnil
  refine ⟨s', d, devices, h1, ⟨h2.1, fun j path hj => ?_⟩, h3⟩
  obtain ⟨m, f, g1, g2, g3, g4, g5⟩ := h2.2 j path hj
  refine ⟨m, f, g1, g2, g3, g4, ?_⟩
  obtain ⟨bs, hbs⟩ := Option.isSome_iff_exists.mp g3
  have hp := List.mem_of_getElem? hj
  have hw : wholeBlocks f = f.content.take (f.content.length / bs * bs) := by
    simp only [wholeBlocks, hbs]
  simp only [hw] at g5
  exact expected_of_take (hsane path hp f g2 bs hbs).1 (hdvd path hp f bs g2 hbs) g5

/-! ### Concrete cases -/

theorem length_zeros (n : Nat) : (zeros n).length = n := List.length_replicate

namespace Fixture

/-- A system just started, in which nothing fails. -/
def quiet : System := ⟨⟨⟨fun _ => 0, [], fun _ => 0⟩, []⟩, 0, 1⟩

theorem quiet_noFailures : NativeDev.NoFailures quiet.os :=
  ⟨fun _ h => absurd h (List.not_mem_nil), fun _ h => absurd h (List.not_mem_nil)⟩

/-- Block devices at `[1]` (1536 bytes) and `[2]` (12801 bytes in blocks of 512), an ordinary file at `[3]`,
nothing elsewhere. -/
def paths123 : Bytes → Except Nat OsFile
  | [1] => .ok ⟨zeros 1536, some 512⟩
  | [2] => .ok ⟨zeros 12801, some 512⟩
  | [3] => .ok ⟨zeros 12800, none⟩
  | _ => .error 2

theorem paths123_sane (path : Bytes) (f : OsFile) (h : paths123 path = .ok f) : Sane f := by
  unfold paths123 at h
  split at h <;> cases h <;> intro bs hbs <;> cases hbs <;>
    refine ⟨by decide, by decide, ?_⟩ <;> rw [length_zeros] <;> decide

end Fixture

/-- C78: the complaints of a run with an ordinary file and a path where there is nothing. -/
example (ord ord' : IterOrder) (hord : ord.Valid) (hord' : ord'.Valid) :
    ∃ s', mainProgram ord ord' Fixture.paths123 [[1], [3], [2], [4]] Fixture.quiet =
      (s', .ok (.errors [([3], .os 25), ([4], .os 2)])) :=
  (C78_outcome hord hord' Fixture.paths123 [[1], [3], [2], [4]] Fixture.quiet Fixture.quiet_noFailures
    (by decide) (fun path _ f h => Fixture.paths123_sane path f h)).1 (by decide)

/-- C78: a run that ends in a diagnosis; the first device is reported as too small, the second is not. -/
example (ord ord' : IterOrder) (hord : ord.Valid) (hord' : ord'.Valid) :
    ∃ s' d, mainProgram ord ord' Fixture.paths123 [[1], [2]] Fixture.quiet = (s', .ok (.diagnosis d)) ∧
      (∃ l, d.deviceTooSmall = some l ∧ ⟨1, some [1]⟩ ∈ l) ∧
      ¬ ∃ l, d.deviceTooSmall = some l ∧ ⟨2, some [2]⟩ ∈ l := by
  obtain ⟨s', d, devices, h, hm, hr⟩ :=
    (C78_outcome hord hord' Fixture.paths123 [[1], [2]] Fixture.quiet Fixture.quiet_noFailures
      (by decide) (fun path _ f h => Fixture.paths123_sane path f h)).2 (by decide)
  refine ⟨s', d, h, ?_, ?_⟩
  · refine (C78_too_small (j := 0) hm hr rfl rfl).mpr ?_
    simp only [wholeBlocks, List.length_take, length_zeros]
    omega
  · intro h
    have := (C78_too_small (j := 1) (f := ⟨zeros 12801, some 512⟩) hm hr rfl rfl).mp h
    simp only [wholeBlocks, List.length_take, length_zeros] at this
    omega

/-- C79: an ordinary file among block devices. -/
example (ord ord' : IterOrder) (hord : ord.Valid) (hord' : ord'.Valid) :
    ∃ s' l, mainProgram ord ord' Fixture.paths123 [[1], [3], [2]] Fixture.quiet = (s', .ok (.errors l)) ∧
      [3] ∈ l.map (·.1) :=
  let ⟨s', l, h1, h2, _⟩ := C79_only_block_devices hord hord' Fixture.paths123 [[1], [3], [2]] Fixture.quiet
    (by decide) (fun path _ f h => Fixture.paths123_sane path f h) (path := [3])
    (f := ⟨zeros 12800, none⟩) (by decide) rfl rfl
  ⟨s', l, h1, h2⟩

/-- C80: two devices, the size of the second not a multiple of its block size. -/
example (ord ord' : IterOrder) (hord : ord.Valid) (hord' : ord'.Valid) :
    ∃ s' d devices, mainProgram ord ord' Fixture.paths123 [[1], [2]] Fixture.quiet =
        (s', .ok (.diagnosis d)) ∧
      Members (fun f sb => Expected f.content sb) Fixture.paths123 1 [[1], [2]] devices ∧
      Reports devices d :=
  C80_true_size_partial hord hord' Fixture.paths123 [[1], [2]] Fixture.quiet Fixture.quiet_noFailures
    (by decide) (fun path _ f h => Fixture.paths123_sane path f h) (by decide)
    (by
      intro path _ f bs h hb
      unfold Fixture.paths123 at h
      split at h <;> cases h <;> cases hb <;> exact ⟨8, rfl⟩)

/-- C80: a device of 20480 bytes in blocks of 8192 with a 1.0 superblock at its place, 12288.  The superblock
is not found; the device is reported as having none. -/
theorem C80_large_blocks (ord ord' : IterOrder) (hord : ord.Valid) (hord' : ord'.Valid) :
    ∃ (f : OsFile), Sane f ∧ f.physical = some 8192 ∧ f.content.length = 20480 ∧
      Expected f.content (.superblock (SuperblockV1.mk sampleMdp1.encode 0).toSuperblock) ∧
      ∃ s' d l, mainProgram ord ord' (fun _ => .ok f) [[1]] Fixture.quiet = (s', .ok (.diagnosis d)) ∧
        d.missingSuperblock = some l ∧ ⟨1, some [1]⟩ ∈ l := by
  have hl : sampleMdp1.encode.length = 4096 := Mdp1.length_encode sampleMdp1_wf
  have hz : ∀ k, (zeros k).length = k := length_zeros
  have hr : ∀ off n, off + n ≤ 4096 →
      slice (zeros 12288 ++ (sampleMdp1.encode ++ zeros 4096)) (12288 + off) n =
      slice sampleMdp1.encode off n := by
    intro off n h
    rw [show 12288 + off = (zeros 12288).length + off by rw [hz], slice_append_right,
      slice_append_left (by omega)]
  have hs : ∀ off n, off + n ≤ 12288 →
      slice (zeros 12288 ++ (sampleMdp1.encode ++ zeros 4096)) off n = zeros n := by
    intro off n h
    rw [slice_append_left (by rw [hz]; exact h), slice, zeros, List.drop_replicate, List.take_replicate]
    congr 1
    omega
  have hlen : (zeros 12288 ++ (sampleMdp1.encode ++ zeros 4096)).length = 20480 := by
    rw [List.length_append, List.length_append, hl, hz, hz]
  generalize zeros 12288 ++ (sampleMdp1.encode ++ zeros 4096) = content at hr hs hlen
  have hno : ∀ off, off + 8 ≤ 12288 → ¬ V1At content off := by
    rintro off h ⟨h1, -⟩
    rw [hs off 4 (by omega)] at h1
    exact absurd h1 (by decide)
  have hsane : Sane ⟨content, some 8192⟩ := by
    intro bs hbs
    cases hbs
    exact ⟨by decide, by decide, by simp only [hlen]; decide⟩
  refine ⟨⟨content, some 8192⟩, hsane, rfl, hlen, ?_, ?_⟩
  · have h1 : SuperblockV1.mk sampleMdp1.encode 0 = ⟨slice content 12288 4096, 0⟩ := by
      have := hr 0 4096 (by omega)
      rw [Nat.add_zero] at this
      rw [this, slice, List.drop_zero, ← hl, List.take_length]
    rw [h1]
    simp only
    refine .v10 (off := 12288) (by omega) (hno _ (by omega)) (hno _ (by omega))
      ⟨⟨3, rfl⟩, by omega, by omega⟩ ⟨?_, ?_⟩
    · have := hr 0 4 (by omega)
      rw [Nat.add_zero] at this
      rw [this, Mdp1.slice_magic sampleMdp1_wf, leNat_leBytes (by decide)]; rfl
    · rw [hr 4 4 (by omega), Mdp1.slice_major_version sampleMdp1_wf, leNat_leBytes (by decide)]; rfl
  · have hw : wholeBlocks ⟨content, some 8192⟩ = content.take 16384 := by
      simp only [wholeBlocks, hlen]
    have hwl : (content.take 16384).length = 16384 := by rw [List.length_take, hlen]; rfl
    obtain ⟨s', d, devices, h, hm, hd⟩ :=
      (C78_outcome hord hord' (fun _ => .ok ⟨content, some 8192⟩) [[1]] Fixture.quiet
        Fixture.quiet_noFailures (by decide) (by rintro path - f ⟨⟩; exact hsane)).2 rfl
    obtain ⟨m, f, g1, g2, -, g4, g5⟩ := hm.2 0 [1] rfl
    cases g2
    rw [hw] at g5
    have hmiss : m.superblock = .missing := by
      have hsl : ∀ off k, off + k ≤ 12288 → slice (content.take 16384) off k = zeros k := by
        intro off k hok
        rw [← hs off k hok, slice, slice, List.drop_take, List.take_take]
        congr 1
        omega
      have hno' : ∀ off, off + 8 ≤ 12288 → ¬ V1At (content.take 16384) off := by
        rintro off h ⟨h1, -⟩
        rw [hsl off 4 (by omega)] at h1
        exact absurd h1 (by decide)
      generalize m.superblock = sb at g5 ⊢
      cases g5 with
      | tooSmall h => omega
      | v12 _ h => exact absurd h (hno' _ (by omega))
      | v11 _ _ h => exact absurd h (hno' _ (by omega))
      | v10 _ _ _ h h' => have := h.2; exact absurd h' (hno' _ (by omega))
      | v090 _ _ _ _ _ h => have := h.2.1; omega
      | missing => rfl
    have hmem := List.mem_of_getElem? g1
    rcases hms : d.missingSuperblock with _ | l
    · exact absurd hmiss (hd.missingSuperblock.absent.mp hms m hmem)
    · refine ⟨s', d, l, h, hms, ?_⟩
      obtain ⟨i, hil, hie⟩ := List.mem_map.mp (hd.missingSuperblock.complete l hms m hmem hmiss)
      obtain ⟨m', hm', -, hid⟩ := hd.missingSuperblock.sound l hms i hil
      have hmm : m' = m := by
        obtain ⟨x, rfl⟩ := List.length_eq_one_iff.mp hm.1
        rw [List.mem_singleton.mp hm', List.mem_singleton.mp hmem]
      rw [hmm, g4] at hid
      rw [← hid] at hil
      exact hil

end MdRecover
