import Verif.Props.SweepPatchy

/-! C136, a case: a damaged directory on damaged disks. -/

namespace MdRecover
open MdSpec Fixture Mkfs

/-- The tree of C123 on a volume with checksums. -/
def checkedVolume : Bytes := Mkfs.volume ⟨0, some 5⟩ (sampleTree [1, 2, 3])

/-- The first byte of its root directory has changed. -/
def checkedContent : Bytes := checkedVolume.take 4096 ++ [255] ++ checkedVolume.drop 4097

theorem checked_fits : Fits ⟨0, some 5⟩ (sampleTree [1, 2, 3]) :=
  sampleTree_fits_uuid (some 5) (fun x h => by cases h; decide) [1, 2, 3] (by decide)

theorem checkedVolume_length : checkedVolume.length = 9216 := by
  unfold checkedVolume
  rw [MkfsLemmas.length_volume checked_fits.sizes]
  decide +kernel

theorem checkedContent_length : checkedContent.length = 9216 := by
  simp only [checkedContent, List.length_append, List.length_take, List.length_drop, checkedVolume_length]
  rfl

set_option maxRecDepth 100000 in
theorem checkedVolume_entry : checkedVolume[4096]? = some 3 := by
  decide +kernel

theorem checked_start0 : start ⟨0, some 5⟩ (sampleTree [1, 2, 3]) 0 = 4 := by decide +kernel
theorem checked_start1 : start ⟨0, some 5⟩ (sampleTree [1, 2, 3]) 1 = 6 := by decide +kernel
theorem checked_start2 : start ⟨0, some 5⟩ (sampleTree [1, 2, 3]) 2 = 8 := by decide +kernel

theorem checked_damaged : DamagedIn (start ⟨0, some 5⟩ (sampleTree [1, 2, 3]) 0 * 1024)
    (start ⟨0, some 5⟩ (sampleTree [1, 2, 3]) 0 * 1024 + 1024)
    (volume ⟨0, some 5⟩ (sampleTree [1, 2, 3]) ++ []) checkedContent := by
  rw [checked_start0, List.append_nil]
  refine ⟨checkedVolume.take 4096, [3], [255], checkedVolume.drop 4097, ?_, rfl, rfl, by simp, by decide, ?_, ?_⟩
  · show checkedVolume = _
    obtain ⟨hlt, h⟩ := List.getElem?_eq_some_iff.1 checkedVolume_entry
    rw [List.append_assoc, List.singleton_append, ← h, List.getElem_cons_drop, List.take_append_drop]
  · rw [List.length_take, checkedVolume_length]; decide
  · rw [List.length_take, checkedVolume_length]; decide

def checkedData (d : Nat) : Bytes := encodeMember 2 4 1 9 checkedContent d

theorem checkedData_length (d : Nat) : (checkedData d).length = 4608 :=
  encodeMember_length (n := 4) (size := 9) (by decide) (by decide) ⟨9, rfl⟩ checkedContent_length d

set_option maxRecDepth 100000 in
theorem checkedData_unmistakable : ∀ d ∈ List.range 4, leNat ((checkedData d).take 4) ≠ 0xa92b4efc ∧
    leNat (((checkedData d).drop 4096).take 4) ≠ 0xa92b4efc := by
  decide +kernel

/-- Sectors 6 and 7 have been overwritten. -/
def hitPair (l z : Bytes) : Bytes := l.take 3072 ++ (z ++ l.drop 4096)

theorem hitPair_length {l z : Bytes} (hl : l.length = 4608) (hz : z.length = 1024) : (hitPair l z).length = 4608 := by
  simp only [hitPair, List.length_append, List.length_take, List.length_drop, hl, hz]
  rfl

theorem hitPair_get {l z : Bytes} (hl : l.length = 4608) (hz : z.length = 1024) (i : Nat)
    (hi : i < 3072 ∨ 4096 ≤ i) : (hitPair l z)[i]? = l[i]? := by
  have h1 : (l.take 3072).length = 3072 := by rw [List.length_take, hl]; rfl
  rw [hitPair, List.getElem?_append, h1, List.getElem?_append, hz]
  rcases hi with hi | hi
  · rw [if_pos hi, List.getElem?_take, if_pos hi]
  · rw [if_neg (by omega), if_neg (by omega), List.getElem?_drop]
    rw [show 4096 + (i - 3072 - 1024) = i by omega]

theorem hitPair_sector {l z : Bytes} (hl : l.length = 4608) (hz : z.length = 1024) {n s : Nat} (hs : s < 6 ∨ 7 < s) :
    (⟨512, n, hitPair l z⟩ : Disk).sector s = (⟨512, n, l⟩ : Disk).sector s := by
  unfold Disk.sector slice
  apply List.ext_getElem?
  intro i
  rw [List.getElem?_take, List.getElem?_take, List.getElem?_drop, List.getElem?_drop]
  split
  · rw [hitPair_get hl hz _ (by omega)]
  · rfl

/-- The disks, with sectors 6 and 7 of disk `e` overwritten by `z`. -/
def pairData (e : Nat) (z : Bytes) (d : Nat) : Bytes := if d = e then hitPair (checkedData d) z else checkedData d

def pairFs (e : Nat) (z : Bytes) : Bytes → Except Nat OsFile
  | [i] => .ok ⟨newCase.disk (pairData e z i.toNat) i.toNat, some 512⟩
  | _ => .error 2

theorem pair_given (e : Nat) {z : Bytes} (hz : z.length = 1024) :
    newCase.GivenAt (pairFs e z) [[2], [0], [3], [1]] [2, 0, 3, 1] (pairData e z) (fun _ => 512) where
  fits := newCase_fits
  perm := by decide
  count := rfl
  at_path := by
    intro j path d hj hd
    have hlt : j < 4 := (List.getElem?_eq_some_iff.mp hj).1
    have : j = 0 ∨ j = 1 ∨ j = 2 ∨ j = 3 := by omega
    rcases this with rfl | rfl | rfl | rfl <;> cases hj <;> cases hd <;> rfl
  length d _ := by
    show (if d = e then _ else _ : Bytes).length = 4608
    split
    · exact hitPair_length (checkedData_length d) hz
    · exact checkedData_length d
  unmistakable d hd := by
    have h := checkedData_unmistakable d (List.mem_range.mpr hd)
    have ht : ∀ p, p < 3068 ∨ 4096 ≤ p → ((pairData e z d).drop p).take 4 = ((checkedData d).drop p).take 4 := by
      intro p hp
      unfold pairData
      split
      · apply List.ext_getElem?
        intro i
        rw [List.getElem?_take, List.getElem?_take, List.getElem?_drop, List.getElem?_drop]
        split
        · rw [hitPair_get (checkedData_length d) hz _ (by omega)]
        · rfl
      · rfl
    refine ⟨?_, ?_⟩
    · rw [ht 0 (by decide)]
      exact h.1
    · rw [ht 4096 (by decide)]
      exact h.2
  blocks _ _ := by decide

theorem pair_set : Raid6Set newCase.layout newCase.members newCase.chunk newCase.size
    (fun d => ⟨512, newCase.size, checkedData d⟩) checkedContent :=
  encode_set (n := 4) (c := 1) (size := 9) (by decide) (by decide) (by decide) ⟨9, rfl⟩ (by decide)
    checkedContent_length _ (fun _ _ => List.prefix_rfl)

theorem pair_same {e : Nat} {z : Bytes} (hz : z.length = 1024) {d s : Nat}
    (h : SectorDamaged (fun d => ⟨512, newCase.size, checkedData d⟩)
      (fun d => ⟨512, newCase.size, pairData e z d⟩) d s) : d = e ∧ 6 ≤ s ∧ s ≤ 7 := by
  by_cases hd : d = e
  · refine ⟨hd, Decidable.byContradiction fun hs => h ?_⟩
    show (⟨512, newCase.size, if d = e then hitPair (checkedData d) z else checkedData d⟩ : Disk).sector s = _
    rw [if_pos hd]
    exact hitPair_sector (checkedData_length d) hz (by omega)
  · refine absurd ?_ h
    show (⟨512, newCase.size, if d = e then hitPair (checkedData d) z else checkedData d⟩ : Disk).sector s = _
    rw [if_neg hd]

theorem pair_damaged (e : Nat) {z : Bytes} (hz : z.length = 1024) : OneDamaged newCase.members newCase.size
    (fun d => ⟨512, newCase.size, checkedData d⟩) (fun d => ⟨512, newCase.size, pairData e z d⟩) :=
  ⟨fun d hd => le_of_eq ((pair_given e hz).length d hd).symm,
    fun _ _ _ _ _ _ h h' => (pair_same hz h).1.trans (pair_same hz h').1.symm⟩

/-- C136: the first block of the root directory was damaged on the volume, and sectors 6 and 7 of any one disk are
overwritten by anything; they belong to the directory "d".  The file "f" in the second block of the root directory is
found, with all its bytes, and no other file. -/
theorem C136_disks_case [Build] (e : Nat) (z : Bytes) (hz : z.length = 1024) :
    ∃ N s' devices, openPaths (pairFs e z) [[2], [0], [3], [1]] quiet = (s', .ok (devices.map .ok)) ∧
      ∀ ord : IterOrder, ord.Valid → ∀ rounds, N ≤ rounds →
        ∃ y, (sweepTree (Reader.streamDev (MdArray.dev NativeDev.streamDev.toBlockDev)) rounds 4
          (Reader.new (MdArray.open ord devices)) s'.os).2 = .ok y ∧
        ∀ names b, sweptAt y names = some (.file b) ↔ names = [[102]] ∧ b = [1, 2, 3] := by
  have hd := checked_damaged
  have hD := directoriesDamaged_one (k := ⟨0, some 5⟩) (i := 0) (j := 0) (t := sampleTree [1, 2, 3])
    ⟨_, rfl, by simp, rfl⟩ hd
  have b00 := damagedBlock_one (k := ⟨0, some 5⟩) (t := sampleTree [1, 2, 3]) hd 0 0
  have b01 := damagedBlock_one (k := ⟨0, some 5⟩) (t := sampleTree [1, 2, 3]) hd 0 1
  have hdist : DistinctNames (sampleTree [1, 2, 3]) := by
    intro es he
    simp only [sampleTree, List.mem_cons, List.not_mem_nil, or_false, Node.dir.injEq, reduceCtorEq] at he
    rcases he with rfl | rfl <;> simp
  have hbad : ∀ x, Affected newCase.layout newCase.members newCase.chunk
      (fun d => ⟨512, newCase.size, checkedData d⟩) (fun d => ⟨512, newCase.size, pairData e z d⟩) (x / 512) →
      6144 ≤ x ∧ x < 8192 := by
    rintro x ⟨row, d, role, -, -, -, h⟩
    have := (pair_same hz h).2
    change 6 ≤ x / 512 / 1 / 2 * 1 + x / 512 % 1 ∧ x / 512 / 1 / 2 * 1 + x / 512 % 1 ≤ 7 at this
    omega
  have hbs : bs ⟨0, some 5⟩ = 1024 := rfl
  have s1 := MkfsLemmas.start_succ (k := ⟨0, some 5⟩) (t := sampleTree [1, 2, 3]) (i := 0) rfl
  change start ⟨0, some 5⟩ (sampleTree [1, 2, 3]) 1 = _ at s1
  obtain ⟨N, hN⟩ := C136_disks ⟨0, some 5⟩ rfl (sampleTree [1, 2, 3]) checked_fits hdist [] checkedContent hD
    (by rw [checkedContent_length]; decide)
  obtain ⟨s', devices, h1, h2⟩ := hN (pair_given e hz) pair_set (fun d _ => checkedData_length d) (pair_damaged e hz)
    rfl (by
      intro x hx h
      have hx : x < start ⟨0, some 5⟩ (sampleTree [1, 2, 3]) 0 * bs ⟨0, some 5⟩ := hx
      rw [checked_start0, hbs] at hx
      have := hbad x h
      omega) quiet quiet_noFailures (by decide)
  refine ⟨N, s', devices, h1, fun ord hord rounds hr => ?_⟩
  obtain ⟨y, g1, g2, g3⟩ := h2 ord hord rounds hr 4
  refine ⟨y, g1, fun names b => ⟨fun hn => sampleTree_only_f (by rw [b00]; simp) g2 hn, ?_⟩⟩
  rintro ⟨rfl, rfl⟩
  refine g3 [[102]] 2 _ (by simp) rfl ⟨?_, _, 1, 2, rfl, rfl, by rw [b01]; simp, by decide, rfl, ?_⟩
  · intro nd hnd x i1 i2 i3
    cases hnd
    rw [← s1, checked_start1, hbs] at i2
    have := hbad x i3
    omega
  · intro nd hnd x i1 i2 i3
    rw [checked_start2, hbs] at i1
    have := hbad x i3
    omega

end MdRecover
