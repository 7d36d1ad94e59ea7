import Verif.Lemmas.Mkfs
import Verif.Props.Ext4Path
import Verif.Props.Rounds

/-! C123: files and directories that are written on a volume are read back. -/

namespace MdRecover
open MdSpec Fixture Mkfs

namespace MkfsLemmas
variable {k : Form} {t : List Node} {c tail : Bytes}

/-- Each inode is that of a file or directory of the table, or all zeros. -/
theorem inode_cases (hc : c = volume k t ++ tail) (hf : Fits k t) (n : Nat) (hn : 1 ≤ n) (hn' : n ≤ inodes k t) :
    (∃ i nd, n = i + 2 ∧ t[i]? = some nd) ∨ inodeBytes c n = zeros 128 := by
  have hv := values_volume hc hf
  have hslot : inodeSlot c n = (firstData k + 2) * bs k + (n - 1) * 128 := by
    unfold inodeSlot
    rw [hv.inodesPerGroup, hv.inodeSize, blockSize_volume hc hf, Nat.div_eq_of_lt (by omega),
      Nat.mod_eq_of_lt (by omega), inodeTable_volume hc hf]
  have hl := length_table hf.sizes
  have hp := table_fits hf.sizes
  have htb : tableBlocks k t * bs k = inodes k t * 128 := by
    rw [bs_eq]
    unfold inodes
    rw [Nat.mul_assoc, Nat.mul_assoc, Nat.mul_assoc]
  by_cases h1 : n = 1
  · refine .inr ?_
    unfold inodeBytes
    rw [hslot, hv.inodeSize, h1]
    show slice c _ _ = _
    rw [behind_descriptor hc hf, slice_append_left (by rw [length_padTo hp]; omega)]
    unfold padTo
    rw [slice_append_left (by omega)]
    unfold table
    rw [List.flatten_cons, slice_append_left (by rw [zeros_len])]
    rfl
  by_cases h2 : n < t.length + 2
  · refine .inl ⟨n - 2, t[n - 2], by omega, List.getElem?_eq_getElem (by omega)⟩
  · refine .inr ?_
    unfold inodeBytes
    rw [hslot, hv.inodeSize]
    show slice c _ _ = _
    rw [behind_descriptor hc hf, slice_append_left (by rw [length_padTo hp]; omega)]
    unfold padTo
    rw [show (n - 1) * 128 = (table k t).length + (n - 1 - (t.length + 1)) * 128 by omega, slice_append_right]
    unfold slice zeros
    rw [List.drop_replicate, List.take_replicate]
    congr 1
    omega

theorem holds_volume (hc : c = volume k t ++ tail) (hf : Fits k t) :
    HoldsWhatItDeclares c ∧ ∀ R, (∀ nd ∈ t, blocks k nd + 12 ≤ R) → EnoughRounds c R := by
  have hv := values_volume hc hf
  have hbz := blockSize_volume hc hf
  have hz : ∀ n, inodeBytes c n = zeros 128 → InodeFits c n ∧ ¬ HasTree c n := by
    intro n h
    have he : extraOf (zeros 128) = 0 := by
      unfold extraOf
      rw [zeros_len, if_neg (by decide)]
    have hp : inodePart (zeros 128) = zeros 128 := by
      unfold inodePart
      rw [he, List.take_of_length_le (by rw [zeros_len])]
    refine ⟨?_, ?_⟩
    · unfold InodeFits
      rw [h, he, zeros_len]
      omega
    · rintro ⟨ht, -⟩
      unfold typeNumber at ht
      rw [h, hp, le_zeros] at ht
      simp at ht
  have hcases : ∀ n, InodeSlot c n → (∃ i nd, n = i + 2 ∧ t[i]? = some nd) ∨ inodeBytes c n = zeros 128 :=
    fun n hn => inode_cases hc hf n hn.pos (by rw [← hv.inodes]; exact hn.le)
  refine ⟨⟨?_, ?_, ?_, ?_⟩, ?_⟩
  · have hb5 : bs k ≤ 32768 := by
      unfold bs
      have : 2 ^ k.log ≤ 2 ^ 5 := Nat.pow_le_pow_right (by omega) hf.block
      omega
    have h1 : (firstData k + 1) * bs k ≤ 2 * 32768 :=
      Nat.mul_le_mul (by have := firstData_le (k := k); omega) hb5
    rintro ⟨-, -, h | ⟨-, h | h⟩⟩
    · rw [hv.blocksPerGroup] at h
      have := total_pos (k := k) (t := t)
      omega
    · rw [groupTable_volume hc hf] at h
      have h : 2 ^ 64 ≤ _ := h
      omega
    · rw [groups_volume hc hf] at h
      omega
  · intro n hn
    rcases hcases n hn with ⟨i, nd, rfl, hi⟩ | h
    · have := (inode_volume hc hf i nd hi).1
      exact ⟨this.extra, this.length⟩
    · exact (hz n h).1
  · intro n hn ht node hnode
    rcases hcases n hn with ⟨i, nd, rfl, hi⟩ | h
    · have hr := (inode_volume hc hf i nd hi).2.2.2.2.2
      obtain ⟨-, h2, h3, -⟩ := root_values (start k t i) (blocks k nd) (hf.sizes nd (List.mem_of_getElem? hi))
      rw [hr] at hnode
      have : node = extentRoot (start k t i) (blocks k nd) := by
        induction hnode with
        | root => rfl
        | child node j _ hd _ _ _ ih =>
          rw [ih] at hd
          exact absurd h2 hd
      rw [this]
      exact h3
    · exact absurd ht (hz n h).2
  · intro n hn ht
    rcases hcases n hn with ⟨i, nd, rfl, hi⟩ | h
    · have hs := (inode_volume hc hf i nd hi).2.2.2.2.1
      have hm := List.mem_of_getElem? hi
      rw [hs, hbz]
      have h1 := (blocks_hold (k := k) nd).1
      have h2 : blocks k nd * bs k ≤ (U32 - 1) * bs k :=
        Nat.mul_le_mul_right _ (by have := hf.sizes nd hm; show _ ≤ 2 ^ 32 - 1; omega)
      omega
    · exact absurd ht (hz n h).2
  · intro R hR n hn ht
    rcases hcases n hn with ⟨i, nd, rfl, hi⟩ | h
    · obtain ⟨-, -, -, -, hs, hr⟩ := inode_volume hc hf i nd hi
      have hm := List.mem_of_getElem? hi
      obtain ⟨h1, h2, -, -⟩ := root_values (start k t i) (blocks k nd) (hf.sizes nd hm)
      refine ⟨2 * extents (blocks k nd) + 1, ?_, ?_⟩
      · rw [hr, ← h1]
        exact .leaf _ h2
      · rw [hs, hbz]
        have h3 := hR nd hm
        have h4 := hf.sizes nd hm
        have h5 : extents (blocks k nd) ≤ 4 := by unfold extents; omega
        have h6 : size k nd / bs k ≤ blocks k nd := by
          unfold blocks
          exact Nat.div_le_div_right (by omega)
        omega
    · exact absurd ht (hz n h).2

end MkfsLemmas

section
variable [Build]

omit [Build] in
/-- C123: the volume written from a table of files can be opened, and its bytes say at the end of each path what
the table says.  Anything may follow the volume. -/
theorem C123_volume (k : Mkfs.Form) (t : List Node) (hf : Fits k t) (rest : Bytes) :
    Ext4Openable (volume k t ++ rest) ∧ ∀ names, Says (volume k t ++ rest) names (atPath t 0 names) :=
  ⟨MkfsLemmas.openable_volume rfl hf, MkfsLemmas.says_volume rfl hf⟩

/-- C123: the program that follows a path and reads the file returns what was written: on every device with the
content of the volume, the content of the file, or that there is no such entry, or that there is something else
than a directory on the way or than a file at the end.  On a device that may fail, it may also return an error.
The same bound on its loops is enough for all devices. -/
theorem C123_reads (k : Mkfs.Form) (t : List Node) (hf : Fits k t) (rest : Bytes)
    (hl : (volume k t ++ rest).length < 2 ^ 57) (names : List Bytes) :
    ∃ N, ∀ {W D : Type} {F : Prop} {lim : Nat → Nat} {dev : StreamDev W D} {G : W → Prop}
      {Is : D → Bytes → Prop} {At : W → D → Nat → Prop}, SeekableVolume F lim dev G Is At →
      (lim (volume k t ++ rest).length = U64 ∨ (F ∧ lim (volume k t ++ rest).length ≤ U64)) →
      ∀ (w : W) (d : D), G w → Is d (volume k t ++ rest) → ∀ rounds,
        (readPath dev rounds d names w).2 = .ok (atPath t 0 names) ∨
        (F ∧ ∃ e, (readPath dev rounds d names w).2 = .err e) ∨
        (rounds < N ∧ (readPath dev rounds d names w).2 = .ok .running) := by
  obtain ⟨h1, h2⟩ := C123_volume k t hf rest
  exact C98_failing_partial _ h1 hl names _ (h2 names)

/-- C123: no call of any program on the volume panics, whatever fails; and each call returns if it is given twelve
rounds more than the largest file or directory has blocks. -/
theorem C123_programs {W D : Type} {F : Prop} {dev : StreamDev W D} {G : W → Prop} {Is : D → Bytes → Prop}
    {At : W → D → Nat → Prop} (hv : VolumeSpec F dev G Is At) (k : Mkfs.Form) (t : List Node) (hf : Fits k t) (rest : Bytes)
    (hl : (volume k t ++ rest).length < U64) (w : W) (d : D) (hG : G w) (hd : Is d (volume k t ++ rest))
    (ops : List (Nat × SessionCall)) (hops : ∀ x ∈ ops, x.2.wellTyped) :
    SessionOut.panicked ∉ sessionRun dev (w, [.device d]) ops ∧
    ∀ R, (∀ nd ∈ t, blocks k nd + 12 ≤ R) → (∀ x ∈ ops, x.2.given R) →
      SessionOut.running ∉ sessionRun dev (w, [.device d]) ops := by
  obtain ⟨h1, h2⟩ := MkfsLemmas.holds_volume (c := volume k t ++ rest) rfl hf
  exact ⟨C117_no_panic hv _ hl h1 w d hG hd ops hops,
    fun R hR hg => (C121_returns hv _ hl h1 R (h2 R hR) w d hG hd ops hops hg).1⟩

/-- C123, on a RAID6 array. -/
theorem C123_array (k : Mkfs.Form) (t : List Node) (hf : Fits k t) (rest : Bytes)
    (hl : (volume k t ++ rest).length < 2 ^ 57) (names : List Bytes) {L n c size : Nat} :
    ∃ N, ∀ {W D : Type} {F : Prop} {dev : BlockDev W D} {G : W → Prop} {Is : D → Disk → Prop},
      DevSpec F dev G Is → ∀ {ord : IterOrder}, ord.Valid → ∀ {alg : Raid6Algorithm}
      {members : Nat → Disk} {devices : List (MdDevice D)}, Raid6Algorithm.fromLayout L = some alg →
      ReadableSet Is alg n c size members devices → Raid6Set L n c size members (volume k t ++ rest) →
      ∀ w, G w → ∀ rounds,
        let r := (readPath (Reader.streamDev (MdArray.dev dev)) rounds
          (Reader.new (MdArray.open ord devices)) names w).2
        r = .ok (atPath t 0 names) ∨ (F ∧ ∃ e, r = .err e) ∨ (rounds < N ∧ r = .ok .running) := by
  obtain ⟨h1, h2⟩ := C123_volume k t hf rest
  exact C98_array_partial h1 hl names _ (h2 names)

/-- C123, from the disks of an array. -/
theorem C123_disks (k : Mkfs.Form) (t : List Node) (hf : Fits k t) (rest : Bytes)
    (hl : (volume k t ++ rest).length < 2 ^ 57) (names : List Bytes) :
    ∃ N, ∀ {fs : Bytes → Except Nat OsFile} {paths : List Bytes} {L n c size : Nat}
      {file : Nat → OsFile} {sb : Nat → Mdp1} {place : Nat → Nat},
      ArrayAt fs paths L n c size (volume k t ++ rest) file sb place →
      ∀ {alg : Raid6Algorithm}, Raid6Algorithm.fromLayout L = some alg →
      ∀ s : System, NativeDev.NoFailures s.os → s.nextId + paths.length < U64 →
      ∃ s' devices, openPaths fs paths s = (s', .ok (devices.map .ok)) ∧
        ∀ ord : IterOrder, ord.Valid → ∀ rounds, N ≤ rounds →
          (readPath (Reader.streamDev (MdArray.dev NativeDev.streamDev.toBlockDev)) rounds
            (Reader.new (MdArray.open ord devices)) names s'.os).2 = .ok (atPath t 0 names) := by
  obtain ⟨h1, h2⟩ := C123_volume k t hf rest
  exact C98_disks_to_content_partial h1 hl names _ (h2 names)

end

/-! ### A case -/

/-- A root directory with a directory "d" and a file "f"; in "d", the same file under the name "g", and an entry
"up" for the root. -/
def sampleTree (b : Bytes) : List Node :=
  [.dir [([100], 1), ([102], 2)], .dir [([103], 2), ([117, 112], 0)], .file b]

theorem sampleTree_fits_uuid (u : Option Nat) (hu : ∀ x, u = some x → x < 256 ^ 16) (b : Bytes)
    (hb : b.length ≤ 2 ^ 24) : Fits ⟨0, u⟩ (sampleTree b) := by
  have e0 : blocks ⟨0, u⟩ (.dir [([100], 1), ([102], 2)]) = 2 := (MkfsLemmas.blocks_dir _ (by simp)).2
  have e1 : blocks ⟨0, u⟩ (.dir [([103], 2), ([117, 112], 0)]) = 2 := (MkfsLemmas.blocks_dir _ (by simp)).2
  have e2 : blocks ⟨0, u⟩ (.file b) ≤ 16384 := by
    show (b.length + 1023) / 1024 ≤ 16384
    omega
  refine ⟨by simp [sampleTree], Nat.zero_le _, hu, by simp [sampleTree], ?_, ?_, ?_⟩
  · intro es he e hm
    simp only [sampleTree, List.mem_cons, List.not_mem_nil, or_false, Node.dir.injEq, reduceCtorEq] at he
    rcases he with rfl | rfl
    · simp only [List.mem_cons, List.not_mem_nil, or_false] at hm
      rcases hm with rfl | rfl <;> simp [sampleTree]
    · simp only [List.mem_cons, List.not_mem_nil, or_false] at hm
      rcases hm with rfl | rfl <;> simp [sampleTree]
  · intro nd hn
    simp only [sampleTree, List.mem_cons, List.not_mem_nil, or_false] at hn
    rcases hn with rfl | rfl | rfl <;> omega
  · unfold total start tableBlocks firstData sampleTree
    rw [List.map_cons, List.map_cons, List.map_cons, e0, e1]
    simp
    omega

theorem sampleTree_fits (b : Bytes) (hb : b.length ≤ 2 ^ 24) : Fits 0 (sampleTree b) :=
  sampleTree_fits_uuid none (fun _ h => nomatch h) b hb

/-- C123: what is read back from it, without checksums or with checksums of any UUID. -/
theorem C123_case (u : Option Nat) (hu : ∀ x, u = some x → x < 256 ^ 16) (b rest : Bytes) (hb : b.length ≤ 2 ^ 24)
    (hr : rest.length < 2 ^ 56) :
    ∃ N, ∀ rounds, N ≤ rounds →
      (readPath InMemory.streamDev rounds (InMemory.new (volume ⟨0, u⟩ (sampleTree b) ++ rest) 512)
        [[100], [117, 112], [100], [103]] ()).2 = .ok (.content b) ∧
      (readPath InMemory.streamDev rounds (InMemory.new (volume ⟨0, u⟩ (sampleTree b) ++ rest) 512)
        [[100], [102]] ()).2 = .ok .missing ∧
      (readPath InMemory.streamDev rounds (InMemory.new (volume ⟨0, u⟩ (sampleTree b) ++ rest) 512)
        [[102], [103]] ()).2 = .ok .otherType := by
  have hf := sampleTree_fits_uuid u hu b hb
  have hl : (volume ⟨0, u⟩ (sampleTree b) ++ rest).length < 2 ^ 57 := by
    rw [List.length_append, MkfsLemmas.length_volume hf.sizes]
    have := hf.total
    have : bs ⟨0, u⟩ = 1024 := rfl
    rw [this]
    omega
  obtain ⟨h1, h2⟩ := C123_volume ⟨0, u⟩ (sampleTree b) hf rest
  obtain ⟨N1, h3, -⟩ := C98_reads_partial InMemory.volumeSpec _ h1 hl () trivial (InMemory.new _ 512) rfl _ _
    (h2 [[100], [117, 112], [100], [103]])
  obtain ⟨N2, h4, -⟩ := C98_reads_partial InMemory.volumeSpec _ h1 hl () trivial (InMemory.new _ 512) rfl _ _
    (h2 [[100], [102]])
  obtain ⟨N3, h5, -⟩ := C98_reads_partial InMemory.volumeSpec _ h1 hl () trivial (InMemory.new _ 512) rfl _ _
    (h2 [[102], [103]])
  exact ⟨max N1 (max N2 N3), fun rounds hr => ⟨h3 rounds (by omega), h4 rounds (by omega), h5 rounds (by omega)⟩⟩

end MdRecover
