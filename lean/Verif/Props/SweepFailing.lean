import Verif.Lemmas.SweepFailing
import Verif.Props.Rescue
import Verif.Props.Sweep

/-! C135, if the device fails as well: what is found is there. -/

namespace MdRecover
open MdSpec Fixture Mkfs

section
variable [Build]

/-- C103, without `EntriesFull`: on a device that may fail at any time, whichever calls failed, the entries that calls
returned are the first ones of the directory (those of its sound blocks), in their order, none of them left out or
repeated. -/
theorem C103_in_order {W D : Type} {F : Prop} {dev : StreamDev W D} {G : W → Prop} {Is : D → Bytes → Prop}
    {At : W → D → Nat → Prop} (hv : VolumeSpec F dev G Is At) (c : Bytes) (hc : c.length < U64) (w : W)
    (hG : G w) (fs : Ext4Fs D) (ho : Opened Is c fs) (inode : Inode) (d : Ext4Directory D)
    (hd : Ext4Directory.open fs inode = .ok d) (xs : List Nat)
    (hx : Contiguous c (blockSizeOf (sbOf c)) inode.blocksBuffer 0 0 xs)
    (hsize : inode.fileSizeBytes = xs.length * blockSizeOf (sbOf c)) (h32 : xs.length < U32)
    (rss : List (List (Res (Option DirEntry))))
    (hrss : List.Forall₂ (fun x rs => BlockResults inode.metadataChecksumSeed
      (blockOf c (blockSizeOf (sbOf c)) x) rs) xs rss)
    (h : List (Res (Option DirEntry))) (s : W × Ext4Directory D) (hcalls : DirCalls dev (w, d) h s) :
    (h.filterMap fun | .ok e => e | _ => none) <+: rss.flatten.filterMap fun | .ok e => e | _ => none :=
  calls_entries hv hc hG ho hd hx hsize h32 hrss hcalls

/-- C135, on devices that may fail at any time, besides the damage to the directories: the program does not panic; it
fails only if opening the filesystem fails, which it does only if the device does; and what it finds is in the table:
files with all their bytes, and the first ones of the entries of directories that are not in damaged blocks.  This
holds for all bounds on the loops. -/
theorem C135_within {W D : Type} {F : Prop} {dev : StreamDev W D} {G : W → Prop} {Is : D → Bytes → Prop}
    {At : W → D → Nat → Prop} (hv : VolumeSpec F dev G Is At) (k : Mkfs.Form) (hu : k.uuid.isSome)
    (t : List Node) (hf : Fits k t) (rest c : Bytes) (hd : DirectoriesDamaged k t (volume k t ++ rest) c)
    (hl : c.length < 2 ^ 57) (w : W) (d : D) (hG : G w) (hI : Is d c) (rounds depth : Nat) :
    (∃ y, (sweepTree dev rounds depth d w).2 = .ok y ∧
      SweptWithin t (damagedBlock k t (volume k t ++ rest) c) depth 0 y) ∨
    (F ∧ ∃ e, (sweepTree dev rounds depth d w).2 = .err e) := by
  have hop := MkfsLemmas.openable_damaged rfl hf hd
  have hs := MkfsLemmas.holds_damaged rfl hf hd
  obtain ⟨w', r, h1, hG', h2⟩ := Ext4Fs.open_spec hv hG hI
    (.inr (by have := hop.fits; show _ < 2 ^ 64; omega))
  rw [sweepTree]
  rcases h2 with ⟨fs, rfl, ho, -⟩ | ⟨hF, e, rfl⟩ | ⟨h, -⟩
  · rw [SM.bind_ok (h := h1)]
    obtain ⟨s', y, h3, -, h4⟩ := MkfsLemmas.sweep_within rfl hf hd hv (show c.length < 2 ^ 64 by omega) hu rounds depth 0
      hf.root (w', fs) ⟨hG', ho⟩
    refine .inl ⟨y, ?_, h4⟩
    show (sweep dev rounds depth 2 (w', fs)).2 = _
    rw [h3]
  · rw [SM.bind_err (h := h1)]
    exact .inr ⟨hF.resolve_right fun h => h.1 hop, e, rfl⟩
  · exact absurd h hs.opening

omit [Build] in
/-- C135: what it means that something found is in the table: a file found at the end of a path is the file that this
path leads to, by entries that are not in damaged blocks. -/
theorem C135_within_files (t : List Node) (bad : Nat → Nat → Bool) (b : Bytes) (names : List Bytes) :
    ∀ n depth y, SweptWithin t bad depth n y → sweptAt y names = some (.file b) →
      ∃ m, ReachesBy t bad n names m ∧ t[m]? = some (.file b) := by
  induction names with
  | nil =>
    intro n depth y hy h
    rw [sweptAt] at h
    cases h
    cases depth with
    | zero => exact hy.elim
    | succ depth => exact ⟨n, rfl, hy⟩
  | cons name names ih =>
    intro n depth y hy h
    match y, depth with
    | .lost, _ => simp [sweptAt] at h
    | .other, _ => simp [sweptAt] at h
    | .file _, _ => simp [sweptAt] at h
    | .dir ys e, 0 => exact hy.elim
    | .dir ys e, depth + 1 =>
      obtain ⟨es, q, h1, h2, h3⟩ := hy
      rw [sweptAt] at h
      rcases hfi : ys.find? (·.1 == name) with _ | y
      · rw [hfi] at h; cases h
      rw [hfi] at h
      have hn : y.1 = name := by simpa using List.find?_some hfi
      obtain ⟨p, hp, hg⟩ := List.mem_iff_getElem.1 (List.mem_of_find?_eq_some hfi)
      have hlen := h3.length_eq
      obtain ⟨g1, g2⟩ := (List.forall₂_iff_get.1 h3).2 p (by omega) hp
      simp only [List.get_eq_getElem, hg] at g1 g2
      have hmem := List.mem_filter.1 (h2.subset (List.getElem_mem (l := q) (by omega : p < q.length)))
      generalize q[p] = x at g1 g2 hmem
      obtain ⟨⟨nm, i⟩, j⟩ := x
      obtain ⟨m, r1, r2⟩ := ih i depth y.2 g2 h
      have hb := hmem.2
      simp only [Bool.and_eq_true, Bool.not_eq_true'] at hb
      have g1 : nm = name := g1.trans hn
      subst g1
      exact ⟨m, ⟨es, j, i, h1, List.mk_mem_zipIdx_iff_getElem?.1 hmem.1, hb.1, hb.2, r1⟩, r2⟩

/-- C135: the same on a RAID6 array of devices that may fail. -/
theorem C135_within_array {F : Prop} (k : Mkfs.Form) (hu : k.uuid.isSome) (t : List Node) (hf : Fits k t)
    (rest content : Bytes) (hd : DirectoriesDamaged k t (volume k t ++ rest) content)
    (hl : content.length < 2 ^ 57) {L n c size : Nat} {W D : Type} {dev : BlockDev W D} {G : W → Prop}
    {Is : D → Disk → Prop} (hdev : DevSpec F dev G Is) {ord : IterOrder} (hord : ord.Valid) {alg : Raid6Algorithm}
    {members : Nat → Disk} {devices : List (MdDevice D)} (hL : Raid6Algorithm.fromLayout L = some alg)
    (hr : ReadableSet Is alg n c size members devices) (hset : Raid6Set L n c size members content) (w : W)
    (hG : G w) (rounds depth : Nat) :
    (∃ y, (sweepTree (Reader.streamDev (MdArray.dev dev)) rounds depth (Reader.new (MdArray.open ord devices)) w).2 =
        .ok y ∧ SweptWithin t (damagedBlock k t (volume k t ++ rest) content) depth 0 y ∧
      ∀ names b, sweptAt y names = some (.file b) →
        ∃ m, ReachesBy t (damagedBlock k t (volume k t ++ rest) content) 0 names m ∧ t[m]? = some (.file b)) ∨
    (F ∧ ∃ e, (sweepTree (Reader.streamDev (MdArray.dev dev)) rounds depth
      (Reader.new (MdArray.open ord devices)) w).2 = .err e) := by
  have ha := C16_array_device_partial hdev hord hL hr hset
  rcases C135_within (Reader.seekableVolume ha ⟨512, size * (n - 2), content⟩).toVolumeSpec k hu t hf rest content hd
    hl w _ hG ⟨rfl, 0, Reader.at_new (ha.wf ⟨rfl, rfl⟩) ⟨rfl, rfl⟩⟩ rounds depth with ⟨y, h1, h2⟩ | h
  · exact .inl ⟨y, h1, h2, fun names b h => C135_within_files t _ b names 0 depth y h2 h⟩
  · exact .inr h

/-- C135: the same from the paths of the disks on, if reads and ioctls of the operating system may fail at any time,
while the disks are opened or later (and there are no version-0 superblocks beside those of version 1.0, to which the
program would fall back): either some path is reported with an error, or what the program finds is in the table. -/
theorem C135_within_disks (k : Mkfs.Form) (hu : k.uuid.isSome) (t : List Node) (hf : Fits k t) (rest content : Bytes)
    (hd : DirectoriesDamaged k t (volume k t ++ rest) content) (hl : content.length < 2 ^ 57)
    {fs : Bytes → Except Nat OsFile} {paths : List Bytes} {L n c size : Nat} {file : Nat → OsFile}
    {sb : Nat → Mdp1} {place : Nat → Nat} (h : ArrayAt fs paths L n c size content file sb place)
    (h0 : ∀ j, j < paths.length → ∀ off e, Place090 (file j).content.length off → ¬ V0At (file j).content off e)
    {alg : Raid6Algorithm} (hL : Raid6Algorithm.fromLayout L = some alg) (s : System)
    (hi : s.nextId + paths.length < U64) :
    ∃ s' rs, openPaths fs paths s = (s', .ok rs) ∧
      ((∃ path ∈ paths, ∃ e, .error (path, e) ∈ rs) ∨
       ∃ devices : List (MdDevice NativeDev), rs = devices.map .ok ∧
        ∀ ord : IterOrder, ord.Valid → ∀ rounds depth,
          let seen := (sweepTree (Reader.streamDev (MdArray.dev NativeDev.streamDev.toBlockDev)) rounds depth
            (Reader.new (MdArray.open ord devices)) s'.os).2
          (∃ y, seen = .ok y ∧ SweptWithin t (damagedBlock k t (volume k t ++ rest) content) depth 0 y ∧
            ∀ names b, sweptAt y names = some (.file b) →
              ∃ m, ReachesBy t (damagedBlock k t (volume k t ++ rest) content) 0 names m ∧ t[m]? = some (.file b)) ∨
          ∃ e, seen = .err e) := by
  obtain ⟨s', rs, hrun, -, ho⟩ := openPaths_spec True (fun _ => True) (fun _ _ _ _ => trivial)
    (fun _ _ _ _ => trivial) (fun _ _ _ _ => trivial) fs paths s trivial hi h.sane
  refine ⟨s', rs, hrun, ?_⟩
  by_cases hne : (partitionResult rs).2 = []
  · right
    obtain ⟨h1, h2⟩ := h.opened ho hne
    refine ⟨(partitionResult rs).1, partitionResult_ok rs hne, fun ord hord rounds depth => ?_⟩
    have hdev := NativeDev.streamDevSpec_honest.toDev
    by_cases hm : ∃ d ∈ (partitionResult rs).1, d.superblock = .tooSmall ∨ d.superblock = .missing
    · have ha := disabled_devSpec NativeDev.streamDev.toBlockDev (fun _ => True) hord hm
        (k := ⟨512, size * (n - 2), content⟩)
        ⟨(by decide : 0 < 512), (by decide : 512 < U32), h.data.length, h.data.bytes_lt⟩ rfl
      rcases C135_within (Reader.seekableVolume ha ⟨512, size * (n - 2), content⟩).toVolumeSpec k hu t hf rest content
        hd hl s'.os _ trivial ⟨rfl, 0, Reader.at_new (ha.wf ⟨rfl, rfl⟩) ⟨rfl, rfl⟩⟩ rounds depth with
        ⟨y, g1, g2⟩ | ⟨-, g⟩
      · exact .inl ⟨y, g1, g2, fun names b h => C135_within_files t _ b names 0 depth y g2 h⟩
      · exact .inr g
    · refine (C135_within_array k hu t hf rest content hd hl hdev hord hL
        (h.readable hL h1 fun j hj => ⟨?_, (h2 j hj).1⟩) h.data s'.os trivial rounds depth).imp id And.right
      rcases (h2 j hj).2 with h3 | ⟨-, h3 | h3⟩
      · exact h3
      · exact absurd ⟨_, List.getElem_mem hj, .inr h3⟩ hm
      · have hj' : j < paths.length := by omega
        exact (h.member j hj').genuine (h0 j hj') h3
  · left
    obtain ⟨⟨path, e⟩, he⟩ := List.exists_mem_of_ne_nil _ hne
    refine ⟨path, ho.errors_sublist.subset (List.mem_map_of_mem (f := (·.1)) he), e, ?_⟩
    exact mem_of_partitionResult he

end

/-! ### A case -/

/-- C135: the volume of `C135_case`, whose root directory has a damaged first block, on a disk with any unreadable
blocks: the only file that may be found is "f", with all its bytes. -/
theorem C135_within_case [Build] (u : Nat) (hu : u < 256 ^ 16) (b c : Bytes) (hb : b.length ≤ 2 ^ 24)
    (hd : DamagedIn (start ⟨0, some u⟩ (sampleTree b) 0 * 1024) (start ⟨0, some u⟩ (sampleTree b) 0 * 1024 + 1024)
      (volume ⟨0, some u⟩ (sampleTree b)) c) (bad : Nat → Bool) (rounds : Nat) :
    (∃ y, (sweepTree (Reader.streamDev (flawed bad)) rounds 4 (Reader.new (InMemory.new c 512)) ()).2 = .ok y ∧
      ∀ names b', sweptAt y names = some (.file b') → names = [[102]] ∧ b' = b) ∨
    ∃ e, (sweepTree (Reader.streamDev (flawed bad)) rounds 4 (Reader.new (InMemory.new c 512)) ()).2 = .err e := by
  have hf := sampleTree_fits_uuid (some u) (fun x h => by cases h; exact hu) b hb
  have hbs : bs ⟨0, some u⟩ = 1024 := rfl
  have htot := hf.total
  have hlv : (volume ⟨0, some u⟩ (sampleTree b)).length = total ⟨0, some u⟩ (sampleTree b) * 1024 := by
    rw [MkfsLemmas.length_volume hf.sizes, hbs]
  rw [← List.append_nil (volume ⟨0, some u⟩ (sampleTree b))] at hd hlv
  have hD := directoriesDamaged_one (k := ⟨0, some u⟩) (i := 0) (j := 0) (t := sampleTree b) ⟨_, rfl, by simp, rfl⟩ hd
  have b00 := damagedBlock_one (k := ⟨0, some u⟩) (t := sampleTree b) hd 0 0
  have hlen : c.length = total ⟨0, some u⟩ (sampleTree b) * 1024 := by rw [hD.length, hlv]
  have hq : total ⟨0, some u⟩ (sampleTree b) * 1024 / 512 = total ⟨0, some u⟩ (sampleTree b) * 2 := by omega
  have hdisk : InMemory.IsDisk (InMemory.new c 512) ⟨512, total ⟨0, some u⟩ (sampleTree b) * 2, c⟩ := by
    refine ⟨show 0 < 512 by decide, show 512 < U32 by decide, ?_, ?_⟩
    · show c.length < U64
      rw [hlen]
      show _ < 2 ^ 64
      omega
    · show _ = Disk.mk 512 (c.length / 512) (c.take (c.length / 512 * 512))
      rw [hlen, hq]
      congr 1
      exact (List.take_of_length_le (by rw [hlen]; omega)).symm
  rcases C135_within (Reader.patchyVolume (flawed_patchy bad) ⟨512, total ⟨0, some u⟩ (sampleTree b) * 2, c⟩
    (fun x => bad x = true)).toSeekableVolume.toVolumeSpec ⟨0, some u⟩ rfl (sampleTree b) hf [] c hD
    (by rw [hlen]; omega) () _ trivial ⟨rfl, 0, Reader.at_new (InMemory.devSpec.wf hdisk) ⟨hdisk, rfl⟩⟩ rounds 4 with
    ⟨y, h1, h2⟩ | ⟨-, h⟩
  · refine .inl ⟨y, h1, fun names b' hn => ?_⟩
    obtain ⟨m, h3, h4⟩ := C135_within_files _ _ b' names 0 4 y h2 hn
    generalize damagedBlock ⟨0, some u⟩ (sampleTree b) (volume ⟨0, some u⟩ (sampleTree b) ++ []) c = dam at *
    have b00 : dam 0 0 = true := by rw [b00]; simp
    cases names with
    | nil =>
      have h3 : 0 = m := h3
      subst h3
      cases h4
    | cons name names =>
      obtain ⟨es, j, i, e1, e2, e3, -, e5⟩ := h3
      cases e1
      match j with
      | 0 => rw [b00] at e3; cases e3
      | 1 =>
        cases e2
        cases names with
        | nil =>
          have e5 : 2 = m := e5
          subst e5
          cases h4
          exact ⟨rfl, rfl⟩
        | cons name' names =>
          obtain ⟨es', _, _, e6, _⟩ := e5
          cases e6
      | j + 2 => cases e2
  · exact .inr h

end MdRecover
