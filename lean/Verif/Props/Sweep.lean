import Verif.Lemmas.Sweep
import Verif.Props.DirDamage

/-! C135: a program that reads on past errors loses only what damaged blocks of directories held. -/

namespace MdRecover
open MdSpec Fixture Mkfs

section
variable [Build]

/-- C135, exactly: on a device with the content of the damaged volume, the program that goes through a volume from
the root on, and reads on past errors in directories, finds what is in the table without the entries in damaged
blocks, and meets one error for each of these.  This holds for all depths, whether or not directories lead back to
directories above them. -/
theorem C135_sweep {W D : Type} {dev : StreamDev W D} {G : W → Prop} {Is : D → Bytes → Prop}
    {At : W → D → Nat → Prop} (hv : VolumeSpec False dev G Is At) (k : Mkfs.Form) (hu : k.uuid.isSome)
    (t : List Node) (hf : Fits k t) (rest c : Bytes) (hd : DirectoriesDamaged k t (volume k t ++ rest) c)
    (hl : c.length < 2 ^ 57) (w : W) (d : D) (hG : G w) (hI : Is d c) (depth : Nat) :
    ∃ N, ∀ rounds, N ≤ rounds → (sweepTree dev rounds depth d w).2 =
      .ok (sweptOf t (damagedBlock k t (volume k t ++ rest) c) depth 0) := by
  have hco := MkfsLemmas.openable_damaged rfl hf hd
  obtain ⟨w1, fs, h1, hG1, ho⟩ := open_opened hv hG hI hco hl
  obtain ⟨w2, fs2, N, -, -, h2⟩ := MkfsLemmas.sweep_damaged rfl hf hd hv (show c.length < 2 ^ 64 by omega) hu depth 0
    hf.root hG1 ho
  refine ⟨N, fun rounds hr => ?_⟩
  rw [sweepTree, SM.bind_ok (h := h1)]
  show (sweep dev rounds depth 2 (w1, fs)).2 = _
  rw [h2 rounds hr]

omit [Build] in
/-- C135: what is in the table without those entries: at the end of a path there is a file if and only if the path
leads to this file by entries that are not in damaged blocks. -/
theorem C135_files (t : List Node) (ht : DistinctNames t) (bad : Nat → Nat → Bool) (b : Bytes) (names : List Bytes) :
    ∀ n depth, names.length < depth →
      (sweptAt (sweptOf t bad depth n) names = some (.file b) ↔
        ∃ m, ReachesBy t bad n names m ∧ t[m]? = some (.file b)) := by
  induction names with
  | nil =>
    intro n depth hdep
    obtain ⟨depth, rfl⟩ : ∃ j, depth = j + 1 := ⟨depth - 1, by simp at hdep; omega⟩
    rw [sweptOf, sweptAt]
    constructor
    · intro h
      refine ⟨n, rfl, ?_⟩
      rcases ht : t[n]? with _ | x | es
      · rw [ht] at h; cases h
      · rw [ht] at h; cases h; rfl
      · rw [ht] at h; cases h
    · rintro ⟨m, rfl, h⟩
      rw [h]
  | cons name names ih =>
    intro n depth hdep
    rw [List.length_cons] at hdep
    obtain ⟨depth, rfl⟩ : ∃ j, depth = j + 1 := ⟨depth - 1, by omega⟩
    have ih := fun n => ih n depth (by omega)
    rw [sweptOf]
    rcases hn : t[n]? with _ | x | es
    · simp only [sweptAt]
      exact ⟨fun h => (by cases h), fun ⟨m, ⟨es, j, i, h, _⟩, _⟩ => by rw [hn] at h; cases h⟩
    · simp only [sweptAt]
      exact ⟨fun h => (by cases h), fun ⟨m, ⟨es, j, i, h, _⟩, _⟩ => by rw [hn] at h; cases h⟩
    · have hnd := ht es (List.mem_of_getElem? hn)
      simp only [sweptAt]
      rw [List.find?_map]
      constructor
      · intro h
        rcases hfi : List.find? ((fun x : Bytes × Swept => x.1 == name) ∘ fun e : (Bytes × Nat) × Nat =>
            (e.1.1, sweptOf t bad depth e.1.2))
            (es.zipIdx.filter fun e => !bad n e.2 && !isDots e.1.1) with _ | e
        · rw [hfi] at h; cases h
        rw [hfi] at h
        have h1 := List.find?_some hfi
        have h2 := List.mem_filter.1 (List.mem_of_find?_eq_some hfi)
        obtain ⟨⟨nm, i⟩, j⟩ := e
        have h3 := List.mk_mem_zipIdx_iff_getElem?.1 h2.1
        obtain ⟨m, g1, g2⟩ := (ih i).1 h
        have h1 : nm = name := by simpa using h1
        subst h1
        have h4 := h2.2
        simp only [Bool.and_eq_true, Bool.not_eq_true'] at h4
        exact ⟨m, ⟨es, j, i, hn, h3, h4.1, h4.2, g1⟩, g2⟩
      · rintro ⟨m, ⟨es', j, i, h1, h2, h3, h4, h5⟩, h6⟩
        rw [hn] at h1
        cases h1
        have hmem : ((name, i), j) ∈ es.zipIdx.filter fun e => !bad n e.2 && !isDots e.1.1 :=
          List.mem_filter.2 ⟨List.mk_mem_zipIdx_iff_getElem?.2 h2, by simp [h3, h4]⟩
        rcases hfi : List.find? ((fun x : Bytes × Swept => x.1 == name) ∘ fun e : (Bytes × Nat) × Nat =>
            (e.1.1, sweptOf t bad depth e.1.2))
            (es.zipIdx.filter fun e => !bad n e.2 && !isDots e.1.1) with _ | e
        · have := List.find?_eq_none.1 hfi _ hmem
          simp at this
        obtain ⟨⟨nm, i'⟩, j'⟩ := e
        have g1 := List.find?_some hfi
        have g2 := List.mk_mem_zipIdx_iff_getElem?.1 (List.mem_filter.1 (List.mem_of_find?_eq_some hfi)).1
        have g1 : nm = name := by simpa using g1
        subst g1
        have hj : j = j' := by
          obtain ⟨l1, e1⟩ := List.getElem?_eq_some_iff.1 h2
          obtain ⟨l2, e2⟩ := List.getElem?_eq_some_iff.1 g2
          refine (List.Nodup.getElem_inj_iff hnd (hi := by simpa using l1) (hj := by simpa using l2)).1 ?_
          rw [List.getElem_map, List.getElem_map, e1, e2]
        subst hj
        rw [h2] at g2
        cases g2
        exact (ih i).2 ⟨m, h5, h6⟩

/-- C135: so the program saves each file with a path by entries that are not in damaged blocks, with all its bytes,
and nothing else is taken for a file. -/
theorem C135_saved {W D : Type} {dev : StreamDev W D} {G : W → Prop} {Is : D → Bytes → Prop}
    {At : W → D → Nat → Prop} (hv : VolumeSpec False dev G Is At) (k : Mkfs.Form) (hu : k.uuid.isSome)
    (t : List Node) (hf : Fits k t) (ht : DistinctNames t) (rest c : Bytes)
    (hd : DirectoriesDamaged k t (volume k t ++ rest) c) (hl : c.length < 2 ^ 57) (w : W) (d : D) (hG : G w)
    (hI : Is d c) (depth : Nat) :
    ∃ N y, (∀ rounds, N ≤ rounds → (sweepTree dev rounds depth d w).2 = .ok y) ∧
      ∀ names b, names.length < depth → (sweptAt y names = some (.file b) ↔
        ∃ m, ReachesBy t (damagedBlock k t (volume k t ++ rest) c) 0 names m ∧ t[m]? = some (.file b)) := by
  obtain ⟨N, h⟩ := C135_sweep hv k hu t hf rest c hd hl w d hG hI depth
  exact ⟨N, _, h, fun names b hn => C135_files t ht _ b names 0 depth hn⟩

/-- C135: the same on a RAID6 array. -/
theorem C135_array (k : Mkfs.Form) (hu : k.uuid.isSome) (t : List Node) (hf : Fits k t) (rest content : Bytes)
    (hd : DirectoriesDamaged k t (volume k t ++ rest) content) (hl : content.length < 2 ^ 57) {L n c size : Nat}
    {W D : Type} {dev : BlockDev W D} {G : W → Prop} {Is : D → Disk → Prop} (hdev : DevSpec False dev G Is)
    {ord : IterOrder} (hord : ord.Valid) {alg : Raid6Algorithm} {members : Nat → Disk}
    {devices : List (MdDevice D)} (hL : Raid6Algorithm.fromLayout L = some alg)
    (hr : ReadableSet Is alg n c size members devices) (hset : Raid6Set L n c size members content) (w : W)
    (hG : G w) (depth : Nat) :
    ∃ N, ∀ rounds, N ≤ rounds →
      (sweepTree (Reader.streamDev (MdArray.dev dev)) rounds depth (Reader.new (MdArray.open ord devices)) w).2 =
        .ok (sweptOf t (damagedBlock k t (volume k t ++ rest) content) depth 0) := by
  have ha := C16_array_device_partial hdev hord hL hr hset
  exact C135_sweep (Reader.seekableVolume ha ⟨512, size * (n - 2), content⟩).toVolumeSpec k hu t hf rest content hd hl
    w _ hG ⟨rfl, 0, Reader.at_new (ha.wf ⟨rfl, rfl⟩) ⟨rfl, rfl⟩⟩ depth

/-- C135: the same from the paths of the disks on, if the operating system reports no failures: whichever order the
disks are given in, the program opens them, and then the array and the filesystem on it, and finds the table without
the entries in damaged blocks. -/
theorem C135_disks (k : Mkfs.Form) (hu : k.uuid.isSome) (t : List Node) (hf : Fits k t) (rest content : Bytes)
    (hd : DirectoriesDamaged k t (volume k t ++ rest) content) (hl : content.length < 2 ^ 57)
    {fs : Bytes → Except Nat OsFile} {paths : List Bytes} {L n c size : Nat} {file : Nat → OsFile}
    {sb : Nat → Mdp1} {place : Nat → Nat} (h : ArrayAt fs paths L n c size content file sb place)
    {alg : Raid6Algorithm} (hL : Raid6Algorithm.fromLayout L = some alg) (s : System)
    (hos : NativeDev.NoFailures s.os) (hi : s.nextId + paths.length < U64) :
    ∃ s' devices, openPaths fs paths s = (s', .ok (devices.map .ok)) ∧
      ∀ ord : IterOrder, ord.Valid → ∀ depth, ∃ N, ∀ rounds, N ≤ rounds →
        (sweepTree (Reader.streamDev (MdArray.dev NativeDev.streamDev.toBlockDev)) rounds depth
          (Reader.new (MdArray.open ord devices)) s'.os).2 =
          .ok (sweptOf t (damagedBlock k t (volume k t ++ rest) content) depth 0) := by
  obtain ⟨s', rs, hrun, hG, ho⟩ := openPaths_spec False NativeDev.NoFailures
    (fun _ _ h hl => ⟨fun c hc => h.1 c (hl.1 hc), fun c hc => h.2 c (hl.2 hc)⟩)
    (fun _ c h hc => h.1 c hc) (fun _ c h hc => h.2 c hc) fs paths s hos hi h.sane
  have hne : (partitionResult rs).2 = [] := by
    rw [ho.errors_eq, List.filterMap_eq_nil_iff]
    intro path hp
    rw [complaint, h.usable path hp]
    rfl
  obtain ⟨h1, h2⟩ := h.opened ho hne
  refine ⟨s', (partitionResult rs).1, by rw [← partitionResult_ok rs hne]; exact hrun, fun ord hord depth => ?_⟩
  exact C135_array k hu t hf rest content hd hl NativeDev.streamDevSpec_reliable.toDev hord hL
    (h.readable hL h1 fun j hj => ⟨(h2 j hj).2.resolve_right fun h => h.1, (h2 j hj).1⟩) h.data s'.os hG depth

end

/-! ### A case -/

/-- C135: the first block of the root directory of the volume of C123 is damaged.  Following the path "f" is an error,
since the damaged block comes first; the program that reads on finds "f", in the second block, and one error. -/
theorem C135_case [Build] (u : Nat) (hu : u < 256 ^ 16) (b rest c : Bytes) (hb : b.length ≤ 2 ^ 24)
    (hr : rest.length < 2 ^ 56)
    (hd : DamagedIn (start ⟨0, some u⟩ (sampleTree b) 0 * 1024) (start ⟨0, some u⟩ (sampleTree b) 0 * 1024 + 1024)
      (volume ⟨0, some u⟩ (sampleTree b) ++ rest) c) :
    DistinctNames (sampleTree b) ∧
    ∃ N, ∀ rounds, N ≤ rounds →
      (readPath InMemory.streamDev rounds (InMemory.new c 512) [[102]] ()).2 = .err .invalidData ∧
      (sweepTree InMemory.streamDev rounds 4 (InMemory.new c 512) ()).2 = .ok (.dir [([102], .file b)] 1) := by
  have hf := sampleTree_fits_uuid (some u) (fun x h => by cases h; exact hu) b hb
  have hbs : bs ⟨0, some u⟩ = 1024 := rfl
  have hl : (volume ⟨0, some u⟩ (sampleTree b) ++ rest).length < 2 ^ 57 := by
    rw [List.length_append, MkfsLemmas.length_volume hf.sizes]
    have := hf.total
    rw [hbs]
    omega
  have hD := directoriesDamaged_one (k := ⟨0, some u⟩) (i := 0) (j := 0) (t := sampleTree b) ⟨_, rfl, by simp, rfl⟩ hd
  have hbad := damagedBlock_one (k := ⟨0, some u⟩) (t := sampleTree b) hd
  have b00 := hbad 0 0
  have b01 := hbad 0 1
  have hlc : c.length < 2 ^ 57 := by rw [hD.length]; exact hl
  refine ⟨?_, ?_⟩
  · intro es he
    simp only [sampleTree, List.mem_cons, List.not_mem_nil, or_false, Node.dir.injEq, reduceCtorEq] at he
    rcases he with rfl | rfl <;> simp
  obtain ⟨N1, h1⟩ := C134_reads ⟨0, some u⟩ rfl (sampleTree b) hf rest c hD hlc [[102]]
  obtain ⟨N2, h2⟩ := C135_sweep InMemory.volumeSpec ⟨0, some u⟩ rfl (sampleTree b) hf rest c hD hlc ()
    (InMemory.new c 512) trivial rfl 4
  generalize damagedBlock ⟨0, some u⟩ (sampleTree b) (volume ⟨0, some u⟩ (sampleTree b) ++ rest) c = bad at *
  have b00 : bad 0 0 = true := by rw [b00]; simp
  have b01 : bad 0 1 = false := by rw [b01]; simp
  have r1 : atPathDamaged (sampleTree b) bad 0 [[102]] = .err .invalidData := by
    simp [atPathDamaged, sampleTree, List.zipIdx_cons, b00]
  have r2 : sweptOf (sampleTree b) bad 4 0 = .dir [([102], .file b)] 1 := by
    simp [sweptOf, sampleTree, List.zipIdx_cons, b00, b01, isDots]
  refine ⟨max N1 N2, fun rounds hr => ⟨?_, ?_⟩⟩
  · rcases h1 InMemory.seekableVolume (.inl rfl) () (InMemory.new c 512) trivial rfl rounds with h | ⟨h, -⟩ | ⟨h, -⟩
    · rw [h, r1]
    · exact h.elim
    · omega
  · rw [h2 rounds (by omega), r2]

/-- C135: such damage is possible. -/
theorem C135_case_exists (u : Nat) (hu : u < 256 ^ 16) (b rest : Bytes) (hb : b.length ≤ 2 ^ 24) :
    ∃ c, DamagedIn (start ⟨0, some u⟩ (sampleTree b) 0 * 1024) (start ⟨0, some u⟩ (sampleTree b) 0 * 1024 + 1024)
      (volume ⟨0, some u⟩ (sampleTree b) ++ rest) c := by
  have hf := sampleTree_fits_uuid (some u) (fun x h => by cases h; exact hu) b hb
  have hin := MkfsLemmas.inside_volume (c := volume ⟨0, some u⟩ (sampleTree b) ++ rest) rfl hf 0 _ rfl 0 (by
    rw [(MkfsLemmas.blocks_dir _ (by simp)).2]; simp)
  have hbs : bs ⟨0, some u⟩ = 1024 := rfl
  unfold BlockInside at hin
  rw [hbs, Nat.add_zero] at hin
  clear hf hbs
  generalize volume ⟨0, some u⟩ (sampleTree b) ++ rest = a at hin ⊢
  generalize start ⟨0, some u⟩ (sampleTree b) 0 * 1024 = p at hin ⊢
  have hlt : p < a.length := by omega
  refine ⟨_, a.take p, [a[p]], [a[p] + 1], a.drop (p + 1), ?_, rfl, rfl, by simp, ?_, ?_, ?_⟩
  · rw [List.append_assoc, List.singleton_append, List.getElem_cons_drop, List.take_append_drop]
  · intro h
    have h := congrArg UInt8.toNat (List.cons.inj h).1
    rw [UInt8.toNat_add] at h
    have := a[p].toNat_lt
    have h1 : (1 : UInt8).toNat = 1 := rfl
    omega
  · rw [List.length_take]; omega
  · rw [List.length_take, List.length_singleton]; omega

end MdRecover
