import Verif.Lemmas.Ext4Tree
import Verif.Props.Created
import Verif.Props.ArrayDamage

/-! C125: whole trees of files are read. -/

namespace MdRecover
open MdSpec Fixture

section
variable [Build]

/-- C125, on a device that does not fail. -/
theorem C125_reads {W D : Type} {dev : StreamDev W D} {G : W → Prop} {Is : D → Bytes → Prop}
    {At : W → D → Nat → Prop} (hv : VolumeSpec False dev G Is At) (c : Bytes) (hc : Ext4Openable c)
    (hl : c.length < 2 ^ 57) (w : W) (hG : G w) (d : D) (hd : Is d c) (k : Nat) (x : Tree)
    (hx : TreeAt c k 2 x) :
    ∃ N, ∀ rounds, N ≤ rounds → ∀ depth, k ≤ depth → (readTree dev rounds depth d w).2 = .ok (some x) := by
  obtain ⟨w', fs, h1, hG', ho⟩ := open_opened hv hG hd hc hl
  obtain ⟨w2, fs2, N, -, -, h2⟩ := walk_tree hv (by omega) k 2 x hx hG' ho
  refine ⟨N, fun rounds hr depth hdep => ?_⟩
  rw [readTree, SM.bind_ok (h := h1)]
  show (walk dev rounds depth 2 (w', fs)).2 = _
  rw [h2 rounds hr depth hdep]

/-- C125, the specification: the bytes of a volume describe one tree at most. -/
theorem C125_unambiguous (c : Bytes) (hc : Ext4Openable c) (hl : c.length < 2 ^ 57) (k k' : Nat) (x x' : Tree)
    (hx : TreeAt c k 2 x) (hx' : TreeAt c k' 2 x') : x = x' := by
  obtain ⟨N, h⟩ := C125_reads InMemory.volumeSpec c hc hl () trivial (InMemory.new c 512) rfl k x hx
  obtain ⟨N', h'⟩ := C125_reads InMemory.volumeSpec c hc hl () trivial (InMemory.new c 512) rfl k' x' hx'
  have h1 := h (max N N') (Nat.le_max_left _ _) (max k k') (Nat.le_max_left _ _)
  rw [h' (max N N') (Nat.le_max_right _ _) (max k k') (Nat.le_max_right _ _)] at h1
  exact (Option.some.inj (Res.ok.inj h1)).symm

/-- C125: on every device that holds an ext4 filesystem, and that may fail at any time and may refuse positions
beyond its end, the program that opens it, lists all directories from the root on and reads all files returns
the tree that the bytes of the volume describe, with all names and contents; or, if something failed, an error.
The same bound on its loops is enough for all devices. -/
theorem C125_failing (c : Bytes) (hc : Ext4Openable c) (hl : c.length < 2 ^ 57) (k : Nat) (x : Tree)
    (hx : TreeAt c k 2 x) :
    ∃ N, ∀ {W D : Type} {F : Prop} {lim : Nat → Nat} {dev : StreamDev W D} {G : W → Prop}
      {Is : D → Bytes → Prop} {At : W → D → Nat → Prop}, SeekableVolume F lim dev G Is At →
      (lim c.length = U64 ∨ (F ∧ lim c.length ≤ U64)) →
      ∀ (w : W) (d : D), G w → Is d c → ∀ rounds, N ≤ rounds → ∀ depth, k ≤ depth →
        (readTree dev rounds depth d w).2 = .ok (some x) ∨
        (F ∧ ∃ e, (readTree dev rounds depth d w).2 = .err e) := by
  obtain ⟨N, h⟩ := C125_reads InMemory.volumeSpec c hc hl () trivial (InMemory.new c 512) rfl k x hx
  refine ⟨N, fun {W D F lim dev G Is At} hv hlim w d hG hd rounds hr depth hdep => ?_⟩
  have h3 := h rounds hr depth hdep
  rcases Ext4Sim.readTree hv InMemory.seekableVolume hlim (d2 := InMemory.new c 512) ⟨hd, rfl⟩ rounds depth w ()
    ⟨hG, trivial⟩ with ⟨t1, t2, a1, a2, e1, e2, rfl, -⟩ | ⟨t1, t2, e, e1, e2, -⟩ | ⟨t1, t2, e1, e2, -⟩ |
    ⟨hF, t1, e, e1, -⟩
  · rw [e1]
    rw [e2] at h3
    exact .inl h3
  · rw [e2] at h3; cases h3
  · rw [e2] at h3; cases h3
  · rw [e1]
    exact .inr ⟨hF, e, rfl⟩

/-- C125, on a RAID6 array. -/
theorem C125_array {L n c size : Nat} {content : Bytes} (hc : Ext4Openable content)
    (hl : content.length < 2 ^ 57) (k : Nat) (x : Tree) (hx : TreeAt content k 2 x) :
    ∃ N, ∀ {W D : Type} {F : Prop} {dev : BlockDev W D} {G : W → Prop} {Is : D → Disk → Prop},
      DevSpec F dev G Is → ∀ {ord : IterOrder}, ord.Valid → ∀ {alg : Raid6Algorithm}
      {members : Nat → Disk} {devices : List (MdDevice D)}, Raid6Algorithm.fromLayout L = some alg →
      ReadableSet Is alg n c size members devices → Raid6Set L n c size members content →
      ∀ w, G w → ∀ rounds, N ≤ rounds → ∀ depth, k ≤ depth →
        let r := (readTree (Reader.streamDev (MdArray.dev dev)) rounds depth
          (Reader.new (MdArray.open ord devices)) w).2
        r = .ok (some x) ∨ (F ∧ ∃ e, r = .err e) := by
  obtain ⟨N, h⟩ := C125_failing content hc hl k x hx
  refine ⟨N, fun {W D F dev G Is} hd {ord} hord {alg members devices} hL hr hset w hG rounds hn depth hdep => ?_⟩
  have ha := C16_array_device_partial hd hord hL hr hset
  exact h (Reader.seekableVolume ha ⟨512, size * (n - 2), content⟩) (.inl rfl) w _ hG
    ⟨rfl, 0, Reader.at_new (ha.wf ⟨rfl, rfl⟩) ⟨rfl, rfl⟩⟩ rounds hn depth hdep

/-- C125, on a RAID6 array one member of which was damaged or replaced (in each sector one, as in C100): the same tree
or an error, never another tree. -/
theorem C125_damaged {L n c size : Nat} {content : Bytes} (hc : Ext4Openable content)
    (hl : content.length < 2 ^ 57) (k : Nat) (x : Tree) (hx : TreeAt content k 2 x) :
    ∃ N, ∀ {W D : Type} {F : Prop} {dev : BlockDev W D} {G : W → Prop} {Is : D → Disk → Prop},
      DevSpec F dev G Is → ∀ {ord : IterOrder}, ord.Valid → ∀ {alg : Raid6Algorithm}
      {good bad : Nat → Disk} {devices : List (MdDevice D)}, Raid6Algorithm.fromLayout L = some alg →
      ReadableSet Is alg n c size bad devices → Raid6Set L n c size good content → OneDamaged n size good bad →
      ∀ w, G w → ∀ rounds, N ≤ rounds → ∀ depth, k ≤ depth →
        let r := (readTree (Reader.streamDev (MdArray.dev dev)) rounds depth
          (Reader.new (MdArray.open ord devices)) w).2
        r = .ok (some x) ∨ ∃ e, r = .err e := by
  obtain ⟨N, h⟩ := C125_failing content hc hl k x hx
  refine ⟨N, fun {W D F dev G Is} hd {ord} hord {alg good bad devices} hL hr hset hdam w hG rounds hn depth hdep => ?_⟩
  have ha := C100_array_device hd hord hL hr hset hdam
  exact (h (Reader.seekableVolume ha ⟨512, size * (n - 2), content⟩) (.inl rfl) w _ hG
    ⟨rfl, 0, Reader.at_new (ha.wf ⟨rfl, rfl⟩) ⟨rfl, rfl⟩⟩ rounds hn depth hdep).imp_right (·.2)

/-- C125, from the paths of the member disks of an array: all are opened, and the program returns the tree of
the filesystem on the array. -/
theorem C125_disks {content : Bytes} (hc : Ext4Openable content) (hl : content.length < 2 ^ 57) (k : Nat) (x : Tree)
    (hx : TreeAt content k 2 x) :
    ∃ N, ∀ {fs : Bytes → Except Nat OsFile} {paths : List Bytes} {L n c size : Nat}
      {file : Nat → OsFile} {sb : Nat → Mdp1} {place : Nat → Nat},
      ArrayAt fs paths L n c size content file sb place →
      ∀ {alg : Raid6Algorithm}, Raid6Algorithm.fromLayout L = some alg →
      ∀ s : System, NativeDev.NoFailures s.os → s.nextId + paths.length < U64 →
      ∃ s' devices, openPaths fs paths s = (s', .ok (devices.map .ok)) ∧
        ∀ ord : IterOrder, ord.Valid → ∀ rounds, N ≤ rounds → ∀ depth, k ≤ depth →
          (readTree (Reader.streamDev (MdArray.dev NativeDev.streamDev.toBlockDev)) rounds depth
            (Reader.new (MdArray.open ord devices)) s'.os).2 = .ok (some x) := by
  obtain ⟨N, hN⟩ := C125_failing content hc hl k x hx
  refine ⟨N, fun {fs paths L n c size file sb place} h {alg} hL s hos hi => ?_⟩
  obtain ⟨s', rs, hrun, hG, ho⟩ := openPaths_spec False NativeDev.NoFailures
    (fun _ _ h hl => ⟨fun c hc => h.1 c (hl.1 hc), fun c hc => h.2 c (hl.2 hc)⟩)
    (fun _ c h hc => h.1 c hc) (fun _ c h hc => h.2 c hc) fs paths s hos hi h.sane
  have hne : (partitionResult rs).2 = [] := by
    rw [ho.errors_eq, List.filterMap_eq_nil_iff]
    intro path hp
    rw [complaint, h.usable path hp]
    rfl
  obtain ⟨h1, h2⟩ := h.opened ho hne
  refine ⟨s', (partitionResult rs).1, by rw [← partitionResult_ok rs hne]; exact hrun,
    fun ord hord rounds hr depth hdep => ?_⟩
  have ha := C16_array_device_partial NativeDev.streamDevSpec_reliable.toDev hord hL
    (h.readable hL h1 fun j hj => ⟨(h2 j hj).2.resolve_right fun h => h.1, (h2 j hj).1⟩) h.data
  rcases hN (Reader.seekableVolume ha ⟨512, size * (n - 2), content⟩) (.inl rfl) s'.os _ hG
    ⟨rfl, 0, Reader.at_new (ha.wf ⟨rfl, rfl⟩) ⟨rfl, rfl⟩⟩ rounds hr depth hdep with h | ⟨h, -⟩
  · exact h
  · exact h.elim

omit [Build] in
/-- C125: every tree of files and directories is one of those that a volume can hold: put into a table and written,
it is the tree that the bytes of the volume describe.  Anything may follow the volume. -/
theorem C125_written (k : Mkfs.Form) (x : Tree) (hx : x.Plain) (hf : Mkfs.Fits k (x.rows 0)) (rest : Bytes) :
    Ext4Openable (Mkfs.volume k (x.rows 0) ++ rest) ∧
    TreeAt (Mkfs.volume k (x.rows 0) ++ rest) x.depth 2 x :=
  ⟨MkfsLemmas.openable_volume rfl hf, MkfsLemmas.tree_volume rfl hf x.depth 0 x
    (MkfsLemmas.treeOf_rows _ x [] [] (by simp) hx x.depth (Nat.le_refl _))⟩

/-- C125, from the disks of an array just created, with a volume just written: all files are recovered. -/
theorem C125_created (k : Mkfs.Form) (x : Tree) (hx : x.Plain) (hf : Mkfs.Fits k (x.rows 0)) (rest : Bytes)
    (hl : (Mkfs.volume k (x.rows 0) ++ rest).length < 2 ^ 57) :
    ∃ N, ∀ {a : NewArray} {fs : Bytes → Except Nat OsFile} {paths : List Bytes} {order : List Nat}
      {data : Nat → Bytes} {b : Nat → Nat}, a.GivenAt fs paths order data b →
      Raid6Set a.layout a.members a.chunk a.size (fun d => ⟨512, a.size, data d⟩)
        (Mkfs.volume k (x.rows 0) ++ rest) →
      ∀ {alg : Raid6Algorithm}, Raid6Algorithm.fromLayout a.layout = some alg →
      ∀ s : System, NativeDev.NoFailures s.os → s.nextId + paths.length < U64 →
      ∃ s' devices, openPaths fs paths s = (s', .ok (devices.map .ok)) ∧
        ∀ ord : IterOrder, ord.Valid → ∀ rounds, N ≤ rounds → ∀ depth, x.depth ≤ depth →
          (readTree (Reader.streamDev (MdArray.dev NativeDev.streamDev.toBlockDev)) rounds depth
            (Reader.new (MdArray.open ord devices)) s'.os).2 = .ok (some x) := by
  obtain ⟨h1, h2⟩ := C125_written k x hx hf rest
  obtain ⟨N, hN⟩ := C125_disks h1 hl x.depth x h2
  exact ⟨N, fun {_ _ _ _ _ _} h hset {_} hL s hos hi => hN (C124_created h hset).1 hL s hos hi⟩

end

/-! ### A case -/

/-- A file "f", an empty directory "e", and a directory "d" with a file "g" and a directory "h" with a file "f". -/
def caseTree (b b' : Bytes) : Tree :=
  .dir [([102], .file b), ([101], .dir []),
    ([100], .dir [([103], .file b'), ([104], .dir [([102], .file b)])])]

theorem caseTree_rows (b b' : Bytes) : (caseTree b b').rows 0 =
    [.dir [([102], 1), ([101], 2), ([100], 3)], .file b, .dir [], .dir [([103], 4), ([104], 5)], .file b',
      .dir [([102], 6)], .file b] := by
  simp [caseTree, Tree.rows, rowsAll, placesFrom, Tree.count, countAll]

theorem caseTree_fits (b b' : Bytes) (hb : b.length ≤ 2 ^ 24) (hb' : b'.length ≤ 2 ^ 24) :
    Mkfs.Fits 0 ((caseTree b b').rows 0) := by
  rw [caseTree_rows]
  have e0 : Mkfs.blocks 0 (.dir [([102], 1), ([101], 2), ([100], 3)]) = 3 := by decide +kernel
  have e1 : Mkfs.blocks 0 (.dir []) = 0 := by decide +kernel
  have e2 : Mkfs.blocks 0 (.dir [([103], 4), ([104], 5)]) = 2 := by decide +kernel
  have e3 : Mkfs.blocks 0 (.dir [([102], 6)]) = 1 := by decide +kernel
  have e4 : Mkfs.blocks 0 (.file b) ≤ 16384 := by
    show (b.length + 1023) / 1024 ≤ 16384
    omega
  have e5 : Mkfs.blocks 0 (.file b') ≤ 16384 := by
    show (b'.length + 1023) / 1024 ≤ 16384
    omega
  refine ⟨by simp, Nat.zero_le _, (fun _ h => nomatch h), by simp, ?_, ?_, ?_⟩
  · intro es he e hm
    simp only [List.mem_cons, List.not_mem_nil, or_false, Node.dir.injEq, reduceCtorEq, false_or] at he
    rcases he with rfl | rfl | rfl | rfl
    · simp only [List.mem_cons, List.not_mem_nil, or_false] at hm
      rcases hm with rfl | rfl | rfl <;> simp
    · simp at hm
    · simp only [List.mem_cons, List.not_mem_nil, or_false] at hm
      rcases hm with rfl | rfl <;> simp
    · simp only [List.mem_cons, List.not_mem_nil, or_false] at hm
      rcases hm with rfl
      simp
  · intro nd hn
    simp only [List.mem_cons, List.not_mem_nil, or_false] at hn
    rcases hn with rfl | rfl | rfl | rfl | rfl | rfl | rfl <;> omega
  · unfold Mkfs.total Mkfs.start Mkfs.tableBlocks Mkfs.firstData
    simp only [List.map_cons, List.map_nil, e0, e1, e2, e3]
    simp
    omega

/-- C125: it is read back from the volume, with any contents. -/
theorem C125_case [Build] (b b' rest : Bytes) (hb : b.length ≤ 2 ^ 24) (hb' : b'.length ≤ 2 ^ 24)
    (hr : rest.length < 2 ^ 56) :
    ∃ N, ∀ rounds, N ≤ rounds →
      (readTree InMemory.streamDev rounds 4
        (InMemory.new (Mkfs.volume 0 ((caseTree b b').rows 0) ++ rest) 512) ()).2 = .ok (some (caseTree b b')) := by
  have hf := caseTree_fits b b' hb hb'
  have hl : (Mkfs.volume 0 ((caseTree b b').rows 0) ++ rest).length < 2 ^ 57 := by
    rw [List.length_append, MkfsLemmas.length_volume hf.sizes]
    have := hf.total
    have : Mkfs.bs 0 = 1024 := rfl
    rw [this]
    omega
  obtain ⟨h1, h2⟩ := C125_written 0 (caseTree b b')
    (by simp [caseTree, Tree.Plain, PlainAll, isDots]) hf rest
  obtain ⟨N, h3⟩ := C125_reads InMemory.volumeSpec _ h1 hl () trivial (InMemory.new _ 512) rfl _ _ h2
  exact ⟨N, fun rounds hr => h3 rounds hr 4 (by simp [caseTree, Tree.depth, depthAll])⟩

end MdRecover
