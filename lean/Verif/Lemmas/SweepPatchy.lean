import Verif.Lemmas.SweepFailing
import Verif.Props.Salvage
import Verif.Spec.SweepPatchy

namespace MdRecover
open MdSpec Mkfs

section
variable [Build] {W D W2 D2 : Type} {dev dev' : StreamDev W D} {G : W → Prop} {Is : D → Bytes → Prop}
  {At : W → D → Nat → Prop} {dev2 : StreamDev W2 D2} {G2 : W2 → Prop} {Is2 : D2 → Bytes → Prop}
  {At2 : W2 → D2 → Nat → Prop} {lim lim2 : Nat → Nat} {c : Bytes} {bad : Nat → Prop}

omit [Build] in
/-- The device that reads what the volume holds wherever reading fails. -/
theorem patched_seekable (hv : PatchyVolume bad lim dev G Is At) (hc : c.length < U64) (hl : c.length ≤ lim c.length) :
    SeekableVolume False lim (patched dev At c) G (fun d c' => c' = c ∧ Is d c) At :=
  { (hv.agree hc hl).perfect with
    seekAccepted := by
      rintro w d c' hG ⟨rfl, hI⟩ p hp hle
      exact .inl (hv.seekOk hG hI p hp hle)
    seekRefused := by
      rintro w d c' hG ⟨rfl, hI⟩ p hp hle
      exact .inl (hv.seekNo hG hI p hp hle) }

/-- Devices without failures give the same entries and errors. -/
theorem listPast_same (h1 : SeekableVolume False lim dev G Is At) (h2 : SeekableVolume False lim2 dev2 G2 Is2 At2)
    (hlim : Ext4Sim.Lims False lim lim2 c) (rounds : Nat) : ∀ (k : Nat) {s : W × Ext4Directory D}
      {t t' : W2 × Ext4Directory D2} {x : List DirEntry × Nat}, Ext4Sim.Both G G2 (Ext4Sim.Dr Is Is2 c) s t →
      listPast dev2 rounds k t = (t', .ok x) → ∃ s', listPast dev rounds k s = (s', .ok x) := by
  intro k
  induction k with
  | zero => intro s t t' x _ h; cases h; exact ⟨s, rfl⟩
  | succ k ih =>
    intro s t t' x hb hr
    rw [listPast] at hr ⊢
    have next : ∀ {s1 t1} (g : List DirEntry × Nat → List DirEntry × Nat),
        Ext4Sim.Both G G2 (Ext4Sim.Dr Is Is2 c) s1 t1 →
        (listPast dev2 rounds k >>= fun r => pure (g r)) t1 = (t', .ok x) →
        ∃ s', (listPast dev rounds k >>= fun r => pure (g r)) s1 = (s', .ok x) := by
      intro s1 t1 g hb1 hr
      rcases hr2 : listPast dev2 rounds k t1 with ⟨t2, r2⟩
      match r2 with
      | .panic => rw [SM.bind_panic (h := hr2)] at hr; cases hr
      | .err e => rw [SM.bind_err (h := hr2)] at hr; cases hr
      | .ok y =>
        rw [SM.bind_ok (h := hr2)] at hr
        cases hr
        obtain ⟨s', h3⟩ := ih hb1 hr2
        exact ⟨s', (SM.bind_ok _ h3).trans rfl⟩
    rcases Ext4Sim.readNextEntry h1 h2 hlim rounds s t hb with ⟨s1, t1, a1, a2, e1, e2, rfl, hb1⟩ |
      ⟨s1, t1, e, e1, e2, hb1⟩ | ⟨s1, t1, e1, e2, -⟩ | ⟨h, -⟩
    · rw [SM.bind_ok (h := caught_ok e2)] at hr
      rw [SM.bind_ok (h := caught_ok e1)]
      match a1 with
      | none => cases hr; exact ⟨s1, rfl⟩
      | some none => cases hr; exact ⟨s1, rfl⟩
      | some (some e) => exact next (fun r => (e :: r.1, r.2)) hb1 hr
    · rw [SM.bind_ok (h := caught_err e2)] at hr
      rw [SM.bind_ok (h := caught_err e1)]
      exact next (fun r => (r.1, r.2 + 1)) hb1 hr
    · have : caught (Ext4Directory.readNextEntry dev2 rounds) t = (t1, .panic) := by
        unfold caught
        rw [e2]
      rw [SM.bind_panic (h := this)] at hr
      cases hr
    · exact h.elim

/-- Devices without failures give the same blocks. -/
theorem readBlocks_same (h1 : SeekableVolume False lim dev G Is At) (h2 : SeekableVolume False lim2 dev2 G2 Is2 At2)
    (hlim : Ext4Sim.Lims False lim lim2 c) (rounds bs : Nat) : ∀ (k : Nat) {s : W × Ext4File D}
      {t t' : W2 × Ext4File D2} {b : Bytes}, Ext4Sim.Both G G2 (Ext4Sim.Fl Is Is2 c) s t →
      readBlocks dev2 rounds bs k t = (t', .ok (some b)) →
      ∃ s', readBlocks dev rounds bs k s = (s', .ok (some b)) := by
  intro k
  induction k with
  | zero => intro s t t' b _ h; cases h
  | succ k ih =>
    intro s t t' b hb hr
    rcases Ext4Sim.readNextBlock h1 h2 hlim rounds (zeros bs) s t hb with ⟨s1, t1, a1, a2, e1, e2, rfl, hb1⟩ |
      ⟨s1, t1, e, e1, e2, -⟩ | ⟨s1, t1, e1, e2, -⟩ | ⟨h, -⟩
    · rw [readBlocks, SM.bind_ok (h := e2)] at hr
      match a1 with
      | none => cases hr
      | some (n, x) =>
        by_cases hn : n = 0
        · subst hn
          cases hr
          exact ⟨s1, readBlocks_zero e1⟩
        · simp only [if_neg hn] at hr
          rcases hr2 : readBlocks dev2 rounds bs k t1 with ⟨t2, r2⟩
          match r2 with
          | .panic => rw [SM.bind_panic (h := hr2)] at hr; cases hr
          | .err e => rw [SM.bind_err (h := hr2)] at hr; cases hr
          | .ok none => rw [SM.bind_ok (h := hr2)] at hr; cases hr
          | .ok (some b2) =>
            rw [SM.bind_ok (h := hr2)] at hr
            cases hr
            obtain ⟨s', h3⟩ := ih hb1 hr2
            exact ⟨s', readBlocks_block e1 hn h3⟩
    · rw [readBlocks, SM.bind_err (h := e2)] at hr; cases hr
    · rw [readBlocks, SM.bind_panic (h := e2)] at hr; cases hr
    · exact h.elim

/-- Where everything of a directory can be read, it does not matter what else cannot be read. -/
theorem Agree.listPast (h : Agree bad c dev dev' G Is At) (hc : c.length < U64) {P : Bytes → Prop}
    (hP : Clear bad c P) {i : Inode} (rounds : Nat) :
    ∀ (k : Nat) {s : W × Ext4Directory D}, Ext4Directory.Inv Is G c P i s →
      MdSpec.listPast dev rounds k s = MdSpec.listPast dev' rounds k s
  | 0, s, hi => rfl
  | k + 1, s, hi => by
    have h1 := h.readNextEntry hc hP rounds hi
    have h2 : caught (Ext4Directory.readNextEntry dev rounds) s = caught (Ext4Directory.readNextEntry dev' rounds) s := by
      unfold caught
      rw [h1]
    rw [MdSpec.listPast, MdSpec.listPast]
    refine SM.bind_congr h2 fun a s' h3 => ?_
    rcases h4 : Ext4Directory.readNextEntry dev' rounds s with ⟨s1, r⟩
    match r with
    | .panic =>
      unfold caught at h3
      rw [h4] at h3
      cases h3
    | .err e =>
      rw [caught_err h4] at h3
      cases h3
      obtain ⟨h5, -⟩ := Ext4Directory.entryReturns_inv h.perfect hc hP.closed (r := .err e) ⟨rounds, h4⟩ hi
        (fun h => by cases h)
      exact SM.bind_congr (Agree.listPast h hc hP rounds k h5) fun _ _ _ => rfl
    | .ok none => rw [caught_ok h4] at h3; cases h3; rfl
    | .ok (some none) => rw [caught_ok h4] at h3; cases h3; rfl
    | .ok (some (some e)) =>
      rw [caught_ok h4] at h3
      cases h3
      obtain ⟨h5, -⟩ := Ext4Directory.entryReturns_inv h.perfect hc hP.closed (r := .ok (some e)) ⟨rounds, h4⟩ hi
        (fun h => by cases h)
      exact SM.bind_congr (Agree.listPast h hc hP rounds k h5) fun _ _ _ => rfl

end

namespace MkfsLemmas
variable {k : Form} {t : List Node} {a c tail : Bytes}

section
variable (ha : a = volume k t ++ tail) (hf : Fits k t) (hd : DirectoriesDamaged k t a c)
include ha hf hd

theorem fsIntact_damaged {bad : Nat → Prop} (hh : HeadIntact bad k t) : FsIntact bad c := by
  obtain ⟨h1, h2⟩ := fsIntact_volume ha hf hh
  unfold FsIntact Intact at *
  rw [sb_same hd, hd.length]
  exact ⟨h1, h2⟩

theorem inodeSlot_damaged {n : Nat} (hn : n < t.length) : inodeSlot c (n + 2) = inodeSlot a (n + 2) := by
  have hv := values_volume ha hf
  have hle : n + 2 ≤ inodes k t := by
    have := table_fits (k := k) hf.sizes
    rw [length_table hf.sizes] at this
    have htb : tableBlocks k t * bs k = inodes k t * 128 := by
      rw [bs_eq]
      unfold inodes
      rw [Nat.mul_assoc, Nat.mul_assoc, Nat.mul_assoc]
    omega
  unfold inodeSlot
  rw [sb_same hd, hv.inodesPerGroup, table_same ha hf hd _ (Nat.div_eq_of_lt (by omega))]

theorem inodeIntact_damaged {bad : Nat → Prop} (hh : HeadIntact bad k t) {n : Nat} (hn : n < t.length)
    (hb : BodyIntact bad k t n) : InodeIntact bad c (n + 2) := by
  have hti : t[n]? = some t[n] := List.getElem?_eq_getElem hn
  constructor
  · have := slotIntact_volume ha hf hh hn
    unfold Intact at *
    rw [inodeSlot_damaged ha hf hd hn, sb_same hd, hd.length]
    exact this
  · rw [blockSize_damaged ha hf hd]
    intro x hx y h1 h2 _
    have hx' : TreeBlock a (bs k) (rootNode a (n + 2)) x := by
      obtain ⟨-, -, -, -, -, hr⟩ := inode_damaged ha hf hd hti
      obtain ⟨-, -, -, -, -, hra⟩ := inode_volume ha hf n _ hti
      obtain ⟨-, g2, -, -⟩ := root_values (start k t n) (blocks k t[n]) (hf.sizes _ (List.mem_of_getElem? hti))
      obtain ⟨node, j, hnode, h⟩ := hx
      rw [hr] at hnode
      have : node = extentRoot (start k t n) (blocks k t[n]) := by
        clear h
        induction hnode with
        | root => rfl
        | child node j _ hd _ _ _ ih =>
          rw [ih] at hd
          exact absurd g2 hd
      subst this
      exact ⟨_, j, by rw [hra]; exact .root, h⟩
    obtain ⟨h3, h4⟩ := treeBlock_volume ha hf hti hx'
    refine hb _ hti y (Nat.le_trans (Nat.mul_le_mul_right _ h3) h1) ?_
    have : (x + 1) * bs k ≤ (start k t n + blocks k t[n]) * bs k := Nat.mul_le_mul_right _ h4
    rw [Nat.add_mul, Nat.one_mul] at this
    omega

end

variable [Build]

/-- What is opened on a device is related to what is opened in memory. -/
theorem open_same {W D : Type} {bad : Nat → Prop} {lim : Nat → Nat} {dev : StreamDev W D} {G : W → Prop}
    {Is : D → Bytes → Prop} {At : W → D → Nat → Prop} (hv : PatchyVolume bad lim dev G Is At) (hc : c.length < U64)
    (hlim : lim c.length = U64) {n : Nat} (hi : Intact bad c (inodeSlot c n) (le (sbOf c) 0x58 2)) {w : W}
    {fs : Ext4Fs D} (hG : G w) (ho : Opened Is c fs) {fs0 v1 fs01} {x : OpenedFile InMemory}
    (ho0 : Opened (fun (d : InMemory) c => d.mem = c) c fs0)
    (h0 : Ext4Fs.openFile InMemory.streamDev n ((), fs0) = ((v1, fs01), .ok x)) :
    ∃ w' fs' y, Ext4Fs.openFile dev n (w, fs) = ((w', fs'), .ok y) ∧
      Ext4Fs.openFile (patched dev At c) n (w, fs) = ((w', fs'), .ok y) ∧ G w' ∧ Opened Is c fs' ∧
      Ext4Sim.Op (fun d c' => c' = c ∧ Is d c) (fun (d : InMemory) c => d.mem = c) c y x := by
  have hle : c.length ≤ lim c.length := by omega
  have hag := hv.agree hc hle
  have ho' := (opened_same (Is := Is)).2 ho
  have heq := hag.openFile (s := (w, fs)) hG ho' hi
  rcases Ext4Sim.openFile (patched_seekable hv hc hle) InMemory.seekableVolume (c := c) (.inl hlim) n (w, fs)
    ((), fs0) ⟨⟨hG, trivial⟩, opened_related ho' ho0⟩ with ⟨⟨w', fs'⟩, t2, a1, a2, e1, e2, hop', hb⟩ |
    ⟨t1, t2, e, e1, e2, -⟩ | ⟨t1, t2, e1, e2, -⟩ | ⟨h, -⟩
  · rw [h0] at e2
    cases e2
    obtain ⟨-, -, -, hG', ho2, -⟩ := C75_success hag.perfect c w w' fs fs' hG ho' n _ e1
    exact ⟨w', fs', a1, by rw [heq, e1], e1, hG', opened_same.1 ho2, hop'⟩
  · rw [h0] at e2; cases e2
  · rw [h0] at e2; cases e2
  · exact h.elim

/-- A file is found. -/
theorem sweep_file (ha : a = volume k t ++ tail) (hf : Fits k t) (hd : DirectoriesDamaged k t a c)
    (hl : c.length < 2 ^ 57) {n : Nat} {b : Bytes} (hn : t[n]? = some (.file b)) :
    ∃ N, ∀ {W D : Type} {bad : Nat → Prop} {lim : Nat → Nat} {dev : StreamDev W D} {G : W → Prop}
      {Is : D → Bytes → Prop} {At : W → D → Nat → Prop}, PatchyVolume bad lim dev G Is At → lim c.length = U64 →
      InodeIntact bad c (n + 2) → ∀ rounds, N ≤ rounds → ∀ depth, ∀ s : W × Ext4Fs D, (G s.1 ∧ Opened Is c s.2) →
        ∃ s', sweep dev rounds (depth + 1) (n + 2) s = (s', .ok (.file b)) := by
  have hc : c.length < U64 := by show _ < 2 ^ 64; omega
  have hop := openable_damaged ha hf hd
  have hfile := file_damaged ha hf hd hn
  obtain ⟨-, fs0, -, -, ho0⟩ := open_opened InMemory.volumeSpec (w := ()) (d := InMemory.new c 512) trivial rfl hop hl
  obtain ⟨v1, fs01, f0, v2, f02, N, m1, -, -, -, m2⟩ := file_read InMemory.volumeSpec hc (w := ()) trivial ho0 hfile
  refine ⟨N, fun {W D bad lim dev G Is At} hv hlim hint rounds hr depth => ?_⟩
  rintro ⟨w, fs⟩ ⟨hG, ho⟩
  have hle : c.length ≤ lim c.length := by omega
  have hag := hv.agree hc hle
  obtain ⟨w1, fs1, y, h1, h2, hG1, ho1, hrel⟩ := open_same hv hc hlim hint.1 hG ho ho0 m1
  match y, hrel with
  | .regularFile f, hrel =>
    have hrel : Ext4Sim.Fl _ _ c f f0 := hrel
    obtain ⟨-, -, -, -, -, i, fs2, hin, ho2, -, -, h3, -⟩ :=
      C75_success hag.perfect c w w1 fs fs1 hG ((opened_same (Is := Is)).2 ho) (n + 2) _ h2
    obtain ⟨-, -, k1, -, -, -, -, -, k2, -⟩ := C60_fields _ _ _ i hin
    have k1 : i.fileSizeBytes = MdSpec.sizeOf c (n + 2) := k1
    have k2 : i.blocksBuffer = rootNode c (n + 2) := k2
    obtain ⟨xs, -, -, h32, hsize, -⟩ := hfile.blocks
    have hw : BlocksCounted c i.fileSizeBytes := by
      rw [k1]
      exact .inr (Nat.le_trans hsize (Nat.mul_le_mul_right _ (by omega)))
    obtain ⟨hinv, -⟩ := Ext4File.open_inv (w := w1) hG1 ho2 h3
      (TreeNode c (blockSizeOf (sbOf c)) (rootNode c (n + 2))) (by rw [k2]; exact .root)
    obtain ⟨⟨w2, f2⟩, h4⟩ := readBlocks_same (patched_seekable hv hc hle) InMemory.seekableVolume (c := c) (.inl hlim)
      rounds (blockSizeOf (sbOf c)) rounds (s := (w1, f)) ⟨⟨hG1, trivial⟩, hrel⟩ (m2 rounds hr)
    rw [← hag.readBlocks hc hint.clear hw rounds rounds hinv] at h4
    have h6 : (SM.lift f.blockSize : SM (W × Ext4Fs D) Nat) (w1, fs1) = ((w1, fs1), .ok (blockSizeOf (sbOf c))) := by
      rw [SM.lift_apply, Ext4File.blockSize_eq hinv.opened]
    refine ⟨(w2, fs1), ?_⟩
    rw [sweep, SM.bind_ok (h := caught_ok h1)]
    simp only
    rw [SM.bind_ok (h := h6), SM.bind_ok (h := caught_ok (onHandle_eq fs1 h4))]
    rfl

/-- All of a directory is read. -/
theorem sweep_directory (ha : a = volume k t ++ tail) (hf : Fits k t) (hd : DirectoriesDamaged k t a c)
    (hl : c.length < 2 ^ 57) (hu : k.uuid.isSome) {n : Nat} {es : List (Bytes × Nat)} (hn : t[n]? = some (.dir es)) :
    ∃ N, ∀ {W D : Type} {bad : Nat → Prop} {lim : Nat → Nat} {dev : StreamDev W D} {G : W → Prop}
      {Is : D → Bytes → Prop} {At : W → D → Nat → Prop}, PatchyVolume bad lim dev G Is At → lim c.length = U64 →
      InodeIntact bad c (n + 2) → ∀ rounds, N ≤ rounds → ∀ depth, ∀ s : W × Ext4Fs D, (G s.1 ∧ Opened Is c s.2) →
        ∃ s' ys e, sweep dev rounds (depth + 1) (n + 2) s = (s', .ok (.dir ys e)) ∧
          List.Forall₂ (fun (e : (Bytes × Nat) × Nat) (y : Bytes × Swept) => e.1.1 = y.1 ∧
              ∃ u u', (G u.1 ∧ Opened Is c u.2) ∧ sweep dev rounds depth (e.1.2 + 2) u = (u', .ok y.2))
            (es.zipIdx.filter fun e => !damagedBlock k t a c n e.2 && !isDots e.1.1) ys := by
  have hc : c.length < U64 := by show _ < 2 ^ 64; omega
  have hop := openable_damaged ha hf hd
  obtain ⟨-, fs0, -, -, ho0⟩ := open_opened InMemory.volumeSpec (w := ()) (d := InMemory.new c 512) trivial rfl hop hl
  obtain ⟨v1, fs01, d0, i0, m1, -, mleft⟩ := left_damaged ha hf hd InMemory.volumeSpec hc hu (w := ()) trivial ho0 hn
  obtain ⟨t0, N, -, m2⟩ := listPast_left InMemory.volumeSpec hc _ _ (fun r hr => by
        obtain ⟨e, -, rfl⟩ := List.mem_map.1 hr
        unfold result
        split <;> exact fun h => nomatch h) mleft
  obtain ⟨e1, -⟩ := entries_results hf (List.mem_of_getElem? hn) (damagedBlock k t a c n) es.zipIdx
    fun e he => List.fst_mem_of_mem_zipIdx he
  refine ⟨N + es.length + 1, fun {W D bad lim dev G Is At} hv hlim hint rounds hr depth => ?_⟩
  rintro ⟨w, fs⟩ ⟨hG, ho⟩
  have hle : c.length ≤ lim c.length := by omega
  have hag := hv.agree hc hle
  have m2 := m2 rounds (by omega) rounds (by rw [List.length_map, List.length_zipIdx]; omega)
  obtain ⟨w1, fs1, y, h1, h2, hG1, ho1, hrel⟩ := open_same hv hc hlim hint.1 hG ho ho0 m1
  match y, hrel with
  | .directory d, hrel =>
    have hrel : Ext4Sim.Dr _ _ c d d0 := hrel
    obtain ⟨-, -, -, -, -, i, fs2, hin, ho2, -, -, -, h3⟩ :=
      C75_success hag.perfect c w w1 fs fs1 hG ((opened_same (Is := Is)).2 ho) (n + 2) _ h2
    obtain ⟨-, -, k1, -, -, -, -, -, k2, -⟩ := C60_fields _ _ _ i hin
    have k1 : i.fileSizeBytes = MdSpec.sizeOf c (n + 2) := k1
    have k2 : i.blocksBuffer = rootNode c (n + 2) := k2
    obtain ⟨-, -, -, -, r5, -⟩ := inode_damaged ha hf hd hn
    obtain ⟨hlen, hbl⟩ := length_dir hf n es hn
    have hb := hf.sizes _ (List.mem_of_getElem? hn)
    have hw : BlocksCounted c i.fileSizeBytes := by
      refine .inr ?_
      rw [k1, r5, blockSize_damaged ha hf hd, hlen, ← hbl]
      refine Nat.mul_le_mul_right _ ?_
      show _ ≤ 2 ^ 32 - 1
      omega
    obtain ⟨hinv, -⟩ := Ext4Directory.open_inv (w := w1) hG1 ho2 h3
      (TreeNode c (blockSizeOf (sbOf c)) (rootNode c (n + 2))) (by rw [k2]; exact .root) hw
    obtain ⟨⟨w2, d2⟩, h4⟩ := listPast_same (patched_seekable hv hc hle) InMemory.seekableVolume (c := c) (.inl hlim)
      rounds rounds (s := (w1, d)) ⟨⟨hG1, trivial⟩, hrel⟩ m2
    rw [← hag.listPast hc hint.clear rounds rounds hinv] at h4
    have hG2 : G w2 := by
      obtain ⟨w1', fs1', r, q1, -, -, -, q3⟩ := Ext4Fs.openFile_safe hv.toVolumeSpec (holds_damaged ha hf hd) hG ho (n + 2)
      rw [h1] at q1
      cases q1
      obtain ⟨i', hsize, hinv'⟩ := q3 _ rfl (.dir d) (by simp [ofOpened])
      obtain ⟨s2, l, e, g1, g2, -⟩ := listPast_safe hv.toVolumeSpec hc hsize rounds rounds (hinv' w1 hG1)
      rw [h4] at g1
      cases g1
      exact g2.file.good
    obtain ⟨s3, ys, h5, -, h6⟩ := saveAll_only (I := fun s => G s.1 ∧ Opened Is c s.2)
      (go := sweep dev rounds depth) (ok := fun m => 2 ≤ m ∧ m - 2 < t.length)
      (P := fun m y => ∃ u u', (G u.1 ∧ Opened Is c u.2) ∧ sweep dev rounds depth m u = (u', .ok y)) (fun m hm s hs => by
        obtain ⟨m, rfl⟩ := Nat.exists_eq_add_of_le' hm.1
        obtain ⟨s', y, g1, g2, -⟩ := sweep_within ha hf hd hv.toVolumeSpec hc hu rounds depth m
          (by have := hm.2; omega) s hs
        exact ⟨s', y, g1, g2, s, s', hs, g1⟩)
      ((es.zipIdx.filter fun e => !damagedBlock k t a c n e.2 && !isDots e.1.1).map fun e => (e.1.1, e.1.2 + 2))
      (fun e he => by
        obtain ⟨x, hx, rfl⟩ := List.mem_map.1 he
        have := (hf.names es (List.mem_of_getElem? hn) x.1
          (List.fst_mem_of_mem_zipIdx (List.mem_filter.1 hx).1)).2.2
        exact ⟨by simp, by simpa using this⟩) (w2, fs1) ⟨hG2, ho1⟩
    refine ⟨s3, ys, errorsAmong (es.zipIdx.map fun e => result k (damagedBlock k t a c n e.2) e.1), ?_, ?_⟩
    · rw [sweep, SM.bind_ok (h := caught_ok h1)]
      simp only
      rw [SM.bind_ok (h := onHandle_eq fs1 h4)]
      simp only
      rw [e1]
      exact (SM.bind_ok _ h5).trans rfl
    · rw [List.forall₂_map_left_iff] at h6
      exact h6

end MkfsLemmas
end MdRecover
