import Verif.Lemmas.SweepPatchy
import Verif.Lemmas.FrontList
import Verif.Lemmas.Rounds

/-! Damaged directories are read up to the first block that cannot be read. -/

namespace MdRecover
open MdSpec Mkfs

section
variable [Build] {W D : Type} {dev dev' : StreamDev W D} {bad : Nat → Prop} {c : Bytes} {G : W → Prop}
  {Is : D → Bytes → Prop} {At : W → D → Nat → Prop}

namespace Ext4Directory

/-- The next block of a directory, with one record or damaged, if it can be read. -/
theorem next_block (h : Agree bad c dev dev' G Is At) (ho : ReadsOrErr dev dev') (hc : c.length < U64)
    {P : Bytes → Prop} (hP : Ext4File.NodesClear bad c P) {i : Inode} (hw : BlocksCounted c i.fileSizeBytes)
    {s : W × Ext4Directory D} {p x : Nat} {xs : List Nat} {r : Res (Option DirEntry)}
    (ha : Ahead Is G c P i s p (x :: xs))
    (hx : BlockResults i.metadataChecksumSeed (blockOf c (blockSizeOf (sbOf c)) x) [r]) (hin : BlockIntact bad c x) :
    ∃ s', Next dev s s' r ∧ Ahead Is G c P i s' (p + 1) xs ∧
      ((∃ b, s'.2.current = .block b ∧ b.Ok ∧ Tiles b.rest []) ∨ s'.2.current = s.2.current) := by
  rcases hx with ⟨hs, es, hes, hr⟩ | ⟨hs, hr⟩
  · obtain ⟨e, rfl, rfl⟩ : ∃ e, es = [e] ∧ r = .ok (some ⟨e⟩) := by
      match es, hr with
      | [e], hr => exact ⟨e, rfl, (List.cons.inj hr).1⟩
    rcases front_block h ho hc hP hw ha ⟨hs, hes⟩ with ⟨s1, h1, h3, h4⟩ | ⟨hnot, -⟩
    swap
    · exact absurd hin hnot
    have hok := DirBlock.opened_ok i.metadataChecksumSeed (blockOf c (blockSizeOf (sbOf c)) x)
    obtain ⟨v, h5, h6, h7⟩ := tiles_cons_inv hes
    obtain ⟨b', h8, h9, h10, -⟩ := DirBlock.readNextEntry_record hok h6
      (by rw [DirBlock.opened_rest]; exact h5)
    exact ⟨withCurrent s1 (.block b'), .inl ⟨s1, h3, .entry s1 _ _ _ h4 h8⟩, h1.withCurrent _,
      .inl ⟨b', rfl, h9, h10 ▸ h7⟩⟩
  · obtain rfl : r = .err .invalidData := (List.cons.inj hr).1
    have hge := blockSize_ge c
    have hz : (zeros (blockSizeOf (sbOf c))).length = blockSizeOf (sbOf c) := List.length_replicate
    have hsz := ha.size
    have hsh := ha.short
    have hins := ha.inside x List.mem_cons_self
    rw [List.length_cons] at hsz hsh
    have hmul : (p + (xs.length + 1)) * blockSizeOf (sbOf c)
        = p * blockSizeOf (sbOf c) + xs.length * blockSizeOf (sbOf c) + blockSizeOf (sbOf c) := by
      rw [Nat.add_mul, Nat.add_mul]; omega
    rcases Ext4File.next_or h ho hc hP hw (buf := zeros (blockSizeOf (sbOf c))) hz ha.file ha.pos ha.stack (by omega)
      (by omega) (by rw [hz]; exact hins) with ⟨t, h1, h2, h3, h4⟩ | ⟨hnot, -⟩
    swap
    · exact absurd hin hnot
    have hmin : min (i.fileSizeBytes - p * blockSizeOf (sbOf c)) (blockSizeOf (sbOf c))
        = blockSizeOf (sbOf c) := by omega
    rw [hz, hmin] at h1
    have hseed : s.2.internal.inode.metadataChecksumSeed = i.metadataChecksumSeed := by
      have : s.2.internal.inode = i := ha.file.inode
      rw [this]
    have htb := toBlock_eq (seed := i.metadataChecksumSeed) (by omega) (blockOf_length hins)
      (blockSizeOf (sbOf c))
    rw [if_neg (by omega), if_neg (fun h => hs h.2)] at htb
    refine ⟨(t.1, { s.2 with internal := t.2 }), .inr ⟨.err .invalidData, ?_, fun h => (by cases h), rfl⟩,
      ⟨h2, h3, h4, by rw [ha.size, List.length_cons]; congr 1; omega, by omega,
        fun y hy => ha.inside y (List.mem_cons_of_mem _ hy)⟩, .inr rfl⟩
    refine (advances_iff (Ext4File.blockSize_eq ha.file.opened)).2 ⟨t, _, h1, ?_⟩
    show (match toBlock (blockSizeOf (sbOf c)) s.2.internal.inode.metadataChecksumSeed
        (blockSizeOf (sbOf c)) (blockOf c (blockSizeOf (sbOf c)) x) with
      | .ok b => _ | .err e => _ | .panic => _) = _
    rw [hseed, htb]; rfl

/-- A call. -/
theorem call_block (h : Agree bad c dev dev' G Is At) (ho : ReadsOrErr dev dev') (hc : c.length < U64)
    {P : Bytes → Prop} (hP : Ext4File.NodesClear bad c P) {i : Inode} (hw : BlocksCounted c i.fileSizeBytes)
    {s : W × Ext4Directory D} {p x : Nat} {xs : List Nat} {r : Res (Option DirEntry)}
    (ha : Ahead Is G c P i s p (x :: xs)) (hcur : CurrentHas s.2.current [] (x :: xs))
    (hx : BlockResults i.metadataChecksumSeed (blockOf c (blockSizeOf (sbOf c)) x) [r]) (hin : BlockIntact bad c x) :
    ∃ s', EntryReturns dev s s' r ∧ Ahead Is G c P i s' (p + 1) xs ∧ CurrentHas s'.2.current [] xs := by
  rcases hcur with ⟨h4, -⟩ | ⟨b, h4, h5, h6⟩ | ⟨-, -, h4⟩
  · obtain ⟨s', h1, h2, h3⟩ := next_block h ho hc hP hw ha hx hin
    refine ⟨s', (entryReturns_start h4).2 h1, h2, ?_⟩
    rcases h3 with h3 | h3
    · exact .inr (.inl h3)
    · exact .inl ⟨h3.trans h4, rfl⟩
  · have hne : s.2.current ≠ .start := by rw [h4]; intro h; cases h
    have hn := DirBlock.readNextEntry_none h5 (by
      obtain ⟨-, rest, h7, h8⟩ := h6
      rw [h7]; exact h8)
    obtain ⟨s', h1, h2, h3⟩ := next_block h ho hc hP hw (ha.withCurrent (.block b)) hx hin
    refine ⟨s', (entryReturns_other hne).2 ?_, h2, .inr (.inl ?_)⟩
    · rcases h1 with ⟨s2, h7, h9⟩ | ⟨r0, h7, h9, rfl⟩
      · exact .next s s2 s' _ _ r h4 hn h7 h9
      · exact .fail s s' _ _ r0 h4 hn h7 h9
    · rcases h3 with h3 | h3
      · exact h3
      · exact ⟨b, h3, h5, h6⟩
  · cases h4

end Ext4Directory

/-- The entries in front of what cannot be read are listed. -/
theorem listPast_front {F : Prop} {Is0 : D → Bytes → Prop} (hv : VolumeSpec F dev G Is0 At) (h : Agree bad c dev dev' G Is At)
    (ho : ReadsOrErr dev dev') (hc : c.length < U64) {P : Bytes → Prop} (hP : Ext4File.NodesClear bad c P) {i : Inode}
    (hsize : i.fileSizeBytes ≤ (U32 - 1) * blockSizeOf (sbOf c)) (rounds : Nat)
    (hrounds : i.fileSizeBytes / blockSizeOf (sbOf c) + 3 ≤ rounds) :
    ∀ (rs : List (Res (Option DirEntry))) (xs : List Nat) (s : W × Ext4Directory D) (p k w : Nat), rs.length ≤ k →
      w < rounds → Weighs c (blockSizeOf (sbOf c)) s.2.internal.stack w →
      Ext4Directory.Inv Is0 G c (AllFit c) i s → Ext4Directory.Ahead Is G c P i s p xs →
      Ext4Directory.CurrentHas s.2.current [] xs → rs.length ≤ xs.length → (∀ r ∈ rs, r ≠ .ok none) →
      (∀ (j : Nat) x r, xs[j]? = some x → rs[j]? = some r → Ext4Directory.BlockIntact bad c x ∧
        BlockResults i.metadataChecksumSeed (blockOf c (blockSizeOf (sbOf c)) x) [r]) →
      ∃ s' l e, listPast dev rounds k s = (s', .ok (l, e)) ∧ entriesAmong rs <+: l := by
  intro rs
  induction rs with
  | nil =>
    intro xs s p k w _ _ _ hi _ _ _ _ _
    obtain ⟨s', l, e, h1, -⟩ := listPast_safe hv hc hsize rounds k hi
    exact ⟨s', l, e, h1, List.nil_prefix⟩
  | cons r rs ih =>
    intro xs s p k w hk hw hwe hi ha hcur hlen hne hall
    obtain ⟨k, rfl⟩ : ∃ j, k = j + 1 := ⟨k - 1, by simp at hk; omega⟩
    obtain ⟨x, xs, rfl⟩ : ∃ x xs', xs = x :: xs' := by
      cases xs with
      | nil => simp at hlen
      | cons x xs => exact ⟨x, xs, rfl⟩
    obtain ⟨hin, hx⟩ := hall 0 x r rfl rfl
    obtain ⟨s1, h1, ha1, hcur1⟩ := Ext4Directory.call_block h ho hc hP (.inr hsize) ha hcur hx hin
    obtain ⟨w', q1, q2, q3⟩ := Ext4Directory.readNextEntry_weight hv hc hsize rounds hi hwe
    obtain ⟨q4, q5⟩ := Ext4Directory.readNextEntry_safe hv hc hsize rounds hi
    have h2 : Ext4Directory.readNextEntry dev rounds s = (s1, some <$> r) := by
      rcases h3 : Ext4Directory.readNextEntry dev rounds s with ⟨s2, r2⟩
      rw [h3] at q3
      obtain ⟨r3, rfl⟩ := Ext4Directory.some_surj (q3 hw hrounds)
      obtain ⟨rfl, rfl⟩ := Ext4Directory.entryReturns_unique h1 ⟨rounds, h3⟩
      rfl
    rw [h2] at q1 q4 q5
    obtain ⟨s', l, e, h3, h4⟩ := ih xs s1 (p + 1) k w' (by simp at hk; omega) (by omega) q1 q4 ha1 hcur1
      (by simpa using hlen) (fun x hx => hne x (List.mem_cons_of_mem _ hx)) (fun j y r' e1 e2 => hall (j + 1) y r' e1 e2)
    rw [listPast]
    rcases r with (_ | e0) | e0 | _
    · exact absurd rfl (hne _ List.mem_cons_self)
    · refine ⟨s', e0 :: l, e, ?_, ?_⟩
      · rw [SM.bind_ok (h := caught_ok (a := some (some e0)) h2)]
        simp only
        rw [SM.bind_ok (h := h3)]
        rfl
      · have : entriesAmong (Res.ok (some e0) :: rs) = e0 :: entriesAmong rs := by
          unfold entriesAmong
          rw [List.filterMap_cons_some (by rfl)]
        rw [this]
        exact List.cons_prefix_cons.2 ⟨rfl, h4⟩
    · refine ⟨s', l, e + 1, ?_, ?_⟩
      · rw [SM.bind_ok (h := caught_err (e := e0) h2)]
        simp only
        rw [SM.bind_ok (h := h3)]
        rfl
      · have : entriesAmong (Res.err e0 :: rs) = entriesAmong rs := by
          unfold entriesAmong
          rw [List.filterMap_cons_none (by rfl)]
        rw [this]
        exact h4
    · exact absurd rfl q5

end

namespace MkfsLemmas
variable {k : Form} {t : List Node} {a c tail : Bytes} [Build]

/-- A directory is read up to the first block that cannot be read. -/
theorem sweep_front (ha : a = volume k t ++ tail) (hf : Fits k t) (hd : DirectoriesDamaged k t a c)
    (hc : c.length < U64) (hu : k.uuid.isSome) {n : Nat} {es : List (Bytes × Nat)} (hn : t[n]? = some (.dir es)) :
    ∃ N, ∀ {W D : Type} {bad : Nat → Prop} {lim : Nat → Nat} {dev : StreamDev W D} {G : W → Prop}
      {Is : D → Bytes → Prop} {At : W → D → Nat → Prop}, PatchyVolume bad lim dev G Is At → lim c.length = U64 →
      HeadIntact bad k t → ∀ m, m ≤ es.length →
      (∀ x, start k t n * bs k ≤ x → x < (start k t n + m) * bs k → ¬ bad x) →
      ∀ rounds, N ≤ rounds → ∀ depth, ∀ s : W × Ext4Fs D, (G s.1 ∧ Opened Is c s.2) →
        ∃ s' q ys e, sweep dev rounds (depth + 1) (n + 2) s = (s', .ok (.dir ys e)) ∧
          q <+: (es.zipIdx.filter fun e => !damagedBlock k t a c n e.2 && !isDots e.1.1) ∧
          ((es.zipIdx.take m).filter fun e => !damagedBlock k t a c n e.2 && !isDots e.1.1) <+: q ∧
          List.Forall₂ (fun (e : (Bytes × Nat) × Nat) (y : Bytes × Swept) => e.1.1 = y.1 ∧
              ∃ u u', (G u.1 ∧ Opened Is c u.2) ∧ sweep dev rounds depth (e.1.2 + 2) u = (u', .ok y.2)) q ys := by
  refine ⟨2 * nodeEntries (rootNode c (n + 2)) + MdSpec.sizeOf c (n + 2) / blockSizeOf (sbOf c) + es.length + 5,
    fun {W D bad lim dev G Is At} hv hlim hh m hm hfront rounds hr depth => ?_⟩
  rintro ⟨w, fs⟩ ⟨hG, ho⟩
  obtain ⟨hr1, hr2, hr3⟩ : MdSpec.sizeOf c (n + 2) / blockSizeOf (sbOf c) + 3 ≤ rounds ∧ es.length ≤ rounds ∧
      2 * nodeEntries (rootNode c (n + 2)) + 1 < rounds := by
    generalize MdSpec.sizeOf c (n + 2) / blockSizeOf (sbOf c) = z at hr ⊢
    omega
  have hnlt : n < t.length := (List.getElem?_eq_some_iff.1 hn).1
  have hs := holds_damaged ha hf hd
  have hbz := blockSize_damaged ha hf hd
  have hag := hv.agree hc (show c.length ≤ lim c.length by omega)
  obtain ⟨r1, r2, r3, r4, r5, r6⟩ := inode_damaged ha hf hd hn
  obtain ⟨-, v2, -, -⟩ := root_values (start k t n) (blocks k (.dir es)) (hf.sizes _ (List.mem_of_getElem? hn))
  have hslot : Intact bad c (inodeSlot c (n + 2)) (le (sbOf c) 0x58 2) := by
    have := slotIntact_volume ha hf hh hnlt
    unfold Intact at *
    rw [inodeSlot_damaged ha hf hd hnlt, sb_same hd, hd.length]
    exact this
  have ho' := (opened_same (Is := Is)).2 ho
  obtain ⟨w1, fs1, r, h1, hG1, ho1, -, -, h2, -⟩ := C75_outcome hag.perfect c hc w fs hG ho' (n + 2) r1
  obtain ⟨d, rfl⟩ := h2 (r2.trans (mode_dir es)) r4 r3
  obtain ⟨-, -, -, -, -, i, fs2, hi, ho2, -, -, -, hopen⟩ :=
    C75_success hag.perfect c w w1 fs fs1 hG ho' (n + 2) _ h1
  rw [← hag.openFile (s := (w, fs)) hG ho' hslot] at h1
  obtain ⟨-, -, k1, -, -, -, -, -, k2, -⟩ := C60_fields _ _ _ i hi
  have k1 : i.fileSizeBytes = MdSpec.sizeOf c (n + 2) := k1
  have k2 : i.blocksBuffer = rootNode c (n + 2) := k2
  have k3 := inodeSeed_eq ho.superblock hi (seed_damaged ha hf hd hn)
  obtain ⟨hx, hin⟩ := blocks_damaged ha hf hd hn
  have hres := results_damaged ha hf hd hu hn
  obtain ⟨hlen, hbl⟩ := length_dir hf n es hn
  have hb := hf.sizes _ (List.mem_of_getElem? hn)
  have hsz : i.fileSizeBytes =
      ((List.range (blocks k (.dir es))).map (start k t n + ·)).length * blockSizeOf (sbOf c) := by
    rw [List.length_map, List.length_range, hbz, k1, r5, hbl, hlen]
  have h32 : ((List.range (blocks k (.dir es))).map (start k t n + ·)).length < U32 := by
    rw [List.length_map, List.length_range]; show _ < 2 ^ 32; omega
  have hsize : i.fileSizeBytes ≤ (U32 - 1) * blockSizeOf (sbOf c) := by
    rw [hsz]; exact Nat.mul_le_mul_right _ (by omega)
  obtain ⟨hinv, g1, g2, g3⟩ := Ext4Directory.open_inv (w := w1) hG1 ho2 hopen
    (TreeNode c (blockSizeOf (sbOf c)) (rootNode c (n + 2))) (by rw [k2]; exact .root) (.inr hsize)
  have hleaf : ∀ node, TreeNode c (blockSizeOf (sbOf c)) (rootNode c (n + 2)) node →
      node = extentRoot (start k t n) (blocks k (.dir es)) := by
    intro node hnode
    rw [r6] at hnode
    induction hnode with
    | root => rfl
    | child node j _ hd _ _ _ ih =>
      rw [ih] at hd
      exact absurd v2 hd
  have hP : Ext4File.NodesClear bad c (TreeNode c (blockSizeOf (sbOf c)) (rootNode c (n + 2))) :=
    ⟨fun node i h1 h2 h3 h4 h5 => .child node i h1 h2 h3 h4 h5, fun node j q1 q2 q3 q4 => by
      rw [hleaf node q1] at q4
      exact absurd v2 q4⟩
  have hpen : Ext4File.Pending c (blockSizeOf (sbOf c)) d.internal.stack 0
      ((List.range (blocks k (.dir es))).map (start k t n + ·)) := by
    rw [g3, ← List.append_nil ((List.range (blocks k (.dir es))).map (start k t n + ·))]
    refine .tree _ _ _ _ _ _ ?_ (.nil _)
    show Contiguous c _ i.blocksBuffer 0 0 _
    rw [k2, hbz]
    exact hx
  have hahead : Ext4Directory.Ahead (fun d c' => c' = c ∧ Is d c) G c
      (TreeNode c (blockSizeOf (sbOf c)) (rootNode c (n + 2))) i (w1, d) 0
      ((List.range (blocks k (.dir es))).map (start k t n + ·)) :=
    ⟨hinv.file, g2, hpen, by rw [Nat.zero_add]; exact hsz, by rw [Nat.zero_add]; exact h32, by rw [hbz]; exact hin⟩
  have hweigh : Weighs c (blockSizeOf (sbOf c)) d.internal.stack (2 * nodeEntries (rootNode c (n + 2)) + 1) := by
    rw [g3]
    refine ⟨_, 0, ?_, rfl, rfl⟩
    rw [ExtentTree.node_fromInternal]
    show TreeLeft c _ i.blocksBuffer 0 _
    rw [k2]
    exact treeLeft_zero (.leaf _ (by rw [r6]; exact v2))
  have hxl : ((List.range (blocks k (.dir es))).map (start k t n + ·)).length = es.length := by
    rw [List.length_map, List.length_range, hbl]
  obtain ⟨w1', fs1', r, q1, -, -, -, q3⟩ := Ext4Fs.openFile_safe hv.toVolumeSpec hs hG ho (n + 2)
  rw [h1] at q1
  cases q1
  obtain ⟨i', hsize', hinv'⟩ := q3 _ rfl (.dir d) (by simp [ofOpened])
  have hi' := hinv' w1 hG1
  obtain rfl : i' = i := hi'.file.inode.symm.trans hinv.file.inode
  obtain ⟨⟨w2, d2⟩, l, e, l1, l2, l3⟩ := listPast_safe hv.toVolumeSpec hc hsize rounds rounds hi'
  obtain ⟨rs, s2, j1, rfl⟩ := l3 (.nil (w1, d))
  rw [List.nil_append] at j1
  have hpre := calls_entries hv.toVolumeSpec hc hG1 (opened_same.1 ho2) hopen (by rw [hbz, k2]; exact hx) hsz h32
    (by rw [hbz, k3]; exact hres) j1
  have hflat : (es.zipIdx.map fun e => [result k (damagedBlock k t a c n e.2) e.1]).flatten =
      es.zipIdx.map fun e => result k (damagedBlock k t a c n e.2) e.1 := by
    generalize es.zipIdx = l
    induction l with
    | nil => rfl
    | cons e l ih => rw [List.map_cons, List.map_cons, List.flatten_cons, ih]; rfl
  rw [hflat] at hpre
  obtain ⟨e1, -⟩ := entries_results hf (List.mem_of_getElem? hn) (damagedBlock k t a c n) es.zipIdx
    fun e he => List.fst_mem_of_mem_zipIdx he
  obtain ⟨e2, -⟩ := entries_results hf (List.mem_of_getElem? hn) (damagedBlock k t a c n) (es.zipIdx.take m)
    fun e he => List.fst_mem_of_mem_zipIdx (List.mem_of_mem_take he)
  have hkept : kept (entriesAmong rs) <+:
      (es.zipIdx.filter fun e => !damagedBlock k t a c n e.2 && !isDots e.1.1).map fun e => (e.1.1, e.1.2 + 2) := by
    rw [← e1]
    exact (hpre.filter _).map _
  obtain ⟨q, hq, hqe⟩ : ∃ q, q <+: (es.zipIdx.filter fun e => !damagedBlock k t a c n e.2 && !isDots e.1.1) ∧
      kept (entriesAmong rs) = q.map fun e => (e.1.1, e.1.2 + 2) := by
    refine ⟨_, List.take_prefix (kept (entriesAmong rs)).length _, ?_⟩
    rw [List.map_take]
    exact List.prefix_iff_eq_take.1 hkept
  have hall : ∀ (j : Nat) x r, ((List.range (blocks k (.dir es))).map (start k t n + ·))[j]? = some x →
      ((es.zipIdx.take m).map fun e => result k (damagedBlock k t a c n e.2) e.1)[j]? = some r →
      Ext4Directory.BlockIntact bad c x ∧
        BlockResults i'.metadataChecksumSeed (blockOf c (blockSizeOf (sbOf c)) x) [r] := by
    intro j x r hjx hjr
    obtain ⟨p1, p2⟩ := List.getElem?_eq_some_iff.1 hjx
    obtain ⟨p3, p4⟩ := List.getElem?_eq_some_iff.1 hjr
    have hjm : j < m := by rw [List.length_map, List.length_take] at p3; omega
    have hx' : x = start k t n + j := by rw [← p2]; simp
    constructor
    · unfold Ext4Directory.BlockIntact
      rw [hbz, hx']
      intro y y1 y2 _
      refine hfront y (Nat.le_trans (Nat.mul_le_mul_right _ (by omega)) y1) ?_
      have : (start k t n + j + 1) * bs k ≤ (start k t n + m) * bs k := Nat.mul_le_mul_right _ (by omega)
      rw [Nat.add_mul, Nat.one_mul] at this
      omega
    · rw [k3, hbz]
      have h4 := (List.forall₂_iff_get.1 hres).2 j p1 (by rw [List.length_map, List.length_zipIdx]; omega)
      rw [← p2, ← p4]
      simpa using h4
  obtain ⟨s4, l', e', f1, f2⟩ := listPast_front hv.toVolumeSpec hag (patched_or dev At c) hc hP hsize rounds
    (by rw [k1]; exact hr1) ((es.zipIdx.take m).map fun e => result k (damagedBlock k t a c n e.2) e.1) _ (w1, d) 0 rounds _
    (by rw [List.length_map, List.length_take, List.length_zipIdx]; omega) hr3 hweigh hi' hahead
    (.inl ⟨g1, rfl⟩) (by rw [hxl, List.length_map, List.length_take, List.length_zipIdx]; omega) (fun r hr => by
      obtain ⟨e, -, rfl⟩ := List.mem_map.1 hr
      unfold result
      split <;> exact fun h => nomatch h) hall
  rw [l1] at f1
  cases f1
  have hT : ((es.zipIdx.take m).filter fun e => !damagedBlock k t a c n e.2 && !isDots e.1.1) <+: q := by
    refine List.prefix_of_prefix_length_le ((List.take_prefix m es.zipIdx).filter _) hq ?_
    have h5 : kept (entriesAmong ((es.zipIdx.take m).map fun e => result k (damagedBlock k t a c n e.2) e.1)) <+:
      kept (entriesAmong rs) := (f2.filter _).map _
    rw [e2, hqe] at h5
    simpa using h5.length_le
  obtain ⟨s3, ys, h5, -, h6⟩ := saveAll_only (I := fun s => G s.1 ∧ Opened Is c s.2)
    (go := sweep dev rounds depth) (ok := fun m => 2 ≤ m ∧ m - 2 < t.length)
    (P := fun m y => ∃ u u', (G u.1 ∧ Opened Is c u.2) ∧ sweep dev rounds depth m u = (u', .ok y)) (fun m hm s hs => by
      obtain ⟨m, rfl⟩ := Nat.exists_eq_add_of_le' hm.1
      obtain ⟨s', y, g1, g2, -⟩ := sweep_within ha hf hd hv.toVolumeSpec hc hu rounds depth m
        (by have := hm.2; omega) s hs
      exact ⟨s', y, g1, g2, s, s', hs, g1⟩) (kept (entriesAmong rs)) (fun e he => by
      rw [hqe] at he
      obtain ⟨x, hx, rfl⟩ := List.mem_map.1 he
      have := (hf.names es (List.mem_of_getElem? hn) x.1
        (List.fst_mem_of_mem_zipIdx (List.mem_filter.1 (hq.subset hx)).1)).2.2
      exact ⟨by simp, by simpa using this⟩) (w2, fs1) ⟨l2.file.good, opened_same.1 ho1⟩
  refine ⟨s3, q, ys, e, ?_, hq, hT, ?_⟩
  · rw [sweep, SM.bind_ok (h := caught_ok h1)]
    simp only
    rw [SM.bind_ok (h := onHandle_eq fs1 l1)]
    exact (SM.bind_ok _ h5).trans rfl
  · rw [hqe, List.forall₂_map_left_iff] at h6
    exact h6

end MkfsLemmas
end MdRecover
