import Verif.Lemmas.PathFound
import Verif.Lemmas.Ext4Tree
import Verif.Spec.TreeFound

namespace MdRecover
open MdSpec
variable [Build]

section
variable {W D : Type} {F : Prop} {dev : StreamDev W D} {G : W → Prop} {Is : D → Bytes → Prop}
  {At : W → D → Nat → Prop}

/-- Listing is a sequence of calls. -/
theorem listAll_dirCalls {rounds : Nat} {s0 : W × Ext4Directory D} :
    ∀ (k : Nat) {s s' : W × Ext4Directory D} {l : List (Bytes × Nat)} {h : List (Res (Option DirEntry))},
      DirCalls dev s0 h s → listAll dev rounds k s = (s', .ok (some l)) →
      ∃ es : List DirEntry, l = es.filterMap listed ∧
        DirCalls dev s0 (h ++ (es.map fun e => .ok (some e)) ++ [.ok none]) s' := by
  intro k
  induction k with
  | zero =>
    intro s s' l h _ hr
    rw [listAll] at hr
    cases hr
  | succ k ih =>
    intro s s' l h hcalls hr
    rw [listAll] at hr
    rcases hone : Ext4Directory.readNextEntry dev rounds s with ⟨s1, r⟩
    match r with
    | .panic => rw [SM.bind_panic (h := hone)] at hr; cases hr
    | .err e => rw [SM.bind_err (h := hone)] at hr; cases hr
    | .ok none => rw [SM.bind_ok (h := hone)] at hr; cases hr
    | .ok (some x) =>
      rw [SM.bind_ok (h := hone)] at hr
      have hcalls1 := DirCalls.snoc _ _ _ _ (.ok x) hcalls ⟨rounds, hone⟩ (fun h => (by cases h))
      match x with
      | none =>
        cases hr
        exact ⟨[], rfl, by simpa using hcalls1⟩
      | some e =>
        simp only at hr
        rcases h2 : listAll dev rounds k s1 with ⟨s2, r2⟩
        match r2 with
        | .panic => rw [SM.bind_panic (h := h2)] at hr; cases hr
        | .err e => rw [SM.bind_err (h := h2)] at hr; cases hr
        | .ok none =>
          rw [SM.bind_ok (h := h2)] at hr
          split at hr <;> cases hr
        | .ok (some l2) =>
          rw [SM.bind_ok (h := h2)] at hr
          obtain ⟨es, rfl, k2⟩ := ih hcalls1 h2
          refine ⟨e :: es, ?_, ?_⟩
          · by_cases hx : e.inode ≠ 0 ∧ isDots e.name.bytes = false
            · rw [if_pos hx] at hr
              rw [List.filterMap_cons_some (show listed e = some (e.name.bytes, e.inode) from if_pos hx)]
              cases hr
              rfl
            · rw [if_neg hx] at hr
              rw [List.filterMap_cons_none (show listed e = none from if_neg hx)]
              cases hr
              rfl
          · split at hr <;> cases hr <;> simpa using k2

omit [Build] in
theorem listed_shown (records : List Bytes) :
    (records.map DirEntry.mk).filterMap listed =
      (records.filter isShown).map fun e => (shownName e, recordInode e) := by
  induction records with
  | nil => rfl
  | cons e es ih =>
    rw [List.map_cons]
    by_cases h : isShown e = true
    · have h1 : listed ⟨e⟩ = some (shownName e, recordInode e) := by
        unfold listed
        rw [entry_inode, entry_name, if_pos]
        simpa [isShown] using h
      rw [List.filterMap_cons_some h1, List.filter_cons_of_pos h, ih, List.map_cons]
    · have h1 : listed ⟨e⟩ = none := by
        unfold listed
        rw [entry_inode, entry_name, if_neg]
        simpa [isShown] using h
      rw [List.filterMap_cons_none h1, List.filter_cons_of_neg h, ih]

/-- What a listing returned is there. -/
theorem listAll_backed (hv : VolumeSpec F dev G Is At) {c : Bytes} (hc : c.length < U64) {n : Nat}
    (hcount : BlocksCounted c (sizeOf c n))
    {w w1 w2 : W} {fs fs1 : Ext4Fs D} (hG : G w) (ho : Opened Is c fs) {rounds k : Nat}
    {d d' : Ext4Directory D} {l : List (Bytes × Nat)}
    (hopen : Ext4Fs.openFile dev n (w, fs) = ((w1, fs1), .ok (.directory d)))
    (hlist : listAll dev rounds k (w1, d) = ((w2, d'), .ok (some l))) :
    G w2 ∧ Opened Is c fs1 ∧ ∃ xs records, DirectoryStart c n xs records ∧
      sizeOf c n = xs.length * blockSizeOf (sbOf c) ∧
      l = (records.filter isShown).map fun e => (shownName e, recordInode e) := by
  have hread := openFile_readable hv hG ho hopen
  obtain ⟨-, -, -, hG1, ho1, i, fs2, hi, ho2, t1, t2, t3, hd⟩ := C75_success hv c w w1 fs fs1 hG ho n _ hopen
  obtain ⟨-, -, e1, -, -, -, -, -, e2, -⟩ := C60_fields _ _ _ i hi
  have e1 : i.fileSizeBytes = sizeOf c n := e1
  have e2 : i.blocksBuffer = rootNode c n := e2
  have hseed := inodeSeed_of ho.superblock hi
  have hw : BlocksCounted c i.fileSizeBytes := by rw [e1]; exact hcount
  obtain ⟨f, hf⟩ : ∃ f, Ext4File.open fs2 i = .ok f := by
    unfold Ext4Directory.open at hd
    split at hd
    · cases hd
    · rcases hf : Ext4File.open fs2 i with f | e | _
      · exact ⟨f, rfl⟩
      · rw [hf] at hd; cases hd
      · rw [hf] at hd; cases hd
  obtain ⟨hinv, -⟩ := Ext4Directory.open_inv (w := w1) hG1 ho2 hd (fun _ => True) trivial hw
  obtain ⟨es, h1, h2⟩ := listAll_dirCalls k (.nil (w1, d)) hlist
  refine ⟨(Ext4Directory.dirCalls_inv hv hc (Ext4File.closed_true c (blockSizeOf (sbOf c))) h2 hinv).file.good,
    ho1, ?_⟩
  rw [List.nil_append] at h2
  obtain ⟨g, rss, s', c1, c2, c3, c4⟩ := C72_follows hv c hc w1 hG1 fs2 ho2 i d hd hw f hf _ _ h2
  have hnone : Res.ok none ∉ rss.flatten := by
    intro hm
    obtain ⟨rs, hrs, hm⟩ := List.mem_flatten.1 hm
    obtain ⟨j, hj, rfl⟩ := List.mem_iff_getElem.1 hrs
    have hl := c3.length_eq
    have := (List.forall₂_iff_get.1 c3).2 j (by omega) hj
    simp only [List.get_eq_getElem] at this
    unfold ReadResults at this
    split at this
    · rcases this with ⟨-, h0⟩ | ⟨-, -, ⟨-, es', -, h0⟩ | ⟨-, h0⟩⟩ | ⟨-, -, h0⟩ <;> rw [h0] at hm <;>
        simp at hm
    · rw [this] at hm
      simp at hm
    · exact this
  rcases c4 with ⟨-, c4⟩ | ⟨g', x, k', rfl, hx, -, c4⟩
  · exact absurd (c4.subset (by simp)) hnone
  have hl : rss.flatten = es.map fun e => .ok (some e) := by
    rcases k' with _ | k'
    · rw [List.replicate_zero, List.append_nil] at c4
      exact absurd (by rw [← c4]; simp) hnone
    · rw [List.replicate_succ', ← List.append_assoc] at c4
      have c5 := (List.append_inj' c4 rfl).1
      rcases k' with _ | k'
      · rw [c5]; simp
      · have : Res.ok (none : Option DirEntry) ∈ es.map fun e => Res.ok (some e) := by
          rw [c5, List.replicate_succ]; simp
        obtain ⟨e, -, he⟩ := List.mem_map.1 this
        cases he
  have herr : ∀ e, Res.err e ∉ rss.flatten := by
    intro e he
    rw [hl] at he
    obtain ⟨y, -, hy⟩ := List.mem_map.1 he
    cases hy
  obtain ⟨xs, -, x2, -, -, x5, x6, x7⟩ := calls_blocks hv hc hG1 ho2 hf hw c1 c2
  obtain ⟨r1, ess, r2, r3⟩ := read_records c3 herr
  rw [e1] at x5 x6
  rw [e2] at x2
  refine ⟨xs, ess.flatten, ⟨hread, t1, t2, t3, x2, x6 r1, ess, _, hseed, ?_, rfl⟩,
    Nat.le_antisymm (x5 ⟨x, by simp, hx⟩) (x6 r1), ?_⟩
  · have hl := x7.length_eq
    have hl2 := r3.length_eq
    rw [List.forall₂_iff_get] at x7 r3 ⊢
    refine ⟨by omega, fun j hj hj2 => ?_⟩
    obtain ⟨a, ha⟩ := x7.2 j (by omega) hj
    obtain ⟨a', b, hb, k1, k2⟩ := r3.2 j (by omega) hj2
    rw [ha] at hb
    cases hb
    exact ⟨k1, k2⟩
  · rw [h1, ← listed_shown]
    congr 1
    rw [hl] at r2
    have hinj : Function.Injective (fun e : DirEntry => (Res.ok (some e) : Res (Option DirEntry))) := by
      intro a b hab
      cases hab
      rfl
    refine List.map_injective_iff.2 hinj ?_
    rw [r2, List.map_map]
    rfl

/-- What reading a file returned is there. -/
theorem readBlocks_backed (hv : VolumeSpec F dev G Is At) {c : Bytes} (hc : c.length < U64) {n : Nat}
    (hcount : BlocksCounted c (sizeOf c n))
    {w w1 w2 : W} {fs fs1 : Ext4Fs D} (hG : G w) (ho : Opened Is c fs) {rounds : Nat}
    {f f' : Ext4File D} {b : Bytes}
    (h1 : Ext4Fs.openFile dev n (w, fs) = ((w1, fs1), .ok (.regularFile f)))
    (h2 : readBlocks dev rounds (blockSizeOf (sbOf c)) rounds (w1, f) = ((w2, f'), .ok (some b))) :
    G w2 ∧ Opened Is c fs1 ∧ FileFound c n b := by
  have hread := openFile_readable hv hG ho h1
  obtain ⟨-, -, -, hG1, ho1, i, fs2, hi, ho2, t1, t2, hf, -⟩ :=
    C75_success hv c w w1 fs fs1 hG ho n _ h1
  obtain ⟨-, -, e1, -, -, -, -, -, e2, -⟩ := C60_fields _ _ _ i hi
  have e1 : i.fileSizeBytes = sizeOf c n := e1
  have e2 : i.blocksBuffer = rootNode c n := e2
  have hw : BlocksCounted c i.fileSizeBytes := by rw [e1]; exact hcount
  obtain ⟨hinv, -⟩ := Ext4File.open_inv (w := w1) hG1 ho2 hf (fun _ => True) trivial
  obtain ⟨g, g1, g2, g3, g4⟩ := readBlocks_fileCalls rounds (.nil (w1, f)) h2
  have hgood := (Ext4File.calls_inv hv hc (Ext4File.closed_true c (blockSizeOf (sbOf c))) g1 hinv hw).1.good
  obtain ⟨xs, -, x2, x3, x4, x5, -, -⟩ := calls_blocks hv hc hG1 ho2 hf hw g1 g2
  simp only [List.nil_append] at x3 x5
  rw [e1] at x3 x4 x5
  rw [e2] at x2
  exact ⟨hgood, ho1, hread, t1, t2, xs, x2, x5 g3, x4, by rw [g4, x3]⟩

/-- What the program returned is there. -/
theorem walk_backed (hv : VolumeSpec F dev G Is At) {c : Bytes} (hc : c.length < U64) (hcount : AllCounted c)
    {rounds : Nat} : ∀ (k : Nat) {n : Nat} {w : W} {fs : Ext4Fs D} {s' : W × Ext4Fs D} {x : Tree},
      G w → Opened Is c fs → walk dev rounds k n (w, fs) = (s', .ok (some x)) →
      G s'.1 ∧ Opened Is c s'.2 ∧ TreeFound c k n x := by
  intro k
  induction k with
  | zero => intro n w fs s' x _ _ h; cases h
  | succ k ih =>
    intro n w fs s' x hG ho h
    rw [walk] at h
    rcases h1 : Ext4Fs.openFile dev n (w, fs) with ⟨⟨w1, fs1⟩, y⟩
    match y with
    | .panic => rw [SM.bind_panic (h := h1)] at h; cases h
    | .err e => rw [SM.bind_err (h := h1)] at h; cases h
    | .ok (.unsupported t) =>
      rw [SM.bind_ok (h := h1)] at h
      cases h
      obtain ⟨-, -, -, hG1, ho1, i, fs2, -, -, t1, t2, -⟩ := C75_success hv c w w1 fs fs1 hG ho n _ h1
      exact ⟨hG1, ho1, openFile_readable hv hG ho h1, t1, t2⟩
    | .ok (.regularFile f) =>
      rw [SM.bind_ok (h := h1)] at h
      simp only at h
      obtain ⟨-, -, -, hG1, ho1, i, fs2, hi, ho2, t1, t2, hf, -⟩ :=
        C75_success hv c w w1 fs fs1 hG ho n _ h1
      obtain ⟨hinv, -⟩ := Ext4File.open_inv (w := w1) hG1 ho2 hf (fun _ => True) trivial
      have h6 : (SM.lift f.blockSize : SM (W × Ext4Fs D) Nat) (w1, fs1)
          = ((w1, fs1), .ok (blockSizeOf (sbOf c))) := by
        rw [SM.lift_apply, Ext4File.blockSize_eq hinv.opened]
      rw [SM.bind_ok (h := h6)] at h
      rcases h2 : readBlocks dev rounds (blockSizeOf (sbOf c)) rounds (w1, f) with ⟨⟨w2, f2⟩, r⟩
      have h3 := onHandle_eq fs1 h2
      match r with
      | .panic => rw [SM.bind_panic (h := h3)] at h; cases h
      | .err e => rw [SM.bind_err (h := h3)] at h; cases h
      | .ok none => rw [SM.bind_ok (h := h3)] at h; cases h
      | .ok (some b) =>
        rw [SM.bind_ok (h := h3)] at h
        cases h
        exact readBlocks_backed hv hc (hcount n (openFile_readable hv hG ho h1)) hG ho h1 h2
    | .ok (.directory d) =>
      rw [SM.bind_ok (h := h1)] at h
      simp only at h
      rcases h2 : listAll dev rounds rounds (w1, d) with ⟨⟨w2, d2⟩, r⟩
      have h3 := onHandle_eq fs1 h2
      match r with
      | .panic => rw [SM.bind_panic (h := h3)] at h; cases h
      | .err e => rw [SM.bind_err (h := h3)] at h; cases h
      | .ok none => rw [SM.bind_ok (h := h3)] at h; cases h
      | .ok (some l) =>
        rw [SM.bind_ok (h := h3)] at h
        simp only at h
        obtain ⟨hG2, ho1, xs, records, k1, k2, rfl⟩ := listAll_backed hv hc
          (hcount n (openFile_readable hv hG ho h1)) hG ho h1 h2
        have hall : ∀ (es : List Bytes) {w : W} {fs : Ext4Fs D} {s' : W × Ext4Fs D} {ys : List (Bytes × Tree)},
            G w → Opened Is c fs →
            walkAll (walk dev rounds k) (es.map fun e => (shownName e, recordInode e)) (w, fs)
              = (s', .ok (some ys)) →
            G s'.1 ∧ Opened Is c s'.2 ∧
            List.Forall₂ (fun e x => shownName e = x.1 ∧ TreeFound c k (recordInode e) x.2) es ys := by
          intro es
          induction es with
          | nil =>
            intro w fs s' ys hG ho h
            cases h
            exact ⟨hG, ho, .nil⟩
          | cons e es ih2 =>
            intro w fs s' ys hG ho h
            rw [List.map_cons, walkAll] at h
            rcases q1 : walk dev rounds k (recordInode e) (w, fs) with ⟨⟨w1, fs1⟩, r⟩
            match r with
            | .panic => rw [SM.bind_panic (h := q1)] at h; cases h
            | .err e => rw [SM.bind_err (h := q1)] at h; cases h
            | .ok none => rw [SM.bind_ok (h := q1)] at h; cases h
            | .ok (some x) =>
              rw [SM.bind_ok (h := q1)] at h
              simp only at h
              obtain ⟨hG1, ho1, q2⟩ := ih hG ho q1
              rcases q3 : walkAll (walk dev rounds k) (es.map fun e => (shownName e, recordInode e)) (w1, fs1)
                with ⟨s2, r⟩
              match r with
              | .panic => rw [SM.bind_panic (h := q3)] at h; cases h
              | .err e => rw [SM.bind_err (h := q3)] at h; cases h
              | .ok none => rw [SM.bind_ok (h := q3)] at h; cases h
              | .ok (some ys2) =>
                rw [SM.bind_ok (h := q3)] at h
                cases h
                obtain ⟨hG3, ho3, q4⟩ := ih2 hG1 ho1 q3
                exact ⟨hG3, ho3, .cons ⟨rfl, q2⟩ q4⟩
        rcases h4 : walkAll (walk dev rounds k) ((records.filter isShown).map fun e => (shownName e, recordInode e))
          (w2, fs1) with ⟨s2, r⟩
        match r with
        | .panic => rw [SM.bind_panic (h := h4)] at h; cases h
        | .err e => rw [SM.bind_err (h := h4)] at h; cases h
        | .ok none => rw [SM.bind_ok (h := h4)] at h; cases h
        | .ok (some ys) =>
          rw [SM.bind_ok (h := h4)] at h
          cases h
          obtain ⟨hG3, ho3, h5⟩ := hall _ hG2 ho1 h4
          exact ⟨hG3, ho3, xs, records, k1, k2, h5⟩

end
end MdRecover
