import Verif.Spec.Rescue
import Verif.Lemmas.FrontList
import Verif.Lemmas.Salvage

/-! A program that saves as much as it can. -/

namespace MdRecover
open MdSpec

theorem kept_listed (es : List DirEntry) : kept es = es.filterMap listed := by
  induction es with
  | nil => rfl
  | cons e es ih =>
    unfold kept at ih ⊢
    by_cases h : e.inode ≠ 0 ∧ isDots e.name.bytes = false
    · rw [List.filter_cons_of_pos (by simpa using h), List.map_cons, ih,
        List.filterMap_cons_some (show listed e = some (e.name.bytes, e.inode) from if_pos h)]
    · rw [List.filter_cons_of_neg (by simpa using h), ih,
        List.filterMap_cons_none (show listed e = none from if_neg h)]

theorem kept_shown (q : List Bytes) :
    kept (q.map DirEntry.mk) = (q.filter isShown).map fun e => (shownName e, recordInode e) := by
  rw [kept_listed, listed_shown]

section
variable [Build] {W D : Type} {F : Prop} {dev : StreamDev W D} {G : W → Prop} {Is : D → Bytes → Prop}
  {At : W → D → Nat → Prop}

/-! ## No panics, and what was read is there -/

theorem readFront_safe (hv : VolumeSpec F dev G Is At) {c : Bytes} (hc : c.length < U64) {i : Inode}
    (hsize : i.fileSizeBytes ≤ (U32 - 1) * blockSizeOf (sbOf c)) (rounds bs : Nat) :
    ∀ (k : Nat) {s : W × Ext4File D}, Ext4File.Inv Is G c (AllFit c) i s →
      ∃ s' q e, readFront dev rounds bs k s = (s', .ok (q, e)) ∧ Ext4File.Inv Is G c (AllFit c) i s' ∧
        (e = true → readBlocks dev rounds bs k s = (s', .ok (some q))) ∧
        ∀ {s0 : W × Ext4File D} {h : List (Bytes × Res (Nat × Bytes))}, Calls dev s0 h s →
          ∃ g s2, Calls dev s0 (h ++ g) s2 ∧ (∀ y ∈ g, y.1 = zeros bs) ∧ q = dataOf g := by
  intro k
  induction k with
  | zero =>
    exact fun {s} hi => ⟨s, [], false, rfl, hi, fun h => (by cases h), fun {s0 h} hcalls =>
      ⟨[], s, by rw [List.append_nil]; exact hcalls, fun y hy => (by cases hy), rfl⟩⟩
  | succ k ih =>
    intro s hi
    obtain ⟨h1, h2⟩ := Ext4File.readNextBlock_safe hv hc hsize (zeros bs) rounds hi
    rcases h3 : Ext4File.readNextBlock dev rounds (zeros bs) s with ⟨s1, r⟩
    rw [h3] at h1 h2
    match r with
    | .panic => exact absurd rfl h2
    | .err e =>
      exact ⟨s1, [], false, readFront_err h3, h1, fun h => (by cases h), fun {s0 h} hcalls =>
        ⟨[], s, by rw [List.append_nil]; exact hcalls, fun y hy => (by cases hy), rfl⟩⟩
    | .ok none =>
      refine ⟨s1, [], false, ?_, h1, fun h => (by cases h), fun {s0 h} hcalls =>
        ⟨[], s, by rw [List.append_nil]; exact hcalls, fun y hy => (by cases hy), rfl⟩⟩
      rw [readFront, SM.bind_ok (h := attempt_ok h3)]
      rfl
    | .ok (some (n, b)) =>
      by_cases hn : n = 0
      · subst hn
        refine ⟨s1, [], true, readFront_zero h3, h1, fun _ => ?_, fun {s0 h} hcalls =>
          ⟨[], s, by rw [List.append_nil]; exact hcalls, fun y hy => (by cases hy), rfl⟩⟩
        rw [readBlocks, SM.bind_ok (h := h3)]
        rfl
      · obtain ⟨s2, q, e, g1, g2, g3, g4⟩ := ih h1
        refine ⟨s2, b.take n ++ q, e, readFront_block h3 hn g1, g2, fun he => ?_, fun {s0 h} hcalls => ?_⟩
        · rw [readBlocks, SM.bind_ok (h := h3)]
          simp only [if_neg hn]
          rw [SM.bind_ok (h := g3 he)]
          rfl
        · have hcalls1 := Calls.snoc _ _ _ _ (zeros bs) (.ok (n, b)) hcalls ⟨rounds, h3⟩ (fun h => (by cases h))
          obtain ⟨g, s3, j1, j2, rfl⟩ := g4 hcalls1
          refine ⟨(zeros bs, .ok (n, b)) :: g, s3, by simpa using j1, fun y hy => ?_, rfl⟩
          rcases List.mem_cons.1 hy with rfl | hy
          · rfl
          · exact j2 y hy

theorem listFront_safe (hv : VolumeSpec F dev G Is At) {c : Bytes} (hc : c.length < U64) {i : Inode}
    (hsize : i.fileSizeBytes ≤ (U32 - 1) * blockSizeOf (sbOf c)) (rounds : Nat) :
    ∀ (k : Nat) {s : W × Ext4Directory D}, Ext4Directory.Inv Is G c (AllFit c) i s →
      ∃ s' q e, listFront dev rounds k s = (s', .ok (q, e)) ∧ Ext4Directory.Inv Is G c (AllFit c) i s' ∧
        (e = true → listAll dev rounds k s = (s', .ok (some (q.filterMap listed)))) ∧
        ∀ {s0 : W × Ext4Directory D} {h : List (Res (Option DirEntry))}, DirCalls dev s0 h s →
          ∃ s2, DirCalls dev s0 (h ++ q.map fun e => .ok (some e)) s2 := by
  intro k
  induction k with
  | zero =>
    exact fun {s} hi => ⟨s, [], false, rfl, hi, fun h => (by cases h), fun {s0 h} hcalls =>
      ⟨s, by rw [List.map_nil, List.append_nil]; exact hcalls⟩⟩
  | succ k ih =>
    intro s hi
    obtain ⟨h1, h2⟩ := Ext4Directory.readNextEntry_safe hv hc hsize rounds hi
    rcases h3 : Ext4Directory.readNextEntry dev rounds s with ⟨s1, r⟩
    rw [h3] at h1 h2
    match r with
    | .panic => exact absurd rfl h2
    | .err e =>
      exact ⟨s1, [], false, listFront_err h3, h1, fun h => (by cases h), fun {s0 h} hcalls =>
        ⟨s, by rw [List.map_nil, List.append_nil]; exact hcalls⟩⟩
    | .ok none =>
      refine ⟨s1, [], false, ?_, h1, fun h => (by cases h), fun {s0 h} hcalls =>
        ⟨s, by rw [List.map_nil, List.append_nil]; exact hcalls⟩⟩
      rw [listFront, SM.bind_ok (h := attempt_ok h3)]
      rfl
    | .ok (some none) =>
      refine ⟨s1, [], true, listFront_none h3, h1, fun _ => ?_, fun {s0 h} hcalls =>
        ⟨s, by rw [List.map_nil, List.append_nil]; exact hcalls⟩⟩
      rw [listAll, SM.bind_ok (h := h3)]
      rfl
    | .ok (some (some x)) =>
      obtain ⟨s2, q, e, g1, g2, g3, g4⟩ := ih h1
      refine ⟨s2, x :: q, e, listFront_entry h3 g1, g2, fun he => ?_, fun {s0 h} hcalls => ?_⟩
      · rw [listAll, SM.bind_ok (h := h3)]
        simp only
        rw [SM.bind_ok (h := g3 he)]
        by_cases hx : x.inode ≠ 0 ∧ isDots x.name.bytes = false
        · rw [List.filterMap_cons_some (show listed x = some (x.name.bytes, x.inode) from if_pos hx)]
          simp only [if_pos hx]
          rfl
        · rw [List.filterMap_cons_none (show listed x = none from if_neg hx)]
          simp only [if_neg hx]
          rfl
      · have hcalls1 := DirCalls.snoc _ _ _ _ (.ok (some x)) hcalls ⟨rounds, h3⟩ (fun h => (by cases h))
        obtain ⟨s3, j1⟩ := g4 hcalls1
        exact ⟨s3, by simpa using j1⟩

/-- Entries that calls have returned are records of the directory, from the first one on. -/
theorem dirCalls_backed (hv : VolumeSpec F dev G Is At) {c : Bytes} (hc : c.length < U64) {n : Nat}
    (hcount : BlocksCounted c (sizeOf c n))
    {w w1 : W} {fs fs1 : Ext4Fs D} (hG : G w) (ho : Opened Is c fs)
    {d : Ext4Directory D} {es : List DirEntry} {s : W × Ext4Directory D}
    (hopen : Ext4Fs.openFile dev n (w, fs) = ((w1, fs1), .ok (.directory d)))
    (hcalls : DirCalls dev (w1, d) (es.map fun e => .ok (some e)) s) :
    ∃ xs records q, DirectoryStart c n xs records ∧ q <+: records ∧ es = q.map DirEntry.mk := by
  have hread := openFile_readable hv hG ho hopen
  obtain ⟨-, -, -, hG1, ho1, i, fs2, hi, ho2, t1, t2, t3, hd⟩ := C75_success hv c w w1 fs fs1 hG ho n _ hopen
  obtain ⟨-, -, e1, -, -, -, -, -, e2, -⟩ := C60_fields _ _ _ i hi
  have e1 : i.fileSizeBytes = sizeOf c n := e1
  have e2 : i.blocksBuffer = rootNode c n := e2
  have hseed := inodeSeed_of ho.superblock hi
  have hw : BlocksCounted c i.fileSizeBytes := by rw [e1]; exact hcount
  obtain ⟨f, hf⟩ : ∃ f, Ext4File.open fs2 i = .ok f := by
    unfold Ext4Directory.open at hd
    split at hd
    · cases hd
    · rcases hf : Ext4File.open fs2 i with f | e | _
      · exact ⟨f, rfl⟩
      · rw [hf] at hd; cases hd
      · rw [hf] at hd; cases hd
  rcases List.eq_nil_or_concat' es with rfl | ⟨es, e, rfl⟩
  · refine ⟨[], [], [], ⟨hread, t1, t2, t3, fun k x h => (by cases h), by simp, [], _, hseed, .nil, rfl⟩,
      List.nil_prefix, rfl⟩
  rw [List.map_append, List.map_singleton] at hcalls
  obtain ⟨g, rss, s', c1, c2, c3, c4⟩ := C72_follows hv c hc w1 hG1 fs2 ho2 i d hd hw f hf _ _ hcalls
  have hpre : (es.map fun e => Res.ok (some e)) ++ [.ok (some e)] <+: rss.flatten := by
    rcases c4 with ⟨-, c4⟩ | ⟨g', x, k', -, -, -, c4⟩
    · exact c4
    · rcases k' with _ | k'
      · rw [List.replicate_zero, List.append_nil] at c4
        rw [c4]
      · rw [List.replicate_succ', ← List.append_assoc] at c4
        have := (List.append_inj' c4 rfl).2
        simp at this
  obtain ⟨rss1, u, v, rss2, p1, p2⟩ := flatten_place rss _ hpre
  subst p1
  rw [List.append_cons] at c3
  obtain ⟨g1, g2, c5, rfl⟩ : ∃ g1 g2, List.Forall₂ (fun x rs => ReadResults i.metadataChecksumSeed
      (blockSizeOf (sbOf c)) x.2 rs) g1 (rss1 ++ [u ++ .ok (some e) :: v]) ∧ g = g1 ++ g2 := by
    refine ⟨g.take (rss1 ++ [u ++ .ok (some e) :: v]).length,
      g.drop (rss1 ++ [u ++ .ok (some e) :: v]).length, ?_, (List.take_append_drop _ _).symm⟩
    have := List.forall₂_take (rss1 ++ [u ++ .ok (some e) :: v]).length c3
    rwa [List.take_left] at this
  obtain ⟨s1, c1⟩ := calls_front c1
  have hu : ∀ r ∈ rss1.flatten ++ u, ∃ x, r = Res.ok (some x) := by
    intro r hr
    rw [← p2] at hr
    obtain ⟨x, hx, rfl⟩ := List.mem_map.1 hr
    exact ⟨x, rfl⟩
  have herr : ∀ e', Res.err e' ∉ (rss1 ++ [u ++ .ok (some e) :: v]).flatten := by
    intro e' he
    rw [List.flatten_append, List.flatten_singleton] at he
    have hnot : ∀ r ∈ rss1.flatten ++ u, r ≠ Res.err e' := by
      intro r hr
      obtain ⟨x, rfl⟩ := hu r hr
      exact fun h => (by cases h)
    rcases List.mem_append.1 he with he | he
    · exact hnot _ (List.mem_append_left _ he) rfl
    · have hl := c5.length_eq
      have hlast := (List.forall₂_iff_get.1 c5).2 rss1.length (by rw [hl]; simp) (by simp)
      have hge : (rss1 ++ [u ++ .ok (some e) :: v]).get ⟨rss1.length, by simp⟩ = u ++ .ok (some e) :: v := by
        simp
      rw [hge] at hlast
      unfold ReadResults at hlast
      split at hlast
      · rcases hlast with ⟨-, h0⟩ | ⟨-, -, ⟨-, es', -, h0⟩ | ⟨-, h0⟩⟩ | ⟨-, -, h0⟩
        · simp at h0
        · rw [h0] at he
          obtain ⟨y, -, hy⟩ := List.mem_map.1 he
          cases hy
        · have : Res.ok (some e) ∈ [Res.err ErrKind.invalidData] := by rw [← h0]; simp
          simp at this
        · have : Res.ok (some e) ∈ [Res.err ErrKind.invalidData] := by rw [← h0]; simp
          simp at this
      · rename_i e0 _
        have : Res.ok (some e) ∈ [Res.err e0] := by rw [← hlast]; simp
        simp at this
      · exact hlast
  obtain ⟨xs, -, x2, -, -, x5, x6, x7⟩ := calls_blocks hv hc hG1 ho2 hf hw c1
    (fun x hx => c2 x (List.mem_append_left _ hx))
  obtain ⟨r1, ess, d2, r3⟩ := read_records c5 herr
  rw [e1] at x5 x6
  rw [e2] at x2
  have d1 : DirectoryStart c n xs ess.flatten := by
    refine ⟨hread, t1, t2, t3, x2, x6 r1, ess, _, hseed, ?_, rfl⟩
    have hl := x7.length_eq
    have hl2 := r3.length_eq
    rw [List.forall₂_iff_get] at x7 r3 ⊢
    refine ⟨by omega, fun j hj hj2 => ?_⟩
    obtain ⟨a, ha⟩ := x7.2 j (by omega) hj
    obtain ⟨a', b, hb, k1, k2⟩ := r3.2 j (by omega) hj2
    rw [ha] at hb
    cases hb
    exact ⟨k1, k2⟩
  rw [List.flatten_append, List.flatten_singleton, ← List.append_assoc] at d2
  obtain ⟨before, rest, b0, b1, b2⟩ := List.map_eq_append_iff.1 d2.symm
  obtain ⟨e', after, rfl, b3, b4⟩ := List.map_eq_cons_iff.1 b2
  cases b3
  refine ⟨xs, _, before ++ [e'], d1, ⟨after, by rw [b0]; simp⟩, ?_⟩
  rw [List.map_append, List.map_singleton]
  congr 1
  have hinj : Function.Injective (fun e : DirEntry => (Res.ok (some e) : Res (Option DirEntry))) := by
    intro a b hab
    cases hab
    rfl
  refine List.map_injective_iff.2 hinj ?_
  rw [p2, ← b1, List.map_map]
  rfl

/-! ## The steps of the program -/

theorem rescue_file {rounds k n : Nat} {w w1 w2 : W} {fs fs1 : Ext4Fs D} {f f2 : Ext4File D} {bs : Nat}
    {q : Bytes} {e : Bool} (h1 : Ext4Fs.openFile dev n (w, fs) = ((w1, fs1), .ok (.regularFile f)))
    (hbs : f.blockSize = .ok bs) (h2 : readFront dev rounds bs rounds (w1, f) = ((w2, f2), .ok (q, e))) :
    rescue dev rounds (k + 1) n (w, fs) = ((w2, fs1), .ok (.file q e)) := by
  have ha : attempt (do let x ← Ext4Fs.openFile dev n; pure (some x)) (w, fs)
      = ((w1, fs1), .ok (some (.regularFile f))) := attempt_ok (by rw [SM.bind_ok (h := h1)]; rfl)
  have h3 : (SM.lift f.blockSize : SM (W × Ext4Fs D) Nat) (w1, fs1) = ((w1, fs1), .ok bs) := by
    rw [SM.lift_apply, hbs]
  rw [rescue, SM.bind_ok (h := ha)]
  simp only
  rw [SM.bind_ok (h := h3), SM.bind_ok (h := onHandle_eq fs1 h2)]
  rfl

theorem rescue_dir {rounds k n : Nat} {w w1 w2 : W} {fs fs1 : Ext4Fs D} {s3 : W × Ext4Fs D} {d d2 : Ext4Directory D}
    {l : List DirEntry} {e : Bool} {ys : List (Bytes × Rescued)}
    (h1 : Ext4Fs.openFile dev n (w, fs) = ((w1, fs1), .ok (.directory d)))
    (h2 : listFront dev rounds rounds (w1, d) = ((w2, d2), .ok (l, e)))
    (h3 : saveAll (rescue dev rounds k) (kept l) (w2, fs1) = (s3, .ok ys)) :
    rescue dev rounds (k + 1) n (w, fs) = (s3, .ok (.dir ys e)) := by
  have ha : attempt (do let x ← Ext4Fs.openFile dev n; pure (some x)) (w, fs)
      = ((w1, fs1), .ok (some (.directory d))) := attempt_ok (by rw [SM.bind_ok (h := h1)]; rfl)
  rw [rescue, SM.bind_ok (h := ha)]
  simp only
  rw [SM.bind_ok (h := onHandle_eq fs1 h2)]
  simp only
  rw [SM.bind_ok (h := h3)]
  rfl

/-- The program does not fail, and what it saved is there. -/
theorem rescue_safe (hv : VolumeSpec F dev G Is At) {c : Bytes} (hc : c.length < U64) (hs : HoldsWhatItDeclares c)
    (rounds : Nat) : ∀ (k n : Nat) (s : W × Ext4Fs D), (G s.1 ∧ Opened Is c s.2) →
      ∃ s' y, rescue dev rounds k n s = (s', .ok y) ∧ (G s'.1 ∧ Opened Is c s'.2) ∧ RescuedFound c k n y := by
  intro k
  induction k with
  | zero => exact fun n s h => ⟨s, .lost, rfl, h, trivial⟩
  | succ k ih =>
    rintro n ⟨w, fs⟩ ⟨hG, ho⟩
    obtain ⟨w1, fs1, r, h1, hG1, ho1, h2, h3⟩ := Ext4Fs.openFile_safe hv hs hG ho n
    have hcount : InodeReadable c n → HasTree c n → BlocksCounted c (sizeOf c n) := fun hr ht =>
      .inr (hs.sizes n ⟨ho.long, ho.readable, hr.pos, hr.le, hr.group, .inr hr.inside⟩ ht)
    match r with
    | .panic => exact absurd rfl h2
    | .err e =>
      refine ⟨(w1, fs1), .lost, ?_, ⟨hG1, ho1⟩, trivial⟩
      have ha : attempt (do let x ← Ext4Fs.openFile dev n; pure (some x)) (w, fs) = ((w1, fs1), .ok none) :=
        attempt_err (by rw [SM.bind_err (h := h1)])
      rw [rescue, SM.bind_ok (h := ha)]
      rfl
    | .ok (.unsupported t) =>
      have hread := openFile_readable hv hG ho h1
      obtain ⟨-, -, -, -, -, i, fs2, -, -, t1, t2, -⟩ := C75_success hv c w w1 fs fs1 hG ho n _ h1
      refine ⟨(w1, fs1), .other, ?_, ⟨hG1, ho1⟩, hread, t1, t2⟩
      have ha : attempt (do let x ← Ext4Fs.openFile dev n; pure (some x)) (w, fs)
          = ((w1, fs1), .ok (some (.unsupported t))) := attempt_ok (by rw [SM.bind_ok (h := h1)]; rfl)
      rw [rescue, SM.bind_ok (h := ha)]
      rfl
    | .ok (.regularFile f) =>
      have hread := openFile_readable hv hG ho h1
      obtain ⟨-, -, -, -, -, i', fs2, hi', ho2, t1, t2, hf, -⟩ := C75_success hv c w w1 fs fs1 hG ho n _ h1
      obtain ⟨i, hsize, hinv⟩ := h3 _ rfl (.file f) (by simp [ofOpened])
      have hi := hinv w1 hG1
      have hbs := Ext4File.blockSize_eq hi.opened
      obtain ⟨⟨w2, f2⟩, q, e, g1, g2, g3, g4⟩ := readFront_safe hv hc hsize rounds (blockSizeOf (sbOf c)) rounds hi
      refine ⟨_, _, rescue_file h1 hbs g1, ⟨g2.good, ho1⟩, hread, t1, t2, ?_⟩
      obtain ⟨g, s2, j1, j2, j3⟩ := g4 (.nil (w1, f))
      obtain ⟨-, -, e1, -, -, -, -, -, e2, -⟩ := C60_fields _ _ _ i' hi'
      have e1 : i'.fileSizeBytes = sizeOf c n := e1
      have e2 : i'.blocksBuffer = rootNode c n := e2
      obtain ⟨xs, -, x2, x3, -⟩ := calls_blocks hv hc hG1 ho2 hf (by rw [e1]; exact hcount hread ⟨.inl t1, t2⟩) j1 j2
      rw [e1] at x3
      rw [e2] at x2
      exact ⟨xs, x2, by rw [j3, ← x3]; rfl, fun he =>
        (readBlocks_backed hv hc (hcount hread ⟨.inl t1, t2⟩) hG ho h1 (g3 he)).2.2⟩
    | .ok (.directory d) =>
      have hread := openFile_readable hv hG ho h1
      obtain ⟨-, -, -, -, -, i', fs2, -, -, t1, t2, t3, -⟩ := C75_success hv c w w1 fs fs1 hG ho n _ h1
      obtain ⟨i, hsize, hinv⟩ := h3 _ rfl (.dir d) (by simp [ofOpened])
      have hi := hinv w1 hG1
      obtain ⟨⟨w2, d2⟩, l, e, g1, g2, g3, g4⟩ := listFront_safe hv hc hsize rounds rounds hi
      obtain ⟨s3, ys, h5, hs3, h6⟩ := saveAll_each (I := fun s => G s.1 ∧ Opened Is c s.2)
        (go := rescue dev rounds k) (fun n s hs => by
          obtain ⟨s', y, q1, q2, -⟩ := ih n s hs
          exact ⟨s', y, q1, q2⟩) (kept l) (w2, fs1) ⟨g2.file.good, ho1⟩
      refine ⟨_, _, rescue_dir h1 g1 h5, hs3, ?_⟩
      obtain ⟨s2, j1⟩ := g4 (.nil (w1, d))
      obtain ⟨xs, records, q, k1, k2, rfl⟩ := dirCalls_backed hv hc (hcount hread ⟨.inr t1, t3⟩) hG ho h1 j1
      have hall : List.Forall₂ (fun e x => shownName e = x.1 ∧ RescuedFound c k (recordInode e) x.2)
          (q.filter isShown) ys := by
        rw [kept_shown, List.forall₂_map_left_iff] at h6
        refine h6.imp ?_
        rintro e y ⟨q1, t, t', q2, q3⟩
        obtain ⟨s', y', q4, -, q5⟩ := ih (recordInode e) t q2
        have q3 : rescue dev rounds k (recordInode e) t = (t', .ok y.2) := q3
        rw [q3] at q4
        cases q4
        exact ⟨q1, q5⟩
      cases e with
      | false => exact ⟨xs, records, q, k1, k2, fun h => (by cases h), hall⟩
      | true =>
        obtain ⟨-, -, xs', records', m1, m2, m3⟩ :=
          listAll_backed hv hc (hcount hread ⟨.inr t1, t3⟩) hG ho h1 (g3 rfl)
        refine ⟨xs', records', records', m1, List.prefix_rfl, fun _ => ⟨rfl, m2⟩, ?_⟩
        rw [listed_shown] at m3
        clear h5 g1 g3 g4 j1 k1 k2 h6 m1 m2
        generalize records'.filter isShown = a at m3 ⊢
        generalize q.filter isShown = b at m3 hall
        induction hall generalizing a with
        | nil =>
          cases a with
          | nil => exact .nil
          | cons _ _ => cases m3
        | cons hx _ ih =>
          cases a with
          | nil => cases m3
          | cons y a =>
            obtain ⟨m4, m5⟩ := List.cons.inj m3
            obtain ⟨m6, m7⟩ := Prod.mk.inj m4
            exact .cons ⟨m6.symm.trans hx.1, by rw [← m7]; exact hx.2⟩ (ih a m5)

/-! ## The bound on the loops -/

section
variable {W2 D2 : Type} {dev2 : StreamDev W2 D2} {G2 : W2 → Prop} {Is2 : D2 → Bytes → Prop}
  {At2 : W2 → D2 → Nat → Prop} {lim lim2 : Nat → Nat} {c : Bytes}

theorem readFront_stable (h1 : SeekableVolume F lim dev G Is At) (h2 : SeekableVolume False lim2 dev2 G2 Is2 At2)
    (hlim : Ext4Sim.Lims F lim lim2 c) (rounds bs : Nat) : ∀ (k : Nat) {s : W × Ext4File D} {t t' : W2 × Ext4File D2}
      {b : Bytes}, Ext4Sim.Both G G2 (Ext4Sim.Fl Is Is2 c) s t → readBlocks dev2 rounds bs k t = (t', .ok (some b)) →
      ∃ N, ∀ R, N ≤ R → ∀ K, k ≤ K → readFront dev R bs K s = readFront dev rounds bs k s := by
  intro k
  induction k with
  | zero => intro s t t' b _ h; cases h
  | succ k ih =>
    intro s t t' b hb hr
    have key : ∀ {s1 : W × Ext4File D} {a : Res (Option (Nat × Bytes))},
        Ext4File.readNextBlock dev rounds (zeros bs) s = (s1, a) → a ≠ .ok none → ∀ R, rounds ≤ R →
        Ext4File.readNextBlock dev R (zeros bs) s = (s1, a) := by
      intro s1 a h hn R hR
      obtain ⟨j, rfl⟩ := Nat.exists_eq_add_of_le hR
      exact Ext4File.readNextBlock_more h hn j
    rcases Ext4Sim.readNextBlock h1 h2 hlim rounds (zeros bs) s t hb with ⟨s1, t1, a1, a2, e1, e2, rfl, hb1⟩ |
      ⟨s1, t1, e, e1, e2, -⟩ | ⟨s1, t1, e1, e2, -⟩ | ⟨-, s1, e, e1, -⟩
    · rw [readBlocks, SM.bind_ok (h := e2)] at hr
      match a1 with
      | none => cases hr
      | some (n, x) =>
        have k1 := key e1 (fun h => (by cases h))
        by_cases hn : n = 0
        · subst hn
          refine ⟨rounds, fun R hR K hK => ?_⟩
          obtain ⟨K, rfl⟩ : ∃ j, K = j + 1 := ⟨K - 1, by omega⟩
          rw [readFront_zero e1, readFront_zero (k1 R hR)]
        · simp only [if_neg hn] at hr
          rcases hr2 : readBlocks dev2 rounds bs k t1 with ⟨t2, r2⟩
          match r2 with
          | .panic => rw [SM.bind_panic (h := hr2)] at hr; cases hr
          | .err e => rw [SM.bind_err (h := hr2)] at hr; cases hr
          | .ok none => rw [SM.bind_ok (h := hr2)] at hr; cases hr
          | .ok (some b2) =>
            obtain ⟨N, h3⟩ := ih hb1 hr2
            refine ⟨N + rounds, fun R hR K hK => ?_⟩
            obtain ⟨K, rfl⟩ : ∃ j, K = j + 1 := ⟨K - 1, by omega⟩
            rw [readFront, readFront, SM.bind_ok (h := attempt_ok e1),
              SM.bind_ok (h := attempt_ok (k1 R (by omega)))]
            simp only [if_neg hn]
            exact SM.bind_congr (h3 R (by omega) K (by omega)) fun _ _ _ => rfl
    · rw [readBlocks, SM.bind_err (h := e2)] at hr; cases hr
    · rw [readBlocks, SM.bind_panic (h := e2)] at hr; cases hr
    · have k1 := key e1 (fun h => (by cases h))
      refine ⟨rounds, fun R hR K hK => ?_⟩
      obtain ⟨K, rfl⟩ : ∃ j, K = j + 1 := ⟨K - 1, by omega⟩
      rw [readFront_err e1, readFront_err (k1 R hR)]

theorem listFront_stable (h1 : SeekableVolume F lim dev G Is At) (h2 : SeekableVolume False lim2 dev2 G2 Is2 At2)
    (hlim : Ext4Sim.Lims F lim lim2 c) (rounds : Nat) : ∀ (k : Nat) {s : W × Ext4Directory D}
      {t t' : W2 × Ext4Directory D2} {l : List (Bytes × Nat)}, Ext4Sim.Both G G2 (Ext4Sim.Dr Is Is2 c) s t →
      listAll dev2 rounds k t = (t', .ok (some l)) →
      ∃ N, ∀ R, N ≤ R → ∀ K, k ≤ K → listFront dev R K s = listFront dev rounds k s := by
  intro k
  induction k with
  | zero => intro s t t' b _ h; cases h
  | succ k ih =>
    intro s t t' b hb hr
    have key : ∀ {s1 : W × Ext4Directory D} {a : Res (Option DirEntry)},
        Ext4Directory.readNextEntry dev rounds s = (s1, some <$> a) → ∃ N, ∀ R, N ≤ R →
        Ext4Directory.readNextEntry dev R s = (s1, some <$> a) := fun {s1 a} h =>
      Ext4Directory.entryReturns_enough ⟨rounds, h⟩
    rcases Ext4Sim.readNextEntry h1 h2 hlim rounds s t hb with ⟨s1, t1, a1, a2, e1, e2, rfl, hb1⟩ |
      ⟨s1, t1, e, e1, e2, -⟩ | ⟨s1, t1, e1, e2, -⟩ | ⟨-, s1, e, e1, -⟩
    · rw [listAll, SM.bind_ok (h := e2)] at hr
      match a1 with
      | none => cases hr
      | some none =>
        obtain ⟨N, k1⟩ := key (a := .ok none) e1
        refine ⟨N, fun R hR K hK => ?_⟩
        obtain ⟨K, rfl⟩ : ∃ j, K = j + 1 := ⟨K - 1, by omega⟩
        rw [listFront_none e1, listFront_none (k1 R hR)]
      | some (some x) =>
        obtain ⟨N1, k1⟩ := key (a := .ok (some x)) e1
        simp only at hr
        rcases hr2 : listAll dev2 rounds k t1 with ⟨t2, r2⟩
        match r2 with
        | .panic => rw [SM.bind_panic (h := hr2)] at hr; cases hr
        | .err e => rw [SM.bind_err (h := hr2)] at hr; cases hr
        | .ok none => rw [SM.bind_ok (h := hr2)] at hr; split at hr <;> cases hr
        | .ok (some b2) =>
          obtain ⟨N, h3⟩ := ih hb1 hr2
          refine ⟨N + N1, fun R hR K hK => ?_⟩
          obtain ⟨K, rfl⟩ : ∃ j, K = j + 1 := ⟨K - 1, by omega⟩
          rw [listFront, listFront, SM.bind_ok (h := attempt_ok e1),
            SM.bind_ok (h := attempt_ok (k1 R (by omega)))]
          exact SM.bind_congr (h3 R (by omega) K (by omega)) fun _ _ _ => rfl
    · rw [listAll, SM.bind_err (h := e2)] at hr; cases hr
    · rw [listAll, SM.bind_panic (h := e2)] at hr; cases hr
    · obtain ⟨N, k1⟩ := key (a := .err e) e1
      refine ⟨N, fun R hR K hK => ?_⟩
      obtain ⟨K, rfl⟩ : ∃ j, K = j + 1 := ⟨K - 1, by omega⟩
      rw [listFront_err e1, listFront_err (k1 R hR)]

end

/-! ## Nothing else is needed -/

/-- As much as can be read is saved of a file, whatever else cannot be read. -/
theorem file_rescued {c : Bytes} (hop : Ext4Openable c) (hl : c.length < 2 ^ 57) (hs : HoldsWhatItDeclares c)
    {n : Nat} {content : Bytes} (hf : FileAt c n content) :
    ∃ N, ∀ {W D : Type} {bad : Nat → Prop} {lim : Nat → Nat} {dev : StreamDev W D} {G : W → Prop}
      {Is : D → Bytes → Prop} {At : W → D → Nat → Prop}, PatchyVolume bad lim dev G Is At →
      c.length ≤ lim c.length → lim c.length ≤ U64 → Intact bad c (inodeSlot c n) (le (sbOf c) 0x58 2) →
      NodesIntact bad c n → ∀ rounds, N ≤ rounds →
      ∀ k, ∀ s : W × Ext4Fs D, (G s.1 ∧ Opened Is c s.2) →
        ∃ s' y, rescue dev rounds (k + 1) n s = (s', .ok y) ∧ RescuedFront bad c n y := by
  have hc : c.length < U64 := by omega
  obtain ⟨-, fs0, -, -, ho0⟩ := open_opened InMemory.volumeSpec (w := ()) (d := InMemory.new c 512) trivial rfl hop hl
  obtain ⟨v1, fs01, f0, v2, f02, N, m1, -, -, -, m2⟩ := file_read InMemory.volumeSpec hc (w := ()) trivial ho0 hf
  refine ⟨N, fun {W D bad lim dev G Is At} hv hlim hlim2 hslot hnodes rounds hr k => ?_⟩
  rintro ⟨w, fs⟩ ⟨hG, ho⟩
  have m2 := m2 rounds hr
  have ha := hv.agree hc hlim
  have ho' := (opened_same (Is := Is)).2 ho
  obtain ⟨N2, s2, q, e, h2⟩ := followFront_file ha (patched_or dev At c) hc hG ho' hf hslot hnodes
  obtain ⟨w1, fs1, r, h1, hG1, ho1, -, h3⟩ := Ext4Fs.openFile_safe hv.toVolumeSpec hs hG ho n
  rcases Ext4Sim.openFile hv.toSeekableVolume InMemory.seekableVolume (c := c) (.inr ⟨trivial, hlim2⟩) n (w, fs)
    ((), fs0) ⟨⟨hG, trivial⟩, opened_related ho ho0⟩ with ⟨t1, t2, a1, a2, e1, e2, hop', hb⟩ | ⟨t1, t2, e, e1, e2, -⟩ |
    ⟨t1, t2, e1, e2, -⟩ | ⟨-, t1, e, e1, -⟩
  rotate_left
  · rw [m1] at e2; cases e2
  · rw [m1] at e2; cases e2
  · have h4 := (h2 N2 (Nat.le_refl _)).1
    rw [followFront, SM.bind_err (h := e1)] at h4
    cases h4
  rw [m1] at e2
  cases e2
  match a1, hop' with
  | .regularFile f, hfl =>
    rw [h1] at e1
    cases e1
    obtain ⟨i, hsize, hinv⟩ := h3 _ rfl (.file f) (by simp [ofOpened])
    have hi := hinv w1 hG1
    have hfl : Ext4Sim.Fl Is _ c f f0 := hfl
    have hbs := Ext4File.blockSize_eq hi.opened
    obtain ⟨N3, h5⟩ := readFront_stable hv.toSeekableVolume InMemory.seekableVolume (c := c) (.inr ⟨trivial, hlim2⟩)
      rounds (blockSizeOf (sbOf c)) rounds (s := (w1, f)) (t := ((), f0)) ⟨⟨hG1, trivial⟩, hfl⟩ m2
    obtain ⟨⟨w3, f3⟩, q', e', g1, -⟩ := readFront_safe hv.toVolumeSpec hc hsize rounds (blockSizeOf (sbOf c)) rounds hi
    refine ⟨_, _, rescue_file h1 hbs g1, content, hf, ?_⟩
    have h6 := h5 (N2 + N3 + rounds) (by omega) (N2 + N3 + rounds) (by omega)
    rw [g1] at h6
    obtain ⟨h7, h8⟩ := h2 (N2 + N3 + rounds) (by omega)
    have h9 : (SM.lift f.blockSize : SM (W × Ext4Fs D) Nat) (w1, fs1) = ((w1, fs1), .ok (blockSizeOf (sbOf c))) := by
      rw [SM.lift_apply, hbs]
    rw [followFront, SM.bind_ok (h := h1)] at h7
    simp only at h7
    rw [SM.bind_ok (h := h9), SM.bind_ok (h := onHandle_eq fs1 h6)] at h7
    cases h7
    exact h8

/-- As much as can be read is saved of a directory, whatever else cannot be read. -/
theorem directory_rescued {c : Bytes} (hop : Ext4Openable c) (hl : c.length < 2 ^ 57) (hs : HoldsWhatItDeclares c)
    {n : Nat} {records : List Bytes} (hd : DirectoryAt c n records) :
    ∃ N, ∀ {W D : Type} {bad : Nat → Prop} {lim : Nat → Nat} {dev : StreamDev W D} {G : W → Prop}
      {Is : D → Bytes → Prop} {At : W → D → Nat → Prop}, PatchyVolume bad lim dev G Is At →
      c.length ≤ lim c.length → lim c.length ≤ U64 → Intact bad c (inodeSlot c n) (le (sbOf c) 0x58 2) →
      NodesIntact bad c n → ∀ rounds, N ≤ rounds →
      ∀ k, ∀ s : W × Ext4Fs D, (G s.1 ∧ Opened Is c s.2) →
        ∃ s' ys q e, rescue dev rounds (k + 1) n s = (s', .ok (.dir ys e)) ∧
          List.Forall₂ (fun x y => x.1 = y.1 ∧ ∃ t t', (G t.1 ∧ Opened Is c t.2) ∧
            rescue dev rounds k x.2 t = (t', .ok y.2)) (kept (q.map DirEntry.mk)) ys ∧
          q <+: records ∧ (e = true → q = records) ∧
          (∀ m es, FrontIntact bad c n m → FrontRecords c n m es → es <+: q) ∧
          ((∀ m, FrontIntact bad c n m) → e = true) := by
  have hc : c.length < U64 := by omega
  obtain ⟨-, fs0, -, -, ho0⟩ := open_opened InMemory.volumeSpec (w := ()) (d := InMemory.new c 512) trivial rfl hop hl
  obtain ⟨v1, fs01, d0, i0, m1, -, mleft⟩ := directory_left InMemory.volumeSpec hc (w := ()) trivial ho0 hd
  obtain ⟨t0, N, -, m2⟩ := listAll_left InMemory.volumeSpec hc (records.map DirEntry.mk) (v1, d0)
    (by rw [List.map_map]; exact mleft)
  refine ⟨N + records.length + 1, fun {W D bad lim dev G Is At} hv hlim hlim2 hslot hnodes rounds hr k => ?_⟩
  rintro ⟨w, fs⟩ ⟨hG, ho⟩
  have m2 := m2 rounds (by omega) rounds (by rw [List.length_map]; omega)
  have ha := hv.agree hc hlim
  have ho' := (opened_same (Is := Is)).2 ho
  obtain ⟨N2, s2, q, e, h2⟩ := followList_end ha (patched_or dev At c) hc hG ho' hd hslot hnodes
  obtain ⟨w1, fs1, r, h1, hG1, ho1, -, h3⟩ := Ext4Fs.openFile_safe hv.toVolumeSpec hs hG ho n
  rcases Ext4Sim.openFile hv.toSeekableVolume InMemory.seekableVolume (c := c) (.inr ⟨trivial, hlim2⟩) n (w, fs)
    ((), fs0) ⟨⟨hG, trivial⟩, opened_related ho ho0⟩ with ⟨t1, t2, a1, a2, e1, e2, hop', hb⟩ | ⟨t1, t2, e, e1, e2, -⟩ |
    ⟨t1, t2, e1, e2, -⟩ | ⟨-, t1, e, e1, -⟩
  rotate_left
  · rw [m1] at e2; cases e2
  · rw [m1] at e2; cases e2
  · have h4 := (h2 N2 (Nat.le_refl _)).1
    rw [followList, SM.bind_err (h := e1)] at h4
    cases h4
  rw [m1] at e2
  cases e2
  match a1, hop' with
  | .directory d, hdr =>
    rw [h1] at e1
    cases e1
    obtain ⟨i, hsize, hinv⟩ := h3 _ rfl (.dir d) (by simp [ofOpened])
    have hi := hinv w1 hG1
    have hdr : Ext4Sim.Dr Is _ c d d0 := hdr
    obtain ⟨N3, h5⟩ := listFront_stable hv.toSeekableVolume InMemory.seekableVolume (c := c) (.inr ⟨trivial, hlim2⟩)
      rounds rounds (s := (w1, d)) (t := ((), d0)) ⟨⟨hG1, trivial⟩, hdr⟩ m2
    obtain ⟨⟨w3, d3⟩, l, e', g1, g2, -⟩ := listFront_safe hv.toVolumeSpec hc hsize rounds rounds hi
    have h6 := h5 (N2 + N3 + rounds) (by omega) (N2 + N3 + rounds) (by omega)
    rw [g1] at h6
    obtain ⟨h7, h8⟩ := h2 (N2 + N3 + rounds) (by omega)
    rw [followList, SM.bind_ok (h := h1)] at h7
    simp only at h7
    rw [SM.bind_ok (h := onHandle_eq fs1 h6)] at h7
    cases h7
    obtain ⟨s3, ys, j1, -, j2⟩ := saveAll_each (I := fun s => G s.1 ∧ Opened Is c s.2)
      (go := rescue dev rounds k) (fun n s hgood => by
        obtain ⟨s', y, q1, q2, -⟩ := rescue_safe hv.toVolumeSpec hc hs rounds k n s hgood
        exact ⟨s', y, q1, q2⟩) (kept (q.map DirEntry.mk)) (w3, fs1) ⟨g2.file.good, ho1⟩
    exact ⟨s3, ys, q, e, rescue_dir h1 g1 j1, j2, h8⟩

/-- The program saves what is at the end of these names from inode `n` on, inode `m`, where the condition `ok` on
what cannot be read is met. -/
def Rescues (c : Bytes) (ok : (Nat → Prop) → Prop) (n : Nat) (names : List Bytes) (m : Nat) : Prop :=
  ∃ N, ∀ {W D : Type} {bad : Nat → Prop} {lim : Nat → Nat} {dev : StreamDev W D} {G : W → Prop}
    {Is : D → Bytes → Prop} {At : W → D → Nat → Prop}, PatchyVolume bad lim dev G Is At →
    c.length ≤ lim c.length → lim c.length ≤ U64 → ok bad → ∀ rounds, N ≤ rounds →
    ∀ depth, names.length < depth → ∀ s : W × Ext4Fs D, (G s.1 ∧ Opened Is c s.2) →
      ∃ s' y z, rescue dev rounds depth n s = (s', .ok y) ∧ rescuedAt y names = some z ∧ RescuedFront bad c m z

/-- What can be saved at an inode. -/
theorem rescues_end {c : Bytes} (hop : Ext4Openable c) (hl : c.length < 2 ^ 57) (hs : HoldsWhatItDeclares c) {n : Nat}
    (hn : (∃ content, FileAt c n content) ∨ ∃ records, DirectoryAt c n records) :
    Rescues c (fun bad => Intact bad c (inodeSlot c n) (le (sbOf c) 0x58 2) ∧ NodesIntact bad c n) n [] n := by
  rcases hn with ⟨content, hf⟩ | ⟨records, hd⟩
  · obtain ⟨N, h⟩ := file_rescued hop hl hs hf
    refine ⟨N, fun {W D bad lim dev G Is At} hv hlim hlim2 hok rounds hr depth hdep s hgood => ?_⟩
    obtain ⟨depth, rfl⟩ : ∃ j, depth = j + 1 := ⟨depth - 1, by omega⟩
    obtain ⟨s', y, h1, h2⟩ := h hv hlim hlim2 hok.1 hok.2 rounds hr depth s hgood
    exact ⟨s', y, y, h1, by rw [rescuedAt], h2⟩
  · obtain ⟨N, h⟩ := directory_rescued hop hl hs hd
    refine ⟨N, fun {W D bad lim dev G Is At} hv hlim hlim2 hok rounds hr depth hdep s hgood => ?_⟩
    obtain ⟨depth, rfl⟩ : ∃ j, depth = j + 1 := ⟨depth - 1, by omega⟩
    obtain ⟨s', ys, q, e, h1, h2, h3⟩ := h hv hlim hlim2 hok.1 hok.2 rounds hr depth s hgood
    refine ⟨s', _, .dir ys e, h1, by rw [rescuedAt], records, q, hd, ?_, h3⟩
    rw [kept_shown, List.forall₂_map_left_iff] at h2
    clear h1 h3
    generalize q.filter isShown = l at h2 ⊢
    induction h2 with
    | nil => rfl
    | cons hx _ ih => rw [List.map_cons, List.map_cons, ih, ← hx.1]

theorem rescues_leads {c : Bytes} (hop : Ext4Openable c) (hl : c.length < 2 ^ 57) (hs : HoldsWhatItDeclares c)
    {n m : Nat} {names : List Bytes} (hle : Leads c CleanName n names m) :
    (∀ name ∈ names, isDots name = false) →
    ((∃ content, FileAt c m content) ∨ ∃ records, DirectoryAt c m records) →
    Rescues c (fun bad => (∀ f name r k, names = f ++ name :: r → Leads c CleanName n f k → EntryIntact bad c k name) ∧
      Intact bad c (inodeSlot c m) (le (sbOf c) 0x58 2) ∧ NodesIntact bad c m) n names m := by
  induction hle with
  | here n =>
    intro _ hm
    obtain ⟨N, h⟩ := rescues_end hop hl hs hm
    exact ⟨N, fun hv hlim hlim2 hint => h hv hlim hlim2 hint.2⟩
  | into n m name names before after e hd hn hb hcl hle ih =>
    intro hdots hm
    obtain ⟨N2, h2⟩ := ih (fun x hx => hdots x (List.mem_cons_of_mem _ hx)) hm
    have hname := hdots name List.mem_cons_self
    obtain ⟨N, h⟩ := directory_rescued hop hl hs hd
    refine ⟨N + N2, fun {W D bad lim dev G Is At} hv hlim hlim2 hint rounds hr depth hdep s hgood => ?_⟩
    obtain ⟨depth, rfl⟩ : ∃ j, depth = j + 1 := ⟨depth - 1, by omega⟩
    have hent := hint.1 [] name names n rfl (.here n)
    obtain ⟨s', ys, q, b, h1, h3, g1, -, g3, -⟩ := h hv hlim hlim2 hent.inode hent.nodes rounds (by omega) depth s hgood
    have hrec := directory_record hd
    have hw : ∀ x ∈ before ++ [e], (Wanted name ⟨x⟩ ↔ Names name x) := fun x hx =>
      wanted_iff (hrec x (by
        rcases List.mem_append.1 hx with h | h
        · exact List.mem_append_left _ h
        · rw [List.mem_singleton] at h; subst h; simp)) (hcl x hx)
    obtain ⟨after', rfl⟩ : ∃ after', q = before ++ e :: after' := by
      obtain ⟨j, es, e', i1, i2, i3, i4⟩ := hent.entry
      have g4 := (g3 j es i1 i2).subset i3
      have g5 : before ++ [e] <+: q := by
        refine List.prefix_of_prefix_length_le ⟨after, by simp⟩ g1 ?_
        by_contra hlt
        rw [List.length_append, List.length_singleton] at hlt
        have h7 : q <+: before :=
          List.prefix_of_prefix_length_le g1 (List.prefix_append _ _) (by omega)
        exact hb e' (h7.subset g4) i4
      obtain ⟨t, rfl⟩ := g5
      exact ⟨t, by simp⟩
    have h4 : (kept ((before ++ e :: after').map DirEntry.mk)).find? (·.1 == name) = some (name, recordInode e) := by
      rw [kept_listed, find_listed hname]
      have : ((before ++ e :: after').map DirEntry.mk).find? (fun e => decide (Wanted name e)) = some ⟨e⟩ := by
        rw [List.find?_eq_some_iff_append]
        refine ⟨decide_eq_true ((hw e (by simp)).2 hn), before.map DirEntry.mk, after'.map DirEntry.mk, by simp, ?_⟩
        intro x hx
        obtain ⟨y, hy, rfl⟩ := List.mem_map.1 hx
        rw [Bool.not_eq_true', decide_eq_false_iff_not, hw y (List.mem_append_left _ hy)]
        exact hb y hy
      rw [this, Option.map_some, entry_inode]
    rcases forall₂_find h3 name with ⟨h5, -⟩ | ⟨x, y, h5, h6, t, t', q1, q2⟩
    · rw [h4] at h5; cases h5
    rw [h4] at h5
    cases h5
    obtain ⟨u, y', z, q3, q4, q5⟩ := h2 hv hlim hlim2 ⟨fun f nm r k hf hk => hint.1 (name :: f) nm r k (by rw [hf]; rfl)
      (.into n k name f before after e hd hn hb hcl hk), hint.2⟩ rounds (by omega) depth
      (by simp only [List.length_cons] at hdep; omega) t q1
    rw [q2] at q3
    cases q3
    exact ⟨s', _, z, h1, by rw [rescuedAt, h6]; exact q4, q5⟩

end
end MdRecover
