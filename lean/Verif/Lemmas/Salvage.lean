import Verif.Lemmas.NoPanic
import Verif.Lemmas.PatchyExt4
import Verif.Lemmas.TreeFound
import Verif.Spec.Salvage

namespace MdRecover
open MdSpec

theorem attempt_ok {S α : Type} {m : SM S (Option α)} {s s' : S} {a : Option α} (h : m s = (s', .ok a)) :
    attempt m s = (s', .ok a) := by
  simp only [attempt, h]

theorem attempt_err {S α : Type} {m : SM S (Option α)} {s s' : S} {e : ErrKind} (h : m s = (s', .err e)) :
    attempt m s = (s', .ok none) := by
  simp only [attempt, h]

/-- What `saveAll` returns, if each of the calls keeps a property of the state. -/
theorem saveAll_each {S α : Type} {I : S → Prop} {go : Nat → SM S α}
    (hgo : ∀ n s, I s → ∃ s' y, go n s = (s', .ok y) ∧ I s') :
    ∀ (es : List (Bytes × Nat)) (s : S), I s → ∃ s' ys, saveAll go es s = (s', .ok ys) ∧ I s' ∧
      List.Forall₂ (fun e y => e.1 = y.1 ∧ ∃ t t', I t ∧ go e.2 t = (t', .ok y.2)) es ys := by
  intro es
  induction es with
  | nil => exact fun s hs => ⟨s, [], rfl, hs, .nil⟩
  | cons e es ih =>
    intro s hs
    obtain ⟨s1, y, h1, hs1⟩ := hgo e.2 s hs
    obtain ⟨s2, ys, h2, hs2, h3⟩ := ih s1 hs1
    refine ⟨s2, (e.1, y) :: ys, ?_, hs2, .cons ⟨rfl, s, s1, hs, h1⟩ h3⟩
    rw [saveAll, SM.bind_ok (h := h1), SM.bind_ok (h := h2)]
    rfl

section
variable [Build] {W D : Type} {F : Prop} {dev : StreamDev W D} {G : W → Prop} {Is : D → Bytes → Prop}
  {At : W → D → Nat → Prop}

/-! ## No panics -/

theorem readBlocks_safe (hv : VolumeSpec F dev G Is At) {c : Bytes} (hc : c.length < U64) {i : Inode}
    (hsize : i.fileSizeBytes ≤ (U32 - 1) * blockSizeOf (sbOf c)) (rounds bs : Nat) :
    ∀ (k : Nat) {s : W × Ext4File D}, Ext4File.Inv Is G c (AllFit c) i s →
      Ext4File.Inv Is G c (AllFit c) i (readBlocks dev rounds bs k s).1 ∧
        (readBlocks dev rounds bs k s).2 ≠ .panic := by
  intro k
  induction k with
  | zero => exact fun hi => ⟨hi, fun h => (by cases h)⟩
  | succ k ih =>
    intro s hi
    obtain ⟨h1, h2⟩ := Ext4File.readNextBlock_safe hv hc hsize (zeros bs) rounds hi
    rcases h3 : Ext4File.readNextBlock dev rounds (zeros bs) s with ⟨s1, r⟩
    rw [h3] at h1 h2
    rw [readBlocks]
    match r with
    | .panic => exact absurd rfl h2
    | .err e => rw [SM.bind_err (h := h3)]; exact ⟨h1, fun h => (by cases h)⟩
    | .ok none => rw [SM.bind_ok (h := h3)]; exact ⟨h1, fun h => (by cases h)⟩
    | .ok (some (n, b)) =>
      rw [SM.bind_ok (h := h3)]
      by_cases hn : n = 0
      · simp only [if_pos hn]
        exact ⟨h1, fun h => (by cases h)⟩
      · simp only [if_neg hn]
        obtain ⟨h4, h5⟩ := ih h1
        rcases h6 : readBlocks dev rounds bs k s1 with ⟨s2, r⟩
        rw [h6] at h4 h5
        match r with
        | .panic => exact absurd rfl h5
        | .err e => rw [SM.bind_err (h := h6)]; exact ⟨h4, fun h => (by cases h)⟩
        | .ok x => rw [SM.bind_ok (h := h6)]; exact ⟨h4, fun h => (by cases h)⟩

theorem listAll_safe (hv : VolumeSpec F dev G Is At) {c : Bytes} (hc : c.length < U64) {i : Inode}
    (hsize : i.fileSizeBytes ≤ (U32 - 1) * blockSizeOf (sbOf c)) (rounds : Nat) :
    ∀ (k : Nat) {s : W × Ext4Directory D}, Ext4Directory.Inv Is G c (AllFit c) i s →
      Ext4Directory.Inv Is G c (AllFit c) i (listAll dev rounds k s).1 ∧
        (listAll dev rounds k s).2 ≠ .panic := by
  intro k
  induction k with
  | zero => exact fun hi => ⟨hi, fun h => (by cases h)⟩
  | succ k ih =>
    intro s hi
    obtain ⟨h1, h2⟩ := Ext4Directory.readNextEntry_safe hv hc hsize rounds hi
    rcases h3 : Ext4Directory.readNextEntry dev rounds s with ⟨s1, r⟩
    rw [h3] at h1 h2
    rw [listAll]
    match r with
    | .panic => exact absurd rfl h2
    | .err e => rw [SM.bind_err (h := h3)]; exact ⟨h1, fun h => (by cases h)⟩
    | .ok none => rw [SM.bind_ok (h := h3)]; exact ⟨h1, fun h => (by cases h)⟩
    | .ok (some none) => rw [SM.bind_ok (h := h3)]; exact ⟨h1, fun h => (by cases h)⟩
    | .ok (some (some e)) =>
      rw [SM.bind_ok (h := h3)]
      obtain ⟨h4, h5⟩ := ih h1
      rcases h6 : listAll dev rounds k s1 with ⟨s2, r⟩
      rw [h6] at h4 h5
      simp only
      match r with
      | .panic => exact absurd rfl h5
      | .err e => rw [SM.bind_err (h := h6)]; exact ⟨h4, fun h => (by cases h)⟩
      | .ok x => rw [SM.bind_ok (h := h6)]; exact ⟨h4, fun h => (by cases h)⟩

/-- The rest of `save` after a file was opened. -/
theorem save_file {rounds k n : Nat} {w w1 w2 : W} {fs fs1 : Ext4Fs D} {f f2 : Ext4File D} {bs : Nat}
    {r : Res (Option Bytes)} (h1 : Ext4Fs.openFile dev n (w, fs) = ((w1, fs1), .ok (.regularFile f)))
    (hbs : f.blockSize = .ok bs) (h2 : readBlocks dev rounds bs rounds (w1, f) = ((w2, f2), r)) (hr : r ≠ .panic) :
    save dev rounds (k + 1) n (w, fs) = ((w2, fs1), .ok (match r with | .ok (some b) => .file b | _ => .lost)) := by
  have ha : attempt (do let x ← Ext4Fs.openFile dev n; pure (some x)) (w, fs)
      = ((w1, fs1), .ok (some (.regularFile f))) := attempt_ok (by rw [SM.bind_ok (h := h1)]; rfl)
  have h3 : (SM.lift f.blockSize : SM (W × Ext4Fs D) Nat) (w1, fs1) = ((w1, fs1), .ok bs) := by
    rw [SM.lift_apply, hbs]
  have h4 := onHandle_eq fs1 h2
  have h5 : (do let bs ← SM.lift f.blockSize; onHandle f (readBlocks dev rounds bs rounds) :
      SM (W × Ext4Fs D) (Option Bytes)) (w1, fs1) = ((w2, fs1), r) := by
    rw [SM.bind_ok (h := h3), h4]
  rw [save, SM.bind_ok (h := ha)]
  simp only
  match r with
  | .panic => exact absurd rfl hr
  | .err e => rw [SM.bind_ok (h := attempt_err h5)]; rfl
  | .ok none => rw [SM.bind_ok (h := attempt_ok h5)]; rfl
  | .ok (some b) => rw [SM.bind_ok (h := attempt_ok h5)]; rfl

/-- The rest of `save` after a directory was opened and cannot be listed. -/
theorem save_lost {rounds k n : Nat} {w w1 w2 : W} {fs fs1 : Ext4Fs D} {d d2 : Ext4Directory D}
    {r : Res (Option (List (Bytes × Nat)))}
    (h1 : Ext4Fs.openFile dev n (w, fs) = ((w1, fs1), .ok (.directory d)))
    (h2 : listAll dev rounds rounds (w1, d) = ((w2, d2), r)) (hr : r = .ok none ∨ ∃ e, r = .err e) :
    save dev rounds (k + 1) n (w, fs) = ((w2, fs1), .ok .lost) := by
  have ha : attempt (do let x ← Ext4Fs.openFile dev n; pure (some x)) (w, fs)
      = ((w1, fs1), .ok (some (.directory d))) := attempt_ok (by rw [SM.bind_ok (h := h1)]; rfl)
  have h4 := onHandle_eq fs1 h2
  rw [save, SM.bind_ok (h := ha)]
  simp only
  rcases hr with rfl | ⟨e, rfl⟩
  · rw [SM.bind_ok (h := attempt_ok h4)]; rfl
  · rw [SM.bind_ok (h := attempt_err h4)]; rfl

/-- The rest of `save` after a directory was opened and listed. -/
theorem save_dir {rounds k n : Nat} {w w1 w2 : W} {fs fs1 : Ext4Fs D} {s3 : W × Ext4Fs D} {d d2 : Ext4Directory D}
    {l : List (Bytes × Nat)} {ys : List (Bytes × Saved)}
    (h1 : Ext4Fs.openFile dev n (w, fs) = ((w1, fs1), .ok (.directory d)))
    (h2 : listAll dev rounds rounds (w1, d) = ((w2, d2), .ok (some l)))
    (h3 : saveAll (save dev rounds k) l (w2, fs1) = (s3, .ok ys)) :
    save dev rounds (k + 1) n (w, fs) = (s3, .ok (.dir ys)) := by
  have ha : attempt (do let x ← Ext4Fs.openFile dev n; pure (some x)) (w, fs)
      = ((w1, fs1), .ok (some (.directory d))) := attempt_ok (by rw [SM.bind_ok (h := h1)]; rfl)
  have h4 := onHandle_eq fs1 h2
  rw [save, SM.bind_ok (h := ha)]
  simp only
  rw [SM.bind_ok (h := attempt_ok h4)]
  simp only
  rw [SM.bind_ok (h := h3)]
  rfl

/-- The program goes on, whatever happens, and what it saves is there. -/
theorem save_safe (hv : VolumeSpec F dev G Is At) {c : Bytes} (hc : c.length < U64) (hs : HoldsWhatItDeclares c)
    (rounds : Nat) : ∀ (k n : Nat) (s : W × Ext4Fs D), (G s.1 ∧ Opened Is c s.2) →
      ∃ s' y, save dev rounds k n s = (s', .ok y) ∧ (G s'.1 ∧ Opened Is c s'.2) ∧ SavedFound c k n y := by
  intro k
  induction k with
  | zero => exact fun n s h => ⟨s, .lost, rfl, h, trivial⟩
  | succ k ih =>
    rintro n ⟨w, fs⟩ ⟨hG, ho⟩
    obtain ⟨w1, fs1, r, h1, hG1, ho1, h2, h3⟩ := Ext4Fs.openFile_safe hv hs hG ho n
    have hcount : InodeReadable c n → HasTree c n → BlocksCounted c (sizeOf c n) := fun hr ht =>
      .inr (hs.sizes n ⟨ho.long, ho.readable, hr.pos, hr.le, hr.group, .inr hr.inside⟩ ht)
    match r with
    | .panic => exact absurd rfl h2
    | .err e =>
      refine ⟨(w1, fs1), .lost, ?_, ⟨hG1, ho1⟩, trivial⟩
      have ha : attempt (do let x ← Ext4Fs.openFile dev n; pure (some x)) (w, fs) = ((w1, fs1), .ok none) :=
        attempt_err (by rw [SM.bind_err (h := h1)])
      rw [save, SM.bind_ok (h := ha)]
      rfl
    | .ok (.unsupported t) =>
      have hread := openFile_readable hv hG ho h1
      obtain ⟨-, -, -, -, -, i, fs2, -, -, t1, t2, -⟩ := C75_success hv c w w1 fs fs1 hG ho n _ h1
      refine ⟨(w1, fs1), .other, ?_, ⟨hG1, ho1⟩, hread, t1, t2⟩
      have ha : attempt (do let x ← Ext4Fs.openFile dev n; pure (some x)) (w, fs)
          = ((w1, fs1), .ok (some (.unsupported t))) := attempt_ok (by rw [SM.bind_ok (h := h1)]; rfl)
      rw [save, SM.bind_ok (h := ha)]
      rfl
    | .ok (.regularFile f) =>
      have hread := openFile_readable hv hG ho h1
      obtain ⟨-, -, -, -, -, i', fs2, -, -, t1, t2, -⟩ := C75_success hv c w w1 fs fs1 hG ho n _ h1
      obtain ⟨i, hsize, hinv⟩ := h3 _ rfl (.file f) (by simp [ofOpened])
      have hi := hinv w1 hG1
      have hbs := Ext4File.blockSize_eq hi.opened
      obtain ⟨g1, g2⟩ := readBlocks_safe hv hc hsize rounds (blockSizeOf (sbOf c)) rounds hi
      rcases h4 : readBlocks dev rounds (blockSizeOf (sbOf c)) rounds (w1, f) with ⟨⟨w2, f2⟩, r⟩
      rw [h4] at g1 g2
      refine ⟨_, _, save_file h1 hbs h4 g2, ⟨g1.good, ho1⟩, ?_⟩
      match r with
      | .panic => exact absurd rfl g2
      | .err e => exact trivial
      | .ok none => exact trivial
      | .ok (some b) =>
        exact (readBlocks_backed hv hc (hcount hread ⟨.inl t1, t2⟩) hG ho h1 h4).2.2
    | .ok (.directory d) =>
      have hread := openFile_readable hv hG ho h1
      obtain ⟨-, -, -, -, -, i', fs2, -, -, t1, t2, t3, -⟩ := C75_success hv c w w1 fs fs1 hG ho n _ h1
      obtain ⟨i, hsize, hinv⟩ := h3 _ rfl (.dir d) (by simp [ofOpened])
      have hi := hinv w1 hG1
      obtain ⟨g1, g2⟩ := listAll_safe hv hc hsize rounds rounds hi
      rcases h4 : listAll dev rounds rounds (w1, d) with ⟨⟨w2, d2⟩, r⟩
      rw [h4] at g1 g2
      match r with
      | .panic => exact absurd rfl g2
      | .err e => exact ⟨_, _, save_lost h1 h4 (.inr ⟨e, rfl⟩), ⟨g1.file.good, ho1⟩, trivial⟩
      | .ok none => exact ⟨_, _, save_lost h1 h4 (.inl rfl), ⟨g1.file.good, ho1⟩, trivial⟩
      | .ok (some l) =>
        obtain ⟨hG2, -, xs, records, k1, k2, rfl⟩ :=
          listAll_backed hv hc (hcount hread ⟨.inr t1, t3⟩) hG ho h1 h4
        obtain ⟨s3, ys, h5, hs3, h6⟩ := saveAll_each (I := fun s => G s.1 ∧ Opened Is c s.2)
          (go := save dev rounds k) (fun n s hs => by
            obtain ⟨s', y, q1, q2, -⟩ := ih n s hs
            exact ⟨s', y, q1, q2⟩) _ (w2, fs1) ⟨hG2, ho1⟩
        refine ⟨_, _, save_dir h1 h4 h5, hs3, xs, records, k1, k2, ?_⟩
        rw [List.forall₂_map_left_iff] at h6
        refine h6.imp ?_
        rintro e y ⟨q1, t, t', q2, q3⟩
        obtain ⟨s', y', q4, -, q5⟩ := ih (recordInode e) t q2
        have q3 : save dev rounds k (recordInode e) t = (t', .ok y.2) := q3
        rw [q3] at q4
        cases q4
        exact ⟨q1, q5⟩


/-! ## Nothing else is needed -/

theorem listAll_agree {r1 r2 : Nat} (k1 : Nat) :
    ∀ (k2 : Nat) {s s1 s2 : W × Ext4Directory D} {a1 a2 : Res (Option (List (Bytes × Nat)))},
      listAll dev r1 k1 s = (s1, a1) → listAll dev r2 k2 s = (s2, a2) →
      a1 ≠ .ok none → a2 ≠ .ok none → s1 = s2 ∧ a1 = a2 := by
  induction k1 with
  | zero => intro k2 s s1 s2 a1 a2 h1 _ n1 _; cases h1; exact absurd rfl n1
  | succ k1 ih =>
    intro k2 s s1 s2 a1 a2 h1 h2 n1 n2
    cases k2 with
    | zero => cases h2; exact absurd rfl n2
    | succ k2 =>
      rcases e1 : Ext4Directory.readNextEntry dev r1 s with ⟨t1, b1⟩
      rcases e2 : Ext4Directory.readNextEntry dev r2 s with ⟨t2, b2⟩
      have m1 : b1 ≠ .ok none := by
        rintro rfl
        rw [listAll, SM.bind_ok (h := e1)] at h1
        cases h1
        exact n1 rfl
      have m2 : b2 ≠ .ok none := by
        rintro rfl
        rw [listAll, SM.bind_ok (h := e2)] at h2
        cases h2
        exact n2 rfl
      obtain ⟨rfl, rfl⟩ := readNextEntry_agree e1 e2 m1 m2
      match b1, m1 with
      | .err e, _ =>
        rw [listAll, SM.bind_err (h := e1)] at h1
        rw [listAll, SM.bind_err (h := e2)] at h2
        cases h1; cases h2
        exact ⟨rfl, rfl⟩
      | .panic, _ =>
        rw [listAll, SM.bind_panic (h := e1)] at h1
        rw [listAll, SM.bind_panic (h := e2)] at h2
        cases h1; cases h2
        exact ⟨rfl, rfl⟩
      | .ok (some none), _ =>
        rw [listAll, SM.bind_ok (h := e1)] at h1
        rw [listAll, SM.bind_ok (h := e2)] at h2
        cases h1; cases h2
        exact ⟨rfl, rfl⟩
      | .ok (some (some e)), _ =>
        rw [listAll, SM.bind_ok (h := e1)] at h1
        rw [listAll, SM.bind_ok (h := e2)] at h2
        simp only at h1 h2
        rcases f1 : listAll dev r1 k1 t1 with ⟨u1, c1⟩
        rcases f2 : listAll dev r2 k2 t1 with ⟨u2, c2⟩
        have l1 : c1 ≠ .ok none := by
          rintro rfl
          rw [SM.bind_ok (h := f1)] at h1
          split at h1 <;> (cases h1; exact n1 rfl)
        have l2 : c2 ≠ .ok none := by
          rintro rfl
          rw [SM.bind_ok (h := f2)] at h2
          split at h2 <;> (cases h2; exact n2 rfl)
        obtain ⟨rfl, rfl⟩ := ih k2 f1 f2 l1 l2
        match c1 with
        | .err e =>
          rw [SM.bind_err (h := f1)] at h1
          rw [SM.bind_err (h := f2)] at h2
          cases h1; cases h2
          exact ⟨rfl, rfl⟩
        | .panic =>
          rw [SM.bind_panic (h := f1)] at h1
          rw [SM.bind_panic (h := f2)] at h2
          cases h1; cases h2
          exact ⟨rfl, rfl⟩
        | .ok x =>
          rw [SM.bind_ok (h := f1)] at h1
          rw [SM.bind_ok (h := f2)] at h2
          have h3 := h1.symm.trans h2
          obtain ⟨g1, g2⟩ := Prod.mk.inj h3
          exact ⟨g1, g2⟩

theorem Agree.listAll {bad : Nat → Prop} {c : Bytes} {dev' : StreamDev W D} (h : Agree bad c dev dev' G Is At)
    (hc : c.length < U64) {P : Bytes → Prop}
    (hP : Clear bad c P) {i : Inode} (rounds : Nat) :
    ∀ (k : Nat) {s : W × Ext4Directory D}, Ext4Directory.Inv Is G c P i s →
      MdSpec.listAll dev rounds k s = MdSpec.listAll dev' rounds k s
  | 0, s, hi => rfl
  | k + 1, s, hi => by
    rw [MdSpec.listAll, MdSpec.listAll]
    refine SM.bind_congr (h.readNextEntry hc hP rounds hi) fun a s' h1 => ?_
    rcases a with _ | _ | e
    · rfl
    · rfl
    obtain ⟨h2, -⟩ := Ext4Directory.entryReturns_inv h.perfect hc hP.closed (r := .ok (some e)) ⟨rounds, h1⟩ hi
      (fun h => by cases h)
    simp only
    exact SM.bind_congr (Agree.listAll h hc hP rounds k h2) fun _ _ _ => rfl

omit [Build] in
theorem opened_same {c : Bytes} {fs : Ext4Fs D} :
    Opened (fun d c' => c' = c ∧ Is d c) c fs ↔ Opened Is c fs :=
  ⟨fun h => ⟨h.device.2, h.long, h.readable, h.fits, h.superblock, h.groups⟩,
   fun h => ⟨⟨rfl, h.device⟩, h.long, h.readable, h.fits, h.superblock, h.groups⟩⟩

omit [Build] in
/-- Two filesystems opened on the same content. -/
theorem opened_related {D2 : Type} {Is2 : D2 → Bytes → Prop} {c : Bytes} {fs : Ext4Fs D} {fs2 : Ext4Fs D2}
    (h : Opened Is c fs) (h2 : Opened Is2 c fs2) : Ext4Sim.Fs Is Is2 c fs fs2 := by
  refine ⟨⟨h.device, h2.device⟩, ?_, h.groups.trans h2.groups.symm⟩
  have h3 := h.superblock.trans h2.superblock.symm
  rcases h4 : fs.superblock with ⟨b⟩
  rcases h5 : fs2.superblock with ⟨b2⟩
  rw [h4, h5] at h3
  exact congrArg _ h3

/-- A directory that can be read is listed, whatever else cannot be read. -/
theorem directory_listed {c : Bytes} (hop : Ext4Openable c) (hl : c.length < 2 ^ 57) {n : Nat}
    {records : List Bytes} (hd : DirectoryAt c n records) :
    ∃ N, ∀ {W D : Type} {bad : Nat → Prop} {lim : Nat → Nat} {dev : StreamDev W D} {G : W → Prop}
      {Is : D → Bytes → Prop} {At : W → D → Nat → Prop}, PatchyVolume bad lim dev G Is At →
      c.length ≤ lim c.length → lim c.length ≤ U64 → InodeIntact bad c n → ∀ rounds, N ≤ rounds →
      ∀ {w : W} {fs : Ext4Fs D}, G w → Opened Is c fs → ∃ w1 fs1 d w2 d2,
        Ext4Fs.openFile dev n (w, fs) = ((w1, fs1), .ok (.directory d)) ∧ Opened Is c fs1 ∧ G w2 ∧
        listAll dev rounds rounds (w1, d) = ((w2, d2), .ok (some ((records.map DirEntry.mk).filterMap listed))) := by
  have hc : c.length < U64 := by omega
  obtain ⟨-, fs0, -, -, ho0⟩ := open_opened InMemory.volumeSpec (w := ()) (d := InMemory.new c 512) trivial rfl hop hl
  obtain ⟨v1, fs01, d0, i0, m1, -, mleft⟩ := directory_left InMemory.volumeSpec hc (w := ()) trivial ho0 hd
  obtain ⟨t0, N, -, m2⟩ := listAll_left InMemory.volumeSpec hc (records.map DirEntry.mk) (v1, d0)
    (by rw [List.map_map]; exact mleft)
  refine ⟨N + records.length + 1, fun {W D bad lim dev G Is At} hv hlim hlim2 hint rounds hr {w fs} hG ho => ?_⟩
  have m2 := m2 rounds (by omega) rounds (by rw [List.length_map]; omega)
  have ha := hv.agree hc hlim
  have ho' := (opened_same (Is := Is)).2 ho
  obtain ⟨w1, fs1, d, i, h1, ho1, hleft⟩ := directory_left ha.perfect hc hG ho' hd
  have hG1 : G w1 := left_good hleft
  obtain ⟨i', hinv⟩ := ha.directory_inv hG ho' hd hG1 h1
  obtain ⟨s2, N2, hG2, h2⟩ := listAll_left ha.perfect hc (records.map DirEntry.mk) (w1, d)
    (by rw [List.map_map]; exact hleft)
  have h3 := h2 (N2 + records.length + 1) (by omega) (N2 + records.length + 1) (by rw [List.length_map]; omega)
  have hag := ha.listAll hc hint.clear rounds rounds hinv
  rw [← ha.openFile (s := (w, fs)) hG ho' hint.1] at h1
  rcases Ext4Sim.openFile hv.toSeekableVolume InMemory.seekableVolume (c := c) (.inr ⟨trivial, hlim2⟩) n (w, fs)
    ((), fs0) ⟨⟨hG, trivial⟩, opened_related ho ho0⟩ with ⟨t1, t2, a1, a2, e1, e2, hop', hb⟩ | ⟨t1, t2, e, e1, -⟩ |
    ⟨t1, t2, e1, -⟩ | ⟨-, t1, e, e1, -⟩
  rotate_left
  · rw [h1] at e1; cases e1
  · rw [h1] at e1; cases e1
  · rw [h1] at e1; cases e1
  rw [h1] at e1
  rw [m1] at e2
  cases e1
  cases e2
  have hdr : Ext4Sim.Dr Is _ c d d0 := hop'
  rcases Ext4Sim.listAll hv.toSeekableVolume InMemory.seekableVolume (c := c) (.inr ⟨trivial, hlim2⟩) rounds rounds
    (w1, d) ((), d0) ⟨⟨hG1, trivial⟩, hdr⟩ with ⟨t1, t2, a1, a2, e1, e2, rfl, hb2⟩ | ⟨t1, t2, e, e1, e2, -⟩ |
    ⟨t1, t2, e1, e2, -⟩ | ⟨-, t1, e, e1, -⟩
  · rw [m2] at e2
    cases e2
    exact ⟨w1, fs1, d, t1.1, t1.2, h1, opened_same.1 ho1, hb2.1.1, e1⟩
  · rw [m2] at e2; cases e2
  · rw [m2] at e2; cases e2
  · rw [hag] at e1
    have := (listAll_agree _ _ e1 h3 (fun h => (by cases h)) (fun h => (by cases h))).2
    cases this

/-- A file that can be read is read, whatever else cannot be read. -/
theorem file_saved {c : Bytes} (hop : Ext4Openable c) (hl : c.length < 2 ^ 57) {n : Nat}
    {content : Bytes} (hf : FileAt c n content) :
    ∃ N, ∀ {W D : Type} {bad : Nat → Prop} {lim : Nat → Nat} {dev : StreamDev W D} {G : W → Prop}
      {Is : D → Bytes → Prop} {At : W → D → Nat → Prop}, PatchyVolume bad lim dev G Is At →
      c.length ≤ lim c.length → lim c.length ≤ U64 → InodeIntact bad c n → ∀ rounds, N ≤ rounds →
      ∀ {w : W} {fs : Ext4Fs D}, G w → Opened Is c fs → ∃ w1 fs1 f w2 f2,
        Ext4Fs.openFile dev n (w, fs) = ((w1, fs1), .ok (.regularFile f)) ∧
        f.blockSize = .ok (blockSizeOf (sbOf c)) ∧
        readBlocks dev rounds (blockSizeOf (sbOf c)) rounds (w1, f) = ((w2, f2), .ok (some content)) := by
  have hc : c.length < U64 := by omega
  obtain ⟨-, fs0, -, -, ho0⟩ := open_opened InMemory.volumeSpec (w := ()) (d := InMemory.new c 512) trivial rfl hop hl
  obtain ⟨v1, fs01, f0, v2, f02, N, m1, -, -, -, m2⟩ := file_read InMemory.volumeSpec hc (w := ()) trivial ho0 hf
  refine ⟨N, fun {W D bad lim dev G Is At} hv hlim hlim2 hint rounds hr {w fs} hG ho => ?_⟩
  have m2 := m2 rounds hr
  have ha := hv.agree hc hlim
  have ho' := (opened_same (Is := Is)).2 ho
  obtain ⟨w1, fs1, f, w2, f2, N2, h1, -, hbs, -, h3⟩ := file_read ha.perfect hc hG ho' hf
  have h3 := h3 N2 (Nat.le_refl _)
  obtain ⟨xs, -, -, h32, hsize, -⟩ := hf.blocks
  obtain ⟨-, -, -, hG1, -, i, fs2, hin, ho2, -, -, h4, -⟩ := C75_success ha.perfect c w w1 fs fs1 hG ho' n _ h1
  obtain ⟨-, -, k1, -, -, -, -, -, k2, -⟩ := C60_fields _ _ _ i hin
  have k1 : i.fileSizeBytes = sizeOf c n := k1
  have k2 : i.blocksBuffer = rootNode c n := k2
  have hinv := (Ext4File.open_inv (w := w1) hG1 ho2 h4
    (TreeNode c (blockSizeOf (sbOf c)) (rootNode c n)) (by rw [k2]; exact .root)).1
  have hag := ha.readBlocks hc hint.clear
    (.inr (by rw [k1]; exact Nat.le_trans hsize (Nat.mul_le_mul_right _ (by omega)))) rounds rounds hinv
  rw [← ha.openFile (s := (w, fs)) hG ho' hint.1] at h1
  rcases Ext4Sim.openFile hv.toSeekableVolume InMemory.seekableVolume (c := c) (.inr ⟨trivial, hlim2⟩) n (w, fs)
    ((), fs0) ⟨⟨hG, trivial⟩, opened_related ho ho0⟩ with ⟨t1, t2, a1, a2, e1, e2, hop', hb⟩ | ⟨t1, t2, e, e1, -⟩ |
    ⟨t1, t2, e1, -⟩ | ⟨-, t1, e, e1, -⟩
  rotate_left
  · rw [h1] at e1; cases e1
  · rw [h1] at e1; cases e1
  · rw [h1] at e1; cases e1
  rw [h1] at e1
  rw [m1] at e2
  cases e1
  cases e2
  have hfl : Ext4Sim.Fl Is _ c f f0 := hop'
  rcases Ext4Sim.readBlocks hv.toSeekableVolume InMemory.seekableVolume (c := c) (.inr ⟨trivial, hlim2⟩) rounds
    (blockSizeOf (sbOf c)) rounds (w1, f) ((), f0) ⟨⟨hG1, trivial⟩, hfl⟩ with ⟨t1, t2, a1, a2, e1, e2, rfl, hb2⟩ |
    ⟨t1, t2, e, e1, e2, -⟩ | ⟨t1, t2, e1, e2, -⟩ | ⟨-, t1, e, e1, -⟩
  · rw [m2] at e2
    cases e2
    exact ⟨w1, fs1, f, t1.1, t1.2, h1, hbs, e1⟩
  · rw [m2] at e2; cases e2
  · rw [m2] at e2; cases e2
  · rw [hag] at e1
    have := (readBlocks_agree _ _ e1 h3 (fun h => (by cases h)) (fun h => (by cases h))).2
    cases this

/-! ## Finding in what was saved -/

omit [Build] in
/-- The first entry of a listing with a name. -/
theorem find_listed {name : Bytes} (hname : isDots name = false) (es : List DirEntry) :
    (es.filterMap listed).find? (·.1 == name) =
      (es.find? fun e => decide (Wanted name e)).map fun e => (name, e.inode) := by
  rw [List.find?_filterMap]
  have h1 : (fun e : DirEntry => (listed e).any (·.1 == name)) = fun e => decide (Wanted name e) := by
    funext e
    unfold listed Wanted
    by_cases h : e.name.bytes = name
    · subst h
      by_cases h0 : e.inode = 0 <;> simp [h0, hname]
    · split <;> simp [h]
  rw [h1]
  rcases h : es.find? fun e => decide (Wanted name e) with _ | e
  · rfl
  · have h2 : Wanted name e := by simpa using List.find?_some h
    show listed e = some (name, e.inode)
    unfold listed
    rw [h2.2, if_pos ⟨h2.1, hname⟩]

omit [Build] in
theorem forall₂_find {α β γ : Type} [BEq γ] {f : α → γ} {g : β → γ} {R : α → β → Prop} {es : List α} {ys : List β}
    (h : List.Forall₂ (fun e y => f e = g y ∧ R e y) es ys) (x : γ) :
    (es.find? (f · == x) = none ∧ ys.find? (g · == x) = none) ∨
      ∃ e y, es.find? (f · == x) = some e ∧ ys.find? (g · == x) = some y ∧ R e y := by
  induction h with
  | nil => exact .inl ⟨rfl, rfl⟩
  | cons h _ ih =>
    rename_i e y es ys _
    rw [List.find?_cons, List.find?_cons, ← h.1]
    cases f e == x
    · exact ih
    · exact .inr ⟨e, y, rfl, rfl, h.2⟩

/-- The program saves what is at the end of these names from inode `n` on, where the condition `ok` on what cannot
be read is met. -/
def Saves (c : Bytes) (ok : (Nat → Prop) → Prop) (n : Nat) (names : List Bytes) (out : Found) : Prop :=
  ∃ N, ∀ {W D : Type} {bad : Nat → Prop} {lim : Nat → Nat} {dev : StreamDev W D} {G : W → Prop}
    {Is : D → Bytes → Prop} {At : W → D → Nat → Prop}, PatchyVolume bad lim dev G Is At →
    c.length ≤ lim c.length → lim c.length ≤ U64 → ok bad → ∀ rounds, N ≤ rounds →
    ∀ depth, names.length < depth → ∀ s : W × Ext4Fs D, (G s.1 ∧ Opened Is c s.2) →
      ∃ s' y, save dev rounds depth n s = (s', .ok y) ∧ savedAt y names = some out

theorem saves_file {c : Bytes} (hop : Ext4Openable c) (hl : c.length < 2 ^ 57) {n : Nat}
    {content : Bytes} (hf : FileAt c n content) : Saves c (InodeIntact · c n) n [] (.content content) := by
  obtain ⟨N, h⟩ := file_saved hop hl hf
  refine ⟨N, fun {W D bad lim dev G Is At} hv hlim hlim2 hint rounds hr depth hd s hs => ?_⟩
  obtain ⟨depth, rfl⟩ : ∃ j, depth = j + 1 := ⟨depth - 1, by omega⟩
  obtain ⟨w1, fs1, f, w2, f2, h1, h2, h3⟩ := h hv hlim hlim2 hint rounds hr hs.1 hs.2
  exact ⟨_, _, save_file h1 h2 h3 (fun h => (by cases h)), rfl⟩

/-- What is saved of a directory that can be read. -/
theorem saves_dir {c : Bytes} (hop : Ext4Openable c) (hl : c.length < 2 ^ 57) (hs : HoldsWhatItDeclares c) {n : Nat}
    {records : List Bytes} (hd : DirectoryAt c n records) :
    ∃ N, ∀ {W D : Type} {bad : Nat → Prop} {lim : Nat → Nat} {dev : StreamDev W D} {G : W → Prop}
      {Is : D → Bytes → Prop} {At : W → D → Nat → Prop}, PatchyVolume bad lim dev G Is At →
      c.length ≤ lim c.length → lim c.length ≤ U64 → InodeIntact bad c n → ∀ rounds, N ≤ rounds →
      ∀ k, ∀ s : W × Ext4Fs D, (G s.1 ∧ Opened Is c s.2) →
        ∃ s' ys, save dev rounds (k + 1) n s = (s', .ok (.dir ys)) ∧
          List.Forall₂ (fun e y => e.1 = y.1 ∧ ∃ t t', (G t.1 ∧ Opened Is c t.2) ∧
            save dev rounds k e.2 t = (t', .ok y.2)) ((records.map DirEntry.mk).filterMap listed) ys := by
  obtain ⟨N, h⟩ := directory_listed hop hl hd
  refine ⟨N, fun {W D bad lim dev G Is At} hv hlim hlim2 hint rounds hr k s hgood => ?_⟩
  obtain ⟨w1, fs1, d, w2, d2, h1, ho1, hG2, h2⟩ := h hv hlim hlim2 hint rounds hr hgood.1 hgood.2
  obtain ⟨s3, ys, h5, -, h6⟩ := saveAll_each (I := fun s => G s.1 ∧ Opened Is c s.2)
    (go := save dev rounds k) (fun n s hgood => by
      obtain ⟨s', y, q1, q2, -⟩ := save_safe hv.toVolumeSpec (by omega) hs rounds k n s hgood
      exact ⟨s', y, q1, q2⟩) _ (w2, fs1) ⟨hG2, ho1⟩
  exact ⟨s3, ys, save_dir h1 h2 h5, h6⟩

theorem saves_missing {c : Bytes} (hop : Ext4Openable c) (hl : c.length < 2 ^ 57) (hs : HoldsWhatItDeclares c)
    {n : Nat} {records : List Bytes} (hd : DirectoryAt c n records)
    (hcl : ∀ x ∈ records, recordInode x ≠ 0 → CleanName x) {name : Bytes} (hname : isDots name = false)
    (hno : ∀ x ∈ records, ¬ Names name x) (rest : List Bytes) :
    Saves c (InodeIntact · c n) n (name :: rest) .missing := by
  obtain ⟨N, h⟩ := saves_dir hop hl hs hd
  refine ⟨N, fun {W D bad lim dev G Is At} hv hlim hlim2 hint rounds hr depth hd' s hgood => ?_⟩
  obtain ⟨depth, rfl⟩ : ∃ j, depth = j + 1 := ⟨depth - 1, by omega⟩
  obtain ⟨s', ys, h1, h2⟩ := h hv hlim hlim2 hint rounds hr depth s hgood
  refine ⟨s', _, h1, ?_⟩
  have hrec := directory_record hd
  have h3 : ((records.map DirEntry.mk).filterMap listed).find? (·.1 == name) = none := by
    rw [find_listed hname, Option.map_eq_none_iff, List.find?_eq_none]
    intro x hx
    obtain ⟨e, he, rfl⟩ := List.mem_map.1 hx
    rw [decide_eq_true_iff, wanted_iff (hrec e he) (hcl e he)]
    exact hno e he
  rcases forall₂_find h2 name with ⟨-, h4⟩ | ⟨e, y, h4, -⟩
  · rw [savedAt, h4]
  · rw [h3] at h4; cases h4

theorem saves_leads {c : Bytes} (hop : Ext4Openable c) (hl : c.length < 2 ^ 57) (hs : HoldsWhatItDeclares c)
    {n m : Nat} {front : List Bytes} (hle : Leads c CleanName n front m) {rest : List Bytes} {out : Found} :
    (∀ name ∈ front, isDots name = false) → Saves c (InodeIntact · c m) m rest out →
    Saves c (fun bad => ∀ f r k, front = f ++ r → Leads c CleanName n f k → InodeIntact bad c k) n (front ++ rest)
      out := by
  induction hle with
  | here n =>
    rintro - ⟨N, h⟩
    exact ⟨N, fun hv hlim hlim2 hint rounds hr depth hd s hgood =>
      h hv hlim hlim2 (hint [] [] n rfl (.here n)) rounds hr depth hd s hgood⟩
  | into n m name names before after e hd hn hb hcl hle ih =>
    intro hdots hm
    obtain ⟨N2, h2⟩ := ih (fun x hx => hdots x (List.mem_cons_of_mem _ hx)) hm
    have hname := hdots name List.mem_cons_self
    obtain ⟨N, h⟩ := saves_dir hop hl hs hd
    refine ⟨N + N2, fun {W D bad lim dev G Is At} hv hlim hlim2 hint rounds hr depth hdep s hgood => ?_⟩
    obtain ⟨depth, rfl⟩ : ∃ j, depth = j + 1 := ⟨depth - 1, by omega⟩
    obtain ⟨s', ys, h1, h3⟩ := h hv hlim hlim2 (hint [] _ n rfl (.here n)) rounds (by omega) depth s hgood
    refine ⟨s', _, h1, ?_⟩
    have hrec := directory_record hd
    have hw : ∀ x ∈ before ++ [e], (Wanted name ⟨x⟩ ↔ Names name x) := fun x hx =>
      wanted_iff (hrec x (by
        rcases List.mem_append.1 hx with h | h
        · exact List.mem_append_left _ h
        · rw [List.mem_singleton] at h; subst h; simp)) (hcl x hx)
    have h4 : (((before ++ e :: after).map DirEntry.mk).filterMap listed).find? (·.1 == name)
        = some (name, recordInode e) := by
      rw [find_listed hname]
      have : ((before ++ e :: after).map DirEntry.mk).find? (fun e => decide (Wanted name e)) = some ⟨e⟩ := by
        rw [List.find?_eq_some_iff_append]
        refine ⟨decide_eq_true ((hw e (by simp)).2 hn), before.map DirEntry.mk, after.map DirEntry.mk, by simp, ?_⟩
        intro x hx
        obtain ⟨y, hy, rfl⟩ := List.mem_map.1 hx
        rw [Bool.not_eq_true', decide_eq_false_iff_not, hw y (List.mem_append_left _ hy)]
        exact hb y hy
      rw [this, Option.map_some, entry_inode]
    rcases forall₂_find h3 name with ⟨h5, -⟩ | ⟨x, y, h5, h6, t, t', q1, q2⟩
    · rw [h4] at h5; cases h5
    rw [h4] at h5
    cases h5
    rw [List.cons_append, savedAt, h6]
    obtain ⟨u, z, q3, q4⟩ := h2 hv hlim hlim2 (fun f r k hf hk => hint (name :: f) r k (by rw [hf]; rfl)
      (.into n k name f before after e hd hn hb hcl hk)) rounds (by omega) depth
      (by simp only [List.cons_append, List.length_cons] at hdep; omega) t q1
    rw [q2] at q3
    cases q3
    exact q4

/-- What the bytes of a volume say of a path is saved. -/
theorem saves_says {c : Bytes} (hop : Ext4Openable c) (hl : c.length < 2 ^ 57) (hs : HoldsWhatItDeclares c)
    {names : List Bytes} {out : Found} (hsay : Says c names out) (hout : out ≠ .otherType)
    (hdots : ∀ name ∈ names, isDots name = false) : Saves c (PathIntact · c names) 2 names out := by
  cases hsay with
  | content m b hle hf =>
    obtain ⟨N, h⟩ := saves_leads hop hl hs hle hdots (saves_file hop hl hf)
    rw [List.append_nil] at h
    exact ⟨N, fun hv hlim hlim2 hint => h hv hlim hlim2 hint.2⟩
  | missing front rest name n records hn hle hd hcl hno =>
    subst hn
    obtain ⟨N, h⟩ := saves_leads hop hl hs hle (fun x hx => hdots x (List.mem_append_left _ hx))
      (saves_missing hop hl hs hd hcl (hdots name (by simp)) hno rest)
    exact ⟨N, fun hv hlim hlim2 hint => h hv hlim hlim2 fun f r k hf hk =>
      hint.2 f (r ++ name :: rest) k (by rw [hf, List.append_assoc]) hk⟩
  | notADirectory => exact absurd rfl hout
  | notAFile => exact absurd rfl hout

end
end MdRecover
