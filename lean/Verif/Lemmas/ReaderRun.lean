import Verif.Lemmas.Reader

/-! Running sequences of operations on several readers of one device. -/

namespace MdRecover
open MdSpec

/-- Executes one operation on a collection of readers over a device. -/
def runReaderOp {W D : Type} (dev : BlockDev W D) (op : ReaderOp) (w : W) (rs : List (Reader D)) :
    W × List (Reader D) × ReaderOut :=
  match op with
  | .read i buf =>
    match rs[i]? with
    | none => (w, rs, .noSuchReader)
    | some r =>
      match Reader.read dev buf (w, r) with
      | ((w', r'), .ok (k, buf')) => (w', rs.set i r', .data k buf')
      | ((w', r'), .err e) => (w', rs.set i r', .error e)
      | ((w', r'), .panic) => (w', rs.set i r', .panicked)
  | .seek i t =>
    match rs[i]? with
    | none => (w, rs, .noSuchReader)
    | some r =>
      match Reader.seek dev t (w, r) with
      | ((w', r'), .ok p) => (w', rs.set i r', .position p)
      | ((w', r'), .err e) => (w', rs.set i r', .error e)
      | ((w', r'), .panic) => (w', rs.set i r', .panicked)
  | .clone i =>
    match rs[i]? with
    | none => (w, rs, .noSuchReader)
    | some r =>
      match Reader.tryClone dev r w with
      | (w', .ok r') => (w', rs ++ [r'], .cloned)
      | (w', .err e) => (w', rs, .error e)
      | (w', .panic) => (w', rs, .panicked)

/-- Executes a sequence of operations. -/
def runReaderOps {W D : Type} (dev : BlockDev W D) :
    List ReaderOp → W → List (Reader D) → W × List (Reader D) × List ReaderOut
  | [], w, rs => (w, rs, [])
  | op :: ops, w, rs =>
    let (w', rs', o) := runReaderOp dev op w rs
    let (w'', rs'', os) := runReaderOps dev ops w' rs'
    (w'', rs'', o :: os)

/-- Readers `rs` stand at positions `ps`. -/
def AllAt {D : Type} (Is : D → Disk → Prop) (k : Disk) (rs : List (Reader D)) (ps : List Nat) :
    Prop := rs.length = ps.length ∧ ∀ (i : Nat) (r : Reader D) (p : Nat), rs[i]? = some r → ps[i]? = some p → Reader.At Is k r p

theorem AllAt.none {D : Type} {Is : D → Disk → Prop} {k : Disk} {rs : List (Reader D)}
    {ps : List Nat} (h : AllAt Is k rs ps) {i : Nat} (hi : rs[i]? = none) : ps[i]? = none := by
  rw [List.getElem?_eq_none_iff] at *; rw [← h.1]; exact hi

theorem AllAt.some {D : Type} {Is : D → Disk → Prop} {k : Disk} {rs : List (Reader D)}
    {ps : List Nat} (h : AllAt Is k rs ps) {i : Nat} {r : Reader D} (hi : rs[i]? = some r) :
    ∃ p, ps[i]? = some p ∧ Reader.At Is k r p := by
  have hlt : i < ps.length := by rw [← h.1]; exact (List.getElem?_eq_some_iff.mp hi).1
  exact ⟨ps[i], by simp, h.2 i r _ hi (by simp)⟩

theorem AllAt.set {D : Type} {Is : D → Disk → Prop} {k : Disk} {rs : List (Reader D)}
    {ps : List Nat} (h : AllAt Is k rs ps) {i : Nat} {r : Reader D} {p : Nat}
    (hr : Reader.At Is k r p) : AllAt Is k (rs.set i r) (ps.set i p) := by
  refine ⟨by simp [h.1], fun j r' p' hj hp => ?_⟩
  rw [List.getElem?_set] at hj hp
  by_cases hij : i = j
  · subst hij
    by_cases h1 : i < rs.length
    · have h2 : i < ps.length := by rw [← h.1]; exact h1
      simp [h1] at hj
      simp [h2] at hp
      rw [← hj, ← hp]; exact hr
    · simp [h1] at hj
  · simp only [hij, if_false] at hj hp
    exact h.2 j r' p' hj hp

theorem AllAt.append {D : Type} {Is : D → Disk → Prop} {k : Disk} {rs : List (Reader D)}
    {ps : List Nat} (h : AllAt Is k rs ps) {r : Reader D} {p : Nat}
    (hr : Reader.At Is k r p) : AllAt Is k (rs ++ [r]) (ps ++ [p]) := by
  refine ⟨by simp [h.1], fun j r' p' hj hp => ?_⟩
  rw [List.getElem?_append] at hj hp
  rw [← h.1] at hp
  by_cases hlt : j < rs.length
  · simp only [hlt, if_true] at hj hp
    exact h.2 j r' p' hj hp
  · simp only [hlt, if_false] at hj hp
    have h0 : j - rs.length = 0 := by
      have := (List.getElem?_eq_some_iff.mp hj).1
      simpa using this
    rw [h0] at hj hp
    simp at hj hp
    rw [← hj, ← hp]; exact hr

theorem set_self {ps : List Nat} {i p : Nat} (h : ps[i]? = some p) : ps.set i p = ps := by
  obtain ⟨h1, h2⟩ := List.getElem?_eq_some_iff.mp h
  rw [← h2, List.set_getElem_self]

theorem runReaderOp_spec {W D : Type} {F : Prop} {dev : BlockDev W D} {G : W → Prop}
    {Is : D → Disk → Prop} (hd : DevSpec F dev G Is) {k : Disk} {op : ReaderOp}
    (hop : op.wellTyped) {w : W} (hG : G w) {rs : List (Reader D)} {ps : List Nat}
    (hat : AllAt Is k rs ps) :
    G (runReaderOp dev op w rs).1 ∧ ∃ ps', AllAt Is k (runReaderOp dev op w rs).2.1 ps' ∧
      StreamStep F k.content ps op (runReaderOp dev op w rs).2.2 ps' := by
  cases op with
  | read i buf =>
    cases hi : rs[i]? with
    | none =>
      simp only [runReaderOp, hi]
      exact ⟨hG, ps, hat, .readNone (hat.none hi)⟩
    | some r =>
      obtain ⟨p, hp, hrp⟩ := hat.some hi
      simp only [runReaderOp, hi]
      obtain ⟨w', r', hG', h⟩ := Reader.read_spec hd hG hrp buf
      rcases h with ⟨hF, e, h, hr'⟩ | ⟨j, buf', p', h, hsr, hr'⟩
      · rw [h]
        refine ⟨hG', ps, ?_, .fails hF⟩
        have := hat.set (i := i) hr'
        rwa [set_self hp] at this
      · rw [h]
        exact ⟨hG', _, hat.set hr', .read hp hsr⟩
  | seek i t =>
    cases hi : rs[i]? with
    | none =>
      simp only [runReaderOp, hi]
      exact ⟨hG, ps, hat, .seekNone (hat.none hi)⟩
    | some r =>
      obtain ⟨p, hp, hrp⟩ := hat.some hi
      simp only [runReaderOp, hi]
      obtain ⟨w', r', hG', h⟩ := Reader.seek_spec hd hG hrp t
        (fun q hq => by subst hq; exact hop)
      rcases h with ⟨hF, e, h, hr'⟩ | ⟨hbad, h, hr'⟩ | ⟨q, hq, hql, h, hr'⟩
      · rw [h]
        refine ⟨hG', ps, ?_, .fails hF⟩
        have := hat.set (i := i) hr'
        rwa [set_self hp] at this
      · rw [h]
        refine ⟨hG', ps, ?_, .seekRejected hp hbad⟩
        have := hat.set (i := i) hr'
        rwa [set_self hp] at this
      · rw [h]
        exact ⟨hG', _, hat.set hr', .seek hp hq hql⟩
  | clone i =>
    cases hi : rs[i]? with
    | none =>
      simp only [runReaderOp, hi]
      exact ⟨hG, ps, hat, .cloneNone (hat.none hi)⟩
    | some r =>
      obtain ⟨p, hp, hrp⟩ := hat.some hi
      simp only [runReaderOp, hi]
      obtain ⟨hG', h⟩ := hd.tryClone hG hrp.is
      rcases htc : dev.tryClone r.device w with ⟨w', x⟩
      rw [htc] at hG' h
      rcases h with ⟨d', hx, hd'⟩ | ⟨hF, e, hx⟩
      · simp only at hx
        subst hx
        have : Reader.tryClone dev r w = (w', .ok { r with device := d' }) := by
          unfold Reader.tryClone
          rw [SM.bind_ok (h := htc)]; rfl
        rw [this]
        exact ⟨hG', _, hat.append ⟨hd', hrp.pos_eq, hrp.byte_lt, hrp.pos_lt⟩, .clone hp⟩
      · simp only at hx
        subst hx
        have : Reader.tryClone dev r w = (w', .err e) := SM.bind_err (h := htc) _
        rw [this]
        exact ⟨hG', ps, hat, .fails hF⟩

end MdRecover
