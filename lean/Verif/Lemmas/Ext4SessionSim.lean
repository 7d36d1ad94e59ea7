import Verif.Lemmas.Ext4Sim
import Mathlib.Data.List.Forall2

namespace MdRecover
variable [Build]
open MdSpec

namespace Ext4Sim
variable {W1 D1 W2 D2 : Type} {F : Prop} {dev1 : StreamDev W1 D1} {G1 : W1 → Prop}
  {Is1 : D1 → Bytes → Prop} {At1 : W1 → D1 → Nat → Prop} {dev2 : StreamDev W2 D2} {G2 : W2 → Prop}
  {Is2 : D2 → Bytes → Prop} {At2 : W2 → D2 → Nat → Prop} {lim1 lim2 : Nat → Nat} {c : Bytes}

/-- Related handles. -/
def Hd (Is1 : D1 → Bytes → Prop) (Is2 : D2 → Bytes → Prop) (c : Bytes) :
    Handle D1 → Handle D2 → Prop
  | .device d1, .device d2 => Dv Is1 Is2 c d1 d2
  | .fs f1, .fs f2 => Fs Is1 Is2 c f1 f2
  | .file f1, .file f2 => Fl Is1 Is2 c f1 f2
  | .dir d1, .dir d2 => Dr Is1 Is2 c d1 d2
  | _, _ => False

/-- Related outcomes of a call. -/
def Ou (Is1 : D1 → Bytes → Prop) (Is2 : D2 → Bytes → Prop) (c : Bytes)
    (a1 : SessionOut × List (Handle D1)) (a2 : SessionOut × List (Handle D2)) : Prop :=
  a1.1 = a2.1 ∧ List.Forall₂ (Hd Is1 Is2 c) a1.2 a2.2

/-- The postcondition of a call. -/
abbrev Post (G1 : W1 → Prop) (G2 : W2 → Prop) (Is1 : D1 → Bytes → Prop) (Is2 : D2 → Bytes → Prop)
    (c : Bytes) (a1 : SessionOut × List (Handle D1)) (a2 : SessionOut × List (Handle D2))
    (s1 : W1 × Handle D1) (s2 : W2 × Handle D2) : Prop :=
  Ou Is1 Is2 c a1 a2 ∧ Both G1 G2 (Hd Is1 Is2 c) s1 s2

omit [Build] in
theorem onWorld {X1 X2 α1 α2 : Type} {R : X1 → X2 → Prop} {A : α1 → α2 → Prop} {m1 : SM W1 α1}
    {m2 : SM W2 α2}
    (h : Sim F (Wd G1 G2) (Wd G1 G2) (fun a1 a2 w1 w2 => A a1 a2 ∧ Wd G1 G2 w1 w2) m1 m2) :
    Sim F (Both G1 G2 R) (Both G1 G2 R) (fun a1 a2 s1 s2 => A a1 a2 ∧ Both G1 G2 R s1 s2)
      (onWorld (S := X1) m1) (onWorld (S := X2) m2) := by
  refine Sim.zoom (ET := Wd G1 G2) ?_ ?_
  · rintro ⟨w1, x1⟩ ⟨w2, x2⟩ hr
    refine Sim.weaken h ?_ fun a1 a2 w1 w2 k => ⟨k.1, k.2, hr.2⟩
    rintro _ _ ⟨rfl, rfl⟩
    exact hr.1
  · rintro ⟨w1, x1⟩ ⟨w2, x2⟩ hr w1' w2' h
    exact ⟨h, hr.2⟩

omit [Build] in
/-- A call on a component of the handle. -/
theorem onHandle {X1 X2 : Type} {R : X1 → X2 → Prop} {mk1 : X1 → Handle D1} {mk2 : X2 → Handle D2}
    (hmk : ∀ x1 x2, R x1 x2 → Hd Is1 Is2 c (mk1 x1) (mk2 x2)) {x1 : X1} {x2 : X2} (hx : R x1 x2)
    {m1 : SM (W1 × X1) (SessionOut × List (Handle D1))}
    {m2 : SM (W2 × X2) (SessionOut × List (Handle D2))}
    (h : Sim F (Both G1 G2 R) (Both G1 G2 R)
      (fun a1 a2 s1 s2 => Ou Is1 Is2 c a1 a2 ∧ Both G1 G2 R s1 s2) m1 m2) :
    Sim F (Both G1 G2 (Hd Is1 Is2 c)) (Both G1 G2 (Hd Is1 Is2 c)) (Post G1 G2 Is1 Is2 c)
      (SM.zoom (fun s : W1 × Handle D1 => (s.1, x1)) (fun _ t => (t.1, mk1 t.2)) m1)
      (SM.zoom (fun s : W2 × Handle D2 => (s.1, x2)) (fun _ t => (t.1, mk2 t.2)) m2) := by
  refine Sim.zoom (ET := Both G1 G2 R) ?_ ?_
  · rintro ⟨w1, y1⟩ ⟨w2, y2⟩ hr
    refine Sim.weaken h ?_ ?_
    · rintro _ _ ⟨rfl, rfl⟩
      exact ⟨hr.1, hx⟩
    · rintro a1 a2 ⟨v1, z1⟩ ⟨v2, z2⟩ ⟨ha, hs⟩
      exact ⟨ha, hs.1, hmk _ _ hs.2⟩
  · rintro ⟨w1, y1⟩ ⟨w2, y2⟩ hr ⟨v1, z1⟩ ⟨v2, z2⟩ hs
    exact ⟨hs.1, hmk _ _ hs.2⟩

omit [Build] in
/-- A call that returns a value and no handle. -/
theorem valueCall {X1 X2 α : Type} {R : X1 → X2 → Prop} {m1 : SM (W1 × X1) α} {m2 : SM (W2 × X2) α}
    (f : α → SessionOut)
    (h : Sim F (Both G1 G2 R) (Both G1 G2 R) (fun a1 a2 s1 s2 => a1 = a2 ∧ Both G1 G2 R s1 s2) m1 m2) :
    Sim F (Both G1 G2 R) (Both G1 G2 R)
      (fun a1 a2 s1 s2 => Ou Is1 Is2 c a1 a2 ∧ Both G1 G2 R s1 s2)
      (m1 >>= fun a => Pure.pure (f a, ([] : List (Handle D1))))
      (m2 >>= fun a => Pure.pure (f a, ([] : List (Handle D2)))) :=
  Sim.bindEq h fun _ => Sim.pure fun _ _ h => ⟨⟨rfl, .nil⟩, h⟩

omit [Build] in
/-- A call that returns a handle. -/
theorem newCall {X1 X2 α1 α2 : Type} {R : X1 → X2 → Prop} {A : α1 → α2 → Prop}
    {m1 : SM (W1 × X1) α1} {m2 : SM (W2 × X2) α2} {mk1 : α1 → Handle D1} {mk2 : α2 → Handle D2}
    (hmk : ∀ x1 x2, A x1 x2 → Hd Is1 Is2 c (mk1 x1) (mk2 x2))
    (h : Sim F (Both G1 G2 R) (Both G1 G2 R) (fun a1 a2 s1 s2 => A a1 a2 ∧ Both G1 G2 R s1 s2) m1 m2) :
    Sim F (Both G1 G2 R) (Both G1 G2 R)
      (fun a1 a2 s1 s2 => Ou Is1 Is2 c a1 a2 ∧ Both G1 G2 R s1 s2)
      (m1 >>= fun a => Pure.pure (SessionOut.done, [mk1 a]))
      (m2 >>= fun a => Pure.pure (SessionOut.done, [mk2 a])) :=
  Sim.bind h fun _ _ => Sim.pure fun _ _ h => ⟨⟨rfl, .cons (hmk _ _ h.1) .nil⟩, h.2⟩

omit [Build] in
theorem noHandle : Sim F (Both G1 G2 (Hd Is1 Is2 c)) (Both G1 G2 (Hd Is1 Is2 c))
    (Post G1 G2 Is1 Is2 c) (Pure.pure (SessionOut.noSuchHandle, [])) (Pure.pure (.noSuchHandle, [])) :=
  Sim.pure fun _ _ h => ⟨⟨rfl, .nil⟩, h⟩

theorem handleCall (h1 : SeekableVolume F lim1 dev1 G1 Is1 At1)
    (h2 : SeekableVolume False lim2 dev2 G2 Is2 At2)
    (hlim : Lims F lim1 lim2 c) {call : SessionCall} (hc : call.wellTyped)
    {x1 : Handle D1} {x2 : Handle D2} (hx : Hd Is1 Is2 c x1 x2) :
    Sim F (Both G1 G2 (Hd Is1 Is2 c)) (Both G1 G2 (Hd Is1 Is2 c)) (Post G1 G2 Is1 Is2 c)
      (handleCall dev1 call x1) (handleCall dev2 call x2) := by
  cases x1 with
  | device d1 =>
    cases x2 with
    | device d2 =>
      have hd : Dv Is1 Is2 c d1 d2 := hx
      cases call with
      | clone =>
        exact onHandle (mk1 := Handle.device) (mk2 := Handle.device) (fun _ _ h => h) hd
          (newCall (fun _ _ h => h) (onWorld (tryClone h1 h2 hlim hd)))
      | bytes p buf =>
        refine onHandle (mk1 := Handle.device) (mk2 := Handle.device) (fun _ _ h => h) hd ?_
        refine Sim.bind (seek h1 h2 hlim hc) fun _ _ => ?_
        exact Sim.bindEq (readExact h1 h2 hlim buf) fun b => Sim.pure fun _ _ h => ⟨⟨rfl, .nil⟩, h.1⟩
      | mount =>
        refine onHandle (mk1 := Handle.device) (mk2 := Handle.device) (fun _ _ h => h) hd ?_
        refine Sim.bind (onWorld (tryClone h1 h2 hlim hd)) fun a1 a2 => ?_
        by_cases ha : Dv Is1 Is2 c a1 a2
        · refine Sim.weaken (newCall (mk1 := Handle.fs) (mk2 := Handle.fs) (fun _ _ h => h)
            (onWorld («open» h1 h2 hlim ha))) (fun _ _ h => h.2) fun _ _ _ _ h => h
        · rintro s1 s2 ⟨h, -⟩
          exact absurd h ha
      | _ => exact noHandle
    | _ => exact hx.elim
  | fs f1 =>
    cases x2 with
    | fs f2 =>
      have hf : Fs Is1 Is2 c f1 f2 := hx
      cases call with
      | clone =>
        exact onHandle (mk1 := Handle.fs) (mk2 := Handle.fs) (fun _ _ h => h) hf
          (newCall (fun _ _ h => h) (onWorld (cloneFs h1 h2 hlim hf)))
      | blockSize =>
        refine onHandle (mk1 := Handle.fs) (mk2 := Handle.fs) (fun _ _ h => h) hf ?_
        have : f1.blockSize = f2.blockSize := by unfold Ext4Fs.blockSize; rw [hf.2.1]
        rw [this]
        exact valueCall _ (Sim.lift (fun _ _ h => h) fun _ _ _ _ h => ⟨rfl, h⟩)
      | inode n =>
        exact onHandle (mk1 := Handle.fs) (mk2 := Handle.fs) (fun _ _ h => h) hf
          (valueCall _ (readInode h1 h2 hlim n))
      | rootInode =>
        exact onHandle (mk1 := Handle.fs) (mk2 := Handle.fs) (fun _ _ h => h) hf
          (valueCall _ (readInode h1 h2 hlim 2))
      | block n buf =>
        exact onHandle (mk1 := Handle.fs) (mk2 := Handle.fs) (fun _ _ h => h) hf
          (valueCall _ (readBlock h1 h2 hlim n buf))
      | openFile n =>
        refine onHandle (mk1 := Handle.fs) (mk2 := Handle.fs) (fun _ _ h => h) hf ?_
        refine Sim.bind (openFile h1 h2 hlim n) fun a1 a2 => Sim.pure ?_
        rintro s1 s2 ⟨ha, hr⟩
        refine ⟨?_, hr⟩
        cases a1 <;> cases a2 <;> first | exact ha.elim | skip
        · exact ⟨rfl, .cons ha .nil⟩
        · exact ⟨rfl, .cons ha .nil⟩
        · exact ⟨congrArg _ ha, .nil⟩
      | _ => exact noHandle
    | _ => exact hx.elim
  | file f1 =>
    cases x2 with
    | file f2 =>
      have hf : Fl Is1 Is2 c f1 f2 := hx
      cases call with
      | fileSize =>
        refine onHandle (mk1 := Handle.file) (mk2 := Handle.file) (fun _ _ h => h) hf ?_
        rw [hf.fileSizeBytes]
        exact Sim.pure fun _ _ h => ⟨⟨rfl, .nil⟩, h⟩
      | nextBlock rounds buf =>
        exact onHandle (mk1 := Handle.file) (mk2 := Handle.file) (fun _ _ h => h) hf
          (valueCall _ (readNextBlock h1 h2 hlim rounds buf))
      | _ => exact noHandle
    | _ => exact hx.elim
  | dir d1 =>
    cases x2 with
    | dir d2 =>
      have hf : Dr Is1 Is2 c d1 d2 := hx
      cases call with
      | nextEntry rounds =>
        exact onHandle (mk1 := Handle.dir) (mk2 := Handle.dir) (fun _ _ h => h) hf
          (valueCall _ (readNextEntry h1 h2 hlim rounds))
      | _ => exact noHandle
    | _ => exact hx.elim

omit [Build] in
theorem forall₂_get {X1 X2 : Type} {R : X1 → X2 → Prop} {l1 : List X1} {l2 : List X2}
    (h : List.Forall₂ R l1 l2) (i : Nat) :
    (l1[i]? = none ∧ l2[i]? = none) ∨ ∃ x1 x2, l1[i]? = some x1 ∧ l2[i]? = some x2 ∧ R x1 x2 := by
  induction h generalizing i with
  | nil => exact .inl ⟨rfl, rfl⟩
  | cons hx _ ih =>
    cases i with
    | zero => exact .inr ⟨_, _, rfl, rfl, hx⟩
    | succ i => exact ih i

omit [Build] in
theorem forall₂_set {X1 X2 : Type} {R : X1 → X2 → Prop} {l1 : List X1} {l2 : List X2}
    (h : List.Forall₂ R l1 l2) (i : Nat) {x1 : X1} {x2 : X2} (hx : R x1 x2) :
    List.Forall₂ R (l1.set i x1) (l2.set i x2) := by
  induction h generalizing i with
  | nil => exact .nil
  | cons hy h ih =>
    cases i with
    | zero => exact .cons hx h
    | succ i => exact .cons hy (ih i)

omit [Build] in
theorem forall₂_append {X1 X2 : Type} {R : X1 → X2 → Prop} {l1 m1 : List X1} {l2 m2 : List X2}
    (h : List.Forall₂ R l1 l2) (h' : List.Forall₂ R m1 m2) :
    List.Forall₂ R (l1 ++ m1) (l2 ++ m2) := by
  induction h with
  | nil => exact h'
  | cons hy _ ih => exact .cons hy ih

/-- Related programs. -/
abbrev Pr (G1 : W1 → Prop) (G2 : W2 → Prop) (Is1 : D1 → Bytes → Prop) (Is2 : D2 → Bytes → Prop)
    (c : Bytes) (s1 : W1 × List (Handle D1)) (s2 : W2 × List (Handle D2)) : Prop :=
  Both G1 G2 (List.Forall₂ (Hd Is1 Is2 c)) s1 s2

theorem sessionStep (h1 : SeekableVolume F lim1 dev1 G1 Is1 At1)
    (h2 : SeekableVolume False lim2 dev2 G2 Is2 At2)
    (hlim : Lims F lim1 lim2 c) (i : Nat) {call : SessionCall}
    (hc : call.wellTyped) {s1 : W1 × List (Handle D1)} {s2 : W2 × List (Handle D2)}
    (hr : Pr G1 G2 Is1 Is2 c s1 s2) :
    ((sessionStep dev1 i call s1).2 = (sessionStep dev2 i call s2).2 ∧
      Pr G1 G2 Is1 Is2 c (sessionStep dev1 i call s1).1 (sessionStep dev2 i call s2).1) ∨
    (F ∧ ∃ e, (sessionStep dev1 i call s1).2 = .error e) := by
  unfold MdSpec.sessionStep
  rcases forall₂_get hr.2 i with ⟨k1, k2⟩ | ⟨x1, x2, k1, k2, hx⟩
  · rw [k1, k2]
    exact .inl ⟨rfl, hr⟩
  · rw [k1, k2]
    simp only
    rcases handleCall h1 h2 hlim hc hx (s1.1, x1) (s2.1, x2) ⟨hr.1, hx⟩ with
      ⟨⟨v1, y1⟩, ⟨v2, y2⟩, ⟨o1, n1⟩, ⟨o2, n2⟩, e1, e2, ho, hy⟩ | ⟨⟨v1, y1⟩, ⟨v2, y2⟩, e, e1, e2, hy⟩ |
      ⟨⟨v1, y1⟩, ⟨v2, y2⟩, e1, e2, hy⟩ | ⟨hF, ⟨v1, y1⟩, e, e1, -⟩
    · rw [e1, e2]
      exact .inl ⟨ho.1, hy.1, forall₂_append (forall₂_set hr.2 i hy.2) ho.2⟩
    · rw [e1, e2]
      exact .inl ⟨rfl, hy.1, forall₂_set hr.2 i hy.2⟩
    · rw [e1, e2]
      exact .inl ⟨rfl, hy.1, forall₂_set hr.2 i hy.2⟩
    · rw [e1]
      exact .inr ⟨hF, e, rfl⟩

theorem sessionRun (h1 : SeekableVolume F lim1 dev1 G1 Is1 At1)
    (h2 : SeekableVolume False lim2 dev2 G2 Is2 At2)
    (hlim : Lims F lim1 lim2 c) (ops : List (Nat × SessionCall))
    (hc : ∀ x ∈ ops, x.2.wellTyped) {s1 : W1 × List (Handle D1)} {s2 : W2 × List (Handle D2)}
    (hr : Pr G1 G2 Is1 Is2 c s1 s2) :
    sessionRun dev1 s1 ops = sessionRun dev2 s2 ops ∨
    (F ∧ ∃ k e, (sessionRun dev1 s1 ops).take k = (sessionRun dev2 s2 ops).take k ∧
      (sessionRun dev1 s1 ops)[k]? = some (.error e)) := by
  induction ops generalizing s1 s2 with
  | nil => exact .inl rfl
  | cons x ops ih =>
    obtain ⟨i, call⟩ := x
    simp only [MdSpec.sessionRun]
    rcases sessionStep h1 h2 hlim i (hc _ List.mem_cons_self) hr with ⟨ho, hr'⟩ | ⟨hF, e, he⟩
    · rcases ih (fun x h => hc x (List.mem_cons_of_mem _ h)) hr' with h | ⟨hF, k, e, h3, h4⟩
      · exact .inl (by rw [ho, h])
      · refine .inr ⟨hF, k + 1, e, ?_, h4⟩
        rw [List.take_succ_cons, List.take_succ_cons, ho, h3]
    · exact .inr ⟨hF, 0, e, rfl, by rw [List.getElem?_cons_zero, he]⟩

end Ext4Sim
end MdRecover
