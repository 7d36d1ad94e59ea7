import Verif.Spec.Ext4Session
import Verif.Lemmas.Volume

namespace MdRecover
open MdSpec

section
variable {S1 S2 α1 α2 β1 β2 : Type}

theorem SM.bind_pure {S α : Type} (m : SM S α) : (m >>= fun a => Pure.pure a) = m := by
  funext s
  rw [SM.bind_apply]
  rcases m s with ⟨t, a | e | _⟩ <;> rfl

/-- Two computations that run alike: related states and results, or the same error, or both panic.
If `F`, the first may also fail alone; then there is a state of the second its state is related to. -/
def Sim (F : Prop) (E : S1 → S2 → Prop) (R : S1 → S2 → Prop) (Q : α1 → α2 → S1 → S2 → Prop)
    (m1 : SM S1 α1) (m2 : SM S2 α2) : Prop :=
  ∀ s1 s2, R s1 s2 →
    (∃ t1 t2 a1 a2, m1 s1 = (t1, .ok a1) ∧ m2 s2 = (t2, .ok a2) ∧ Q a1 a2 t1 t2) ∨
    (∃ t1 t2 e, m1 s1 = (t1, .err e) ∧ m2 s2 = (t2, .err e) ∧ E t1 t2) ∨
    (∃ t1 t2, m1 s1 = (t1, .panic) ∧ m2 s2 = (t2, .panic) ∧ E t1 t2) ∨
    (F ∧ ∃ t1 e, m1 s1 = (t1, .err e) ∧ ∃ t2, E t1 t2)

variable {F : Prop} {E R R' : S1 → S2 → Prop} {Q Q' : α1 → α2 → S1 → S2 → Prop}
  {P : β1 → β2 → S1 → S2 → Prop}

theorem Sim.bind {m1 : SM S1 α1} {m2 : SM S2 α2} {k1 : α1 → SM S1 β1} {k2 : α2 → SM S2 β2}
    (h : Sim F E R Q m1 m2) (hk : ∀ a1 a2, Sim F E (Q a1 a2) P (k1 a1) (k2 a2)) :
    Sim F E R P (m1 >>= k1) (m2 >>= k2) := by
  intro s1 s2 hr
  rcases h s1 s2 hr with ⟨t1, t2, a1, a2, h1, h2, hq⟩ | ⟨t1, t2, e, h1, h2, he⟩ |
    ⟨t1, t2, h1, h2, he⟩ | ⟨hF, t1, e, h1, he⟩
  · rw [SM.bind_ok (h := h1), SM.bind_ok (h := h2)]
    exact hk a1 a2 t1 t2 hq
  · exact .inr (.inl ⟨t1, t2, e, SM.bind_err (h := h1) _, SM.bind_err (h := h2) _, he⟩)
  · exact .inr (.inr (.inl ⟨t1, t2, SM.bind_panic (h := h1) _, SM.bind_panic (h := h2) _, he⟩))
  · exact .inr (.inr (.inr ⟨hF, t1, e, SM.bind_err (h := h1) _, he⟩))

theorem Sim.bindEq {α : Type} {R'' : S1 → S2 → Prop} {m1 : SM S1 α} {m2 : SM S2 α}
    {k1 : α → SM S1 β1} {k2 : α → SM S2 β2}
    (h : Sim F E R (fun a1 a2 s1 s2 => a1 = a2 ∧ R'' s1 s2) m1 m2)
    (hk : ∀ a, Sim F E R'' P (k1 a) (k2 a)) :
    Sim F E R P (m1 >>= k1) (m2 >>= k2) := by
  refine Sim.bind h fun a1 a2 => ?_
  rintro s1 s2 ⟨rfl, h⟩
  exact hk a1 s1 s2 h

theorem Sim.weaken {m1 : SM S1 α1} {m2 : SM S2 α2} (h : Sim F E R Q m1 m2)
    (hr : ∀ s1 s2, R' s1 s2 → R s1 s2) (hq : ∀ a1 a2 s1 s2, Q a1 a2 s1 s2 → Q' a1 a2 s1 s2) :
    Sim F E R' Q' m1 m2 := by
  intro s1 s2 h1
  rcases h s1 s2 (hr _ _ h1) with ⟨t1, t2, a1, a2, h1, h2, h3⟩ | h | h | h
  · exact .inl ⟨t1, t2, a1, a2, h1, h2, hq _ _ _ _ h3⟩
  · exact .inr (.inl h)
  · exact .inr (.inr (.inl h))
  · exact .inr (.inr (.inr h))

theorem Sim.pure {a1 : α1} {a2 : α2} (h : ∀ s1 s2, R s1 s2 → Q a1 a2 s1 s2) :
    Sim F E R Q (Pure.pure a1) (Pure.pure a2) :=
  fun s1 s2 hr => .inl ⟨s1, s2, a1, a2, rfl, rfl, h s1 s2 hr⟩

theorem Sim.fail {e : ErrKind} (h : ∀ s1 s2, R s1 s2 → E s1 s2) :
    Sim F E R Q (SM.fail e) (SM.fail e) :=
  fun s1 s2 hr => .inr (.inl ⟨s1, s2, e, rfl, rfl, h s1 s2 hr⟩)

theorem Sim.lift {α : Type} {r : Res α} {Q : α → α → S1 → S2 → Prop}
    (h : ∀ s1 s2, R s1 s2 → E s1 s2) (hq : ∀ a, r = .ok a → ∀ s1 s2, R s1 s2 → Q a a s1 s2) :
    Sim F E R Q (SM.lift r) (SM.lift r) := by
  intro s1 s2 hr
  rcases r with a | e | _
  · exact .inl ⟨s1, s2, a, a, rfl, rfl, hq a rfl s1 s2 hr⟩
  · exact .inr (.inl ⟨s1, s2, e, rfl, rfl, h s1 s2 hr⟩)
  · exact .inr (.inr (.inl ⟨s1, s2, rfl, rfl, h s1 s2 hr⟩))

theorem Sim.getBind {k1 : S1 → SM S1 β1} {k2 : S2 → SM S2 β2}
    (h : ∀ s1 s2, R s1 s2 → Sim F E (fun t1 t2 => t1 = s1 ∧ t2 = s2) P (k1 s1) (k2 s2)) :
    Sim F E R P (SM.get >>= k1) (SM.get >>= k2) :=
  fun s1 s2 hr => h s1 s2 hr s1 s2 ⟨rfl, rfl⟩

theorem Sim.modify {f1 : S1 → S1} {f2 : S2 → S2} {Q : Unit → Unit → S1 → S2 → Prop}
    (h : ∀ s1 s2, R s1 s2 → Q () () (f1 s1) (f2 s2)) :
    Sim F E R Q (SM.modify f1) (SM.modify f2) :=
  fun s1 s2 hr => .inl ⟨_, _, (), (), rfl, rfl, h s1 s2 hr⟩

theorem Sim.zoom {T1 T2 : Type} {v1 : S1 → T1} {v2 : S2 → T2} {u1 : S1 → T1 → S1}
    {u2 : S2 → T2 → S2} {ET : T1 → T2 → Prop} {m1 : SM T1 α1} {m2 : SM T2 α2}
    (h : ∀ s1 s2, R s1 s2 → Sim F ET (fun t1 t2 => t1 = v1 s1 ∧ t2 = v2 s2)
      (fun a1 a2 t1 t2 => Q a1 a2 (u1 s1 t1) (u2 s2 t2)) m1 m2)
    (he : ∀ s1 s2, R s1 s2 → ∀ t1 t2, ET t1 t2 → E (u1 s1 t1) (u2 s2 t2)) :
    Sim F E R Q (SM.zoom v1 u1 m1) (SM.zoom v2 u2 m2) := by
  intro s1 s2 hr
  unfold SM.zoom
  rcases h s1 s2 hr _ _ ⟨rfl, rfl⟩ with ⟨t1, t2, a1, a2, h1, h2, h3⟩ | ⟨t1, t2, e, h1, h2, h3⟩ |
    ⟨t1, t2, h1, h2, h3⟩ | ⟨hF, t1, e, h1, t2, h3⟩
  · rw [h1, h2]; exact .inl ⟨_, _, a1, a2, rfl, rfl, h3⟩
  · rw [h1, h2]; exact .inr (.inl ⟨_, _, e, rfl, rfl, he _ _ hr _ _ h3⟩)
  · rw [h1, h2]; exact .inr (.inr (.inl ⟨_, _, rfl, rfl, he _ _ hr _ _ h3⟩))
  · rw [h1]; exact .inr (.inr (.inr ⟨hF, _, e, rfl, _, he _ _ hr _ _ h3⟩))

theorem Sim.withLocal {T1 T2 : Type} {i1 : T1} {i2 : T2} {ET : S1 × T1 → S2 × T2 → Prop}
    {m1 : SM (S1 × T1) α1} {m2 : SM (S2 × T2) α2}
    (h : Sim F ET (fun t1 t2 => R t1.1 t2.1 ∧ t1.2 = i1 ∧ t2.2 = i2)
      (fun a1 a2 t1 t2 => Q a1 a2 t1.1 t2.1) m1 m2)
    (he : ∀ t1 t2, ET t1 t2 → E t1.1 t2.1) :
    Sim F E R Q (SM.withLocal i1 m1) (SM.withLocal i2 m2) := by
  intro s1 s2 hr
  unfold SM.withLocal
  rcases h (s1, i1) (s2, i2) ⟨hr, rfl, rfl⟩ with ⟨t1, t2, a1, a2, h1, h2, h3⟩ |
    ⟨t1, t2, e, h1, h2, h3⟩ | ⟨t1, t2, h1, h2, h3⟩ | ⟨hF, t1, e, h1, t2, h3⟩
  · rw [h1, h2]; exact .inl ⟨_, _, a1, a2, rfl, rfl, h3⟩
  · rw [h1, h2]; exact .inr (.inl ⟨_, _, e, rfl, rfl, he _ _ h3⟩)
  · rw [h1, h2]; exact .inr (.inr (.inl ⟨_, _, rfl, rfl, he _ _ h3⟩))
  · rw [h1]; exact .inr (.inr (.inr ⟨hF, _, e, rfl, _, he _ _ h3⟩))

end
end MdRecover
