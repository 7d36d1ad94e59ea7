import Verif.Props.Ext4Session
import Verif.Spec.SessionFailing

/-! Sessions on devices that may fail, for C133. -/

namespace MdRecover
open MdSpec
variable [Build]

section
variable {W D : Type} {dev : StreamDev W D}

/-- Computations that leave the superblock and the groups of a filesystem object as they are. -/
def SameFs {α : Type} (m : SM (W × Ext4Fs D) α) : Prop :=
  ∀ s, (m s).1.2.superblock = s.2.superblock ∧ (m s).1.2.groups = s.2.groups

theorem SameFs.bind {α β : Type} {m : SM (W × Ext4Fs D) α} {f : α → SM (W × Ext4Fs D) β} (h : SameFs m)
    (hf : ∀ a, SameFs (f a)) : SameFs (m >>= f) := by
  intro s
  rw [SM.bind_apply]
  have h := h s
  rcases e : m s with ⟨t, a | x | _⟩ <;> rw [e] at h
  · exact ⟨(hf a t).1.trans h.1, (hf a t).2.trans h.2⟩
  · exact h
  · exact h

theorem SameFs.pure {α : Type} (a : α) : SameFs (Pure.pure a : SM (W × Ext4Fs D) α) := fun _ => ⟨rfl, rfl⟩

theorem SameFs.fail {α : Type} (e : ErrKind) : SameFs (SM.fail e : SM (W × Ext4Fs D) α) := fun _ => ⟨rfl, rfl⟩

theorem SameFs.lift {α : Type} (r : Res α) : SameFs (SM.lift r : SM (W × Ext4Fs D) α) := fun _ => by
  cases r <;> exact ⟨rfl, rfl⟩

theorem SameFs.get : SameFs (SM.get : SM (W × Ext4Fs D) (W × Ext4Fs D)) := fun _ => ⟨rfl, rfl⟩

theorem SameFs.onDevice {α : Type} (m : SM (W × D) α) : SameFs (Ext4Fs.onDevice m) := fun s => by
  unfold Ext4Fs.onDevice SM.zoom
  exact ⟨rfl, rfl⟩

theorem SameFs.onWorld {α : Type} (m : SM W α) : SameFs (onWorld m : SM (W × Ext4Fs D) α) := fun s => by
  unfold MdSpec.onWorld SM.zoom
  exact ⟨rfl, rfl⟩

theorem SameFs.readInode (n : Nat) : SameFs (Ext4Fs.readInode dev n) := by
  unfold Ext4Fs.readInode
  exact .bind .get fun _ => .bind (.lift _) fun _ => .bind (.onDevice _) fun _ => .bind (.onDevice _) fun _ => .lift _

theorem SameFs.readBlock (n : Nat) (buf : Bytes) : SameFs (Ext4Fs.readBlock dev n buf) := by
  unfold Ext4Fs.readBlock
  refine .bind .get fun _ => .bind (.lift _) fun _ => ?_
  split
  · exact .fail _
  · exact .bind (.lift _) fun _ => .bind (.onDevice _) fun _ => .onDevice _

theorem SameFs.openFile (n : Nat) : SameFs (Ext4Fs.openFile dev n) := by
  unfold Ext4Fs.openFile
  exact .bind .get fun _ => .bind (.onWorld _) fun _ => .bind (.readInode n) fun _ => .lift _

/-- A filesystem handle stays one, with the same superblock and groups, whatever a call on it does. -/
theorem fsCall (call : SessionCall) (fs : Ext4Fs D) (w : W) :
    ∃ fs', (handleCall dev call (.fs fs) (w, .fs fs)).1.2 = .fs fs' ∧ fs'.superblock = fs.superblock ∧
      fs'.groups = fs.groups := by
  have h : ∀ {m : SM (W × Ext4Fs D) (SessionOut × List (Handle D))}, SameFs m →
      ∃ fs', (onFsHandle fs m (w, .fs fs)).1.2 = .fs fs' ∧ fs'.superblock = fs.superblock ∧
        fs'.groups = fs.groups := fun hm => ⟨_, rfl, hm (w, fs)⟩
  cases call with
  | clone => exact h (.bind (.onWorld _) fun _ => .pure _)
  | blockSize => exact h (.bind (.lift _) fun _ => .pure _)
  | inode n => exact h (.bind (.readInode n) fun _ => .pure _)
  | rootInode => exact h (.bind (.readInode 2) fun _ => .pure _)
  | block n buf => exact h (.bind (.readBlock n buf) fun _ => .pure _)
  | openFile n => exact h (.bind (.openFile n) fun _ => .pure _)
  | _ => exact ⟨fs, rfl, rfl, rfl⟩

/-- A device handle stays one. -/
theorem deviceCall (call : SessionCall) (d : D) (w : W) :
    ∃ d', (handleCall dev call (.device d) (w, .device d)).1.2 = .device d' := by
  cases call <;> exact ⟨_, rfl⟩

end

namespace Ext4Sim
variable {W1 D1 W2 D2 : Type} {F : Prop} {dev1 : StreamDev W1 D1} {G1 : W1 → Prop}
  {Is1 : D1 → Bytes → Prop} {At1 : W1 → D1 → Nat → Prop} {dev2 : StreamDev W2 D2} {G2 : W2 → Prop}
  {Is2 : D2 → Bytes → Prop} {At2 : W2 → D2 → Nat → Prop} {lim1 lim2 : Nat → Nat} {c : Bytes}

/-- Handles of a program after any failures: each is on a device with the content `c`. -/
def Alive (G1 : W1 → Prop) (Is1 : D1 → Bytes → Prop) (Is2 : D2 → Bytes → Prop) (c : Bytes)
    (s : W1 × List (Handle D1)) : Prop :=
  G1 s.1 ∧ ∀ x ∈ s.2, ∃ x2, Hd Is1 Is2 c x x2

theorem step_alive (h1 : SeekableVolume F lim1 dev1 G1 Is1 At1) (h2 : SeekableVolume False lim2 dev2 G2 Is2 At2)
    (hlim : Lims F lim1 lim2 c) (i : Nat) {call : SessionCall} (hc : call.wellTyped) {w2 : W2} (hw : G2 w2)
    {s : W1 × List (Handle D1)} (hs : Alive G1 Is1 Is2 c s) :
    Alive G1 Is1 Is2 c (MdSpec.sessionStep dev1 i call s).1 := by
  unfold MdSpec.sessionStep
  cases hi : s.2[i]? with
  | none => exact hs
  | some x1 =>
    obtain ⟨x2, hx⟩ := hs.2 x1 (List.mem_of_getElem? hi)
    have hset : ∀ {y1 : Handle D1}, (∃ y2, Hd Is1 Is2 c y1 y2) → ∀ x ∈ s.2.set i y1, ∃ x2, Hd Is1 Is2 c x x2 := by
      intro y1 hy x hx
      rcases List.mem_or_eq_of_mem_set hx with h | rfl
      · exact hs.2 x h
      · exact hy
    rcases Ext4Sim.handleCall h1 h2 hlim hc hx (s.1, x1) (w2, x2) ⟨⟨hs.1, hw⟩, hx⟩ with
      ⟨⟨v1, y1⟩, ⟨v2, y2⟩, ⟨o1, n1⟩, ⟨o2, n2⟩, e1, e2, ho, hy⟩ | ⟨⟨v1, y1⟩, ⟨v2, y2⟩, e, e1, e2, hy⟩ |
      ⟨⟨v1, y1⟩, ⟨v2, y2⟩, e1, e2, hy⟩ | ⟨hF, ⟨v1, y1⟩, e, e1, ⟨v2, y2⟩, hy⟩
    · simp only [e1]
      refine ⟨hy.1.1, fun x hx => ?_⟩
      rcases List.mem_append.mp hx with h | h
      · exact hset ⟨y2, hy.2⟩ x h
      · obtain ⟨k, hk⟩ := List.mem_iff_getElem?.mp h
        rcases forall₂_get ho.2 k with ⟨g, -⟩ | ⟨z1, z2, g1, -, gz⟩
        · have g : n1[k]? = none := g
          rw [hk] at g
          cases g
        · have g1 : n1[k]? = some z1 := g1
          rw [hk] at g1
          cases g1
          exact ⟨z2, gz⟩
    all_goals
      simp only [e1]
      exact ⟨hy.1.1, hset ⟨y2, hy.2⟩⟩

theorem end_alive (h1 : SeekableVolume F lim1 dev1 G1 Is1 At1) (h2 : SeekableVolume False lim2 dev2 G2 Is2 At2)
    (hlim : Lims F lim1 lim2 c) {w2 : W2} (hw : G2 w2) (ops : List (Nat × SessionCall))
    (hops : ∀ x ∈ ops, x.2.wellTyped) :
    ∀ {s : W1 × List (Handle D1)}, Alive G1 Is1 Is2 c s → Alive G1 Is1 Is2 c (sessionEnd dev1 s ops) := by
  induction ops with
  | nil => exact fun h => h
  | cons x ops ih =>
    intro s hs
    exact ih (fun x h => hops x (List.mem_cons_of_mem _ h))
      (step_alive h1 h2 hlim x.1 (hops _ List.mem_cons_self) hw hs)

omit [Build] in
theorem set_append_self {X : Type} {l new : List X} {i : Nat} (y : X) (hl : i < l.length) :
    (l.set i y ++ new)[i]? = some y := by
  rw [List.getElem?_append_left (by rw [List.length_set]; exact hl), List.getElem?_set_self hl]

/-- A call on related handles, in two programs that may have other handles besides. -/
theorem step_related (h1 : SeekableVolume F lim1 dev1 G1 Is1 At1) (h2 : SeekableVolume False lim2 dev2 G2 Is2 At2)
    (hlim : Lims F lim1 lim2 c) {i1 i2 : Nat} {call : SessionCall} (hc : call.wellTyped)
    {s1 : W1 × List (Handle D1)} {s2 : W2 × List (Handle D2)} (hw : Wd G1 G2 s1.1 s2.1) {x1 : Handle D1}
    {x2 : Handle D2} (k1 : s1.2[i1]? = some x1) (k2 : s2.2[i2]? = some x2) (hx : Hd Is1 Is2 c x1 x2) :
    ((MdSpec.sessionStep dev1 i1 call s1).2 = (MdSpec.sessionStep dev2 i2 call s2).2 ∧
      Wd G1 G2 (MdSpec.sessionStep dev1 i1 call s1).1.1 (MdSpec.sessionStep dev2 i2 call s2).1.1 ∧
      ∃ y1 y2 n1 n2, Hd Is1 Is2 c y1 y2 ∧ List.Forall₂ (Hd Is1 Is2 c) n1 n2 ∧
        (MdSpec.sessionStep dev1 i1 call s1).1.2 = s1.2.set i1 y1 ++ n1 ∧
        (MdSpec.sessionStep dev2 i2 call s2).1.2 = s2.2.set i2 y2 ++ n2) ∨
    (F ∧ ∃ e, (MdSpec.sessionStep dev1 i1 call s1).2 = .error e) := by
  unfold MdSpec.sessionStep
  rw [k1, k2]
  simp only
  rcases Ext4Sim.handleCall h1 h2 hlim hc hx (s1.1, x1) (s2.1, x2) ⟨hw, hx⟩ with
    ⟨⟨v1, y1⟩, ⟨v2, y2⟩, ⟨o1, n1⟩, ⟨o2, n2⟩, e1, e2, ho, hy⟩ | ⟨⟨v1, y1⟩, ⟨v2, y2⟩, e, e1, e2, hy⟩ |
    ⟨⟨v1, y1⟩, ⟨v2, y2⟩, e1, e2, hy⟩ | ⟨hF, ⟨v1, y1⟩, e, e1, -⟩
  · rw [e1, e2]
    exact .inl ⟨ho.1, hy.1, y1, y2, n1, n2, hy.2, ho.2, rfl, rfl⟩
  · rw [e1, e2]
    exact .inl ⟨rfl, hy.1, y1, y2, [], [], hy.2, .nil, (List.append_nil _).symm, (List.append_nil _).symm⟩
  · rw [e1, e2]
    exact .inl ⟨rfl, hy.1, y1, y2, [], [], hy.2, .nil, (List.append_nil _).symm, (List.append_nil _).symm⟩
  · rw [e1]
    exact .inr ⟨hF, e, rfl⟩

/-- Handle `j` of a program with other handles, some of which may fail, and the same handle alone. -/
theorem others (h1 : SeekableVolume F lim1 dev1 G1 Is1 At1) (h2 : SeekableVolume False lim2 dev2 G2 Is2 At2)
    (hlim : Lims F lim1 lim2 c) (j : Nat) (ops : List (Nat × SessionCall)) (hops : ∀ x ∈ ops, x.2.wellTyped) :
    ∀ {s1 : W1 × List (Handle D1)} {s2 : W2 × List (Handle D2)}, Alive G1 Is1 Is2 c s1 → G2 s2.1 →
      ∀ {x1 : Handle D1} {x2 : Handle D2}, s1.2[j]? = some x1 → s2.2[j]? = some x2 → Hd Is1 Is2 c x1 x2 →
      let o1 := outcomesOf j ops (MdSpec.sessionRun dev1 s1 ops)
      let o2 := MdSpec.sessionRun dev2 s2 (ops.filter fun x => x.1 = j)
      o1 = o2 ∨ (F ∧ ∃ k e, o1.take k = o2.take k ∧ o1[k]? = some (.error e)) := by
  induction ops with
  | nil => exact fun _ _ _ _ _ _ _ => .inl rfl
  | cons x ops ih =>
    obtain ⟨i, call⟩ := x
    intro s1 s2 ha hG x1 x2 k1 k2 hx
    have hops' := fun x h => hops x (List.mem_cons_of_mem _ h)
    have hc : call.wellTyped := hops _ List.mem_cons_self
    have ha' := step_alive h1 h2 hlim i hc hG ha
    have l1 : j < s1.2.length := (List.getElem?_eq_some_iff.mp k1).1
    have l2 : j < s2.2.length := (List.getElem?_eq_some_iff.mp k2).1
    by_cases hij : i = j
    · subst hij
      simp only [List.filter_cons_of_pos (p := fun x : Nat × SessionCall => decide (x.1 = i)) (a := (i, call)) (by simp),
        MdSpec.sessionRun, outcomesOf, List.zip_cons_cons]
      rw [List.filter_cons_of_pos (by simp), List.map_cons]
      rcases step_related h1 h2 hlim hc ⟨ha.1, hG⟩ k1 k2 hx with
        ⟨ho, hw, y1, y2, n1, n2, hy, -, g1, g2⟩ | ⟨hF, e, he⟩
      · rcases ih hops' ha' hw.2 (by rw [g1]; exact set_append_self y1 l1) (by rw [g2]; exact set_append_self y2 l2) hy
          with h | ⟨hF, k, e, h3, h4⟩
        · exact .inl (by rw [ho, ← h]; rfl)
        · refine .inr ⟨hF, k + 1, e, ?_, h4⟩
          rw [List.take_succ_cons, List.take_succ_cons, ho, ← h3]
          rfl
      · exact .inr ⟨hF, 0, e, rfl, by rw [List.getElem?_cons_zero, he]⟩
    · have g1 := (sessionStep_other (dev1 := dev1) (call := call) hij l1).trans k1
      have := ih hops' ha' hG g1 k2 hx
      simp only [List.filter_cons_of_neg (p := fun x : Nat × SessionCall => decide (x.1 = j)) (a := (i, call))
        (by simpa using hij), MdSpec.sessionRun, outcomesOf, List.zip_cons_cons]
      rw [List.filter_cons_of_neg (by simpa using hij)]
      exact this

/-- After a call on a device or filesystem, whatever came of it, the handle is related to those it was related to. -/
theorem call_lasting (h1 : SeekableVolume F lim1 dev1 G1 Is1 At1) (h2 : SeekableVolume False lim2 dev2 G2 Is2 At2)
    (hlim : Lims F lim1 lim2 c) {call : SessionCall} (hc : call.wellTyped) {w1 : W1} {w2 : W2} (hw : Wd G1 G2 w1 w2)
    {x1 : Handle D1} {x2 : Handle D2} (hx : Hd Is1 Is2 c x1 x2) (hl : x1.lasting) :
    (MdSpec.handleCall dev1 call x1 (w1, x1)).1.2.lasting ∧
    Wd G1 G2 (MdSpec.handleCall dev1 call x1 (w1, x1)).1.1 (MdSpec.handleCall dev2 call x2 (w2, x2)).1.1 ∧
    Hd Is1 Is2 c (MdSpec.handleCall dev1 call x1 (w1, x1)).1.2 (MdSpec.handleCall dev2 call x2 (w2, x2)).1.2 := by
  obtain ⟨y, hy, hG1⟩ : ∃ y, Hd Is1 Is2 c (MdSpec.handleCall dev1 call x1 (w1, x1)).1.2 y ∧
      G1 (MdSpec.handleCall dev1 call x1 (w1, x1)).1.1 := by
    rcases Ext4Sim.handleCall h1 h2 hlim hc hx (w1, x1) (w2, x2) ⟨hw, hx⟩ with
      ⟨⟨v1, y1⟩, ⟨v2, y2⟩, ⟨o1, n1⟩, ⟨o2, n2⟩, e1, e2, ho, hy⟩ | ⟨⟨v1, y1⟩, ⟨v2, y2⟩, e, e1, e2, hy⟩ |
      ⟨⟨v1, y1⟩, ⟨v2, y2⟩, e1, e2, hy⟩ | ⟨hF, ⟨v1, y1⟩, e, e1, ⟨v2, y2⟩, hy⟩
    all_goals
      rw [e1]
      exact ⟨y2, hy.2, hy.1.1⟩
  have hself : Hd Is2 Is2 c x2 x2 := by
    cases x1 <;> cases x2 <;> first | exact hl.elim | exact hx.elim | skip
    · exact ⟨hx.2, hx.2⟩
    · exact ⟨⟨hx.1.2, hx.1.2⟩, rfl, rfl⟩
  obtain ⟨z, hz, hG2⟩ : ∃ z, Hd Is2 Is2 c (MdSpec.handleCall dev2 call x2 (w2, x2)).1.2 z ∧
      G2 (MdSpec.handleCall dev2 call x2 (w2, x2)).1.1 := by
    rcases Ext4Sim.handleCall h2 h2 (.inl rfl) hc hself (w2, x2) (w2, x2) ⟨⟨hw.2, hw.2⟩, hself⟩ with
      ⟨⟨v1, y1⟩, ⟨v2, y2⟩, ⟨o1, n1⟩, ⟨o2, n2⟩, e1, e2, ho, hy⟩ | ⟨⟨v1, y1⟩, ⟨v2, y2⟩, e, e1, e2, hy⟩ |
      ⟨⟨v1, y1⟩, ⟨v2, y2⟩, e1, e2, hy⟩ | ⟨hF, -⟩
    · rw [e1]
      exact ⟨y2, hy.2, hy.1.1⟩
    · rw [e1]
      exact ⟨y2, hy.2, hy.1.1⟩
    · rw [e1]
      exact ⟨y2, hy.2, hy.1.1⟩
    · exact hF.elim
  refine ⟨?_, ⟨hG1, hG2⟩, ?_⟩
  · cases x1 with
    | device d1 =>
      obtain ⟨d', e⟩ := deviceCall (dev := dev1) call d1 w1
      rw [e]
      trivial
    | fs f1 =>
      obtain ⟨f', e, -⟩ := fsCall (dev := dev1) call f1 w1
      rw [e]
      trivial
    | _ => exact hl.elim
  · cases x1 <;> cases x2 <;> first | exact hl.elim | exact hx.elim | skip
    · rename_i d1 d2
      obtain ⟨d1', e1⟩ := deviceCall (dev := dev1) call d1 w1
      obtain ⟨d2', e2⟩ := deviceCall (dev := dev2) call d2 w2
      rw [e1] at hy ⊢
      rw [e2] at hz ⊢
      cases y <;> first | exact hy.elim | skip
      cases z <;> first | exact hz.elim | skip
      exact ⟨hy.1, hz.1⟩
    · rename_i f1 f2
      obtain ⟨f1', e1, a1, b1⟩ := fsCall (dev := dev1) call f1 w1
      obtain ⟨f2', e2, a2, b2⟩ := fsCall (dev := dev2) call f2 w2
      rw [e1] at hy ⊢
      rw [e2] at hz ⊢
      cases y <;> first | exact hy.elim | skip
      cases z <;> first | exact hz.elim | skip
      exact ⟨⟨hy.1.1, hz.1.1⟩, a1.trans (hx.2.1.trans a2.symm), b1.trans (hx.2.2.trans b2.symm)⟩

/-- The outcomes of a program that goes on after failures, call by call. -/
abbrev SameOr (F : Prop) (a b : SessionOut) : Prop := a = b ∨ (F ∧ ∃ e, a = .error e)

omit [Build] in
theorem step_of_call {W D : Type} [Build] {dev : StreamDev W D} {i : Nat} {call : SessionCall}
    {s : W × List (Handle D)} {x : Handle D} (k : s.2[i]? = some x) :
    (MdSpec.sessionStep dev i call s).1.1 = (MdSpec.handleCall dev call x (s.1, x)).1.1 ∧
    (MdSpec.sessionStep dev i call s).1.2[i]? = some (MdSpec.handleCall dev call x (s.1, x)).1.2 := by
  have l : i < s.2.length := (List.getElem?_eq_some_iff.mp k).1
  unfold MdSpec.sessionStep
  rw [k]
  simp only
  rcases MdSpec.handleCall dev call x (s.1, x) with ⟨⟨w, y⟩, ⟨o, new⟩ | e | _⟩
  · exact ⟨rfl, set_append_self y l⟩
  · exact ⟨rfl, List.getElem?_set_self l⟩
  · exact ⟨rfl, List.getElem?_set_self l⟩

/-- Handle `j`, a device or filesystem, of a program in which calls on any handle may fail, and the same alone. -/
theorem again (h1 : SeekableVolume F lim1 dev1 G1 Is1 At1) (h2 : SeekableVolume False lim2 dev2 G2 Is2 At2)
    (hlim : Lims F lim1 lim2 c) (j : Nat) (ops : List (Nat × SessionCall)) (hops : ∀ x ∈ ops, x.2.wellTyped) :
    ∀ {s1 : W1 × List (Handle D1)} {s2 : W2 × List (Handle D2)}, Alive G1 Is1 Is2 c s1 → G2 s2.1 →
      ∀ {x1 : Handle D1} {x2 : Handle D2}, s1.2[j]? = some x1 → s2.2[j]? = some x2 → Hd Is1 Is2 c x1 x2 →
      x1.lasting → List.Forall₂ (SameOr F) (outcomesOf j ops (MdSpec.sessionRun dev1 s1 ops))
        (MdSpec.sessionRun dev2 s2 (ops.filter fun x => x.1 = j)) := by
  induction ops with
  | nil => exact fun _ _ _ _ _ _ _ _ => .nil
  | cons x ops ih =>
    obtain ⟨i, call⟩ := x
    intro s1 s2 ha hG x1 x2 k1 k2 hx hl
    have hops' := fun x h => hops x (List.mem_cons_of_mem _ h)
    have hc : call.wellTyped := hops _ List.mem_cons_self
    have ha' := step_alive h1 h2 hlim i hc hG ha
    by_cases hij : i = j
    · subst hij
      simp only [List.filter_cons_of_pos (p := fun x : Nat × SessionCall => decide (x.1 = i)) (a := (i, call)) (by simp),
        MdSpec.sessionRun, outcomesOf, List.zip_cons_cons]
      rw [List.filter_cons_of_pos (by simp), List.map_cons]
      obtain ⟨g1, g2, g3⟩ := call_lasting (call := call) h1 h2 hlim hc ⟨ha.1, hG⟩ hx hl
      obtain ⟨-, a2⟩ := step_of_call (dev := dev1) (call := call) k1
      obtain ⟨b1, b2⟩ := step_of_call (dev := dev2) (call := call) k2
      refine .cons ?_ (ih hops' ha' (by rw [b1]; exact g2.2) a2 b2 g3 g1)
      rcases step_related h1 h2 hlim hc ⟨ha.1, hG⟩ k1 k2 hx with ⟨ho, -⟩ | h
      · exact .inl ho
      · exact .inr h
    · have l1 : j < s1.2.length := (List.getElem?_eq_some_iff.mp k1).1
      have g1 := (sessionStep_other (dev1 := dev1) (call := call) hij l1).trans k1
      have := ih hops' ha' hG g1 k2 hx hl
      simp only [List.filter_cons_of_neg (p := fun x : Nat × SessionCall => decide (x.1 = j)) (a := (i, call))
        (by simpa using hij), MdSpec.sessionRun, outcomesOf, List.zip_cons_cons]
      rw [List.filter_cons_of_neg (by simpa using hij)]
      exact this

/-- A program that begins anew with handle `i`. -/
theorem fresh (h1 : SeekableVolume F lim1 dev1 G1 Is1 At1) (h2 : SeekableVolume False lim2 dev2 G2 Is2 At2)
    (hlim : Lims F lim1 lim2 c) {i n : Nat} (hi : i < n) (ops : List (Nat × SessionCall))
    (hops : ∀ x ∈ ops, x.2.wellTyped) :
    ∀ {s1 : W1 × List (Handle D1)} {s2 : W2 × List (Handle D2)}, Wd G1 G2 s1.1 s2.1 → 0 < s2.2.length →
      s1.2.length + 1 = n + s2.2.length →
      (∀ k x2, s2.2[k]? = some x2 → ∃ x1, s1.2[renumber i n k]? = some x1 ∧ Hd Is1 Is2 c x1 x2) →
      let o1 := MdSpec.sessionRun dev1 s1 (ops.map fun x => (renumber i n x.1, x.2))
      let o2 := MdSpec.sessionRun dev2 s2 ops
      o1 = o2 ∨ (F ∧ ∃ k e, o1.take k = o2.take k ∧ o1[k]? = some (.error e)) := by
  induction ops with
  | nil => exact fun _ _ _ _ => .inl rfl
  | cons x ops ih =>
    obtain ⟨k, call⟩ := x
    intro s1 s2 hw h0 hlen hrel
    have hops' := fun x h => hops x (List.mem_cons_of_mem _ h)
    have hc : call.wellTyped := hops _ List.mem_cons_self
    simp only [List.map_cons, MdSpec.sessionRun]
    cases k2 : s2.2[k]? with
    | none =>
      have hk := List.getElem?_eq_none_iff.mp k2
      have e2 : MdSpec.sessionStep dev2 k call s2 = (s2, .noSuchHandle) := by
        unfold MdSpec.sessionStep
        rw [k2]
      have e1 : MdSpec.sessionStep dev1 (renumber i n k) call s1 = (s1, .noSuchHandle) := by
        unfold MdSpec.sessionStep
        rw [List.getElem?_eq_none]
        unfold renumber
        split <;> omega
      rw [e1, e2]
      rcases ih hops' hw h0 hlen hrel with h | ⟨hF, k, e, h3, h4⟩
      · exact .inl (by rw [h])
      · exact .inr ⟨hF, k + 1, e, by rw [List.take_succ_cons, List.take_succ_cons, h3], h4⟩
    | some x2 =>
      obtain ⟨x1, k1, hx⟩ := hrel k x2 k2
      have l1 := (List.getElem?_eq_some_iff.mp k1).1
      have l2 := (List.getElem?_eq_some_iff.mp k2).1
      rcases step_related h1 h2 hlim hc hw k1 k2 hx with ⟨ho, hw', y1, y2, n1, n2, hy, hn, g1, g2⟩ | ⟨hF, e, he⟩
      · have hnl := hn.length_eq
        rcases ih hops' hw' (by rw [g2, List.length_append, List.length_set]; omega)
          (by rw [g1, g2, List.length_append, List.length_append, List.length_set, List.length_set]; omega) (by
            intro k' z2 hz
            rw [g2] at hz
            rw [g1]
            by_cases hk : k' < s2.2.length
            · rw [List.getElem?_append_left (by rw [List.length_set]; exact hk)] at hz
              by_cases hkk : k' = k
              · subst hkk
                rw [List.getElem?_set_self l2] at hz
                cases hz
                exact ⟨y1, set_append_self y1 l1, hy⟩
              · rw [List.getElem?_set_ne (Ne.symm hkk)] at hz
                obtain ⟨z1, a1, a2⟩ := hrel k' z2 hz
                refine ⟨z1, ?_, a2⟩
                have lz := (List.getElem?_eq_some_iff.mp a1).1
                rw [List.getElem?_append_left (by rw [List.length_set]; exact lz), List.getElem?_set_ne]
                · exact a1
                · unfold renumber
                  split <;> split <;> omega
            · rw [List.getElem?_append_right (by rw [List.length_set]; omega), List.length_set] at hz
              have hr : renumber i n k' = s1.2.length + (k' - s2.2.length) := by
                unfold renumber
                rw [if_neg (by omega)]
                omega
              rcases forall₂_get hn (k' - s2.2.length) with ⟨-, g⟩ | ⟨z1, z2', a1, a2, a3⟩
              · rw [hz] at g
                cases g
              · rw [hz] at a2
                cases a2
                refine ⟨z1, ?_, a3⟩
                rw [hr, List.getElem?_append_right (by rw [List.length_set]; omega), List.length_set,
                  Nat.add_sub_cancel_left]
                exact a1) with h | ⟨hF, k, e, h3, h4⟩
        · exact .inl (by rw [ho, h])
        · exact .inr ⟨hF, k + 1, e, by rw [List.take_succ_cons, List.take_succ_cons, ho, h3], h4⟩
      · exact .inr ⟨hF, 0, e, rfl, by rw [List.getElem?_cons_zero, he]⟩

end Ext4Sim
end MdRecover
