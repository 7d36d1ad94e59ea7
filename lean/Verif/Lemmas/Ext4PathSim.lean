import Verif.Lemmas.Ext4Sim
import Verif.Spec.Ext4Path

namespace MdRecover
open MdSpec
variable [Build]

namespace Ext4Sim
variable {F : Prop} {W1 D1 W2 D2 : Type} {dev1 : StreamDev W1 D1} {G1 : W1 → Prop}
  {Is1 : D1 → Bytes → Prop} {At1 : W1 → D1 → Nat → Prop} {dev2 : StreamDev W2 D2} {G2 : W2 → Prop}
  {Is2 : D2 → Bytes → Prop} {At2 : W2 → D2 → Nat → Prop} {lim1 lim2 : Nat → Nat} {c : Bytes}

omit [Build] in
theorem onNew {X1 X2 S1 S2 α : Type} {RX : X1 → X2 → Prop} {RS : S1 → S2 → Prop} {x1 : X1} {x2 : X2}
    (hx : RX x1 x2) {m1 : SM (W1 × X1) α} {m2 : SM (W2 × X2) α}
    (h : Sim F (Both G1 G2 RX) (Both G1 G2 RX) (fun a1 a2 s1 s2 => a1 = a2 ∧ Both G1 G2 RX s1 s2) m1 m2) :
    Sim F (Both G1 G2 RS) (Both G1 G2 RS) (fun a1 a2 s1 s2 => a1 = a2 ∧ Both G1 G2 RS s1 s2)
      (onHandle x1 m1) (onHandle x2 m2) := by
  refine Sim.zoom (ET := Both G1 G2 RX) ?_ ?_
  · intro s1 s2 hr
    refine Sim.weaken h ?_ ?_
    · rintro t1 t2 ⟨rfl, rfl⟩
      exact ⟨hr.1, hx⟩
    · intro a1 a2 t1 t2 h
      exact ⟨h.1, h.2.1, hr.2⟩
  · intro s1 s2 hr t1 t2 h
    exact ⟨h.1, hr.2⟩

theorem lookUp (h1 : SeekableVolume F lim1 dev1 G1 Is1 At1)
    (h2 : SeekableVolume False lim2 dev2 G2 Is2 At2)
    (hlim : Lims F lim1 lim2 c) (rounds : Nat) (name : Bytes) (k : Nat) :
    Sim F (Both G1 G2 (Dr Is1 Is2 c)) (Both G1 G2 (Dr Is1 Is2 c))
      (fun a1 a2 s1 s2 => a1 = a2 ∧ Both G1 G2 (Dr Is1 Is2 c) s1 s2)
      (lookUp dev1 rounds name k) (lookUp dev2 rounds name k) := by
  induction k with
  | zero => exact Sim.pure fun _ _ h => ⟨rfl, h⟩
  | succ k ih =>
    refine Sim.bindEq (readNextEntry h1 h2 hlim rounds) fun r => ?_
    match r with
    | none => exact Sim.pure fun _ _ h => ⟨rfl, h⟩
    | some none => exact Sim.pure fun _ _ h => ⟨rfl, h⟩
    | some (some e) =>
      simp only
      split
      · exact Sim.pure fun _ _ h => ⟨rfl, h⟩
      · exact ih

theorem readBlocks (h1 : SeekableVolume F lim1 dev1 G1 Is1 At1)
    (h2 : SeekableVolume False lim2 dev2 G2 Is2 At2)
    (hlim : Lims F lim1 lim2 c) (rounds bs : Nat) (k : Nat) :
    Sim F (Both G1 G2 (Fl Is1 Is2 c)) (Both G1 G2 (Fl Is1 Is2 c))
      (fun a1 a2 s1 s2 => a1 = a2 ∧ Both G1 G2 (Fl Is1 Is2 c) s1 s2)
      (readBlocks dev1 rounds bs k) (readBlocks dev2 rounds bs k) := by
  induction k with
  | zero => exact Sim.pure fun _ _ h => ⟨rfl, h⟩
  | succ k ih =>
    refine Sim.bindEq (readNextBlock h1 h2 hlim rounds _) fun r => ?_
    match r with
    | none => exact Sim.pure fun _ _ h => ⟨rfl, h⟩
    | some (n, b) =>
      simp only
      split
      · exact Sim.pure fun _ _ h => ⟨rfl, h⟩
      · exact Sim.bindEq ih fun rest => Sim.pure fun _ _ h => ⟨rfl, h⟩

theorem follow (h1 : SeekableVolume F lim1 dev1 G1 Is1 At1)
    (h2 : SeekableVolume False lim2 dev2 G2 Is2 At2)
    (hlim : Lims F lim1 lim2 c) (rounds : Nat) (names : List Bytes) :
    ∀ n, Sim F (Both G1 G2 (Fs Is1 Is2 c)) (Both G1 G2 (Fs Is1 Is2 c))
      (fun a1 a2 s1 s2 => a1 = a2 ∧ Both G1 G2 (Fs Is1 Is2 c) s1 s2)
      (follow dev1 rounds names n) (follow dev2 rounds names n) := by
  induction names with
  | nil =>
    intro n
    refine Sim.bind (openFile h1 h2 hlim n) fun a1 a2 => ?_
    by_cases ha : Op Is1 Is2 c a1 a2
    · match a1, a2, ha with
      | .directory _, .directory _, _ => exact Sim.pure fun _ _ h => ⟨rfl, h.2⟩
      | .unsupported _, .unsupported _, _ => exact Sim.pure fun _ _ h => ⟨rfl, h.2⟩
      | .regularFile f1, .regularFile f2, ha =>
        have ha : Fl Is1 Is2 c f1 f2 := ha
        simp only [ha.blockSize]
        refine Sim.bindEq (Sim.lift (fun _ _ h => h.2) fun _ _ _ _ h => ⟨rfl, h.2⟩) fun bs => ?_
        exact Sim.bindEq (onNew ha (readBlocks h1 h2 hlim rounds bs rounds)) fun r =>
          Sim.pure fun _ _ h => ⟨rfl, h⟩
    · exact fun s1 s2 h => absurd h.1 ha
  | cons name names ih =>
    intro n
    refine Sim.bind (openFile h1 h2 hlim n) fun a1 a2 => ?_
    by_cases ha : Op Is1 Is2 c a1 a2
    · match a1, a2, ha with
      | .regularFile _, .regularFile _, _ => exact Sim.pure fun _ _ h => ⟨rfl, h.2⟩
      | .unsupported _, .unsupported _, _ => exact Sim.pure fun _ _ h => ⟨rfl, h.2⟩
      | .directory d1, .directory d2, ha =>
        have ha : Dr Is1 Is2 c d1 d2 := ha
        refine Sim.bindEq (R'' := Both G1 G2 (Fs Is1 Is2 c))
          (Sim.weaken (onNew ha (lookUp h1 h2 hlim rounds name rounds)) (fun _ _ h => h.2)
            fun _ _ _ _ h => h) fun r => ?_
        match r with
        | none => exact Sim.pure fun _ _ h => ⟨rfl, h⟩
        | some none => exact Sim.pure fun _ _ h => ⟨rfl, h⟩
        | some (some m) => exact ih m
    · exact fun s1 s2 h => absurd h.1 ha

theorem readPath (h1 : SeekableVolume F lim1 dev1 G1 Is1 At1)
    (h2 : SeekableVolume False lim2 dev2 G2 Is2 At2)
    (hlim : Lims F lim1 lim2 c) {d1 : D1} {d2 : D2} (hd : Dv Is1 Is2 c d1 d2) (rounds : Nat)
    (names : List Bytes) :
    Sim F (Wd G1 G2) (Wd G1 G2) (fun a1 a2 w1 w2 => a1 = a2 ∧ Wd G1 G2 w1 w2)
      (readPath dev1 rounds d1 names) (readPath dev2 rounds d2 names) := by
  refine Sim.bind («open» h1 h2 hlim hd) fun f1 f2 => ?_
  refine Sim.withLocal (ET := Both G1 G2 (Fs Is1 Is2 c)) ?_ fun _ _ h => h.1
  refine Sim.weaken (follow h1 h2 hlim rounds names 2) ?_ fun _ _ _ _ h => ⟨h.1, h.2.1⟩
  rintro ⟨w1, _⟩ ⟨w2, _⟩ ⟨⟨hf, hw⟩, rfl, rfl⟩
  exact ⟨hw, hf⟩

end Ext4Sim
end MdRecover
