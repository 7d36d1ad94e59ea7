import Verif.Lemmas.Sim
import Verif.Lemmas.Ext4Fs

namespace MdRecover
variable [Build]
open MdSpec

namespace Ext4Sim
variable {W1 D1 W2 D2 : Type} {F : Prop} {dev1 : StreamDev W1 D1} {G1 : W1 → Prop}
  {Is1 : D1 → Bytes → Prop} {At1 : W1 → D1 → Nat → Prop} {dev2 : StreamDev W2 D2} {G2 : W2 → Prop}
  {Is2 : D2 → Bytes → Prop} {At2 : W2 → D2 → Nat → Prop} {lim1 lim2 : Nat → Nat} {c : Bytes}

/-- Related worlds. -/
def Wd (G1 : W1 → Prop) (G2 : W2 → Prop) (w1 : W1) (w2 : W2) : Prop := G1 w1 ∧ G2 w2

/-- Related devices. -/
def Dv (Is1 : D1 → Bytes → Prop) (Is2 : D2 → Bytes → Prop) (c : Bytes) (d1 : D1) (d2 : D2) : Prop :=
  Is1 d1 c ∧ Is2 d2 c

/-- Pairs with related components. -/
def Both {X1 X2 : Type} (G1 : W1 → Prop) (G2 : W2 → Prop) (R : X1 → X2 → Prop) (s1 : W1 × X1)
    (s2 : W2 × X2) : Prop := Wd G1 G2 s1.1 s2.1 ∧ R s1.2 s2.2

/-- The devices accept the same positions, or the first may fail and accepts fewer. -/
def Lims (F : Prop) (lim1 lim2 : Nat → Nat) (c : Bytes) : Prop :=
  lim1 c.length = lim2 c.length ∨ (F ∧ lim1 c.length ≤ lim2 c.length)

/-- Positions that read the same: equal, or both beyond the end. -/
def Pos (G1 : W1 → Prop) (G2 : W2 → Prop) (Is1 : D1 → Bytes → Prop) (Is2 : D2 → Bytes → Prop)
    (At1 : W1 → D1 → Nat → Prop) (At2 : W2 → D2 → Nat → Prop) (c : Bytes) (s1 : W1 × D1)
    (s2 : W2 × D2) : Prop :=
  Both G1 G2 (Dv Is1 Is2 c) s1 s2 ∧ ∃ q1 q2, At1 s1.1 s1.2 q1 ∧ At2 s2.1 s2.2 q2 ∧
    (q1 = q2 ∨ (c.length ≤ q1 ∧ c.length ≤ q2))

omit [Build] in
theorem seek (h1 : SeekableVolume F lim1 dev1 G1 Is1 At1) (h2 : SeekableVolume False lim2 dev2 G2 Is2 At2)
    (hlim : Lims F lim1 lim2 c)
    {p : Nat} (hp : p < U64) :
    Sim F (Both G1 G2 (Dv Is1 Is2 c)) (Both G1 G2 (Dv Is1 Is2 c))
      (fun _ _ => Pos G1 G2 Is1 Is2 At1 At2 c) (dev1.seek (.start p)) (dev2.seek (.start p)) := by
  rintro ⟨w1, d1⟩ ⟨w2, d2⟩ ⟨⟨hG1, hG2⟩, hI1, hI2⟩
  rcases e1 : dev1.seek (.start p) (w1, d1) with ⟨⟨w1', d1'⟩, r1⟩
  rcases e2 : dev2.seek (.start p) (w2, d2) with ⟨⟨w2', d2'⟩, r2⟩
  obtain ⟨hG1', hI1', a1⟩ := h1.seek hG1 hI1 p hp e1
  obtain ⟨hG2', hI2', a2⟩ := h2.seek hG2 hI2 p hp e2
  by_cases hp1 : lim1 c.length < p
  · have b1 := h1.seekRefused hG1 hI1 p hp hp1
    rw [e1] at b1
    simp only at b1
    rcases b1 with rfl | ⟨hF, e, rfl⟩
    · rcases hlim with hl | ⟨hF, -⟩
      · have b2 := h2.seekRefused hG2 hI2 p hp (by omega)
        rw [e2] at b2
        simp only at b2
        rcases b2 with rfl | ⟨hF, -⟩
        · exact .inr (.inl ⟨_, _, _, rfl, rfl, ⟨hG1', hG2'⟩, hI1', hI2'⟩)
        · exact hF.elim
      · exact .inr (.inr (.inr ⟨hF, _, _, rfl, (w2', d2'), ⟨hG1', hG2'⟩, hI1', hI2'⟩))
    · exact .inr (.inr (.inr ⟨hF, _, _, rfl, (w2', d2'), ⟨hG1', hG2'⟩, hI1', hI2'⟩))
  have b1 := h1.seekAccepted hG1 hI1 p hp (by omega)
  have b2 := h2.seekAccepted hG2 hI2 p hp (by rcases hlim with hl | ⟨-, hl⟩ <;> omega)
  rw [e1] at b1
  rw [e2] at b2
  rcases b1 with ⟨x1, b1⟩ | ⟨hF, x1, b1⟩
  · rcases b2 with ⟨x2, b2⟩ | ⟨hF, -⟩
    · simp only at b1 b2
      subst b1 b2
      rcases a1 with ⟨q1, c1, hA1, k1, l1⟩ | ⟨-, e, c1⟩
      · rcases a2 with ⟨q2, c2, hA2, k2, l2⟩ | ⟨-, e, c2⟩
        · cases c1
          cases c2
          refine .inl ⟨_, _, x1, x2, rfl, rfl, ⟨⟨hG1', hG2'⟩, hI1', hI2'⟩, x1, x2, hA1, hA2, ?_⟩
          by_cases hpc : p ≤ c.length
          · exact .inl ((k1 hpc).trans (k2 hpc).symm)
          · exact .inr ⟨l1 (by omega), l2 (by omega)⟩
        · cases c2
      · cases c1
    · exact hF.elim
  · simp only at b1
    subst b1
    exact .inr (.inr (.inr ⟨hF, _, x1, rfl, (w2', d2'), ⟨hG1', hG2'⟩, hI1', hI2'⟩))

omit [Build] in
theorem readExact (h1 : SeekableVolume F lim1 dev1 G1 Is1 At1)
    (h2 : SeekableVolume False lim2 dev2 G2 Is2 At2)
    (hlim : Lims F lim1 lim2 c) (buf : Bytes) :
    Sim F (Both G1 G2 (Dv Is1 Is2 c)) (Pos G1 G2 Is1 Is2 At1 At2 c)
      (fun a1 a2 s1 s2 => a1 = a2 ∧ Pos G1 G2 Is1 Is2 At1 At2 c s1 s2)
      (readExact dev1.read buf) (readExact dev2.read buf) := by
  rintro ⟨w1, d1⟩ ⟨w2, d2⟩ ⟨⟨⟨hG1, hG2⟩, hI1, hI2⟩, q1, q2, hA1, hA2, hq⟩
  obtain ⟨w1', d1', hG1', hI1', k1⟩ := volume_readExact h1.toVolumeSpec hG1 hI1 hA1 buf
  obtain ⟨w2', d2', hG2', hI2', k2⟩ := volume_readExact h2.toVolumeSpec hG2 hI2 hA2 buf
  have hb : buf ≠ [] → 0 < buf.length := List.length_pos_iff.mpr
  rcases k1 with ⟨hF, e, k1⟩ | ⟨l1, hb1, k1⟩ | ⟨l1, hA1', k1⟩
  · exact .inr (.inr (.inr ⟨hF, _, e, k1, (w2', d2'), ⟨hG1', hG2'⟩, hI1', hI2'⟩))
  · have hb1 := hb hb1
    rcases k2 with ⟨hF, -⟩ | ⟨l2, hb2, k2⟩ | ⟨l2, hA2', k2⟩
    · exact hF.elim
    · exact .inr (.inl ⟨_, _, _, k1, k2, ⟨hG1', hG2'⟩, hI1', hI2'⟩)
    · exfalso
      rcases l2 with rfl | l2
      · simp at hb1
      · omega
  · rcases k2 with ⟨hF, -⟩ | ⟨l2, hb2, k2⟩ | ⟨l2, hA2', k2⟩
    · exact hF.elim
    · exfalso
      have hb2 := hb hb2
      rcases l1 with rfl | l1
      · simp at hb2
      · omega
    · refine .inl ⟨_, _, _, _, k1, k2, ?_, ⟨⟨hG1', hG2'⟩, hI1', hI2'⟩, _, _, hA1', hA2', by omega⟩
      rcases hq with rfl | hq
      · rfl
      · rcases l1 with rfl | l1
        · simp [slice]
        · have : buf = [] := by
            apply List.eq_nil_of_length_eq_zero; omega
          subst this
          simp [slice]

omit [Build] in
/-- `try_clone` of the device. -/
theorem tryClone (h1 : SeekableVolume F lim1 dev1 G1 Is1 At1)
    (h2 : SeekableVolume False lim2 dev2 G2 Is2 At2)
    (hlim : Lims F lim1 lim2 c) {d1 : D1} {d2 : D2} (hd : Dv Is1 Is2 c d1 d2) :
    Sim F (Wd G1 G2) (Wd G1 G2)
      (fun a1 a2 w1 w2 => Dv Is1 Is2 c a1 a2 ∧ Wd G1 G2 w1 w2)
      (dev1.tryClone d1) (dev2.tryClone d2) := by
  rintro w1 w2 ⟨hG1, hG2⟩
  rcases e1 : dev1.tryClone d1 w1 with ⟨w1', r1⟩
  rcases e2 : dev2.tryClone d2 w2 with ⟨w2', r2⟩
  obtain ⟨hG1', a1⟩ := h1.tryClone hG1 hd.1 e1
  obtain ⟨hG2', a2⟩ := h2.tryClone hG2 hd.2 e2
  rcases a1 with ⟨x1, rfl, hx1⟩ | ⟨hF, e, rfl⟩
  · rcases a2 with ⟨x2, rfl, hx2⟩ | ⟨hF, -⟩
    · exact .inl ⟨_, _, x1, x2, rfl, rfl, ⟨hx1, hx2⟩, hG1', hG2'⟩
    · exact hF.elim
  · exact .inr (.inr (.inr ⟨hF, _, e, rfl, w2', hG1', hG2'⟩))

/-- Related filesystems. -/
def Fs (Is1 : D1 → Bytes → Prop) (Is2 : D2 → Bytes → Prop) (c : Bytes) (f1 : Ext4Fs D1)
    (f2 : Ext4Fs D2) : Prop :=
  Dv Is1 Is2 c f1.device f2.device ∧ f1.superblock = f2.superblock ∧ f1.groups = f2.groups

omit [Build] in
theorem readGroups (h1 : SeekableVolume F lim1 dev1 G1 Is1 At1)
    (h2 : SeekableVolume False lim2 dev2 G2 Is2 At2)
    (hlim : Lims F lim1 lim2 c) (size n : Nat) :
    Sim F (Both G1 G2 (Dv Is1 Is2 c)) (Pos G1 G2 Is1 Is2 At1 At2 c)
      (fun a1 a2 s1 s2 => a1 = a2 ∧ Pos G1 G2 Is1 Is2 At1 At2 c s1 s2)
      (Ext4Fs.readGroups dev1 size n) (Ext4Fs.readGroups dev2 size n) := by
  induction n with
  | zero => exact Sim.pure fun s1 s2 h => ⟨rfl, h⟩
  | succ n ih =>
    exact Sim.bindEq (readExact h1 h2 hlim _) fun a => Sim.bindEq ih fun b =>
      Sim.pure fun s1 s2 h => ⟨rfl, h⟩

theorem superblock (h1 : SeekableVolume F lim1 dev1 G1 Is1 At1)
    (h2 : SeekableVolume False lim2 dev2 G2 Is2 At2)
    (hlim : Lims F lim1 lim2 c) :
    Sim F (Both G1 G2 (Dv Is1 Is2 c)) (Pos G1 G2 Is1 Is2 At1 At2 c)
      (fun a1 a2 s1 s2 => a1 = a2 ∧ Pos G1 G2 Is1 Is2 At1 At2 c s1 s2)
      (Ext4Superblock.read dev1.read) (Ext4Superblock.read dev2.read) := by
  refine Sim.bindEq (readExact h1 h2 hlim _) fun a => ?_
  refine Sim.bindEq (Sim.lift (fun _ _ h => h.1) fun v _ s1 s2 h => ⟨rfl, h⟩) fun v => ?_
  by_cases hv : v = true
  · rw [if_pos hv, if_pos hv]; exact Sim.pure fun s1 s2 h => ⟨rfl, h⟩
  · rw [if_neg hv, if_neg hv]; exact Sim.fail fun _ _ h => h.1

theorem mul64_lt {a b n : Nat} (h : mul64 a b = .ok n) : n < U64 := by
  unfold mul64 at h
  split at h
  · cases h; assumption
  · split at h
    · cases h
    · cases h
      exact Nat.mod_lt _ (by decide)

theorem openBody (h1 : SeekableVolume F lim1 dev1 G1 Is1 At1)
    (h2 : SeekableVolume False lim2 dev2 G2 Is2 At2)
    (hlim : Lims F lim1 lim2 c) :
    Sim F (Both G1 G2 (Dv Is1 Is2 c)) (Both G1 G2 (Dv Is1 Is2 c))
      (fun a1 a2 s1 s2 => a1 = a2 ∧ Both G1 G2 (Dv Is1 Is2 c) s1 s2)
      (Ext4Fs.openBody dev1) (Ext4Fs.openBody dev2) := by
  refine Sim.bind (seek h1 h2 hlim (by decide)) fun _ _ => ?_
  refine Sim.bindEq (superblock h1 h2 hlim) fun sb => ?_
  refine Sim.bindEq (Sim.lift (fun _ _ h => h.1) fun v _ s1 s2 h => ⟨rfl, h⟩) fun n => ?_
  by_cases hu : Ext4Fs.unsupported sb = true
  · rw [if_pos hu, if_pos hu]; exact Sim.fail fun _ _ h => h.1
  · rw [if_neg hu, if_neg hu]
    refine Sim.bindEq (Sim.lift (fun _ _ h => h.1) fun v _ s1 s2 h => ⟨rfl, h⟩) fun bs => ?_
    refine Sim.bind (Sim.lift (Q := fun a1 a2 s1 s2 => (a1 = a2 ∧ a1 < U64) ∧
      Both G1 G2 (Dv Is1 Is2 c) s1 s2) (fun _ _ h => h.1)
      fun v hv s1 s2 h => ⟨⟨rfl, mul64_lt hv⟩, h.1⟩) fun p1 p2 => ?_
    by_cases hp : p1 = p2 ∧ p1 < U64
    · obtain ⟨rfl, hp⟩ := hp
      refine Sim.bind (Sim.weaken (seek h1 h2 hlim hp) (fun _ _ h => h.2) fun _ _ _ _ h => h)
        fun _ _ => ?_
      refine Sim.bindEq (Sim.lift (fun _ _ h => h.1) fun v _ s1 s2 h => ⟨rfl, h⟩) fun _ => ?_
      refine Sim.bindEq (readGroups h1 h2 hlim _ _) fun gs => ?_
      exact Sim.pure fun s1 s2 h => ⟨rfl, h.1⟩
    · rintro s1 s2 ⟨h, -⟩
      exact absurd h hp

theorem «open» (h1 : SeekableVolume F lim1 dev1 G1 Is1 At1)
    (h2 : SeekableVolume False lim2 dev2 G2 Is2 At2)
    (hlim : Lims F lim1 lim2 c) {d1 : D1} {d2 : D2} (hd : Dv Is1 Is2 c d1 d2) :
    Sim F (Wd G1 G2) (Wd G1 G2)
      (fun a1 a2 w1 w2 => Fs Is1 Is2 c a1 a2 ∧ Wd G1 G2 w1 w2)
      (Ext4Fs.open dev1 d1) (Ext4Fs.open dev2 d2) := by
  refine Sim.withLocal (ET := Both G1 G2 (Dv Is1 Is2 c)) ?_ fun _ _ h => h.1
  refine Sim.bindEq (R'' := Both G1 G2 (Dv Is1 Is2 c))
    (Sim.weaken (openBody h1 h2 hlim) ?_ fun _ _ _ _ h => h) fun a => ?_
  · rintro ⟨w1, e1⟩ ⟨w2, e2⟩ ⟨h, rfl, rfl⟩
    exact ⟨h, hd⟩
  · refine Sim.getBind ?_
    rintro ⟨w1, e1⟩ ⟨w2, e2⟩ h
    refine Sim.pure ?_
    rintro s1 s2 ⟨rfl, rfl⟩
    exact ⟨⟨h.2, rfl, rfl⟩, h.1⟩

omit [Build] in
/-- Seek and read through a filesystem. -/
theorem readAt (h1 : SeekableVolume F lim1 dev1 G1 Is1 At1)
    (h2 : SeekableVolume False lim2 dev2 G2 Is2 At2)
    (hlim : Lims F lim1 lim2 c) {α1 α2 : Type}
    {Q : α1 → α2 → W1 × Ext4Fs D1 → W2 × Ext4Fs D2 → Prop} {p : Nat} (hp : p < U64) (buf : Bytes)
    {k1 : Bytes → SM (W1 × Ext4Fs D1) α1} {k2 : Bytes → SM (W2 × Ext4Fs D2) α2}
    (hk : ∀ b, Sim F (Both G1 G2 (Fs Is1 Is2 c)) (Both G1 G2 (Fs Is1 Is2 c)) Q (k1 b) (k2 b)) :
    Sim F (Both G1 G2 (Fs Is1 Is2 c)) (Both G1 G2 (Fs Is1 Is2 c)) Q
      (do
        let _ ← Ext4Fs.onDevice (dev1.seek (.start p))
        let b ← Ext4Fs.onDevice (MdRecover.readExact dev1.read buf)
        k1 b)
      (do
        let _ ← Ext4Fs.onDevice (dev2.seek (.start p))
        let b ← Ext4Fs.onDevice (MdRecover.readExact dev2.read buf)
        k2 b) := by
  refine Sim.bind (Q := fun _ _ s1 s2 => Both G1 G2 (Fs Is1 Is2 c) s1 s2 ∧
    Pos G1 G2 Is1 Is2 At1 At2 c (s1.1, s1.2.device) (s2.1, s2.2.device)) ?_ fun _ _ => ?_
  · refine Sim.zoom (ET := Both G1 G2 (Dv Is1 Is2 c)) ?_ ?_
    · rintro ⟨w1, f1⟩ ⟨w2, f2⟩ h
      refine Sim.weaken (seek h1 h2 hlim hp) ?_ ?_
      · rintro t1 t2 ⟨rfl, rfl⟩
        exact ⟨h.1, h.2.1⟩
      · rintro _ _ ⟨x1, y1⟩ ⟨x2, y2⟩ hq
        exact ⟨⟨hq.1.1, hq.1.2, h.2.2⟩, hq⟩
    · rintro ⟨w1, f1⟩ ⟨w2, f2⟩ h ⟨x1, y1⟩ ⟨x2, y2⟩ hq
      exact ⟨hq.1, hq.2, h.2.2⟩
  · refine Sim.bindEq (R'' := Both G1 G2 (Fs Is1 Is2 c)) ?_ hk
    refine Sim.zoom (ET := Both G1 G2 (Dv Is1 Is2 c)) ?_ ?_
    · rintro ⟨w1, f1⟩ ⟨w2, f2⟩ h
      refine Sim.weaken (readExact h1 h2 hlim buf) ?_ ?_
      · rintro t1 t2 ⟨rfl, rfl⟩
        exact h.2
      · rintro _ _ ⟨x1, y1⟩ ⟨x2, y2⟩ hq
        exact ⟨hq.1, ⟨hq.2.1.1, hq.2.1.2, h.1.2.2⟩⟩
    · rintro ⟨w1, f1⟩ ⟨w2, f2⟩ h ⟨x1, y1⟩ ⟨x2, y2⟩ hq
      exact ⟨hq.1, hq.2, h.1.2.2⟩

omit [Build] in
theorem ofOption_mul64_lt {e : ErrKind} {a b n : Nat}
    (h : Res.ofOption e (checkedMul64 a b) = .ok n) : n < U64 := by
  unfold checkedMul64 at h
  split at h
  · cases h; assumption
  · cases h

omit [Build] in
theorem bind_ok_inv {α β : Type} {r : Res α} {k : α → Res β} {b : β} (h : (r >>= k) = .ok b) :
    ∃ a, r = .ok a ∧ k a = .ok b := by
  rcases r with a | e | _
  · exact ⟨a, rfl, h⟩
  · cases h
  · cases h

theorem inodeOffset_lt {D : Type} {fs : Ext4Fs D} {number n : Nat}
    (h : Ext4Fs.inodeOffset fs number = .ok n) : n < U64 := by
  unfold Ext4Fs.inodeOffset at h
  split at h
  · cases h
  · obtain ⟨_, -, h⟩ := bind_ok_inv h
    obtain ⟨_, -, h⟩ := bind_ok_inv h
    obtain ⟨_, -, h⟩ := bind_ok_inv h
    obtain ⟨_, -, h⟩ := bind_ok_inv h
    obtain ⟨_, -, h⟩ := bind_ok_inv h
    unfold checkedAdd64 at h
    split at h
    · cases h; assumption
    · cases h

theorem readInode (h1 : SeekableVolume F lim1 dev1 G1 Is1 At1)
    (h2 : SeekableVolume False lim2 dev2 G2 Is2 At2)
    (hlim : Lims F lim1 lim2 c) (number : Nat) :
    Sim F (Both G1 G2 (Fs Is1 Is2 c)) (Both G1 G2 (Fs Is1 Is2 c))
      (fun a1 a2 s1 s2 => a1 = a2 ∧ Both G1 G2 (Fs Is1 Is2 c) s1 s2)
      (Ext4Fs.readInode dev1 number) (Ext4Fs.readInode dev2 number) := by
  refine Sim.getBind ?_
  rintro ⟨w1, d1, sb, gs⟩ ⟨w2, d2, _, _⟩ ⟨hw, hd, rfl, rfl⟩
  refine Sim.bind (Sim.lift (r := Ext4Fs.inodeOffset ⟨d1, sb, gs⟩ number)
    (Q := fun a1 a2 s1 s2 => (a1 = a2 ∧ a1 < U64) ∧ Both G1 G2 (Fs Is1 Is2 c) s1 s2) ?_ ?_)
    fun p1 p2 => ?_
  · rintro s1 s2 ⟨rfl, rfl⟩
    exact ⟨hw, hd, rfl, rfl⟩
  · rintro p hp s1 s2 ⟨rfl, rfl⟩
    exact ⟨⟨rfl, inodeOffset_lt hp⟩, hw, hd, rfl, rfl⟩
  · by_cases hp : p1 = p2 ∧ p1 < U64
    · obtain ⟨rfl, hp⟩ := hp
      refine Sim.weaken (readAt (Q := fun a1 a2 s1 s2 => a1 = a2 ∧ Both G1 G2 (Fs Is1 Is2 c) s1 s2)
        h1 h2 hlim hp _ fun b => ?_) (fun _ _ h => h.2) fun _ _ _ _ h => h
      exact Sim.lift (fun _ _ h => h) fun _ _ _ _ h => ⟨rfl, h⟩
    · rintro s1 s2 ⟨h, -⟩
      exact absurd h hp

theorem readBlock (h1 : SeekableVolume F lim1 dev1 G1 Is1 At1)
    (h2 : SeekableVolume False lim2 dev2 G2 Is2 At2)
    (hlim : Lims F lim1 lim2 c) (number : Nat) (buf : Bytes) :
    Sim F (Both G1 G2 (Fs Is1 Is2 c)) (Both G1 G2 (Fs Is1 Is2 c))
      (fun a1 a2 s1 s2 => a1 = a2 ∧ Both G1 G2 (Fs Is1 Is2 c) s1 s2)
      (Ext4Fs.readBlock dev1 number buf) (Ext4Fs.readBlock dev2 number buf) := by
  refine Sim.getBind ?_
  rintro ⟨w1, d1, sb, gs⟩ ⟨w2, d2, _, _⟩ ⟨hw, hd, rfl, rfl⟩
  refine Sim.bindEq (R'' := Both G1 G2 (Fs Is1 Is2 c))
    (Sim.lift (r := sb.blockSizeBytes) ?_ ?_) fun bs => ?_
  · rintro s1 s2 ⟨rfl, rfl⟩
    exact ⟨hw, hd, rfl, rfl⟩
  · rintro p hp s1 s2 ⟨rfl, rfl⟩
    exact ⟨rfl, hw, hd, rfl, rfl⟩
  by_cases hl : buf.length < bs
  · rw [if_pos hl, if_pos hl]; exact Sim.fail fun _ _ h => h
  rw [if_neg hl, if_neg hl]
  refine Sim.bind (Sim.lift
    (Q := fun a1 a2 s1 s2 => (a1 = a2 ∧ a1 < U64) ∧ Both G1 G2 (Fs Is1 Is2 c) s1 s2)
    (fun _ _ h => h) fun p hp s1 s2 h => ⟨⟨rfl, ofOption_mul64_lt hp⟩, h⟩) fun p1 p2 => ?_
  by_cases hp : p1 = p2 ∧ p1 < U64
  · obtain ⟨rfl, hp⟩ := hp
    have := readAt (Q := fun a1 a2 s1 s2 => a1 = a2 ∧ Both G1 G2 (Fs Is1 Is2 c) s1 s2)
      h1 h2 hlim hp buf (k1 := fun b => Pure.pure b) (k2 := fun b => Pure.pure b)
      (fun b => Sim.pure fun _ _ h => ⟨rfl, h⟩)
    simp only [SM.bind_pure] at this
    exact Sim.weaken this (fun _ _ h => h.2) fun _ _ _ _ h => h
  · rintro s1 s2 ⟨h, -⟩
    exact absurd h hp

omit [Build] in
theorem cloneFs (h1 : SeekableVolume F lim1 dev1 G1 Is1 At1)
    (h2 : SeekableVolume False lim2 dev2 G2 Is2 At2)
    (hlim : Lims F lim1 lim2 c) {f1 : Ext4Fs D1} {f2 : Ext4Fs D2}
    (hf : Fs Is1 Is2 c f1 f2) :
    Sim F (Wd G1 G2) (Wd G1 G2)
      (fun a1 a2 w1 w2 => Fs Is1 Is2 c a1 a2 ∧ Wd G1 G2 w1 w2)
      (Ext4Fs.tryClone dev1 f1) (Ext4Fs.tryClone dev2 f2) :=
  Sim.bind (tryClone h1 h2 hlim hf.1) fun _ _ => Sim.pure fun _ _ h => ⟨⟨h.1, hf.2⟩, h.2⟩

/-- Related files. -/
def Fl (Is1 : D1 → Bytes → Prop) (Is2 : D2 → Bytes → Prop) (c : Bytes) (f1 : Ext4File D1)
    (f2 : Ext4File D2) : Prop :=
  Fs Is1 Is2 c f1.fs f2.fs ∧ f1.inode = f2.inode ∧ f1.stack = f2.stack ∧ f1.blockPos = f2.blockPos ∧
    f1.bytePos = f2.bytePos

theorem Fl.blockSize {f1 : Ext4File D1} {f2 : Ext4File D2} (h : Fl Is1 Is2 c f1 f2) :
    f1.blockSize = f2.blockSize := by
  unfold Ext4File.blockSize Ext4Fs.blockSize
  rw [h.1.2.1]

omit [Build] in
theorem Fl.fileSizeBytes {f1 : Ext4File D1} {f2 : Ext4File D2} (h : Fl Is1 Is2 c f1 f2) :
    f1.fileSizeBytes = f2.fileSizeBytes := by
  unfold Ext4File.fileSizeBytes
  rw [h.2.1]

theorem onFs_readBlock (h1 : SeekableVolume F lim1 dev1 G1 Is1 At1)
    (h2 : SeekableVolume False lim2 dev2 G2 Is2 At2)
    (hlim : Lims F lim1 lim2 c) (number : Nat) (buf : Bytes) :
    Sim F (Both G1 G2 (Fl Is1 Is2 c)) (Both G1 G2 (Fl Is1 Is2 c))
      (fun a1 a2 s1 s2 => a1 = a2 ∧ Both G1 G2 (Fl Is1 Is2 c) s1 s2)
      (Ext4File.onFs (Ext4Fs.readBlock dev1 number buf))
      (Ext4File.onFs (Ext4Fs.readBlock dev2 number buf)) := by
  refine Sim.zoom (ET := Both G1 G2 (Fs Is1 Is2 c)) ?_ ?_
  · rintro ⟨w1, f1⟩ ⟨w2, f2⟩ h
    refine Sim.weaken (readBlock h1 h2 hlim number buf) ?_ ?_
    · rintro t1 t2 ⟨rfl, rfl⟩
      exact ⟨h.1, h.2.1⟩
    · rintro _ _ ⟨x1, y1⟩ ⟨x2, y2⟩ hq
      exact ⟨hq.1, hq.2.1, hq.2.2, h.2.2⟩
  · rintro ⟨w1, f1⟩ ⟨w2, f2⟩ h ⟨x1, y1⟩ ⟨x2, y2⟩ hq
    exact ⟨hq.1, hq.2, h.2.2⟩

omit [Build] in
theorem setStack (st : List StackEntry) :
    Sim F (Both G1 G2 (Fl Is1 Is2 c)) (Both G1 G2 (Fl Is1 Is2 c))
      (fun a1 a2 s1 s2 => a1 = a2 ∧ Both G1 G2 (Fl Is1 Is2 c) s1 s2)
      (Ext4File.setStack st) (Ext4File.setStack st) := by
  refine Sim.modify ?_
  rintro ⟨w1, f1⟩ ⟨w2, f2⟩ h
  exact ⟨rfl, h.1, h.2.1, h.2.2.1, rfl, h.2.2.2.2⟩

omit [Build] in
/-- The usual shape: both read their state first. -/
theorem getFile {α : Type} {k1 : W1 × Ext4File D1 → SM (W1 × Ext4File D1) α}
    {k2 : W2 × Ext4File D2 → SM (W2 × Ext4File D2) α}
    (h : ∀ s1 s2, Both G1 G2 (Fl Is1 Is2 c) s1 s2 →
      Sim F (Both G1 G2 (Fl Is1 Is2 c)) (Both G1 G2 (Fl Is1 Is2 c))
      (fun a1 a2 s1 s2 => a1 = a2 ∧ Both G1 G2 (Fl Is1 Is2 c) s1 s2) (k1 s1) (k2 s2)) :
    Sim F (Both G1 G2 (Fl Is1 Is2 c)) (Both G1 G2 (Fl Is1 Is2 c))
      (fun a1 a2 s1 s2 => a1 = a2 ∧ Both G1 G2 (Fl Is1 Is2 c) s1 s2)
      (SM.get >>= k1) (SM.get >>= k2) := by
  refine Sim.getBind fun s1 s2 hr => ?_
  refine Sim.weaken (h s1 s2 hr) ?_ fun _ _ _ _ h => h
  rintro t1 t2 ⟨rfl, rfl⟩
  exact hr

theorem stepBranch (h1 : SeekableVolume F lim1 dev1 G1 Is1 At1)
    (h2 : SeekableVolume False lim2 dev2 G2 Is2 At2)
    (hlim : Lims F lim1 lim2 c) (n : ExtentNode) (pos : Nat)
    (rest : List StackEntry) :
    Sim F (Both G1 G2 (Fl Is1 Is2 c)) (Both G1 G2 (Fl Is1 Is2 c))
      (fun a1 a2 s1 s2 => a1 = a2 ∧ Both G1 G2 (Fl Is1 Is2 c) s1 s2)
      (Ext4File.stepBranch dev1 n pos rest) (Ext4File.stepBranch dev2 n pos rest) := by
  refine getFile fun s1 s2 hr => ?_
  refine Sim.bindEq (Sim.lift (fun _ _ h => h) fun _ _ _ _ h => ⟨rfl, h⟩) fun e => ?_
  simp only
  rw [hr.2.2.2.2.1, hr.2.2.1, hr.2.blockSize]
  split
  · exact Sim.fail fun _ _ h => h
  · refine Sim.bindEq (Sim.lift (fun _ _ h => h) fun _ _ _ _ h => ⟨rfl, h⟩) fun bs => ?_
    refine Sim.bindEq (onFs_readBlock h1 h2 hlim _ _) fun b => ?_
    exact Sim.bindEq (setStack _) fun _ => Sim.pure fun _ _ h => ⟨rfl, h⟩

omit [Build] in
theorem stepLeaf (n : ExtentNode) (pos : Nat) (rest : List StackEntry) :
    Sim F (Both G1 G2 (Fl Is1 Is2 c)) (Both G1 G2 (Fl Is1 Is2 c))
      (fun a1 a2 s1 s2 => a1 = a2 ∧ Both G1 G2 (Fl Is1 Is2 c) s1 s2)
      (Ext4File.stepLeaf n pos rest) (Ext4File.stepLeaf n pos rest) := by
  refine getFile fun s1 s2 hr => ?_
  refine Sim.bindEq (Sim.lift (fun _ _ h => h) fun _ _ _ _ h => ⟨rfl, h⟩) fun e => ?_
  simp only
  rw [hr.2.2.2.2.1]
  split
  · exact Sim.fail fun _ _ h => h
  · exact Sim.bindEq (setStack _) fun _ => Sim.pure fun _ _ h => ⟨rfl, h⟩

theorem stepTree (h1 : SeekableVolume F lim1 dev1 G1 Is1 At1)
    (h2 : SeekableVolume False lim2 dev2 G2 Is2 At2)
    (hlim : Lims F lim1 lim2 c) (t : ExtentTree) (pos : Nat)
    (rest : List StackEntry) :
    Sim F (Both G1 G2 (Fl Is1 Is2 c)) (Both G1 G2 (Fl Is1 Is2 c))
      (fun a1 a2 s1 s2 => a1 = a2 ∧ Both G1 G2 (Fl Is1 Is2 c) s1 s2)
      (Ext4File.stepTree dev1 t pos rest) (Ext4File.stepTree dev2 t pos rest) := by
  unfold Ext4File.stepTree
  split
  · cases t
    · exact stepBranch h1 h2 hlim _ _ _
    · exact stepLeaf _ _ _
  · exact Sim.pure fun _ _ h => ⟨rfl, h⟩

theorem stepExtent (h1 : SeekableVolume F lim1 dev1 G1 Is1 At1)
    (h2 : SeekableVolume False lim2 dev2 G2 Is2 At2)
    (hlim : Lims F lim1 lim2 c) (e : Extent) (pos : Nat)
    (rest : List StackEntry) (buf : Bytes) :
    Sim F (Both G1 G2 (Fl Is1 Is2 c)) (Both G1 G2 (Fl Is1 Is2 c))
      (fun a1 a2 s1 s2 => a1 = a2 ∧ Both G1 G2 (Fl Is1 Is2 c) s1 s2)
      (Ext4File.stepExtent dev1 e pos rest buf) (Ext4File.stepExtent dev2 e pos rest buf) := by
  refine getFile fun s1 s2 hr => ?_
  simp only
  rw [hr.2.2.2.2.1, hr.2.2.2.2.2, hr.2.fileSizeBytes, hr.2.blockSize]
  split
  · split
    · exact Sim.fail fun _ _ h => h
    · refine Sim.bindEq (onFs_readBlock h1 h2 hlim _ _) fun b => ?_
      refine Sim.bindEq (Sim.lift (fun _ _ h => h) fun _ _ _ _ h => ⟨rfl, h⟩) fun bs => ?_
      refine Sim.bindEq (setStack _) fun _ => ?_
      refine Sim.bindEq (R'' := Both G1 G2 (Fl Is1 Is2 c)) (Sim.modify ?_) fun _ => ?_
      · rintro ⟨w1, f1⟩ ⟨w2, f2⟩ h
        exact ⟨rfl, h.1, h.2.1, h.2.2.1, h.2.2.2.1, h.2.2.2.2.1, by
          have : f1.bytePos = f2.bytePos := h.2.2.2.2.2
          simp only [this]⟩
      refine Sim.bindEq (Sim.lift (fun _ _ h => h) fun _ _ _ _ h => ⟨rfl, h⟩) fun p => ?_
      refine Sim.bindEq (R'' := Both G1 G2 (Fl Is1 Is2 c)) (Sim.modify ?_) fun _ => ?_
      · rintro ⟨w1, f1⟩ ⟨w2, f2⟩ h
        exact ⟨rfl, h.1, h.2.1, h.2.2.1, h.2.2.2.1, rfl, h.2.2.2.2.2⟩
      exact Sim.pure fun _ _ h => ⟨rfl, h⟩
  · exact Sim.pure fun _ _ h => ⟨rfl, h⟩

theorem step (h1 : SeekableVolume F lim1 dev1 G1 Is1 At1)
    (h2 : SeekableVolume False lim2 dev2 G2 Is2 At2)
    (hlim : Lims F lim1 lim2 c) (buf : Bytes) :
    Sim F (Both G1 G2 (Fl Is1 Is2 c)) (Both G1 G2 (Fl Is1 Is2 c))
      (fun a1 a2 s1 s2 => a1 = a2 ∧ Both G1 G2 (Fl Is1 Is2 c) s1 s2)
      (Ext4File.step dev1 buf) (Ext4File.step dev2 buf) := by
  refine getFile fun s1 s2 hr => ?_
  simp only
  rw [hr.2.2.2.1, hr.2.2.2.2.2, hr.2.fileSizeBytes]
  split
  · split
    · exact Sim.pure fun _ _ h => ⟨rfl, h⟩
    · exact Sim.fail fun _ _ h => h
  · exact Sim.bindEq (setStack _) fun _ => stepTree h1 h2 hlim _ _ _
  · exact Sim.bindEq (setStack _) fun _ => stepExtent h1 h2 hlim _ _ _ _

theorem loop (h1 : SeekableVolume F lim1 dev1 G1 Is1 At1)
    (h2 : SeekableVolume False lim2 dev2 G2 Is2 At2)
    (hlim : Lims F lim1 lim2 c) (buf : Bytes) (fuel : Nat) :
    Sim F (Both G1 G2 (Fl Is1 Is2 c)) (Both G1 G2 (Fl Is1 Is2 c))
      (fun a1 a2 s1 s2 => a1 = a2 ∧ Both G1 G2 (Fl Is1 Is2 c) s1 s2)
      (Ext4File.loop dev1 buf fuel) (Ext4File.loop dev2 buf fuel) := by
  induction fuel with
  | zero => exact Sim.pure fun _ _ h => ⟨rfl, h⟩
  | succ n ih =>
    refine Sim.bindEq (step h1 h2 hlim buf) fun r => ?_
    cases r with
    | none => exact ih
    | some a => exact Sim.pure fun _ _ h => ⟨rfl, h⟩

theorem readNextBlock (h1 : SeekableVolume F lim1 dev1 G1 Is1 At1)
    (h2 : SeekableVolume False lim2 dev2 G2 Is2 At2)
    (hlim : Lims F lim1 lim2 c) (fuel : Nat) (buf : Bytes) :
    Sim F (Both G1 G2 (Fl Is1 Is2 c)) (Both G1 G2 (Fl Is1 Is2 c))
      (fun a1 a2 s1 s2 => a1 = a2 ∧ Both G1 G2 (Fl Is1 Is2 c) s1 s2)
      (Ext4File.readNextBlock dev1 fuel buf) (Ext4File.readNextBlock dev2 fuel buf) := by
  refine getFile fun s1 s2 hr => ?_
  simp only
  rw [hr.2.blockSize]
  refine Sim.bindEq (Sim.lift (fun _ _ h => h) fun _ _ _ _ h => ⟨rfl, h⟩) fun bs => ?_
  split
  · exact Sim.fail fun _ _ h => h
  · exact loop h1 h2 hlim buf fuel

/-- Related directories. -/
def Dr (Is1 : D1 → Bytes → Prop) (Is2 : D2 → Bytes → Prop) (c : Bytes) (d1 : Ext4Directory D1)
    (d2 : Ext4Directory D2) : Prop :=
  Fl Is1 Is2 c d1.internal d2.internal ∧ d1.current = d2.current

omit [Build] in
theorem getDir {α : Type} {k1 : W1 × Ext4Directory D1 → SM (W1 × Ext4Directory D1) α}
    {k2 : W2 × Ext4Directory D2 → SM (W2 × Ext4Directory D2) α}
    (h : ∀ s1 s2, Both G1 G2 (Dr Is1 Is2 c) s1 s2 →
      Sim F (Both G1 G2 (Dr Is1 Is2 c)) (Both G1 G2 (Dr Is1 Is2 c))
      (fun a1 a2 s1 s2 => a1 = a2 ∧ Both G1 G2 (Dr Is1 Is2 c) s1 s2) (k1 s1) (k2 s2)) :
    Sim F (Both G1 G2 (Dr Is1 Is2 c)) (Both G1 G2 (Dr Is1 Is2 c))
      (fun a1 a2 s1 s2 => a1 = a2 ∧ Both G1 G2 (Dr Is1 Is2 c) s1 s2)
      (SM.get >>= k1) (SM.get >>= k2) := by
  refine Sim.getBind fun s1 s2 hr => ?_
  refine Sim.weaken (h s1 s2 hr) ?_ fun _ _ _ _ h => h
  rintro t1 t2 ⟨rfl, rfl⟩
  exact hr

omit [Build] in
theorem setCurrent (b : CurrentBlock) :
    Sim F (Both G1 G2 (Dr Is1 Is2 c)) (Both G1 G2 (Dr Is1 Is2 c))
      (fun a1 a2 s1 s2 => a1 = a2 ∧ Both G1 G2 (Dr Is1 Is2 c) s1 s2)
      (Ext4Directory.setCurrent b) (Ext4Directory.setCurrent b) := by
  refine Sim.modify ?_
  rintro ⟨w1, f1⟩ ⟨w2, f2⟩ h
  exact ⟨rfl, h.1, h.2.1, rfl⟩

theorem advance (h1 : SeekableVolume F lim1 dev1 G1 Is1 At1)
    (h2 : SeekableVolume False lim2 dev2 G2 Is2 At2)
    (hlim : Lims F lim1 lim2 c) (fuel : Nat) :
    Sim F (Both G1 G2 (Dr Is1 Is2 c)) (Both G1 G2 (Dr Is1 Is2 c))
      (fun a1 a2 s1 s2 => a1 = a2 ∧ Both G1 G2 (Dr Is1 Is2 c) s1 s2)
      (Ext4Directory.advance dev1 fuel) (Ext4Directory.advance dev2 fuel) := by
  refine getDir fun s1 s2 hr => ?_
  rw [hr.2.1.blockSize, hr.2.1.2.1]
  refine Sim.bindEq (Sim.lift (fun _ _ h => h) fun _ _ _ _ h => ⟨rfl, h⟩) fun bs => ?_
  refine Sim.bindEq (R'' := Both G1 G2 (Dr Is1 Is2 c)) ?_ fun r => ?_
  · refine Sim.zoom (ET := Both G1 G2 (Fl Is1 Is2 c)) ?_ ?_
    · rintro ⟨w1, f1⟩ ⟨w2, f2⟩ h
      refine Sim.weaken (readNextBlock h1 h2 hlim fuel (zeros bs)) ?_ ?_
      · rintro t1 t2 ⟨rfl, rfl⟩
        exact ⟨h.1, h.2.1⟩
      · rintro _ _ ⟨x1, y1⟩ ⟨x2, y2⟩ hq
        exact ⟨hq.1, hq.2.1, hq.2.2, h.2.2⟩
    · rintro ⟨w1, f1⟩ ⟨w2, f2⟩ h ⟨x1, y1⟩ ⟨x2, y2⟩ hq
      exact ⟨hq.1, hq.2, h.2.2⟩
  · rcases r with _ | ⟨n, storage⟩
    · exact Sim.pure fun _ _ h => ⟨rfl, h⟩
    · refine Sim.bindEq (Sim.lift (fun _ _ h => h) fun _ _ _ _ h => ⟨rfl, h⟩) fun b => ?_
      exact Sim.bindEq (setCurrent b) fun _ => Sim.pure fun _ _ h => ⟨rfl, h⟩

theorem dirLoop (h1 : SeekableVolume F lim1 dev1 G1 Is1 At1)
    (h2 : SeekableVolume False lim2 dev2 G2 Is2 At2)
    (hlim : Lims F lim1 lim2 c) (fuel n : Nat) :
    Sim F (Both G1 G2 (Dr Is1 Is2 c)) (Both G1 G2 (Dr Is1 Is2 c))
      (fun a1 a2 s1 s2 => a1 = a2 ∧ Both G1 G2 (Dr Is1 Is2 c) s1 s2)
      (Ext4Directory.loop dev1 fuel n) (Ext4Directory.loop dev2 fuel n) := by
  induction n with
  | zero => exact Sim.pure fun _ _ h => ⟨rfl, h⟩
  | succ n ih =>
    refine getDir fun s1 s2 hr => ?_
    rw [hr.2.2]
    cases s2.2.current with
    | start => exact Sim.pure fun _ _ h => ⟨rfl, h⟩
    | «end» => exact Sim.pure fun _ _ h => ⟨rfl, h⟩
    | block b =>
      refine Sim.bindEq (Sim.lift (fun _ _ h => h) fun _ _ _ _ h => ⟨rfl, h⟩) fun r => ?_
      refine Sim.bindEq (setCurrent _) fun _ => ?_
      cases r.1 with
      | some e => exact Sim.pure fun _ _ h => ⟨rfl, h⟩
      | none =>
        refine Sim.bindEq (advance h1 h2 hlim fuel) fun a => ?_
        cases a with
        | none => exact Sim.pure fun _ _ h => ⟨rfl, h⟩
        | some u => exact ih

theorem readNextEntry (h1 : SeekableVolume F lim1 dev1 G1 Is1 At1)
    (h2 : SeekableVolume False lim2 dev2 G2 Is2 At2)
    (hlim : Lims F lim1 lim2 c) (fuel : Nat) :
    Sim F (Both G1 G2 (Dr Is1 Is2 c)) (Both G1 G2 (Dr Is1 Is2 c))
      (fun a1 a2 s1 s2 => a1 = a2 ∧ Both G1 G2 (Dr Is1 Is2 c) s1 s2)
      (Ext4Directory.readNextEntry dev1 fuel) (Ext4Directory.readNextEntry dev2 fuel) := by
  refine getDir fun s1 s2 hr => ?_
  rw [hr.2.2]
  cases s2.2.current with
  | start =>
    refine Sim.bindEq (advance h1 h2 hlim fuel) fun a => ?_
    cases a with
    | none => exact Sim.pure fun _ _ h => ⟨rfl, h⟩
    | some u => exact dirLoop h1 h2 hlim fuel fuel
  | «end» => exact dirLoop h1 h2 hlim fuel fuel
  | block b => exact dirLoop h1 h2 hlim fuel fuel

/-- Related results of `open_file`. -/
def Op (Is1 : D1 → Bytes → Prop) (Is2 : D2 → Bytes → Prop) (c : Bytes) :
    OpenedFile D1 → OpenedFile D2 → Prop
  | .directory d1, .directory d2 => Dr Is1 Is2 c d1 d2
  | .regularFile f1, .regularFile f2 => Fl Is1 Is2 c f1 f2
  | .unsupported t1, .unsupported t2 => t1 = t2
  | _, _ => False

/-- Related outcomes of computations without effects. -/
def Rs {α1 α2 : Type} (R : α1 → α2 → Prop) : Res α1 → Res α2 → Prop
  | .ok a1, .ok a2 => R a1 a2
  | .err e1, .err e2 => e1 = e2
  | .panic, .panic => True
  | _, _ => False

omit [Build] in
theorem openFl {f1 : Ext4Fs D1} {f2 : Ext4Fs D2} (hf : Fs Is1 Is2 c f1 f2) (i : Inode) :
    Rs (Fl Is1 Is2 c) (Ext4File.open f1 i) (Ext4File.open f2 i) := by
  unfold Ext4File.open
  cases Res.ofOption ErrKind.unsupported (ExtentTree.fromInode i) with
  | ok t => exact ⟨hf, rfl, rfl, rfl, rfl⟩
  | err e => exact rfl
  | panic => trivial

omit [Build] in
theorem openDr {f1 : Ext4Fs D1} {f2 : Ext4Fs D2} (hf : Fs Is1 Is2 c f1 f2) (i : Inode) :
    Rs (Dr Is1 Is2 c) (Ext4Directory.open f1 i) (Ext4Directory.open f2 i) := by
  unfold Ext4Directory.open
  split
  · exact rfl
  · have := openFl hf i
    rcases h1 : Ext4File.open f1 i with a1 | e1 | _ <;> rcases h2 : Ext4File.open f2 i with a2 | e2 | _ <;>
      rw [h1, h2] at this
    all_goals first | exact this.elim | skip
    · exact ⟨this, rfl⟩
    · exact this
    · trivial

omit [Build] in
theorem openOp {f1 : Ext4Fs D1} {f2 : Ext4Fs D2} (hf : Fs Is1 Is2 c f1 f2) (i : Inode) :
    Rs (Op Is1 Is2 c) (OpenedFile.open f1 i) (OpenedFile.open f2 i) := by
  unfold OpenedFile.open
  split
  · have := openFl hf i
    rcases h1 : Ext4File.open f1 i with a1 | e1 | _ <;> rcases h2 : Ext4File.open f2 i with a2 | e2 | _ <;>
      rw [h1, h2] at this
    all_goals first | exact this.elim | exact this
  · have := openDr hf i
    rcases h1 : Ext4Directory.open f1 i with a1 | e1 | _ <;>
      rcases h2 : Ext4Directory.open f2 i with a2 | e2 | _ <;> rw [h1, h2] at this
    all_goals first | exact this.elim | exact this
  · exact rfl

theorem openFile (h1 : SeekableVolume F lim1 dev1 G1 Is1 At1)
    (h2 : SeekableVolume False lim2 dev2 G2 Is2 At2)
    (hlim : Lims F lim1 lim2 c) (number : Nat) :
    Sim F (Both G1 G2 (Fs Is1 Is2 c)) (Both G1 G2 (Fs Is1 Is2 c))
      (fun a1 a2 s1 s2 => Op Is1 Is2 c a1 a2 ∧ Both G1 G2 (Fs Is1 Is2 c) s1 s2)
      (Ext4Fs.openFile dev1 number) (Ext4Fs.openFile dev2 number) := by
  refine Sim.getBind fun s1 s2 hr => ?_
  refine Sim.bind (Q := fun a1 a2 s1 s2 => Fs Is1 Is2 c a1 a2 ∧ Both G1 G2 (Fs Is1 Is2 c) s1 s2)
    ?_ fun f1 f2 => ?_
  · refine Sim.zoom (ET := Wd G1 G2) ?_ ?_
    · rintro t1 t2 ⟨rfl, rfl⟩
      refine Sim.weaken (cloneFs h1 h2 hlim hr.2) ?_ ?_
      · rintro x1 x2 ⟨rfl, rfl⟩
        exact hr.1
      · intro a1 a2 w1 w2 h
        exact ⟨h.1, h.2, hr.2⟩
    · rintro t1 t2 ⟨rfl, rfl⟩ w1 w2 h
      exact ⟨h, hr.2⟩
  · by_cases hf : Fs Is1 Is2 c f1 f2
    · refine Sim.bindEq (Sim.weaken (readInode h1 h2 hlim number) (fun _ _ h => h.2)
        fun _ _ _ _ h => h) fun i => ?_
      intro s1 s2 hr
      have := openOp hf i
      simp only [SM.lift_apply]
      rcases k1 : OpenedFile.open f1 i with a1 | e1 | _ <;>
        rcases k2 : OpenedFile.open f2 i with a2 | e2 | _ <;> rw [k1, k2] at this
      all_goals first | exact this.elim | skip
      · exact .inl ⟨_, _, _, _, rfl, rfl, this, hr⟩
      · have : e1 = e2 := this
        subst this
        exact .inr (.inl ⟨_, _, _, rfl, rfl, hr⟩)
      · exact .inr (.inr (.inl ⟨_, _, rfl, rfl, hr⟩))
    · rintro s1 s2 ⟨h, -⟩
      exact absurd h hf

end Ext4Sim
end MdRecover
