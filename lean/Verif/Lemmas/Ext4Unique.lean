import Verif.Lemmas.Ext4Path
import Verif.Lemmas.Ext4DirBlock

/-! What the bytes of a volume say is unambiguous. -/

namespace MdRecover
open MdSpec

theorem contiguous_unique {c : Bytes} {bs : Nat} {node : Bytes} {i p : Nat} {xs ys : List Nat}
    (h : Contiguous c bs node i p xs) (h' : Contiguous c bs node i p ys) : xs = ys := by
  induction h generalizing ys with
  | done node p =>
    cases h' with
    | done => rfl
    | extent _ _ _ xs _ hi => omega
    | index _ _ _ sub xs _ hi => omega
  | extent node i p xs hd hi hf he hl _ ih =>
    cases h' with
    | done => omega
    | extent _ _ _ xs _ hi _ _ _ h2 => rw [ih h2]
    | index _ _ _ sub xs hd' => exact absurd hd hd'
  | index node i p sub xs hd hi hf he hb _ _ ih1 ih2 =>
    cases h' with
    | done => omega
    | extent _ _ _ xs hd' => exact absurd hd' hd
    | index _ _ _ sub xs _ _ _ _ _ h1 h2 =>
      have := ih1 h1
      subst this
      rw [ih2 h2]

theorem inodeSeed_unique {c : Bytes} {n : Nat} {s s' : Option Nat} (h : InodeSeed c n s)
    (h' : InodeSeed c n s') : s = s' := by
  by_cases hc : HasChecksums c
  · obtain ⟨v, t, hv, ht, rfl⟩ := h.1 hc
    obtain ⟨v', t', hv', ht', rfl⟩ := h'.1 hc
    have : v = v' := by
      by_cases hb : le (sbOf c) 0x60 4 / 2 ^ 13 % 2 = 1
      · rw [hv.1 hb, hv'.1 hb]
      · exact isCrc32c_unique (hv.2 hb) (hv'.2 hb)
    subst this
    rw [isCrc32c_unique ht ht']
  · rw [h.2 hc, h'.2 hc]

/-- The records of a directory. -/
theorem directoryAt_unique {c : Bytes} {n : Nat} {rs rs' : List Bytes} (h : DirectoryAt c n rs)
    (h' : DirectoryAt c n rs') : rs = rs' := by
  obtain ⟨xs, ess, seed, h1, -, -, -, h2, h3, rfl⟩ := h.blocks
  obtain ⟨xs', ess', seed', h1', -, -, -, h2', h3', rfl⟩ := h'.blocks
  obtain rfl := contiguous_unique h1 h1'
  obtain rfl := inodeSeed_unique h2 h2'
  congr 1
  clear h1 h1' h h'
  induction h3 generalizing ess' with
  | nil => cases h3'; rfl
  | cons ht _ ih =>
    cases h3' with
    | cons ht' hs' => rw [tiles_unique ht.2 ht'.2, ih _ hs']

/-- A path leads to one inode. -/
theorem leads_unique {c : Bytes} {P : Bytes → Prop} {n : Nat} {names : List Bytes} {m m' : Nat}
    (h : Leads c P n names m) (h' : Leads c P n names m') : m = m' := by
  induction h generalizing m' with
  | here n => cases h'; rfl
  | into n m name names before after e hd hn hb hP _ ih =>
    cases h' with
    | into _ _ _ _ before' after' e' hd' hn' hb' hP' hl' =>
      have hrs := directoryAt_unique hd hd'
      have : e = e' := by
        rcases List.append_eq_append_iff.mp hrs with ⟨t, h1, h2⟩ | ⟨t, h1, h2⟩
        · cases t with
          | nil =>
            rw [List.nil_append] at h2
            exact (List.cons.inj h2).1
          | cons y t =>
            rw [List.cons_append] at h2
            have := (List.cons.inj h2).1
            subst this
            exact absurd hn (hb' e (by rw [h1]; simp))
        · cases t with
          | nil =>
            rw [List.nil_append] at h2
            exact (List.cons.inj h2).1.symm
          | cons y t =>
            rw [List.cons_append] at h2
            have := (List.cons.inj h2).1
            subst this
            exact absurd hn' (hb e' (by rw [h1]; simp))
      subst this
      exact ih hl'

end MdRecover
