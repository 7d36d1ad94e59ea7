import Verif.Lemmas.DirDamage
import Verif.Lemmas.Ext4Tree
import Verif.Spec.Sweep

namespace MdRecover
open MdSpec Mkfs

theorem caught_ok {S α : Type} {m : SM S α} {s s' : S} {a : α} (h : m s = (s', .ok a)) :
    caught m s = (s', .ok (some a)) := by
  unfold caught
  rw [h]

theorem caught_err {S α : Type} {m : SM S α} {s s' : S} {e : ErrKind} (h : m s = (s', .err e)) :
    caught m s = (s', .ok none) := by
  unfold caught
  rw [h]

/-- The entries among what calls return. -/
def entriesAmong (rs : List (Res (Option DirEntry))) : List DirEntry :=
  rs.filterMap fun | .ok e => e | _ => none

/-- The errors among what calls return. -/
def errorsAmong (rs : List (Res (Option DirEntry))) : Nat := rs.countP fun | .err _ => true | _ => false

section
variable [Build] {W D : Type} {dev : StreamDev W D} {G : W → Prop} {Is : D → Bytes → Prop}
  {At : W → D → Nat → Prop}

theorem listPast_left (hv : VolumeSpec False dev G Is At) {c : Bytes} (hc : c.length < U64) {i : Inode} :
    ∀ (rs : List (Res (Option DirEntry))) (s : W × Ext4Directory D), (∀ r ∈ rs, r ≠ .ok none) →
      Ext4Directory.Left Is G c i s rs →
      ∃ s' N, G s'.1 ∧ ∀ rounds, N ≤ rounds → ∀ k, rs.length < k →
        listPast dev rounds k s = (s', .ok (entriesAmong rs, errorsAmong rs)) := by
  intro rs
  induction rs with
  | nil =>
    intro s _ hl
    obtain ⟨s1, r, h1, h0, -, h3⟩ := Ext4Directory.call_gives hv hc hl
    rw [show r = .ok none from h0] at h1
    obtain ⟨N, h4⟩ := Ext4Directory.entryReturns_enough h1
    refine ⟨s1, N, left_good h3, fun rounds hr k hk => ?_⟩
    obtain ⟨j, rfl⟩ : ∃ j, k = j + 1 := ⟨k - 1, by simp at hk; omega⟩
    rw [listPast, SM.bind_ok (h := caught_ok (h4 rounds hr))]
    rfl
  | cons r rs ih =>
    intro s hne hl
    obtain ⟨s1, r', h1, h0, h2, h3⟩ := Ext4Directory.call_gives hv hc hl
    rw [show r' = r from h0] at h1 h2
    rw [List.tail_cons] at h3
    obtain ⟨N1, h4⟩ := Ext4Directory.entryReturns_enough h1
    obtain ⟨s', N, hG, h5⟩ := ih s1 (fun x hx => hne x (List.mem_cons_of_mem _ hx)) h3
    refine ⟨s', N1 + N, hG, fun rounds hr k hk => ?_⟩
    rw [List.length_cons] at hk
    obtain ⟨j, rfl⟩ : ∃ j, k = j + 1 := ⟨k - 1, by omega⟩
    have h6 := h4 rounds (by omega)
    have h7 := h5 rounds (by omega) j (by omega)
    rw [listPast]
    rcases r with (_ | e) | e | _
    · exact absurd rfl (hne _ List.mem_cons_self)
    · rw [SM.bind_ok (h := caught_ok h6)]
      show (listPast dev rounds j >>= fun r => pure (e :: r.1, r.2)) s1 = _
      rw [SM.bind_ok (h := h7)]
      rfl
    · rw [SM.bind_ok (h := caught_err h6)]
      simp only
      rw [SM.bind_ok (h := h7)]
      show (s', Res.ok (entriesAmong rs, errorsAmong rs + 1)) = _
      unfold errorsAmong entriesAmong
      rw [List.countP_cons_of_pos (by rfl), List.filterMap_cons_none (by rfl)]
    · exact absurd rfl h2

/-- Going to each of the inodes of a list. -/
theorem sweepAll_each {c : Bytes} {k : Nat} {out : Nat → Swept} {ok : Nat → Prop}
    (ih : ∀ n, ok n → ∀ {w : W} {fs : Ext4Fs D}, G w → Opened Is c fs →
      ∃ w' fs' N, G w' ∧ Opened Is c fs' ∧ ∀ rounds, N ≤ rounds →
        sweep dev rounds k (n + 2) (w, fs) = ((w', fs'), .ok (out n))) :
    ∀ (l : List (Bytes × Nat)), (∀ e ∈ l, ok e.2) → ∀ {w : W} {fs : Ext4Fs D}, G w → Opened Is c fs →
      ∃ w' fs' N, G w' ∧ Opened Is c fs' ∧ ∀ rounds, N ≤ rounds →
        saveAll (sweep dev rounds k) (l.map fun e => (e.1, e.2 + 2)) (w, fs)
          = ((w', fs'), .ok (l.map fun e => (e.1, out e.2))) := by
  intro l
  induction l with
  | nil => exact fun _ {w fs} hG ho => ⟨w, fs, 0, hG, ho, fun _ _ => rfl⟩
  | cons e l ih2 =>
    intro hok w fs hG ho
    obtain ⟨w1, fs1, N1, hG1, ho1, h1⟩ := ih e.2 (hok e List.mem_cons_self) hG ho
    obtain ⟨w2, fs2, N2, hG2, ho2, h2⟩ := ih2 (fun x hx => hok x (List.mem_cons_of_mem _ hx)) hG1 ho1
    refine ⟨w2, fs2, N1 + N2, hG2, ho2, fun rounds hr => ?_⟩
    rw [List.map_cons, saveAll, SM.bind_ok (h := h1 rounds (by omega)), SM.bind_ok (h := h2 rounds (by omega))]
    rfl

namespace MkfsLemmas
variable {k : Form} {t : List Node} {a c tail : Bytes}

omit [Build] in
/-- What a damaged directory gives. -/
theorem entries_results (hf : Fits k t) {es : List (Bytes × Nat)} (hd : .dir es ∈ t) (bad : Nat → Bool) :
    ∀ l : List ((Bytes × Nat) × Nat), (∀ e ∈ l, e.1 ∈ es) →
    kept (entriesAmong (l.map fun e => result k (bad e.2) e.1)) =
      ((l.filter fun e => !bad e.2 && !isDots e.1.1).map fun e => (e.1.1, e.1.2 + 2)) ∧
    errorsAmong (l.map fun e => result k (bad e.2) e.1) = l.countP fun e => bad e.2 := by
  intro l
  induction l with
  | nil => exact fun _ => ⟨rfl, rfl⟩
  | cons e l ih =>
    intro hm
    obtain ⟨ih1, ih2⟩ := ih fun x hx => hm x (List.mem_cons_of_mem _ hx)
    obtain ⟨-, v2, v3, v4, v5⟩ := entry_values hf es hd e.1 (hm e List.mem_cons_self)
    by_cases hb : bad e.2 = true
    · have hr : result k (bad e.2) e.1 = .err .invalidData := by unfold result; rw [if_pos hb]
      rw [List.map_cons, hr, List.filter_cons_of_neg (by simp [hb]), List.countP_cons_of_pos (by exact hb), ← ih2, ← ih1]
      constructor
      · unfold entriesAmong
        rw [List.filterMap_cons_none (by rfl)]
      · unfold errorsAmong
        rw [List.countP_cons_of_pos (by rfl)]
    · have hr : result k (bad e.2) e.1 = .ok (some ⟨record k e.1⟩) := by unfold result; rw [if_neg hb]
      have hn : (DirEntry.mk (record k e.1)).name.bytes = e.1.1 := by
        rw [(C70_name_partial ⟨record k e.1⟩ v2).2 v5]
        exact v4
      have hi : (DirEntry.mk (record k e.1)).inode = e.1.2 + 2 := by rw [entry_inode, v3]
      rw [List.map_cons, hr, List.countP_cons_of_neg (by exact hb), ← ih2]
      constructor
      · have he : entriesAmong (Res.ok (some ⟨record k e.1⟩) :: l.map fun e => result k (bad e.2) e.1) =
            ⟨record k e.1⟩ :: entriesAmong (l.map fun e => result k (bad e.2) e.1) := by
          unfold entriesAmong
          rw [List.filterMap_cons_some (by rfl)]
        rw [he]
        unfold kept at ih1 ⊢
        by_cases hdots : isDots e.1.1 = true
        · rw [List.filter_cons_of_neg (by rw [hn]; simp [hdots]), List.filter_cons_of_neg (by simp [hdots]), ih1]
        · rw [List.filter_cons_of_pos (by rw [hn, hi]; simp [hdots]),
            List.filter_cons_of_pos (by simp [hdots, hb]), List.map_cons, List.map_cons, hn, hi, ih1]
      · unfold errorsAmong
        rw [List.countP_cons_of_neg (by simp)]

/-- The program on the damaged volume. -/
theorem sweep_damaged (ha : a = volume k t ++ tail) (hf : Fits k t) (hd : DirectoriesDamaged k t a c)
    (hv : VolumeSpec False dev G Is At) (hc : c.length < U64) (hu : k.uuid.isSome) :
    ∀ depth n, n < t.length → ∀ {w : W} {fs : Ext4Fs D}, G w → Opened Is c fs →
      ∃ w' fs' N, G w' ∧ Opened Is c fs' ∧ ∀ rounds, N ≤ rounds →
        sweep dev rounds depth (n + 2) (w, fs) =
          ((w', fs'), .ok (sweptOf t (damagedBlock k t a c) depth n)) := by
  intro depth
  induction depth with
  | zero => exact fun n _ w fs hG ho => ⟨w, fs, 0, hG, ho, fun _ _ => rfl⟩
  | succ depth ih =>
    intro n hn w fs hG ho
    have hi : t[n]? = some t[n] := List.getElem?_eq_getElem hn
    rw [sweptOf, hi]
    rcases hnd : t[n] with b | es
    · rw [hnd] at hi
      obtain ⟨w', fs', f, w2, f2, N, h1, ho', h2, hG2, h3⟩ := file_read hv hc hG ho (file_damaged ha hf hd hi)
      refine ⟨w2, fs', N, hG2, ho', fun rounds hr => ?_⟩
      have h6 : (SM.lift f.blockSize : SM (W × Ext4Fs D) Nat) (w', fs')
          = ((w', fs'), .ok (blockSizeOf (sbOf c))) := by
        rw [SM.lift_apply, h2]
      rw [sweep, SM.bind_ok (h := caught_ok h1)]
      simp only
      rw [SM.bind_ok (h := h6), SM.bind_ok (h := caught_ok (onHandle_eq fs' (h3 rounds hr)))]
      rfl
    · rw [hnd] at hi
      obtain ⟨w1, fs1, d, i, h1, ho1, hleft⟩ := left_damaged ha hf hd hv hc hu hG ho hi
      obtain ⟨⟨w2, d2⟩, N2, hG2, h2⟩ := listPast_left hv hc _ _ (fun r hr => by
        obtain ⟨e, -, rfl⟩ := List.mem_map.1 hr
        unfold result
        split <;> exact fun h => nomatch h) hleft
      obtain ⟨e1, e2⟩ := entries_results hf (List.mem_of_getElem? hi) (damagedBlock k t a c n) es.zipIdx
        fun e he => List.fst_mem_of_mem_zipIdx he
      obtain ⟨w3, fs3, N3, hG3, ho3, h3⟩ := sweepAll_each (ok := (· < t.length)) ih
        ((es.zipIdx.filter fun e => !damagedBlock k t a c n e.2 && !isDots e.1.1).map (·.1)) (fun e he => by
          obtain ⟨x, hx, rfl⟩ := List.mem_map.1 he
          exact (hf.names es (List.mem_of_getElem? hi) x.1
            (List.fst_mem_of_mem_zipIdx (List.mem_filter.1 hx).1)).2.2) hG2 ho1
      rw [List.map_map, List.map_map] at h3
      refine ⟨w3, fs3, N2 + es.length + 1 + N3, hG3, ho3, fun rounds hr => ?_⟩
      rw [sweep, SM.bind_ok (h := caught_ok h1)]
      simp only
      rw [SM.bind_ok (h := onHandle_eq fs1 (h2 rounds (by omega) rounds (by
        rw [List.length_map, List.length_zipIdx]; omega)))]
      simp only
      rw [e1, e2]
      exact (SM.bind_ok _ (h3 rounds (by omega))).trans rfl

end MkfsLemmas
end
end MdRecover
