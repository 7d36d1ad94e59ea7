import Verif.Lemmas.Array
import Verif.Model.Diagnosis
import Verif.Spec.Diagnosis

namespace MdRecover
open MdSpec

variable {D K : Type}

/-! ### Id sets -/

theorem idSet_concat (l : List MdDeviceId) (i : MdDeviceId) :
    idSet (l ++ [i]) = if (idSet l).any (·.eq i) then idSet l else idSet l ++ [i] := by
  unfold idSet
  rw [List.foldl_append]
  rfl

theorem any_eq_iff {l : List MdDeviceId} {i : MdDeviceId} :
    l.any (·.eq i) = true ↔ i.internalIndex ∈ l.map (·.internalIndex) := by
  simp [MdDeviceId.eq]

theorem idSet_spec (l : List MdDeviceId) :
    ((idSet l).map (·.internalIndex)).Nodup ∧ (∀ i ∈ idSet l, i ∈ l) ∧
      ∀ i ∈ l, i.internalIndex ∈ (idSet l).map (·.internalIndex) := by
  induction l using List.reverseRecOn with
  | nil => exact ⟨by simp [idSet], by simp [idSet], by simp⟩
  | append_singleton l i ih =>
    obtain ⟨h1, h2, h3⟩ := ih
    rw [idSet_concat]
    by_cases h : (idSet l).any (·.eq i)
    · rw [if_pos h]
      refine ⟨h1, fun j hj => List.mem_append_left _ (h2 j hj), fun j hj => ?_⟩
      rcases List.mem_append.mp hj with hj | hj
      · exact h3 j hj
      · rw [List.mem_singleton.mp hj]; exact any_eq_iff.mp h
    · rw [if_neg h]
      have h' := mt any_eq_iff.mpr h
      refine ⟨?_, fun j hj => ?_, fun j hj => ?_⟩
      · rw [List.map_append, List.nodup_append]
        refine ⟨h1, by simp, fun a ha b hb => ?_⟩
        simp only [List.map_cons, List.map_nil, List.mem_singleton] at hb
        subst hb
        rintro rfl
        exact h' ha
      · rcases List.mem_append.mp hj with hj | hj
        · exact List.mem_append_left _ (h2 j hj)
        · exact List.mem_append_right _ hj
      · rw [List.map_append]
        rcases List.mem_append.mp hj with hj | hj
        · exact List.mem_append_left _ (h3 j hj)
        · rw [List.mem_singleton.mp hj]; simp

theorem listing_of_perm {p : MdDevice D → Prop} {ds ds' : List (MdDevice D)} (hp : ds.Perm ds')
    {r : Option (List MdDeviceId)} (h : Listing p ds r) : Listing p ds' r where
  absent := h.absent.trans ⟨fun h d hd => h d (hp.mem_iff.mpr hd), fun h d hd => h d (hp.mem_iff.mp hd)⟩
  distinct := h.distinct
  sound l hl i hi := by
    obtain ⟨d, hd, h'⟩ := h.sound l hl i hi
    exact ⟨d, hp.mem_iff.mp hd, h'⟩
  complete l hl d hd := h.complete l hl d (hp.mem_iff.mpr hd)

theorem listing_idsWith (s : DeviceSuperblock) (ds : List (MdDevice D)) :
    Listing (fun d => d.superblock = s) ds (ArrayDef.nonEmpty (ArrayDef.idsWith s ds)) := by
  obtain ⟨h1, h2, h3⟩ := idSet_spec
    (ds.filterMap fun d => if d.superblock = s then some d.id else none)
  have hmem : ∀ i, i ∈ (ds.filterMap fun d => if d.superblock = s then some d.id else none) ↔
      ∃ d ∈ ds, d.superblock = s ∧ d.id = i := by
    intro i
    rw [List.mem_filterMap]
    refine exists_congr fun d => and_congr_right fun _ => ?_
    by_cases h : d.superblock = s <;> simp [h]
  change Listing _ _ (ArrayDef.nonEmpty (idSet _))
  generalize ds.filterMap (fun d => if d.superblock = s then some d.id else none) = l at *
  have hsome : ∀ l', ArrayDef.nonEmpty (idSet l) = some l' → l' = idSet l := by
    intro l' h
    unfold ArrayDef.nonEmpty at h
    split at h
    · cases h
    · cases h; rfl
  refine ⟨?_, ?_, ?_, ?_⟩
  · unfold ArrayDef.nonEmpty
    by_cases he : (idSet l).isEmpty = true
    · rw [if_pos he]
      refine ⟨fun _ d hd hs => ?_, fun _ => rfl⟩
      have := h3 d.id ((hmem _).mpr ⟨d, hd, hs, rfl⟩)
      rw [List.isEmpty_iff.mp he] at this
      simp at this
    · rw [if_neg he]
      refine ⟨fun h => (by cases h), fun h => ?_⟩
      exfalso
      apply he
      rw [List.isEmpty_iff]
      refine List.eq_nil_iff_forall_not_mem.mpr fun i hi => ?_
      obtain ⟨d, hd, hs, -⟩ := (hmem i).mp (h2 i hi)
      exact h d hd hs
  · intro l' hl; rw [hsome l' hl]; exact h1
  · intro l' hl i hi; rw [hsome l' hl] at hi
    exact (hmem i).mp (h2 i hi)
  · intro l' hl d hd hs
    rw [hsome l' hl]
    exact h3 _ ((hmem _).mpr ⟨d, hd, hs, rfl⟩)

/-! ### Grouping -/

section
variable [DecidableEq K] (attr : Superblock → Option K)

/-- The pairs given to `from_multi_iter`. -/
def pairs (ds : List (MdDevice D)) : List (K × MdDeviceId) :=
  ds.filterMap fun d => d.superblock.asOption.bind fun s => (attr s).map fun k => (k, d.id)

theorem valuesOf_pairs (ds : List (MdDevice D)) (k : K) :
    HMap.valuesOf (pairs attr ds) k = (having attr k ds).map (·.id) := by
  induction ds with
  | nil => rfl
  | cons d ds ih =>
    have hval : ∀ o : Option (K × MdDeviceId), HMap.valuesOf (o.toList ++ pairs attr ds) k =
        HMap.valuesOf o.toList k ++ HMap.valuesOf (pairs attr ds) k := by
      intro o; unfold HMap.valuesOf; rw [List.filter_append, List.map_append]
    have hcons : pairs attr (d :: ds) =
        (d.superblock.asOption.bind fun s => (attr s).map fun k => (k, d.id)).toList ++
          pairs attr ds := by
      unfold pairs
      rw [List.filterMap_cons]
      cases d.superblock.asOption.bind fun s => (attr s).map fun k => (k, d.id) <;> rfl
    rw [hcons, hval, ih]
    unfold having
    rw [List.filter_cons]
    cases hs : d.superblock with
    | tooSmall =>
      have : has attr k d = false := by unfold has; rw [hs]
      rw [this]; rfl
    | missing =>
      have : has attr k d = false := by unfold has; rw [hs]
      rw [this]; rfl
    | superblock s =>
      have : has attr k d = decide (attr s = some k) := by unfold has; rw [hs]
      rw [this]
      simp only [DeviceSuperblock.asOption, Option.bind_some]
      cases ha : attr s with
      | none => simp [HMap.valuesOf]
      | some a => by_cases hk : a = k <;> simp [HMap.valuesOf, hk]

theorem having_ne_nil {ds : List (MdDevice D)} {k : K} :
    (having attr k ds).map (·.id) ≠ [] ↔ ∃ d ∈ ds, has attr k d := by
  unfold having
  rw [ne_eq, List.map_eq_nil_iff, List.filter_eq_nil_iff]
  simp

theorem mem_groupBy {ds : List (MdDevice D)} {k : K} {ids : List MdDeviceId} :
    (k, ids) ∈ ArrayDef.groupBy attr ds ↔
      ids = (having attr k ds).map (·.id) ∧ ∃ d ∈ ds, has attr k d := by
  rw [← having_ne_nil, ← valuesOf_pairs]
  change (k, ids) ∈ HMap.fromMultiIter (pairs attr ds) ↔ _
  rw [HMap.mem_fromMultiIter]
  constructor
  · rintro ⟨rfl, h⟩; exact ⟨rfl, h⟩
  · rintro ⟨rfl, h⟩; exact ⟨rfl, h⟩

theorem groupBy_keys (ds : List (MdDevice D)) :
    ((ArrayDef.groupBy attr ds).map (·.1)).Nodup :=
  (HMap.groups_fromMultiIter (pairs attr ds)).distinct

theorem disagreement_several (ds : List (MdDevice D)) :
    Disagreement attr ds (ArrayDef.several (ArrayDef.groupBy attr ds)) := by
  have hsome : ∀ m, ArrayDef.several (ArrayDef.groupBy attr ds) = some m →
      m = ArrayDef.groupBy attr ds := by
    intro m h
    unfold ArrayDef.several at h
    split at h
    · cases h; rfl
    · cases h
  have hkey : ∀ k, k ∈ (ArrayDef.groupBy attr ds).map (·.1) ↔ ∃ d ∈ ds, has attr k d := by
    intro k
    rw [List.mem_map]
    constructor
    · rintro ⟨⟨k', ids⟩, h, rfl⟩; exact ((mem_groupBy attr).mp h).2
    · intro h; exact ⟨(k, _), (mem_groupBy attr).mpr ⟨rfl, h⟩, rfl⟩
  refine ⟨?_, ?_, ?_, ?_⟩
  · have hnd := groupBy_keys attr ds
    unfold ArrayDef.several
    rw [← List.length_map (f := Prod.fst)]
    change List.Nodup ((ArrayDef.groupBy attr ds).map Prod.fst) at hnd
    generalize (ArrayDef.groupBy attr ds).map Prod.fst = ks at *
    split
    · rename_i hlen
      refine ⟨fun h => (by cases h), fun h => ?_⟩
      exfalso
      match ks, hlen with
      | a :: b :: ks, _ =>
        obtain ⟨d, hd, h1⟩ := (hkey a).mp (by simp)
        obtain ⟨e, he, h2⟩ := (hkey b).mp (by simp)
        have := h d hd e he a b h1 h2
        subst this
        simp at hnd
    · rename_i hlen
      refine ⟨fun _ d hd e he a b h1 h2 => ?_, fun _ => rfl⟩
      have ha := (hkey a).mpr ⟨d, hd, h1⟩
      have hb := (hkey b).mpr ⟨e, he, h2⟩
      match ks, hlen with
      | [], _ => simp at ha
      | [k], _ => rw [List.mem_singleton.mp ha, List.mem_singleton.mp hb]
      | a :: b :: ks, h => simp at h
  · intro m h; rw [hsome m h]; exact groupBy_keys attr ds
  · intro m h k; rw [hsome m h, ← hkey, List.mem_map]
    constructor
    · rintro ⟨ids, h⟩; exact ⟨_, h, rfl⟩
    · rintro ⟨⟨k', ids⟩, h, rfl⟩; exact ⟨ids, h⟩
  · intro m h k ids hm; rw [hsome m h] at hm
    rw [((mem_groupBy attr).mp hm).1]

theorem duplicates_filter (ds : List (MdDevice D)) :
    Duplicates attr ds (ArrayDef.nonEmpty
      ((ArrayDef.groupBy attr ds).filter fun e => 1 < e.2.length)) := by
  have hmem : ∀ k ids, (k, ids) ∈ (ArrayDef.groupBy attr ds).filter (fun e => 1 < e.2.length) ↔
      ids = (having attr k ds).map (·.id) ∧ 2 ≤ (having attr k ds).length := by
    intro k ids
    rw [List.mem_filter, mem_groupBy]
    constructor
    · rintro ⟨⟨rfl, -⟩, h⟩
      refine ⟨rfl, ?_⟩
      rw [decide_eq_true_eq, List.length_map] at h
      exact h
    · rintro ⟨rfl, h⟩
      refine ⟨⟨rfl, ?_⟩, by rw [decide_eq_true_eq, List.length_map]; exact h⟩
      rw [← having_ne_nil]
      intro h'
      rw [List.map_eq_nil_iff] at h'
      rw [h'] at h
      simp at h
  have hkeys : (((ArrayDef.groupBy attr ds).filter fun e => 1 < e.2.length).map (·.1)).Nodup :=
    List.Nodup.sublist (List.Sublist.map _ List.filter_sublist) (groupBy_keys attr ds)
  generalize (ArrayDef.groupBy attr ds).filter (fun e => 1 < e.2.length) = m' at *
  have hsome : ∀ m, ArrayDef.nonEmpty m' = some m → m = m' := by
    intro m h
    unfold ArrayDef.nonEmpty at h
    split at h
    · cases h
    · cases h; rfl
  refine ⟨?_, ?_, ?_, ?_⟩
  · unfold ArrayDef.nonEmpty
    split
    · rename_i he
      refine ⟨fun _ k => ?_, fun _ => rfl⟩
      rw [List.isEmpty_iff.mp he] at hmem
      refine Nat.le_of_not_lt fun hlt => ?_
      have := (hmem k _).mpr ⟨rfl, hlt⟩
      simp at this
    · rename_i he
      refine ⟨fun h => (by cases h), fun h => ?_⟩
      exfalso
      apply he
      rw [List.isEmpty_iff]
      refine List.eq_nil_iff_forall_not_mem.mpr fun ⟨k, ids⟩ hi => ?_
      have h1 := ((hmem k ids).mp hi).2
      have h2 := h k
      omega
  · intro m h; rw [hsome m h]; exact hkeys
  · intro m h k; rw [hsome m h]
    constructor
    · rintro ⟨ids, h⟩; exact ((hmem k ids).mp h).2
    · intro h; exact ⟨_, (hmem k _).mpr ⟨rfl, h⟩⟩
  · intro m h k ids hm; rw [hsome m h] at hm
    rw [((hmem k ids).mp hm).1]

theorem having_perm {ds ds' : List (MdDevice D)} (hp : ds.Perm ds') (k : K) :
    (having attr k ds).Perm (having attr k ds') := hp.filter _

theorem disagreement_of_perm {ds ds' : List (MdDevice D)} (hp : ds.Perm ds')
    {r : Option (HMap K (List MdDeviceId))} (h : Disagreement attr ds r) : Disagreement attr ds' r where
  absent := h.absent.trans
    ⟨fun h d hd e he => h d (hp.mem_iff.mpr hd) e (hp.mem_iff.mpr he),
     fun h d hd e he => h d (hp.mem_iff.mp hd) e (hp.mem_iff.mp he)⟩
  keys := h.keys
  values m hm k := (h.values m hm k).trans
    ⟨fun ⟨d, hd, h⟩ => ⟨d, hp.mem_iff.mp hd, h⟩, fun ⟨d, hd, h⟩ => ⟨d, hp.mem_iff.mpr hd, h⟩⟩
  ids m hm k ids hi := (h.ids m hm k ids hi).trans ((having_perm attr hp k).map _)

theorem duplicates_of_perm {ds ds' : List (MdDevice D)} (hp : ds.Perm ds')
    {r : Option (HMap K (List MdDeviceId))} (h : Duplicates attr ds r) : Duplicates attr ds' r where
  absent := h.absent.trans (forall_congr' fun k => by rw [(having_perm attr hp k).length_eq])
  keys := h.keys
  values m hm k := (h.values m hm k).trans (by rw [(having_perm attr hp k).length_eq])
  ids m hm k ids hi := (h.ids m hm k ids hi).trans ((having_perm attr hp k).map _)

theorem _root_.MdSpec.Disagreement.same {ds : List (MdDevice D)} {r r' : Option (HMap K (List MdDeviceId))}
    (h : Disagreement attr ds r) (h' : Disagreement attr ds r') : SameReport r r' := by
  refine ⟨h.absent.trans h'.absent.symm, fun m m' hm hm' => ⟨?_, fun k ids ids' hi hi' => ?_⟩⟩
  · rw [List.perm_ext_iff_of_nodup (h.keys m hm) (h'.keys m' hm')]
    intro k
    have e1 := h.values m hm k
    have e2 := h'.values m' hm' k
    simp only [List.mem_map, Prod.exists, exists_and_right, exists_eq_right]
    exact e1.trans e2.symm
  · exact (h.ids m hm k ids hi).trans (h'.ids m' hm' k ids' hi').symm

theorem _root_.MdSpec.Duplicates.same {ds : List (MdDevice D)} {r r' : Option (HMap K (List MdDeviceId))}
    (h : Duplicates attr ds r) (h' : Duplicates attr ds r') : SameReport r r' := by
  refine ⟨h.absent.trans h'.absent.symm, fun m m' hm hm' => ⟨?_, fun k ids ids' hi hi' => ?_⟩⟩
  · rw [List.perm_ext_iff_of_nodup (h.keys m hm) (h'.keys m' hm')]
    intro k
    have e1 := h.values m hm k
    have e2 := h'.values m' hm' k
    simp only [List.mem_map, Prod.exists, exists_and_right, exists_eq_right]
    exact e1.trans e2.symm
  · exact (h.ids m hm k ids hi).trans (h'.ids m' hm' k ids' hi').symm

end

theorem _root_.MdSpec.Listing.same {p : MdDevice D → Prop} {ds : List (MdDevice D)}
    {r r' : Option (List MdDeviceId)} (h : Listing p ds r) (h' : Listing p ds r') : SameIds r r' := by
  refine ⟨h.absent.trans h'.absent.symm, fun l l' hl hl' => ?_⟩
  rw [List.perm_ext_iff_of_nodup (h.distinct l hl) (h'.distinct l' hl')]
  have key : ∀ {r r' : Option (List MdDeviceId)} {l l'}, Listing p ds r → Listing p ds r' →
      r = some l → r' = some l' → ∀ i, i ∈ l.map (·.internalIndex) → i ∈ l'.map (·.internalIndex) := by
    intro r r' l l' h h' hl hl' i hi
    obtain ⟨j, hj, rfl⟩ := List.mem_map.mp hi
    obtain ⟨d, hd, hp, rfl⟩ := h.sound l hl j hj
    exact h'.complete l' hl' d hd hp
  exact fun i => ⟨key h h' hl hl' i, key h' h hl' hl i⟩

theorem ArrayDef.allDevices_perm {ord ord' : IterOrder} (hord : ord.Valid) (hord' : ord'.Valid)
    (devices : List (MdDevice D)) :
    (ArrayDef.allDevices ord' (MdArray.open ord devices)).Perm devices :=
  (((hord' _ _).map _).append_right _).trans (MdArray.open_accounts hord devices)

end MdRecover
