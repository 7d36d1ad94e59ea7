import Verif.Lemmas.Ext4Path
import Verif.Lemmas.Ext4PathSim
import Verif.Lemmas.Mkfs
import Verif.Spec.Ext4Tree

namespace MdRecover
open MdSpec

section
variable [Build]

section
variable {W D : Type} {dev : StreamDev W D} {G : W → Prop} {Is : D → Bytes → Prop} {At : W → D → Nat → Prop}

/-- What a listing keeps of an entry. -/
def listed (e : DirEntry) : Option (Bytes × Nat) :=
  if e.inode ≠ 0 ∧ isDots e.name.bytes = false then some (e.name.bytes, e.inode) else none

theorem listAll_left (hv : VolumeSpec False dev G Is At) {c : Bytes} (hc : c.length < U64) {i : Inode} :
    ∀ (all : List DirEntry) (s : W × Ext4Directory D),
      Ext4Directory.Left Is G c i s (all.map fun x => .ok (some x)) →
      ∃ s' N, G s'.1 ∧ ∀ rounds, N ≤ rounds → ∀ k, all.length < k →
        listAll dev rounds k s = (s', .ok (some (all.filterMap listed))) := by
  intro all
  induction all with
  | nil =>
    intro s hl
    obtain ⟨s', r, h1, rfl, h2, h3⟩ := Ext4Directory.call_gives hv hc hl
    obtain ⟨N, h4⟩ := Ext4Directory.entryReturns_enough h1
    refine ⟨s', N, left_good h3, fun rounds hr k hk => ?_⟩
    obtain ⟨k, rfl⟩ : ∃ j, k = j + 1 := ⟨k - 1, by simp only [List.length_nil] at hk; omega⟩
    rw [listAll, SM.bind_ok (h := h4 rounds hr)]
    rfl
  | cons x all ih =>
    intro s hl
    obtain ⟨s1, r, h1, rfl, h2, h3⟩ := Ext4Directory.call_gives hv hc hl
    obtain ⟨N1, h4⟩ := Ext4Directory.entryReturns_enough h1
    obtain ⟨s', N, hG, h5⟩ := ih s1 h3
    refine ⟨s', N1 + N, hG, fun rounds hr k hk => ?_⟩
    obtain ⟨k, rfl⟩ : ∃ j, k = j + 1 := ⟨k - 1, by omega⟩
    simp only [List.length_cons] at hk
    rw [listAll, SM.bind_ok (h := h4 rounds (by omega))]
    simp only
    rw [SM.bind_ok (h := h5 rounds (by omega) k (by omega))]
    by_cases hx : x.inode ≠ 0 ∧ isDots x.name.bytes = false
    · rw [if_pos hx, List.filterMap_cons_some (show listed x = some (x.name.bytes, x.inode) from if_pos hx)]
      rfl
    · rw [if_neg hx, List.filterMap_cons_none (show listed x = none from if_neg hx)]
      rfl

omit [Build] in
/-- What is listed of clean records. -/
theorem listed_records (records : List Bytes) (hr : ∀ e ∈ records, IsRecord e)
    (hcl : ∀ e ∈ records, recordInode e ≠ 0 → CleanName e) :
    (records.map DirEntry.mk).filterMap listed =
      (records.filter isListed).map fun e => (recordName e, recordInode e) := by
  induction records with
  | nil => rfl
  | cons e es ih =>
    rw [List.map_cons]
    have ih := ih (fun x hx => hr x (List.mem_cons_of_mem _ hx)) (fun x hx => hcl x (List.mem_cons_of_mem _ hx))
    have hn : recordInode e ≠ 0 → (DirEntry.mk e).name.bytes = recordName e := fun h =>
      (C70_name_partial ⟨e⟩ (hr e List.mem_cons_self)).2 (hcl e List.mem_cons_self h)
    by_cases h0 : recordInode e = 0
    · have h1 : listed ⟨e⟩ = none := by unfold listed; rw [entry_inode, if_neg (by simp [h0])]
      have h2 : ¬ isListed e = true := by simp [isListed, h0]
      rw [List.filterMap_cons_none h1, List.filter_cons_of_neg h2, ih]
    · have hn := hn h0
      cases hd : isDots (recordName e) with
      | true =>
        have h1 : listed ⟨e⟩ = none := by unfold listed; rw [entry_inode, hn, if_neg (by simp [hd])]
        have h2 : ¬ isListed e = true := by simp [isListed, hd]
        rw [List.filterMap_cons_none h1, List.filter_cons_of_neg h2, ih]
      | false =>
        have h1 : listed ⟨e⟩ = some (recordName e, recordInode e) := by
          unfold listed; rw [entry_inode, hn, if_pos ⟨h0, hd⟩]
        have h2 : isListed e = true := by simp [isListed, hd, h0]
        rw [List.filterMap_cons_some h1, List.filter_cons_of_pos h2, ih, List.map_cons]

/-- A file opened and read to the end. -/
theorem file_read (hv : VolumeSpec False dev G Is At) {c : Bytes} (hc : c.length < U64) {w : W}
    {fs : Ext4Fs D} (hG : G w) (ho : Opened Is c fs) {n : Nat} {content : Bytes} (hf : FileAt c n content) :
    ∃ w' fs' f w2 f2 N, Ext4Fs.openFile dev n (w, fs) = ((w', fs'), .ok (.regularFile f)) ∧ Opened Is c fs' ∧
      f.blockSize = .ok (blockSizeOf (sbOf c)) ∧ G w2 ∧ ∀ rounds, N ≤ rounds →
        readBlocks dev rounds (blockSizeOf (sbOf c)) rounds (w', f) = ((w2, f2), .ok (some content)) := by
  obtain ⟨xs, hx, hin, h32, hsize, hlast, rfl⟩ := hf.blocks
  obtain ⟨w', fs', r, h1, hG', ho', h2, -⟩ := C75_outcome hv c hc w fs hG ho n hf.readable
  obtain ⟨f, rfl⟩ := h2 hf.type hf.extents
  obtain ⟨-, -, -, -, -, i, fs2, hi, ho2, -, -, h3, -⟩ := C75_success hv c w w' fs fs' hG ho n _ h1
  obtain ⟨-, -, k1, -, -, -, -, -, k2, -⟩ := C60_fields _ _ _ i hi
  have k1 : i.fileSizeBytes = sizeOf c n := k1
  have k2 : i.blocksBuffer = rootNode c n := k2
  obtain ⟨hinv, g1, -, g3⟩ := Ext4File.open_inv (w := w') hG' ho2 h3 (fun _ => True) trivial
  have hpen : Ext4File.Pending c (blockSizeOf (sbOf c)) f.stack 0 xs := by
    rw [g3, ← List.append_nil xs]
    refine .tree _ _ _ _ _ _ ?_ (.nil _)
    show Contiguous c _ i.blocksBuffer 0 0 xs
    rw [k2]
    exact hx
  obtain ⟨⟨w2, f2⟩, N, hG2, h4⟩ := readBlocks_pending hv hc xs 0 (w', f) hin hinv g1 hpen
    (by rw [Nat.zero_add, k1]; exact hsize) (by rw [Nat.zero_add, k1]; exact hlast)
    (by rw [Nat.zero_add]; exact h32)
  refine ⟨w', fs', f, w2, f2, N + xs.length + 1, h1, ho', Ext4File.blockSize_eq hinv.opened, hG2, fun rounds hr => ?_⟩
  have h5 := h4 rounds (by omega) rounds (by omega)
  rwa [k1, Nat.zero_mul, Nat.sub_zero] at h5

theorem walkAll_each {c : Bytes} {k : Nat}
    (ih : ∀ n x, TreeAt c k n x → ∀ {w : W} {fs : Ext4Fs D}, G w → Opened Is c fs →
      ∃ w' fs' N, G w' ∧ Opened Is c fs' ∧ ∀ rounds, N ≤ rounds → ∀ depth, k ≤ depth →
        walk dev rounds depth n (w, fs) = ((w', fs'), .ok (some x))) :
    ∀ {es : List Bytes} {xs : List (Bytes × Tree)},
      List.Forall₂ (fun e x => recordName e = x.1 ∧ TreeAt c k (recordInode e) x.2) es xs →
      ∀ {w : W} {fs : Ext4Fs D}, G w → Opened Is c fs →
      ∃ w' fs' N, G w' ∧ Opened Is c fs' ∧ ∀ rounds, N ≤ rounds → ∀ depth, k ≤ depth →
        walkAll (walk dev rounds depth) (es.map fun e => (recordName e, recordInode e)) (w, fs)
          = ((w', fs'), .ok (some xs)) := by
  intro es xs h
  induction h with
  | nil => exact fun {w fs} hG ho => ⟨w, fs, 0, hG, ho, fun _ _ _ _ => rfl⟩
  | cons h _ ih2 =>
    intro w fs hG ho
    obtain ⟨w1, fs1, N1, hG1, ho1, h1⟩ := ih _ _ h.2 hG ho
    obtain ⟨w2, fs2, N2, hG2, ho2, h2⟩ := ih2 hG1 ho1
    refine ⟨w2, fs2, N1 + N2, hG2, ho2, fun rounds hr depth hd => ?_⟩
    rw [List.map_cons, walkAll, SM.bind_ok (h := h1 rounds (by omega) depth hd)]
    simp only
    rw [SM.bind_ok (h := h2 rounds (by omega) depth hd), h.1]
    rfl

/-- The program reads the tree. -/
theorem walk_tree (hv : VolumeSpec False dev G Is At) {c : Bytes} (hc : c.length < U64) :
    ∀ k n x, TreeAt c k n x → ∀ {w : W} {fs : Ext4Fs D}, G w → Opened Is c fs →
      ∃ w' fs' N, G w' ∧ Opened Is c fs' ∧ ∀ rounds, N ≤ rounds → ∀ depth, k ≤ depth →
        walk dev rounds depth n (w, fs) = ((w', fs'), .ok (some x)) := by
  intro k
  induction k with
  | zero => exact fun n x h => h.elim
  | succ k ih =>
    intro n x h w fs hG ho
    cases x with
    | file b =>
      obtain ⟨w', fs', f, w2, f2, N, h1, ho', h2, hG2, h3⟩ := file_read hv hc hG ho h
      refine ⟨w2, fs', N, hG2, ho', fun rounds hr depth hd => ?_⟩
      obtain ⟨depth, rfl⟩ : ∃ j, depth = j + 1 := ⟨depth - 1, by omega⟩
      rw [walk, SM.bind_ok (h := h1)]
      simp only
      have h6 : (SM.lift f.blockSize : SM (W × Ext4Fs D) Nat) (w', fs')
          = ((w', fs'), .ok (blockSizeOf (sbOf c))) := by
        rw [SM.lift_apply, h2]
      rw [SM.bind_ok (h := h6), SM.bind_ok (h := onHandle_eq fs' (h3 rounds hr))]
      rfl
    | dir es =>
      obtain ⟨records, hd, hcl, hes⟩ := h
      obtain ⟨w1, fs1, d, i, h1, ho1, hleft⟩ := directory_left hv hc hG ho hd
      obtain ⟨⟨w2, d2⟩, N2, hG2, h2⟩ := listAll_left hv hc (records.map DirEntry.mk) (w1, d)
        (by rw [List.map_map]; exact hleft)
      rw [listed_records records (directory_record hd) hcl] at h2
      obtain ⟨w3, fs3, N3, hG3, ho3, h3⟩ := walkAll_each ih hes hG2 ho1
      refine ⟨w3, fs3, N2 + records.length + 1 + N3, hG3, ho3, fun rounds hr depth hdep => ?_⟩
      obtain ⟨depth, rfl⟩ : ∃ j, depth = j + 1 := ⟨depth - 1, by omega⟩
      rw [walk, SM.bind_ok (h := h1)]
      simp only
      rw [SM.bind_ok (h := onHandle_eq fs1 (h2 rounds (by omega) rounds (by rw [List.length_map]; omega)))]
      simp only
      rw [SM.bind_ok (h := h3 rounds (by omega) depth (by omega))]
      rfl
    | other =>
      obtain ⟨hr, h8, h4⟩ := h
      obtain ⟨w', fs', r, h1, hG', ho', -, -, -, -, k0⟩ := C75_outcome hv c hc w fs hG ho n hr
      have := k0 h8 h4
      subst this
      refine ⟨w', fs', 0, hG', ho', fun rounds _ depth hd => ?_⟩
      obtain ⟨depth, rfl⟩ : ∃ j, depth = j + 1 := ⟨depth - 1, by omega⟩
      rw [walk, SM.bind_ok (h := h1)]
      rfl

end

/-! ## Devices that may fail -/

namespace Ext4Sim
variable {F : Prop} {W1 D1 W2 D2 : Type} {dev1 : StreamDev W1 D1} {G1 : W1 → Prop}
  {Is1 : D1 → Bytes → Prop} {At1 : W1 → D1 → Nat → Prop} {dev2 : StreamDev W2 D2} {G2 : W2 → Prop}
  {Is2 : D2 → Bytes → Prop} {At2 : W2 → D2 → Nat → Prop} {lim1 lim2 : Nat → Nat} {c : Bytes}

theorem listAll (h1 : SeekableVolume F lim1 dev1 G1 Is1 At1)
    (h2 : SeekableVolume False lim2 dev2 G2 Is2 At2)
    (hlim : Lims F lim1 lim2 c) (rounds : Nat) (k : Nat) :
    Sim F (Both G1 G2 (Dr Is1 Is2 c)) (Both G1 G2 (Dr Is1 Is2 c))
      (fun a1 a2 s1 s2 => a1 = a2 ∧ Both G1 G2 (Dr Is1 Is2 c) s1 s2)
      (listAll dev1 rounds k) (listAll dev2 rounds k) := by
  induction k with
  | zero => exact Sim.pure fun _ _ h => ⟨rfl, h⟩
  | succ k ih =>
    refine Sim.bindEq (readNextEntry h1 h2 hlim rounds) fun r => ?_
    match r with
    | none => exact Sim.pure fun _ _ h => ⟨rfl, h⟩
    | some none => exact Sim.pure fun _ _ h => ⟨rfl, h⟩
    | some (some e) => exact Sim.bindEq ih fun rest => Sim.pure fun _ _ h => ⟨rfl, h⟩

omit [Build] in
theorem walkAll {S1 S2 : Type} {R : S1 → S2 → Prop} {go1 : Nat → SM S1 (Option Tree)}
    {go2 : Nat → SM S2 (Option Tree)}
    (h : ∀ n, Sim F R R (fun a1 a2 s1 s2 => a1 = a2 ∧ R s1 s2) (go1 n) (go2 n)) (es : List (Bytes × Nat)) :
    Sim F R R (fun a1 a2 s1 s2 => a1 = a2 ∧ R s1 s2) (walkAll go1 es) (walkAll go2 es) := by
  induction es with
  | nil => exact Sim.pure fun _ _ h => ⟨rfl, h⟩
  | cons e es ih =>
    refine Sim.bindEq (h e.2) fun r => ?_
    match r with
    | none => exact Sim.pure fun _ _ h => ⟨rfl, h⟩
    | some x => exact Sim.bindEq ih fun rest => Sim.pure fun _ _ h => ⟨rfl, h⟩

theorem walk (h1 : SeekableVolume F lim1 dev1 G1 Is1 At1)
    (h2 : SeekableVolume False lim2 dev2 G2 Is2 At2)
    (hlim : Lims F lim1 lim2 c) (rounds : Nat) (k : Nat) :
    ∀ n, Sim F (Both G1 G2 (Fs Is1 Is2 c)) (Both G1 G2 (Fs Is1 Is2 c))
      (fun a1 a2 s1 s2 => a1 = a2 ∧ Both G1 G2 (Fs Is1 Is2 c) s1 s2)
      (walk dev1 rounds k n) (walk dev2 rounds k n) := by
  induction k with
  | zero => exact fun _ => Sim.pure fun _ _ h => ⟨rfl, h⟩
  | succ k ih =>
    intro n
    refine Sim.bind (openFile h1 h2 hlim n) fun a1 a2 => ?_
    by_cases ha : Op Is1 Is2 c a1 a2
    · match a1, a2, ha with
      | .unsupported _, .unsupported _, _ => exact Sim.pure fun _ _ h => ⟨rfl, h.2⟩
      | .regularFile f1, .regularFile f2, ha =>
        have ha : Fl Is1 Is2 c f1 f2 := ha
        simp only [ha.blockSize]
        refine Sim.bindEq (Sim.lift (fun _ _ h => h.2) fun _ _ _ _ h => ⟨rfl, h.2⟩) fun bs => ?_
        exact Sim.bindEq (onNew ha (readBlocks h1 h2 hlim rounds bs rounds)) fun r =>
          Sim.pure fun _ _ h => ⟨rfl, h⟩
      | .directory d1, .directory d2, ha =>
        have ha : Dr Is1 Is2 c d1 d2 := ha
        refine Sim.bindEq (R'' := Both G1 G2 (Fs Is1 Is2 c))
          (Sim.weaken (onNew ha (listAll h1 h2 hlim rounds rounds)) (fun _ _ h => h.2)
            fun _ _ _ _ h => h) fun r => ?_
        match r with
        | none => exact Sim.pure fun _ _ h => ⟨rfl, h⟩
        | some es => exact Sim.bindEq (walkAll ih es) fun r => Sim.pure fun _ _ h => ⟨rfl, h⟩
    · exact fun s1 s2 h => absurd h.1 ha

theorem readTree (h1 : SeekableVolume F lim1 dev1 G1 Is1 At1)
    (h2 : SeekableVolume False lim2 dev2 G2 Is2 At2)
    (hlim : Lims F lim1 lim2 c) {d1 : D1} {d2 : D2} (hd : Dv Is1 Is2 c d1 d2) (rounds depth : Nat) :
    Sim F (Wd G1 G2) (Wd G1 G2) (fun a1 a2 w1 w2 => a1 = a2 ∧ Wd G1 G2 w1 w2)
      (readTree dev1 rounds depth d1) (readTree dev2 rounds depth d2) := by
  refine Sim.bind («open» h1 h2 hlim hd) fun f1 f2 => ?_
  refine Sim.withLocal (ET := Both G1 G2 (Fs Is1 Is2 c)) ?_ fun _ _ h => h.1
  refine Sim.weaken (walk h1 h2 hlim rounds depth 2) ?_ fun _ _ _ _ h => ⟨h.1, h.2.1⟩
  rintro ⟨w1, _⟩ ⟨w2, _⟩ ⟨⟨hf, hw⟩, rfl, rfl⟩
  exact ⟨hw, hf⟩

end Ext4Sim

end

/-! ## Tables -/

theorem mapM_forall₂ {α β : Type} {f : α → Option β} :
    ∀ {l : List α} {r : List β}, l.mapM f = some r ↔ List.Forall₂ (fun a b => f a = some b) l r := by
  intro l
  induction l with
  | nil => intro r; simp [List.mapM_nil, eq_comm]
  | cons a l ih =>
    intro r
    rw [List.mapM_cons, List.forall₂_cons_left_iff]
    simp only [Option.bind_eq_bind, Option.bind_eq_some_iff, Option.pure_def, Option.some.injEq, ih]
    constructor
    · rintro ⟨b, h1, r', h2, rfl⟩; exact ⟨b, r', h1, h2, rfl⟩
    · rintro ⟨b, r', h1, h2, rfl⟩; exact ⟨b, h1, r', h2, rfl⟩

namespace MkfsLemmas
open Mkfs

/-- The bytes of the volume describe the trees of the table. -/
theorem tree_volume {k : Mkfs.Form} {t : List Node} {c tail : Bytes} (hc : c = volume k t ++ tail) (hf : Fits k t) :
    ∀ depth n x, treeOf t depth n = some x → TreeAt c depth (n + 2) x := by
  intro depth
  induction depth with
  | zero => intro n x h; cases h
  | succ depth ih =>
    intro n x h
    unfold treeOf at h
    rcases hi : t[n]? with _ | nd
    · rw [hi] at h; cases h
    rw [hi] at h
    cases nd with
    | file b =>
      cases h
      exact file_volume hc hf n b hi
    | dir es =>
      simp only [Option.map_eq_some_iff] at h
      obtain ⟨xs, h, rfl⟩ := h
      have hd := List.mem_of_getElem? hi
      have he := entry_values hf es hd
      rw [mapM_forall₂] at h
      refine ⟨es.map (record k), directory_volume hc hf n es hi, ?_, ?_⟩
      · intro r hr _
        obtain ⟨e, hm, rfl⟩ := List.mem_map.1 hr
        exact (he e hm).2.2.2.2
      · have hfil : (es.map (record k)).filter isListed
            = (es.filter fun e => !isDots e.1).map (record k) := by
          rw [List.filter_map]
          congr 1
          refine List.filter_congr fun e hm => ?_
          obtain ⟨-, -, h1, h2, -⟩ := he e hm
          simp only [Function.comp_apply, isListed, h1, h2]
          simp
        rw [hfil, List.forall₂_map_left_iff]
        have hm : ∀ e ∈ es.filter fun e => !isDots e.1, e ∈ es := fun e h => (List.mem_filter.1 h).1
        revert h hm
        generalize (es.filter fun e => !isDots e.1) = l
        intro h hm
        induction h with
        | nil => exact .nil
        | cons h _ ih2 =>
          rename_i a b l1 l2 _
          refine .cons ?_ (ih2 fun e h => hm e (List.mem_cons_of_mem _ h))
          obtain ⟨y, hy, rfl⟩ := Option.map_eq_some_iff.1 h
          obtain ⟨-, -, h1, h2, -⟩ := he a (hm a List.mem_cons_self)
          refine ⟨h2, ?_⟩
          rw [h1]
          exact ih _ _ hy

mutual
theorem rows_length (n : Nat) : ∀ x : Tree, (x.rows n).length = x.count
  | .file _ => by simp [Tree.rows, Tree.count]
  | .dir es => by simp [Tree.rows, Tree.count, rowsAll_length (n + 1) es]
  | .other => by simp [Tree.rows, Tree.count]
theorem rowsAll_length (n : Nat) : ∀ es : List (Bytes × Tree), (rowsAll n es).length = countAll es
  | [] => by simp [rowsAll, countAll]
  | (_, x) :: es => by simp [rowsAll, countAll, rows_length n x, rowsAll_length (n + x.count) es]
end

mutual
/-- The tree is found in the table that it was put into. -/
theorem treeOf_rows (t : List Node) :
    ∀ (x : Tree) (pre post : List Node), t = pre ++ x.rows pre.length ++ post → x.Plain →
      ∀ depth, x.depth ≤ depth → treeOf t depth pre.length = some x
  | .file b, pre, post, ht, _, depth, hd => by
    obtain ⟨j, rfl⟩ : ∃ j, depth = j + 1 := ⟨depth - 1, by simp [Tree.depth] at hd; omega⟩
    have : t[pre.length]? = some (.file b) := by
      rw [ht]
      simp [Tree.rows]
    unfold treeOf
    rw [this]
  | .dir es, pre, post, ht, hp, depth, hd => by
    obtain ⟨j, rfl⟩ : ∃ j, depth = j + 1 := ⟨depth - 1, by simp [Tree.depth] at hd; omega⟩
    have : t[pre.length]? = some (.dir (placesFrom (pre.length + 1) es)) := by
      rw [ht]
      simp [Tree.rows]
    unfold treeOf
    rw [this]
    simp only [Tree.Plain] at hp
    have h := treeOf_rowsAll t es (pre ++ [.dir (placesFrom (pre.length + 1) es)]) post
      (by rw [ht]; simp [Tree.rows]) hp j (by simp [Tree.depth] at hd; omega)
    simp only [List.length_append, List.length_singleton] at h
    simp only [h, Option.map_some]
  | .other, _, _, _, hp, _, _ => by simp [Tree.Plain] at hp
theorem treeOf_rowsAll (t : List Node) :
    ∀ (es : List (Bytes × Tree)) (pre post : List Node), t = pre ++ rowsAll pre.length es ++ post → PlainAll es →
      ∀ depth, depthAll es ≤ depth →
      ((placesFrom pre.length es).filter fun e => !isDots e.1).mapM
        (fun e => (treeOf t depth e.2).map fun x => (e.1, x)) = some es
  | [], _, _, _, _, _, _ => by simp [placesFrom]
  | (name, x) :: es, pre, post, ht, hp, depth, hd => by
    simp only [PlainAll] at hp
    simp only [depthAll] at hd
    have h1 := treeOf_rows t x pre (rowsAll (pre.length + x.count) es ++ post)
      (by rw [ht]; simp [rowsAll]) hp.2.1 depth (by omega)
    have h2 := treeOf_rowsAll t es (pre ++ x.rows pre.length) post
      (by rw [ht]; simp [rowsAll, rows_length]) hp.2.2 depth (by omega)
    rw [List.length_append, rows_length] at h2
    rw [placesFrom, List.filter_cons_of_pos (by simp [hp.1]), List.mapM_cons]
    simp only [h1, h2, Option.map_some, Option.bind_eq_bind, Option.bind_some, Option.pure_def]
end

end MkfsLemmas
end MdRecover
