import Verif.Spec.Elsewhere
import Verif.Lemmas.Patchy

/-! What the bytes of a volume say about a path is said by the bytes on the path. -/

namespace MdRecover
open MdSpec

variable {bad : Nat → Prop} {c c' : Bytes}

theorem _root_.MdSpec.SameExcept.slice (h : SameExcept bad c c') {p len : Nat} (hi : Intact bad c p len) :
    (c'.drop p).take len = (c.drop p).take len := by
  refine List.ext_getElem? fun i => ?_
  rw [List.getElem?_take, List.getElem?_take]
  by_cases hlt : i < len
  · rw [if_pos hlt, if_pos hlt, List.getElem?_drop, List.getElem?_drop]
    by_cases hx : p + i < c.length
    · exact h.2 _ (hi _ (by omega) (by omega) hx)
    · rw [List.getElem?_eq_none (by have := h.1; omega), List.getElem?_eq_none (by omega)]
  · rw [if_neg hlt, if_neg hlt]

namespace Elsewhere

theorem sb (h : SameExcept bad c c') (hf : FsIntact bad c) : sbOf c' = sbOf c := h.slice hf.1

theorem openable (h : SameExcept bad c c') (hf : FsIntact bad c) (hc : Ext4Openable c) : Ext4Openable c' := by
  have hs := sb h hf
  refine ⟨by rw [h.1]; exact hc.long, by rw [hs]; exact hc.readable, ?_⟩
  rw [hs, h.1]
  exact hc.fits

theorem descriptor (h : SameExcept bad c c') (hf : FsIntact bad c) {i : Nat} (hi : i < groupsOf (sbOf c)) :
    descriptorOf c' i = descriptorOf c i := by
  unfold descriptorOf
  rw [sb h hf]
  refine h.slice (hf.2.mono (Nat.le_add_right _ _) ?_)
  have : (i + 1) * le (sbOf c) 0xfe 2 ≤ groupsOf (sbOf c) * le (sbOf c) 0xfe 2 := Nat.mul_le_mul_right _ hi
  rw [Nat.succ_mul] at this
  omega

theorem slot (h : SameExcept bad c c') (hf : FsIntact bad c) {n : Nat}
    (hi : (n - 1) / le (sbOf c) 0x28 4 < groupsOf (sbOf c)) : inodeSlot c' n = inodeSlot c n := by
  unfold inodeSlot inodeTableOf
  rw [sb h hf, descriptor h hf hi]

theorem bytes (h : SameExcept bad c c') (hf : FsIntact bad c) {n : Nat} (hi : InodeIntact bad c n)
    (hr : InodeReadable c n) : inodeBytes c' n = inodeBytes c n := by
  unfold inodeBytes
  rw [sb h hf, slot h hf hr.group]
  exact h.slice hi.1

theorem readable (h : SameExcept bad c c') (hf : FsIntact bad c) {n : Nat} (hi : InodeIntact bad c n)
    (hr : InodeReadable c n) : InodeReadable c' n := by
  have hs := sb h hf
  have hb := bytes h hf hi hr
  exact ⟨hr.pos, by rw [hs]; exact hr.le, by rw [hs]; exact hr.group,
    by rw [hs, slot h hf hr.group, h.1]; exact hr.inside, by rw [hb]; exact hr.extra,
    by rw [hb]; exact hr.length⟩

theorem block (h : SameExcept bad c c') {bs : Nat} {root : Bytes}
    (hi : ∀ x, TreeBlock c bs root x → Intact bad c (x * bs) bs) {x : Nat} (hx : TreeBlock c bs root x) :
    blockOf c' bs x = blockOf c bs x := h.slice (hi x hx)

theorem contiguous (h : SameExcept bad c c') {bs : Nat} {root : Bytes}
    (hi : ∀ x, TreeBlock c bs root x → Intact bad c (x * bs) bs) {node : Bytes} {i p : Nat} {xs : List Nat}
    (hc : Contiguous c bs node i p xs) (hn : TreeNode c bs root node) :
    Contiguous c' bs node i p xs ∧ ∀ x ∈ xs, TreeBlock c bs root x := by
  induction hc with
  | done node p => exact ⟨.done node p, fun x hx => absurd hx List.not_mem_nil⟩
  | extent node i p xs h1 h2 h3 h4 h5 _ ih =>
    obtain ⟨k1, k2⟩ := ih hn
    refine ⟨.extent node i p xs h1 h2 h3 h4 h5 k1, fun x hx => ?_⟩
    rcases List.mem_append.mp hx with hx | hx
    · obtain ⟨j, hj, rfl⟩ := List.mem_map.mp hx
      exact ⟨node, i, hn, h3, h2, .inr ⟨h1, j, List.mem_range.mp hj, rfl⟩⟩
    · exact k2 x hx
  | index node i p sub xs h1 h2 h3 h4 h5 _ _ ih1 ih2 =>
    obtain ⟨k1, k2⟩ := ih1 (.child node i hn h1 h2 h3 h5)
    obtain ⟨k3, k4⟩ := ih2 hn
    have hb : blockOf c' bs (indexChild (nodeEntry node i)) = blockOf c bs (indexChild (nodeEntry node i)) :=
      block h hi ⟨node, i, hn, h3, h2, .inl ⟨h1, rfl⟩⟩
    refine ⟨.index node i p sub xs h1 h2 h3 h4 ?_ (by rw [hb]; exact k1) k3, fun x hx => ?_⟩
    · unfold BlockInside at h5 ⊢
      rw [h.1]; exact h5
    · rcases List.mem_append.mp hx with hx | hx
      · exact k2 x hx
      · exact k4 x hx

theorem file (h : SameExcept bad c c') (hf : FsIntact bad c) {n : Nat} (hi : InodeIntact bad c n) {b : Bytes}
    (ha : FileAt c n b) : FileAt c' n b := by
  obtain ⟨hr, ht, hx, xs, h1, h2, h3, h4, h5, h6⟩ := ha
  have hs := sb h hf
  have hb := bytes h hf hi hr
  obtain ⟨k1, k2⟩ := contiguous h hi.2 h1 .root
  refine ⟨readable h hf hi hr, ?_, ?_, xs, ?_, ?_, h3, ?_, ?_, ?_⟩
  · unfold typeNumber at ht ⊢; rw [hb]; exact ht
  · unfold hasExtents flagBit at hx ⊢; rw [hb]; exact hx
  · unfold rootNode at k1 ⊢; rw [hb, hs]; exact k1
  · intro x hx
    have := h2 x hx
    unfold BlockInside at this ⊢
    rw [hs, h.1]; exact this
  · unfold MdSpec.sizeOf at h4 ⊢; rw [hb, hs]; exact h4
  · unfold MdSpec.sizeOf at h5 ⊢; rw [hb, hs]; exact h5
  · rw [h6]
    unfold MdSpec.sizeOf
    rw [hb, hs]
    congr 1
    rw [List.flatMap_def, List.flatMap_def]
    congr 1
    exact List.map_congr_left fun x hx => (block h hi.2 (k2 x hx)).symm

theorem forall₂_mem {α β : Type} {R S : α → β → Prop} {xs : List α} {ys : List β}
    (h : List.Forall₂ R xs ys) (hs : ∀ x ∈ xs, ∀ y, R x y → S x y) : List.Forall₂ S xs ys := by
  induction h with
  | nil => exact .nil
  | cons h1 _ ih =>
    exact .cons (hs _ List.mem_cons_self _ h1) (ih fun x hx => hs x (List.mem_cons_of_mem _ hx))

theorem directory (h : SameExcept bad c c') (hf : FsIntact bad c) {n : Nat} (hi : InodeIntact bad c n)
    {records : List Bytes} (ha : DirectoryAt c n records) : DirectoryAt c' n records := by
  obtain ⟨hr, ht, hh, hx, xs, ess, seed, h1, h2, h3, h4, h5, h6, h7⟩ := ha
  have hs := sb h hf
  have hb := bytes h hf hi hr
  obtain ⟨k1, k2⟩ := contiguous h hi.2 h1 .root
  refine ⟨readable h hf hi hr, ?_, ?_, ?_, xs, ess, seed, ?_, ?_, h3, ?_, ?_, ?_, h7⟩
  · unfold typeNumber at ht ⊢; rw [hb]; exact ht
  · unfold flagBit at hh ⊢; rw [hb]; exact hh
  · unfold hasExtents flagBit at hx ⊢; rw [hb]; exact hx
  · unfold rootNode at k1 ⊢; rw [hb, hs]; exact k1
  · intro x hx
    have := h2 x hx
    unfold BlockInside at this ⊢
    rw [hs, h.1]; exact this
  · unfold MdSpec.sizeOf at h4 ⊢; rw [hb, hs]; exact h4
  · unfold InodeSeed HasChecksums VolumeSeed at h5 ⊢
    rw [hb, hs]; exact h5
  · rw [hs]
    refine forall₂_mem h6 fun x hx es he => ?_
    rw [block h hi.2 (k2 x hx)]
    exact he

theorem leads (h : SameExcept bad c c') (hf : FsIntact bad c) {n m : Nat} {names : List Bytes}
    (hl : Leads c CleanName n names m)
    (hi : ∀ front rest k, names = front ++ rest → Leads c CleanName n front k → InodeIntact bad c k) :
    Leads c' CleanName n names m := by
  induction hl with
  | here n => exact .here n
  | into n m name names before after e hd he hb hP hl ih =>
    refine .into n m name names before after e
      (directory h hf (hi [] _ n rfl (.here n)) hd) he hb hP (ih fun front rest k hk hlk => ?_)
    exact hi (name :: front) rest k (by rw [hk]; rfl) (.into n k name front before after e hd he hb hP hlk)

/-- What is said about a path is said of every volume that has the same bytes on the path. -/
theorem says_same (h : SameExcept bad c c') {names : List Bytes} {out : Found} (hs : Says c names out)
    (hp : PathIntact bad c names) : Says c' names out := by
  obtain ⟨hf, hi⟩ := hp
  have cut : ∀ {front rest : List Bytes}, names = front ++ rest → ∀ f r k, front = f ++ r →
      Leads c CleanName 2 f k → InodeIntact bad c k := by
    intro front rest hn f r k hk hl
    exact hi f (r ++ rest) k (by rw [hn, hk, List.append_assoc]) hl
  cases hs with
  | content m b hl ha =>
    exact .content m b (leads h hf hl hi) (file h hf (hi names [] m (by simp) hl) ha)
  | missing front rest name n records hn hl hd h1 h2 =>
    exact .missing front rest name n records hn (leads h hf hl (cut hn))
      (directory h hf (hi front _ n hn hl) hd) h1 h2
  | notADirectory front rest name n hn hl hr ht hx =>
    have hin := hi front _ n hn hl
    have hb := bytes h hf hin hr
    refine .notADirectory front rest name n hn (leads h hf hl (cut hn)) (readable h hf hin hr) ?_ ?_
    · unfold typeNumber at ht ⊢; rw [hb]; exact ht
    · unfold typeNumber hasExtents flagBit at hx ⊢; rw [hb]; exact hx
  | notAFile m hl hr ht hx =>
    have hin := hi names [] m (by simp) hl
    have hb := bytes h hf hin hr
    refine .notAFile m (leads h hf hl hi) (readable h hf hin hr) ?_ ?_
    · unfold typeNumber at ht ⊢; rw [hb]; exact ht
    · unfold typeNumber hasExtents flagBit at hx ⊢; rw [hb]; exact hx

end Elsewhere
end MdRecover
