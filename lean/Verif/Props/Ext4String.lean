import Verif.Lemmas.Utf8
import Verif.Model.Ext4String

/- Strings: C73.  `Ext4String` holds bytes; `hashed` is what its `Hash` writes into the hasher, `cmp` is
its `Ord`, `eq` its `PartialEq`. -/

namespace MdRecover
open MdSpec

/-- C73: a string built from a null-terminated buffer is the longest prefix without a zero byte. -/
theorem C73_prefix (b : Bytes) :
    (Ext4String.fromNullTerminated b).bytes <+: b ∧
      0 ∉ (Ext4String.fromNullTerminated b).bytes ∧
      ∀ p, p <+: b → 0 ∉ p → p <+: (Ext4String.fromNullTerminated b).bytes := by
  refine ⟨List.takeWhile_prefix _, fun h => ?_, fun p hp h0 => ?_⟩
  · have := List.all_eq_true.1 (List.all_takeWhile (l := b) (p := (· != 0))) 0 h
    simp at this
  · obtain ⟨t, rfl⟩ := hp
    show p <+: (p ++ t).takeWhile _
    rw [List.takeWhile_append_of_pos]
    · exact List.prefix_append _ _
    · intro x hx
      simp only [bne_iff_ne, ne_eq]
      rintro rfl
      exact h0 hx

/-- C73: `==` holds exactly of strings with the same bytes. -/
theorem C73_eq (s t : Ext4String) : s.eq t = true ↔ s.bytes = t.bytes := beq_iff_eq

/-- C73: equal strings have equal hashes and compare as equal. -/
theorem C73_equal (s t : Ext4String) (h : s.eq t = true) :
    s.hashed = t.hashed ∧ s.cmp t = .eq := by
  rw [C73_eq] at h
  have h1 : s.toStrLossy = t.toStrLossy := by unfold Ext4String.toStrLossy; rw [h]
  exact ⟨by unfold Ext4String.hashed; rw [h1], (Ext4String.cmpBytes_eq _ _).2 h1⟩

/-- C73 in part: strings of well-formed UTF-8 compare as equal only if they are equal.  Missing:
strings that are not UTF-8 (`C73_collision`). -/
theorem C73_compare_partial (s t : Ext4String) (hs : IsUtf8 s.bytes) (ht : IsUtf8 t.bytes) :
    s.cmp t = .eq ↔ s.eq t = true := by
  rw [C73_eq]
  unfold Ext4String.cmp Ext4String.toStrLossy
  rw [Ext4String.cmpBytes_eq, Utf8.lossy_utf8 hs, Utf8.lossy_utf8 ht]

/-- C73 is false as stated: different strings can compare as equal. -/
theorem C73_collision : ∃ s t : Ext4String, s.cmp t = .eq ∧ s.eq t = false :=
  ⟨⟨[0xff]⟩, ⟨[0xfe]⟩, by decide +kernel, by decide +kernel⟩

/-- C73: comparison is that of the texts, invalid sequences replaced; strings compare as equal exactly
if they have the same text, and then their hashes are equal. -/
theorem C73_text (s t : Ext4String) :
    (s.cmp t = .eq ↔ s.toStrLossy = t.toStrLossy) ∧ (s.cmp t = .eq ↔ s.hashed = t.hashed) ∧
      (s.cmp t = .lt ↔ BytesLt s.toStrLossy t.toStrLossy) := by
  refine ⟨Ext4String.cmpBytes_eq _ _, ?_, Ext4String.cmpBytes_lt _ _⟩
  refine (Ext4String.cmpBytes_eq _ _).trans ⟨fun h => ?_, fun h => ?_⟩
  · unfold Ext4String.hashed; rw [h]
  · exact List.append_cancel_right h

/-- C73: comparison is a total preorder. -/
theorem C73_order (s t u : Ext4String) :
    t.cmp s = (s.cmp t).swap ∧ (s.cmp t = .lt → t.cmp u = .lt → s.cmp u = .lt) ∧
      (s.cmp t = .eq → s.cmp u = t.cmp u) := by
  refine ⟨Ext4String.cmpBytes_swap _ _, Ext4String.cmpBytes_trans, fun h => ?_⟩
  have := (Ext4String.cmpBytes_eq _ _).1 h
  unfold Ext4String.cmp
  rw [this]

/-- C73: the text of a string is well-formed, and the bytes themselves if these are. -/
theorem C73_lossy (s : Ext4String) :
    IsUtf8 s.toStrLossy ∧ (IsUtf8 s.bytes → s.toStrLossy = s.bytes) :=
  ⟨Utf8.isUtf8_lossy _, Utf8.lossy_utf8⟩

/-- C73: conversion to a `String` succeeds exactly for well-formed UTF-8, and keeps the bytes. -/
theorem C73_into_string (s : Ext4String) :
    (IsUtf8 s.bytes → s.tryIntoString = some s.bytes) ∧
      (¬ IsUtf8 s.bytes → s.tryIntoString = none) := by
  unfold Ext4String.tryIntoString Utf8.fromUtf8
  constructor
  · intro h
    rw [if_pos ((Utf8.validFuel_iff _ _ (Nat.le_refl _)).2 h)]
  · intro h
    rw [if_neg (fun h' => h ((Utf8.validFuel_iff _ _ (Nat.le_refl _)).1 h'))]

/-- The cases: "a\0b" is "a"; "é" is UTF-8, 0xff is not; a broken sequence is replaced as a whole, a
surrogate byte by byte. -/
example : (Ext4String.fromNullTerminated [97, 0, 98]).bytes = [97] ∧
    IsUtf8 [0xc3, 0xa9] ∧ ¬ IsUtf8 [0xff] ∧
    (Ext4String.mk [97, 0xf0, 0x9f, 0x98, 98]).toStrLossy = [97, 0xef, 0xbf, 0xbd, 98] ∧
    (Ext4String.mk [0xed, 0xa0, 0x80]).toStrLossy
      = [0xef, 0xbf, 0xbd, 0xef, 0xbf, 0xbd, 0xef, 0xbf, 0xbd] ∧
    (Ext4String.mk [97]).cmp ⟨[97, 98]⟩ = .lt ∧ (Ext4String.mk [98]).cmp ⟨[97, 98]⟩ = .gt := by
  refine ⟨by decide +kernel, (Utf8.validFuel_iff 2 _ (by decide)).1 (by decide +kernel),
    fun h => ?_, by decide +kernel, by decide +kernel, by decide +kernel, by decide +kernel⟩
  have := (Utf8.validFuel_iff 1 _ (by decide)).2 h
  revert this
  decide +kernel

end MdRecover
