import Verif.Model.Display
import Verif.Lemmas.ReportText

/-! C97: the texts of quantities. -/

namespace MdRecover
open MdSpec

/-- The words around the number. -/
def UnitType.words : UnitType → Bytes × Bytes
  | .blockNumber => (ascii "block #", [])
  | .blockCount => ([], ascii " blocks")
  | .blockSize => ([], ascii " bytes")
  | .sectorNumber => (ascii "sector #", [])
  | .sectorCount => ([], ascii " sectors")
  | .chunkNumber => (ascii "chunk #", [])
  | .stripeNumber => (ascii "stripe #", [])
  | .deviceNumber => (ascii "md device #", [])
  | .deviceCount => ([], ascii " devices")
  | .metadataEventCount => ([], ascii " metadata events")
  | .checkpointEventCount => ([], ascii " superblock events")
  | .fsBlockNumber => (ascii "filesystem block #", [])
  | .fileBlockNumber => (ascii "file block #", [])
  | .fsBlockCount => ([], ascii " blocks")
  | .inodeNumber => (ascii "inode #", [])
  | .inodeCount => ([], ascii " inodes")

theorem UnitType.display_words (u : UnitType) (n : Nat) :
    u.display n = u.words.1 ++ Debug.decimal n ++ u.words.2 := by
  cases u <;> simp [display, words]

/-- A byte that is a decimal digit. -/
def isDigit (c : UInt8) : Bool := 48 ≤ c.toNat && c.toNat ≤ 57

theorem decimal_digits (n : Nat) : ∀ c ∈ Debug.decimal n, isDigit c = true := by
  intro c hc
  unfold Debug.decimal Debug.number at hc
  split at hc
  · simp [ascii] at hc; subst hc; rfl
  · simp only [List.mem_map, List.mem_reverse] at hc
    obtain ⟨d, hd, rfl⟩ := hc
    have key : ∀ d < 10, isDigit (Debug.digit d) = true := by decide
    exact key d (Nat.digits_lt_base (by decide : 1 < 10) hd)

theorem UnitType.words_filter (u : UnitType) :
    u.words.1.filter isDigit = [] ∧ u.words.2.filter isDigit = [] ∧
      u.words.1.filter (fun c => !isDigit c) = u.words.1 ∧ u.words.2.filter (fun c => !isDigit c) = u.words.2 := by
  revert u
  have key : ∀ u : UnitType, u.words.1.filter isDigit = [] ∧ u.words.2.filter isDigit = [] := by
    intro u; cases u <;> decide +kernel
  intro u
  refine ⟨(key u).1, (key u).2, ?_, ?_⟩
  · rw [List.filter_eq_self]
    intro c hc
    have := List.filter_eq_nil_iff.1 (key u).1 c hc
    simpa using this
  · rw [List.filter_eq_self]
    intro c hc
    have := List.filter_eq_nil_iff.1 (key u).2 c hc
    simpa using this

theorem UnitType.display_filter (u : UnitType) (n : Nat) :
    (u.display n).filter isDigit = Debug.decimal n ∧
      (u.display n).filter (fun c => !isDigit c) = u.words.1 ++ u.words.2 := by
  obtain ⟨h1, h2, h3, h4⟩ := u.words_filter
  have e : (Debug.decimal n).filter (fun c => !isDigit c) = [] := by
    rw [List.filter_eq_nil_iff]
    intro c hc
    simp [decimal_digits n c hc]
  rw [display_words]
  constructor
  · simp only [List.filter_append, h1, h2, List.filter_eq_self.2 (decimal_digits n), List.nil_append,
      List.append_nil]
  · simp only [List.filter_append, h3, h4, e, List.append_nil]

theorem UnitType.words_inj : ∀ u v : UnitType, u.words.1 ++ u.words.2 = v.words.1 ++ v.words.2 →
    u.words = v.words ∧ (u = v ∨ (u = .blockCount ∧ v = .fsBlockCount) ∨ (u = .fsBlockCount ∧ v = .blockCount)) := by
  intro u v
  cases u <;> cases v <;> decide +kernel

/-- C97: the number is written in decimal. -/
theorem C97_decimal (u : UnitType) (n : Nat) :
    u.display n = u.words.1 ++ ascii (toString n) ++ u.words.2 := by
  rw [Debug.ascii_toString, u.display_words]

/-- C97: the text tells the number and the unit, except that counts of blocks of a device and of a filesystem
are alike. -/
theorem C97_tells_partial {u v : UnitType} {m n : Nat} (h : u.display m = v.display n) :
    m = n ∧ (u = v ∨ (u = .blockCount ∧ v = .fsBlockCount) ∨ (u = .fsBlockCount ∧ v = .blockCount)) := by
  obtain ⟨h1, h2⟩ := u.display_filter m
  obtain ⟨h3, h4⟩ := v.display_filter n
  refine ⟨?_, (UnitType.words_inj u v (h2.symm.trans ((congrArg _ h).trans h4))).2⟩
  exact Debug.number_inj (by decide) (by decide) (h1.symm.trans ((congrArg _ h).trans h3))

/-- C97 is false as stated: blocks of a device and of a filesystem, which may differ in size, are shown alike. -/
theorem C97_blocks_alike (n : Nat) : UnitType.display .blockCount n = UnitType.display .fsBlockCount n := rfl

/-- C97: devices that were given by different names are shown by different texts, if quoting keeps names apart. -/
theorem C97_device_ids (quote : Bytes → Bytes) (hq : ∀ a b, quote a = quote b → a = b) (i j : MdDeviceId)
    (hi : i.userReference.isSome) (hj : j.userReference.isSome) (h : i.display quote = j.display quote) :
    i.userReference = j.userReference := by
  obtain ⟨x, r⟩ := i
  obtain ⟨y, r'⟩ := j
  cases r with
  | none => cases hi
  | some r =>
    cases r' with
    | none => cases hj
    | some r' => exact congrArg some (hq _ _ h)

/-- C97, a case. -/
example : UnitType.display .fsBlockNumber 1024 = ascii "filesystem block #1024" := by
  rw [C97_decimal]; decide +kernel

end MdRecover
