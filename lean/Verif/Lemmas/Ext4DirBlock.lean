import Verif.Spec.Ext4Directory
import Verif.Props.Crc
import Verif.Lemmas.Bytes
import Verif.Lemmas.Ext4Extent

namespace MdRecover
open MdSpec

theorem dirName_offset : dirEntryLayout.offset .name = 8 := by decide +kernel

theorem dirEntry_at {f : DirEntryField} {off w : Nat}
    (h : (dirEntryLayout.offset f, dirEntryLayout.width f) = (off, w)) (b : Bytes) :
    dirEntryLayout.nat .little b f = le b off w := by
  show le b _ _ = _
  rw [(Prod.mk.inj h).1, (Prod.mk.inj h).2]

theorem dirTail_at {f : DirTailField} {off w : Nat}
    (h : (dirTailLayout.offset f, dirTailLayout.width f) = (off, w)) (b : Bytes) :
    dirTailLayout.nat .little b f = le b off w := by
  show le b _ _ = _
  rw [(Prod.mk.inj h).1, (Prod.mk.inj h).2]

theorem dirTail_size : dirTailLayout.size = 12 := by decide +kernel

theorem le_drop (b : Bytes) (k off w : Nat) : le (b.drop k) off w = le b (k + off) w := by
  unfold le; rw [List.drop_drop]

theorem le_append_left {a b : Bytes} {off w : Nat} (h : off + w ≤ a.length) :
    le (a ++ b) off w = le a off w := by
  unfold le
  rw [List.drop_append_of_le_length (by omega),
    List.take_append_of_le_length (by rw [List.length_drop]; omega)]

namespace DirEntry

theorem fromBuf_eq (u : Bytes) :
    fromBuf u = if 8 ≤ u.length ∧ le u 4 2 ≤ u.length ∧ 8 + le u 6 1 ≤ le u 4 2 then
      (some ⟨u.take (le u 4 2)⟩, u.drop (le u 4 2)) else (none, u) := by
  unfold fromBuf
  rw [dirName_offset, dirEntry_at (f := .recordLength) (off := 4) (w := 2) (by decide +kernel),
    dirEntry_at (f := .nameLength) (off := 6) (w := 1) (by decide +kernel)]
  by_cases h : 8 ≤ u.length
  · rw [if_pos h]
    by_cases h2 : le u 4 2 ≤ u.length ∧ 8 + le u 6 1 ≤ le u 4 2
    · rw [if_pos h2, if_pos ⟨h, h2⟩]
    · rw [if_neg h2, if_neg (fun h' => h2 h'.2)]
  · rw [if_neg h, if_neg (fun h' => h h'.1)]

/-- A record in front is taken. -/
theorem fromBuf_record {e : Bytes} (h : IsRecord e) (rest : Bytes) :
    fromBuf (e ++ rest) = (some ⟨e⟩, rest) := by
  obtain ⟨h1, h2, h3⟩ := h
  rw [fromBuf_eq, le_append_left (by omega), le_append_left (by omega), h2, if_pos]
  · rw [List.take_left, List.drop_left]
  · rw [List.length_append]; omega

/-- Nothing is taken where no record begins. -/
theorem fromBuf_none {u : Bytes} (h : ∀ n, ¬ IsRecord (u.take n)) : fromBuf u = (none, u) := by
  rw [fromBuf_eq, if_neg]
  rintro ⟨h1, h2, h3⟩
  refine h (le u 4 2) ⟨?_, ?_, ?_⟩
  · rw [List.length_take]; omega
  · rw [le_take u (by omega), List.length_take]; omega
  · rw [le_take u (by omega), List.length_take]; omega

theorem fromBuf_cases (u : Bytes) :
    (∃ e rest, IsRecord e ∧ u = e ++ rest ∧ fromBuf u = (some ⟨e⟩, rest)) ∨
      ((∀ n, ¬ IsRecord (u.take n)) ∧ fromBuf u = (none, u)) := by
  by_cases h : ∃ n, IsRecord (u.take n)
  · obtain ⟨n, h⟩ := h
    left
    refine ⟨u.take n, u.drop n, h, (List.take_append_drop n u).symm, ?_⟩
    have := fromBuf_record h (u.drop n)
    rwa [List.take_append_drop] at this
  · have h : ∀ n, ¬ IsRecord (u.take n) := fun n hn => h ⟨n, hn⟩
    exact .inr ⟨h, fromBuf_none h⟩

end DirEntry

/-- Every byte string has records in front. -/
theorem tiles_exists (u : Bytes) : ∃ es, Tiles u es := by
  obtain ⟨n, hn⟩ : ∃ n, u.length = n := ⟨_, rfl⟩
  induction n using Nat.strongRecOn generalizing u with
  | _ n ih =>
    rcases DirEntry.fromBuf_cases u with ⟨e, rest, h1, rfl, -⟩ | ⟨h1, -⟩
    · have h8 := h1.1
      rw [List.length_append] at hn
      obtain ⟨es, h2, tail, h3, h4⟩ := ih rest.length (by omega) rest rfl
      refine ⟨e :: es, ?_, tail, ?_, h4⟩
      · intro x hx
        rcases List.mem_cons.1 hx with rfl | hx
        · exact h1
        · exact h2 x hx
      · rw [List.flatten_cons, List.append_assoc, ← h3]
    · exact ⟨[], fun _ h => (by cases h), u, rfl, h1⟩

/-- They are determined by the bytes. -/
theorem tiles_unique {u : Bytes} {es es' : List Bytes} (h : Tiles u es) (h' : Tiles u es') :
    es = es' := by
  obtain ⟨h1, rest, rfl, h2⟩ := h
  obtain ⟨h1', rest', h3, h2'⟩ := h'
  induction es generalizing es' with
  | nil =>
    cases es' with
    | nil => rfl
    | cons e' es' =>
      have hr := h1' e' List.mem_cons_self
      have h4 := DirEntry.fromBuf_none h2
      rw [List.flatten_nil, List.nil_append] at h3
      rw [h3, List.flatten_cons, List.append_assoc, DirEntry.fromBuf_record hr] at h4
      cases (Prod.mk.inj h4).1
  | cons e es ih =>
    have hr := h1 e List.mem_cons_self
    cases es' with
    | nil =>
      rw [List.flatten_nil, List.nil_append] at h3
      have h4 := DirEntry.fromBuf_none h2'
      rw [← h3, List.flatten_cons, List.append_assoc, DirEntry.fromBuf_record hr] at h4
      cases (Prod.mk.inj h4).1
    | cons e' es' =>
      have hr' := h1' e' List.mem_cons_self
      rw [List.flatten_cons, List.flatten_cons, List.append_assoc, List.append_assoc] at h3
      have h4 := DirEntry.fromBuf_record hr (es.flatten ++ rest)
      rw [h3, DirEntry.fromBuf_record hr'] at h4
      obtain ⟨h5, h6⟩ := Prod.mk.inj h4
      cases h5
      rw [ih (fun x hx => h1 x (List.mem_cons_of_mem _ hx))
        (fun x hx => h1' x (List.mem_cons_of_mem _ hx)) h6.symm]

theorem tiles_nil {u : Bytes} (h : ∀ n, ¬ IsRecord (u.take n)) : Tiles u [] :=
  ⟨fun _ h => (by cases h), u, rfl, h⟩

theorem tiles_cons {e u : Bytes} {es : List Bytes} (he : IsRecord e) (h : Tiles u es) :
    Tiles (e ++ u) (e :: es) := by
  obtain ⟨h1, rest, rfl, h2⟩ := h
  refine ⟨?_, rest, by rw [List.flatten_cons, List.append_assoc], h2⟩
  intro x hx
  rcases List.mem_cons.1 hx with rfl | hx
  · exact he
  · exact h1 x hx

theorem tiles_cons_inv {u e : Bytes} {es : List Bytes} (h : Tiles u (e :: es)) :
    ∃ v, u = e ++ v ∧ IsRecord e ∧ Tiles v es := by
  obtain ⟨h1, rest, rfl, h2⟩ := h
  exact ⟨es.flatten ++ rest, by rw [List.flatten_cons, List.append_assoc],
    h1 e List.mem_cons_self, fun x hx => h1 x (List.mem_cons_of_mem _ hx), rest, rfl, h2⟩

theorem tiles_length {u : Bytes} {es : List Bytes} (h : Tiles u es) : es.length * 8 ≤ u.length := by
  induction es generalizing u with
  | nil => simp
  | cons e es ih =>
    obtain ⟨v, rfl, h1, h2⟩ := tiles_cons_inv h
    have := ih h2
    have := h1.1
    rw [List.length_append, List.length_cons]
    omega

namespace DirBlock

/-- The bytes still to be read. -/
def rest (b : DirBlock) : Bytes := slice b.storage b.pos (b.len - b.pos)

/-- The position and the end lie inside the block. -/
def Ok (b : DirBlock) : Prop := b.pos ≤ b.len ∧ b.len ≤ b.storage.length

theorem rest_length {b : DirBlock} (h : b.Ok) : b.rest.length = b.len - b.pos := by
  unfold rest slice
  rw [List.length_take, List.length_drop]
  have := h.1; have := h.2
  omega

theorem readNextEntry_eq {b : DirBlock} (h : b.Ok) :
    b.readNextEntry = .ok ((DirEntry.fromBuf b.rest).1,
      { b with pos := b.len - (DirEntry.fromBuf b.rest).2.length }) := by
  have h1 := h.1; have h2 := h.2
  unfold readNextEntry
  rw [if_neg (by omega)]
  rfl

/-- A record in front is returned. -/
theorem readNextEntry_record {b : DirBlock} (h : b.Ok) {e u : Bytes} (he : IsRecord e)
    (hr : b.rest = e ++ u) : ∃ b', b.readNextEntry = .ok (some ⟨e⟩, b') ∧ b'.Ok ∧ b'.rest = u ∧
      b'.storage = b.storage ∧ b'.len = b.len := by
  have h3 := rest_length h
  have h1 := h.1; have h2 := h.2
  rw [hr, List.length_append] at h3
  refine ⟨{ b with pos := b.len - u.length }, ?_, ⟨?_, h2⟩, ?_, rfl, rfl⟩
  · rw [readNextEntry_eq h, hr, DirEntry.fromBuf_record he]
  · show b.len - u.length ≤ b.len
    omega
  · show slice b.storage (b.len - u.length) (b.len - (b.len - u.length)) = u
    have h4 : b.len - u.length = b.pos + e.length := by omega
    have h5 : b.len - (b.len - u.length) = u.length := by omega
    rw [h5, h4]
    have h6 : (b.rest).drop e.length = u := by rw [hr, List.drop_left]
    rw [← h6]
    have h7 : u.length = b.len - b.pos - e.length := by omega
    rw [h6, h7]
    unfold rest slice at h6
    rw [List.drop_take, List.drop_drop] at h6
    exact h6

/-- Without a record in front nothing changes. -/
theorem readNextEntry_none {b : DirBlock} (h : b.Ok) (hr : ∀ n, ¬ IsRecord (b.rest.take n)) :
    b.readNextEntry = .ok (none, b) := by
  have h3 := rest_length h
  have h1 := h.1; have h2 := h.2
  rw [readNextEntry_eq h, DirEntry.fromBuf_none hr, h3]
  show Res.ok (none, ({ b with pos := b.len - (b.len - b.pos) } : DirBlock)) = _
  rw [show b.len - (b.len - b.pos) = b.pos by omega]

/-- All calls on a block. -/
theorem blockCalls_eq {b : DirBlock} (h : b.Ok) {es : List Bytes} (ht : Tiles b.rest es) (n : Nat) :
    blockCalls n b = .ok ((List.range n).map fun k => es[k]?.map DirEntry.mk) := by
  induction n generalizing b es with
  | zero => rfl
  | succ n ih =>
    rw [List.range_succ_eq_map, List.map_cons, List.map_map]
    cases es with
    | nil =>
      have hn : ∀ k, ¬ IsRecord (b.rest.take k) := by
        obtain ⟨-, rest, h1, h2⟩ := ht
        rw [h1]; exact h2
      show (b.readNextEntry >>= _) = _
      rw [readNextEntry_none h hn, Res.bind_ok]
      show (blockCalls n b >>= _) = _
      rw [ih h ht, Res.bind_ok]
      rfl
    | cons e es =>
      obtain ⟨v, h1, h2, h3⟩ := tiles_cons_inv ht
      obtain ⟨b', h4, h5, h6, -⟩ := readNextEntry_record h h2 h1
      show (b.readNextEntry >>= _) = _
      rw [h4, Res.bind_ok]
      show (blockCalls n b' >>= _) = _
      rw [ih h5 (h6 ▸ h3), Res.bind_ok]
      rfl

theorem tailOk_iff {b : Bytes} (hb : 12 ≤ b.length) (s : Nat) :
    tailOk b (b.length - 12) s = true ↔ BlockSound (some s) b := by
  have h0 : le b (b.length - 4) 4 < 2 ^ 32 := le_lt b (b.length - 4) 4
  have hbv : ∀ x : BitVec 32, (BitVec.ofNat 32 (le b (b.length - 4) 4) = x ↔
      le b (b.length - 4) 4 = x.toNat) := by
    intro x
    constructor
    · rintro rfl
      rw [BitVec.toNat_ofNat, Nat.mod_eq_of_lt h0]
    · intro h
      rw [h, BitVec.ofNat_toNat]; simp
  unfold tailOk BlockSound
  simp only [dirTail_at (f := .reservedZero1) (off := 0) (w := 4) (by decide +kernel),
    dirTail_at (f := .recordLength) (off := 4) (w := 2) (by decide +kernel),
    dirTail_at (f := .reservedZero2) (off := 6) (w := 1) (by decide +kernel),
    dirTail_at (f := .reservedFileType) (off := 7) (w := 1) (by decide +kernel),
    dirTail_at (f := .checksum) (off := 8) (w := 4) (by decide +kernel), le_drop, dirTail_size]
  rw [show b.length - 12 + 0 = b.length - 12 by omega, show b.length - 12 + 4 = b.length - 8 by omega,
    show b.length - 12 + 6 = b.length - 6 by omega, show b.length - 12 + 7 = b.length - 5 by omega,
    show b.length - 12 + 8 = b.length - 4 by omega]
  by_cases h : le b (b.length - 12) 4 ≠ 0 ∨ le b (b.length - 8) 2 ≠ 12 ∨ le b (b.length - 6) 1 ≠ 0
      ∨ le b (b.length - 5) 1 ≠ 0xde
  · rw [if_pos h]
    constructor
    · intro h; cases h
    · intro h'
      obtain ⟨-, h1, h2, h3, h4, -⟩ := h' s rfl
      rcases h with h | h | h | h <;> contradiction
  · rw [if_neg h, beq_iff_eq, ← hbv, eq_comm, C52_polynomial_division]
    constructor
    · intro h1 s' hs
      cases hs
      exact ⟨hb, by omega, by omega, by omega, by omega, h1⟩
    · intro h1
      exact (h1 s rfl).2.2.2.2.2

/-- Opening a block. -/
theorem fromBlock_sound {seed : Option Nat} {b : Bytes} (hb : 12 ≤ b.length) (h : BlockSound seed b) :
    fromBlock b seed = .ok (some ⟨b, 0, recordsEnd seed b⟩) := by
  cases seed with
  | none => rfl
  | some s =>
    show (subP b.length dirTailLayout.size >>= _) = _
    unfold subP
    rw [dirTail_size, if_pos hb, Res.bind_ok, if_pos ((tailOk_iff hb s).2 h)]
    rfl

theorem fromBlock_unsound {seed : Option Nat} {b : Bytes} (hb : 12 ≤ b.length)
    (h : ¬ BlockSound seed b) : fromBlock b seed = .ok none := by
  cases seed with
  | none => exact absurd (fun _ h => (by cases h)) h
  | some s =>
    show (subP b.length dirTailLayout.size >>= _) = _
    unfold subP
    rw [dirTail_size, if_pos hb, Res.bind_ok, if_neg (fun h' => h ((tailOk_iff hb s).1 h'))]
    rfl

theorem opened_ok (seed : Option Nat) (b : Bytes) : (DirBlock.mk b 0 (recordsEnd seed b)).Ok :=
  ⟨Nat.zero_le _, by cases seed <;> simp [recordsEnd]⟩

theorem opened_rest (seed : Option Nat) (b : Bytes) :
    (DirBlock.mk b 0 (recordsEnd seed b)).rest = b.take (recordsEnd seed b) := rfl

end DirBlock
end MdRecover
