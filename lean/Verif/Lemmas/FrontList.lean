import Verif.Spec.FrontList
import Verif.Lemmas.Front
import Verif.Lemmas.Ext4Unique

/-! Directories are read up to the first block that cannot be read. -/

namespace MdRecover
open MdSpec
variable [Build] {W D : Type} {dev dev' : StreamDev W D} {bad : Nat → Prop} {c : Bytes} {G : W → Prop}
  {Is : D → Bytes → Prop} {At : W → D → Nat → Prop}

namespace Ext4Directory

/-- The blocks `xs` of the volume, from block `p` of the directory on, are still to be read; the nodes have the
property `P`. -/
structure Ahead (Is : D → Bytes → Prop) (G : W → Prop) (c : Bytes) (P : Bytes → Prop) (i : Inode)
    (s : W × Ext4Directory D) (p : Nat) (xs : List Nat) : Prop where
  file : Ext4File.Inv Is G c P i (s.1, s.2.internal)
  pos : s.2.internal.blockPos = p
  stack : Ext4File.Pending c (blockSizeOf (sbOf c)) s.2.internal.stack p xs
  size : i.fileSizeBytes = (p + xs.length) * blockSizeOf (sbOf c)
  short : p + xs.length < U32
  inside : ∀ x ∈ xs, BlockInside c (blockSizeOf (sbOf c)) x

omit [Build] in
theorem Ahead.withCurrent {P : Bytes → Prop} {i : Inode} {s : W × Ext4Directory D} {p : Nat}
    {xs : List Nat} (h : Ahead Is G c P i s p xs) (b : CurrentBlock) :
    Ahead Is G c P i (withCurrent s b) p xs := ⟨h.file, h.pos, h.stack, h.size, h.short, h.inside⟩

/-- The block is readable. -/
def BlockIntact (bad : Nat → Prop) (c : Bytes) (x : Nat) : Prop :=
  Intact bad c (x * blockSizeOf (sbOf c)) (blockSizeOf (sbOf c))

/-- The block is sound and has these records. -/
def BlockHas (c : Bytes) (i : Inode) (x : Nat) (es : List Bytes) : Prop :=
  BlockSound i.metadataChecksumSeed (blockOf c (blockSizeOf (sbOf c)) x) ∧
    Tiles ((blockOf c (blockSizeOf (sbOf c)) x).take
      (recordsEnd i.metadataChecksumSeed (blockOf c (blockSizeOf (sbOf c)) x))) es

theorem front_end (h : Agree bad c dev dev' G Is At) (hc : c.length < U64) {P : Bytes → Prop}
    (hP : Ext4File.NodesClear bad c P) {i : Inode} {s : W × Ext4Directory D} {p : Nat}
    (ha : Ahead Is G c P i s p []) : ∃ s', Advances dev s s' (.ok ()) ∧ s'.2.current = .end := by
  have hz : (zeros (blockSizeOf (sbOf c))).length = blockSizeOf (sbOf c) := List.length_replicate
  have hsz := ha.size
  rw [List.length_nil, Nat.add_zero] at hsz
  obtain ⟨t, h1⟩ := Ext4File.end_clear h hc hP (buf := zeros (blockSizeOf (sbOf c))) hz ha.file ha.pos ha.stack
    (by rw [hsz])
  exact ⟨(t.1, { internal := t.2, current := .end }),
    (advances_iff (Ext4File.blockSize_eq ha.file.opened)).2 ⟨t, _, h1, rfl⟩, rfl⟩

theorem front_block (h : Agree bad c dev dev' G Is At) (ho : ReadsOrErr dev dev') (hc : c.length < U64)
    {P : Bytes → Prop} (hP : Ext4File.NodesClear bad c P) {i : Inode} (hw : BlocksCounted c i.fileSizeBytes)
    {s : W × Ext4Directory D} {p x : Nat} {xs : List Nat} {es : List Bytes} (ha : Ahead Is G c P i s p (x :: xs))
    (hx : BlockHas c i x es) :
    (∃ s', Ahead Is G c P i s' (p + 1) xs ∧ Advances dev s s' (.ok ()) ∧
      s'.2.current = .block ⟨blockOf c (blockSizeOf (sbOf c)) x, 0,
            recordsEnd i.metadataChecksumSeed (blockOf c (blockSizeOf (sbOf c)) x)⟩) ∨
    (¬ BlockIntact bad c x ∧ ∃ s' e, Advances dev s s' (.err e)) := by
  have hge := blockSize_ge c
  have hz : (zeros (blockSizeOf (sbOf c))).length = blockSizeOf (sbOf c) := List.length_replicate
  have hsz := ha.size
  have hsh := ha.short
  have hin := ha.inside x List.mem_cons_self
  rw [List.length_cons] at hsz hsh
  have hmul : (p + (xs.length + 1)) * blockSizeOf (sbOf c)
      = p * blockSizeOf (sbOf c) + xs.length * blockSizeOf (sbOf c) + blockSizeOf (sbOf c) := by
    rw [Nat.add_mul, Nat.add_mul]; omega
  rcases Ext4File.next_or h ho hc hP hw (buf := zeros (blockSizeOf (sbOf c))) hz ha.file ha.pos ha.stack (by omega)
    (by omega) (by rw [hz]; exact hin) with ⟨t, h1, h2, h3, h4⟩ | ⟨hnot, t, e, h1⟩
  · left
    have hmin : min (i.fileSizeBytes - p * blockSizeOf (sbOf c)) (blockSizeOf (sbOf c))
        = blockSizeOf (sbOf c) := by omega
    rw [hz, hmin] at h1
    have hseed : s.2.internal.inode.metadataChecksumSeed = i.metadataChecksumSeed := by
      have : s.2.internal.inode = i := ha.file.inode
      rw [this]
    have htb := toBlock_eq (seed := i.metadataChecksumSeed) (by omega) (blockOf_length hin)
      (blockSizeOf (sbOf c))
    rw [if_neg (by omega), if_pos ⟨rfl, hx.1⟩] at htb
    refine ⟨(t.1, { internal := t.2, current := .block ⟨blockOf c (blockSizeOf (sbOf c)) x, 0,
      recordsEnd i.metadataChecksumSeed (blockOf c (blockSizeOf (sbOf c)) x)⟩ }),
      ⟨h2, h3, h4, by rw [ha.size, List.length_cons]; congr 1; omega, by omega,
        fun y hy => ha.inside y (List.mem_cons_of_mem _ hy)⟩, ?_, rfl⟩
    refine (advances_iff (Ext4File.blockSize_eq ha.file.opened)).2 ⟨t, _, h1, ?_⟩
    show (match toBlock (blockSizeOf (sbOf c)) s.2.internal.inode.metadataChecksumSeed
        (blockSizeOf (sbOf c)) (blockOf c (blockSizeOf (sbOf c)) x) with
      | .ok b => _ | .err e => _ | .panic => _) = _
    rw [hseed, htb]; rfl
  · exact .inr ⟨hnot, _, e, (advances_iff (Ext4File.blockSize_eq ha.file.opened)).2 ⟨t, _, h1, rfl⟩⟩

/-- The outcome of a call: the first of the records, the end, or a failure at a block that is not readable. -/
def Outcome (bad : Nat → Prop) (Is : D → Bytes → Prop) (G : W → Prop) (c : Bytes) (P : Bytes → Prop) (i : Inode)
    (xs : List Nat) (todo : List Bytes) (ess : List (List Bytes)) (s' : W × Ext4Directory D)
    (r : Res (Option DirEntry)) : Prop :=
  (∃ e j p todo', r = .ok (some ⟨e⟩) ∧ e :: todo' = todo ++ (ess.take j).flatten ∧
    Ahead Is G c P i s' p (xs.drop j) ∧ CurrentHas s'.2.current todo' (xs.drop j)) ∨
  (r = .ok none ∧ todo ++ ess.flatten = []) ∨
  (∃ e j x, r = .err e ∧ todo ++ (ess.take j).flatten = [] ∧ xs[j]? = some x ∧ ¬ BlockIntact bad c x)

theorem front_next (h : Agree bad c dev dev' G Is At) (ho : ReadsOrErr dev dev') (hc : c.length < U64)
    {P : Bytes → Prop} (hP : Ext4File.NodesClear bad c P) {i : Inode} (hw : BlocksCounted c i.fileSizeBytes)
    {xs : List Nat} {ess : List (List Bytes)} (hrs : List.Forall₂ (BlockHas c i) xs ess) :
    ∀ (s : W × Ext4Directory D) (p : Nat), Ahead Is G c P i s p xs →
      ∃ s' r, Next dev s s' r ∧ Outcome bad Is G c P i xs [] ess s' r := by
  induction hrs with
  | nil =>
    intro s p ha
    obtain ⟨s', h1, h2⟩ := front_end h hc hP ha
    exact ⟨s', .ok none, .inl ⟨s', h1, .fin s' (by rw [h2]; intro b h; cases h)⟩, .inr (.inl ⟨rfl, rfl⟩)⟩
  | @cons x es xs ess hx hxs ih =>
    intro s p ha
    rcases front_block h ho hc hP hw ha hx with ⟨s1, h1, h3, h4⟩ | ⟨hnot, s1, e, h3⟩
    rotate_left
    · exact ⟨s1, .err e, .inr ⟨.err e, h3, fun h => (by cases h), rfl⟩,
        .inr (.inr ⟨e, 0, x, rfl, rfl, rfl, hnot⟩)⟩
    have hok := DirBlock.opened_ok i.metadataChecksumSeed (blockOf c (blockSizeOf (sbOf c)) x)
    obtain ⟨-, hes⟩ := hx
    cases es with
    | nil =>
      have hn := DirBlock.readNextEntry_none hok (by
        obtain ⟨-, rest, h5, h6⟩ := hes
        rw [DirBlock.opened_rest, h5]; exact h6)
      obtain ⟨s', r, h5, h6⟩ := ih (withCurrent s1 s1.2.current) (p + 1) h1
      have h7 : Run dev s1 s' r := by
        rcases h5 with ⟨s2, h5, h7⟩ | ⟨r0, h5, h7, rfl⟩
        · exact .next s1 s2 s' _ _ r h4 hn (h4 ▸ h5) h7
        · exact .fail s1 s' _ _ r0 h4 hn (h4 ▸ h5) h7
      refine ⟨s', r, .inl ⟨s1, h3, h7⟩, ?_⟩
      rcases h6 with ⟨e, j, p', todo', h8, h9, h10, h11⟩ | ⟨h8, h9⟩ | ⟨e, j, y, h8, h9, h10, h11⟩
      · exact .inl ⟨e, j + 1, p', todo', h8, h9, h10, h11⟩
      · exact .inr (.inl ⟨h8, h9⟩)
      · exact .inr (.inr ⟨e, j + 1, y, h8, h9, h10, h11⟩)
    | cons e es =>
      obtain ⟨v, h5, h6, h7⟩ := tiles_cons_inv hes
      obtain ⟨b', h8, h9, h10, -⟩ := DirBlock.readNextEntry_record hok h6
        (by rw [DirBlock.opened_rest]; exact h5)
      exact ⟨withCurrent s1 (.block b'), .ok (some ⟨e⟩), .inl ⟨s1, h3, .entry s1 _ _ _ h4 h8⟩,
        .inl ⟨e, 1, p + 1, es, rfl, by simp, h1.withCurrent _, .inr (.inl ⟨b', rfl, h9, h10 ▸ h7⟩)⟩⟩

/-- A call. -/
theorem front_call (h : Agree bad c dev dev' G Is At) (ho : ReadsOrErr dev dev') (hc : c.length < U64)
    {P : Bytes → Prop} (hP : Ext4File.NodesClear bad c P) {i : Inode} (hw : BlocksCounted c i.fileSizeBytes)
    {xs : List Nat} {ess : List (List Bytes)} (hrs : List.Forall₂ (BlockHas c i) xs ess)
    {s : W × Ext4Directory D} {p : Nat} {todo : List Bytes} (ha : Ahead Is G c P i s p xs)
    (hcur : CurrentHas s.2.current todo xs) :
    ∃ s' r, EntryReturns dev s s' r ∧ Outcome bad Is G c P i xs todo ess s' r := by
  rcases hcur with ⟨h4, rfl⟩ | ⟨b, h4, h5, h6⟩ | ⟨h4, rfl, rfl⟩
  · obtain ⟨s', r, h5, h6⟩ := front_next h ho hc hP hw hrs s p ha
    exact ⟨s', r, (entryReturns_start h4).2 h5, h6⟩
  · have hne : s.2.current ≠ .start := by rw [h4]; intro h; cases h
    cases todo with
    | nil =>
      have hn := DirBlock.readNextEntry_none h5 (by
        obtain ⟨-, rest, h7, h8⟩ := h6
        rw [h7]; exact h8)
      obtain ⟨s', r, h7, h8⟩ := front_next h ho hc hP hw hrs (withCurrent s (.block b)) p (ha.withCurrent _)
      refine ⟨s', r, (entryReturns_other hne).2 ?_, h8⟩
      rcases h7 with ⟨s2, h7, h9⟩ | ⟨r0, h7, h9, rfl⟩
      · exact .next s s2 s' _ _ r h4 hn h7 h9
      · exact .fail s s' _ _ r0 h4 hn h7 h9
    | cons e es =>
      obtain ⟨v, h7, h8, h9⟩ := tiles_cons_inv h6
      obtain ⟨b', h10, h11, h12, -⟩ := DirBlock.readNextEntry_record h5 h8 h7
      exact ⟨withCurrent s (.block b'), .ok (some ⟨e⟩), (entryReturns_other hne).2 (.entry s _ _ _ h4 h10),
        .inl ⟨e, 0, p, es, rfl, by simp, ha.withCurrent _, .inr (.inl ⟨b', rfl, h11, h12 ▸ h9⟩)⟩⟩
  · have hne : s.2.current ≠ .start := by rw [h4]; intro h; cases h
    cases hrs
    exact ⟨s, .ok none, (entryReturns_other hne).2 (.fin s (by rw [h4]; intro b h; cases h)),
      .inr (.inl ⟨rfl, rfl⟩)⟩

end Ext4Directory

theorem listFront_err {rounds k : Nat} {s s1 : W × Ext4Directory D} {e : ErrKind}
    (h : Ext4Directory.readNextEntry dev rounds s = (s1, .err e)) :
    listFront dev rounds (k + 1) s = (s1, .ok ([], false)) := by
  rw [listFront, SM.bind_ok (h := attempt_err h)]
  rfl

theorem listFront_none {rounds k : Nat} {s s1 : W × Ext4Directory D}
    (h : Ext4Directory.readNextEntry dev rounds s = (s1, .ok (some none))) :
    listFront dev rounds (k + 1) s = (s1, .ok ([], true)) := by
  rw [listFront, SM.bind_ok (h := attempt_ok h)]
  rfl

theorem listFront_entry {rounds k : Nat} {s s1 s2 : W × Ext4Directory D} {e : DirEntry} {r : List DirEntry × Bool}
    (h : Ext4Directory.readNextEntry dev rounds s = (s1, .ok (some (some e))))
    (h2 : listFront dev rounds k s1 = (s2, .ok r)) :
    listFront dev rounds (k + 1) s = (s2, .ok (e :: r.1, r.2)) := by
  rw [listFront, SM.bind_ok (h := attempt_ok h)]
  simp only
  rw [SM.bind_ok (h := h2)]
  rfl

/-- Reading the entries as far as possible. -/
theorem listFront_ahead (h : Agree bad c dev dev' G Is At) (ho : ReadsOrErr dev dev') (hc : c.length < U64)
    {P : Bytes → Prop} (hP : Ext4File.NodesClear bad c P) {i : Inode} (hw : BlocksCounted c i.fileSizeBytes) (n : Nat) :
    ∀ (xs : List Nat) (ess : List (List Bytes)) (todo : List Bytes) (s : W × Ext4Directory D) (p : Nat),
      (todo ++ ess.flatten).length = n → List.Forall₂ (Ext4Directory.BlockHas c i) xs ess →
      Ext4Directory.Ahead Is G c P i s p xs → Ext4Directory.CurrentHas s.2.current todo xs →
      ∃ N s' q e, ∀ rounds, N ≤ rounds → ∀ k, n < k →
        listFront dev rounds k s = (s', .ok (q.map DirEntry.mk, e)) ∧ q <+: todo ++ ess.flatten ∧
        (e = true → q = todo ++ ess.flatten) ∧
        (∀ m, (∀ x ∈ xs.take m, Ext4Directory.BlockIntact bad c x) → todo ++ (ess.take m).flatten <+: q) ∧
        ((∀ x ∈ xs, Ext4Directory.BlockIntact bad c x) → e = true) := by
  induction n with
  | zero =>
    intro xs ess todo s p hn hrs ha hcur
    have hnil := List.eq_nil_of_length_eq_zero hn
    obtain ⟨s', r, h1, h2⟩ := Ext4Directory.front_call h ho hc hP hw hrs ha hcur
    obtain ⟨N, h3⟩ := Ext4Directory.entryReturns_enough h1
    have hpre : ∀ m, todo ++ (ess.take m).flatten = [] := by
      intro m
      have h5 : todo ++ ess.flatten = todo ++ (ess.take m).flatten ++ (ess.drop m).flatten := by
        rw [List.append_assoc, ← List.flatten_append, List.take_append_drop]
      rw [hnil] at h5
      exact (List.append_eq_nil_iff.1 h5.symm).1
    rcases h2 with ⟨e, j, p', todo', rfl, h4, -⟩ | ⟨rfl, -⟩ | ⟨e, j, x, rfl, -, h10, h11⟩
    · rw [hpre j] at h4
      cases h4
    · refine ⟨N, s', [], true, fun rounds hr k hk => ?_⟩
      obtain ⟨k, rfl⟩ : ∃ j, k = j + 1 := ⟨k - 1, by omega⟩
      exact ⟨listFront_none (h3 rounds hr), List.nil_prefix, fun _ => hnil.symm, fun m _ => by rw [hpre m],
        fun _ => rfl⟩
    · refine ⟨N, s', [], false, fun rounds hr k hk => ?_⟩
      obtain ⟨k, rfl⟩ : ∃ j, k = j + 1 := ⟨k - 1, by omega⟩
      exact ⟨listFront_err (h3 rounds hr), List.nil_prefix, fun _ => hnil.symm, fun m _ => by rw [hpre m],
        fun hall => absurd (hall x (List.mem_of_getElem? h10)) h11⟩
  | succ n ih =>
    intro xs ess todo s p hn hrs ha hcur
    have hsplit : ∀ m, todo ++ ess.flatten = todo ++ (ess.take m).flatten ++ (ess.drop m).flatten := fun m => by
      rw [List.append_assoc, ← List.flatten_append, List.take_append_drop]
    obtain ⟨s1, r, h1, h2⟩ := Ext4Directory.front_call h ho hc hP hw hrs ha hcur
    obtain ⟨N1, h3⟩ := Ext4Directory.entryReturns_enough h1
    rcases h2 with ⟨e, j, p', todo', rfl, h4, ha', hcur'⟩ | ⟨rfl, h4⟩ | ⟨e, j, x, rfl, h9, h10, h11⟩
    · have hall := hsplit j
      rw [← h4] at hall
      obtain ⟨N, s', q, b, h5⟩ := ih (xs.drop j) (ess.drop j) todo' s1 p' (by
        rw [hall] at hn
        simpa using hn) (List.forall₂_drop j hrs) ha' hcur'
      refine ⟨N1 + N, s', e :: q, b, fun rounds hr k hk => ?_⟩
      obtain ⟨k, rfl⟩ : ∃ j, k = j + 1 := ⟨k - 1, by omega⟩
      obtain ⟨g1, g2, g3, g4, g5⟩ := h5 rounds (by omega) k (by omega)
      rw [hall]
      refine ⟨listFront_entry (h3 rounds (by omega)) g1, ?_, fun hb => by rw [g3 hb]; rfl, fun m hm => ?_,
        fun hx => g5 fun y hy => hx y (List.mem_of_mem_drop hy)⟩
      · exact (List.prefix_cons_inj _).2 g2
      · rcases Nat.lt_or_ge m j with hlt | hge
        · have h6 : todo ++ (ess.take m).flatten <+: e :: todo' := by
            rw [h4, ← Nat.min_eq_left (Nat.le_of_lt hlt), ← List.take_take]
            refine (List.prefix_append_right_inj _).2 ⟨((ess.take j).drop m).flatten, ?_⟩
            rw [← List.flatten_append, List.take_append_drop]
          have h7 := g4 0 (by simp)
          rw [List.take_zero, List.flatten_nil, List.append_nil] at h7
          exact h6.trans ((List.prefix_cons_inj _).2 h7)
        · have h6 : todo ++ (ess.take m).flatten = e :: (todo' ++ ((ess.drop j).take (m - j)).flatten) := by
            rw [← List.cons_append, h4, List.append_assoc, ← List.flatten_append]
            congr 2
            rw [← List.drop_take, ← Nat.min_eq_left hge, ← List.take_take, Nat.min_eq_left hge,
              List.take_append_drop]
          rw [h6]
          refine (List.prefix_cons_inj _).2 (g4 (m - j) fun y hy => hm y ?_)
          rw [← List.drop_take] at hy
          exact List.mem_of_mem_drop hy
    · rw [h4] at hn
      cases hn
    · refine ⟨N1, s1, [], false, fun rounds hr k hk => ?_⟩
      obtain ⟨k, rfl⟩ : ∃ j, k = j + 1 := ⟨k - 1, by omega⟩
      refine ⟨listFront_err (h3 rounds hr), List.nil_prefix, fun h => (by cases h), fun m hm => ?_, fun hall =>
        absurd (hall x (List.mem_of_getElem? h10)) h11⟩
      rcases Nat.lt_or_ge j m with hlt | hge
      · exact absurd (hm x (List.mem_of_getElem? (i := j) (by rw [List.getElem?_take, if_pos hlt]; exact h10))) h11
      · have h6 : todo ++ (ess.take m).flatten <+: todo ++ (ess.take j).flatten := by
          rw [← Nat.min_eq_left hge, ← List.take_take]
          refine (List.prefix_append_right_inj _).2 ⟨((ess.take j).drop m).flatten, ?_⟩
          rw [← List.flatten_append, List.take_append_drop]
        rwa [h9] at h6

/-- The first record in front of what is not readable is returned. -/
theorem first_front (h : Agree bad c dev dev' G Is At) (ho : ReadsOrErr dev dev') (hc : c.length < U64)
    {P : Bytes → Prop} (hP : Ext4File.NodesClear bad c P) {i : Inode} (hw : BlocksCounted c i.fileSizeBytes)
    {xs : List Nat} {ess : List (List Bytes)} (hrs : List.Forall₂ (Ext4Directory.BlockHas c i) xs ess)
    {s : W × Ext4Directory D} {p m : Nat} {todo rest : List Bytes} {e : Bytes}
    (ha : Ext4Directory.Ahead Is G c P i s p xs) (hcur : Ext4Directory.CurrentHas s.2.current todo xs)
    (hpre : e :: rest <+: todo ++ (ess.take m).flatten)
    (hint : ∀ x ∈ xs.take m, Ext4Directory.BlockIntact bad c x) :
    ∃ s' j p' todo', EntryReturns dev s s' (.ok (some ⟨e⟩)) ∧
      Ext4Directory.Ahead Is G c P i s' p' (xs.drop j) ∧ Ext4Directory.CurrentHas s'.2.current todo' (xs.drop j) ∧
      rest <+: todo' ++ ((ess.drop j).take (m - j)).flatten := by
  obtain ⟨s1, r, h1, h2⟩ := Ext4Directory.front_call h ho hc hP hw hrs ha hcur
  have hcut : ∀ {m j : Nat}, m ≤ j → todo ++ (ess.take m).flatten <+: todo ++ (ess.take j).flatten := by
    intro m j hle
    rw [← Nat.min_eq_left hle, ← List.take_take]
    refine (List.prefix_append_right_inj _).2 ⟨((ess.take j).drop m).flatten, ?_⟩
    rw [← List.flatten_append, List.take_append_drop]
  rcases h2 with ⟨e', j, p', todo', rfl, h4, ha', hcur'⟩ | ⟨rfl, h4⟩ | ⟨e', j, x, rfl, h9, h10, h11⟩
  · rcases Nat.lt_or_ge m j with hlt | hge
    · have h5 := hpre.trans (hcut (Nat.le_of_lt hlt))
      rw [← h4] at h5
      obtain ⟨rfl, h6⟩ := List.cons_prefix_cons.1 h5
      exact ⟨s1, j, p', todo', h1, ha', hcur', h6.trans (List.prefix_append _ _)⟩
    · have h6 : todo ++ (ess.take m).flatten = e' :: (todo' ++ ((ess.drop j).take (m - j)).flatten) := by
        rw [← List.cons_append, h4, List.append_assoc, ← List.flatten_append]
        congr 2
        rw [← List.drop_take, ← Nat.min_eq_left hge, ← List.take_take, Nat.min_eq_left hge,
          List.take_append_drop]
      rw [h6] at hpre
      obtain ⟨rfl, h7⟩ := List.cons_prefix_cons.1 hpre
      exact ⟨s1, j, p', todo', h1, ha', hcur', h7⟩
  · have h5 : todo ++ (ess.take m).flatten <+: todo ++ (ess.take (max m ess.length)).flatten := hcut (Nat.le_max_left _ _)
    rw [List.take_of_length_le (Nat.le_max_right _ _), h4] at h5
    cases List.prefix_nil.1 (hpre.trans h5)
  · exfalso
    rcases Nat.lt_or_ge j m with hlt | hge
    · exact absurd (hint x (List.mem_of_getElem? (i := j) (by rw [List.getElem?_take, if_pos hlt]; exact h10))) h11
    · have h5 := hpre.trans (hcut hge)
      rw [h9] at h5
      cases List.prefix_nil.1 h5

/-- Entries that are not wanted, and then one that is, in front of what is not readable. -/
theorem lookUp_front (h : Agree bad c dev dev' G Is At) (ho : ReadsOrErr dev dev') (hc : c.length < U64)
    {P : Bytes → Prop} (hP : Ext4File.NodesClear bad c P) {i : Inode} (hw : BlocksCounted c i.fileSizeBytes)
    {name e : Bytes} (he : Wanted name ⟨e⟩) : ∀ (before : List Bytes) (xs : List Nat) (ess : List (List Bytes))
      (todo : List Bytes) (s : W × Ext4Directory D) (p m : Nat), (∀ x ∈ before, ¬ Wanted name ⟨x⟩) →
      before ++ [e] <+: todo ++ (ess.take m).flatten →
      (∀ x ∈ xs.take m, Ext4Directory.BlockIntact bad c x) → List.Forall₂ (Ext4Directory.BlockHas c i) xs ess →
      Ext4Directory.Ahead Is G c P i s p xs → Ext4Directory.CurrentHas s.2.current todo xs →
      ∃ s' N, G s'.1 ∧ ∀ rounds, N ≤ rounds → ∀ k, before.length < k →
        lookUp dev rounds name k s = (s', .ok (some (some (recordInode e)))) := by
  intro before
  induction before with
  | nil =>
    intro xs ess todo s p m _ hpre hint hrs ha hcur
    obtain ⟨s', j, p', todo', h1, ha', -⟩ := first_front h ho hc hP hw hrs ha hcur hpre hint
    obtain ⟨N, h4⟩ := Ext4Directory.entryReturns_enough h1
    refine ⟨s', N, ha'.file.good, fun rounds hr k hk => ?_⟩
    obtain ⟨k, rfl⟩ : ∃ j, k = j + 1 := ⟨k - 1, by simp only [List.length_nil] at hk; omega⟩
    rw [lookUp_entry (o := some ⟨e⟩) (h4 rounds hr)]
    exact if_pos he
  | cons x before ih =>
    intro xs ess todo s p m hx hpre hint hrs ha hcur
    obtain ⟨s1, j, p', todo', h1, ha', hcur', hpre'⟩ := first_front h ho hc hP hw hrs ha hcur hpre hint
    obtain ⟨N1, h4⟩ := Ext4Directory.entryReturns_enough h1
    obtain ⟨s', N, hG, h5⟩ := ih (xs.drop j) (ess.drop j) todo' s1 p' (m - j)
      (fun y hy => hx y (List.mem_cons_of_mem _ hy)) hpre' (fun y hy => hint y (by
        rw [← List.drop_take] at hy
        exact List.mem_of_mem_drop hy)) (List.forall₂_drop j hrs) ha' hcur'
    refine ⟨s', N1 + N, hG, fun rounds hr k hk => ?_⟩
    obtain ⟨k, rfl⟩ : ∃ j, k = j + 1 := ⟨k - 1, by omega⟩
    rw [lookUp_entry (o := some ⟨x⟩) (h4 rounds (by omega))]
    refine Eq.trans (if_neg (hx x List.mem_cons_self)) (h5 rounds (by omega) k ?_)
    simp only [List.length_cons] at hk
    omega

/-- A directory just opened: its records are ahead. -/
theorem directory_ahead (h : Agree bad c dev dev' G Is At) (hc : c.length < U64) {w : W}
    {fs : Ext4Fs D} (hG : G w) (ho : Opened Is c fs) {n : Nat} {records : List Bytes}
    (hd : DirectoryAt c n records) (hslot : Intact bad c (inodeSlot c n) (le (sbOf c) 0x58 2)) :
    ∃ w' fs' d i xs ess, Ext4Fs.openFile dev n (w, fs) = ((w', fs'), .ok (.directory d)) ∧ Opened Is c fs' ∧
      records = ess.flatten ∧ List.Forall₂ (Ext4Directory.BlockHas c i) xs ess ∧
      Ext4Directory.Ahead Is G c (TreeNode c (blockSizeOf (sbOf c)) (rootNode c n)) i (w', d) 0 xs ∧
      Ext4Directory.CurrentHas d.current [] xs ∧ BlocksCounted c i.fileSizeBytes ∧
      Contiguous c (blockSizeOf (sbOf c)) (rootNode c n) 0 0 xs ∧
      ∀ m es, FrontRecords c n m es → es = (ess.take m).flatten := by
  obtain ⟨xs, ess, seed, hx, hin, h32, hsize, hseed, hes, rfl⟩ := hd.blocks
  obtain ⟨w', fs', r, h1, hG', ho', -, -, h2, -⟩ := C75_outcome h.perfect c hc w fs hG ho n hd.readable
  obtain ⟨d, rfl⟩ := h2 hd.type hd.notHashed hd.extents
  obtain ⟨-, -, -, -, -, i, fs2, hi, ho2, -, -, -, h3⟩ := C75_success h.perfect c w w' fs fs' hG ho n _ h1
  obtain ⟨-, -, k1, -, -, -, -, -, k2, -⟩ := C60_fields _ _ _ i hi
  have k1 : i.fileSizeBytes = sizeOf c n := k1
  have k2 : i.blocksBuffer = rootNode c n := k2
  have k3 := inodeSeed_eq ho.superblock hi hseed
  have hcount : BlocksCounted c i.fileSizeBytes :=
    .inr (by rw [k1, hsize]; exact Nat.mul_le_mul_right _ (by omega))
  obtain ⟨hinv, g1, g2, g3⟩ := Ext4Directory.open_inv (w := w') hG' ho2 h3
    (TreeNode c (blockSizeOf (sbOf c)) (rootNode c n)) (by rw [k2]; exact .root) hcount
  have hpen : Ext4File.Pending c (blockSizeOf (sbOf c)) d.internal.stack 0 xs := by
    rw [g3, ← List.append_nil xs]
    refine .tree _ _ _ _ _ _ ?_ (.nil _)
    show Contiguous c _ i.blocksBuffer 0 0 xs
    rw [k2]
    exact hx
  rw [← h.openFile (s := (w, fs)) hG ho hslot] at h1
  refine ⟨w', fs', d, i, xs, ess, h1, ho', rfl, ?_,
    ⟨hinv.file, g2, hpen, by rw [Nat.zero_add, k1]; exact hsize, by rw [Nat.zero_add]; exact h32, hin⟩,
    .inl ⟨g1, rfl⟩, hcount, hx, ?_⟩
  · refine hes.imp fun x es h => ?_
    unfold Ext4Directory.BlockHas
    rw [k3]
    exact h
  · rintro m es ⟨xs', ess', seed', hx', hseed', hes', rfl⟩
    obtain rfl := contiguous_unique hx hx'
    obtain rfl := inodeSeed_unique hseed hseed'
    congr 2
    clear hx hx' hin h32 hsize hpen k1 k2 k3 hcount hinv h1 h3 hd
    induction hes generalizing ess' with
    | nil => cases hes'; rfl
    | cons a _ ih =>
      cases hes' with
      | cons b hb =>
        rw [tiles_unique a.2 b, ih _ hb]

/-- Into a directory, by an entry in front of what is not readable. -/
theorem into_front (h : Agree bad c dev dev' G Is At) (ho : ReadsOrErr dev dev') (hc : c.length < U64) {n : Nat}
    {name e : Bytes} {before after : List Bytes} (hd : DirectoryAt c n (before ++ e :: after)) (hn : Names name e)
    (hb : ∀ x ∈ before, ¬ Names name x) (hcl : ∀ x ∈ before ++ [e], recordInode x ≠ 0 → CleanName x)
    (hint : EntryIntact bad c n name) {w : W} {fs : Ext4Fs D} (hG : G w) (hop : Opened Is c fs) :
    ∃ w1 w2 fs1 d d2 N, G w2 ∧ Opened Is c fs1 ∧
      Ext4Fs.openFile dev n (w, fs) = ((w1, fs1), .ok (.directory d)) ∧
      ∀ rounds, N ≤ rounds → lookUp dev rounds name rounds (w1, d) = ((w2, d2), .ok (some (some (recordInode e)))) := by
  have hrec := directory_record hd
  have hw : ∀ x ∈ before ++ [e], (Wanted name ⟨x⟩ ↔ Names name x) := fun x hx =>
    wanted_iff (hrec x (by
      rcases List.mem_append.1 hx with h | h
      · exact List.mem_append_left _ h
      · rw [List.mem_singleton] at h; subst h; simp)) (hcl x hx)
  obtain ⟨w1, fs1, d, i, xs, ess, h1, ho1, hall, hrs, ha, hcur, hcount, hx, huniq⟩ :=
    directory_ahead h hc hG hop hd hint.inode
  obtain ⟨m, es, e', hfront, hes, hmem, hne⟩ := hint.entry
  obtain rfl := huniq m es hes
  have hP : Ext4File.NodesClear bad c (TreeNode c (blockSizeOf (sbOf c)) (rootNode c n)) :=
    ⟨fun node i h1 h2 h3 h4 h5 => .child node i h1 h2 h3 h4 h5,
      fun node i h1 h2 h3 h4 => hint.nodes node i h1 h2 h3 h4⟩
  have hpre : before ++ [e] <+: (ess.take m).flatten := by
    have h5 : (ess.take m).flatten <+: before ++ e :: after := by
      rw [hall]
      exact ⟨(ess.drop m).flatten, by rw [← List.flatten_append, List.take_append_drop]⟩
    have h6 : before ++ [e] <+: before ++ e :: after := ⟨after, by simp⟩
    refine List.prefix_of_prefix_length_le h6 h5 ?_
    by_contra hlt
    rw [List.length_append, List.length_singleton] at hlt
    have h7 : (ess.take m).flatten <+: before :=
      List.prefix_of_prefix_length_le h5 (List.prefix_append _ _) (by omega)
    exact hb e' (h7.subset hmem) hne
  obtain ⟨⟨w2, d2⟩, N, hG2, h2⟩ := lookUp_front h ho hc hP hcount ((hw e (by simp)).2 hn) before xs ess [] (w1, d) 0 m
    (fun x hx => by
      rw [hw x (List.mem_append_left _ hx)]
      exact hb x hx) (by rw [List.nil_append]; exact hpre) (fun x hxm => hfront xs hx x hxm) hrs ha hcur
  exact ⟨w1, w2, fs1, d, d2, N + before.length + 1, hG2, ho1, h1, fun rounds hr => h2 rounds (by omega) rounds (by omega)⟩

theorem followList_into {rounds n m : Nat} {name : Bytes} {names : List Bytes} {w w' w'' : W} {fs fs' : Ext4Fs D}
    {d d' : Ext4Directory D} (h1 : Ext4Fs.openFile dev n (w, fs) = ((w', fs'), .ok (.directory d)))
    (h2 : lookUp dev rounds name rounds (w', d) = ((w'', d'), .ok (some (some m)))) :
    followList dev rounds (name :: names) n (w, fs) = followList dev rounds names m (w'', fs') := by
  rw [followList, SM.bind_ok (h := h1)]
  simp only
  rw [SM.bind_ok (h := onHandle_eq fs' h2)]

/-- Following a path by entries in front of what is not readable. -/
theorem follow_entries (h : Agree bad c dev dev' G Is At) (ho : ReadsOrErr dev dev') (hc : c.length < U64) {n m : Nat}
    {front : List Bytes} (hl : Leads c CleanName n front m) :
    (∀ f name r k, front = f ++ name :: r → Leads c CleanName n f k → EntryIntact bad c k name) →
    ∀ {w : W} {fs : Ext4Fs D}, G w → Opened Is c fs →
      ∃ w' fs' N, G w' ∧ Opened Is c fs' ∧ ∀ rounds, N ≤ rounds →
        followFront dev rounds front n (w, fs) = followFront dev rounds [] m (w', fs') ∧
        followList dev rounds front n (w, fs) = followList dev rounds [] m (w', fs') := by
  induction hl with
  | here n => exact fun _ {w fs} hG ho => ⟨w, fs, 0, hG, ho, fun _ _ => ⟨rfl, rfl⟩⟩
  | into n m name names before after e hd hn hb hcl hle ih =>
    intro hint w fs hG hop
    obtain ⟨w1, w2, fs1, d, d2, N1, hG2, ho1, h1, h2⟩ :=
      into_front h ho hc hd hn hb hcl (hint [] name names n rfl (.here n)) hG hop
    obtain ⟨w', fs', N, hG', ho', h3⟩ := ih (fun f nm r k hf hk => hint (name :: f) nm r k (by rw [hf]; rfl)
      (.into n k name f before after e hd hn hb hcl hk)) (w := w2) hG2 ho1
    refine ⟨w', fs', N1 + N, hG', ho', fun rounds hr => ?_⟩
    rw [followFront_into h1 (h2 rounds (by omega)), followList_into h1 (h2 rounds (by omega))]
    exact h3 rounds (by omega)

/-- Listing the directory at the end of a path, as far as possible. -/
theorem followList_end (h : Agree bad c dev dev' G Is At) (ho : ReadsOrErr dev dev') (hc : c.length < U64) {w : W}
    {fs : Ext4Fs D} (hG : G w) (hop : Opened Is c fs) {n : Nat} {records : List Bytes} (hd : DirectoryAt c n records)
    (hslot : Intact bad c (inodeSlot c n) (le (sbOf c) 0x58 2)) (hn : NodesIntact bad c n) :
    ∃ N s' q e, ∀ rounds, N ≤ rounds →
      followList dev rounds [] n (w, fs) = (s', .ok (some (q.map DirEntry.mk, e))) ∧
      q <+: records ∧ (e = true → q = records) ∧
      (∀ m es, FrontIntact bad c n m → FrontRecords c n m es → es <+: q) ∧
      ((∀ m, FrontIntact bad c n m) → e = true) := by
  obtain ⟨w1, fs1, d, i, xs, ess, h1, ho1, hall, hrs, ha, hcur, hcount, hx, huniq⟩ :=
    directory_ahead h hc hG hop hd hslot
  have hP : Ext4File.NodesClear bad c (TreeNode c (blockSizeOf (sbOf c)) (rootNode c n)) :=
    ⟨fun node i h1 h2 h3 h4 h5 => .child node i h1 h2 h3 h4 h5, fun node i h1 h2 h3 h4 => hn node i h1 h2 h3 h4⟩
  obtain ⟨N, ⟨w2, d2⟩, q, e, h2⟩ := listFront_ahead h ho hc hP hcount _ xs ess [] (w1, d) 0 rfl hrs ha hcur
  rw [List.nil_append, ← hall] at h2
  refine ⟨N + records.length + 1, (w2, fs1), q, e, fun rounds hr => ?_⟩
  obtain ⟨j1, j2, j3, j4, j5⟩ := h2 rounds (by omega) rounds (by omega)
  refine ⟨?_, j2, j3, fun m es hm hes => ?_, fun hf => j5 fun x hxm => hf xs.length xs hx x (by
    rw [List.take_length]; exact hxm)⟩
  · rw [followList, SM.bind_ok (h := h1)]
    simp only
    rw [SM.bind_ok (h := onHandle_eq fs1 j1)]
    rfl
  · rw [huniq m es hes]
    exact j4 m fun x hxm => hm xs hx x hxm

end MdRecover
