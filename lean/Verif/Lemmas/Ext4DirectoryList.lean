import Verif.Lemmas.Ext4DirectoryRun

namespace MdRecover
variable [Build]
open MdSpec

namespace Ext4Directory
variable {W D : Type} {dev : StreamDev W D} {G : W → Prop} {Is : D → Bytes → Prop}
  {At : W → D → Nat → Prop}

/-- The records `todo` of the current block are still to be returned. -/
def CurrentHas (cur : CurrentBlock) (todo : List Bytes) (xs : List Nat) : Prop :=
  (cur = .start ∧ todo = []) ∨ (∃ b, cur = .block b ∧ b.Ok ∧ Tiles b.rest todo) ∨
    (cur = .end ∧ todo = [] ∧ xs = [])

/-- The blocks `xs` of the volume, from block `p` of the directory on, are still to be read. -/
structure Pending (Is : D → Bytes → Prop) (G : W → Prop) (c : Bytes) (i : Inode)
    (s : W × Ext4Directory D) (p : Nat) (xs : List Nat) : Prop where
  file : Ext4File.Inv Is G c (fun _ => True) i (s.1, s.2.internal)
  pos : s.2.internal.blockPos = p
  stack : Ext4File.Pending c (blockSizeOf (sbOf c)) s.2.internal.stack p xs
  size : i.fileSizeBytes = (p + xs.length) * blockSizeOf (sbOf c)
  short : p + xs.length < U32
  inside : ∀ x ∈ xs, BlockInside c (blockSizeOf (sbOf c)) x

omit [Build] in
theorem Pending.withCurrent {c : Bytes} {i : Inode} {s : W × Ext4Directory D} {p : Nat}
    {xs : List Nat} (h : Pending Is G c i s p xs) (b : CurrentBlock) :
    Pending Is G c i (withCurrent s b) p xs := ⟨h.file, h.pos, h.stack, h.size, h.short, h.inside⟩

/-- Reading beyond the last block. -/
theorem advance_end (hv : VolumeSpec False dev G Is At) {c : Bytes} (hc : c.length < U64)
    {i : Inode} {s : W × Ext4Directory D} {p : Nat} (h : Pending Is G c i s p []) :
    ∃ s', Advances dev s s' (.ok ()) ∧ s'.2.current = .end ∧ Pending Is G c i s' p [] := by
  have hz : (zeros (blockSizeOf (sbOf c))).length = blockSizeOf (sbOf c) := List.length_replicate
  have hsz := h.size
  rw [List.length_nil, Nat.add_zero] at hsz
  obtain ⟨t, h1, h2, h3, h4⟩ := Ext4File.pending_end hv hc (buf := zeros (blockSizeOf (sbOf c)))
    (by rw [hz]) h.file h.pos h.stack (by rw [hsz])
  exact ⟨(t.1, { internal := t.2, current := .end }),
    (advances_iff (Ext4File.blockSize_eq h.file.opened)).2 ⟨t, _, h1, rfl⟩, rfl,
    ⟨h2, h3, h4, h.size, h.short, h.inside⟩⟩

/-- Reading a block. -/
theorem advance_block (hv : VolumeSpec False dev G Is At) {c : Bytes} (hc : c.length < U64)
    {i : Inode} {s : W × Ext4Directory D} {p x : Nat} {xs : List Nat}
    (h : Pending Is G c i s p (x :: xs)) :
    ∃ s', Pending Is G c i s' (p + 1) xs ∧
      ((BlockSound i.metadataChecksumSeed (blockOf c (blockSizeOf (sbOf c)) x) ∧
          Advances dev s s' (.ok ()) ∧ s'.2.current = .block ⟨blockOf c (blockSizeOf (sbOf c)) x, 0,
            recordsEnd i.metadataChecksumSeed (blockOf c (blockSizeOf (sbOf c)) x)⟩) ∨
       (¬ BlockSound i.metadataChecksumSeed (blockOf c (blockSizeOf (sbOf c)) x) ∧
          Advances dev s s' (.err .invalidData) ∧ s'.2.current = s.2.current)) := by
  have hge := blockSize_ge c
  have hz : (zeros (blockSizeOf (sbOf c))).length = blockSizeOf (sbOf c) := List.length_replicate
  have hsz := h.size
  have hsh := h.short
  have hin := h.inside x List.mem_cons_self
  rw [List.length_cons] at hsz hsh
  have hmul : (p + (xs.length + 1)) * blockSizeOf (sbOf c)
      = p * blockSizeOf (sbOf c) + xs.length * blockSizeOf (sbOf c) + blockSizeOf (sbOf c) := by
    rw [Nat.add_mul, Nat.add_mul]; omega
  obtain ⟨t, h1, h2, h3, h4⟩ := Ext4File.pending_next hv hc (buf := zeros (blockSizeOf (sbOf c)))
    (by rw [hz]) h.file h.pos h.stack (by omega) (by omega) (by rw [hz]; exact hin)
  have hmin : min (i.fileSizeBytes - p * blockSizeOf (sbOf c)) (blockSizeOf (sbOf c))
      = blockSizeOf (sbOf c) := by omega
  rw [hz, hmin] at h1
  have hseed : s.2.internal.inode.metadataChecksumSeed = i.metadataChecksumSeed := by
    have : s.2.internal.inode = i := h.file.inode
    rw [this]
  have htb := toBlock_eq (seed := i.metadataChecksumSeed) (by omega) (blockOf_length hin)
    (blockSizeOf (sbOf c))
  rw [if_neg (by omega)] at htb
  have hpen : ∀ cur, Pending Is G c i (t.1, { internal := t.2, current := cur }) (p + 1) xs :=
    fun cur => ⟨h2, h3, h4, by rw [h.size, List.length_cons]; congr 1; omega, by omega,
      fun y hy => h.inside y (List.mem_cons_of_mem _ hy)⟩
  have hadv := fun s' r => (advances_iff (dev := dev) (s := s) (s' := s') (r := r)
    (Ext4File.blockSize_eq h.file.opened)).2
  by_cases hs : BlockSound i.metadataChecksumSeed (blockOf c (blockSizeOf (sbOf c)) x)
  · rw [if_pos ⟨rfl, hs⟩] at htb
    refine ⟨_, hpen (.block ⟨blockOf c (blockSizeOf (sbOf c)) x, 0,
      recordsEnd i.metadataChecksumSeed (blockOf c (blockSizeOf (sbOf c)) x)⟩), .inl ⟨hs, ?_, rfl⟩⟩
    refine hadv _ (.ok ()) ⟨t, _, h1, ?_⟩
    show (match toBlock (blockSizeOf (sbOf c)) s.2.internal.inode.metadataChecksumSeed
        (blockSizeOf (sbOf c)) (blockOf c (blockSizeOf (sbOf c)) x) with
      | .ok b => _ | .err e => _ | .panic => _) = _
    rw [hseed, htb]; rfl
  · rw [if_neg (fun h => hs h.2)] at htb
    refine ⟨_, hpen s.2.current, .inr ⟨hs, ?_, rfl⟩⟩
    refine hadv _ (.err .invalidData) ⟨t, _, h1, ?_⟩
    show (match toBlock (blockSizeOf (sbOf c)) s.2.internal.inode.metadataChecksumSeed
        (blockSizeOf (sbOf c)) (blockOf c (blockSizeOf (sbOf c)) x) with
      | .ok b => _ | .err e => _ | .panic => _) = _
    rw [hseed, htb]; rfl

/-- The results `rs` are still to be returned. -/
def Left (Is : D → Bytes → Prop) (G : W → Prop) (c : Bytes) (i : Inode) (s : W × Ext4Directory D)
    (rs : List (Res (Option DirEntry))) : Prop :=
  ∃ p xs todo rss, Pending Is G c i s p xs ∧ CurrentHas s.2.current todo xs ∧
    List.Forall₂ (fun x r => BlockResults i.metadataChecksumSeed
      (blockOf c (blockSizeOf (sbOf c)) x) r) xs rss ∧
    rs = (todo.map fun e => .ok (some ⟨e⟩)) ++ rss.flatten

/-- The first of the results is returned, or the end. -/
def Gives (Is : D → Bytes → Prop) (G : W → Prop) (c : Bytes) (i : Inode) (s' : W × Ext4Directory D)
    (rs : List (Res (Option DirEntry))) (r : Res (Option DirEntry)) : Prop :=
  r = rs.head?.getD (.ok none) ∧ r ≠ .panic ∧ Left Is G c i s' rs.tail

/-- The results of the blocks, the current block being exhausted. -/
theorem next_gives (hv : VolumeSpec False dev G Is At) {c : Bytes} (hc : c.length < U64) {i : Inode}
    {xs : List Nat} {rss : List (List (Res (Option DirEntry)))}
    (hrs : List.Forall₂ (fun x r => BlockResults i.metadataChecksumSeed
      (blockOf c (blockSizeOf (sbOf c)) x) r) xs rss) :
    ∀ (s : W × Ext4Directory D) (p : Nat), Pending Is G c i s p xs →
      CurrentHas s.2.current [] xs → s.2.current ≠ .end →
      ∃ s' r, Next dev s s' r ∧ Gives Is G c i s' rss.flatten r := by
  induction hrs with
  | nil =>
    intro s p h _ _
    obtain ⟨s', h1, h2, h3⟩ := advance_end hv hc h
    refine ⟨s', .ok none, .inl ⟨s', h1, .fin s' (by rw [h2]; intro b h; cases h)⟩, rfl,
      fun h => (by cases h), p, [], [], [], h3, .inr (.inr ⟨h2, rfl, rfl⟩), .nil, rfl⟩
  | @cons x rs xs rss hx hxs ih =>
    intro s p h hcur hne
    obtain ⟨s1, h1, h2⟩ := advance_block hv hc h
    rcases h2 with ⟨h2, h3, h4⟩ | ⟨h2, h3, h4⟩
    · rcases hx with ⟨-, es, hes, rfl⟩ | ⟨hx, -⟩
      rotate_left
      · exact absurd h2 hx
      have hok := DirBlock.opened_ok i.metadataChecksumSeed (blockOf c (blockSizeOf (sbOf c)) x)
      cases es with
      | nil =>
        have hn := DirBlock.readNextEntry_none hok (by
          obtain ⟨-, rest, h5, h6⟩ := hes
          rw [DirBlock.opened_rest, h5]; exact h6)
        obtain ⟨s', r, h5, h6⟩ := ih (withCurrent s1 s1.2.current) (p + 1) h1
          (.inr (.inl ⟨_, h4, hok, hes⟩)) (by
            show s1.2.current ≠ _
            rw [h4]; intro h; cases h)
        have h7 : Run dev s1 s' r := by
          rcases h5 with ⟨s2, h5, h7⟩ | ⟨r0, h5, h7, rfl⟩
          · exact .next s1 s2 s' _ _ r h4 hn (h4 ▸ h5) h7
          · exact .fail s1 s' _ _ r0 h4 hn (h4 ▸ h5) h7
        exact ⟨s', r, .inl ⟨s1, h3, h7⟩, h6⟩
      | cons e es =>
        obtain ⟨v, h5, h6, h7⟩ := tiles_cons_inv hes
        obtain ⟨b', h8, h9, h10, -⟩ := DirBlock.readNextEntry_record hok h6
          (by rw [DirBlock.opened_rest]; exact h5)
        exact ⟨withCurrent s1 (.block b'), .ok (some ⟨e⟩), .inl ⟨s1, h3, .entry s1 _ _ _ h4 h8⟩, rfl,
          fun h => (by cases h), p + 1, xs, es, rss, h1.withCurrent _,
          .inr (.inl ⟨b', rfl, h9, h10 ▸ h7⟩), hxs, rfl⟩
    · rcases hx with ⟨hx, -⟩ | ⟨-, rfl⟩
      · exact absurd hx h2
      refine ⟨s1, .err .invalidData, .inr ⟨.err .invalidData, h3, fun h => (by cases h), rfl⟩, rfl,
        fun h => (by cases h), p + 1, xs, [], rss, h1, ?_, hxs, rfl⟩
      rw [h4]
      rcases hcur with ⟨h5, -⟩ | h5 | ⟨h5, -⟩
      · exact .inl ⟨h5, rfl⟩
      · exact .inr (.inl h5)
      · exact absurd h5 hne

/-- A call returns the first of the results. -/
theorem call_gives (hv : VolumeSpec False dev G Is At) {c : Bytes} (hc : c.length < U64) {i : Inode}
    {s : W × Ext4Directory D} {rs : List (Res (Option DirEntry))} (h : Left Is G c i s rs) :
    ∃ s' r, EntryReturns dev s s' r ∧ Gives Is G c i s' rs r := by
  obtain ⟨p, xs, todo, rss, h1, h2, h3, rfl⟩ := h
  rcases h2 with ⟨h4, rfl⟩ | ⟨b, h4, h5, h6⟩ | ⟨h4, rfl, rfl⟩
  · obtain ⟨s', r, h5, h6⟩ := next_gives hv hc h3 s p h1 (.inl ⟨h4, rfl⟩)
      (by rw [h4]; intro h; cases h)
    exact ⟨s', r, (entryReturns_start h4).2 h5, h6⟩
  · have hne : s.2.current ≠ .start := by rw [h4]; intro h; cases h
    cases todo with
    | nil =>
      have hn := DirBlock.readNextEntry_none h5 (by
        obtain ⟨-, rest, h7, h8⟩ := h6
        rw [h7]; exact h8)
      obtain ⟨s', r, h7, h8⟩ := next_gives hv hc h3 (withCurrent s (.block b)) p (h1.withCurrent _)
        (.inr (.inl ⟨b, rfl, h5, h6⟩)) (fun h => (by cases h))
      refine ⟨s', r, (entryReturns_other hne).2 ?_, h8⟩
      rcases h7 with ⟨s2, h7, h9⟩ | ⟨r0, h7, h9, rfl⟩
      · exact .next s s2 s' _ _ r h4 hn h7 h9
      · exact .fail s s' _ _ r0 h4 hn h7 h9
    | cons e es =>
      obtain ⟨v, h7, h8, h9⟩ := tiles_cons_inv h6
      obtain ⟨b', h10, h11, h12, -⟩ := DirBlock.readNextEntry_record h5 h8 h7
      exact ⟨withCurrent s (.block b'), .ok (some ⟨e⟩),
        (entryReturns_other hne).2 (.entry s _ _ _ h4 h10), rfl, fun h => (by cases h), p, xs, es,
        rss, h1.withCurrent _, .inr (.inl ⟨b', rfl, h11, h12 ▸ h9⟩), h3, rfl⟩
  · have hne : s.2.current ≠ .start := by rw [h4]; intro h; cases h
    cases h3
    exact ⟨s, .ok none, (entryReturns_other hne).2 (.fin s (by rw [h4]; intro b h; cases h)), rfl,
      fun h => (by cases h), p, [], [], [], h1, .inr (.inr ⟨h4, rfl, rfl⟩), .nil, rfl⟩

theorem DirCalls.cons {s s1 s' : W × Ext4Directory D} {r : Res (Option DirEntry)}
    {h : List (Res (Option DirEntry))} (h1 : EntryReturns dev s s1 r) (hr : r ≠ .panic)
    (h2 : DirCalls dev s1 h s') : DirCalls dev s (r :: h) s' := by
  induction h2 with
  | nil => exact .snoc s s _ [] r (.nil s) h1 hr
  | snoc s' s'' h r' _ h3 h4 ih => exact DirCalls.snoc s s' s'' (r :: h) r' ih h3 h4

/-- Any number of calls. -/
theorem calls_give (hv : VolumeSpec False dev G Is At) {c : Bytes} (hc : c.length < U64) {i : Inode}
    (n : Nat) : ∀ (s : W × Ext4Directory D) (rs : List (Res (Option DirEntry))),
      Left Is G c i s rs → ∃ s', DirCalls dev s
        ((List.range n).map fun k => rs[k]?.getD (.ok none)) s' := by
  induction n with
  | zero => exact fun s rs _ => ⟨s, .nil s⟩
  | succ n ih =>
    intro s rs h
    obtain ⟨s1, r, h1, rfl, h2, h3⟩ := call_gives hv hc h
    obtain ⟨s', h4⟩ := ih s1 rs.tail h3
    refine ⟨s', ?_⟩
    rw [List.range_succ_eq_map, List.map_cons, List.map_map]
    have := DirCalls.cons h1 h2 h4
    convert this using 2
    · cases rs <;> rfl
    · refine List.map_congr_left fun k _ => ?_
      show rs[k + 1]?.getD _ = _
      cases rs <;> rfl

end Ext4Directory
end MdRecover
