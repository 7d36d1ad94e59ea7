import Verif.Lemmas.Ext4Directory

namespace MdRecover
variable [Build]
open MdSpec

namespace Ext4Directory
variable {W D : Type} {F : Prop} {dev : StreamDev W D} {G : W → Prop} {Is : D → Bytes → Prop}
  {At : W → D → Nat → Prop}

/-- An extent of a node with `P` maps block `p` of the file to block `x`. -/
def Mapped (P : Bytes → Prop) (p x : Nat) : Prop :=
  ∃ node k j, P node ∧ nodeDepth node = 0 ∧ k < nodeEntries node ∧ NodeFits node ∧
    entryFirst (nodeEntry node k) + j = p ∧ j < (Extent.mk (nodeEntry node k)).length ∧
    x = extentStart (nodeEntry node k) + j

/-- A sound block of the directory. -/
def GoodBlock (P : Bytes → Prop) (c : Bytes) (seed : Option Nat) (b : Bytes) : Prop :=
  BlockSound seed b ∧ ∃ p x, Mapped P p x ∧ BlockInside c (blockSizeOf (sbOf c)) x ∧
    b = blockOf c (blockSizeOf (sbOf c)) x

/-- What holds of the current block: it was sound, and its rest is read by records. -/
def CurrentOk (P : Bytes → Prop) (c : Bytes) (seed : Option Nat) (cur : CurrentBlock) : Prop :=
  ∀ b, cur = .block b → b.Ok ∧ GoodBlock P c seed b.storage ∧
    ∃ done todo, Tiles (b.storage.take (recordsEnd seed b.storage)) (done ++ todo) ∧
      Tiles b.rest todo

/-- What holds of an open directory between calls. -/
structure Inv (Is : D → Bytes → Prop) (G : W → Prop) (c : Bytes) (P : Bytes → Prop) (i : Inode)
    (s : W × Ext4Directory D) : Prop where
  file : Ext4File.Inv Is G c P i (s.1, s.2.internal)
  current : CurrentOk P c i.metadataChecksumSeed s.2.current
  counted : BlocksCounted c i.fileSizeBytes

omit [Build] in
theorem blockSize_ge (c : Bytes) : 1024 ≤ blockSizeOf (sbOf c) := by
  have : 0 < 2 ^ le (sbOf c) 0x18 4 := Nat.two_pow_pos _
  unfold blockSizeOf
  omega

omit [Build] in
theorem currentOk_open {P : Bytes → Prop} {c : Bytes} {seed : Option Nat} {b : Bytes}
    (h : GoodBlock P c seed b) : CurrentOk P c seed (.block ⟨b, 0, recordsEnd seed b⟩) := by
  intro b' hb'
  cases hb'
  obtain ⟨es, hes⟩ := tiles_exists (b.take (recordsEnd seed b))
  exact ⟨DirBlock.opened_ok seed b, h, [], es, hes, hes⟩

omit [Build] in
theorem currentOk_end {P : Bytes → Prop} {c : Bytes} {seed : Option Nat} :
    CurrentOk P c seed .end := fun _ h => (by cases h)

omit [Build] in
theorem currentOk_start {P : Bytes → Prop} {c : Bytes} {seed : Option Nat} :
    CurrentOk P c seed .start := fun _ h => (by cases h)

omit [Build] in
theorem blockOf_length {c : Bytes} {bs x : Nat} (h : BlockInside c bs x) :
    (blockOf c bs x).length = bs := by
  unfold BlockInside at h
  unfold blockOf
  rw [List.length_take, List.length_drop]; omega

omit [Build] in
theorem afterRead_ends {s : W × Ext4Directory D} {t : W × Ext4File D} {bs n : Nat} {out : Bytes}
    (h : toBlock bs s.2.internal.inode.metadataChecksumSeed n out ≠ .panic) :
    ∃ s' r, afterRead s t bs (some <$> .ok (n, out)) = (s', some <$> r) ∧ r ≠ .panic := by
  rcases hb : toBlock bs s.2.internal.inode.metadataChecksumSeed n out with b | e | _
  · refine ⟨(t.1, { internal := t.2, current := b }), .ok (), ?_, fun h => (by cases h)⟩
    show (match toBlock bs s.2.internal.inode.metadataChecksumSeed n out with
      | .ok b => _ | .err e => _ | .panic => _) = _
    rw [hb]; rfl
  · refine ⟨(t.1, { s.2 with internal := t.2 }), .err e, ?_, fun h => (by cases h)⟩
    show (match toBlock bs s.2.internal.inode.metadataChecksumSeed n out with
      | .ok b => _ | .err e => _ | .panic => _) = _
    rw [hb]; rfl
  · exact absurd hb h

omit [Build] in
open Classical in
/-- What becomes of a block that was read. -/
theorem toBlock_eq {bs : Nat} {seed : Option Nat} {b : Bytes} (hbs : 12 ≤ bs) (hl : b.length = bs)
    (n : Nat) :
    toBlock bs seed n b = if n = 0 then .ok .end else if n = bs ∧ BlockSound seed b then
      .ok (.block ⟨b, 0, recordsEnd seed b⟩) else .err .invalidData := by
  unfold toBlock
  by_cases h0 : n = 0
  · rw [if_pos h0, if_pos h0]
  rw [if_neg h0, if_neg h0]
  by_cases h1 : n = bs
  · rw [if_pos h1]
    by_cases h2 : BlockSound seed b
    · rw [if_pos ⟨h1, h2⟩, DirBlock.fromBlock_sound (by omega) h2]; rfl
    · rw [if_neg (fun h => h2 h.2), DirBlock.fromBlock_unsound (by omega) h2]; rfl
  · rw [if_neg h1, if_neg (fun h => h1 h.1)]

/-- Reading the next block keeps the invariant. -/
theorem advances_inv (hv : VolumeSpec F dev G Is At) {c : Bytes} (hc : c.length < U64)
    {P : Bytes → Prop} (hP : Ext4File.Closed P c (blockSizeOf (sbOf c))) {i : Inode}
    {s s' : W × Ext4Directory D} (hi : Inv Is G c P i s) {r : Res Unit}
    (h : Advances dev s s' r) (hr : r ≠ .panic) :
    Inv Is G c P i s' ∧
      ((r = .ok () ∧ s'.2.current = .end) ∨ (∃ e, r = .err e) ∨
        (r = .ok () ∧ s'.2.internal.blockPos = s.2.internal.blockPos + 1 ∧
          s.2.internal.blockPos * blockSizeOf (sbOf c) < i.fileSizeBytes)) := by
  have hge := blockSize_ge c
  obtain ⟨t, r0, h0, h1⟩ := (advances_iff (Ext4File.blockSize_eq hi.file.opened)).1 h
  have hin : s.2.internal.inode = i := hi.file.inode
  have hp : r0 ≠ .panic := by
    rintro rfl
    have : ((_, Res.panic) : _ × Res (Option Unit)) = (s', some <$> r) := h1
    exact hr (some_inj (r := r) (r' := .panic) (Prod.mk.inj this).2.symm)
  obtain ⟨hf, h2⟩ := Ext4File.returns_inv hv hc hP hi.file h0 hp hi.counted
  have hz : (zeros (blockSizeOf (sbOf c))).length = blockSizeOf (sbOf c) := List.length_replicate
  rcases h2 with ⟨-, ⟨e, rfl⟩ | ⟨rfl, -⟩⟩ | ⟨hpos, hlt, node, k, j, h3, h4, h5, h6, h7, h8, h9, rfl⟩
  · obtain ⟨rfl, h3⟩ := Prod.mk.inj h1
    exact ⟨⟨hf, hi.current, hi.counted⟩, .inr (.inl ⟨e, some_inj (r' := .err e) h3.symm⟩)⟩
  · have : (_, Res.ok (some ())) = (s', some <$> r) := h1
    obtain ⟨rfl, h3⟩ := Prod.mk.inj this
    exact ⟨⟨hf, currentOk_end, hi.counted⟩, .inl ⟨some_inj (r' := .ok ()) h3.symm, rfl⟩⟩
  · rw [hz] at h9 h1
    have hlen : (slice c ((extentStart (nodeEntry node k) + j) * blockSizeOf (sbOf c))
        (blockSizeOf (sbOf c))).length = blockSizeOf (sbOf c) := by
      unfold slice
      rw [List.length_take, List.length_drop]; omega
    have htb := toBlock_eq (seed := i.metadataChecksumSeed) (by omega) hlen
      (min (i.fileSizeBytes - s.2.internal.blockPos * blockSizeOf (sbOf c)) (blockSizeOf (sbOf c)))
    have hlt : s.2.internal.blockPos * blockSizeOf (sbOf c) < i.fileSizeBytes := hlt
    rw [if_neg (by omega)] at htb
    have h1 : afterRead s t (blockSizeOf (sbOf c)) (.ok (some
      (min (i.fileSizeBytes - s.2.internal.blockPos * blockSizeOf (sbOf c)) (blockSizeOf (sbOf c)),
       slice c ((extentStart (nodeEntry node k) + j) * blockSizeOf (sbOf c))
        (blockSizeOf (sbOf c))))) = (s', some <$> r) := h1
    unfold afterRead at h1
    simp only [hin, htb] at h1
    by_cases hs : min (i.fileSizeBytes - s.2.internal.blockPos * blockSizeOf (sbOf c))
        (blockSizeOf (sbOf c)) = blockSizeOf (sbOf c) ∧ BlockSound i.metadataChecksumSeed
          (slice c ((extentStart (nodeEntry node k) + j) * blockSizeOf (sbOf c))
            (blockSizeOf (sbOf c)))
    · rw [if_pos hs] at h1
      obtain ⟨rfl, h10⟩ := Prod.mk.inj h1
      have hr : r = .ok () := some_inj (r' := .ok ()) h10.symm
      exact ⟨⟨hf, currentOk_open ⟨hs.2, _, _, ⟨node, k, j, h3, h4, h5, h6, h7, h8, rfl⟩, h9, rfl⟩, hi.counted⟩,
        .inr (.inr ⟨hr, hpos, hlt⟩)⟩
    · rw [if_neg hs] at h1
      obtain ⟨rfl, h10⟩ := Prod.mk.inj h1
      have hr : r = .err .invalidData := some_inj (r' := .err .invalidData) h10.symm
      exact ⟨⟨hf, hi.current, hi.counted⟩, .inr (.inl ⟨_, hr⟩)⟩

omit [Build] in
/-- What a call on the current block does. -/
theorem currentOk_next {P : Bytes → Prop} {c : Bytes} {seed : Option Nat} {b : DirBlock}
    (h : CurrentOk P c seed (.block b)) :
    (∃ e b', b.readNextEntry = .ok (some ⟨e⟩, b') ∧ CurrentOk P c seed (.block b') ∧
      ∃ es, Tiles (b.storage.take (recordsEnd seed b.storage)) es ∧ e ∈ es) ∨
    b.readNextEntry = .ok (none, b) := by
  obtain ⟨hok, hgood, done, todo, h1, h2⟩ := h b rfl
  cases todo with
  | nil =>
    obtain ⟨-, rest, h3, h4⟩ := h2
    exact .inr (DirBlock.readNextEntry_none hok (by rw [h3]; exact h4))
  | cons e todo =>
    obtain ⟨v, h3, h4, h5⟩ := tiles_cons_inv h2
    obtain ⟨b', h6, h7, h8, h9, h10⟩ := DirBlock.readNextEntry_record hok h4 h3
    refine .inl ⟨e, b', h6, ?_, _, h1, List.mem_append_right _ List.mem_cons_self⟩
    intro b'' hb''
    cases hb''
    refine ⟨h7, h9 ▸ hgood, done ++ [e], todo, ?_, h8 ▸ h5⟩
    rw [h9, List.append_assoc]
    exact h1

/-- The loop keeps the invariant; an entry comes from a sound block. -/
theorem run_inv (hv : VolumeSpec F dev G Is At) {c : Bytes} (hc : c.length < U64)
    {P : Bytes → Prop} (hP : Ext4File.Closed P c (blockSizeOf (sbOf c))) {i : Inode}
    {s s' : W × Ext4Directory D} {r : Res (Option DirEntry)} (h : Run dev s s' r)
    (hi : Inv Is G c P i s) (hr : r ≠ .panic) :
    Inv Is G c P i s' ∧ ∀ e, r = .ok (some e) → ∃ b es, GoodBlock P c i.metadataChecksumSeed b ∧
      Tiles (b.take (recordsEnd i.metadataChecksumSeed b)) es ∧ e.storage ∈ es := by
  induction h with
  | fin s h => exact ⟨hi, fun e he => (by cases he)⟩
  | entry s b b' e h1 h2 =>
    have hcur := hi.current
    rw [h1] at hcur
    rcases currentOk_next hcur with ⟨e', b'', h3, h4, es, h5, h6⟩ | h3
    · rw [h2] at h3
      cases h3
      refine ⟨⟨hi.file, h4, hi.counted⟩, fun e he => ?_⟩
      cases he
      exact ⟨b.storage, es, (hcur b rfl).2.1, h5, h6⟩
    · rw [h2] at h3; cases h3
  | bad => exact absurd rfl hr
  | next s s1 s2 b b' r h1 h2 h3 _ ih =>
    have hcur := hi.current
    rw [h1] at hcur
    rcases currentOk_next hcur with ⟨e', b'', h4, -⟩ | h4
    · rw [h2] at h4; cases h4
    rw [h2] at h4
    cases h4
    obtain ⟨h5, -⟩ := advances_inv hv hc hP (s := withCurrent s (.block b)) ⟨hi.file, hcur, hi.counted⟩ h3
      (fun h => (by cases h))
    exact ih h5 hr
  | fail s s1 b b' r h1 h2 h3 h4 =>
    have hcur := hi.current
    rw [h1] at hcur
    rcases currentOk_next hcur with ⟨e', b'', h5, -⟩ | h5
    · rw [h2] at h5; cases h5
    rw [h2] at h5
    cases h5
    have hp : r ≠ .panic := by rintro rfl; exact hr rfl
    obtain ⟨h6, -⟩ := advances_inv hv hc hP (s := withCurrent s (.block b)) ⟨hi.file, hcur, hi.counted⟩ h3 hp
    refine ⟨h6, fun e he => ?_⟩
    cases r with
    | ok u => exact absurd rfl h4
    | err e => cases he
    | panic => cases he

/-- A call keeps the invariant; an entry comes from a sound block. -/
theorem entryReturns_inv (hv : VolumeSpec F dev G Is At) {c : Bytes} (hc : c.length < U64)
    {P : Bytes → Prop} (hP : Ext4File.Closed P c (blockSizeOf (sbOf c))) {i : Inode}
    {s s' : W × Ext4Directory D} {r : Res (Option DirEntry)} (h : EntryReturns dev s s' r)
    (hi : Inv Is G c P i s) (hr : r ≠ .panic) :
    Inv Is G c P i s' ∧ ∀ e, r = .ok (some e) → ∃ b es, GoodBlock P c i.metadataChecksumSeed b ∧
      Tiles (b.take (recordsEnd i.metadataChecksumSeed b)) es ∧ e.storage ∈ es := by
  by_cases hs : s.2.current = .start
  · rcases (entryReturns_start hs).1 h with ⟨s1, h1, h2⟩ | ⟨r0, h1, h2, rfl⟩
    · obtain ⟨h3, -⟩ := advances_inv hv hc hP hi h1 (fun h => (by cases h))
      exact run_inv hv hc hP h2 h3 hr
    · have hp : r0 ≠ .panic := by rintro rfl; exact hr rfl
      obtain ⟨h3, -⟩ := advances_inv hv hc hP hi h1 hp
      refine ⟨h3, fun e he => ?_⟩
      cases r0 with
      | ok u => exact absurd rfl h2
      | err e => cases he
      | panic => cases he
  · exact run_inv hv hc hP ((entryReturns_other hs).1 h) hi hr

theorem dirCalls_inv (hv : VolumeSpec F dev G Is At) {c : Bytes} (hc : c.length < U64)
    {P : Bytes → Prop} (hP : Ext4File.Closed P c (blockSizeOf (sbOf c))) {i : Inode}
    {s s' : W × Ext4Directory D} {h : List (Res (Option DirEntry))} (hcalls : DirCalls dev s h s')
    (hi : Inv Is G c P i s) : Inv Is G c P i s' := by
  induction hcalls with
  | nil => exact hi
  | snoc _ _ _ _ _ h2 h3 ih => exact (entryReturns_inv hv hc hP h2 ih h3).1

theorem open_inv {c : Bytes} {w : W} (hG : G w) {fs : Ext4Fs D} (ho : Opened Is c fs)
    {inode : Inode} {d : Ext4Directory D} (h : Ext4Directory.open fs inode = .ok d)
    (P : Bytes → Prop) (hP : P inode.blocksBuffer) (hw : BlocksCounted c inode.fileSizeBytes) :
    Inv Is G c P inode (w, d) ∧ d.current = .start ∧ d.internal.blockPos = 0 ∧
      d.internal.stack = [.tree (.fromInternal (.fromInode inode)) 0] := by
  unfold Ext4Directory.open at h
  split at h
  · cases h
  · rcases hf : Ext4File.open fs inode with f | e | _
    · rw [hf] at h
      cases h
      obtain ⟨h1, h2, -, h3⟩ := Ext4File.open_inv (w := w) hG ho hf P hP
      exact ⟨⟨h1, currentOk_start, hw⟩, rfl, h2, h3⟩
    · rw [hf] at h; cases h
    · rw [hf] at h; cases h

/-- Reading a block ends without a panic if the tree has no cycles. -/
theorem advances_ends (hv : VolumeSpec F dev G Is At) {c : Bytes} (hc : c.length < U64) {i : Inode}
    (hsize : i.fileSizeBytes ≤ (U32 - 1) * blockSizeOf (sbOf c)) {s : W × Ext4Directory D}
    (hi : Inv Is G c (Tame c (blockSizeOf (sbOf c))) i s) :
    ∃ s' r, Advances dev s s' r ∧ r ≠ .panic := by
  have hge := blockSize_ge c
  have hz : (zeros (blockSizeOf (sbOf c))).length = blockSizeOf (sbOf c) := List.length_replicate
  have hb : blockSizeOf (sbOf c) ≤ (zeros (blockSizeOf (sbOf c))).length := by rw [hz]
  obtain ⟨s1, s2, r, h1, h2, h3, h4⟩ := Ext4File.ends_of_tame hv hc hsize hb hi.file
  obtain ⟨r', rfl⟩ := Ext4File.map_some_surj h3
  have hret : Returns dev (s.1, s.2.internal) (zeros (blockSizeOf (sbOf c))) s2 r' :=
    (Ext4File.returns_iff hi.file.opened hb).2 ⟨s1, h1, h2⟩
  have hr' : r' ≠ .panic := fun h => h4 (by rw [h]; rfl)
  have hiff := fun s' r => advances_iff (dev := dev) (s := s) (s' := s') (r := r)
    (Ext4File.blockSize_eq hi.file.opened)
  obtain ⟨-, h5⟩ := Ext4File.returns_inv hv hc (Ext4File.closed_tame _ _) hi.file hret hr'
    hi.counted
  rcases h5 with ⟨-, ⟨e, rfl⟩ | ⟨rfl, -⟩⟩ | ⟨-, -, node, k, j, -, -, -, -, -, -, h9, rfl⟩
  · exact ⟨_, .err e, (hiff _ _).2 ⟨s2, _, hret, rfl⟩, fun h => (by cases h)⟩
  · exact ⟨_, .ok (), (hiff _ _).2 ⟨s2, _, hret, rfl⟩, fun h => (by cases h)⟩
  · rw [hz] at h9
    have hlen : (slice c ((extentStart (nodeEntry node k) + j) * blockSizeOf (sbOf c))
        (zeros (blockSizeOf (sbOf c))).length).length = blockSizeOf (sbOf c) := by
      unfold slice
      rw [hz, List.length_take, List.length_drop]; omega
    have htb := toBlock_eq (seed := s.2.internal.inode.metadataChecksumSeed) (by omega) hlen
      (min (i.fileSizeBytes - s.2.internal.blockPos * blockSizeOf (sbOf c)) (blockSizeOf (sbOf c)))
    obtain ⟨s', r, h10, h11⟩ := afterRead_ends (s := s) (t := s2) (bs := blockSizeOf (sbOf c))
      (n := min (i.fileSizeBytes - s.2.internal.blockPos * blockSizeOf (sbOf c))
        (blockSizeOf (sbOf c)))
      (out := slice c ((extentStart (nodeEntry node k) + j) * blockSizeOf (sbOf c))
        (zeros (blockSizeOf (sbOf c))).length) (by
          rw [htb]
          split
          · exact fun h => (by cases h)
          · split <;> exact fun h => (by cases h))
    exact ⟨s', r, (hiff _ _).2 ⟨s2, _, hret, h10⟩, h11⟩

/-- The loop ends without a panic if the tree has no cycles. -/
theorem run_ends (hv : VolumeSpec F dev G Is At) {c : Bytes} (hc : c.length < U64) {i : Inode}
    (hsize : i.fileSizeBytes ≤ (U32 - 1) * blockSizeOf (sbOf c)) (m : Nat) :
    ∀ s : W × Ext4Directory D, Inv Is G c (Tame c (blockSizeOf (sbOf c))) i s →
      i.fileSizeBytes - s.2.internal.blockPos * blockSizeOf (sbOf c) ≤ m →
      ∃ s' r, Run dev s s' r ∧ r ≠ .panic := by
  have hge := blockSize_ge c
  induction m using Nat.strongRecOn with
  | _ m ih =>
    intro s hi hm
    by_cases hc' : ∃ b, s.2.current = .block b
    · obtain ⟨b, hb⟩ := hc'
      have hcur := hi.current
      rw [hb] at hcur
      rcases currentOk_next hcur with ⟨e, b', h1, -⟩ | h1
      · exact ⟨_, _, .entry s b b' _ hb h1, fun h => (by cases h)⟩
      · have hi' : Inv Is G c (Tame c (blockSizeOf (sbOf c))) i (withCurrent s (.block b)) :=
          ⟨hi.file, hcur, hi.counted⟩
        obtain ⟨s1, r, h2, h3⟩ := advances_ends hv hc hsize hi'
        obtain ⟨h4, h5⟩ := advances_inv hv hc (Ext4File.closed_tame _ _) hi' h2 h3
        rcases h5 with ⟨rfl, h5⟩ | ⟨e, rfl⟩ | ⟨rfl, h5, h6⟩
        · exact ⟨s1, _, .next s s1 s1 b b _ hb h1 h2 (.fin s1 (by rw [h5]; intro b h; cases h)),
            fun h => (by cases h)⟩
        · exact ⟨s1, _, .fail s s1 b b (.err e) hb h1 h2 (fun h => (by cases h)),
            fun h => (by cases h)⟩
        · have h5 : s1.2.internal.blockPos = s.2.internal.blockPos + 1 := h5
          have h6 : s.2.internal.blockPos * blockSizeOf (sbOf c) < i.fileSizeBytes := h6
          obtain ⟨s', r, h7, h8⟩ := ih (i.fileSizeBytes
              - s1.2.internal.blockPos * blockSizeOf (sbOf c))
            (by rw [h5, Nat.add_mul]; omega) s1 h4 (Nat.le_refl _)
          exact ⟨s', r, .next s s1 s' b b r hb h1 h2 h7, h8⟩
    · exact ⟨s, _, .fin s fun b hb => hc' ⟨b, hb⟩, fun h => (by cases h)⟩

/-- A call ends without a panic if the tree has no cycles. -/
theorem entryReturns_ends (hv : VolumeSpec F dev G Is At) {c : Bytes} (hc : c.length < U64)
    {i : Inode} (hsize : i.fileSizeBytes ≤ (U32 - 1) * blockSizeOf (sbOf c))
    {s : W × Ext4Directory D} (hi : Inv Is G c (Tame c (blockSizeOf (sbOf c))) i s) :
    ∃ s' r, EntryReturns dev s s' r ∧ r ≠ .panic := by
  by_cases hs : s.2.current = .start
  · obtain ⟨s1, r, h2, h3⟩ := advances_ends hv hc hsize hi
    obtain ⟨h4, h5⟩ := advances_inv hv hc (Ext4File.closed_tame _ _) hi h2 h3
    match r with
    | .ok () =>
      obtain ⟨s', r, h6, h7⟩ := run_ends hv hc hsize _ s1 h4 (Nat.le_refl _)
      exact ⟨s', r, (entryReturns_start hs).2 (.inl ⟨s1, h2, h6⟩), h7⟩
    | .err e =>
      exact ⟨s1, .err e, (entryReturns_start hs).2 (.inr ⟨.err e, h2, fun h => (by cases h), rfl⟩),
        fun h => (by cases h)⟩
    | .panic => exact absurd rfl h3
  · obtain ⟨s', r, h6, h7⟩ := run_ends hv hc hsize _ s hi (Nat.le_refl _)
    exact ⟨s', r, (entryReturns_other hs).2 h6, h7⟩

end Ext4Directory
end MdRecover
