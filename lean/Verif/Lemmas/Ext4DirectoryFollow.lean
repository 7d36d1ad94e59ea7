import Verif.Lemmas.Ext4DirectoryList

namespace MdRecover
variable [Build]
open MdSpec

namespace Ext4Directory
variable {W D : Type} {F : Prop} {dev : StreamDev W D} {G : W → Prop} {Is : D → Bytes → Prop}
  {At : W → D → Nat → Prop}

/-- Enough rounds for a call. -/
theorem entryReturns_enough {s s' : W × Ext4Directory D} {r : Res (Option DirEntry)}
    (h : EntryReturns dev s s' r) :
    ∃ k, ∀ fuel, k ≤ fuel → readNextEntry dev fuel s = (s', some <$> r) := by
  by_cases hs : s.2.current = .start
  · rcases (entryReturns_start hs).1 h with ⟨s1, ⟨f1, h1⟩, h2⟩ | ⟨r0, ⟨f1, h1⟩, h2, rfl⟩
    · obtain ⟨k, h2⟩ := run_loop h2
      refine ⟨f1 + k, fun fuel hf => ?_⟩
      have h3 := advance_more h1 (some_ne _) (fuel - f1)
      rw [show f1 + (fuel - f1) = fuel by omega] at h3
      rw [readNextEntry_start hs, h3]
      exact h2 _ _ (by omega) (by omega)
    · refine ⟨f1, fun fuel hf => ?_⟩
      have h3 := advance_more h1 (some_ne _) (fuel - f1)
      rw [show f1 + (fuel - f1) = fuel by omega] at h3
      rw [readNextEntry_start hs, h3]
      match r0 with
      | .ok () => exact absurd rfl h2
      | .err e => rfl
      | .panic => rfl
  · obtain ⟨k, h1⟩ := run_loop ((entryReturns_other hs).1 h)
    exact ⟨k, fun fuel hf => by rw [readNextEntry_other hs]; exact h1 fuel fuel hf hf⟩

/-- A call has one outcome. -/
theorem entryReturns_unique {s s1 s2 : W × Ext4Directory D} {r1 r2 : Res (Option DirEntry)}
    (h1 : EntryReturns dev s s1 r1) (h2 : EntryReturns dev s s2 r2) : s1 = s2 ∧ r1 = r2 := by
  obtain ⟨k1, h1⟩ := entryReturns_enough h1
  obtain ⟨k2, h2⟩ := entryReturns_enough h2
  have := (h1 (k1 + k2) (by omega)).symm.trans (h2 (k1 + k2) (by omega))
  obtain ⟨h3, h4⟩ := Prod.mk.inj this
  exact ⟨h3, some_inj h4⟩

/-- The results returned so far, and those still to be returned for the current block, are those of
the reads `g` of the file. -/
def Follows (dev : StreamDev W D) (c : Bytes) (i : Inode) (s0 : W × Ext4File D)
    (h : List (Res (Option DirEntry))) (s : W × Ext4Directory D) : Prop :=
  ∃ (g : List (Bytes × Res (Nat × Bytes))) (rss : List (List (Res (Option DirEntry))))
    (todo : List Bytes) (k : Nat),
    Calls dev s0 g (s.1, s.2.internal) ∧ (∀ x ∈ g, x.1 = zeros (blockSizeOf (sbOf c))) ∧
    List.Forall₂ (fun x rs => ReadResults i.metadataChecksumSeed (blockSizeOf (sbOf c)) x.2 rs) g rss ∧
    h ++ (todo.map fun e => .ok (some ⟨e⟩)) = rss.flatten ++ List.replicate k (.ok none) ∧
    ((s.2.current = .end ∧ todo = [] ∧ ∃ g' x, g = g' ++ [x] ∧ AtEnd x.2 ∧ ∀ y ∈ g', ¬ AtEnd y.2) ∨
      (k = 0 ∧ (∀ y ∈ g, ¬ AtEnd y.2) ∧ ((s.2.current = .start ∧ todo = []) ∨
        ∃ b, s.2.current = .block b ∧ b.Ok ∧ Tiles b.rest todo)))

/-- After a block was read the directory is no longer at its start. -/
theorem advances_notStart {c : Bytes} {i : Inode} {s s' : W × Ext4Directory D}
    (hi : Inv Is G c (fun _ => True) i s) (ha : Advances dev s s' (.ok ())) :
    s'.2.current ≠ .start := by
  intro hst
  obtain ⟨t, r0, -, h9⟩ := (advances_iff (Ext4File.blockSize_eq hi.file.opened)).1 ha
  match r0 with
  | .ok (n, out) =>
    have h9 : (match toBlock (blockSizeOf (sbOf c)) s.2.internal.inode.metadataChecksumSeed n out
      with
      | .ok b => _ | .err e => _ | .panic => _ : (W × Ext4Directory D) × Res (Option Unit))
        = (s', Res.ok (some ())) := h9
    rcases htb : toBlock (blockSizeOf (sbOf c)) s.2.internal.inode.metadataChecksumSeed n out
      with cur | e | _
    · rw [htb] at h9
      obtain ⟨rfl, -⟩ := Prod.mk.inj h9
      have hst : cur = .start := hst
      subst hst
      unfold toBlock at htb
      split at htb
      · cases htb
      · split at htb
        · rcases hfb : DirBlock.fromBlock out s.2.internal.inode.metadataChecksumSeed
            with (_ | b) | e | _ <;> rw [hfb] at htb <;> cases htb
        · cases htb
    · rw [htb] at h9; cases (Prod.mk.inj h9).2
    · rw [htb] at h9; cases (Prod.mk.inj h9).2
  | .err e => cases (Prod.mk.inj h9).2
  | .panic => cases (Prod.mk.inj h9).2

section
variable (hv : VolumeSpec F dev G Is At) {c : Bytes} (hc : c.length < U64) {i : Inode}
  {s0 : W × Ext4File D}
include hv hc

/-- Reading a block, the current one being exhausted. -/
theorem follows_advance {h : List (Res (Option DirEntry))} {s s' : W × Ext4Directory D} {r : Res Unit}
    (hi : Inv Is G c (fun _ => True) i s)
    (hf : Follows dev c i s0 h s) (hne : s.2.current ≠ .end)
    (hex : ∀ b, s.2.current = .block b → Tiles b.rest [])
    (ha : Advances dev s s' r) (hr : r ≠ .panic) :
    (r = .ok () → Follows dev c i s0 h s') ∧
      ∀ e, r = .err e → Follows dev c i s0 (h ++ [.err e]) s' := by
  have hge := blockSize_ge c
  have hz : (zeros (blockSizeOf (sbOf c))).length = blockSizeOf (sbOf c) := List.length_replicate
  obtain ⟨g, rss, todo, k, h1, h2, h3, h4, h5⟩ := hf
  rcases h5 with ⟨h5, -⟩ | ⟨rfl, h5, h6⟩
  · exact absurd h5 hne
  have htodo : todo = [] := by
    rcases h6 with ⟨-, h6⟩ | ⟨b, h6, -, h7⟩
    · exact h6
    · exact tiles_unique h7 (hex b h6)
  subst htodo
  have hin : s.2.internal.inode = i := hi.file.inode
  obtain ⟨t, r0, hret, h8⟩ := (advances_iff (Ext4File.blockSize_eq hi.file.opened)).1 ha
  have hp : r0 ≠ .panic := by
    rintro rfl
    have : ((_, Res.panic) : _ × Res (Option Unit)) = (s', some <$> r) := h8
    exact hr (some_inj (r := r) (r' := .panic) (Prod.mk.inj this).2.symm)
  have hcalls : Calls dev s0 (g ++ [(zeros (blockSizeOf (sbOf c)), r0)]) t :=
    .snoc _ _ _ _ _ _ h1 hret hp
  have hbufs : ∀ x ∈ g ++ [(zeros (blockSizeOf (sbOf c)), r0)], x.1 = zeros (blockSizeOf (sbOf c)) := by
    intro x hx
    rcases List.mem_append.1 hx with hx | hx
    · exact h2 x hx
    · rw [List.mem_singleton.1 hx]
  have hall : ∀ rs, ReadResults i.metadataChecksumSeed (blockSizeOf (sbOf c)) r0 rs →
      List.Forall₂ (fun x rs => ReadResults i.metadataChecksumSeed (blockSizeOf (sbOf c)) x.2 rs)
        (g ++ [(zeros (blockSizeOf (sbOf c)), r0)]) (rss ++ [rs]) := fun rs hrs =>
    List.rel_append h3 (.cons hrs .nil)
  have hcur : ∀ cur, cur = s.2.current → (cur = .start ∧ ([] : List Bytes) = []) ∨
      ∃ b, cur = .block b ∧ b.Ok ∧ Tiles b.rest [] := by
    rintro cur rfl; exact h6
  have hnot : ¬ AtEnd r0 → ∀ y ∈ g ++ [(zeros (blockSizeOf (sbOf c)), r0)], ¬ AtEnd y.2 := by
    intro hn y hy
    rcases List.mem_append.1 hy with hy | hy
    · exact h5 y hy
    · rw [List.mem_singleton.1 hy]; exact hn
  rw [List.map_nil, List.append_nil, List.replicate_zero, List.append_nil] at h4
  have herr : ∀ e, ReadResults i.metadataChecksumSeed (blockSizeOf (sbOf c)) r0 [.err e] →
      ¬ AtEnd r0 → Follows dev c i s0 (h ++ [.err e]) (t.1, { s.2 with internal := t.2 }) := by
    intro e hrs hn
    refine ⟨_, rss ++ [[.err e]], [], 0, hcalls, hbufs, hall _ hrs, ?_,
      .inr ⟨rfl, hnot hn, hcur _ rfl⟩⟩
    rw [List.map_nil, List.append_nil, List.replicate_zero, List.append_nil, h4, List.flatten_append]
    rfl
  obtain ⟨-, h9⟩ := Ext4File.returns_inv hv hc (Ext4File.closed_true c _) hi.file hret hp
    hi.counted
  rcases h9 with ⟨-, ⟨e, rfl⟩ | ⟨rfl, -⟩⟩ | ⟨-, hlt, node, j, k, -, -, -, -, -, -, h9, rfl⟩
  · have h8 : ((t.1, { s.2 with internal := t.2 }), Res.err e) = (s', some <$> r) := h8
    obtain ⟨rfl, h10⟩ := Prod.mk.inj h8
    have hr : r = .err e := some_inj (r' := .err e) h10.symm
    subst hr
    refine ⟨fun h => (by cases h), fun e' he => ?_⟩
    cases he
    exact herr e rfl (by rintro ⟨b, h⟩; cases h)
  · have h8 : ((t.1, { internal := t.2, current := .end }), Res.ok (some ())) = (s', some <$> r) := h8
    obtain ⟨rfl, h10⟩ := Prod.mk.inj h8
    have hr : r = .ok () := some_inj (r' := .ok ()) h10.symm
    subst hr
    refine ⟨fun _ => ?_, fun e' he => (by cases he)⟩
    refine ⟨_, rss ++ [[]], [], 0, hcalls, hbufs, hall [] (.inl ⟨rfl, rfl⟩), ?_,
      .inl ⟨rfl, rfl, g, _, rfl, ⟨_, rfl⟩, h5⟩⟩
    rw [List.map_nil, List.append_nil, List.replicate_zero, List.append_nil, h4, List.flatten_append]
    simp
  · rw [hz] at h9 h8 hcalls hbufs hall hnot herr
    have hlen : (slice c ((extentStart (nodeEntry node j) + k) * blockSizeOf (sbOf c))
        (blockSizeOf (sbOf c))).length = blockSizeOf (sbOf c) := by
      unfold slice
      rw [List.length_take, List.length_drop]; omega
    have htb := toBlock_eq (seed := i.metadataChecksumSeed) (by omega) hlen
      (min (i.fileSizeBytes - s.2.internal.blockPos * blockSizeOf (sbOf c)) (blockSizeOf (sbOf c)))
    have hlt : s.2.internal.blockPos * blockSizeOf (sbOf c) < i.fileSizeBytes := hlt
    have hmin : ¬ min (i.fileSizeBytes - s.2.internal.blockPos * blockSizeOf (sbOf c))
      (blockSizeOf (sbOf c)) = 0 := by omega
    have hend : ¬ AtEnd (.ok (min (i.fileSizeBytes
        - s.2.internal.blockPos * blockSizeOf (sbOf c)) (blockSizeOf (sbOf c)),
       slice c ((extentStart (nodeEntry node j) + k) * blockSizeOf (sbOf c))
        (blockSizeOf (sbOf c)))) := by
      rintro ⟨b, h⟩
      have h := (Prod.mk.inj (Res.ok.inj h)).1
      exact hmin h
    rw [if_neg hmin] at htb
    have h8 : afterRead s t (blockSizeOf (sbOf c)) (.ok (some
      (min (i.fileSizeBytes - s.2.internal.blockPos * blockSizeOf (sbOf c)) (blockSizeOf (sbOf c)),
       slice c ((extentStart (nodeEntry node j) + k) * blockSizeOf (sbOf c))
        (blockSizeOf (sbOf c))))) = (s', some <$> r) := h8
    unfold afterRead at h8
    simp only [hin, htb] at h8
    by_cases hs : min (i.fileSizeBytes - s.2.internal.blockPos * blockSizeOf (sbOf c))
        (blockSizeOf (sbOf c)) = blockSizeOf (sbOf c) ∧ BlockSound i.metadataChecksumSeed
          (slice c ((extentStart (nodeEntry node j) + k) * blockSizeOf (sbOf c))
            (blockSizeOf (sbOf c)))
    · rw [if_pos hs] at h8
      obtain ⟨rfl, h10⟩ := Prod.mk.inj h8
      have hr : r = .ok () := some_inj (r' := .ok ()) h10.symm
      subst hr
      refine ⟨fun _ => ?_, fun e' he => (by cases he)⟩
      obtain ⟨es, hes⟩ := tiles_exists
        ((slice c ((extentStart (nodeEntry node j) + k) * blockSizeOf (sbOf c))
        (blockSizeOf (sbOf c))).take (recordsEnd i.metadataChecksumSeed
          (slice c ((extentStart (nodeEntry node j) + k) * blockSizeOf (sbOf c))
            (blockSizeOf (sbOf c)))))
      refine ⟨_, rss ++ [es.map fun e => .ok (some ⟨e⟩)], es, 0, hcalls, hbufs,
        hall _ (.inr (.inl ⟨hmin, hs.1, .inl ⟨hs.2, es, hes, rfl⟩⟩)), ?_,
        .inr ⟨rfl, hnot hend, .inr ⟨_, rfl, DirBlock.opened_ok _ _, hes⟩⟩⟩
      rw [List.replicate_zero, List.append_nil, h4, List.flatten_append]
      simp
    · rw [if_neg hs] at h8
      obtain ⟨rfl, h10⟩ := Prod.mk.inj h8
      have hr : r = .err .invalidData := some_inj (r' := .err .invalidData) h10.symm
      subst hr
      refine ⟨fun h => (by cases h), fun e' he => ?_⟩
      cases he
      refine herr .invalidData ?_ hend
      by_cases hw : min (i.fileSizeBytes - s.2.internal.blockPos * blockSizeOf (sbOf c))
        (blockSizeOf (sbOf c)) = blockSizeOf (sbOf c)
      · exact .inr (.inl ⟨hmin, hw, .inr ⟨fun h => hs ⟨hw, h⟩, rfl⟩⟩)
      · exact .inr (.inr ⟨hmin, hw, rfl⟩)

/-- The loop. -/
theorem follows_run {h : List (Res (Option DirEntry))} {s s' : W × Ext4Directory D}
    {r : Res (Option DirEntry)} (hrun : Run dev s s' r) (hi : Inv Is G c (fun _ => True) i s)
    (hf : Follows dev c i s0 h s) (hs : s.2.current ≠ .start) (hr : r ≠ .panic) :
    Follows dev c i s0 (h ++ [r]) s' := by
  induction hrun with
  | fin s hcur =>
    obtain ⟨g, rss, todo, k, h1, h2, h3, h4, h5⟩ := hf
    rcases h5 with ⟨h5, rfl, h6⟩ | ⟨-, -, ⟨h6, -⟩ | ⟨b, h6, -⟩⟩
    · refine ⟨g, rss, [], k + 1, h1, h2, h3, ?_, .inl ⟨h5, rfl, h6⟩⟩
      rw [List.map_nil, List.append_nil] at h4 ⊢
      rw [h4, List.append_assoc, List.replicate_succ']
    · exact absurd h6 hs
    · exact absurd h6 (hcur b)
  | entry s b b' e hcur hn =>
    obtain ⟨g, rss, todo, k, h1, h2, h3, h4, h5⟩ := hf
    rcases h5 with ⟨h5, -⟩ | ⟨rfl, h5, ⟨h6, -⟩ | ⟨b1, h6, hok, ht⟩⟩
    · rw [hcur] at h5; cases h5
    · exact absurd h6 hs
    · rw [hcur] at h6
      cases h6
      cases todo with
      | nil =>
        obtain ⟨-, rest, h7, h8⟩ := ht
        rw [DirBlock.readNextEntry_none hok (by rw [h7]; exact h8)] at hn
        cases hn
      | cons e' todo =>
        obtain ⟨v, h7, h8, h9⟩ := tiles_cons_inv ht
        obtain ⟨b'', h10, h11, h12, -⟩ := DirBlock.readNextEntry_record hok h8 h7
        rw [hn] at h10
        cases h10
        refine ⟨g, rss, todo, 0, h1, h2, h3, ?_, .inr ⟨rfl, h5, .inr ⟨b', rfl, h11, h12 ▸ h9⟩⟩⟩
        rw [← h4, List.append_assoc]; rfl
  | bad => exact absurd rfl hr
  | next s s1 s2 b b' r hcur hn ha _ ih =>
    have hc0 := hi.current
    rw [hcur] at hc0
    rcases currentOk_next hc0 with ⟨e', b'', h4, -⟩ | h4
    · rw [hn] at h4; cases h4
    rw [hn] at h4
    cases h4
    have heq : withCurrent s (.block b) = s := by
      unfold withCurrent; rw [← hcur]
    rw [heq] at ha
    have hex : ∀ b1, s.2.current = .block b1 → Tiles b1.rest [] := by
      intro b1 hb1
      rw [hcur] at hb1
      cases hb1
      obtain ⟨hok, -, done, todo, -, ht⟩ := hc0 b rfl
      cases todo with
      | nil => exact ht
      | cons e' todo =>
        obtain ⟨v, h7, h8, h9⟩ := tiles_cons_inv ht
        obtain ⟨b'', h10, -⟩ := DirBlock.readNextEntry_record hok h8 h7
        rw [hn] at h10; cases h10
    have h5 := (follows_advance hv hc hi hf (by rw [hcur]; intro h; cases h) hex ha
      (fun h => (by cases h))).1 rfl
    obtain ⟨h6, h7⟩ := advances_inv hv hc (Ext4File.closed_true c _) hi ha (fun h => (by cases h))
    exact ih h6 h5 (advances_notStart hi ha) hr
  | fail s s1 b b' r hcur hn ha hne =>
    have hc0 := hi.current
    rw [hcur] at hc0
    rcases currentOk_next hc0 with ⟨e', b'', h4, -⟩ | h4
    · rw [hn] at h4; cases h4
    rw [hn] at h4
    cases h4
    have heq : withCurrent s (.block b) = s := by
      unfold withCurrent; rw [← hcur]
    rw [heq] at ha
    have hex : ∀ b1, s.2.current = .block b1 → Tiles b1.rest [] := by
      intro b1 hb1
      rw [hcur] at hb1
      cases hb1
      obtain ⟨hok, -, done, todo, -, ht⟩ := hc0 b rfl
      cases todo with
      | nil => exact ht
      | cons e' todo =>
        obtain ⟨v, h7, h8, h9⟩ := tiles_cons_inv ht
        obtain ⟨b'', h10, -⟩ := DirBlock.readNextEntry_record hok h8 h7
        rw [hn] at h10; cases h10
    match r with
    | .ok () => exact absurd rfl hne
    | .err e =>
      exact (follows_advance hv hc hi hf (by rw [hcur]; intro h; cases h) hex ha
        (fun h => (by cases h))).2 e rfl
    | .panic => exact absurd rfl hr

/-- A call. -/
theorem follows_call {h : List (Res (Option DirEntry))} {s s' : W × Ext4Directory D}
    {r : Res (Option DirEntry)} (hret : EntryReturns dev s s' r) (hi : Inv Is G c (fun _ => True) i s)
    (hf : Follows dev c i s0 h s) (hr : r ≠ .panic) : Follows dev c i s0 (h ++ [r]) s' := by
  by_cases hs : s.2.current = .start
  · have hne : s.2.current ≠ .end := by rw [hs]; intro h; cases h
    have hex : ∀ b, s.2.current = .block b → Tiles b.rest [] := by
      intro b hb; rw [hs] at hb; cases hb
    rcases (entryReturns_start hs).1 hret with ⟨s1, h1, h2⟩ | ⟨r0, h1, h2, rfl⟩
    · have h3 := (follows_advance hv hc hi hf hne hex h1 (fun h => (by cases h))).1 rfl
      obtain ⟨h4, -⟩ := advances_inv hv hc (Ext4File.closed_true c _) hi h1 (fun h => (by cases h))
      exact follows_run hv hc h2 h4 h3 (advances_notStart hi h1) hr
    · match r0 with
      | .ok () => exact absurd rfl h2
      | .err e => exact (follows_advance hv hc hi hf hne hex h1 (fun h => (by cases h))).2 e rfl
      | .panic => exact absurd rfl hr
  · exact follows_run hv hc ((entryReturns_other hs).1 hret) hi hf hs hr

omit s0 in
/-- Any calls. -/
theorem follows_calls {h : List (Res (Option DirEntry))} {s s' : W × Ext4Directory D}
    (hcalls : DirCalls dev s h s') (hi : Inv Is G c (fun _ => True) i s)
    (hs : s.2.current = .start) : Follows dev c i (s.1, s.2.internal) h s' := by
  induction hcalls with
  | nil => exact ⟨[], [], [], 0, .nil _, fun _ h => (by cases h), .nil, rfl,
      .inr ⟨rfl, fun _ h => (by cases h), .inl ⟨hs, rfl⟩⟩⟩
  | snoc _ _ _ _ h1 h2 h3 ih =>
    exact follows_call hv hc h2 (dirCalls_inv hv hc (Ext4File.closed_true c _) h1 hi) ih h3

end
end Ext4Directory
end MdRecover
