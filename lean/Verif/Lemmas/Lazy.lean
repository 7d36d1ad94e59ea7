import Verif.Lemmas.Trace
import Verif.Lemmas.Ext4DirectoryFollow

/-! Lemmas about the last request made to a device. -/

namespace MdRecover
variable [Build]
open MdSpec

omit [Build] in
/-- The last block asked for after `l` is `x`: since the seek to its beginning there have been reads only. -/
def LastAsked (l : List Asked) (bs x : Nat) (log : List Asked) : Prop :=
  ∃ front reads, log = l ++ (front ++ .seek (.start (x * bs)) :: reads) ∧ ∀ a ∈ reads, ∃ k n, a = .read k n

omit [Build] in
theorem lastAsked_append {bs m x : Nat} {l t acc : List Asked} (hl : l <+: t) (h : Asks bs m [x] acc) :
    LastAsked l bs x (t ++ acc) := by
  obtain ⟨front, rfl⟩ := hl
  cases h with
  | cons _ _ reads rest h1 _ h3 =>
    cases h3
    refine ⟨front, reads, by rw [List.append_nil, List.append_assoc], fun a ha => ?_⟩
    obtain ⟨k, n, h, -⟩ := h1 a ha
    exact ⟨k, n, h⟩

omit [Build] in
/-- The last of the blocks asked for. -/
theorem asks_last {bs m x : Nat} (hbs : 0 < bs) {ys : List Nat} {acc : List Asked} (h : Asks bs m ys acc)
    (hl : LastAsked [] bs x acc) : ∃ front, ys = front ++ [x] := by
  induction h with
  | nil =>
    obtain ⟨front, reads, h, -⟩ := hl
    exact absurd h (by simp)
  | cons y ys reads rest h1 h2 h3 ih =>
    obtain ⟨front, reads', h4, h5⟩ := hl
    have hno : ∀ p, Asked.seek p ∉ reads := by
      intro p hp
      obtain ⟨_, _, h, -⟩ := h1 _ hp
      cases h
    cases front with
    | nil =>
      obtain ⟨h6, h7⟩ := List.cons.inj h4
      cases h3 with
      | nil =>
        refine ⟨[], ?_⟩
        have h8 : y * bs = x * bs := by
          injection h6 with h6
          injection h6
        rw [Nat.eq_of_mul_eq_mul_right hbs h8]
        rfl
      | cons z zs reads2 rest2 =>
        obtain ⟨_, _, h⟩ := h5 (.seek (.start (z * bs))) (by rw [← h7]; simp)
        cases h
    | cons a front =>
      obtain ⟨-, h7⟩ := List.cons.inj h4
      rcases List.append_eq_append_iff.1 h7 with ⟨t, h8, h9⟩ | ⟨t, h8, h9⟩
      · obtain ⟨f, rfl⟩ := ih ⟨t, reads', h9, h5⟩
        exact ⟨y :: f, rfl⟩
      · cases t with
        | nil =>
          obtain ⟨f, rfl⟩ := ih ⟨[], reads', h9.symm, h5⟩
          exact ⟨y :: f, rfl⟩
        | cons b t =>
          obtain ⟨h10, -⟩ := List.cons.inj h9
          exact absurd (by rw [h8, h10]; simp) (hno (.start (x * bs)))

section
variable {W D : Type} {F : Prop} {dev : StreamDev W D} {G : W → Prop} {Is : D → Bytes → Prop}
  {At : W → D → Nat → Prop} {l : List Asked}

omit [Build] in
/-- The requests are added to those there are. -/
theorem loggedDev_since (hv : VolumeSpec F dev G Is At) (l : List Asked) :
    VolumeSpec F (loggedDev dev) (fun w => G w.1 ∧ l <+: w.2) Is (fun w d p => At w.1 d p) where
  seek := by
    rintro ⟨w, t⟩ d c ⟨hG, hl⟩ hd p hp ⟨w', l'⟩ d' r h
    rcases hx : dev.seek (.start p) (w, d) with ⟨⟨w1, d1⟩, r1⟩
    rw [logged_seek t hx] at h
    cases h
    obtain ⟨h1, h2⟩ := hv.seek hG hd p hp hx
    exact ⟨⟨h1, hl.trans (List.prefix_append _ _)⟩, h2⟩
  read := by
    rintro ⟨w, t⟩ d c p ⟨hG, hl⟩ hd hat buf ⟨w', l'⟩ d' r h
    rcases hx : dev.read buf (w, d) with ⟨⟨w1, d1⟩, r1⟩
    rw [logged_read t hx] at h
    cases h
    obtain ⟨h1, h2⟩ := hv.read hG hd hat buf hx
    exact ⟨⟨h1, hl.trans (List.prefix_append _ _)⟩, h2⟩
  tryClone := by
    rintro ⟨w, t⟩ d c ⟨hG, hl⟩ hd ⟨w', l'⟩ r h
    rcases hx : dev.tryClone d w with ⟨w1, r1⟩
    rw [logged_clone t hx] at h
    cases h
    obtain ⟨h1, h2⟩ := hv.tryClone hG hd hx
    exact ⟨⟨h1, hl⟩, h2⟩

namespace Ext4File

/-- A round that returns data has asked for their block last. -/
theorem step_last (hv : VolumeSpec F dev G Is At) {c : Bytes} (hc : c.length < U64) {i : Inode}
    {s s' : (W × List Asked) × Ext4File D} (hi : Inv Is (fun w => G w.1 ∧ l <+: w.2) c (fun _ => True) i s) {buf : Bytes}
    (hb : blockSizeOf (sbOf c) ≤ buf.length) {n : Nat} {out : Bytes} (hn : n ≠ 0)
    (h : step (loggedDev dev) buf s = (s', .ok (some (n, out)))) :
    ∃ x, LastAsked l (blockSizeOf (sbOf c)) x s'.1.2 ∧ x * blockSizeOf (sbOf c) + buf.length ≤ c.length ∧
      out = slice c (x * blockSizeOf (sbOf c)) buf.length := by
  obtain ⟨⟨w, t⟩, f⟩ := s
  obtain ⟨hG, hlt⟩ : G w ∧ l <+: t := hi.good
  have hst : StackOk (fun _ => True) f.blockPos f.stack := hi.stack
  match hs : f.stack with
  | [] =>
    rw [step_empty (loggedDev dev) buf (w, t) f hs] at h
    have h := (Prod.mk.inj h).2
    split at h
    · cases h
      exact absurd rfl hn
    · cases h
  | .tree tr pos :: rest =>
    rw [hs] at hst
    obtain ⟨m, pos', heq, -⟩ : TreeOk (fun _ => True) (.tree tr pos) := by
      rcases hst.1 with hx | ⟨_, _, _, hx, _⟩
      · exact hx
      · cases hx
    cases heq
    rw [step_tree (loggedDev dev) buf (w, t) f hs] at h
    by_cases h1 : nodeEntries m.storage ≤ pos
    · rw [stepTree_done (loggedDev dev) (w, t) _ rest h1] at h
      cases h
    have h1 : pos < nodeEntries m.storage := by omega
    by_cases h2 : NodeFits m.storage
    rotate_left
    · rw [stepTree_panics (loggedDev dev) (w, t) _ rest h1 h2] at h
      cases h
    by_cases h3 : nodeDepth m.storage = 0
    · rw [stepTree_leaf (loggedDev dev) (w, t) _ rest h1 h2 h3] at h
      split at h <;> cases h
    · obtain ⟨w', fs', hG', ho', h4⟩ := stepTree_branch (loggedDev_since hv l) hc (w := (w, t)) ⟨hG, hlt⟩
        (f := { f with stack := rest }) hi.opened rest h1 h2 h3
      rcases h4 with ⟨-, h4⟩ | ⟨-, ⟨-, e, h4⟩ | ⟨h5, h4⟩⟩ <;> (rw [h4] at h; cases h)
  | .extent e pos :: rest =>
    rw [step_extent (loggedDev dev) buf (w, t) f hs] at h
    by_cases h5 : e.length ≤ pos
    · rw [stepExtent_done (loggedDev dev) buf (w, t) _ rest h5] at h
      cases h
    have h5 := Nat.lt_of_not_le h5
    rcases stepExtent_log hv hG (f := { f with stack := rest }) hi.opened buf rest h5 h with ⟨-, e, h6⟩ | ⟨acc, h6, h7⟩
    · cases h6
    refine ⟨_, by rw [h6]; exact lastAsked_append hlt h7, ?_⟩
    obtain ⟨w', fs', hG', ho', h8⟩ := stepExtent_block (loggedDev_since hv l) hc (w := (w, t)) ⟨hG, hlt⟩
      (f := { f with stack := rest }) hi.opened buf hb rest h5
    rcases h8 with ⟨-, h8⟩ | ⟨-, ⟨-, e, h8⟩ | ⟨h9, h8⟩⟩
    · rw [h8] at h; cases h
    · rw [h8] at h; cases h
    · rw [h8] at h
      refine ⟨h9, ?_⟩
      split at h
      · cases h; rfl
      split at h
      · cases h
      · cases h; rfl

/-- A call that returns data has asked for their block last. -/
theorem returns_last (hv : VolumeSpec F dev G Is At) {c : Bytes} (hc : c.length < U64) {i : Inode}
    {s s' : (W × List Asked) × Ext4File D} (hi : Inv Is (fun w => G w.1 ∧ l <+: w.2) c (fun _ => True) i s) {buf : Bytes}
    {n : Nat} {out : Bytes} (hn : n ≠ 0) (h : Returns (loggedDev dev) s buf s' (.ok (n, out))) :
    ∃ x, LastAsked l (blockSizeOf (sbOf c)) x s'.1.2 ∧ x * blockSizeOf (sbOf c) + buf.length ≤ c.length ∧
      out = slice c (x * blockSizeOf (sbOf c)) buf.length := by
  obtain ⟨w, f⟩ := s
  by_cases hb : buf.length < blockSizeOf (sbOf c)
  · obtain ⟨-, h⟩ := (returns_short hi.opened hb).1 h
    cases h
  have hb := Nat.le_of_not_lt hb
  obtain ⟨s1, h1, h2⟩ := (returns_iff hi.opened hb).1 h
  obtain ⟨h3, -⟩ := silent_inv (loggedDev_since hv l) hc (closed_true c _) hb h1 hi
  exact step_last hv hc h3 hb hn h2

end Ext4File

namespace Ext4Directory

/-- Where a listing stands: a current block with further records is the block asked for last. -/
def Lazy (l : List Asked) (c : Bytes) (s : (W × List Asked) × Ext4Directory D) : Prop :=
  ∀ b, s.2.current = .block b → (∃ e b', b.readNextEntry = .ok (some e, b')) →
    ∃ x, LastAsked l (blockSizeOf (sbOf c)) x s.1.2 ∧ b.storage = blockOf c (blockSizeOf (sbOf c)) x

/-- Reading the next block of a directory. -/
theorem advances_lazy (hv : VolumeSpec F dev G Is At) {c : Bytes} (hc : c.length < U64) {i : Inode}
    {s s' : (W × List Asked) × Ext4Directory D} (hi : Inv Is (fun w => G w.1 ∧ l <+: w.2) c (fun _ => True) i s) {r : Res Unit}
    (h : Advances (loggedDev dev) s s' r) (hr : r ≠ .panic)
    (hend : ∀ b, s.2.current = .block b → b.readNextEntry = .ok (none, b)) : Lazy l c s' := by
  have hge := blockSize_ge c
  obtain ⟨t, r0, h0, h1⟩ := (advances_iff (Ext4File.blockSize_eq hi.file.opened)).1 h
  have hin : s.2.internal.inode = i := hi.file.inode
  have hp : r0 ≠ .panic := by
    rintro rfl
    have : ((_, Res.panic) : _ × Res (Option Unit)) = (s', some <$> r) := h1
    exact hr (some_inj (r := r) (r' := .panic) (Prod.mk.inj this).2.symm)
  obtain ⟨hf, h2⟩ := Ext4File.returns_inv (loggedDev_since hv l) hc (Ext4File.closed_true c _) hi.file h0 hp hi.counted
  have hz : (zeros (blockSizeOf (sbOf c))).length = blockSizeOf (sbOf c) := List.length_replicate
  have hstay : ∀ s' : (W × List Asked) × Ext4Directory D, s'.2.current = s.2.current → Lazy l c s' := by
    intro s' hs b hb ⟨e, b', hn⟩
    rw [hs] at hb
    rw [hend b hb] at hn
    cases hn
  rcases h2 with ⟨-, ⟨e, rfl⟩ | ⟨rfl, -⟩⟩ | ⟨hpos, hlt, node, k, j, h3, h4, h5, h6, h7, h8, h9, rfl⟩
  · obtain ⟨rfl, h3⟩ := Prod.mk.inj h1
    exact hstay _ rfl
  · have : (_, Res.ok (some ())) = (s', some <$> r) := h1
    obtain ⟨rfl, h3⟩ := Prod.mk.inj this
    intro b hb
    cases hb
  · have hlt : s.2.internal.blockPos * blockSizeOf (sbOf c) < i.fileSizeBytes := hlt
    obtain ⟨x, hx1, hx2, hx3⟩ := Ext4File.returns_last hv hc hi.file (by omega) h0
    rw [hz] at hx2 hx3 h9 h1
    have hlen : (slice c ((extentStart (nodeEntry node k) + j) * blockSizeOf (sbOf c))
        (blockSizeOf (sbOf c))).length = blockSizeOf (sbOf c) := by
      unfold slice
      rw [List.length_take, List.length_drop]; omega
    have htb := toBlock_eq (seed := i.metadataChecksumSeed) (by omega) hlen
      (min (i.fileSizeBytes - s.2.internal.blockPos * blockSizeOf (sbOf c)) (blockSizeOf (sbOf c)))
    rw [if_neg (by omega)] at htb
    have h1 : afterRead s t (blockSizeOf (sbOf c)) (.ok (some
      (min (i.fileSizeBytes - s.2.internal.blockPos * blockSizeOf (sbOf c)) (blockSizeOf (sbOf c)),
       slice c ((extentStart (nodeEntry node k) + j) * blockSizeOf (sbOf c))
        (blockSizeOf (sbOf c))))) = (s', some <$> r) := h1
    unfold afterRead at h1
    simp only [hin, htb] at h1
    by_cases hs : min (i.fileSizeBytes - s.2.internal.blockPos * blockSizeOf (sbOf c))
        (blockSizeOf (sbOf c)) = blockSizeOf (sbOf c) ∧ BlockSound i.metadataChecksumSeed
          (slice c ((extentStart (nodeEntry node k) + j) * blockSizeOf (sbOf c))
            (blockSizeOf (sbOf c)))
    · rw [if_pos hs] at h1
      obtain ⟨rfl, h10⟩ := Prod.mk.inj h1
      intro b hb _
      cases hb
      exact ⟨x, hx1, hx3⟩
    · rw [if_neg hs] at h1
      obtain ⟨rfl, h10⟩ := Prod.mk.inj h1
      exact hstay _ rfl

/-- The loop. -/
theorem run_lazy (hv : VolumeSpec F dev G Is At) {c : Bytes} (hc : c.length < U64) {i : Inode}
    {s s' : (W × List Asked) × Ext4Directory D} {r : Res (Option DirEntry)} (h : Run (loggedDev dev) s s' r)
    (hi : Inv Is (fun w => G w.1 ∧ l <+: w.2) c (fun _ => True) i s) (hl : Lazy l c s) (hr : r ≠ .panic) :
    Lazy l c s' ∧ ∀ e, r = .ok (some e) → ∃ x es, LastAsked l (blockSizeOf (sbOf c)) x s'.1.2 ∧
      Tiles ((blockOf c (blockSizeOf (sbOf c)) x).take
        (recordsEnd i.metadataChecksumSeed (blockOf c (blockSizeOf (sbOf c)) x))) es ∧ e.storage ∈ es := by
  have same : ∀ {s : (W × List Asked) × Ext4Directory D} {b : DirBlock}, s.2.current = .block b →
      withCurrent s (.block b) = s := by
    intro s b h
    unfold withCurrent
    rw [← h]
  induction h with
  | fin s h => exact ⟨hl, fun e he => (by cases he)⟩
  | entry s b b' e h1 h2 =>
    have hcur := hi.current
    rw [h1] at hcur
    rcases currentOk_next hcur with ⟨e', b'', h3, h4, es, h5, h6⟩ | h3
    · rw [h2] at h3
      cases h3
      obtain ⟨x, hx, hst⟩ := hl b h1 ⟨_, _, h2⟩
      have hst' : b'.storage = b.storage := by
        unfold DirBlock.readNextEntry at h2
        split at h2
        · cases h2
        · rw [← (Prod.mk.inj (Res.ok.inj h2)).2]
      refine ⟨fun b1 hb1 _ => ?_, fun e he => ?_⟩
      · cases hb1
        exact ⟨x, hx, hst'.trans hst⟩
      · cases he
        rw [hst] at h5
        exact ⟨x, es, hx, h5, h6⟩
    · rw [h2] at h3; cases h3
  | bad => exact absurd rfl hr
  | next s s1 s2 b b' r h1 h2 ha _ ih =>
    have hcur := hi.current
    rw [h1] at hcur
    rcases currentOk_next hcur with ⟨e', b'', h3, -⟩ | h3
    · rw [h2] at h3; cases h3
    rw [h2] at h3
    cases h3
    rw [same h1] at ha
    obtain ⟨h6, -⟩ := advances_inv (loggedDev_since hv l) hc (Ext4File.closed_true c _) hi ha (fun h => (by cases h))
    refine ih h6 (advances_lazy hv hc hi ha (fun h => (by cases h)) fun b1 hb1 => ?_) hr
    rw [h1] at hb1
    cases hb1
    exact h2
  | fail s s1 b b' r h1 h2 ha hne =>
    have hcur := hi.current
    rw [h1] at hcur
    rcases currentOk_next hcur with ⟨e', b'', h3, -⟩ | h3
    · rw [h2] at h3; cases h3
    rw [h2] at h3
    cases h3
    rw [same h1] at ha
    have hp : r ≠ .panic := by rintro rfl; exact hr rfl
    refine ⟨advances_lazy hv hc hi ha hp fun b1 hb1 => ?_, fun e he => ?_⟩
    · rw [h1] at hb1
      cases hb1
      exact h2
    · cases r with
      | ok u => exact absurd rfl hne
      | err e => cases he
      | panic => cases he

/-- A call. -/
theorem entryReturns_lazy (hv : VolumeSpec F dev G Is At) {c : Bytes} (hc : c.length < U64) {i : Inode}
    {s s' : (W × List Asked) × Ext4Directory D} {r : Res (Option DirEntry)} (h : EntryReturns (loggedDev dev) s s' r)
    (hi : Inv Is (fun w => G w.1 ∧ l <+: w.2) c (fun _ => True) i s) (hl : Lazy l c s) (hr : r ≠ .panic) :
    Lazy l c s' ∧ ∀ e, r = .ok (some e) → ∃ x es, LastAsked l (blockSizeOf (sbOf c)) x s'.1.2 ∧
      Tiles ((blockOf c (blockSizeOf (sbOf c)) x).take
        (recordsEnd i.metadataChecksumSeed (blockOf c (blockSizeOf (sbOf c)) x))) es ∧ e.storage ∈ es := by
  by_cases hs : s.2.current = .start
  · have hnone : ∀ b, s.2.current = .block b → b.readNextEntry = .ok (none, b) := by
      intro b hb
      rw [hs] at hb
      cases hb
    rcases (entryReturns_start hs).1 h with ⟨s1, h1, h2⟩ | ⟨r0, h1, h2, rfl⟩
    · obtain ⟨h3, -⟩ := advances_inv (loggedDev_since hv l) hc (Ext4File.closed_true c _) hi h1 (fun h => (by cases h))
      exact run_lazy hv hc h2 h3 (advances_lazy hv hc hi h1 (fun h => (by cases h)) hnone) hr
    · have hp : r0 ≠ .panic := by rintro rfl; exact hr rfl
      refine ⟨advances_lazy hv hc hi h1 hp hnone, fun e he => ?_⟩
      cases r0 with
      | ok u => exact absurd rfl h2
      | err e => cases he
      | panic => cases he
  · exact run_lazy hv hc ((entryReturns_other hs).1 h) hi hl hr

/-- Any calls. -/
theorem dirCalls_lazy (hv : VolumeSpec F dev G Is At) {c : Bytes} (hc : c.length < U64) {i : Inode}
    {s s' : (W × List Asked) × Ext4Directory D} {h : List (Res (Option DirEntry))}
    (hcalls : DirCalls (loggedDev dev) s h s') (hi : Inv Is (fun w => G w.1 ∧ l <+: w.2) c (fun _ => True) i s)
    (hl : Lazy l c s) : Lazy l c s' := by
  induction hcalls with
  | nil => exact hl
  | snoc _ _ _ _ h1 h2 h3 ih =>
    exact (entryReturns_lazy hv hc h2 (dirCalls_inv (loggedDev_since hv l) hc (Ext4File.closed_true c _) h1 hi) ih h3).1

end Ext4Directory
end
end MdRecover
