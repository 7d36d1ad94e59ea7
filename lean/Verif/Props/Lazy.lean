import Verif.Lemmas.Lazy
import Verif.Props.Trace

/-! C109: nothing is read ahead. -/

namespace MdRecover
variable [Build]
open MdSpec

section
variable {W D : Type} {F : Prop} {dev : StreamDev W D} {G : W → Prop} {Is : D → Bytes → Prop}
  {At : W → D → Nat → Prop}

/-- C109: a call that returns data has asked for the block of these data last: of the requests made to the device since
the file was opened, for blocks of the tree and of the file in their order (`Asks`, see C104), the last is for the
block that is returned.  Whatever calls were made before, and whether or not they failed. -/
theorem C109_file (hv : VolumeSpec F dev G Is At) (c : Bytes) (hc : c.length < U64) (w : W) (hG : G w)
    (fs : Ext4Fs D) (ho : Opened Is c fs) (inode : Inode) (f : Ext4File D) (hf : Ext4File.open fs inode = .ok f)
    (hw : BlocksCounted c inode.fileSizeBytes)
    (order : List Nat) (horder : ReadOrder c (blockSizeOf (sbOf c)) inode.blocksBuffer 0 order)
    (l : List Asked) (h : List (Bytes × Res (Nat × Bytes))) (s s' : (W × List Asked) × Ext4File D)
    (hcalls : Calls (loggedDev dev) ((w, l), f) h s) (buf out : Bytes) (n : Nat) (hn : n ≠ 0)
    (hret : Returns (loggedDev dev) s buf s' (.ok (n, out))) (m : Nat) (hm : ∀ x ∈ h, x.1.length ≤ m)
    (hb : buf.length ≤ m) :
    ∃ acc front x, s'.1.2 = l ++ acc ∧ Asks (blockSizeOf (sbOf c)) m (front ++ [x]) acc ∧ (front ++ [x]).Sublist order ∧
      ((∀ x ∈ h, x.1.length < blockSizeOf (sbOf c) ∨ ∃ a, x.2 = .ok a) → front ++ [x] <+: order) ∧
      x * blockSizeOf (sbOf c) + buf.length ≤ c.length ∧
      out = slice c (x * blockSizeOf (sbOf c)) buf.length := by
  obtain ⟨hi0, -⟩ := Ext4File.open_inv (G := fun w : W × List Asked => G w.1 ∧ l <+: w.2) (w := (w, l)) ⟨hG, List.prefix_refl _⟩ ho hf
    (fun _ => True) trivial
  obtain ⟨hi, -⟩ := Ext4File.calls_inv (loggedDev_since hv l) hc (Ext4File.closed_true c _) hcalls hi0 hw
  obtain ⟨x, h1, h2, h3⟩ := Ext4File.returns_last hv hc hi hn hret
  have hcalls' : Calls (loggedDev dev) ((w, l), f) (h ++ [(buf, .ok (n, out))]) s' :=
    .snoc _ _ _ _ _ _ hcalls hret (fun h => (by cases h))
  obtain ⟨acc, ys, h4, h5, h6, h7⟩ := C104_requests hv c hc w hG fs ho inode f hf order horder l _ s' hcalls'
    m (fun y hy => by
      rcases List.mem_append.1 hy with hy | hy
      · exact hm y hy
      · cases List.mem_singleton.1 hy
        exact hb)
  have h1' : LastAsked [] (blockSizeOf (sbOf c)) x acc := by
    obtain ⟨front, reads, k1, k2⟩ := h1
    rw [h4] at k1
    exact ⟨front, reads, List.append_cancel_left k1, k2⟩
  have hge : 1024 ≤ blockSizeOf (sbOf c) := Ext4Directory.blockSize_ge c
  obtain ⟨front, rfl⟩ := asks_last (by omega) h5 h1'
  refine ⟨acc, front, x, h4, h5, h6, fun hall => (h7 fun y hy => ?_).1, h2, h3⟩
  rcases List.mem_append.1 hy with hy | hy
  · exact hall y hy
  · cases List.mem_singleton.1 hy
    exact .inr ⟨_, rfl⟩

/-- C109: a call that returns an entry of a directory has asked for the block with this entry last. -/
theorem C109_listing (hv : VolumeSpec F dev G Is At) (c : Bytes) (hc : c.length < U64) (w : W) (hG : G w)
    (fs : Ext4Fs D) (ho : Opened Is c fs) (inode : Inode) (d : Ext4Directory D)
    (hd : Ext4Directory.open fs inode = .ok d) (hw : BlocksCounted c inode.fileSizeBytes)
    (order : List Nat) (horder : ReadOrder c (blockSizeOf (sbOf c)) inode.blocksBuffer 0 order)
    (l : List Asked) (h : List (Res (Option DirEntry))) (s s' : (W × List Asked) × Ext4Directory D)
    (hcalls : DirCalls (loggedDev dev) ((w, l), d) h s) (e : DirEntry)
    (hret : EntryReturns (loggedDev dev) s s' (.ok (some e))) :
    ∃ acc front x es, s'.1.2 = l ++ acc ∧ Asks (blockSizeOf (sbOf c)) (blockSizeOf (sbOf c)) (front ++ [x]) acc ∧
      (front ++ [x]).Sublist order ∧ ((∀ r ∈ h, ∃ a, r = .ok a) → front ++ [x] <+: order) ∧
      Tiles ((blockOf c (blockSizeOf (sbOf c)) x).take
        (recordsEnd inode.metadataChecksumSeed (blockOf c (blockSizeOf (sbOf c)) x))) es ∧ e.storage ∈ es := by
  obtain ⟨hi0, hst, -⟩ := Ext4Directory.open_inv (G := fun w : W × List Asked => G w.1 ∧ l <+: w.2) (w := (w, l)) ⟨hG, List.prefix_refl _⟩ ho hd
    (fun _ => True) trivial hw
  have hi := Ext4Directory.dirCalls_inv (loggedDev_since hv l) hc (Ext4File.closed_true c _) hcalls hi0
  have hl := Ext4Directory.dirCalls_lazy hv hc hcalls hi0 (fun b hb => by rw [hst] at hb; cases hb)
  obtain ⟨-, h0⟩ := Ext4Directory.entryReturns_lazy hv hc hret hi hl (fun h => (by cases h))
  obtain ⟨x, es, h1, h2, h3⟩ := h0 e rfl
  have hcalls' : DirCalls (loggedDev dev) ((w, l), d) (h ++ [.ok (some e)]) s' :=
    .snoc _ _ _ _ _ hcalls hret (fun h => (by cases h))
  obtain ⟨acc, ys, h4, h5, h6, h7⟩ := C104_listing hv c hc w hG fs ho inode d hd hw order horder l _ s' hcalls'
  have h1' : LastAsked [] (blockSizeOf (sbOf c)) x acc := by
    obtain ⟨front, reads, k1, k2⟩ := h1
    rw [h4] at k1
    exact ⟨front, reads, List.append_cancel_left k1, k2⟩
  have hge : 1024 ≤ blockSizeOf (sbOf c) := Ext4Directory.blockSize_ge c
  obtain ⟨front, rfl⟩ := asks_last (by omega) h5 h1'
  refine ⟨acc, front, x, es, h4, h5, h6, fun hall => (h7 fun y hy => ?_).1, h2, h3⟩
  rcases List.mem_append.1 hy with hy | hy
  · exact hall y hy
  · cases List.mem_singleton.1 hy
    exact ⟨_, rfl⟩

end

open Fixture

omit [Build] in
set_option maxRecDepth 100000 in
theorem small_blocks_differ : slice smallFs (6 * 1024) 1024 ≠ slice smallFs 8192 1024 ∧
    slice smallFs (9 * 1024) 1024 ≠ slice smallFs 8192 1024 ∧
    slice smallFs (10 * 1024) 1024 ≠ slice smallFs 8192 1024 := by
  decide +kernel

/-- Case for C109: the first read of the file of inode 3, through a file-backed device that does not fail.  It returns
block 8, and has asked for the block of the tree at 6144 and the block at 8192; not yet for the next ones, at 9216 and
10240. -/
theorem C109_case (fs : Ext4Fs FileDev) (ho : Opened (fun d c => d.content = c) smallFs fs) (K : Kernel)
    (hK : FileDev.NoFailures K) : ∃ (f : Ext4File FileDev) (s : (Kernel × List Asked) × Ext4File FileDev),
    Ext4File.open fs (inodeOf smallFs 3) = .ok f ∧
    Returns (loggedDev FileDev.streamDev) ((K, []), f) (zeros 1024) s (.ok (1024, slice smallFs 8192 1024)) ∧
    ∃ r1 r2 : List Asked, s.1.2 = [.seek (.start 6144)] ++ r1 ++ [.seek (.start 8192)] ++ r2 ∧
      ∀ a ∈ r1 ++ r2, ∃ k n, a = .read k n := by
  have hlen := smallFs_length
  have hbs := smallFs_like.blockSize
  have hsz := tree_values.1.2.2.2.2.2
  have hz : (zeros 1024).length = 1024 := List.length_replicate
  obtain ⟨f, hf⟩ : ∃ f, Ext4File.open fs (inodeOf smallFs 3) = .ok f := by
    unfold Ext4File.open ExtentTree.fromInode
    rw [if_pos (has_extents 3 (by omega) (by omega))]
    exact ⟨_, rfl⟩
  obtain ⟨hi, hp, -, hst⟩ := Ext4File.open_inv (G := fun w : Kernel × List Asked => FileDev.NoFailures w.1)
    (w := (K, [])) hK ho hf (fun _ => True) trivial
  have hpen : Ext4File.Pending smallFs (blockSizeOf (sbOf smallFs)) f.stack 0 [8, 9, 10] := by
    rw [hst, ← List.append_nil [8, 9, 10], hbs]
    exact .tree _ _ _ _ _ _ contiguous3.1 (.nil _)
  obtain ⟨s, h1⟩ := Ext4File.calls_expected (loggedDev_spec FileDev.volumeSpec_reliable) (by omega) [zeros 1024] 0
    [8, 9, 10] ((K, []), f) (fun buf hb => by
      rw [List.mem_singleton.1 hb, hbs, hz, hlen]
      decide) hi hp hpen (by rw [hbs, hsz]; decide) (fun _ => by rw [hbs, hsz]; decide) (by decide)
  have h1 : Calls (loggedDev FileDev.streamDev) ((K, []), f) ([] ++ [(zeros 1024, .ok (1024, slice smallFs 8192 1024))]) s := by
    rw [hbs, hsz] at h1
    unfold Ext4File.expected at h1
    rw [hz] at h1
    exact h1
  have h2 : Returns (loggedDev FileDev.streamDev) ((K, []), f) (zeros 1024) s (.ok (1024, slice smallFs 8192 1024)) := by
    generalize hs0 : ((K, ([] : List Asked)), f) = s0 at h1 ⊢
    generalize hh : ([] ++ [(zeros 1024, Res.ok (1024, slice smallFs 8192 1024))] : List (Bytes × Res (Nat × Bytes))) = h at h1
    cases h1 with
    | nil => cases hh
    | snoc s1 _ h _ _ h3 h4 _ =>
      obtain ⟨rfl, h5⟩ := List.append_inj' hh rfl
      cases h5
      generalize hh2 : ([] : List (Bytes × Res (Nat × Bytes))) = h at h3
      cases h3 with
      | nil => exact h4
      | snoc => exact absurd hh2 (by simp)
  obtain ⟨acc, front, x, a1, a2, -, a3, -, a4⟩ := C109_file FileDev.volumeSpec_reliable smallFs (by omega) K hK fs ho _ f
    hf (.inr (by rw [hsz, hbs]; decide)) [6, 8, 9, 10] (by rw [hbs]; exact order3) [] [] _ s (.nil _) _ _ _ (by decide) h2 1024
    (fun x hx => by cases hx) (Nat.le_of_eq hz)
  obtain ⟨n1, n2, n3⟩ := small_blocks_differ
  rw [hbs] at a2 a4
  rw [hz] at a4
  have a3 := a3 (fun x hx => by cases hx)
  refine ⟨f, s, hf, h2, ?_⟩
  rw [a1, List.nil_append]
  have hx : front ++ [x] = [6, 8] := by
    obtain ⟨todo, h⟩ := a3
    match front, h with
    | [], h =>
      cases h
      exact absurd a4.symm n1
    | [y], h =>
      cases h
      rfl
    | [y, z], h =>
      cases h
      exact absurd a4.symm n2
    | [y, z, u], h =>
      cases h
      exact absurd a4.symm n3
    | y :: z :: u :: v :: rest, h =>
      have := congrArg List.length h
      simp at this
  rw [hx] at a2
  cases a2 with
  | cons _ _ r1 _ p1 _ a2 =>
  cases a2 with
  | cons _ _ r2 _ p2 _ a2 =>
  cases a2
  refine ⟨r1, r2, by simp, fun a ha => ?_⟩
  rcases List.mem_append.1 ha with ha | ha
  · obtain ⟨k, n, h, -⟩ := p1 a ha
    exact ⟨k, n, h⟩
  · obtain ⟨k, n, h, -⟩ := p2 a ha
    exact ⟨k, n, h⟩

end MdRecover
