import Verif.Lemmas.Trace
import Verif.Props.ListRetry

/-! C104: what the device is asked for when a file is read. -/

namespace MdRecover
variable [Build]
open MdSpec

section
variable {W D : Type} {F : Prop} {dev : StreamDev W D} {G : W → Prop} {Is : D → Bytes → Prop}
  {At : W → D → Nat → Prop}

/-- C104: whatever calls were made on an open file, and however many of them failed, the requests made to the
device are, for blocks of the tree or of the file that come after one another in the order in which the tree lists
them, one seek to the block and reads that return no more than a buffer (`Asks`): no other place of the volume is
asked for, and no block twice.  As long as no call failed, no block is left out; and once a call returned 0, all
have been asked for.  This holds for every tree, well-formed or not. -/
theorem C104_requests (hv : VolumeSpec F dev G Is At) (c : Bytes) (hc : c.length < U64) (w : W) (hG : G w)
    (fs : Ext4Fs D) (ho : Opened Is c fs) (inode : Inode) (f : Ext4File D) (hf : Ext4File.open fs inode = .ok f)
    (order : List Nat) (horder : ReadOrder c (blockSizeOf (sbOf c)) inode.blocksBuffer 0 order)
    (l : List Asked) (h : List (Bytes × Res (Nat × Bytes))) (s : (W × List Asked) × Ext4File D)
    (hcalls : Calls (loggedDev dev) ((w, l), f) h s) (m : Nat) (hm : ∀ x ∈ h, x.1.length ≤ m) :
    ∃ acc ys, s.1.2 = l ++ acc ∧ Asks (blockSizeOf (sbOf c)) m ys acc ∧ ys.Sublist order ∧
      ((∀ x ∈ h, x.1.length < blockSizeOf (sbOf c) ∨ ∃ a, x.2 = .ok a) → ys <+: order ∧
        ((∃ buf out, (buf, Res.ok (0, out)) ∈ h) → ys = order)) := by
  obtain ⟨hi0, -, -, hst⟩ := Ext4File.open_inv (w := w) hG ho hf (fun _ => True) trivial
  have ha : Ext4File.Ahead Is G c order ((w, l), f) := by
    refine ⟨hG, hi0.opened, ?_⟩
    show Ext4File.Left _ _ f.stack _
    rw [hst, ← List.append_nil order]
    exact .tree _ _ _ _ _ horder .nil
  suffices hmain : ∃ acc ys todo, s.1.2 = l ++ acc ∧ Asks (blockSizeOf (sbOf c)) m ys acc ∧
      Ext4File.Ahead Is G c todo s ∧ (ys ++ todo).Sublist order ∧
      ((∀ x ∈ h, x.1.length < blockSizeOf (sbOf c) ∨ ∃ a, x.2 = .ok a) → ys ++ todo = order ∧
        ((∃ buf out, (buf, Res.ok (0, out)) ∈ h) → todo = [])) by
    obtain ⟨acc, ys, todo, h1, h2, -, h3, h4⟩ := hmain
    refine ⟨acc, ys, h1, h2, (List.sublist_append_left _ _).trans h3, fun h5 => ?_⟩
    obtain ⟨h6, h7⟩ := h4 h5
    refine ⟨⟨todo, h6⟩, fun h8 => ?_⟩
    rw [h7 h8, List.append_nil] at h6
    exact h6
  generalize hs0 : ((w, l), f) = s0 at hcalls
  induction hcalls with
  | nil =>
    subst hs0
    exact ⟨[], [], order, (List.append_nil _).symm, .nil, ha, List.Sublist.refl _,
      fun _ => ⟨rfl, fun ⟨_, _, h⟩ => by cases h⟩⟩
  | snoc s s' h buf r _ hret hr ih =>
    subst hs0
    obtain ⟨acc, ys, todo, h1, h2, h3, h4, h5⟩ := ih (fun x hx => hm x (List.mem_append_left _ hx))
    obtain ⟨acc', ys', todo', h6, h7, h8, h9, h10, h11⟩ := Ext4File.ahead_returns hv hc h3 hret hr
    have hmb := hm _ (List.mem_append_right _ (List.mem_singleton.2 rfl))
    refine ⟨acc ++ acc', ys ++ ys', todo', ?_, asks_append h2 (h7.mono hmb), h8, ?_, fun hall => ?_⟩
    · rw [h6, h1, List.append_assoc]
    · rw [List.append_assoc]
      exact (h9.append_left ys).trans h4
    · obtain ⟨h12, h13⟩ := h5 (fun x hx => hall x (List.mem_append_left _ hx))
      have h14 := h10 (hall _ (List.mem_append_right _ (List.mem_singleton.2 rfl)))
      refine ⟨by rw [List.append_assoc, h14, h12], ?_⟩
      rintro ⟨b, o, hbo⟩
      rcases List.mem_append.1 hbo with hbo | hbo
      · have := h13 ⟨b, o, hbo⟩
        subst this
        exact (List.append_eq_nil_iff.1 (List.sublist_nil.1 h9)).2
      · obtain ⟨-, h0⟩ := Prod.mk.inj (List.mem_singleton.1 hbo)
        exact h11 o h0.symm

omit [Build] in
/-- The blocks of a file whose tree has no gaps come in this order, each after the blocks of the tree that lead to
it. -/
theorem C104_order {c : Bytes} {bs : Nat} {node : Bytes} {i p : Nat} {xs : List Nat}
    (h : Contiguous c bs node i p xs) : ∃ order, ReadOrder c bs node i order ∧ xs.Sublist order := by
  induction h with
  | done node p => exact ⟨[], .done node, List.Sublist.refl _⟩
  | extent node i p xs hd hi hf hp hl _ ih =>
    obtain ⟨order, h1, h2⟩ := ih
    exact ⟨_, .extent node i order hd hi (by omega) h1, h2.append_left _⟩
  | index node i p sub xs hd hi hf hp hin _ _ ihs ih =>
    obtain ⟨o1, h1, h2⟩ := ihs
    obtain ⟨o2, h3, h4⟩ := ih
    exact ⟨_, .index node i o1 o2 hd hi h1 h3, ((h2.append h4).cons _)⟩

omit [Build] in
/-- There is only one such order. -/
theorem C104_order_unique {c : Bytes} {bs : Nat} {node : Bytes} {i : Nat} {o1 : List Nat}
    (h : ReadOrder c bs node i o1) : ∀ o2, ReadOrder c bs node i o2 → o1 = o2 := by
  induction h with
  | done node =>
    intro o2 h2
    generalize hj : nodeEntries node = j at h2
    cases h2 with
    | done => rfl
    | extent => omega
    | index => omega
  | extent node i xs hd hi hm _ ih =>
    intro o2 h2
    cases h2 with
    | done => omega
    | extent _ _ xs' _ _ _ h3 => rw [ih _ h3]
    | index _ _ _ _ hd' => exact absurd hd hd'
  | index node i sub xs hd hi _ _ ihs ih =>
    intro o2 h2
    cases h2 with
    | done => omega
    | extent _ _ _ hd' => exact absurd hd' hd
    | index _ _ sub' xs' _ _ h3 h4 => rw [ihs _ h3, ih _ h4]

/-- After a call has failed, later calls on the same open file ask the device for nothing.  (All nodes of the tree
have entries, and all extents have blocks, as the kernel writes them.) -/
theorem C104_stop (hv : VolumeSpec F dev G Is At) (c : Bytes) (hc : c.length < U64) (w : W) (hG : G w)
    (fs : Ext4Fs D) (ho : Opened Is c fs) (inode : Inode) (f : Ext4File D) (hf : Ext4File.open fs inode = .ok f)
    (xs : List Nat) (hx : Contiguous c (blockSizeOf (sbOf c)) inode.blocksBuffer 0 0 xs)
    (hfull : EntriesFull c (blockSizeOf (sbOf c)) inode.blocksBuffer)
    (hsize : inode.fileSizeBytes ≤ xs.length * blockSizeOf (sbOf c))
    (hlast : xs.length * blockSizeOf (sbOf c) < inode.fileSizeBytes + blockSizeOf (sbOf c))
    (h32 : xs.length < U32) (l : List Asked) (h : List (Bytes × Res (Nat × Bytes)))
    (s s' : (W × List Asked) × Ext4File D) (hcalls : Calls (loggedDev dev) ((w, l), f) h s)
    (hfail : ∃ buf e, (buf, Res.err e) ∈ h ∧ blockSizeOf (sbOf c) ≤ buf.length) (buf : Bytes) (r : Res (Nat × Bytes))
    (hret : Returns (loggedDev dev) s buf s' r) : s'.1.2 = s.1.2 := by
  obtain ⟨hi0, hp0, -, hs0⟩ := Ext4File.open_inv (w := ((w, l) : W × List Asked))
    (G := fun w => G w.1) hG ho hf (TreeNode c (blockSizeOf (sbOf c)) inode.blocksBuffer) .root
  have hal : Ext4File.Alive Is (fun w : W × List Asked => G w.1) c inode.blocksBuffer inode xs.length ((w, l), f) := by
    refine ⟨hi0, xs, ?_, ?_⟩
    · show Ext4File.Pending _ _ f.stack f.blockPos _
      rw [hs0, hp0, ← List.append_nil xs]
      exact .tree _ _ _ _ _ _ hx (.nil _)
    · show f.blockPos + _ = _
      omega
  have hlast' : ∀ p, p < xs.length → p * blockSizeOf (sbOf c) < inode.fileSizeBytes := by
    intro p hp
    have : (p + 1) * blockSizeOf (sbOf c) ≤ xs.length * blockSizeOf (sbOf c) := Nat.mul_le_mul_right _ (by omega)
    rw [Nat.add_mul] at this
    omega
  rcases Ext4File.alive_calls (loggedDev_spec hv) hc hfull hsize hlast' h32 hcalls hal with ⟨-, hall⟩ | ⟨hd, -⟩
  · obtain ⟨b, e, h1, h2⟩ := hfail
    rcases hall _ h1 with h3 | ⟨a, h3⟩
    · exact absurd h2 (Nat.not_le.2 h3)
    · cases h3
  · exact congrArg Prod.snd (Ext4File.dead_returns_log hd hret)

/-- C104 for directories: listing a directory asks for the blocks of the directory and its tree in the same way, each
once.  As long as no call returned an error, none is left out; and once a call returned `None`, all have been asked
for. -/
theorem C104_listing (hv : VolumeSpec F dev G Is At) (c : Bytes) (hc : c.length < U64) (w : W) (hG : G w)
    (fs : Ext4Fs D) (ho : Opened Is c fs) (inode : Inode) (d : Ext4Directory D)
    (hd : Ext4Directory.open fs inode = .ok d) (hw : BlocksCounted c inode.fileSizeBytes)
    (order : List Nat) (horder : ReadOrder c (blockSizeOf (sbOf c)) inode.blocksBuffer 0 order)
    (l : List Asked) (h : List (Res (Option DirEntry))) (s : (W × List Asked) × Ext4Directory D)
    (hcalls : DirCalls (loggedDev dev) ((w, l), d) h s) :
    ∃ acc ys, s.1.2 = l ++ acc ∧ Asks (blockSizeOf (sbOf c)) (blockSizeOf (sbOf c)) ys acc ∧ ys.Sublist order ∧
      ((∀ r ∈ h, ∃ a, r = .ok a) → ys <+: order ∧ (.ok none ∈ h → ys = order)) := by
  have hz : (zeros (blockSizeOf (sbOf c))).length = blockSizeOf (sbOf c) := List.length_replicate
  obtain ⟨hi, h1, -⟩ := Ext4Directory.open_inv (w := ((w, l) : W × List Asked)) (G := fun w => G w.1) hG ho hd
    (fun _ => True) trivial hw
  have hf : Ext4File.open fs inode = .ok d.internal := by
    unfold Ext4Directory.open at hd
    split at hd
    · cases hd
    · rcases hf : Ext4File.open fs inode with f | e | _
      · rw [hf] at hd; cases hd; rfl
      · rw [hf] at hd; cases hd
      · rw [hf] at hd; cases hd
  obtain ⟨g, rss, todo, k, g1, g2, g3, g4, g5⟩ := Ext4Directory.follows_calls (loggedDev_spec hv) hc hcalls hi h1
  obtain ⟨acc, ys, a1, a2, a3, a4⟩ := C104_requests hv c hc w hG fs ho inode _ hf order horder l g _ g1
    (blockSizeOf (sbOf c)) (fun x hx => by rw [g2 x hx, hz])
  refine ⟨acc, ys, a1, a2, a3, fun hall => ?_⟩
  have hgood : ∀ x ∈ g, x.1.length < blockSizeOf (sbOf c) ∨ ∃ a, x.2 = .ok a := by
    intro x hx
    right
    obtain ⟨rs, hrs, hr⟩ : ∃ rs ∈ rss, ReadResults inode.metadataChecksumSeed (blockSizeOf (sbOf c)) x.2 rs := by
      clear g1 g2 g4 g5 a4
      induction g3 with
      | nil => cases hx
      | cons h2 _ ih =>
        rcases List.mem_cons.1 hx with rfl | hx
        · exact ⟨_, List.mem_cons_self, h2⟩
        · obtain ⟨rs, h3, h4⟩ := ih hx
          exact ⟨rs, List.mem_cons_of_mem _ h3, h4⟩
    match hx2 : x.2 with
    | .ok a => exact ⟨a, rfl⟩
    | .panic => rw [hx2] at hr; exact hr.elim
    | .err e =>
      rw [hx2] at hr
      have hr : rs = [.err e] := hr
      have hmem : (Res.err e : Res (Option DirEntry)) ∈ h ++ (todo.map fun e => .ok (some ⟨e⟩)) := by
        rw [g4]
        exact List.mem_append_left _ (List.mem_flatten.2 ⟨rs, hrs, by rw [hr]; exact List.mem_singleton.2 rfl⟩)
      rcases List.mem_append.1 hmem with h2 | h2
      · obtain ⟨a, h3⟩ := hall _ h2
        cases h3
      · obtain ⟨b, -, h3⟩ := List.mem_map.1 h2
        cases h3
  obtain ⟨b1, b2⟩ := a4 hgood
  refine ⟨b1, fun hnone => b2 ?_⟩
  rcases g5 with ⟨-, -, g', x, rfl, ⟨b, hb⟩, -⟩ | ⟨rfl, -, -⟩
  · exact ⟨x.1, b, List.mem_append_right _ (List.mem_singleton.2 (by rw [← hb]))⟩
  · exfalso
    have hmem : (Res.ok none : Res (Option DirEntry)) ∈ rss.flatten := by
      rw [List.replicate_zero, List.append_nil] at g4
      rw [← g4]
      exact List.mem_append_left _ hnone
    clear g1 g2 g4 a4 b2
    induction g3 with
    | nil => cases hmem
    | @cons x rs _ _ h2 _ ih =>
      rw [List.flatten_cons] at hmem
      rcases List.mem_append.1 hmem with h3 | h3
      · unfold ReadResults at h2
        split at h2
        · rcases h2 with ⟨-, rfl⟩ | ⟨-, -, h2⟩ | ⟨-, -, rfl⟩
          · cases h3
          · rcases h2 with ⟨-, es, -, rfl⟩ | ⟨-, rfl⟩
            · obtain ⟨e, -, h⟩ := List.mem_map.1 h3
              cases h
            · cases List.mem_singleton.1 h3
          · cases List.mem_singleton.1 h3
        · subst h2
          cases List.mem_singleton.1 h3
        · exact h2
      · exact ih (fun x hx => hgood x (List.mem_cons_of_mem _ hx)) h3

/-- C104 for inodes: reading an inode asks for nothing, and then fails, or for the bytes of that inode alone. -/
theorem C104_inode (hv : VolumeSpec F dev G Is At) (c : Bytes) (w : W) (hG : G w) (fs : Ext4Fs D)
    (ho : Opened Is c fs) (number : Nat) (l : List Asked) (s : (W × List Asked) × Ext4Fs D) (r : Res Inode)
    (h : Ext4Fs.readInode (loggedDev dev) number ((w, l), fs) = (s, r)) :
    (s.1.2 = l ∧ ∃ e, r = .err e) ∨
      ∃ reads, s.1.2 = l ++ .seek (.start (inodeSlot c number)) :: reads ∧
        (∀ a ∈ reads, ∃ k n, a = .read k n ∧ k ≤ le (sbOf c) 0x58 2) ∧ bytesReturned reads ≤ le (sbOf c) 0x58 2 := by
  unfold Ext4Fs.readInode at h
  rw [SM.bind_ok (h := SM.get_apply _)] at h
  simp only at h
  rw [Ext4Fs.inodeOffset_spec ho] at h
  split at h
  · cases h
    exact .inl ⟨rfl, _, rfl⟩
  split at h
  · cases h
    exact .inl ⟨rfl, _, rfl⟩
  split at h
  rotate_left
  · cases h
    exact .inl ⟨rfl, _, rfl⟩
  rename_i hslot
  right
  rw [SM.bind_ok (a := inodeSlot c number) (s' := ((w, l), fs)) (h := rfl)] at h
  rcases hx : dev.seek (.start (inodeSlot c number)) (w, fs.device) with ⟨⟨w1, d1⟩, r1⟩
  have hon : Ext4Fs.onDevice ((loggedDev dev).seek (.start (inodeSlot c number))) ((w, l), fs) =
      (((w1, l ++ [.seek (.start (inodeSlot c number))]), { fs with device := d1 }), r1) := by
    unfold Ext4Fs.onDevice SM.zoom
    rw [logged_seek l hx]
  obtain ⟨hG1, hd1, h1⟩ := hv.seek hG ho.device _ hslot hx
  rcases h1 with ⟨q, rfl, hat, -⟩ | ⟨-, e, rfl⟩
  rotate_left
  · rw [SM.bind_err (h := hon)] at h
    cases h
    exact ⟨[], rfl, fun a ha => (by cases ha), Nat.zero_le _⟩
  rw [SM.bind_ok (h := hon)] at h
  have hz : (zeros fs.superblock.inodeSize).length = le (sbOf c) 0x58 2 := by
    rw [← ho.inodeSize]
    exact List.length_replicate
  rcases hrd : readExactLoop (loggedDev dev).read (zeros fs.superblock.inodeSize).length
    (zeros fs.superblock.inodeSize)
    ((w1, l ++ [.seek (.start (inodeSlot c number))]), d1) with ⟨s2, r2⟩
  obtain ⟨reads, h2, h3, h4⟩ := readExact_log hv _ _ _ _ _ _ _ _ hG1 hd1 hat hrd
  rw [hz] at h3 h4
  have hon2 : Ext4Fs.onDevice (readExact (loggedDev dev).read (zeros fs.superblock.inodeSize))
      ((w1, l ++ [.seek (.start (inodeSlot c number))]), { fs with device := d1 }) =
      ((s2.1, { fs with device := s2.2 }), r2) := by
    unfold Ext4Fs.onDevice SM.zoom readExact
    rw [hrd]
  have hs : s.1 = s2.1 := by
    rcases r2 with a | e | _
    · rw [SM.bind_ok (h := hon2)] at h
      rw [SM.lift_apply] at h
      cases h
      rfl
    · rw [SM.bind_err (h := hon2)] at h
      cases h
      rfl
    · rw [SM.bind_panic (h := hon2)] at h
      cases h
      rfl
  refine ⟨reads, ?_, h3, h4⟩
  rw [hs, h2, List.append_assoc]
  rfl

end

/-! ## A case -/

open Fixture

omit [Build] in
/-- Reading the file of inode 3 comes to block 6, a node of its tree, and then to 8, 9 and 10. -/
theorem order3 : ReadOrder smallFs 1024 (root smallFs 3) 0 [6, 8, 9, 10] := by
  obtain ⟨⟨a1, a2, a3, a4, a5, -⟩, ⟨b1, b2, b3, b4, b5, b6, b7, b8, b9⟩, -⟩ := tree_values
  have hl1 := extentLen_of b5 (by omega)
  have hl2 := extentLen_of b8 (by omega)
  have h6 : ReadOrder smallFs 1024 (blockOf smallFs 1024 6) 2 [] := by
    have := ReadOrder.done (c := smallFs) (bs := 1024) (blockOf smallFs 1024 6)
    rwa [b2] at this
  have h7 := ReadOrder.extent (c := smallFs) (bs := 1024) _ 1 [] b1 (by omega) (by omega) h6
  rw [hl2, b9] at h7
  have h8 := ReadOrder.extent (c := smallFs) (bs := 1024) _ 0 _ b1 (by omega) (by omega) h7
  rw [hl1, b6] at h8
  have h1 : ReadOrder smallFs 1024 (root smallFs 3) 1 [] := by
    have := ReadOrder.done (c := smallFs) (bs := 1024) (root smallFs 3)
    rwa [a2] at this
  have h2 := ReadOrder.index (c := smallFs) (bs := 1024) (root smallFs 3) 0 [8, 9, 10] []
    (by omega) (by omega) (by rw [a5]; exact h8) h1
  rw [a5] at h2
  exact h2

/-- Case for C104: the file of inode 3 read to its end through a file-backed device that does not fail, a block at a
time.  All requests are a seek to 6144, 8192, 9216 and 10240, and reads that return at most 1024 bytes after each. -/
theorem C104_case (fs : Ext4Fs FileDev) (ho : Opened (fun d c => d.content = c) smallFs fs) (K : Kernel)
    (hK : FileDev.NoFailures K) : ∃ (f : Ext4File FileDev) (h : List (Bytes × Res (Nat × Bytes)))
      (s : (Kernel × List Asked) × Ext4File FileDev),
    Ext4File.open fs (inodeOf smallFs 3) = .ok f ∧ Calls (loggedDev FileDev.streamDev) ((K, []), f) h s ∧
    dataOf h = (smallFs.drop 8192).take 2500 ∧ ∃ r1 r2 r3 r4 : List Asked,
      s.1.2 = [.seek (.start 6144)] ++ r1 ++ [.seek (.start 8192)] ++ r2 ++ [.seek (.start 9216)] ++ r3 ++
        [.seek (.start 10240)] ++ r4 ∧
      ∀ r, (r = r1 ∨ r = r2 ∨ r = r3 ∨ r = r4) → (∀ a ∈ r, ∃ k n, a = .read k n ∧ k ≤ 1024) ∧ bytesReturned r ≤ 1024 := by
  have hlen := smallFs_length
  have hbs := smallFs_like.blockSize
  have hsz := tree_values.1.2.2.2.2.2
  have hz : (zeros 1024).length = 1024 := List.length_replicate
  obtain ⟨f, hf⟩ : ∃ f, Ext4File.open fs (inodeOf smallFs 3) = .ok f := by
    unfold Ext4File.open ExtentTree.fromInode
    rw [if_pos (has_extents 3 (by omega) (by omega))]
    exact ⟨_, rfl⟩
  obtain ⟨h, s, hcalls, hfst, hdata, hget, hend⟩ := C63_content_partial (loggedDev_spec FileDev.volumeSpec_reliable)
    smallFs (by omega) (K, []) hK fs ho _ f hf [8, 9, 10] (by rw [hbs]; exact contiguous3.1)
    (by rw [hbs, hsz]; decide) (fun _ => by rw [hbs, hsz]; decide) (by decide) (List.replicate 4 (zeros 1024))
    (by rw [List.length_replicate]; decide)
    (fun buf hb => by
      rw [List.eq_of_mem_replicate hb, hbs, hz, hlen]
      decide)
  have hfst' : ∀ x ∈ h, x.1 = zeros 1024 := by
    intro x hx
    exact List.eq_of_mem_replicate (hfst ▸ List.mem_map_of_mem hx)
  have hall : ∀ x ∈ h, x.1.length < blockSizeOf (sbOf smallFs) ∨ ∃ a, x.2 = .ok a := by
    intro x hx
    right
    obtain ⟨k, hk⟩ := List.mem_iff_getElem?.1 hx
    have hkl : k < h.length := (List.getElem?_eq_some_iff.1 hk).1
    have hl4 : h.length = 4 := by
      rw [← List.length_map (f := Prod.fst), hfst, List.length_replicate]
    have hbk : (List.replicate 4 (zeros 1024))[k]? = some (zeros 1024) := by
      rw [List.getElem?_replicate, if_pos (by omega)]
    by_cases hlt : k < [8, 9, 10].length
    · have := hget k [8, 9, 10][k] _ (List.getElem?_eq_getElem hlt) hbk
      rw [hk] at this
      cases this
      exact ⟨_, rfl⟩
    · have := hend k _ (Nat.le_of_not_lt hlt) hbk
      rw [hk] at this
      cases this
      exact ⟨_, rfl⟩
  have h3 := hend 3 (zeros 1024) (by decide) (by rw [List.getElem?_replicate, if_pos (by omega)])
  obtain ⟨acc, ys, h4, h5, -, h6⟩ := C104_requests FileDev.volumeSpec_reliable smallFs (by omega) K hK fs ho _ f hf
    [6, 8, 9, 10] (by rw [hbs]; exact order3) [] h s hcalls 1024 (fun x hx => by rw [hfst' x hx, hz])
  obtain rfl := (h6 hall).2 ⟨_, _, List.mem_of_getElem? h3⟩
  refine ⟨f, h, s, hf, hcalls, by rw [hdata, hbs, hsz, small_content], ?_⟩
  rw [h4, hbs] at *
  cases h5 with
  | cons _ _ r1 _ p1 q1 h5 =>
  cases h5 with
  | cons _ _ r2 _ p2 q2 h5 =>
  cases h5 with
  | cons _ _ r3 _ p3 q3 h5 =>
  cases h5 with
  | cons _ _ r4 _ p4 q4 h5 =>
  cases h5
  refine ⟨r1, r2, r3, r4, by simp, ?_⟩
  rintro r (rfl | rfl | rfl | rfl)
  · exact ⟨p1, q1⟩
  · exact ⟨p2, q2⟩
  · exact ⟨p3, q3⟩
  · exact ⟨p4, q4⟩

omit [Build] in
theorem order2 : ReadOrder smallFs 1024 (root smallFs 2) 0 [5] := by
  obtain ⟨-, -, h1, h2, h3, h4, h5, h6⟩ := root_tree
  have hl := extentLen_of h5 (by omega)
  have c1 : ReadOrder smallFs 1024 (root smallFs 2) 1 [] := by
    have := ReadOrder.done (c := smallFs) (bs := 1024) (root smallFs 2)
    rwa [h2] at this
  have c2 := ReadOrder.extent (c := smallFs) (bs := 1024) _ 0 [] h1 (by omega) (by omega) c1
  rw [hl, h6] at c2
  exact c2

/-- Case for `C104_listing`: the root directory of the hand-made filesystem, one block long, read through a
file-backed device with any short reads and failures. -/
theorem C104_listing_case (fs : Ext4Fs FileDev) (ho : Opened (fun d c => d.content = c) smallFs fs)
    (d : Ext4Directory FileDev) (hd : Ext4Directory.open fs (inodeOf smallFs 2) = .ok d) (K : Kernel)
    (h : List (Res (Option DirEntry))) (s : (Kernel × List Asked) × Ext4Directory FileDev)
    (hcalls : DirCalls (loggedDev FileDev.streamDev) ((K, []), d) h s) :
    s.1.2 = [] ∨ ∃ reads, s.1.2 = .seek (.start 5120) :: reads ∧
      (∀ a ∈ reads, ∃ k n, a = .read k n ∧ k ≤ 1024) ∧ bytesReturned reads ≤ 1024 := by
  have hlen := smallFs_length
  have hbs := smallFs_like.blockSize
  obtain ⟨t1, t2, -⟩ := root_tree
  obtain ⟨acc, ys, h1, h2, h3, -⟩ := C104_listing FileDev.volumeSpec_honest smallFs (by omega) K trivial fs ho _ d hd
    (.inr (by rw [hbs, t2]; decide)) [5] (by rw [hbs]; exact order2) [] h s hcalls
  rw [hbs] at h2
  rw [h1, List.nil_append]
  rcases List.sublist_singleton.1 h3 with rfl | rfl
  · cases h2
    exact .inl rfl
  · cases h2 with
    | cons _ _ reads _ p q h2 =>
    cases h2
    exact .inr ⟨reads, by rw [List.append_nil], p, q⟩

end MdRecover
