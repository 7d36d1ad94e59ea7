import Verif.Props.Ext4File

/- Concrete cases for C63-C68: files of the hand-made filesystem and of damaged copies of it. -/

namespace MdRecover
open MdSpec

namespace Fixture

/-- The hand-made filesystem with the extent of inode 5 changed to the longest there is. -/
@[irreducible] def longestFs : Bytes := patch smallFs (3072 + 4 * 256 + 0x28 + 12 + 4) [0, 128]
/-- The hand-made filesystem without the magic number in the leaf of inode 3. -/
@[irreducible] def noMagicFs : Bytes := patch smallFs (6 * 1024) [0, 0]

/-- Inode `n` as it is read from the hand-made filesystem and its copies. -/
def inodeOf (c : Bytes) (n : Nat) : Inode :=
  ⟨overwrite (zeros 160) ((c.drop (3072 + (n - 1) * 256)).take 160), none⟩

/-- The file of an inode, before the first read. -/
def fileOf (fs : Ext4Fs InMemory) (i : Inode) : Ext4File InMemory :=
  ⟨fs, i, [.tree (.fromInternal (.fromInode i)) 0], 0, 0⟩

/-- A volume content that is the hand-made one up to the end of the group descriptors. -/
structure Like (c : Bytes) : Prop where
  length : c.length = 13312
  head : c.take 3072 = smallFs.take 3072

set_option maxRecDepth 100000 in
theorem small_values : blockSizeOf (sbOf smallFs) = 1024 ∧ groupTableOf (sbOf smallFs) = 2048 ∧
    groupsOf (sbOf smallFs) = 1 ∧ le (sbOf smallFs) 0xfe 2 = 64 ∧ le (sbOf smallFs) 0x28 4 = 8 ∧
    le (sbOf smallFs) 0x58 2 = 256 ∧ le (sbOf smallFs) 0 4 = 8 ∧ inodeTableOf smallFs 0 = 3 ∧
    hasBit (Ext4Superblock.mk (sbOf smallFs)).readOnlyCompatibleFeatures 10 = false := by
  decide +kernel

namespace Like
variable {c : Bytes}

theorem slice_eq (h : Like c) {a n : Nat} (hn : a + n ≤ 3072) :
    (c.drop a).take n = (smallFs.drop a).take n := by
  have e : ∀ b : Bytes, (b.drop a).take n = ((b.take 3072).drop a).take n := fun b => by
    rw [List.drop_take, List.take_take, Nat.min_eq_left (by omega)]
  rw [e c, e smallFs, h.head]

theorem sb (h : Like c) : sbOf c = sbOf smallFs := h.slice_eq (by omega)

theorem blockSize (h : Like c) : blockSizeOf (sbOf c) = 1024 := by rw [h.sb]; exact small_values.1

theorem openable (h : Like c) : Ext4Openable c := by
  obtain ⟨h1, h2, h3, h4, -⟩ := small_values
  exact ⟨by have := h.length; omega, by rw [h.sb]; exact fixture_openable.2.readable,
    by rw [h.sb, h2, h3, h4, h.length]; omega⟩

theorem inodeSlot (h : Like c) {n : Nat} (h1 : 1 ≤ n) (h2 : n ≤ 8) :
    inodeSlot c n = 3072 + (n - 1) * 256 := by
  obtain ⟨v1, v2, -, v3, v4, v5, -, v6, -⟩ := small_values
  unfold MdSpec.inodeSlot
  rw [h.sb, v1, v4, v5, Nat.div_eq_of_lt (by omega), Nat.mod_eq_of_lt (by omega)]
  have h3 : descriptorOf c 0 = descriptorOf smallFs 0 := by
    unfold descriptorOf
    rw [h.sb, v2, v3]
    exact h.slice_eq (by omega)
  unfold inodeTableOf at *
  rw [h3, v6]

/-- Opening the volume and reading inode `n` gives `inodeOf c n`. -/
theorem «open» (h : Like c) (n : Nat) (h1 : 1 ≤ n) (h2 : n ≤ 8)
    (hx : le c (3072 + (n - 1) * 256 + 0x80) 2 = 32) :
    ∃ fs fs' : Ext4Fs InMemory, Ext4Fs.open InMemory.streamDev ⟨c, 0, 512⟩ () = ((), .ok fs) ∧
      Ext4Fs.readInode InMemory.streamDev n ((), fs) = (((), fs'), .ok (inodeOf c n)) ∧
      Opened (fun d c => d.mem = c) c fs' := by
  obtain ⟨v1, -, v2, -, v4, v5, v6, -, v7⟩ := small_values
  have hl := h.length
  obtain ⟨fs, h3, ho⟩ := opened_of h.openable (by rw [h.length]; omega)
  have hs := h.inodeSlot h1 h2
  obtain ⟨⟨⟩, fs', h7, -, ho'⟩ := C59_reads InMemory.volumeSpec c () fs trivial ho n h1
    (by rw [h.sb, v6]; exact h2) (by rw [h.sb, v4, v2]; omega) (by rw [h.sb, hs, v5]; omega)
    (by rw [h.length]; omega)
  have h8 : fs.superblock = ⟨sbOf smallFs⟩ := by
    show Ext4Superblock.mk fs.superblock.bytes = _
    rw [ho.superblock, h.sb]
  have h9 : Inode.new ⟨sbOf smallFs⟩ n ((c.drop (3072 + (n - 1) * 256)).take 256)
      = .ok (inodeOf c n) := by
    have hlen : ((c.drop (3072 + (n - 1) * 256)).take 256).length = 256 := by
      rw [List.length_take, List.length_drop, hl]; omega
    have hsl : Inode.sourceLength ((c.drop (3072 + (n - 1) * 256)).take 256) = 160 := by
      unfold Inode.sourceLength
      rw [hlen]
      show 128 + min (leNat (slice ((c.drop (3072 + (n - 1) * 256)).take 256) 0x80 2)) 160 = 160
      have : slice ((c.drop (3072 + (n - 1) * 256)).take 256) 0x80 2
          = (c.drop (3072 + (n - 1) * 256 + 0x80)).take 2 := by
        unfold slice
        rw [List.drop_take, List.take_take, List.drop_drop]
        rfl
      rw [this, show leNat ((c.drop (3072 + (n - 1) * 256 + 0x80)).take 2) = 32 from hx]
      rfl
    unfold Inode.new Inode.makeStorage
    rw [hsl, hlen]
    show Res.ok (Inode.mk (overwrite (zeros 160) _) (Inode.makeSeed _ _ _)) = _
    unfold Inode.makeSeed
    rw [v7, List.take_take]
    rfl
  rw [h8, hs, h.sb, v5, h9] at h7
  exact ⟨fs, fs', h3, h7, ho'⟩

end Like

theorem patch_like (off : Nat) (src : Bytes) (h1 : 3072 ≤ off) (h2 : off + src.length ≤ 13312) :
    Like (patch smallFs off src) := by
  have hl := smallFs_length
  have ht : (smallFs.take off).length = off := by rw [List.length_take]; omega
  constructor
  · unfold patch
    rw [List.length_append, List.length_append, ht, List.length_drop]
    omega
  · unfold patch
    rw [List.append_assoc, List.take_append_of_le_length (by omega), List.take_take,
      Nat.min_eq_left h1]

theorem smallFs_like : Like smallFs := ⟨smallFs_length, rfl⟩
theorem longestFs_like : Like longestFs := by
  rw [longestFs]; exact patch_like _ _ (by decide) (by decide)
theorem noMagicFs_like : Like noMagicFs := by
  rw [noMagicFs]; exact patch_like _ _ (by decide) (by decide)

set_option maxRecDepth 100000 in
/-- The inodes that are used have 32 extra bytes. -/
theorem extra_values : (∀ n, n < 8 → le smallFs (3072 + (n - 1) * 256 + 0x80) 2 = 32 ∨ n < 2)
    ∧ le longestFs (3072 + (5 - 1) * 256 + 0x80) 2 = 32
    ∧ le noMagicFs (3072 + (3 - 1) * 256 + 0x80) 2 = 32 := by
  decide +kernel

theorem open_file (fs : Ext4Fs InMemory) (i : Inode)
    (h : (hasBit i.flags 19 && !hasBit i.flags 28) = true) :
    Ext4File.open fs i = .ok (fileOf fs i) := by
  unfold Ext4File.open ExtentTree.fromInode
  rw [if_pos h]
  rfl

set_option maxRecDepth 100000 in
theorem has_extents : ∀ n, n < 8 → 1 < n →
    (hasBit (inodeOf smallFs n).flags 19 && !hasBit (inodeOf smallFs n).flags 28) = true := by
  decide +kernel

/-- Root of the extent tree of inode `n`. -/
def root (c : Bytes) (n : Nat) : Bytes := (inodeOf c n).blocksBuffer

set_option maxRecDepth 100000 in
/-- The numbers in the extent trees of inodes 3, 4, 5, 6, 7. -/
theorem tree_values :
    (nodeDepth (root smallFs 3) = 1 ∧ nodeEntries (root smallFs 3) = 1
      ∧ (root smallFs 3).length = 60 ∧ entryFirst (nodeEntry (root smallFs 3) 0) = 0
      ∧ indexChild (nodeEntry (root smallFs 3) 0) = 6 ∧ (inodeOf smallFs 3).fileSizeBytes = 2500)
    ∧ (nodeDepth (blockOf smallFs 1024 6) = 0 ∧ nodeEntries (blockOf smallFs 1024 6) = 2
      ∧ (blockOf smallFs 1024 6).length = 1024
      ∧ entryFirst (nodeEntry (blockOf smallFs 1024 6) 0) = 0
      ∧ le (nodeEntry (blockOf smallFs 1024 6) 0) 4 2 = 1
      ∧ extentStart (nodeEntry (blockOf smallFs 1024 6) 0) = 8
      ∧ entryFirst (nodeEntry (blockOf smallFs 1024 6) 1) = 1
      ∧ le (nodeEntry (blockOf smallFs 1024 6) 1) 4 2 = 2
      ∧ extentStart (nodeEntry (blockOf smallFs 1024 6) 1) = 9)
    ∧ (∀ node, node = root smallFs 4 ∨ node = blockOf smallFs 1024 7 →
      nodeDepth node ≠ 0 ∧ 0 < nodeEntries node ∧ NodeFits node ∧
        entryFirst (nodeEntry node 0) = 0 ∧ indexChild (nodeEntry node 0) = 7)
    ∧ (nodeDepth (root smallFs 5) = 0 ∧ nodeEntries (root smallFs 5) = 1
      ∧ (root smallFs 5).length = 60 ∧ entryFirst (nodeEntry (root smallFs 5) 0) = 0
      ∧ le (nodeEntry (root smallFs 5) 0) 4 2 = 0x8001
      ∧ extentStart (nodeEntry (root smallFs 5) 0) = 8 ∧ (inodeOf smallFs 5).fileSizeBytes = 1024)
    ∧ (nodeDepth (root smallFs 6) = 0 ∧ nodeEntries (root smallFs 6) = 1
      ∧ (root smallFs 6).length = 60 ∧ entryFirst (nodeEntry (root smallFs 6) 0) = 1
      ∧ (inodeOf smallFs 6).fileSizeBytes = 2048)
    ∧ (nodeEntries (root smallFs 7) = 5 ∧ (root smallFs 7).length = 60) := by
  refine ⟨by decide +kernel, by decide +kernel, ?_, by decide +kernel, by decide +kernel,
    by decide +kernel⟩
  rintro node (rfl | rfl)
  · unfold NodeFits; decide +kernel
  · unfold NodeFits; decide +kernel

set_option maxRecDepth 100000 in
theorem longest_values : (hasBit (inodeOf longestFs 5).flags 19
      && !hasBit (inodeOf longestFs 5).flags 28) = true
    ∧ nodeDepth (root longestFs 5) = 0 ∧ nodeEntries (root longestFs 5) = 1
    ∧ (root longestFs 5).length = 60 ∧ entryFirst (nodeEntry (root longestFs 5) 0) = 0
    ∧ le (nodeEntry (root longestFs 5) 0) 4 2 = 0x8000
    ∧ (inodeOf longestFs 5).fileSizeBytes = 1024
    ∧ extentStart (nodeEntry (root longestFs 5) 0) = 8 := by
  decide +kernel

set_option maxRecDepth 100000 in
theorem block8_values : ¬ (smallFs.drop 8192).take (min 1 1024) = (zeros 1024).take 1 := by
  decide +kernel

set_option maxRecDepth 100000 in
/-- The copy without magic number differs from the hand-made filesystem only there. -/
theorem noMagic_values : inodeOf noMagicFs 3 = inodeOf smallFs 3
    ∧ le (blockOf noMagicFs 1024 6) 0 2 = 0
    ∧ (blockOf noMagicFs 1024 6).drop 2 = (blockOf smallFs 1024 6).drop 2
    ∧ (blockOf noMagicFs 1024 6).length = 1024 := by
  decide +kernel

theorem patch_drop (b src : Bytes) {off k : Nat} (h1 : off ≤ b.length) (h2 : off + src.length ≤ k) :
    (patch b off src).drop k = b.drop k := by
  unfold patch
  have h3 : (b.take off ++ src).length = off + src.length := by
    rw [List.length_append, List.length_take]; omega
  rw [List.drop_append, List.drop_eq_nil_of_le (by omega), List.nil_append, h3, List.drop_drop]
  congr 1
  omega

theorem drop_le {a b : Bytes} (h : a.drop 2 = b.drop 2) {off w : Nat} (ho : 2 ≤ off) :
    le a off w = le b off w := by
  unfold le
  rw [show off = 2 + (off - 2) by omega, ← List.drop_drop, h, List.drop_drop]

theorem drop_entry {a b : Bytes} (h : a.drop 2 = b.drop 2) (i : Nat) :
    nodeEntry a i = nodeEntry b i := by
  unfold nodeEntry
  rw [show 12 + 12 * i = 2 + (10 + 12 * i) by omega, ← List.drop_drop, h, List.drop_drop]

theorem extentLen_of {e : Bytes} {n : Nat} (h : le e 4 2 = n) (hn : n ≤ 0x8000) :
    extentLen e = n := by
  unfold extentLen
  rw [h, if_pos hn]

/-- Inode 3 of the two filesystems maps blocks 0, 1, 2 to 8, 9, 10. -/
theorem contiguous3 : Contiguous smallFs 1024 (root smallFs 3) 0 0 [8, 9, 10] ∧
    Contiguous noMagicFs 1024 (root smallFs 3) 0 0 [8, 9, 10] := by
  obtain ⟨⟨a1, a2, a3, a4, a5, -⟩, ⟨b1, b2, b3, b4, b5, b6, b7, b8, b9⟩, -⟩ := tree_values
  obtain ⟨-, -, m3, m4⟩ := noMagic_values
  have hl1 := extentLen_of b5 (by omega)
  have hl2 := extentLen_of b8 (by omega)
  have leaf : ∀ (c leaf : Bytes), nodeDepth leaf = 0 → nodeEntries leaf = 2 → leaf.length = 1024 →
      nodeEntry leaf 0 = nodeEntry (blockOf smallFs 1024 6) 0 →
      nodeEntry leaf 1 = nodeEntry (blockOf smallFs 1024 6) 1 →
      Contiguous c 1024 leaf 0 0 [8, 9, 10] := by
    intro c leaf h1 h2 h3 h4 h5
    have hf : NodeFits leaf := by unfold NodeFits; omega
    have h6 : Contiguous c 1024 leaf 2 3 [] := by
      have := Contiguous.done (c := c) (bs := 1024) leaf 3
      rwa [h2] at this
    have h7 := Contiguous.extent (c := c) (bs := 1024) leaf 1 1 [] h1 (by omega) hf
      (by rw [h5]; exact b7) (by rw [h5, b8]; omega) (by rw [h5, hl2]; exact h6)
    rw [h5, hl2, b9] at h7
    have h8 := Contiguous.extent (c := c) (bs := 1024) leaf 0 0 _ h1 (by omega) hf
      (by rw [h4]; exact b4) (by rw [h4, b5]; omega) (by rw [h4, hl1]; exact h7)
    rw [h4, hl1, b6] at h8
    exact h8
  have rt : ∀ (c : Bytes), c.length = 13312 →
      Contiguous c 1024 (blockOf c 1024 6) 0 0 [8, 9, 10] →
      Contiguous c 1024 (root smallFs 3) 0 0 [8, 9, 10] := by
    intro c hc h
    have h1 : Contiguous c 1024 (root smallFs 3) 1 (0 + [8, 9, 10].length) [] := by
      have := Contiguous.done (c := c) (bs := 1024) (root smallFs 3) (0 + [8, 9, 10].length)
      rwa [a2] at this
    have h2 := Contiguous.index (c := c) (bs := 1024) (root smallFs 3) 0 0 [8, 9, 10] []
      (by omega) (by omega) (by unfold NodeFits; omega) a4
      (by rw [a5]; unfold BlockInside; omega) (by rw [a5]; exact h) h1
    exact h2
  refine ⟨rt _ smallFs_length (leaf _ _ b1 b2 b3 rfl rfl),
    rt _ noMagicFs_like.length (leaf _ _ ?_ ?_ m4 (drop_entry m3 0) (drop_entry m3 1))⟩
  · exact (drop_le m3 (by omega)).trans b1
  · exact (drop_le m3 (by omega)).trans b2

end Fixture

open Fixture

theorem read3 (c : Bytes) (hl : Like c) (hx : le c (3072 + (3 - 1) * 256 + 0x80) 2 = 32)
    (hi : inodeOf c 3 = inodeOf smallFs 3) (hd : c.drop 8192 = smallFs.drop 8192)
    (hm : Contiguous c 1024 (root smallFs 3) 0 0 [8, 9, 10]) :
    ∃ (fs fs' : Ext4Fs InMemory) (f : Ext4File InMemory)
    (h : List (Bytes × Res (Nat × Bytes))) (s' : Unit × Ext4File InMemory),
    Ext4Fs.open InMemory.streamDev ⟨c, 0, 512⟩ () = ((), .ok fs) ∧
      Ext4Fs.readInode InMemory.streamDev 3 ((), fs) = (((), fs'), .ok (inodeOf smallFs 3)) ∧
      Ext4File.open fs' (inodeOf smallFs 3) = .ok f ∧
      Calls InMemory.streamDev ((), f) h s' ∧ h.map Prod.fst = List.replicate 4 (zeros 1024) ∧
      dataOf h = ((smallFs.drop 8192).take 2500) ∧
      h[2]? = some (zeros 1024, Res.ok (452, (smallFs.drop 10240).take 1024)) ∧
      h[3]? = some (zeros 1024, Res.ok (0, zeros 1024)) := by
  obtain ⟨fs, fs', h1, h2, ho⟩ := hl.open 3 (by omega) (by omega) hx
  rw [hi] at h2
  have h3 := open_file fs' _ (has_extents 3 (by omega) (by omega))
  have hbs := hl.blockSize
  have hsz := tree_values.1.2.2.2.2.2
  have hz : (zeros 1024).length = 1024 := List.length_replicate
  have hlen := hl.length
  obtain ⟨h, s', hc, h4, h5, h6, h7⟩ := C63_content_partial InMemory.volumeSpec c
    (by omega) () trivial fs' ho _ _ h3 [8, 9, 10] (by rw [hbs]; exact hm)
    (by rw [hbs, hsz]; decide) (fun _ => by rw [hbs, hsz]; decide) (by decide)
    (List.replicate 4 (zeros 1024)) (by decide)
    (fun buf hb => by
      rw [List.eq_of_mem_replicate hb, hbs, hz, hlen]
      exact ⟨Nat.le_refl _, by decide⟩)
  refine ⟨fs, fs', _, h, s', h1, h2, h3, hc, h4, ?_, ?_, ?_⟩
  · rw [h5, hbs, hsz, ← hd]
    have hb : ∀ x, blockOf c 1024 x = (c.drop (1024 * x)).take 1024 := fun x => by
      unfold blockOf; rw [Nat.mul_comm]
    have h8 : c.drop 8192 = blockOf c 1024 8 ++ (blockOf c 1024 9 ++
        (blockOf c 1024 10 ++ c.drop 11264)) := by
      rw [hb, hb, hb]
      have e : ∀ n, c.drop n = (c.drop n).take 1024 ++ c.drop (n + 1024) :=
        fun n => by rw [← List.drop_drop, List.take_append_drop]
      rw [← e, ← e, ← e]
    rw [h8]
    have hl : ∀ x, x < 13 → (blockOf c 1024 x).length = 1024 := fun x hx => by
      rw [hb, List.length_take, List.length_drop, hlen]; omega
    simp only [List.flatMap_cons, List.flatMap_nil, List.append_nil]
    have happ : ∀ a b c d : Bytes, a ++ (b ++ (c ++ d)) = (a ++ (b ++ c)) ++ d := fun a b c d => by
      simp only [List.append_assoc]
    rw [happ, List.take_append_of_le_length (l₁ := _ ++ (_ ++ _))]
    rw [List.length_append, List.length_append, hl 8 (by omega), hl 9 (by omega), hl 10 (by omega)]
    omega
  · have := h6 2 10 (zeros 1024) (by decide) (by rw [List.getElem?_replicate, if_pos (by omega)])
    rw [hbs, hsz, hz] at this
    have hd' : (c.drop (10 * 1024)).take 1024 = (smallFs.drop 10240).take 1024 := by
      have e : ∀ b : Bytes, b.drop 10240 = (b.drop 8192).drop 2048 := fun b => by
        rw [List.drop_drop]
      rw [show 10 * 1024 = 10240 from rfl, e c, hd, ← e]
    rw [hd'] at this
    exact this
  · exact h7 3 (zeros 1024) (by decide) (by rw [List.getElem?_replicate, if_pos (by omega)])

/-- Case for C63 and C64: opening the hand-made filesystem, reading inode 3 and calling
`read_next_block` four times gives the 2500 bytes of blocks 8, 9 and 10 and then 0. -/
theorem C63_case : ∃ (fs fs' : Ext4Fs InMemory) (f : Ext4File InMemory)
    (h : List (Bytes × Res (Nat × Bytes))) (s' : Unit × Ext4File InMemory),
    Ext4Fs.open InMemory.streamDev ⟨smallFs, 0, 512⟩ () = ((), .ok fs) ∧
      Ext4Fs.readInode InMemory.streamDev 3 ((), fs) = (((), fs'), .ok (inodeOf smallFs 3)) ∧
      Ext4File.open fs' (inodeOf smallFs 3) = .ok f ∧
      Calls InMemory.streamDev ((), f) h s' ∧ h.map Prod.fst = List.replicate 4 (zeros 1024) ∧
      dataOf h = ((smallFs.drop 8192).take 2500) ∧
      h[2]? = some (zeros 1024, Res.ok (452, (smallFs.drop 10240).take 1024)) ∧
      h[3]? = some (zeros 1024, Res.ok (0, zeros 1024)) :=
  read3 smallFs smallFs_like ((extra_values.1 3 (by omega)).resolve_right (by omega)) rfl rfl
    contiguous3.1

/-- C68 is false as stated: the same file is read, with the same data, from the copy whose leaf has no
magic number, although `valid` refuses that leaf. -/
theorem C68_magic_ignored : (ExtentNode.mk (blockOf noMagicFs 1024 6) none).valid = false ∧
    ∃ (fs fs' : Ext4Fs InMemory) (f : Ext4File InMemory)
    (h : List (Bytes × Res (Nat × Bytes))) (s' : Unit × Ext4File InMemory),
    Ext4Fs.open InMemory.streamDev ⟨noMagicFs, 0, 512⟩ () = ((), .ok fs) ∧
      Ext4Fs.readInode InMemory.streamDev 3 ((), fs) = (((), fs'), .ok (inodeOf smallFs 3)) ∧
      Ext4File.open fs' (inodeOf smallFs 3) = .ok f ∧
      Calls InMemory.streamDev ((), f) h s' ∧ h.map Prod.fst = List.replicate 4 (zeros 1024) ∧
      dataOf h = ((smallFs.drop 8192).take 2500) ∧
      h[2]? = some (zeros 1024, Res.ok (452, (smallFs.drop 10240).take 1024)) ∧
      h[3]? = some (zeros 1024, Res.ok (0, zeros 1024)) := by
  obtain ⟨m1, m2, -, -⟩ := noMagic_values
  refine ⟨?_, read3 noMagicFs noMagicFs_like extra_values.2.2 m1 ?_ contiguous3.2⟩
  · rw [← Bool.not_eq_true, C68_valid_partial]
    rintro ⟨-, h, -⟩
    rw [m2] at h
    exact absurd h (by decide)
  · rw [noMagicFs]
    exact patch_drop _ _ (by rw [smallFs_length]; omega) (by decide)

/-- Case for C63_longest_extent: the file of inode 5 of the copy has one extent of 32768 blocks. -/
theorem C63_longest_case : ∃ (fs fs' : Ext4Fs InMemory) (f : Ext4File InMemory) (s' : _),
    Ext4Fs.open InMemory.streamDev ⟨longestFs, 0, 512⟩ () = ((), .ok fs) ∧
      Ext4Fs.readInode InMemory.streamDev 5 ((), fs) = (((), fs'), .ok (inodeOf longestFs 5)) ∧
      Ext4File.open fs' (inodeOf longestFs 5) = .ok f ∧
      ExtentMap longestFs 1024 (inodeOf longestFs 5).blocksBuffer 0 8 ∧
      Returns InMemory.streamDev ((), f) (zeros 1024) s' (.err .unexpectedEof) := by
  obtain ⟨fs, fs', h1, h2, ho⟩ := longestFs_like.open 5 (by omega) (by omega) extra_values.2.1
  obtain ⟨v0, v1, v2, v3, v4, v5, v6, v7⟩ := longest_values
  have h3 := open_file fs' _ v0
  have hfit : NodeFits (root longestFs 5) := by unfold NodeFits; omega
  obtain ⟨h4, s', h5⟩ := C63_longest_extent (dev := InMemory.streamDev) (G := fun _ => True) longestFs () trivial fs' ho _ _ h3 v1 v2 hfit v4 v5
    (by omega) (zeros 1024)
    (by rw [longestFs_like.blockSize, show (zeros 1024).length = 1024 from List.length_replicate])
  refine ⟨fs, fs', _, s', h1, h2, h3, ?_, h5⟩
  have := ExtentMap.extent (c := longestFs) (bs := 1024) (root longestFs 5) 0 0 v1 (by omega) hfit
    (by rw [show extentLen (nodeEntry (root longestFs 5) 0) = 32768 from h4]; omega)
  rw [v4, v7] at this
  exact this

/-- Case for C66: reading inode 4 of the hand-made filesystem does not return. -/
theorem C66_cycle_case : ∃ (fs fs' : Ext4Fs InMemory) (f : Ext4File InMemory),
    Ext4Fs.open InMemory.streamDev ⟨smallFs, 0, 512⟩ () = ((), .ok fs) ∧
      Ext4Fs.readInode InMemory.streamDev 4 ((), fs) = (((), fs'), .ok (inodeOf smallFs 4)) ∧
      Ext4File.open fs' (inodeOf smallFs 4) = .ok f ∧
      ¬ ∃ s' r, Returns InMemory.streamDev ((), f) (zeros 1024) s' r := by
  obtain ⟨fs, fs', h1, h2, ho⟩ := smallFs_like.open 4 (by omega) (by omega)
    ((extra_values.1 4 (by omega)).resolve_right (by omega))
  have h3 := open_file fs' _ (has_extents 4 (by omega) (by omega))
  have hbs := smallFs_like.blockSize
  have hlen := smallFs_length
  refine ⟨fs, fs', _, h1, h2, h3, C66_cycle InMemory.volumeSpec smallFs (by omega) () trivial fs' ho
    _ _ h3 7 (by rw [hbs]; unfold BlockInside; omega) ?_ _
    (by rw [hbs, show (zeros 1024).length = 1024 from List.length_replicate])⟩
  rw [hbs]
  exact tree_values.2.2.1

/-- The trees of inodes 3 and 6 have no cycles. -/
theorem tame_cases : Leveled smallFs 1024 1 (root smallFs 3) ∧ Leveled smallFs 1024 0 (root smallFs 6)
    := by
  obtain ⟨⟨a1, a2, a3, a4, a5, -⟩, ⟨b1, b2, b3, -⟩, -, -, ⟨d1, d2, d3, -⟩, -⟩ := tree_values
  refine ⟨⟨a1, by unfold NodeFits; omega, fun i hi _ => ?_⟩, d1, by unfold NodeFits; omega⟩
  have : i = 0 := by omega
  rw [this, a5]
  exact ⟨b1, by unfold NodeFits; omega⟩

/-- Case for C65 and C66: inode 6 has no extent for block 0; the read gives an error. -/
theorem C65_case : ∃ (fs fs' : Ext4Fs InMemory) (f : Ext4File InMemory) (s' : _) (e : ErrKind),
    Ext4Fs.open InMemory.streamDev ⟨smallFs, 0, 512⟩ () = ((), .ok fs) ∧
      Ext4Fs.readInode InMemory.streamDev 6 ((), fs) = (((), fs'), .ok (inodeOf smallFs 6)) ∧
      Ext4File.open fs' (inodeOf smallFs 6) = .ok f ∧
      Returns InMemory.streamDev ((), f) (zeros 1024) s' (.err e) := by
  obtain ⟨fs, fs', h1, h2, ho⟩ := smallFs_like.open 6 (by omega) (by omega)
    ((extra_values.1 6 (by omega)).resolve_right (by omega))
  have h3 := open_file fs' _ (has_extents 6 (by omega) (by omega))
  have hbs := smallFs_like.blockSize
  have hlen := smallFs_length
  obtain ⟨-, -, -, -, ⟨d1, d2, d3, d4, d5⟩, -⟩ := tree_values
  have hgap : ∀ x, ¬ ExtentMap smallFs 1024 (root smallFs 6) 0 x := by
    intro x hx
    generalize hp : 0 = p at hx
    generalize hn : root smallFs 6 = node at hx
    cases hx with
    | extent _ i j g1 g2 g3 g4 =>
      rw [← hn] at g2 hp
      have hi : i = 0 := by omega
      rw [hi, d4] at hp
      omega
    | index _ i _ _ g1 => rw [← hn] at g1; exact g1 d1
  obtain ⟨s', e, h4⟩ := C65_gap_error InMemory.volumeSpec smallFs (by omega) () trivial fs' ho _ _ h3
    (by rw [hbs]; exact C66_leveled _ _ _ _ tame_cases.2) (by rw [hbs, d5]; omega) [] _ (.nil _)
    (by rw [hbs]; exact hgap) (by rw [d5]; show 0 * _ < _; omega) (zeros 1024)
  exact ⟨fs, fs', _, s', e, h1, h2, h3, h4⟩

/-- Case for C67: reading inode 5, whose only extent is unwritten, returns the bytes of block 8, which
are not all zero. -/
theorem C67_unwritten_case : ∃ (fs fs' : Ext4Fs InMemory) (f : Ext4File InMemory) (s' : _),
    Ext4Fs.open InMemory.streamDev ⟨smallFs, 0, 512⟩ () = ((), .ok fs) ∧
      Ext4Fs.readInode InMemory.streamDev 5 ((), fs) = (((), fs'), .ok (inodeOf smallFs 5)) ∧
      Ext4File.open fs' (inodeOf smallFs 5) = .ok f ∧
      ExtentUnwritten (nodeEntry (inodeOf smallFs 5).blocksBuffer 0) ∧
      Returns InMemory.streamDev ((), f) (zeros 1024) s' (.ok (1024, (smallFs.drop 8192).take 1024)) ∧
      (smallFs.drop 8192).take 1024 ≠ zeros 1024 := by
  obtain ⟨fs, fs', h1, h2, ho⟩ := smallFs_like.open 5 (by omega) (by omega)
    ((extra_values.1 5 (by omega)).resolve_right (by omega))
  have h3 := open_file fs' _ (has_extents 5 (by omega) (by omega))
  have hbs := smallFs_like.blockSize
  have hlen := smallFs_length
  have hz : (zeros 1024).length = 1024 := List.length_replicate
  obtain ⟨-, -, -, ⟨d1, d2, d3, d4, d5, d6, d7⟩, -⟩ := tree_values
  have hu : ExtentUnwritten (nodeEntry (root smallFs 5) 0) := by unfold ExtentUnwritten; omega
  have d6' : extentStart (nodeEntry (inodeOf smallFs 5).blocksBuffer 0) = 8 := d6
  obtain ⟨s', h4⟩ := C67_unwritten InMemory.volumeSpec smallFs (by omega) () trivial fs' ho _ _ h3 d1
    (show 0 < nodeEntries (root smallFs 5) by omega)
    (show NodeFits (root smallFs 5) by unfold NodeFits; omega) d4 hu (by omega) (zeros 1024)
    (by rw [hbs, hz]) (by rw [d6', hbs, hz]; omega)
  rw [d6', hbs, hz, d7] at h4
  refine ⟨fs, fs', _, s', h1, h2, h3, hu, h4, fun h => ?_⟩
  have h5 := congrArg (fun b : Bytes => b.take 1) h
  simp only [List.take_take] at h5
  exact absurd h5 block8_values

/-- Case for C68: reading inode 7, whose node claims five entries in 60 bytes, panics. -/
theorem C68_too_many_case : ∃ (fs fs' : Ext4Fs InMemory) (f : Ext4File InMemory) (s' : _),
    Ext4Fs.open InMemory.streamDev ⟨smallFs, 0, 512⟩ () = ((), .ok fs) ∧
      Ext4Fs.readInode InMemory.streamDev 7 ((), fs) = (((), fs'), .ok (inodeOf smallFs 7)) ∧
      Ext4File.open fs' (inodeOf smallFs 7) = .ok f ∧
      Returns InMemory.streamDev ((), f) (zeros 1024) s' .panic := by
  obtain ⟨fs, fs', h1, h2, ho⟩ := smallFs_like.open 7 (by omega) (by omega)
    ((extra_values.1 7 (by omega)).resolve_right (by omega))
  have h3 := open_file fs' _ (has_extents 7 (by omega) (by omega))
  obtain ⟨-, -, -, -, -, d1, d2⟩ := tree_values
  obtain ⟨s', h4⟩ := C68_too_many (dev := InMemory.streamDev) (G := fun _ => True) smallFs () trivial fs' ho _ _ h3
    (show (root smallFs 7).length < 12 + 12 * nodeEntries (root smallFs 7) by omega)
    (show nodeEntries (root smallFs 7) ≠ 0 by omega) (zeros 1024)
    (by rw [smallFs_like.blockSize, show (zeros 1024).length = 1024 from List.length_replicate])
  exact ⟨fs, fs', _, s', h1, h2, h3, h4⟩

namespace Fixture
/-- A leaf with one of two entries, its checksum (seed 7) where the kernel puts it. -/
def kernelNode : Bytes := 
  [10, 243, 1, 0, 2, 0, 0, 0, 0, 0, 0, 0, 0, 0, 0, 0, 1, 0, 0, 0, 8, 0, 0, 0,
   0, 0, 0, 0, 0, 0, 0, 0, 0, 0, 0, 0, 75, 103, 187, 101]
end Fixture

/-- C68 is false as stated: a node that is sound by the kernel's rule is refused, because its checksum
is looked for after the last entry in use. -/
theorem C68_kernel_node_refused : NodeSound (some 7) (kernelTail kernelNode) kernelNode ∧
    (ExtentNode.mk kernelNode (some 7)).valid = false := by
  refine ⟨⟨by decide, by decide, by unfold NodeFits; decide, ?_⟩, by decide +kernel⟩
  rintro s ⟨⟩
  exact ⟨by decide, (C52_polynomial_division _ _ _).1 (by decide +kernel)⟩

/-- Case for C68: nodes that are sound, with and without checksum. -/
example : (ExtentNode.mk
      [10, 243, 1, 0, 2, 0, 0, 0, 0, 0, 0, 0, 0, 0, 0, 0, 1, 0, 0, 0, 8, 0, 0, 0, 88, 218, 212, 127] (some 7)).valid = true
    ∧ (ExtentNode.mk (kernelNode.take 24) none).valid = true := by
  decide +kernel

end MdRecover
