import Verif.Fixture.Directory
import Verif.Props.Ext4Directory
import Verif.Props.Ext4FileCases

/- Concrete cases for C69-C72: the blocks of the tests of /repo, and the directories of the hand-made
filesystems with and without checksums. -/

namespace MdRecover
open MdSpec

namespace Fixture

/-- The records of some bytes, at most `n`. -/
def listOf : Nat → Bytes → List Bytes
  | 0, _ => []
  | n + 1, u =>
    match DirEntry.fromBuf u with
    | (some e, rest) => e.storage :: listOf n rest
    | (none, _) => []

theorem tiles_listOf (n : Nat) : ∀ u : Bytes, u.length < 8 * (n + 1) → Tiles u (listOf n u) := by
  induction n with
  | zero =>
    intro u hu
    refine tiles_nil fun m h => ?_
    have := h.1
    rw [List.length_take] at this
    omega
  | succ n ih =>
    intro u hu
    rcases DirEntry.fromBuf_cases u with ⟨e, rest, h1, rfl, h2⟩ | ⟨h1, h2⟩
    · show Tiles _ (match DirEntry.fromBuf (e ++ rest) with
        | (some e, rest) => e.storage :: listOf n rest | (none, _) => [])
      rw [h2]
      refine tiles_cons h1 (ih rest ?_)
      have := h1.1
      rw [List.length_append] at hu
      omega
    · show Tiles _ (match DirEntry.fromBuf u with
        | (some e, rest) => e.storage :: listOf n rest | (none, _) => [])
      rw [h2]
      exact tiles_nil h1

/-- What a caller sees of an entry. -/
structure Seen where
  inode : Nat
  name : Ext4String
  fileType : DirFileType
  deriving DecidableEq

/-- What a caller sees of an entry. -/
def seen (e : DirEntry) : Seen := ⟨e.inode, e.name, e.fileType⟩

/-- What a caller sees of a result. -/
def seenRes : Res (Option DirEntry) → Res (Option Seen)
  | .ok r => .ok (r.map seen)
  | .err e => .err e
  | .panic => .panic

set_option maxRecDepth 100000 in
/-- Case for C69: the entries of the blocks of the tests of /repo, and of a block with a checksum. -/
theorem block_values :
    (blockCalls 4 ⟨dirEntries, 0, 120⟩).toOption.map (fun rs => rs.map (Option.map seen))
      = some [some ⟨2, ⟨[46]⟩, .directory⟩, some ⟨2, ⟨[46, 46]⟩, .directory⟩, none, none]
    ∧ DirBlock.fromBlock rootDirBlock (some 1485601019) = .ok (some ⟨rootDirBlock, 0, 4084⟩)
    ∧ (blockCalls 5 ⟨rootDirBlock, 0, 4084⟩).toOption.map (fun rs => rs.map (Option.map seen))
      = some [some ⟨2, ⟨[46]⟩, .directory⟩, some ⟨2, ⟨[46, 46]⟩, .directory⟩,
        some ⟨11, ⟨[108, 111, 115, 116, 43, 102, 111, 117, 110, 100]⟩, .directory⟩, none, none] := by
  decide +kernel

set_option maxRecDepth 100000 in
theorem sumFs_readable : (Ext4Superblock.mk (sbOf sumFs)).valid = .ok true ∧
    Ext4Fs.unsupported ⟨sbOf sumFs⟩ = false := by decide +kernel

set_option maxRecDepth 100000 in
theorem sumFs_values : sumFs.length = 13312 ∧ blockSizeOf (sbOf sumFs) = 1024 ∧
    groupTableOf (sbOf sumFs) = 2048 ∧ groupsOf (sbOf sumFs) = 1 ∧ le (sbOf sumFs) 0xfe 2 = 64 ∧
    le (sbOf sumFs) 0x28 4 = 8 ∧ le (sbOf sumFs) 0x58 2 = 256 ∧ le (sbOf sumFs) 0 4 = 8 ∧
    inodeSlot sumFs 2 = 3328 := by
  decide +kernel

/-- Inode 2 of the filesystem with checksums. -/
def sumInode : Inode := ⟨overwrite (zeros 160) ((sumFs.drop 3328).take 160), some 1970381644⟩

set_option maxRecDepth 100000 in
theorem sumInode_new : Inode.new ⟨sbOf sumFs⟩ 2 ((sumFs.drop 3328).take 256) = .ok sumInode := by
  decide +kernel

set_option maxRecDepth 100000 in
theorem sumInode_values : hasBit sumInode.flags 12 = false
    ∧ (hasBit sumInode.flags 19 && !hasBit sumInode.flags 28) = true
    ∧ sumInode.fileSizeBytes = 3072 ∧ sumInode.blocksBuffer.length = 60
    ∧ nodeDepth sumInode.blocksBuffer = 0 ∧ nodeEntries sumInode.blocksBuffer = 3
    ∧ (∀ k, k < 3 → entryFirst (nodeEntry sumInode.blocksBuffer k) = k
      ∧ le (nodeEntry sumInode.blocksBuffer k) 4 2 = 1)
    ∧ extentStart (nodeEntry sumInode.blocksBuffer 0) = 5
    ∧ extentStart (nodeEntry sumInode.blocksBuffer 1) = 8
    ∧ extentStart (nodeEntry sumInode.blocksBuffer 2) = 9 := by
  decide +kernel

set_option maxRecDepth 100000 in
theorem sumFs_tails : DirBlock.tailOk (blockOf sumFs 1024 5) 1012 1970381644 = true
    ∧ DirBlock.tailOk (blockOf sumFs 1024 8) 1012 1970381644 = false
    ∧ DirBlock.tailOk (blockOf sumFs 1024 9) 1012 1970381644 = true := by
  decide +kernel

theorem sumFs_block {x : Nat} (hx : x < 13) : (blockOf sumFs 1024 x).length = 1024 := by
  have := sumFs_values.1
  unfold blockOf
  rw [List.length_take, List.length_drop]
  omega

theorem sumFs_sound {x : Nat} (hx : x < 13) :
    DirBlock.tailOk (blockOf sumFs 1024 x) 1012 1970381644 = true ↔
      BlockSound (some 1970381644) (blockOf sumFs 1024 x) := by
  have hl := sumFs_block hx
  have := DirBlock.tailOk_iff (b := blockOf sumFs 1024 x) (by omega) 1970381644
  rwa [hl] at this

theorem sumFs_contiguous : Contiguous sumFs 1024 sumInode.blocksBuffer 0 0 [5, 8, 9] := by
  obtain ⟨-, -, -, h1, h2, h3, h4, h5, h6, h7⟩ := sumInode_values
  have hf : NodeFits sumInode.blocksBuffer := by unfold NodeFits; omega
  have hl : ∀ k, k < 3 → extentLen (nodeEntry sumInode.blocksBuffer k) = 1 := fun k hk =>
    extentLen_of (h4 k hk).2 (by omega)
  have c3 : Contiguous sumFs 1024 sumInode.blocksBuffer 3 3 [] := by
    have := Contiguous.done (c := sumFs) (bs := 1024) sumInode.blocksBuffer 3
    rwa [h3] at this
  have c2 := Contiguous.extent (c := sumFs) (bs := 1024) sumInode.blocksBuffer 2 2 [] h2 (by omega) hf
    (h4 2 (by omega)).1 (by rw [(h4 2 (by omega)).2]; omega) (by rw [hl 2 (by omega)]; exact c3)
  rw [hl 2 (by omega), h7] at c2
  have c1 := Contiguous.extent (c := sumFs) (bs := 1024) sumInode.blocksBuffer 1 1 _ h2 (by omega) hf
    (h4 1 (by omega)).1 (by rw [(h4 1 (by omega)).2]; omega) (by rw [hl 1 (by omega)]; exact c2)
  rw [hl 1 (by omega), h6] at c1
  have c0 := Contiguous.extent (c := sumFs) (bs := 1024) sumInode.blocksBuffer 0 0 _ h2 (by omega) hf
    (h4 0 (by omega)).1 (by rw [(h4 0 (by omega)).2]; omega) (by rw [hl 0 (by omega)]; exact c1)
  rw [hl 0 (by omega), h5] at c0
  exact c0

/-- The volume is opened and inode 2 read. -/
theorem sumFs_open : ∃ fs fs' : Ext4Fs InMemory,
    Ext4Fs.open InMemory.streamDev ⟨sumFs, 0, 512⟩ () = ((), .ok fs) ∧
      Ext4Fs.readInode InMemory.streamDev 2 ((), fs) = (((), fs'), .ok sumInode) ∧
      Opened (fun d c => d.mem = c) sumFs fs' := by
  obtain ⟨v0, v1, v2, v3, v4, v5, v6, v7, v8⟩ := sumFs_values
  obtain ⟨fs, h1, ho⟩ := opened_of (c := sumFs)
    ⟨by omega, readable_of sumFs_readable.1 sumFs_readable.2, by rw [v2, v3, v4, v0]; omega⟩
    (by rw [v0]; omega)
  obtain ⟨⟨⟩, fs', h2, -, ho'⟩ := C59_reads InMemory.volumeSpec sumFs () fs trivial ho 2 (by omega)
    (by rw [v7]; omega) (by rw [v5, v3]; omega) (by rw [v8, v6, v0]; omega) (by rw [v0]; omega)
  have h3 : fs.superblock = ⟨sbOf sumFs⟩ := by
    show Ext4Superblock.mk fs.superblock.bytes = _
    rw [ho.superblock]
  rw [h3, v8, v6, sumInode_new] at h2
  exact ⟨fs, fs', h1, h2, ho'⟩

/-- The directory of inode 2, before the first call. -/
def sumDir (fs : Ext4Fs InMemory) : Ext4Directory InMemory := ⟨fileOf fs sumInode, .start⟩

theorem sumDir_open (fs : Ext4Fs InMemory) : Ext4Directory.open fs sumInode = .ok (sumDir fs) := by
  unfold Ext4Directory.open
  rw [if_neg (by rw [sumInode_values.1]; decide), open_file fs _ sumInode_values.2.1]
  rfl

/-- The results for the three blocks. -/
def sumResults : List (List (Res (Option DirEntry))) :=
  [(listOf 127 ((blockOf sumFs 1024 5).take 1012)).map fun e => .ok (some ⟨e⟩),
   [.err .invalidData],
   (listOf 127 ((blockOf sumFs 1024 9).take 1012)).map fun e => .ok (some ⟨e⟩)]

set_option maxRecDepth 100000 in
theorem sumResults_seen :
    ((List.range 8).map fun k => seenRes (sumResults.flatten[k]?.getD (.ok none)))
      = [.ok (some ⟨2, ⟨[46]⟩, .directory⟩), .ok (some ⟨2, ⟨[46, 46]⟩, .directory⟩),
        .ok (some ⟨3, ⟨[100, 97, 116, 97]⟩, .regularFile⟩),
        .ok (some ⟨4, ⟨[108, 111, 111, 112]⟩, .regularFile⟩), .err .invalidData,
        .ok (some ⟨5, ⟨[101, 120, 116, 114, 97]⟩, .regularFile⟩), .ok none, .ok none] := by
  decide +kernel

theorem sumResults_ok : List.Forall₂ (fun x rs => BlockResults sumInode.metadataChecksumSeed
    (blockOf sumFs (blockSizeOf (sbOf sumFs)) x) rs) [5, 8, 9] sumResults := by
  rw [sumFs_values.2.1]
  have ht : ∀ x, x < 13 → Tiles ((blockOf sumFs 1024 x).take
      (recordsEnd (some 1970381644) (blockOf sumFs 1024 x)))
      (listOf 127 ((blockOf sumFs 1024 x).take 1012)) := by
    intro x hx
    have : recordsEnd (some 1970381644) (blockOf sumFs 1024 x) = 1012 := by
      show (blockOf sumFs 1024 x).length - 12 = 1012
      rw [sumFs_block hx]
    rw [this]
    refine tiles_listOf 127 _ ?_
    rw [List.length_take]
    omega
  refine .cons (.inl ⟨(sumFs_sound (by omega)).1 sumFs_tails.1, _, ht 5 (by omega), rfl⟩)
    (.cons (.inr ⟨fun h => ?_, rfl⟩)
      (.cons (.inl ⟨(sumFs_sound (by omega)).1 sumFs_tails.2.2, _, ht 9 (by omega), rfl⟩) .nil))
  have := (sumFs_sound (x := 8) (by omega)).2 h
  rw [sumFs_tails.2.1] at this
  cases this

end Fixture

open Fixture

/-- Case for C71 and C72: opening the filesystem with checksums, reading inode 2 and calling
`read_next_entry` eight times gives the four entries of block 5, an error for block 8, the entry of
block 9, and then `None`. -/
theorem C72_case : ∃ (fs fs' : Ext4Fs InMemory) (d : Ext4Directory InMemory)
    (h : List (Res (Option DirEntry))) (s' : Unit × Ext4Directory InMemory),
    Ext4Fs.open InMemory.streamDev ⟨sumFs, 0, 512⟩ () = ((), .ok fs) ∧
      Ext4Fs.readInode InMemory.streamDev 2 ((), fs) = (((), fs'), .ok sumInode) ∧
      Ext4Directory.open fs' sumInode = .ok d ∧ DirCalls InMemory.streamDev ((), d) h s' ∧
      h.map seenRes = [.ok (some ⟨2, ⟨[46]⟩, .directory⟩), .ok (some ⟨2, ⟨[46, 46]⟩, .directory⟩),
        .ok (some ⟨3, ⟨[100, 97, 116, 97]⟩, .regularFile⟩),
        .ok (some ⟨4, ⟨[108, 111, 111, 112]⟩, .regularFile⟩), .err .invalidData,
        .ok (some ⟨5, ⟨[101, 120, 116, 114, 97]⟩, .regularFile⟩), .ok none, .ok none] := by
  obtain ⟨fs, fs', h1, h2, ho⟩ := sumFs_open
  obtain ⟨v0, v1, -⟩ := sumFs_values
  obtain ⟨s', h3⟩ := C72_lists InMemory.volumeSpec sumFs (by rw [v0]; omega) () trivial fs' ho sumInode
    (sumDir fs') (sumDir_open fs') [5, 8, 9] (by rw [v1]; exact sumFs_contiguous)
    (by rw [v1, sumInode_values.2.2.1]; rfl) (by decide)
    (by rw [v1]; unfold BlockInside; rw [v0]; decide) sumResults sumResults_ok 8
  refine ⟨fs, fs', _, _, s', h1, h2, sumDir_open fs', h3, ?_⟩
  rw [List.map_map]
  exact sumResults_seen

/-- Case for C72_terminates: the tree of inode 2 has no cycles. -/
example : Tame sumFs (blockSizeOf (sbOf sumFs)) sumInode.blocksBuffer ∧
    sumInode.fileSizeBytes ≤ (U32 - 1) * blockSizeOf (sbOf sumFs) := by
  obtain ⟨-, -, h0, h1, h2, h3, -⟩ := sumInode_values
  obtain ⟨-, v1, -⟩ := sumFs_values
  exact ⟨.leaf _ h2 (by unfold NodeFits; omega), by rw [h0, v1]; omega⟩

/-- Case for C71_corruption: a sound block with one name changed. -/
example : BlockSound (some 1970381644) (blockOf sumFs 1024 5) ∧
    ¬ BlockSound (some 1970381644)
      ((blockOf sumFs 1024 5).take 32 ++ [68, 65] ++ (blockOf sumFs 1024 5).drop 34) := by
  have h := (sumFs_sound (x := 5) (by omega)).1 sumFs_tails.1
  refine ⟨h, ?_⟩
  have hl := sumFs_block (x := 5) (by omega)
  refine C71_corruption 1970381644 _ (((blockOf sumFs 1024 5).drop 32).take 2) _ _
    (by rw [List.length_take]; omega)
    (by rw [List.length_take, List.length_drop, hl]; rfl) ?_ ?_
  · rw [sumFs]; decide +kernel
  · have : (blockOf sumFs 1024 5).take 32 ++ ((blockOf sumFs 1024 5).drop 32).take 2
        ++ (blockOf sumFs 1024 5).drop 34 = blockOf sumFs 1024 5 := by
      rw [List.append_assoc, show (blockOf sumFs 1024 5).drop 34 = ((blockOf sumFs 1024 5).drop 32).drop 2
        by rw [List.drop_drop], List.take_append_drop, List.take_append_drop]
    rw [this]; exact h

/-- Case for C69_round_trip: two entries, 20 zeros. -/
example : ∃ b, DirBlock.fromBlock (([⟨2, 2, [46], [0, 0, 0]⟩, ⟨12, 1, [97, 98, 99, 100], []⟩]
      : List NewEntry).flatMap NewEntry.encode ++ zeros 20 ++ []) none = .ok (some b) :=
  (C69_round_trip [⟨2, 2, [46], [0, 0, 0]⟩, ⟨12, 1, [97, 98, 99, 100], []⟩]
    (by simp [NewEntry.Fits]) (by decide) 20 none [] (.inl ⟨rfl, rfl⟩)).imp fun _ h => h.1

/-- Case for C70: the record of a directory with "ab" after "abcd" was renamed to "ab": its name is
"abcd"; the format says "ab". -/
theorem C70_case : IsRecord [12, 0, 0, 0, 12, 0, 2, 1, 97, 98, 99, 100] ∧
    le [12, 0, 0, 0, 12, 0, 2, 1, 97, 98, 99, 100] 6 1 = 2 ∧
    (DirEntry.mk [12, 0, 0, 0, 12, 0, 2, 1, 97, 98, 99, 100]).name = ⟨[97, 98, 99, 100]⟩ ∧
    IsRecord dirEntry ∧ (DirEntry.mk dirEntry).name = ⟨[46]⟩ := by
  unfold IsRecord
  decide +kernel

end MdRecover
