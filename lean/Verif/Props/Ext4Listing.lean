import Verif.Props.Ext4DirectoryCases

/- C84: entries that are not in use.  C85: directory blocks that are not made of records up to their end. -/

namespace MdRecover
open MdSpec

/-- The records returned by calls. -/
def entriesOf (h : List (Res (Option DirEntry))) : List Bytes :=
  h.filterMap fun r => match r with
    | .ok (some e) => some e.storage
    | _ => none

/-- A record is in use if its inode number is not zero. -/
abbrev InUse (e : Bytes) : Prop := le e 0 4 ≠ 0

theorem listing_eq (es : List Bytes) {n : Nat} (hn : es.length ≤ n) :
    ((List.range n).map fun k =>
        (es.map fun e => (Res.ok (some (DirEntry.mk e)) : Res (Option DirEntry)))[k]?.getD (.ok none))
      = (es.map fun e => .ok (some ⟨e⟩)) ++ List.replicate (n - es.length) (.ok none) := by
  refine List.ext_getElem? fun k => ?_
  rw [List.getElem?_map]
  by_cases hk : k < n
  · rw [List.getElem?_range hk, Option.map_some]
    by_cases h : k < es.length
    · rw [List.getElem?_append_left (by rw [List.length_map]; exact h), List.getElem?_map,
        List.getElem?_eq_getElem h]
      rfl
    · rw [List.getElem?_append_right (by rw [List.length_map]; omega), List.length_map,
        List.getElem?_replicate, if_pos (by omega), List.getElem?_map,
        List.getElem?_eq_none (by omega)]
      rfl
  · rw [List.getElem?_eq_none (by rw [List.length_range]; omega),
      List.getElem?_eq_none (by rw [List.length_append, List.length_map, List.length_replicate]; omega)]
    rfl

theorem entriesOf_listing (es : List Bytes) (k : Nat) :
    entriesOf ((es.map fun e => .ok (some ⟨e⟩)) ++ List.replicate k (.ok none)) = es := by
  unfold entriesOf
  rw [List.filterMap_append, List.filterMap_map]
  have h1 : ∀ l : List Bytes, List.filterMap
      ((fun r : Res (Option DirEntry) => match r with
        | .ok (some e) => some e.storage
        | _ => none) ∘ fun e => Res.ok (some (DirEntry.mk e))) l = l := fun l => by
    induction l with
    | nil => rfl
    | cons a l ih => rw [List.filterMap_cons]; simp only [Function.comp]; exact congrArg (a :: ·) ih
  have h2 : ∀ k, List.filterMap (fun r : Res (Option DirEntry) => match r with
        | .ok (some e) => some e.storage
        | _ => none) (List.replicate k (Res.ok none)) = [] := fun k => by
    induction k with
    | zero => rfl
    | succ k ih => rw [List.replicate_succ, List.filterMap_cons]; exact ih
  rw [h1, h2, List.append_nil]

section
variable {W D : Type} {dev : StreamDev W D} {G : W → Prop} {Is : D → Bytes → Prop}
  {At : W → D → Nat → Prop}

/-- A directory of whole written blocks `xs`, all sound, with the records `ess`: what enough calls
return. -/
theorem listing_of (hv : VolumeSpec False dev G Is At) (c : Bytes) (hc : c.length < U64) (w : W)
    (hG : G w) (fs : Ext4Fs D) (ho : Opened Is c fs) (inode : Inode) (d : Ext4Directory D)
    (hd : Ext4Directory.open fs inode = .ok d) (xs : List Nat)
    (hx : Contiguous c (blockSizeOf (sbOf c)) inode.blocksBuffer 0 0 xs)
    (hsize : inode.fileSizeBytes = xs.length * blockSizeOf (sbOf c)) (h32 : xs.length < U32)
    (hin : ∀ x ∈ xs, BlockInside c (blockSizeOf (sbOf c)) x) (ess : List (List Bytes))
    (hes : List.Forall₂ (fun x es =>
      BlockSound inode.metadataChecksumSeed (blockOf c (blockSizeOf (sbOf c)) x) ∧
      Tiles ((blockOf c (blockSizeOf (sbOf c)) x).take
        (recordsEnd inode.metadataChecksumSeed (blockOf c (blockSizeOf (sbOf c)) x))) es) xs ess)
    (n : Nat) (hn : ess.flatten.length ≤ n) :
    ∃ s', DirCalls dev (w, d) ((ess.flatten.map fun e => .ok (some ⟨e⟩)) ++
      List.replicate (n - ess.flatten.length) (.ok none)) s' := by
  obtain ⟨s', h⟩ := C72_lists hv c hc w hG fs ho inode d hd xs hx hsize h32 hin
    (ess.map fun es => es.map fun e => .ok (some ⟨e⟩))
    (by
      rw [List.forall₂_map_right_iff]
      exact hes.imp fun _ es h => .inl ⟨h.1, es, h.2, rfl⟩) n
  refine ⟨s', ?_⟩
  have : (ess.map fun es => es.map fun e => (Res.ok (some (DirEntry.mk e)) : Res (Option DirEntry))).flatten
      = ess.flatten.map fun e => .ok (some ⟨e⟩) := by
    rw [List.map_flatten]
  rw [this, listing_eq _ hn] at h
  exact h

/-- C84 in part: if all records of a directory are in use, the calls return exactly those that are in use,
each once, in their order, and then `None`.  Missing: directories with records that are not in use
(`C84_unused_returned`). -/
theorem C84_used_partial (hv : VolumeSpec False dev G Is At) (c : Bytes) (hc : c.length < U64) (w : W)
    (hG : G w) (fs : Ext4Fs D) (ho : Opened Is c fs) (inode : Inode) (d : Ext4Directory D)
    (hd : Ext4Directory.open fs inode = .ok d) (xs : List Nat)
    (hx : Contiguous c (blockSizeOf (sbOf c)) inode.blocksBuffer 0 0 xs)
    (hsize : inode.fileSizeBytes = xs.length * blockSizeOf (sbOf c)) (h32 : xs.length < U32)
    (hin : ∀ x ∈ xs, BlockInside c (blockSizeOf (sbOf c)) x) (ess : List (List Bytes))
    (hes : List.Forall₂ (fun x es =>
      BlockSound inode.metadataChecksumSeed (blockOf c (blockSizeOf (sbOf c)) x) ∧
      Tiles ((blockOf c (blockSizeOf (sbOf c)) x).take
        (recordsEnd inode.metadataChecksumSeed (blockOf c (blockSizeOf (sbOf c)) x))) es) xs ess)
    (hused : ∀ es ∈ ess, ∀ e ∈ es, InUse e) (n : Nat) (hn : ess.flatten.length ≤ n) :
    ∃ h s', DirCalls dev (w, d) h s' ∧ h.length = n ∧
      entriesOf h = ess.flatten.filter (fun e => le e 0 4 ≠ 0) ∧
      (∀ k, ess.flatten.length ≤ k → k < n → h[k]? = some (.ok none)) := by
  obtain ⟨s', h⟩ := listing_of hv c hc w hG fs ho inode d hd xs hx hsize h32 hin ess hes n hn
  refine ⟨_, s', h, ?_, ?_, fun k h1 h2 => ?_⟩
  · rw [List.length_append, List.length_map, List.length_replicate]; omega
  · rw [entriesOf_listing, List.filter_eq_self.2]
    intro e he
    obtain ⟨es, h1, h2⟩ := List.mem_flatten.1 he
    exact decide_eq_true (hused es h1 e h2)
  · rw [List.getElem?_append_right (by rw [List.length_map]; exact h1), List.length_map,
      List.getElem?_replicate, if_pos (by omega)]

/-- C84 is false as stated: records that are not in use are returned like the others. -/
theorem C84_unused_returned (hv : VolumeSpec False dev G Is At) (c : Bytes) (hc : c.length < U64)
    (w : W) (hG : G w) (fs : Ext4Fs D) (ho : Opened Is c fs) (inode : Inode) (d : Ext4Directory D)
    (hd : Ext4Directory.open fs inode = .ok d) (xs : List Nat)
    (hx : Contiguous c (blockSizeOf (sbOf c)) inode.blocksBuffer 0 0 xs)
    (hsize : inode.fileSizeBytes = xs.length * blockSizeOf (sbOf c)) (h32 : xs.length < U32)
    (hin : ∀ x ∈ xs, BlockInside c (blockSizeOf (sbOf c)) x) (ess : List (List Bytes))
    (hes : List.Forall₂ (fun x es =>
      BlockSound inode.metadataChecksumSeed (blockOf c (blockSizeOf (sbOf c)) x) ∧
      Tiles ((blockOf c (blockSizeOf (sbOf c)) x).take
        (recordsEnd inode.metadataChecksumSeed (blockOf c (blockSizeOf (sbOf c)) x))) es) xs ess)
    (es : List Bytes) (hmem : es ∈ ess) (e : Bytes) (he : e ∈ es) (hunused : ¬ InUse e) :
    ∃ h s', DirCalls dev (w, d) h s' ∧ e ∈ entriesOf h ∧
      entriesOf h ≠ ess.flatten.filter (fun e => le e 0 4 ≠ 0) := by
  obtain ⟨s', h⟩ := listing_of hv c hc w hG fs ho inode d hd xs hx hsize h32 hin ess hes _
    (Nat.le_refl _)
  have hme := List.mem_flatten.2 ⟨es, hmem, he⟩
  refine ⟨_, s', h, by rw [entriesOf_listing]; exact hme, fun heq => hunused ?_⟩
  rw [entriesOf_listing] at heq
  rw [heq] at hme
  exact of_decide_eq_true (List.mem_filter.1 hme).2

/-- C85 in part: if the records of every block go up to its end (before the checksum), all of them are
returned, without an error, and then `None`.  Missing: an error for blocks in which they do not
(`C85_silent`). -/
theorem C85_complete_partial (hv : VolumeSpec False dev G Is At) (c : Bytes) (hc : c.length < U64)
    (w : W) (hG : G w) (fs : Ext4Fs D) (ho : Opened Is c fs) (inode : Inode) (d : Ext4Directory D)
    (hd : Ext4Directory.open fs inode = .ok d) (xs : List Nat)
    (hx : Contiguous c (blockSizeOf (sbOf c)) inode.blocksBuffer 0 0 xs)
    (hsize : inode.fileSizeBytes = xs.length * blockSizeOf (sbOf c)) (h32 : xs.length < U32)
    (hin : ∀ x ∈ xs, BlockInside c (blockSizeOf (sbOf c)) x) (ess : List (List Bytes))
    (hes : List.Forall₂ (fun x es =>
      BlockSound inode.metadataChecksumSeed (blockOf c (blockSizeOf (sbOf c)) x) ∧
      (∀ e ∈ es, IsRecord e) ∧ es.flatten = (blockOf c (blockSizeOf (sbOf c)) x).take
        (recordsEnd inode.metadataChecksumSeed (blockOf c (blockSizeOf (sbOf c)) x))) xs ess)
    (n : Nat) (hn : ess.flatten.length ≤ n) :
    ∃ s', DirCalls dev (w, d) ((ess.flatten.map fun e => .ok (some ⟨e⟩)) ++
      List.replicate (n - ess.flatten.length) (.ok none)) s' := by
  refine listing_of hv c hc w hG fs ho inode d hd xs hx hsize h32 hin ess
    (hes.imp fun _ es h => ⟨h.1, h.2.1, [], by rw [List.append_nil]; exact h.2.2.symm, fun n h => ?_⟩) n hn
  have := h.1
  rw [List.take_nil] at this
  exact absurd this (by decide)

/-- C85 is false as stated: whatever follows the records `ess` in sound blocks (other records, behind bytes
that are no record), only the records before it are returned, and no call returns an error. -/
theorem C85_silent (hv : VolumeSpec False dev G Is At) (c : Bytes) (hc : c.length < U64)
    (w : W) (hG : G w) (fs : Ext4Fs D) (ho : Opened Is c fs) (inode : Inode) (d : Ext4Directory D)
    (hd : Ext4Directory.open fs inode = .ok d) (xs : List Nat)
    (hx : Contiguous c (blockSizeOf (sbOf c)) inode.blocksBuffer 0 0 xs)
    (hsize : inode.fileSizeBytes = xs.length * blockSizeOf (sbOf c)) (h32 : xs.length < U32)
    (hin : ∀ x ∈ xs, BlockInside c (blockSizeOf (sbOf c)) x) (ess : List (List Bytes))
    (hes : List.Forall₂ (fun x es =>
      BlockSound inode.metadataChecksumSeed (blockOf c (blockSizeOf (sbOf c)) x) ∧
      (∀ e ∈ es, IsRecord e) ∧ ∃ rest, es.flatten ++ rest = (blockOf c (blockSizeOf (sbOf c)) x).take
        (recordsEnd inode.metadataChecksumSeed (blockOf c (blockSizeOf (sbOf c)) x)) ∧
        ∀ n, ¬ IsRecord (rest.take n)) xs ess)
    (n : Nat) (hn : ess.flatten.length ≤ n) :
    ∃ h s', DirCalls dev (w, d) h s' ∧ h.length = n ∧ entriesOf h = ess.flatten ∧
      ∀ e, .err e ∉ h := by
  obtain ⟨s', h⟩ := listing_of hv c hc w hG fs ho inode d hd xs hx hsize h32 hin ess
    (hes.imp fun _ es h => ⟨h.1, h.2.1, h.2.2.imp fun _ h => ⟨h.1.symm, h.2⟩⟩) n hn
  refine ⟨_, s', h, ?_, entriesOf_listing _ _, fun e he => ?_⟩
  · rw [List.length_append, List.length_map, List.length_replicate]; omega
  · rcases List.mem_append.1 he with h | h
    · obtain ⟨x, -, hx⟩ := List.mem_map.1 h
      cases hx
    · cases (List.mem_replicate.1 h).2

end

namespace Fixture

/-- The hand-made filesystem with the entry "data" of its directory marked as not in use. -/
@[irreducible] def deletedFs : Bytes := patch smallFs (5 * 1024 + 24) [0, 0, 0, 0]
/-- The hand-made filesystem with the length of the entry "data" damaged. -/
@[irreducible] def damagedFs : Bytes := patch smallFs (5 * 1024 + 24 + 4) [3, 0]

theorem deletedFs_like : Like deletedFs := by
  rw [deletedFs]; exact patch_like _ _ (by decide) (by decide)
theorem damagedFs_like : Like damagedFs := by
  rw [damagedFs]; exact patch_like _ _ (by decide) (by decide)

set_option maxRecDepth 100000 in
theorem root_values (c : Bytes) (hc : c = smallFs ∨ c = deletedFs ∨ c = damagedFs) :
    inodeOf c 2 = inodeOf smallFs 2 ∧ le c (3072 + (2 - 1) * 256 + 0x80) 2 = 32 := by
  rcases hc with rfl | rfl | rfl
  · exact ⟨rfl, by decide +kernel⟩
  · rw [deletedFs]; decide +kernel
  · rw [damagedFs]; decide +kernel

set_option maxRecDepth 100000 in
theorem root_tree : hasBit (inodeOf smallFs 2).flags 12 = false
    ∧ (inodeOf smallFs 2).fileSizeBytes = 1024
    ∧ nodeDepth (root smallFs 2) = 0 ∧ nodeEntries (root smallFs 2) = 1
    ∧ (root smallFs 2).length = 60 ∧ entryFirst (nodeEntry (root smallFs 2) 0) = 0
    ∧ le (nodeEntry (root smallFs 2) 0) 4 2 = 1
    ∧ extentStart (nodeEntry (root smallFs 2) 0) = 5 := by
  decide +kernel

theorem root_contiguous (c : Bytes) : Contiguous c 1024 (root smallFs 2) 0 0 [5] := by
  obtain ⟨-, -, h1, h2, h3, h4, h5, h6⟩ := root_tree
  have hf : NodeFits (root smallFs 2) := by unfold NodeFits; omega
  have hl := extentLen_of h5 (by omega)
  have c1 : Contiguous c 1024 (root smallFs 2) 1 1 [] := by
    have := Contiguous.done (c := c) (bs := 1024) (root smallFs 2) 1
    rwa [h2] at this
  have c0 := Contiguous.extent (c := c) (bs := 1024) (root smallFs 2) 0 0 _ h1 (by omega) hf h4
    (by rw [h5]; omega) (by rw [hl]; exact c1)
  rw [hl, h6] at c0
  exact c0

set_option maxRecDepth 100000 in
/-- The records of block 5 of the three filesystems. -/
theorem root_records :
    (listOf 128 (blockOf smallFs 1024 5)).map (fun e => seen ⟨e⟩) =
        [⟨2, ⟨[46]⟩, .directory⟩, ⟨2, ⟨[46, 46]⟩, .directory⟩, ⟨3, ⟨[100, 97, 116, 97]⟩, .regularFile⟩,
         ⟨4, ⟨[108, 111, 111, 112]⟩, .regularFile⟩]
    ∧ (∀ e ∈ listOf 128 (blockOf smallFs 1024 5), le e 0 4 ≠ 0)
    ∧ (listOf 128 (blockOf deletedFs 1024 5)).map (fun e => seen ⟨e⟩) =
        [⟨2, ⟨[46]⟩, .directory⟩, ⟨2, ⟨[46, 46]⟩, .directory⟩, ⟨0, ⟨[100, 97, 116, 97]⟩, .regularFile⟩,
         ⟨4, ⟨[108, 111, 111, 112]⟩, .regularFile⟩]
    ∧ (listOf 128 (blockOf damagedFs 1024 5)).map (fun e => seen ⟨e⟩) =
        [⟨2, ⟨[46]⟩, .directory⟩, ⟨2, ⟨[46, 46]⟩, .directory⟩] := by
  refine ⟨by decide +kernel, by decide +kernel, ?_, ?_⟩
  · rw [deletedFs]; decide +kernel
  · rw [damagedFs]; decide +kernel

theorem root_listing (c : Bytes) (hl : Like c) (hc : c = smallFs ∨ c = deletedFs ∨ c = damagedFs)
    (n : Nat) (hn : (listOf 128 (blockOf c 1024 5)).length ≤ n) :
    ∃ (fs fs' : Ext4Fs InMemory) (d : Ext4Directory InMemory) (s' : Unit × Ext4Directory InMemory),
      Ext4Fs.open InMemory.streamDev ⟨c, 0, 512⟩ () = ((), .ok fs) ∧
      Ext4Fs.readInode InMemory.streamDev 2 ((), fs) = (((), fs'), .ok (inodeOf smallFs 2)) ∧
      Ext4Directory.open fs' (inodeOf smallFs 2) = .ok d ∧
      DirCalls InMemory.streamDev ((), d)
        (((listOf 128 (blockOf c 1024 5)).map fun e => .ok (some ⟨e⟩)) ++
          List.replicate (n - (listOf 128 (blockOf c 1024 5)).length) (.ok none)) s' := by
  obtain ⟨v1, v2⟩ := root_values c hc
  obtain ⟨t1, t2, -⟩ := root_tree
  obtain ⟨fs, fs', h1, h2, ho⟩ := hl.open 2 (by omega) (by omega) v2
  rw [v1] at h2
  have hd : Ext4Directory.open fs' (inodeOf smallFs 2) = .ok ⟨fileOf fs' (inodeOf smallFs 2), .start⟩ := by
    unfold Ext4Directory.open
    rw [if_neg (by rw [t1]; decide), open_file fs' _ (has_extents 2 (by omega) (by omega))]
    rfl
  have hlen := hl.length
  have hb : (blockOf c 1024 5).length = 1024 := by
    unfold blockOf; rw [List.length_take, List.length_drop]; omega
  obtain ⟨s', h3⟩ := listing_of InMemory.volumeSpec c (by rw [hlen]; omega) () trivial fs' ho
    (inodeOf smallFs 2) _ hd [5] (by rw [hl.blockSize]; exact root_contiguous c)
    (by rw [hl.blockSize, t2]; rfl) (by decide)
    (by rw [hl.blockSize]; unfold BlockInside; rw [hlen]; decide)
    [listOf 128 (blockOf c 1024 5)]
    (by
      rw [hl.blockSize]
      refine .cons ⟨fun s hs => (by cases hs), ?_⟩ .nil
      show Tiles ((blockOf c 1024 5).take (blockOf c 1024 5).length) _
      rw [List.take_length]
      exact tiles_listOf 128 _ (by omega)) n
    (by rw [List.flatten_singleton]; exact hn)
  rw [List.flatten_singleton] at h3
  exact ⟨fs, fs', _, s', h1, h2, hd, h3⟩

end Fixture

open Fixture

theorem seen_listing (es : List Bytes) (k : Nat) :
    ((es.map fun e => (Res.ok (some (DirEntry.mk e)) : Res (Option DirEntry))) ++
        List.replicate k (Res.ok none)).map seenRes
      = ((es.map fun e => seen ⟨e⟩).map fun x => (Res.ok (some x) : Res (Option Seen)))
        ++ List.replicate k (.ok none) := by
  rw [List.map_append, List.map_map, List.map_map, List.map_replicate]
  rfl

/-- Case for C84: the directory of the hand-made filesystem with "data" marked as not in use: it is returned,
with the inode number 0. -/
theorem C84_case : ∃ (fs fs' : Ext4Fs InMemory) (d : Ext4Directory InMemory)
    (h : List (Res (Option DirEntry))) (s' : Unit × Ext4Directory InMemory),
    Ext4Fs.open InMemory.streamDev ⟨deletedFs, 0, 512⟩ () = ((), .ok fs) ∧
      Ext4Fs.readInode InMemory.streamDev 2 ((), fs) = (((), fs'), .ok (inodeOf smallFs 2)) ∧
      Ext4Directory.open fs' (inodeOf smallFs 2) = .ok d ∧ DirCalls InMemory.streamDev ((), d) h s' ∧
      h.map seenRes = [.ok (some ⟨2, ⟨[46]⟩, .directory⟩), .ok (some ⟨2, ⟨[46, 46]⟩, .directory⟩),
        .ok (some ⟨0, ⟨[100, 97, 116, 97]⟩, .regularFile⟩),
        .ok (some ⟨4, ⟨[108, 111, 111, 112]⟩, .regularFile⟩), .ok none] := by
  obtain ⟨-, -, hr, -⟩ := root_records
  have hn : (listOf 128 (blockOf deletedFs 1024 5)).length = 4 := by
    have := congrArg List.length hr
    rwa [List.length_map] at this
  obtain ⟨fs, fs', d, s', h1, h2, h3, h4⟩ := root_listing deletedFs deletedFs_like (.inr (.inl rfl)) 5
    (by omega)
  refine ⟨fs, fs', d, _, s', h1, h2, h3, h4, ?_⟩
  rw [seen_listing, hr, hn]
  rfl

/-- The directory of the hand-made filesystem is like those of C84_used_partial and
C85_complete_partial: all records are in use, and fill the block. -/
example : ∃ (fs fs' : Ext4Fs InMemory) (d : Ext4Directory InMemory) (h : List (Res (Option DirEntry)))
      (s' : Unit × Ext4Directory InMemory),
    Ext4Fs.open InMemory.streamDev ⟨smallFs, 0, 512⟩ () = ((), .ok fs) ∧
      Ext4Fs.readInode InMemory.streamDev 2 ((), fs) = (((), fs'), .ok (inodeOf smallFs 2)) ∧
      Ext4Directory.open fs' (inodeOf smallFs 2) = .ok d ∧ DirCalls InMemory.streamDev ((), d) h s' ∧
      h.map seenRes = [.ok (some ⟨2, ⟨[46]⟩, .directory⟩), .ok (some ⟨2, ⟨[46, 46]⟩, .directory⟩),
        .ok (some ⟨3, ⟨[100, 97, 116, 97]⟩, .regularFile⟩),
        .ok (some ⟨4, ⟨[108, 111, 111, 112]⟩, .regularFile⟩), .ok none, .ok none] ∧
      ∀ e ∈ entriesOf h, InUse e := by
  obtain ⟨hr, hu, -⟩ := root_records
  have hn : (listOf 128 (blockOf smallFs 1024 5)).length = 4 := by
    have := congrArg List.length hr
    rwa [List.length_map] at this
  obtain ⟨fs, fs', d, s', h1, h2, h3, h4⟩ := root_listing smallFs smallFs_like (.inl rfl) 6
    (by omega)
  refine ⟨fs, fs', d, _, s', h1, h2, h3, h4, ?_, by rw [entriesOf_listing]; exact hu⟩
  rw [seen_listing, hr, hn]
  rfl

/-- Case for C85: with the length of "data" damaged, "data" and "loop" are missing from the listing, and no
error is returned. -/
theorem C85_case : ∃ (fs fs' : Ext4Fs InMemory) (d : Ext4Directory InMemory)
    (h : List (Res (Option DirEntry))) (s' : Unit × Ext4Directory InMemory),
    Ext4Fs.open InMemory.streamDev ⟨damagedFs, 0, 512⟩ () = ((), .ok fs) ∧
      Ext4Fs.readInode InMemory.streamDev 2 ((), fs) = (((), fs'), .ok (inodeOf smallFs 2)) ∧
      Ext4Directory.open fs' (inodeOf smallFs 2) = .ok d ∧ DirCalls InMemory.streamDev ((), d) h s' ∧
      h.map seenRes = [.ok (some ⟨2, ⟨[46]⟩, .directory⟩), .ok (some ⟨2, ⟨[46, 46]⟩, .directory⟩),
        .ok none, .ok none] := by
  obtain ⟨-, -, -, hr⟩ := root_records
  have hn : (listOf 128 (blockOf damagedFs 1024 5)).length = 2 := by
    have := congrArg List.length hr
    rwa [List.length_map] at this
  obtain ⟨fs, fs', d, s', h1, h2, h3, h4⟩ := root_listing damagedFs damagedFs_like (.inr (.inr rfl)) 4
    (by omega)
  refine ⟨fs, fs', d, _, s', h1, h2, h3, h4, ?_⟩
  rw [seen_listing, hr, hn]
  rfl

end MdRecover
