# Formal model of md-recover: design

md-recover (Rust, `/repo`) finds Linux md superblocks on member devices, assembles and diagnoses an
array, reads RAID6 stripes, and reads an ext4 file system from a block device.  This directory holds a
Lean 4 model of that code and machine-checked theorems about it.

* `properties.jsonl`: the properties (C01...), stated in terms of the API.
* `lean/Verif/Model/*`: the model, function by function; every definition cites file and lines.
* `lean/Verif/Spec/*`: small specifications that do not mention the model (layout tables, byte
  streams, on-disk offsets, CRC as polynomial arithmetic, extent maps, ...).
* `lean/Verif/Lemmas/*`: helper lemmas.
* `lean/Verif/Props/*`: the property theorems and, next to each, an `example` (or `_witness`
  theorem) showing that its hypotheses hold in a concrete non-trivial case.
* `MANIFEST.json`: property -> theorems.  `seeded/LOG.jsonl`: wrong programs tried against the theorems.

## 1. Modelling decisions

* **Integers.** `u8` is `UInt8` in byte strings; other machine integers are `Nat` with the machine's
  bounds made explicit: `checked_*` operations are functions to `Option` that fail exactly when the
  Rust ones do.  Plain `+` and `*` depend on the build (`class Build`): if they overflow they panic in a build
  with overflow checks (`checkedBuild`, the default of cargo for development) and wrap around in one without
  (`releaseBuild`).  Only three of them can overflow, all in the ext4 part, whose theorems are for any build
  (`[Build]`); where a wrapped number would make a theorem false in a release build it has the hypothesis
  `TableChecked` or `BlocksCounted` (checks are on, or the number is small enough).  Other plain operations
  cannot overflow, as their comments say.  `usize` is 64 bits.
  CRC states are `BitVec 32`.
* **Outcomes.** `Res α = ok a | err kind | panic`.  Slice indexing out of range, `copy_from_slice` length
  mismatch, `unwrap` of `None` and division by zero are `panic`.  I/O error kinds are kept.
* **Buffers.** `&mut [u8]` is an input list and an output list.  A callee cannot change its length.
* **Devices.** The `BlockDevice`/`Read`/`Seek` traits are type classes of state-passing functions, so a
  device may be stateful and may fail at any call.  Theorems quantify over devices through
  specifications (`DevSpec F`, `StreamDevSpec F`, `VolumeSpec F` in `Spec/Device`, `Spec/StreamDevice`,
  `Spec/Volume`): whatever the device returns is right, reads may be short, and it may fail at any time if
  `F` is `True` and not at all if `F` is `False`.
* **Files.** Several handles cloned from one file share one cursor; this is modelled explicitly.
* **Hash maps.** Association lists without duplicate keys; whatever iteration order Rust may choose is a
  parameter constrained only to be a permutation, and theorems are for every such order.
* **Loops** that may not terminate (`read_next_block`) are small-step machines run with fuel; "returns"
  means "for some fuel", and non-termination means "for no fuel".
* **Binary layouts** (`binary_layout!`) are lists of (field, width) in source order; offsets are computed
  as prefix sums as the macro does, and compared with independently written tables of the documented
  disk-format offsets.
* **Strings/OsStrings** are byte lists.

## 2. Trusted base

Lean's kernel; the axioms `propext`, `Classical.choice`, `Quot.sound` (no others; each theorem's list is
printed by `#print axioms`); the transcription of the Rust code into the model (checked by reading, by the
cited lines and by evaluating the model on the fixtures of the project's tests, see section 5); the
semantics assumed for std and crates: `read_exact`, slices, `HashMap`, iterator adaptors, itertools
(`zip_longest`, `partition_map`), binary-layout, byteorder, crc, num_enum, bitflags.

Library functions that the model transcribes from their published source rather than from /repo: the
CRC update of the `crc` crate (also compared with polynomial arithmetic, C52), `String::from_utf8_lossy` and
`str::from_utf8` (compared with the definition of UTF-8, C73), comparison of `str`, itertools
`partition_result`, the `iocuddle` wrappers of `ioctl`.  The operating system is a parameter: which paths open,
what each `ioctl` and each read returns, including errors, and how far beyond the end of a file its cursor
may be set (not at all on block devices).

The text of a diagnosis (`{:#?}`) is modelled after the formatting code of the standard library
(`PadAdapter`, the builders, `Utf8Chunks`); the Unicode tables that decide which characters are written
literally are a parameter, and so are `maybe_quote` of `os_display` and the texts of `io::Error`, which are
used in the list of paths with errors.

The parser of the command line, which `clap` derives from the options, is modelled after its documented
behaviour, and the standard output after the standard library (`println!` panics, `EBADF` is ignored).

Not modelled: the texts of `clap`, memory exhaustion other than `Vec` capacity overflow, 32-bit targets.

Axioms: `#print axioms` for every theorem of the manifest prints a subset of
`[propext, Classical.choice, Quot.sound]`; about a tenth need no axiom or only `propext`.

## 3. Plan per property

| id | model (`Verif/Model`) | specification (`Verif/Spec`) and proof (`Verif/Props`) |
|----|-------|-------|
| C01-C09 | `Raid6`, `Raid5`, `Algorithm`, `Units` | `Spec/Layout` gives the role of a device in a stripe by tables; `Props/RaidLayout`: case analysis on the layout, division with remainder, bijection per stripe |
| C10 | `Format`, `Wide` | `Props/Capacity`: arithmetic |
| C11-C15 | `Raid6` reading with any stateful read callback | `Spec/Parity`; `Props/Raid6Read`: induction over the device loop, XOR algebra |
| C16-C21 | `Array` | `Spec/ArrayRead`, `Spec/Device`; `Props/ArrayRead`: composition of layout, parity and device specifications; negations by witnesses |
| C22-C27 | `Array`, `MdDevice` | `Spec/Array`; `Props/ArrayOpen`: folds of options, association lists, permutations |
| C28 | `Superblock` (roles) | `Props/Superblock`: arithmetic |
| C29-C33 | `Diagnosis`, `HMap` | `Spec/Diagnosis`; `Props/Diagnosis`, `Props/MultiMap`: filtering, permutation invariance |
| C34 | `MdDevice` (atomic counter, any interleaving) | `Props/Probe` |
| C35-C36 | `MdDevice` | `Spec/Probe`, `Spec/MdOnDisk`; `Props/Probe` |
| C37-C43 | `SuperblockV0`, `SuperblockV1`, `Layout` | offset tables and generic layout lemmas; `Props/Superblock` |
| C44-C47 | `Reader`, `IO` | `Spec/Stream`; `Props/Reader`: simulation with a byte stream, induction over operations |
| C48-C50 | `InMemory`, `FileDevice` | `Spec/Device`, `Spec/Tracked`; `Props/Devices` |
| C51 | `Wide` | `Props/Wide` |
| C52-C53 | `Crc` | `Spec/Crc` (polynomials); `Props/Crc` |
| C54-C56 | `Ext4Superblock` | `Spec/Ext4Superblock`; `Props/Ext4Superblock` |
| C57-C59, C74 | `Ext4Fs`, `Ext4Group`, `StreamDevice` | `Spec/Ext4Fs`, `Spec/StreamDevice`, `Spec/Volume`; `Props/Ext4Fs` |
| C60-C62 | `Ext4Inode` | `Spec/Ext4Inode`; `Props/Ext4Inode` |
| C63-C68 | `Ext4Extent`, `Ext4File` | `Spec/Ext4File` (extent maps); `Props/Ext4File`, `Props/Ext4FileCases`; `Spec/Endless`, `Lemmas/Endless`, `Props/Endless` (when a read does not end): induction over trees, loops with fuel |
| C69-C72 | `Ext4Directory` | `Spec/Ext4Directory`; `Props/Ext4Directory`, `Props/Ext4DirectoryCases` |
| C73 | `Ext4String`, `Utf8` | `Spec/Utf8`; `Props/Ext4String` |
| C75 | `Ext4Directory` (open) | `Spec/Ext4Open`; `Props/Ext4Open` |
| C76-C77 | all of the ext4 code | `Spec/Ext4Session`; `Props/Ext4Session`, `Props/Native`: simulation between devices with equal contents |
| C78-C80 | `Main`, `Native` | `Spec/Main`; `Props/Main` |
| C81 | `ReadAll` | `Props/ReadAll`: induction over the pieces read |
| C82-C83 | `Codes` | `Props/Codes` |
| C84-C85 | `Ext4Directory` | `Spec/Ext4Directory`; `Props/Ext4Listing` |
| C86 | `Basic` (`Build`) and all of ext4 | `Spec/Ext4Session`; `Props/Ext4Build`: both builds run side by side |
| C87-C88 | `Main`, `Diagnosis` | `Spec/Clean`; `Props/Clean` |
| C89 | everything from `Main` to ext4 | `Spec/EndToEnd`; `Props/EndToEnd`, `Props/EndToEndCases` |
| C90-C93 | `Report` | `Spec/Report`, `Spec/ReportText`; `Props/Report`, `Props/ReportCases`, `Props/ReportText` |
| C94 | `Interrupted` | `Props/Interrupted` |
| C95-C96 | `CommandLine` | `Spec/CommandLine` (grammar); `Props/CommandLine` |
| C97 | `Display` | `Props/Display` |
| C98 | all of ext4, and `Main` to ext4 | `Spec/Ext4Path` (paths, and the program that follows them); `Props/Ext4Path` |
| C99 | `Ext4Superblock`, `Ext4Fs`, `DirBlock`, `Ext4Directory` | `Spec/Ext4Damage` (damage, checksums of inodes and descriptors); `Props/Ext4Damage` |
| C100 | `Raid6`, `Array`, `Reader`, `Ext4Fs` | `Spec/ArrayDamage` (damaged members, affected sectors); `Props/ArrayDamage` |
| C101 | `Reader`, `Array`, `Ext4Fs`, `Ext4File`, `Ext4Directory` | `Spec/Patchy` (unreadable blocks and bytes, what a path needs); `Lemmas/Patchy*`; `Props/Patchy` |
| C102 | `Ext4File`, `FileDevice` | `Spec/Retry` (trees without empty entries); `Lemmas/Ext4Retry`; `Props/Retry` |
| C103 | `Ext4Directory`, `Ext4File`, `FileDevice` | `Spec/Retry`; `Props/ListRetry`, `Props/SweepFailing` |
| C104 | `Ext4File`, `Ext4Directory`, `Ext4Fs` | `Spec/Trace`; `Props/Trace` |
| C105 | `MdDevice`, `Native`, `Main` | `Spec/Unreadable`; `Props/Unreadable` |
| C106 | `MdDevice`, `Ext4Superblock`, `Ext4Fs` | `Spec/Trace`, `Spec/OpenTrace`; `Props/OpenTrace` |
| C107 | `Reader`, `Array`, `Raid6` | `Spec/BlockTrace`; `Lemmas/BlockTrace`; `Props/BlockTrace` |
| C108 | all of ext4 | `Spec/PathTrace`; `Lemmas/PathTrace`; `Props/PathTrace` |
| C109 | `Ext4File`, `Ext4Directory` | `Spec/Trace`; `Lemmas/Lazy`; `Props/Lazy` |
| C110 | all of ext4 | `Spec/Elsewhere`; `Lemmas/Elsewhere`; `Props/Elsewhere` |
| C111 | `Main`, `MdDevice`, `Diagnosis` | `Spec/Elsewhere`; `Props/SameReport` |
| C112 | `Ext4Fs`, `Ext4File`, `Ext4Directory` | `Spec/PathFound`; `Props/PathFound` |
| C113 | `MdArray`, `Raid6`, `Reader`, `Ext4Fs` | `Spec/AnyMembers`; `Props/AnyMembers` |
| C114 | `Main`, `MdDevice`, `SuperblockV1`, `MdArray`, `Ext4Fs` | `Spec/AnyVersion`; `Props/AnyVersion` |
| C115 | `MdArray`, `Raid6`, `Reader`, `Ext4Fs` | `Spec/WholeSet`; `Props/WholeSet` |
| C116 | `Main`, `MdArray`, `Diagnosis` | `Spec/Clean`, `Spec/EndToEnd`; `Props/Mixed` |
| C117 | `Ext4Fs`, `Inode`, `Ext4File`, `Ext4Directory` | `Spec/NoPanic`, `Spec/Ext4Session`; `Props/NoPanic` |
| C118 | `Main`, `MdArray`, `Diagnosis` | `Spec/AnyVersion`, `Spec/Clean`; `Props/Twice` |
| C119 | `Main`, `MdArray` | `Spec/AnyVersion`; `Props/Selection` |
| C120 | `Main`, `MdArray`, `Raid6` | `Spec/AnyVersion`; `Props/Selection` (`_partial`: false as stated) |
| C121 | `Ext4File`, `Ext4Directory`, `Ext4Fs` | `Spec/Rounds`, `Spec/NoPanic`, `Spec/Ext4Session`; `Props/Rounds` |
| C122 | `Main`, `MdDevice`, `MdArray`, `Raid6` | `Spec/Intruder`, `Spec/Array`, `Spec/ArrayRead`, `Spec/EndToEnd`; `Props/Intruder` (`_partial`: false with spares) |
| C123 | `Ext4Fs`, `Ext4File`, `Ext4Directory`, `Ext4Inode`, `Ext4Superblock` | `Spec/Mkfs`, `Spec/Ext4Path`; `Lemmas/Mkfs`, `Props/Written` |
| C124 | `Main`, `MdDevice`, `MdArray`, `Raid6`, `Diagnosis`, `Ext4Fs` | `Spec/Created`, `Spec/Mkfs`, `Spec/EndToEnd`; `Props/Created` |
| C125 | `Ext4Fs`, `Ext4File`, `Ext4Directory`, `MdArray`, `Main` | `Spec/Ext4Tree` (the tree that the bytes describe, the program that reads it, trees put into tables); `Props/Ext4Tree` |
| C126 | `Ext4Fs`, `Ext4File`, `Ext4Directory`, `MdArray` | `Spec/TreeFound`, `Spec/Ext4Tree`, `Spec/PathFound`; `Lemmas/TreeFound`, `Props/TreeFound` |
| C127 | `Ext4Fs`, `Ext4File`, `Ext4Directory`, `MdArray` | `Spec/Salvage`, `Spec/Mkfs`, `Spec/Patchy`; `Lemmas/Salvage`, `Props/Salvage` |
| C128 | `Ext4Fs`, `Ext4Directory`, `Ext4File` | `Spec/Front`; `Lemmas/Front`, `Props/Front` |
| C129 | `Ext4Fs`, `Ext4Directory`, `DirBlock`, `Ext4File` | `Spec/FrontList`; `Lemmas/FrontList`, `Props/FrontList` |
| C130 | `Ext4Fs`, `Ext4Directory`, `DirBlock`, `Ext4File` | `Spec/Rescue`; `Lemmas/Rescue`, `Props/Rescue` |
| C131 | `Reader`, `FileDevice` | `Spec/BlockOps`; `Lemmas/BlockOps`, `Props/BlockOps` |
| C132 | `main`, `NativeDevice`, `MdDevice`, `MdArray`, `Reader`, `Ext4Fs` | `Spec/Created`, `Spec/Rescue`; `Props/RescueDisks` |
| C133 | `Ext4Fs`, `Ext4File`, `Ext4Directory`, `Reader`, `FileDevice`, `MdArray` | `Spec/SessionFailing`; `Lemmas/SessionFailing`, `Props/SessionFailing` |
| C134 | `Ext4Fs`, `Ext4File`, `Ext4Directory`, `DirBlock`, `Inode`, `Reader`, `MdArray` | `Spec/DirDamage`, `Spec/Mkfs`; `Lemmas/DirDamage`, `Props/DirDamage` |
| C135 | `Ext4Fs`, `Ext4File`, `Ext4Directory`, `DirBlock`, `Inode`, `Reader`, `MdArray` | `Spec/Sweep`, `Spec/SweepFailing`, `Spec/DirDamage`, `Spec/Mkfs`; `Lemmas/Sweep`, `Props/Sweep`, `Lemmas/SweepFailing`, `Props/SweepFailing` |
| C136 | `Ext4Fs`, `Ext4File`, `Ext4Directory`, `DirBlock`, `Inode`, `Reader`, `MdArray` | `Spec/SweepPatchy`, `Spec/SweepFailing`, `Spec/Salvage`, `Spec/Mkfs`; `Lemmas/SweepPatchy`, `Props/SweepPatchy`, `Props/SweepDisks` |
| C137 | `Ext4Fs`, `Ext4File`, `Ext4Directory`, `DirBlock`, `Inode`, `Reader`, `MdArray` | `Spec/SweepFront`, `Spec/SweepPatchy`, `Spec/SweepFailing`, `Spec/Mkfs`; `Lemmas/SweepFront`, `Props/SweepFront` |
| C138 | `Ext4Fs`, `Ext4File`, `Ext4Directory`, `Reader`, `Array` | `Spec/Lost`, `Spec/Elsewhere`, `Spec/PathFound`; `Props/Lost`, `Props/LostArray` |

All properties are expressible in the model; those that are false of the code as written are handled by a
theorem for the true part (suffix `_partial`) and a theorem proving the negation on a concrete witness.

## 4. Findings

Behaviour of the code as written that contradicts the property a user would rely on, or comes close.  Each
is proved about the model by the theorem named, with a concrete witness.

md:

1. Role 0xfeff is a device position and yet not valid (C28_max_position); 32-bit roles of 0.90 superblocks
   above 16 bits belong to no class but are valid (C28_wide_roles_unclassified).
2. The merge of the role tables depends on the order of the devices (C25_order_matters).  One device without
   superblock makes all devices inactive (C26).
3. `reshape_status` of a 0.90 superblock is always present, so that 0.90 arrays that are not being reshaped are
   read with the format of the reshape and cannot be read (C20_v0_unreadable).
4. `data_offset` is ignored by reads of the array (C17_data_offset_ignored,
   C17_reads_before_the_data_area).  So ext4 filesystems on arrays of version 1.1, and on those of version 1.2 whose
   first 4 KiB do not happen to hold one, are refused, although the report is clean (C114_version11, C114_case).
5. A buffer longer than a block makes the array device panic (C18_larger_buffer_panics), and the in-memory
   device likewise (C49_larger_buffer_panics, C49_out_of_range_panics).
6. The device id counter wraps after its overflow panic (C34_counter_wraps).
7. Negative `delta_devices` are lost (C43_negative_delta_is_lost).
8. A device size that is no multiple of the chunk size gives addresses outside of the members
   (C10_needs_divisibility).
9. RAID5 arrays are never read; lost RAID6 members are not recovered beyond what parity P allows (C11-C15 say what
   happens).
10. Read errors while superblocks are looked for are taken as "no superblock there" (C36), and devices without
    array name are not compared by name in the diagnosis.
11. The program refuses regular files, such as disk images (C79); with physical blocks above 4096 bytes 1.0
    superblocks are looked for in the wrong place (C80_large_blocks).  Missing members are not reported
    (C88_missing_members_unreported).  The exit status is 0 even if no path could be opened
    (C91_status_counterexample).

ext4:

12. `Ext4Fs::open` panics for `blocks_per_group` 0, for descriptor tables beyond 2^64 and for descriptor
    vectors beyond the capacity of `Vec` (C57_panics, C57_panics_on); a descriptor size of 0, which is what
    filesystems without the 64BIT feature have, is refused (C57_needs_descriptor_size).  Without overflow checks
    the second of the three panics is replaced by reading the descriptors from a wrong place
    (C86_open_wraps).
13. Clearing the checksum type byte turns the check of the superblock's checksum off (C54_type_cleared).
14. `Inode::new` panics if the declared extra size exceeds 32 or the inode is too short for it (C60_panics).
    The checksums of inodes are never compared.
15. Extent nodes are not checked when files are read (C68_magic_ignored); an index that leads back to its node makes
    reading loop for ever (C66_cycle; C66_exact says exactly when); too many entries panic (C68_too_many).  The check that exists, and is used nowhere,
    looks for the checksum after the entries in use (C68_kernel_node_refused).
16. Unwritten extents are returned as data (C67_unwritten); the longest extent, 0x8000 blocks, is taken to be
    empty (C67_longest, C63_longest_extent).  Holes give errors (C65).
17. Blocks beyond the end of the filesystem are read if the volume goes on (C74_no_block_check).
18. `DirEntry::name` ignores the length of the name (C70_stale_bytes); deleted entries (inode 0) are returned
    (C84_unused_returned); a malformed record ends its block without an error (C85_silent).
19. Comparison of `Ext4String`s is not consistent with equality (C73_collision).
20. A file mode made from an unknown file type above 15 does not give the type back (C62_wide_type_lost).  The unknown
    inode types 3, 5 and 7 turn into known types when converted for a directory entry and written
    (C82_unknown_known).
21. Disks of different arrays of the same shape, and outdated disks, are read together (C116_mixed).
22. An array with a missing member is not read at all, although RAID6 has what is needed to calculate two missing
    members, and the report does not say that members are missing (C120_missing_refused, C120_case).

## 5. Validation of the model

`Verif/Validation.lean` and `Verif/ValidationFs.lean` repeat the unit tests of /repo on the model: the same inputs
(the test data are in `Verif/Fixture`), the same expected values, evaluated by the kernel.  They test the
transcription and are not counted as proofs.  All pass:
superblocks (ext2, ext4, random bytes, zeros), block group descriptors, inodes, times, file modes, extent trees, directory
entries and blocks, CRC, md superblocks of versions 1, 0.90 little- and big-endian, the reader, opening filesystems and
reading the root inode and root directory of a volume made by mkfs.

`seeded/LOG.jsonl` lists the wrong programs: edits of the model, in a copy, as a bug would make them, with the theorems
that no longer prove.  Edits that were not noticed led to the tightenings listed there.
