{"claims": [
  {"property": "C01", "status": "proved", "theorems": ["MdRecover.C01_raid6_roles_distinct"], "note": "All 14 layouts, any u64 sector, any u32 chunk size and device count."},
  {"property": "C02", "status": "proved", "theorems": ["MdRecover.C02_raid6_injective"], "note": "Two logical sectors mapped to the same (device, sector) are equal."},
  {"property": "C03", "status": "proved", "theorems": ["MdRecover.C03_raid6_covers_data_slots", "MdRecover.C03_raid6_data_only"], "note": "Every data slot of the layout table is the image of the logical sector built from its coordinates; and an answer always names a data slot."},
  {"property": "C04", "status": "proved", "theorems": ["MdRecover.C04_raid6_layout_table", "MdRecover.C04_raid6_layout_numbers"], "note": "Compared with the table Spec/Layout.lean keyed by the on-disk layout number."},
  {"property": "C05", "status": "proved", "theorems": ["MdRecover.C05_raid6_total"], "note": "Exact failure condition."},
  {"property": "C06", "status": "proved", "theorems": ["MdRecover.C06_raid5_roles_distinct"], "note": "All 6 layouts."},
  {"property": "C07", "status": "proved", "theorems": ["MdRecover.C07_raid5_injective", "MdRecover.C07_raid5_covers_data_slots"], "note": "Injective, and onto the data slots of the layout table."},
  {"property": "C08", "status": "proved", "theorems": ["MdRecover.C08_raid5_layout_table", "MdRecover.C08_raid5_layout_numbers"], "note": "Compared with Spec/Layout.lean."},
  {"property": "C09", "status": "proved", "theorems": ["MdRecover.C09_raid5_total"], "note": "Exact failure condition."},
  {"property": "C10", "status": "proved", "theorems": ["MdRecover.C10_raid6_blocks_inside", "MdRecover.C10_raid6_slots_covered", "MdRecover.C10_raid5_blocks_inside", "MdRecover.C10_raid5_slots_covered", "MdRecover.C10_needs_divisibility"], "note": "C10_needs_divisibility shows that without divisibility of sectors_per_device by the chunk size the statement fails."},
  {"property": "C11", "status": "proved", "theorems": ["MdRecover.C11_raid6_read_consistent"], "note": "The member-read callback is arbitrary and stateful, required only to return the stored sectors."},
  {"property": "C12", "status": "proved", "theorems": ["MdRecover.C12_raid6_read_checks_parity", "MdRecover.C12_raid6_single_corruption_detected"], "note": "First theorem: members may fail at any call. Second: any change of one non-Q device's sector is answered InvalidData."},
  {"property": "C13", "status": "proved", "theorems": ["MdRecover.C13_raid6_read_fails_with_member"], "note": "Errors and short counts of any member, stateful members."},
  {"property": "C14", "status": "proved", "theorems": ["MdRecover.C14_raid6_read_trace"], "note": "Trace obtained by instrumenting an arbitrary callback."},
  {"property": "C15", "status": "proved", "theorems": ["MdRecover.C15_unsupported_never_reads"], "note": "The callback state is unchanged."},
  {"property": "C16", "status": "partial", "theorems": ["MdRecover.C16_array_device_partial", "MdRecover.C16_round_trip_partial"], "note": "Proved for data areas that begin at sector 0, as an instance of the general block-device specification (block size, count, reads, clones), for any member block sizes, any device order, and failing members; plus a round trip for every content. False for other data offsets (C17)."},
  {"property": "C17", "status": "partial", "theorems": ["MdRecover.C17_data_offset_ignored", "MdRecover.C17_zero_offset_partial", "MdRecover.C17_reads_before_the_data_area"], "note": "False: no read depends on the data offset (C17_data_offset_ignored), and what lies before the data area is returned as data (C17_reads_before_the_data_area). Proved for offset zero."},
  {"property": "C18", "status": "partial", "theorems": ["MdRecover.C18_larger_buffer_panics", "MdRecover.C18_exact_buffer_partial"], "note": "False: buffers longer than 512 bytes panic (C18_larger_buffer_panics). Proved for buffers of at most 512 bytes: error or exactly 512 bytes, never a panic, for any array."},
  {"property": "C19", "status": "proved", "theorems": ["MdRecover.C19_missing_member_no_data", "MdRecover.C19_missing_member_error"], "note": "No data for arbitrary device behaviour; an error (not a panic) when the other members answer as disks or fail."},
  {"property": "C20", "status": "partial", "theorems": ["MdRecover.C20_v1_current_format_partial", "MdRecover.C20_v0_unreadable"], "note": "Proved for 1.x superblocks. False for 0.90: reshape_status is always Some there, so the reshape format is used and the array is unreadable (C20_v0_unreadable, with a witness)."},
  {"property": "C21", "status": "proved", "theorems": ["MdRecover.C21_clones_read_identically"], "note": "Any interleaving of clones and reads over reliable members."},
  {"property": "C22", "status": "proved", "theorems": ["MdRecover.C22_format_iff", "MdRecover.C22_new_format_iff", "MdRecover.C22_no_format_no_data"], "note": "Both formats; block_count and read_block fail with InvalidData when neither is agreed."},
  {"property": "C23", "status": "proved", "theorems": ["MdRecover.C23_every_device_once"], "note": "Active plus inactive devices are a permutation of the devices given, for every valid hash iteration order."},
  {"property": "C24", "status": "proved", "theorems": ["MdRecover.C24_active_iff"], "note": "Stated on the devices given to open and the merged table."},
  {"property": "C25", "status": "partial", "theorems": ["MdRecover.C25_formats_any_order", "MdRecover.C25_any_hash_order", "MdRecover.C25_any_order_partial", "MdRecover.C25_order_matters"], "note": "Formats are order independent and nothing depends on hash order. Active and inactive devices are order independent when no role table contains an invalid role. Without that the claim is false: C25_order_matters gives two orders of the same devices with different active devices."},
  {"property": "C26", "status": "proved", "theorems": ["MdRecover.C26_missing_superblock_disables"], "note": "No device is active; block_count and read_block give InvalidData."},
  {"property": "C27", "status": "proved", "theorems": ["MdRecover.C27_merged_table", "MdRecover.C27_exists_iff", "MdRecover.C27_length", "MdRecover.C27_conflict_free", "MdRecover.C27_opinion"], "note": "Length, existence condition, conflict-free characterisation and the opinion rule, for any list of tables."},
  {"property": "C28", "status": "partial", "theorems": ["MdRecover.C28_exactly_one", "MdRecover.C28_classes", "MdRecover.C28_valid_iff_not_invalid_partial", "MdRecover.C28_max_position", "MdRecover.C28_wide_roles_unclassified"], "note": "Classes exclusive and exhaustive for 16-bit roles; validity vs invalidity proved except at 0xfeff, where the code contradicts the claim (C28_max_position); 32-bit 0.90 roles above 16 bits are in no class (C28_wide_roles_unclassified)."},
  {"property": "C29", "status": "proved", "theorems": ["MdRecover.C29_disagreements_exact"], "note": "All nine attributes, against a generic report specification, over the devices given to open."},
  {"property": "C30", "status": "proved", "theorems": ["MdRecover.C30_listings_exact"], "note": "Both listings, as sets of ids."},
  {"property": "C31", "status": "proved", "theorems": ["MdRecover.C31_duplicate_indexes_exact"], "note": "Absent, keys, values and ids of the report."},
  {"property": "C32", "status": "proved", "theorems": ["MdRecover.C32_order_independent"], "note": "All twelve fields, for any permutation of the devices and four independent hash orders."},
  {"property": "C33", "status": "proved", "theorems": ["MdRecover.C33_group_by_key", "MdRecover.C33_nothing_lost"], "note": "Values per key in sequence order; keys exactly those occurring; nothing lost."},
  {"property": "C34", "status": "partial", "theorems": ["MdRecover.C34_ids_unique_partial", "MdRecover.C34_counter_wraps"], "note": "All interleavings of up to 2^64 creations. Beyond that the claim is false: the counter wraps after the panic (C34_counter_wraps)."},
  {"property": "C35", "status": "proved", "theorems": ["MdRecover.C35_probes_inside", "MdRecover.C35_too_small_iff"], "note": "Arbitrary device (also lying or failing); every byte range asked for is recorded by an instrumented device. Size is a u64. Too-small reports are exact."},
  {"property": "C36", "status": "proved", "theorems": ["MdRecover.C36_probe_order", "MdRecover.C36_expected_unique", "MdRecover.C36_never_invented", "MdRecover.C36_devices", "MdRecover.C36_too_large", "MdRecover.C36_witness"], "note": "Any device meeting the stream-device spec (in-memory and file-backed proved to meet it), any content and size; with failures only genuine superblocks are reported."},
  {"property": "C37", "status": "proved", "theorems": ["MdRecover.C37_accepted_iff"], "note": "For every reader and state: exact acceptance condition on the bytes read, and errors passed on."},
  {"property": "C38", "status": "proved", "theorems": ["MdRecover.C38_offsets", "MdRecover.C38_fields_inside", "MdRecover.C38_round_trip"], "note": "All contents: literal documented offsets; all member values: decode of an independently written kernel-struct encoder; fields inside the buffer."},
  {"property": "C39", "status": "proved", "theorems": ["MdRecover.C39_role_table", "MdRecover.C39_no_panic"], "note": "Length, entries and absence of panics."},
  {"property": "C40", "status": "proved", "theorems": ["MdRecover.C40_round_trip", "MdRecover.C40_byte_orders_agree"], "note": "Round trip from an independent encoder for either byte order, and equality of the two decodings."},
  {"property": "C41", "status": "proved", "theorems": ["MdRecover.C41_accepted_iff", "MdRecover.C41_witness"], "note": "Exact acceptance condition in terms of stored bytes. \"Valid role\" is the code's notion (0xfeff excluded, see C28)."},
  {"property": "C42", "status": "proved", "theorems": ["MdRecover.C42_version_1", "MdRecover.C42_version_0"], "note": "Both versions; 0.90 in any combination of byte orders and minor versions."},
  {"property": "C43", "status": "partial", "theorems": ["MdRecover.C43_reshape_format_partial", "MdRecover.C43_negative_delta_is_lost"], "note": "Proved for non-negative deltas; proved false for every negative delta (C43_negative_delta_is_lost)."},
  {"property": "C44", "status": "proved", "theorems": ["MdRecover.C44_devices_meet_spec", "MdRecover.C44_reader_is_stream"], "note": "Any sequence of read/seek/clone on any number of readers of any device meeting DevSpec (may fail at any call) is a run of abstract byte streams. In-memory and file devices meet DevSpec."},
  {"property": "C45", "status": "proved", "theorems": ["MdRecover.C45_seek_read_exact", "MdRecover.C45_seek_read_exact_honest"], "note": "Exact result for devices that never fail; correctness of successes for devices that may fail."},
  {"property": "C46", "status": "proved", "theorems": ["MdRecover.C46_seek", "MdRecover.C46_read_past_end"], "note": "Exact result, including the position afterwards."},
  {"property": "C47", "status": "proved", "theorems": ["MdRecover.C47_retry_after_errors", "MdRecover.C47_error_passed_on"], "note": "A failing read leaves the cursor where it was and is answered with exactly the error of the device (C47_error_passed_on); errors never moving a cursor is also part of StreamRun (C44)."},
  {"property": "C48", "status": "proved", "theorems": ["MdRecover.C48_in_memory_stream"], "note": "All histories of reads and seeks."},
  {"property": "C49", "status": "partial", "theorems": ["MdRecover.C49_in_memory_blocks_partial", "MdRecover.C49_out_of_range_panics", "MdRecover.C49_larger_buffer_panics"], "note": "Out-of-range block numbers and larger buffers panic (proved by C49_out_of_range_panics and C49_larger_buffer_panics), so the full property is false of the code; the partial theorem covers exact and too-small buffers."},
  {"property": "C50", "status": "proved", "theorems": ["MdRecover.C50_file_clones_do_not_interfere", "MdRecover.C50_seek"], "note": "All interleavings, any number of clones, any short reads and failures by the kernel. Kernel offset semantics as in Model/FileDevice.lean."},
  {"property": "C51", "status": "proved", "theorems": ["MdRecover.C51_value", "MdRecover.C51_injective", "MdRecover.C51_surjective", "MdRecover.C51_long_mul", "MdRecover.C51_long_mul_signed", "MdRecover.C51_system_time"], "note": "Every width, signed and unsigned products, and 40-bit times."},
  {"property": "C52", "status": "proved", "theorems": ["MdRecover.C52_pieces", "MdRecover.C52_bit_serial", "MdRecover.C52_polynomial_division"], "note": "Exact: the checksum is the unique remainder of division by the Castagnoli polynomial over GF(2). The crc crate's update loop is modelled from its published source."},
  {"property": "C53", "status": "proved", "theorems": ["MdRecover.C53_burst", "MdRecover.C53_four_bytes", "MdRecover.C53_seed"], "note": "Any window of 32 consecutive bits in transmission order; also any change of up to four consecutive bytes, and any change of the initial value."},
  {"property": "C54", "status": "proved", "theorems": ["MdRecover.C54_burst", "MdRecover.C54_four_bytes", "MdRecover.C54_read_valid", "MdRecover.C54_type_cleared"], "note": "Any 32-bit burst over all 1024 bytes. C54_type_cleared proves that the exception (checksum type set to none) is real: a known weakness of the validity check."},
  {"property": "C55", "status": "proved", "theorems": ["MdRecover.C55_total", "MdRecover.C55_valid_iff", "MdRecover.C55_sizes"], "note": "valid is characterised exactly (iff) on the bytes."},
  {"property": "C56", "status": "proved", "theorems": ["MdRecover.C56_fields_inside", "MdRecover.C56_integers_1", "MdRecover.C56_integers_2", "MdRecover.C56_integers_3", "MdRecover.C56_integers_4", "MdRecover.C56_wide", "MdRecover.C56_times", "MdRecover.C56_bytes", "MdRecover.C56_texts", "MdRecover.C56_others"], "note": "All accessors. The model keeps all bits of flag words, as the code does."},
  {"property": "C57", "status": "partial", "theorems": ["MdRecover.C57_success", "MdRecover.C57_opens", "MdRecover.C57_rejects_partial", "MdRecover.C57_panics", "MdRecover.C57_panics_on", "MdRecover.C57_needs_descriptor_size"], "note": "Success implies an acceptable superblock and a descriptor table inside the volume, on devices that may fail; an acceptable volume is opened if the device does not fail. Never panicking is false: blocks_per_group = 0, a descriptor table beyond 2^64 and a descriptor vector of 2^63 bytes panic (proved universally, with a concrete volume for each)."},
  {"property": "C58", "status": "proved", "theorems": ["MdRecover.C58_descriptors", "MdRecover.C58_count", "MdRecover.C58_fields", "MdRecover.C58_short"], "note": "Number, place and every field of the descriptors, for all volumes; short descriptors have zero high halves. The number of groups is ceil(blocks/blocks_per_group), as the statement says; the kernel subtracts the first data block first."},
  {"property": "C59", "status": "proved", "theorems": ["MdRecover.C59_invalid_number", "MdRecover.C59_slot", "MdRecover.C59_reads", "MdRecover.C59_disjoint", "MdRecover.C59_root"], "note": "Slot, refusal of invalid numbers, disjointness inside a group; failures at any time allowed for C59_slot."},
  {"property": "C60", "status": "partial", "theorems": ["MdRecover.C60_panics_iff", "MdRecover.C60_panics", "MdRecover.C60_decode_partial", "MdRecover.C60_fields", "MdRecover.C60_seed"], "note": "False as stated: decoding panics exactly if the declared extra size exceeds 32 or the inode is shorter than it declares. Everything else is proved."},
  {"property": "C61", "status": "proved", "theorems": ["MdRecover.C61_value", "MdRecover.C61_fields", "MdRecover.C61_round_trip", "MdRecover.C61_words", "MdRecover.C61_injective"], "note": "Value, fields, round trip with the kernel's encoding for every representable time, injectivity."},
  {"property": "C62", "status": "proved", "theorems": ["MdRecover.C62_split_join", "MdRecover.C62_join_split", "MdRecover.C62_types", "MdRecover.C62_convert", "MdRecover.C62_numbers", "MdRecover.C62_wide_type_lost"], "note": "All 2^16 modes; conversion of all types. C62_wide_type_lost: a type number of 16 or more, which no mode contains, is truncated."},
  {"property": "C63", "status": "partial", "theorems": ["MdRecover.C63_one_outcome", "MdRecover.C63_content_partial", "MdRecover.C63_longest_extent", "MdRecover.C63_case", "MdRecover.C63_longest_case"], "note": "Proved for every extent tree, of any depth and width, and every size, buffer list and device that does not fail: C63_content_partial gives each returned block, the whole content and the zeros after the end. Each call has one outcome (C63_one_outcome). False for extents of the maximal length 0x8000, which the code takes to be empty (C63_longest_extent, C63_longest_case), hence partial."},
  {"property": "C64", "status": "proved", "theorems": ["MdRecover.C64_right_block"], "note": "Proved for every volume content (corrupt trees too), failing devices and every history of calls and buffers."},
  {"property": "C65", "status": "proved", "theorems": ["MdRecover.C65_gap", "MdRecover.C65_beyond", "MdRecover.C65_gap_error", "MdRecover.C65_case"], "note": "Gaps: never data (C65_gap), and an error if the tree has no cycles and its nodes hold their entries (C65_gap_error). Blocks beyond the size: C65_beyond."},
  {"property": "C66", "status": "partial", "theorems": ["MdRecover.C66_needs_circle", "MdRecover.C66_first_call", "MdRecover.C66_exact", "MdRecover.C66_circle_case", "MdRecover.C66_exact_case", "MdRecover.C66_returns_partial", "MdRecover.C66_leveled", "MdRecover.C66_cycle", "MdRecover.C66_cycle_case"], "note": "False in general, but the exact condition is known. C66_exact: on a device that does not fail, after any calls that returned data (files of less than 2^32 blocks, or checked builds), the next call does not return if and only if from the root, by entries for the blocks returned so far, one comes to a node from which one comes back to it without any further block. C66_exact_case: a file whose three blocks are read and whose fourth call, at the end, does not return. C66_needs_circle: for all histories and failing devices, a call that does not return needs an index node of the tree from which one comes back to it by entries that are all for the block to be read next (so trees without such a circle always return; C66_returns_partial is the form for trees without any cycle, C66_leveled shows that trees with depths that go down by one are such). C66_first_call: the first call, with the path to the circle spelled out. C66_cycle, C66_cycle_case, C66_circle_case: a node that is its own child makes the call loop for ever. Missing from an if-and-only-if: failing devices and histories with errors, for which a circle need not be reached."},
  {"property": "C67", "status": "partial", "theorems": ["MdRecover.C67_length_partial", "MdRecover.C67_longest", "MdRecover.C67_unwritten", "MdRecover.C67_unwritten_case"], "note": "False as stated: unwritten extents are read from the volume (C67_unwritten, C67_unwritten_case) and the length 0x8000 is taken to be 0 and unwritten (C67_longest). For all other lengths the length and kind are those of the format (C67_length_partial)."},
  {"property": "C68", "status": "partial", "theorems": ["MdRecover.C68_valid_partial", "MdRecover.C68_too_many", "MdRecover.C68_magic_ignored", "MdRecover.C68_too_many_case", "MdRecover.C68_kernel_node_refused"], "note": "False as stated: nodes are not checked when files are read (C68_magic_ignored), too many entries panic (C68_too_many, C68_too_many_case). The check that exists is characterised exactly (C68_valid_partial), and looks for the checksum after the entries in use, where the kernel does not put it (C68_kernel_node_refused)."},
  {"property": "C69", "status": "proved", "theorems": ["MdRecover.C69_tiles", "MdRecover.C69_one_tiling", "MdRecover.C69_opens", "MdRecover.C69_round_trip"], "note": "C69_tiles: n calls on any opened block return the unique tiling of the block into records (C69_one_tiling), at most len/8 of them, then None for ever. C69_opens says which blocks open. C69_round_trip: a block written from any list of entries, padding and checksum reads back as that list; names come back exactly when a zero byte or the end of the record follows them, see C70."},
  {"property": "C70", "status": "partial", "theorems": ["MdRecover.C70_name_partial", "MdRecover.C70_stale_bytes", "MdRecover.C70_case"], "note": "False as stated: name() ignores name_length and stops at the first zero byte of the record, so stale bytes after the name become part of it (C70_stale_bytes, C70_case). Proved: exactly when the name is the first name_length bytes (C70_name_partial)."},
  {"property": "C71", "status": "proved", "theorems": ["MdRecover.C71_checked", "MdRecover.C71_corruption"], "note": "C71_checked holds for any call history and failing devices. C71_corruption covers every change inside four consecutive bytes, also in the tail itself. C72_case is a concrete checksummed directory with a bad block."},
  {"property": "C72", "status": "proved", "theorems": ["MdRecover.C72_one_outcome", "MdRecover.C72_lists", "MdRecover.C72_terminates", "MdRecover.C72_follows", "MdRecover.C72_case"], "note": "C72_follows is the general form, for any tree, device failures and histories: the results are those of the reads of the directory as a file, in order, and None exactly after the end. C72_lists gives the complete listing for directories of whole written blocks, C72_terminates that every call returns if the extent tree has no cycles; cycles hang, as in C66_cycle."},
  {"property": "C73", "status": "partial", "theorems": ["MdRecover.C73_prefix", "MdRecover.C73_eq", "MdRecover.C73_equal", "MdRecover.C73_compare_partial", "MdRecover.C73_collision", "MdRecover.C73_text", "MdRecover.C73_order", "MdRecover.C73_lossy", "MdRecover.C73_into_string"], "note": "False as stated: strings that are not UTF-8 can compare as equal and differ (C73_collision). Proved: prefix, equality implies equal hash and comparison, comparison agrees with equality on UTF-8 (C73_compare_partial), comparison and hash are those of the lossy text (C73_text), total preorder (C73_order)."},
  {"property": "C74", "status": "partial", "theorems": ["MdRecover.C74_read_partial", "MdRecover.C74_reads", "MdRecover.C74_no_block_check"], "note": "False in one point: a block number beyond the filesystem's block count but inside the volume is read without an error (C74_no_block_check)."},
  {"property": "C75", "status": "proved", "theorems": ["MdRecover.C75_outcome", "MdRecover.C75_success", "MdRecover.C75_invalid_number", "MdRecover.C75_read_file", "MdRecover.C75_list_directory", "MdRecover.C75_case", "MdRecover.C75_case_outcomes"], "note": "C75_outcome is the outcome for each type and flags on a device that does not fail; C75_success says what any success means, also on failing devices (the opened file is Ext4File.open of the inode in the slot on a clone); C75_read_file and C75_list_directory compose it with C63 and C72. Inodes that cannot be decoded panic (C60_panics_iff)."},
  {"property": "C76", "status": "proved", "theorems": ["MdRecover.C76_same_outcomes", "MdRecover.C76_failing_device", "MdRecover.C76_handles_independent", "MdRecover.C76_case", "MdRecover.C76_case_beyond", "MdRecover.C76_case_independent", "MdRecover.C76_native_case", "MdRecover.C76_native"], "note": "Spec/Ext4Session defines programs (any calls on any handles) and what they see. C76_same_outcomes: two devices that do not fail and accept the same positions beyond the end (in-memory devices and readers all, block devices none; C76_case_beyond shows the difference); C76_failing_device: the first may fail at any time or accept fewer positions; C76_handles_independent: calls on one handle see the same without the calls on the others. rounds bounds loops that may not end (C66); it is part of the program, so the theorems hold for every bound."},
  {"property": "C77", "status": "proved", "theorems": ["MdRecover.C77_ext4_on_array", "MdRecover.C77_failing_members", "MdRecover.C77_round_trip", "MdRecover.C77_case"], "note": "C77_ext4_on_array and C77_failing_members for arrays with data areas at the first sector (C17 shows what happens otherwise); C77_round_trip for any content spread over in-memory members; C77_case runs a concrete program on a filesystem over four members."},
  {"property": "C78", "status": "proved", "theorems": ["MdRecover.C78_outcome", "MdRecover.C78_failing", "MdRecover.C78_too_small"], "note": "C78_outcome for runs without failing reads and ioctls, C78_failing for any schedule of failures; C78_too_small puts the listing in terms of paths and contents. Bounds: sizes are u64, physical block sizes non-zero u32, fewer than 2^64 device ids. Argument parsing and the text of the output are not modelled."},
  {"property": "C79", "status": "proved", "theorems": ["MdRecover.C79_only_block_devices"], "note": "C79_only_block_devices, for every list of paths and every schedule of failures."},
  {"property": "C80", "status": "partial", "theorems": ["MdRecover.C80_true_size_partial", "MdRecover.C80_large_blocks"], "note": "Proved for physical block sizes that divide 4096 (C80_true_size_partial), with sizes that need not be multiples of the block size. False for larger ones: C80_large_blocks runs the program on a device of 20480 bytes in blocks of 8192 whose 1.0 superblock, at its place, is reported missing, since the last partial block is not counted."},
  {"property": "C81", "status": "proved", "theorems": ["MdRecover.C81_read_all", "MdRecover.C81_reader"], "note": "For every device that meets the stream specification (readers, files, arrays). The growth of the vector is an oracle of positive piece sizes; retries of interrupted reads are the subject of C94."},
  {"property": "C82", "status": "partial", "theorems": ["MdRecover.C82_read_write", "MdRecover.C82_write_read_partial", "MdRecover.C82_read_values", "MdRecover.C82_converted", "MdRecover.C82_unknown_known"], "note": "Reading and writing back: all numbers (C82_read_write, C82_read_values). Writing and reading back fails exactly for values that are unknown with a known number (C82_write_read_partial), which conversion of the inode types 3, 5 and 7 produces (C82_converted, C82_unknown_known). Flag words keep all bits and are plain numbers in the model."},
  {"property": "C83", "status": "proved", "theorems": ["MdRecover.C83_entries", "MdRecover.C83_iterates"], "note": "All node contents; the iterator is not constructed anywhere in the project."},
  {"property": "C84", "status": "partial", "theorems": ["MdRecover.C84_used_partial", "MdRecover.C84_unused_returned", "MdRecover.C84_case"], "note": "False as stated: records that are not in use are returned (C84_unused_returned, C84_case). Proved if all records are in use."},
  {"property": "C85", "status": "partial", "theorems": ["MdRecover.C85_complete_partial", "MdRecover.C85_silent", "MdRecover.C85_case"], "note": "False as stated: whatever follows the well-formed records of a block is skipped without an error (C85_silent, C85_case), unless metadata checksums are enabled and wrong (C71). Proved: blocks filled with records are listed completely (C85_complete_partial)."},
  {"property": "C86", "status": "partial", "theorems": ["MdRecover.C86_same_partial", "MdRecover.C86_open", "MdRecover.C86_read", "MdRecover.C86_open_panics", "MdRecover.C86_open_wraps"], "note": "False as stated: where the build with checks panics, the other may go on with a wrapped number: opening a volume whose descriptor table would begin at 2^64 or beyond reads it from the wrong place (C86_open_wraps). Proved: any program sees the same up to the first call that panics with the checks."},
  {"property": "C87", "status": "proved", "theorems": ["MdRecover.C87_clean_iff", "MdRecover.C87_clean_failing", "MdRecover.C87_case", "MdRecover.C87_case_complaint"], "note": "Clean report iff nothing is wrong in terms of the disk contents; with failures, one direction with the superblocks really on the disks. Cases: four disks and a spare (clean), the same disk twice (complaint)."},
  {"property": "C88", "status": "partial", "theorems": ["MdRecover.C88_all_present_partial", "MdRecover.C88_missing_members_unreported"], "note": "False as stated: C88_missing_members_unreported gives two of four members to the program, and the diagnosis has no complaint (nothing compares the number of members present with the number of devices). Proved instead: with as many devices as the superblocks say and a role table that gives each a number and none twice, no complaint means that all members are present and active."},
  {"property": "C89", "status": "partial", "theorems": ["MdRecover.C89_disks_to_files_partial", "MdRecover.C89_failing_partial", "MdRecover.C89_clean_partial", "MdRecover.C89_case"], "note": "Proved for superblocks of version 1.0 with data areas at the first sector, any layout, geometry, content, block sizes, order, spares; also with failing disks (no version-0 superblock to fall back to), and the clean report. Missing: other data offsets and versions, for which it is false (C17_data_offset_ignored, C20_v0_unreadable; see C114 for what holds of them)."},
  {"property": "C90", "status": "proved", "theorems": ["MdRecover.C90_text_tells", "MdRecover.C90_clean_text", "MdRecover.C90_output", "MdRecover.C90_case"], "note": "Injectivity of the pretty-printed Debug text up to the order of hash maps (C90_text_tells), the text of a report without complaint (C90_clean_text) and the output of the whole program (C90_output, for maybe_quote that writes no raw line ends)."},
  {"property": "C91", "status": "partial", "theorems": ["MdRecover.C91_status_partial", "MdRecover.C91_status_counterexample"], "note": "False as stated: main returns () and so the status is 0 also if paths are listed with errors (C91_status_counterexample). Proved: the status is 0 in all cases, also with failing reads, as the program does not panic (below 2^64 devices)."},
  {"property": "C92", "status": "proved", "theorems": ["MdRecover.C92_uuid_text", "MdRecover.C92_uuid_distinct"], "note": "For uuids of the lengths that the type has (4 and 16 bytes)."},
  {"property": "C93", "status": "proved", "theorems": ["MdRecover.C93_report_lines", "MdRecover.C93_error_lines", "MdRecover.C93_shown_unique", "MdRecover.C93_case_path", "MdRecover.C93_case_lines"], "note": "Spec/ReportText gives the lines with their levels, without the mechanism of indentation; C93_report_lines: the text is that, up to the order in sets and maps; C93_shown_unique: what is written for a path is determined; C93_error_lines: the list of paths with errors (maybe_quote and the texts of io::Error are parameters)."},
  {"property": "C94", "status": "proved", "theorems": ["MdRecover.FileDev.C94_read_exact", "MdRecover.FileDev.C94_read_block", "MdRecover.FileDev.C94_read_all", "MdRecover.FileDev.C94_case", "MdRecover.C94_no_interruptions"], "note": "Model/Interrupted has the loops of std with their retries; C94_read_exact, C94_read_block and C94_read_all compare them on files with the loops used everywhere else, on the schedule without the interruptions. C94_no_interruptions: on devices that never answer Interrupted both are the same. Read::read of a file itself passes the interruption on, as the contract of Read allows."},
  {"property": "C95", "status": "proved", "theorems": ["MdRecover.C95_one_meaning", "MdRecover.C95_devices", "MdRecover.C95_outputs_ignored", "MdRecover.C95_texts", "MdRecover.C95_refused", "MdRecover.C95_plain"], "note": "The grammar of the command line is a separate specification (Spec/CommandLine); the parser that clap derives from the options is modelled after its documented behaviour. C95_one_meaning, C95_devices, C95_outputs_ignored, C95_texts, C95_refused, C95_plain."},
  {"property": "C96", "status": "partial", "theorems": ["MdRecover.C96_written_partial", "MdRecover.C96_lost"], "note": "Proved if the standard output is open for writing, wherever writing fails (C96_written_partial): status 0 exactly if everything arrived, else 101. False if it is not: the standard library takes EBADF to be success, so the report is lost with status 0 (C96_lost)."},
  {"property": "C97", "status": "partial", "theorems": ["MdRecover.C97_decimal", "MdRecover.C97_tells_partial", "MdRecover.C97_blocks_alike", "MdRecover.C97_device_ids"], "note": "False as stated for one pair of units: counts of blocks of a device and of a filesystem are shown alike (C97_blocks_alike). Proved for all others (C97_tells_partial, C97_decimal), and for device ids if quoting keeps names apart (C97_device_ids)."},
  {"property": "C98", "status": "partial", "theorems": ["MdRecover.C98_disks_case", "MdRecover.C98_array_case", "MdRecover.C98_reads_partial", "MdRecover.C98_unambiguous", "MdRecover.C98_failing_partial", "MdRecover.C98_array_partial", "MdRecover.C98_disks_to_content_partial", "MdRecover.C98_case_says", "MdRecover.C98_case", "MdRecover.C98_stale_byte"], "note": "False as stated: a byte other than zero behind a name in its record becomes part of the name (C98_stale_byte, cf. C70). Proved for names followed by a zero byte or the end of the record: on devices that do not fail, on failing devices, on RAID6 arrays, and from the paths of the member disks (C98_disks_to_content_partial)."},
  {"property": "C99", "status": "partial", "theorems": ["MdRecover.C99_superblock_partial", "MdRecover.C99_directory_partial", "MdRecover.C99_superblock_case", "MdRecover.C99_type_unnoticed", "MdRecover.C99_inode_unnoticed", "MdRecover.C99_group_unnoticed", "MdRecover.C99_directory_case", "MdRecover.C99_real_sums"], "note": "False as stated: the checksums of inodes and group descriptors are never compared (C99_inode_unnoticed, C99_group_unnoticed: one damaged byte of a volume with right checksums makes the root directory open as a regular file), nor are those of extent nodes (C68_magic_ignored), and a superblock whose damage clears the type of its checksum is accepted (C99_type_unnoticed). Proved: all other damage of up to four bytes to the superblock makes opening fail, on every device (C99_superblock_partial); damage to a block of a directory gives one error in the place of its records and leaves the records of all other blocks (C99_directory_partial). C99_real_sums: the checksums as stated agree with the image of the tests."},
  {"property": "C100", "status": "proved", "theorems": ["MdRecover.C100_replaced_case", "MdRecover.C100_sectors", "MdRecover.C100_array_device", "MdRecover.C100_ext4", "MdRecover.C100_path", "MdRecover.C100_disks", "MdRecover.C100_one_member_replaced", "MdRecover.C100_two_members_unnoticed", "MdRecover.C100_case", "MdRecover.C100_disks_case"], "note": "C100_sectors (exactly when a sector is read), C100_array_device, C100_ext4 (up to the first error), C100_path, C100_disks (from the disks on, superblocks of version 1.0), C100_one_member_replaced (any content, anything in place of any member: the hypotheses can always be met), C100_case, C100_disks_case. C100_two_members_unnoticed: with two members damaged in the same sector, anything can be returned."},
  {"property": "C101", "status": "proved", "theorems": ["MdRecover.C101_read", "MdRecover.C101_path", "MdRecover.C101_otherwise", "MdRecover.C101_open", "MdRecover.C101_array", "MdRecover.C101_array_path", "MdRecover.C101_disks", "MdRecover.C101_case", "MdRecover.C101_array_case", "MdRecover.C101_disks_case"], "note": "C101_read, C101_open, C101_path, C101_otherwise on any volume with unreadable bytes (readers on block devices with unreadable blocks are such volumes); C101_array, C101_array_path on arrays; C101_disks from the disks on (superblocks of version 1.0). As in C98, paths whose names are followed by zero bytes in their records. C101_case, C101_array_case, C101_disks_case: concrete devices of which nearly only what is needed can be read."},
  {"property": "C102", "status": "partial", "theorems": ["MdRecover.C102_prefix_partial", "MdRecover.C102_final", "MdRecover.C102_fresh", "MdRecover.C102_not_repeated", "MdRecover.C102_case"], "note": "False as stated: a call that fails has already taken the entry it was working on from its stack and does not put it back, so that every later call on the same open file fails too (C102_final, C102_not_repeated). Proved: the data returned is always the beginning of the file and 0 means that it is complete (C102_prefix_partial); a file opened anew is read exactly (C102_fresh)."},
  {"property": "C103", "status": "partial", "theorems": ["MdRecover.C103_listing_partial", "MdRecover.C103_end", "MdRecover.C103_case", "MdRecover.C103_not_continued", "MdRecover.C103_in_order"], "note": "False as stated: after a failure of the device every later call on the same open directory fails (C103_not_continued, and the second case of C103_listing_partial; cf. C102_final), so the listing has to be begun anew, which then is complete (C72_lists, C103_not_continued). Proved: up to the first failure results are the beginning of the complete listing (C103_listing_partial), and None means that everything was listed (C103_end). C103_in_order: whichever calls failed, the entries returned are the first ones in their order, without the requirement that nodes of the extent tree have entries."},
  {"property": "C104", "status": "proved", "theorems": ["MdRecover.C104_requests", "MdRecover.C104_order", "MdRecover.C104_order_unique", "MdRecover.C104_stop", "MdRecover.C104_listing", "MdRecover.C104_inode", "MdRecover.C104_case", "MdRecover.C104_listing_case"], "note": "Stated with a device that keeps a log of the seeks and reads made through it (Spec/Trace). Extents of exactly 32768 blocks are left out of the order: the code takes them for empty (C67). That nothing is asked for after a failure needs a tree as the kernel writes it (C104_stop)."},
  {"property": "C105", "status": "partial", "theorems": ["MdRecover.C105_exact", "MdRecover.C105_readable_partial", "MdRecover.C105_taken_for_missing", "MdRecover.C105_other_taken", "MdRecover.C105_program", "MdRecover.C105_case", "MdRecover.C105_program_case", "MdRecover.C105_other_case"], "note": "False as stated: a read error at a superblock place is dropped, and the place is passed over. What is reported is determined exactly (C105_exact): the first superblock at a place that can be read to its end, otherwise Missing. So a disk whose superblock has one unreadable byte is reported as having none (C105_taken_for_missing), an older superblock is taken (C105_other_taken), and one failed read suffices for the whole program (C105_program). Proved part: if no superblock on the device is hit by unreadable bytes, what is reported is right, whatever else cannot be read."},
  {"property": "C106", "status": "proved", "theorems": ["MdRecover.C106_probe", "MdRecover.C106_open", "MdRecover.Fixture.C106_probe_case", "MdRecover.Fixture.C106_open_case"], "note": "On any device that meets StreamDevSpec (probing) or VolumeSpec (ext4), with failures and short reads; requests are recorded by the device itself (loggedDev). C106_open assumes, in the release build only, that the offset of the descriptor table is below 2^64 (TableChecked; C86 says what happens otherwise). Cases: a disk with a 1.2 superblock, and a small filesystem."},
  {"property": "C107", "status": "proved", "theorems": ["MdRecover.C107_touched", "MdRecover.C107_reader", "MdRecover.C107_sector", "MdRecover.C107_unsupported", "MdRecover.C107_bytes", "MdRecover.C107_round_trip"], "note": "On any block devices that meet DevSpec, with failures; requests are recorded by the devices (namedDev), under a name that clones share. C107_bytes is about the sets of devices of C16, C107_round_trip about in-memory members holding any content. C107_touched says which blocks touched lists. The sectors are counted from the beginning of the member, as the code does (C17)."},
  {"property": "C108", "status": "proved", "theorems": ["MdRecover.C108_path", "MdRecover.C108_case"], "note": "On devices that meet SeekableVolume (reads may be short or fail, seeks up to a limit), for contents on which the path can be followed (Says, as in C98). The program that follows the path is readPath of C98 (Spec/Ext4Path); such a program is not in /repo."},
  {"property": "C109", "status": "proved", "theorems": ["MdRecover.C109_file", "MdRecover.C109_listing", "MdRecover.C109_case"], "note": "On devices that meet VolumeSpec, for files of fewer than 2^32 blocks or builds without overflow checks (BlocksCounted). The blocks asked for are the words of Asks (C104): one seek and reads for each block; the list ends in the block returned, and is, if no call failed, a beginning of the order of the tree."},
  {"property": "C110", "status": "proved", "theorems": ["MdRecover.C110_path", "MdRecover.C110_reliable", "MdRecover.C110_program", "MdRecover.C110_hidden", "MdRecover.C110_case", "MdRecover.C110_program_case"], "note": "(a) C110_path: one bound on the loops for all devices holding either content, errors only on devices that may fail; C110_reliable for devices that do not fail. The premise is Says (C98), which includes clean names. (b) C110_program and C110_hidden, for in-memory devices (by C76 the same is seen on all devices); the device that hides the bytes B is 'blind'. C110_case and C110_program_case: a volume of which nothing is known but the bytes needed."},
  {"property": "C111", "status": "proved", "theorems": ["MdRecover.C111_expected", "MdRecover.C111_report", "MdRecover.C111_case"], "note": "On systems in which no read or ioctl fails, with sane block sizes and fewer than 2^64 device ids, both runs starting with the same id counter. C111_expected: same size and same superblock places imply that the same superblock counts. C111_case: five disks, everything but the superblocks replaced."},
  {"property": "C112", "status": "proved", "theorems": ["MdRecover.C112_array_case", "MdRecover.C112_backed", "MdRecover.C112_array", "MdRecover.C112_clean", "MdRecover.C112_length", "MdRecover.C112_case", "MdRecover.C112_stale"], "note": "Soundness, the converse of C98: C112_backed holds for every content of the volume and failing devices, C112_array on RAID6 arrays with failing members. Names are as shown, up to the first zero byte; C112_clean: for the names of C98 that is the name, and C112_stale shows the difference. BlocksCounted is the limit of the format (2^32 blocks of a file) in builds without overflow checks."},
  {"property": "C113", "status": "proved", "theorems": ["MdRecover.C113_content", "MdRecover.C113_sectors", "MdRecover.C113_array_device", "MdRecover.C113_ext4", "MdRecover.C113_found", "MdRecover.C113_array_patchy", "MdRecover.C113_array_path", "MdRecover.C113_disks", "MdRecover.C113_case", "MdRecover.C113_disks_case"], "note": "C113_content: the content exists and is unique. C113_sectors is an exact characterisation for members that do not fail; C113_array_device, C113_ext4 and C113_found allow failing members; C113_array_patchy and C113_array_path say what can still be read; C113_disks starts from disks with superblocks of version 1.0 (as C89). C113_case: four disks that never were an array, on which one stripe agrees by chance."},
  {"property": "C114", "status": "proved", "theorems": ["MdRecover.C114_read", "MdRecover.C114_right", "MdRecover.C114_stored", "MdRecover.C114_clean", "MdRecover.C114_refused", "MdRecover.C114_version11", "MdRecover.C114_right_case", "MdRecover.C114_case"], "note": "C114_stored: version-1 superblocks of all minor versions meet MembersFound; C114_clean: the report; C114_read and C114_right: what is read; C114_refused, C114_version11: filesystems that are refused although the report is clean. C114_case: an array of version 1.1 or 1.2 with an ext4 filesystem in its data areas, which is lost to the program. This is what is missing in C89."},
  {"property": "C115", "status": "proved", "theorems": ["MdRecover.C115_complete", "MdRecover.C115_content", "MdRecover.C115_ext4", "MdRecover.C115_case"], "note": "C115_complete makes no assumption about the devices but that numbers of devices are 32 bits; C115_content adds what the data are, for devices that answer as disks or fail; C115_ext4 for filesystems. C115_case: the hypotheses are met. Superblocks need not agree on the uuid or the number of events: C116."},
  {"property": "C116", "status": "partial", "theorems": ["MdRecover.C116_reported_partial", "MdRecover.C116_mixed"], "note": "False as stated: C116_mixed reads a filesystem from three disks of one array and one of another with fewer events (uuids and numbers of events are only looked at by the diagnosis). Proved instead: the report has a complaint (C116_reported_partial); and what is read from such a mixture agrees with P in every stripe (C115_content)."},
  {"property": "C117", "status": "proved", "theorems": ["MdRecover.C117_array_case", "MdRecover.C117_no_panic", "MdRecover.C117_opening_needed", "MdRecover.C117_inodes_needed", "MdRecover.C117_array", "MdRecover.C117_case_holds", "MdRecover.C117_case", "MdRecover.C117_nodes_needed", "MdRecover.C117_case_inodes"], "note": "Main theorem C117_no_panic (any device, any failures); C117_array for an assembled array; conditions needed: C117_opening_needed, C117_inodes_needed, C117_nodes_needed; a volume with a cycle, an unwritten extent and a hole meets them (C117_case_holds, C117_case)."},
  {"property": "C118", "status": "proved", "theorems": ["MdRecover.C118_no_data", "MdRecover.C118_program", "MdRecover.C118_same_path", "MdRecover.C118_reported", "MdRecover.C118_case"], "note": "C118_no_data for any devices, two of which claim to be the same member; C118_program for the paths given to the program (superblocks of any version); C118_same_path for a path given twice; C118_reported for the report. C118_case: the disks of C89_case, from which files are read, and one of them once more."},
  {"property": "C119", "status": "proved", "theorems": ["MdRecover.C119_complete", "MdRecover.C119_refused", "MdRecover.C119_exactly_once", "MdRecover.C119_case"], "note": "Holds. C119_exactly_once has both directions; C119_complete and C119_refused are its parts; C119_case shows both outcomes on the disks of the fixture."},
  {"property": "C120", "status": "partial", "theorems": ["MdRecover.C120_none_missing_partial", "MdRecover.C120_missing_refused", "MdRecover.C120_case"], "note": "False as stated, of every array: C120_missing_refused (nothing is read if any member is missing, whatever the devices do), with a case in which the report has no complaint (C120_case). Proved: with no member missing, all files are seen, in any order and with any spares (C120_none_missing_partial)."},
  {"property": "C121", "status": "proved", "theorems": ["MdRecover.C121_array_case", "MdRecover.C121_returns", "MdRecover.C121_bound_iff", "MdRecover.C121_bound_leveled", "MdRecover.C121_array", "MdRecover.C121_case_holds", "MdRecover.C121_case_rounds", "MdRecover.C121_case", "MdRecover.C121_case_few"], "note": "Holds. C121_returns with the bound; C121_bound_iff: there is such a bound exactly if no tree leads in a circle; C121_bound_leveled: so it is for trees as the kernel makes them; C121_array: on arrays with failing members. C121_case: 14 rounds for a concrete volume; C121_case_few: the bound does not hold for every number."},
  {"property": "C122", "status": "partial", "theorems": ["MdRecover.C122_device_partial", "MdRecover.C122_ext4_partial", "MdRecover.C122_one_disk_partial", "MdRecover.C122_disks_partial", "MdRecover.C122_spare_unnoticed", "MdRecover.C122_disks_case", "MdRecover.C122_case"], "note": "Partial: proved if no disk given is a spare (C122_device_partial, C122_ext4_partial; for in-memory members with any content C122_one_disk_partial; from block devices at paths C122_disks_partial, superblocks of version 1.0). With a spare it is false: C122_spare_unnoticed, a wrong superblock makes the spare a member."},
  {"property": "C123", "status": "proved", "theorems": ["MdRecover.C123_volume", "MdRecover.C123_reads", "MdRecover.C123_programs", "MdRecover.C123_array", "MdRecover.C123_disks", "MdRecover.C123_case"], "note": "Spec/Mkfs writes the volume (Form: block size, and the UUID if there are checksums; the checksums are computed bit by bit, crcBitSerial); atPath is the path in the table. C123_volume: it can be opened and its bytes say what the table says; C123_reads: on all devices; C123_programs: no program of calls panics on it, and each call returns within the largest block count plus 12 rounds; C123_array and C123_disks: on arrays and from disks. C123_case: a tree with a cycle and a file with two names, without checksums and with any UUID."},
  {"property": "C124", "status": "proved", "theorems": ["MdRecover.C124_members", "MdRecover.C124_created", "MdRecover.C124_diagnosis", "MdRecover.C124_sessions", "MdRecover.C124_files", "MdRecover.C124_every_content", "MdRecover.C124_case"], "note": "Spec/Created writes the disks. C124_created: they meet the conditions of C87 to C89; C124_diagnosis, C124_sessions, C124_files; C124_every_content: every content can be stored. C124_case: four disks with the tree of C123."},
  {"property": "C125", "status": "proved", "theorems": ["MdRecover.C125_reads", "MdRecover.C125_unambiguous", "MdRecover.C125_failing", "MdRecover.C125_array", "MdRecover.C125_damaged", "MdRecover.C125_disks", "MdRecover.C125_written", "MdRecover.C125_created", "MdRecover.C125_case"], "note": "Spec/Ext4Tree: TreeAt (what the bytes describe) and readTree (the program). C125_reads: devices that do not fail; C125_unambiguous; C125_failing: any device; C125_array and C125_disks; C125_damaged: array with one damaged member, the same tree or an error; C125_written: every tree can be written and is then described; C125_created: from the disks of a new array. C125_case: a tree of depth four with any contents."},
  {"property": "C126", "status": "proved", "theorems": ["MdRecover.C126_backed", "MdRecover.C126_array", "MdRecover.C126_content", "MdRecover.C126_case"], "note": "Spec/TreeFound: TreeFound. C126_backed: on any device; C126_array: on an array; C126_content: its files are backed as in C112. C126_case: a written volume on a device that may fail."},
  {"property": "C127", "status": "proved", "theorems": ["MdRecover.C127_backed", "MdRecover.C127_complete", "MdRecover.C127_array", "MdRecover.C127_written", "MdRecover.C127_reads", "MdRecover.C127_one", "MdRecover.C127_case"], "note": "Spec/Salvage: saveTree (the program), savedAt, SavedFound, HeadIntact, BodiesIntact. C127_backed: no panic, and what is saved is on the volume, on any device that may fail; C127_complete: all that can be read is saved; C127_array: on an array with a bad member and unreadable sectors; C127_written, C127_reads: for volumes written from a table of files, where only the blocks in front of the files and those of the files and directories on the way have to be readable; C127_one: one file or directory unreadable on a disk with blocks of 512 bytes; C127_case: a tree of files. Symbolic links and the like (otherType) are noted as 'other' and not compared."},
  {"property": "C128", "status": "proved", "theorems": ["MdRecover.C128_front", "MdRecover.C128_array", "MdRecover.C128_written", "MdRecover.C128_one", "MdRecover.C128_case"], "note": "Spec/Front: readFrontPath (the program), WayIntact and FrontIntact (what can be read). C128_front: any device with unreadable bytes; C128_array: RAID6 array; C128_written: files written as in C123; C128_one and C128_case: one unreadable sector in a file."},
  {"property": "C129", "status": "proved", "theorems": ["MdRecover.C129_list", "MdRecover.C129_file", "MdRecover.C129_array", "MdRecover.C129_written", "MdRecover.C129_one", "MdRecover.C129_case"], "note": "Spec/FrontList: listFrontPath (the program), EntriesIntact and FrontRecords. C129_list: any device with unreadable bytes; C129_file: files behind such directories; C129_array: RAID6 array; C129_written: directories and files written as in C123; C129_one and C129_case: one unreadable sector in the root directory."},
  {"property": "C130", "status": "proved", "theorems": ["MdRecover.C130_backed", "MdRecover.C130_complete", "MdRecover.C130_array", "MdRecover.C130_written", "MdRecover.C130_disk", "MdRecover.C130_case"], "note": "Spec/Rescue: rescueTree (the program), rescuedAt, RescuedFound, RescuedFront. C130_backed: no panic, and what is saved is on the volume, on any device that may fail; C130_complete: as much as can be read is saved, with one bound on the loops for all devices; C130_array: RAID6 array with a bad member and unreadable sectors; C130_written, C130_disk: volumes written from a table of files, any sectors behind the tables unreadable; C130_case: a tree with two unreadable sectors."},
  {"property": "C131", "status": "proved", "theorems": ["MdRecover.C131_reader", "MdRecover.C131_nested", "MdRecover.C131_array", "MdRecover.C131_file_moves"], "note": "Spec/BlockOps: BlockRun (what is allowed). C131_reader: any sequence on any device meeting DevSpec; C131_nested: a reader as the device of a reader; C131_array: a reader of an array (data areas as in C16); C131_file_moves: a block read moves the stream of a file and its clones."},
  {"property": "C132", "status": "proved", "theorems": ["MdRecover.C132_diagnosis", "MdRecover.C132_disks", "MdRecover.C132_failing", "MdRecover.C132_case", "MdRecover.C132_failing_case"], "note": "Spec: NewArray.GivenAt (Spec/Created), Raid6Set, OneDamaged, Affected, rescueTree, RescuedNode (Spec/Rescue). C132_diagnosis: the diagnosis is clean whatever is in the data areas; C132_disks: from the disks to the saved files, one bound on the loops for all damage; C132_failing: any failures at any time, what is saved was there; C132_case and C132_failing_case: sector 5 of any one of four disks overwritten by any bytes."},
  {"property": "C133", "status": "proved", "theorems": ["MdRecover.C133_others", "MdRecover.C133_again", "MdRecover.C133_fresh", "MdRecover.C133_recovered", "MdRecover.C133_array", "MdRecover.C133_case", "MdRecover.C133_case_others", "MdRecover.C133_case_recovered"], "note": "Spec/Ext4Session (programs as lists of calls), Spec/SessionFailing (lasting handles, renumber). C133_others: the other handles; C133_again: devices and filesystems, call by call; C133_fresh: a new start; C133_recovered: a new start once the failures have ended; C133_array: the first three on a failing and damaged RAID6 array; C133_case, C133_case_others, C133_case_recovered: a file on a device that fails once."},
  {"property": "C134", "status": "proved", "theorems": ["MdRecover.C134_same_or_error", "MdRecover.C134_reads", "MdRecover.C134_never_another", "MdRecover.C134_array", "MdRecover.C134_entries", "MdRecover.C134_case", "MdRecover.C134_case_exists", "MdRecover.C134_without_checksums"], "note": "C134_reads gives the outcome exactly (atPathDamaged: entries in order, up to the name or a damaged block), for every device, failing ones included; C134_same_or_error and C134_never_another: it is that of the undamaged volume or an error. C134_entries: what the calls that read a directory return, errors included, on devices that do not fail. C134_array: on a RAID6 array. C134_case with C134_case_exists: one damaged block of a root directory, at any byte. C134_without_checksums: without checksums one byte leads to another file. Damage to inodes, group descriptors and extent nodes is not part of it (C99)."},
  {"property": "C135", "status": "proved", "theorems": ["MdRecover.C135_sweep", "MdRecover.C135_files", "MdRecover.C135_saved", "MdRecover.C135_array", "MdRecover.C135_disks", "MdRecover.C135_case", "MdRecover.C135_case_exists", "MdRecover.C135_within", "MdRecover.C135_within_files", "MdRecover.C135_within_array", "MdRecover.C135_within_disks", "MdRecover.C135_within_case"], "note": "C135_sweep gives the outcome exactly (sweptOf: the table without the entries in damaged blocks, with the number of errors); C135_files: which paths lead to files in it, for tables without repeated names; C135_saved: both together. C135_array: on a RAID6 array; C135_disks: from the paths of the disks, in any order. C135_case with C135_case_exists: the first block of the root is damaged; following a path is an error (C134), the program finds the file in the second block. C135_within: on devices that may fail at any time the outcome is within the table (SweptWithin), C135_within_files what this means for paths; C135_within_array and C135_within_disks: on arrays and from the paths of disks whose reads may fail; C135_within_case: the same damage with any unreadable sectors. Damage to inodes, group descriptors and extent nodes is not part of it (C99)."},
  {"property": "C136", "status": "proved", "theorems": ["MdRecover.C136_disks_case", "MdRecover.C136_complete", "MdRecover.C136_array", "MdRecover.C136_disks", "MdRecover.C136_case"], "note": "C136_complete: one bound on the loops, found from the table and the content alone, is enough for every device and every set of unreadable places; ReachesReadable is the path by undamaged entries on which every block can be read, SweptWithin the bound from above of C135. C136_array: on a RAID6 array as in C101; C136_disks: from the paths of damaged disks, in any order. C136_case: the first block of the root is damaged and any sectors of the directory d are unreadable; the file f in the second block is found and nothing else; C136_disks_case: the same on four disks, two sectors of any one of which were overwritten by anything. The superblock, the group descriptors and the inodes have to be readable (HeadIntact)."},
  {"property": "C137", "status": "proved", "theorems": ["MdRecover.C137_more", "MdRecover.C137_complete", "MdRecover.C137_array", "MdRecover.C137_disks", "MdRecover.C137_case"], "note": "C137_complete: as C136_complete, with ReachesFront in the place of ReachesReadable: of the directories on the way only the blocks up to the entry followed are readable. C137_more: ReachesReadable implies ReachesFront, so that C137 contains C136. C137_array: on a RAID6 array as in C101; C137_disks: from the paths of damaged disks, in any order. C137_case: the second block of the directory d is damaged, and any sectors of it and of the second block of the root are unreadable; the file g in d is found. The superblock, the group descriptors and the inodes have to be readable (HeadIntact)."},
  {"property": "C138", "status": "proved", "theorems": ["MdRecover.C138_any", "MdRecover.C138_file", "MdRecover.C138_listing", "MdRecover.C138_path", "MdRecover.C138_case", "MdRecover.C138_array", "MdRecover.C138_array_path", "MdRecover.C138_array_case"], "note": "C138_any: (a), the VolumeSpec of the device for all contents that differ in the bytes withheld; C138_path: (b), by C112; C138_file: (c); C138_listing: (d), for directories whose size is that of their blocks. Proved by reading the same run as one on a content with another byte in that place. C138_case: one byte of block 9 of the hand-made filesystem is never returned, and calls on the file of inode 3 return data at most once. C138_array, C138_array_path: (e). C138_array_case: the damaged array of C100 is a volume with 1024 sevens and anything behind them."}
]}
