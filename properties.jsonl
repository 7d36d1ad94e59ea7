{"id": "C01", "title": "RAID6 roles are distinct devices of the array", "statement": "Whenever the RAID6 address computation returns an answer, the P device, the Q device and the data device are three different device numbers, all smaller than the device count, and the sector-in-device is (sector / (chunk * (devices-2))) * chunk + sector % chunk.", "quantifier": "all 14 RAID6 layouts, all u64 sector numbers, all u32 chunk sizes, all u32 device counts", "why_tests_cant": "The domain is 2^128 points per layout and the formulas differ by residue class of the stripe number; a test samples a few arrays.", "anchors": ["src/md/raid6/algorithm.rs: Raid6Algorithm::compute_sector"]}
{"id": "C02", "title": "RAID6 address computation is injective", "statement": "Two different logical sectors of one RAID6 array are never stored at the same (device, sector).", "quantifier": "all layouts, chunk sizes, device counts and all pairs of logical sectors", "why_tests_cant": "Quantifies over all pairs of addresses; a collision may occur only at one residue.", "anchors": ["src/md/raid6/algorithm.rs: Raid6Algorithm::compute_sector"]}
{"id": "C03", "title": "RAID6 address computation covers every data slot", "statement": "Every (device, sector) that is not the P or Q position of its stripe holds some logical sector, and recomputing that logical sector's address gives exactly that slot; so recovered data is a bijection with the data slots.", "quantifier": "all layouts, chunk sizes >0, device counts >=3, all slots whose logical sector number fits in a u64 (for the layout rotating-N-restart, not those of stripe u64::MAX, for which C05 says that no address is given)", "why_tests_cant": "Surjectivity cannot be observed by finitely many forward evaluations.", "anchors": ["src/md/raid6/algorithm.rs: Raid6Algorithm::compute_sector"]}
{"id": "C04", "title": "RAID6 layouts agree with the md on-disk layout table", "statement": "For each of the 14 layouts, the role (P, Q or n-th data chunk) the md format prescribes for every device of every stripe is the one used by the address computation: the data device returned is the device that the layout table labels with the sector's data index, P and Q the devices labelled P and Q.", "quantifier": "all layouts, stripes, device counts and sectors", "why_tests_cant": "Tests compare against a few hand-made tables for one device count.", "anchors": ["src/md/raid6/algorithm.rs: Raid6Algorithm::compute_sector", "src/md/raid6/algorithm.rs: Raid6Algorithm::from_layout"]}
{"id": "C05", "title": "RAID6 address computation is total", "statement": "The RAID6 address computation fails exactly when the chunk size is 0, the device count is below 3, or (RotatingNRestart only) the stripe number is u64::MAX; no intermediate arithmetic overflow causes any other failure.", "quantifier": "all u64 sectors, u32 chunk sizes, u32 device counts, all layouts", "why_tests_cant": "Overflow corners of checked arithmetic are not reached by tests.", "anchors": ["src/md/raid6/algorithm.rs: Raid6Algorithm::compute_sector"]}
{"id": "C06", "title": "RAID5 roles are distinct devices of the array", "statement": "Whenever the RAID5 address computation returns an answer, parity and data devices differ and are both below the device count, and the sector-in-device is (sector / (chunk * (devices-1))) * chunk + sector % chunk.", "quantifier": "all 6 RAID5 layouts, all u64 sectors, u32 chunk sizes, u32 device counts", "why_tests_cant": "As for RAID6.", "anchors": ["src/md/raid5/algorithm.rs: Raid5Algorithm::compute_sector"]}
{"id": "C07", "title": "RAID5 address computation is a bijection with data slots", "statement": "Different logical sectors of a RAID5 array never share a (device, sector), and every non-parity slot holds exactly one logical sector.", "quantifier": "all layouts, chunk sizes, device counts, sectors and slots", "why_tests_cant": "Quantifies over all pairs and over existence of preimages.", "anchors": ["src/md/raid5/algorithm.rs: Raid5Algorithm::compute_sector"]}
{"id": "C08", "title": "RAID5 layouts agree with the md on-disk layout table", "statement": "For each of the 6 layouts the role prescribed by the md format for each device of each stripe is the one used by the address computation.", "quantifier": "all layouts, stripes, device counts, sectors", "why_tests_cant": "Tests compare a few tables.", "anchors": ["src/md/raid5/algorithm.rs: Raid5Algorithm::compute_sector", "src/md/raid5/algorithm.rs: Raid5Algorithm::from_layout"]}
{"id": "C09", "title": "RAID5 address computation is total", "statement": "The RAID5 address computation fails exactly when the chunk size is 0 or the device count is below 2.", "quantifier": "all u64 sectors, u32 chunk sizes, u32 device counts, all layouts", "why_tests_cant": "Overflow corners.", "anchors": ["src/md/raid5/algorithm.rs: Raid5Algorithm::compute_sector"]}
{"id": "C10", "title": "Every block below block_count lies inside the member devices", "statement": "If the chunk size divides sectors_per_device then every block number below the array's block_count maps to a sector smaller than sectors_per_device on a device below the device count, and every data slot of the members with sector below sectors_per_device is the image of a block below block_count.", "quantifier": "all supported formats and all block numbers", "why_tests_cant": "Relates a count with an unbounded address mapping.", "anchors": ["src/md/format.rs: MdFormat::data_sector_count", "src/md/raid6/algorithm.rs: Raid6Algorithm::compute_sector", "src/md/raid5/algorithm.rs: Raid5Algorithm::compute_sector"]}
{"id": "C11", "title": "Reading a consistent RAID6 stripe returns the stored data", "statement": "If every member answers reads and the P sector of the stripe is the XOR of the data sectors, reading any logical sector returns exactly the 512 bytes stored at its slot in the md layout.", "quantifier": "all layouts, geometries, sectors and device contents", "why_tests_cant": "Ranges over all contents and geometries.", "anchors": ["src/md/raid6/algorithm.rs: Raid6Algorithm::read_sector"]}
{"id": "C12", "title": "RAID6 read never returns data from an inconsistent stripe", "statement": "If reading a RAID6 sector returns data, then at that stripe sector the XOR of all data devices equals P in each of the 512 bytes; in particular, starting from a consistent stripe, any corruption confined to one data or P device (any number of bytes) is reported as InvalidData and no data is returned.", "quantifier": "all layouts, geometries, sectors, contents and all corruptions of one device", "why_tests_cant": "All corruptions are quantified.", "anchors": ["src/md/raid6/algorithm.rs: Raid6Algorithm::read_sector"]}
{"id": "C13", "title": "RAID6 read fails if any member fails", "statement": "If any member device (data, P or Q) returns an error or a short count for the stripe's sector, the RAID6 read returns an error and not data.", "quantifier": "all layouts, geometries, member behaviours including stateful ones", "why_tests_cant": "Quantifies over arbitrary device behaviours.", "anchors": ["src/md/raid6/algorithm.rs: Raid6Algorithm::read_sector"]}
{"id": "C14", "title": "RAID6 read touches each member at most once and only at the stripe's sector", "statement": "A RAID6 sector read issues reads to devices 0,1,2,... in order, each at the same sector-in-device, at most once each, and stops after the first failure; it issues exactly device_count reads when it returns data.", "quantifier": "all geometries and member behaviours", "why_tests_cant": "Statement about all traces of calls.", "anchors": ["src/md/raid6/algorithm.rs: Raid6Algorithm::read_sector"]}
{"id": "C15", "title": "Unsupported levels never return data", "statement": "Reading an array whose level/layout is not a known RAID6 layout (including every RAID5 layout) always fails with Unsupported and performs no device reads.", "quantifier": "all levels, layouts, sectors, geometries", "why_tests_cant": "All u32 level/layout pairs.", "anchors": ["src/md/algorithm.rs: MdAlgorithm::read_sector, MdAlgorithm::from_level_and_layout"]}
{"id": "C16", "title": "Array read returns the logical content of the array", "statement": "Opening members whose superblocks agree on a RAID6 format, whose data areas hold a P-consistent encoding of a logical content, then reading any block below block_count with a 512-byte buffer returns 512 and exactly that block of the logical content, whatever block sizes the member devices have.", "quantifier": "all logical contents, all layouts/geometries, all member block sizes, any order of devices", "why_tests_cant": "End-to-end refinement over all contents and geometries.", "anchors": ["src/md/array.rs: MdArray::read_block (BlockDevice)", "src/block_device/reader.rs: BlockDeviceReader (Read, Seek)"]}
{"id": "C17", "title": "Array read honours the data offset of the superblock", "statement": "A member's data begins at the superblock's data_offset; array reads must address member sector s at data_offset + s.", "quantifier": "all superblocks with any data offset", "why_tests_cant": "Would have to be seen for every offset; existing tests have no array fixture.", "anchors": ["src/md/array.rs: MdArray::read_block (BlockDevice)", "src/md/superblock/superblock.rs: Superblock::data_offset"]}
{"id": "C18", "title": "Array read tolerates any sufficiently large buffer", "statement": "As for other block devices, read_block with a buffer of at least block_size bytes either returns an error or fills the first block_size bytes; it never panics.", "quantifier": "all buffers, arrays, blocks", "why_tests_cant": "All buffer lengths.", "anchors": ["src/md/array.rs: MdArray::read_block (BlockDevice)"]}
{"id": "C19", "title": "Array read with a missing member is an error", "statement": "If the array (new format if present, otherwise format) has RAID6 and any device number below its device count has no active device, every read fails with an error and no data is returned.", "quantifier": "all arrays with at least one missing member, all blocks", "why_tests_cant": "All subsets of missing members.", "anchors": ["src/md/array.rs: MdArray::read_block (BlockDevice)"]}
{"id": "C20", "title": "An array not being reshaped is read with its current format", "statement": "When no member has a reshape in progress, block_count and read_block use the level, layout, chunk size and device count of the superblocks' current-format fields.", "quantifier": "all superblocks of versions 0.90 and 1.x without an active reshape", "why_tests_cant": "All superblock contents.", "anchors": ["src/md/array.rs: MdArray::read_block (BlockDevice)", "src/md/superblock/version_0/superblock.rs: reshape_status", "src/md/superblock/version_1/superblock.rs: reshape_status"]}
{"id": "C21", "title": "Cloned arrays read identically", "statement": "A clone of an array returns the same result as the original for every block, independently of what either has read before (reads do not change the array).", "quantifier": "all arrays, all interleavings of reads through clones", "why_tests_cant": "All histories.", "anchors": ["src/md/array.rs: MdArray::read_block (BlockDevice)", "src/md/array.rs: MdArray::try_clone"]}
{"id": "C22", "title": "Opening: format is reported exactly on unanimous agreement", "statement": "open yields a usable format f iff there is at least one device, every device has a superblock, and every superblock describes exactly f (level/layout, device count, size, chunk size); otherwise block_count and read_block fail with InvalidData (when there is no agreed reshape format either).", "quantifier": "all finite lists of devices", "why_tests_cant": "All lists and all superblock contents.", "anchors": ["src/md/array.rs: MdArray::open", "src/md/format.rs: MdFormat::from_superblock"]}
{"id": "C23", "title": "Opening: every device is accounted for exactly once", "statement": "Each device passed to open ends either as the active device of one device number or in the inactive list, never both, never twice, never dropped, for any hash map iteration order.", "quantifier": "all finite lists of devices and all hash iteration orders", "why_tests_cant": "Hash iteration order is unobservable to a deterministic test.", "anchors": ["src/md/array.rs: MdArray::open", "src/ext/multi_map.rs: from_multi_iter"]}
{"id": "C24", "title": "Opening: a device number is active iff exactly one device claims it", "statement": "Device x is the active device for number d iff x is the only device whose own role index selects number d in the merged role table.", "quantifier": "all finite lists of devices, all device numbers", "why_tests_cant": "All lists.", "anchors": ["src/md/array.rs: MdArray::open"]}
{"id": "C25", "title": "Opening does not depend on the order of the devices", "statement": "The active device of each device number, the set of inactive devices, the format and the reshape format do not depend on the order in which devices are given.", "quantifier": "all permutations of all device lists", "why_tests_cant": "n! orders of every list.", "anchors": ["src/md/array.rs: MdArray::open"]}
{"id": "C26", "title": "A member without a superblock disables the whole array", "statement": "If any device given to open has no valid superblock (too small or missing), no device is active and every read and block_count fails with InvalidData.", "quantifier": "all lists containing at least one such device", "why_tests_cant": "All lists.", "anchors": ["src/md/array.rs: MdArray::open"]}
{"id": "C27", "title": "Merged role table", "statement": "The merged role table has the length of the longest individual table, and it exists iff no merge step meets two different conflicting roles; if all members that have an opinion (not spare, faulty or invalid) about an index agree and no member has an invalid value there, the merged value is that opinion.", "quantifier": "all lists of role tables", "why_tests_cant": "All lists.", "anchors": ["src/md/array.rs: MdArray::open", "src/md/superblock/role.rs"]}
{"id": "C28", "title": "Role classification is exclusive and exhaustive", "statement": "Each role value is exactly one of: an active position 0..=MAX_POSITION (has a device number), journal, faulty, spare, or invalid; a value is reported valid iff it is not reported invalid.", "quantifier": "all u16 role values (and all u32 values of version 0.90)", "why_tests_cant": "Boundary values of a 2^32 space.", "anchors": ["src/md/superblock/role.rs: MdDeviceRole"]}
{"id": "C29", "title": "Consistency problems are reported exactly on disagreement", "statement": "For each of the compared attributes (array uuid, array name, algorithm, size, chunk size, device count, reshape status, event count, role table), diagnose reports a problem iff two devices with a superblock have different values (for the array name: two devices whose superblock has a name); the report maps each occurring value to exactly the devices having it, each device once.", "quantifier": "all arrays", "why_tests_cant": "All lists of superblocks.", "anchors": ["src/md/definition.rs: MdArrayDefinition::diagnose"]}
{"id": "C30", "title": "Too-small and missing-superblock problems are exact", "statement": "diagnose lists exactly the devices that are too small and exactly those without a superblock; a field is absent iff there is none.", "quantifier": "all arrays", "why_tests_cant": "All lists.", "anchors": ["src/md/definition.rs: MdArrayDefinition::diagnose"]}
{"id": "C31", "title": "Duplicate role indexes are reported exactly", "statement": "diagnose reports exactly those role indexes claimed by at least two devices, each with exactly the devices claiming it.", "quantifier": "all arrays", "why_tests_cant": "All lists.", "anchors": ["src/md/definition.rs: MdArrayDefinition::diagnose"]}
{"id": "C32", "title": "Diagnosis does not depend on device order or activity", "statement": "The diagnosis (as sets/maps of device ids) is the same for every order of the devices given to open and every hash iteration order, and is computed over active and inactive devices alike.", "quantifier": "all permutations and hash iteration orders", "why_tests_cant": "n! orders.", "anchors": ["src/md/definition.rs: MdArrayDefinition::diagnose", "src/md/array.rs: MdArray::open"]}
{"id": "C33", "title": "Grouping by key", "statement": "Building a multi-map from a sequence of pairs maps each key that occurs to exactly the values paired with it, in sequence order, and contains no other key.", "quantifier": "all finite sequences of pairs", "why_tests_cant": "All sequences.", "anchors": ["src/ext/multi_map.rs: MultiMap::from_multi_iter"]}
{"id": "C34", "title": "Device ids are unique", "statement": "Every two device ids ever created in a process compare different, under any interleaving of threads creating ids.", "quantifier": "all interleavings and all numbers of creations", "why_tests_cant": "Schedules and 2^64 creations.", "anchors": ["src/md/device/id.rs: MdDeviceId::new"]}
{"id": "C35", "title": "Superblock probing stays inside the device", "statement": "Every 4096-byte superblock probe lies wholly within the device, and a device is reported too small iff it is smaller than 12288 bytes.", "quantifier": "all device sizes (u64), block sizes", "why_tests_cant": "All sizes.", "anchors": ["src/md/device/device.rs: MdDevice::from_block_device"]}
{"id": "C36", "title": "Superblock probing finds the highest-priority valid superblock", "statement": "On a device that answers reads, the superblock found is the first valid one in the order 1.2 (offset 4096), 1.1 (offset 0), 1.0 (the last 4K-aligned offset at least 8K before the end), 0.90 (last 64K-aligned 64K block, only on devices of at least 64K); Missing is reported iff none of them is valid.", "quantifier": "all device contents and sizes", "why_tests_cant": "All contents.", "anchors": ["src/md/device/device.rs: MdDevice::from_block_device"]}
{"id": "C37", "title": "A 1.x superblock is accepted exactly on magic and major version", "statement": "A version-1 superblock read succeeds iff 4096 bytes can be read, the little-endian magic is 0xa92b4efc and the major version is 1.", "quantifier": "all 4096-byte contents", "why_tests_cant": "All contents.", "anchors": ["src/md/superblock/version_1/superblock.rs: SuperblockVersion1::read, valid"]}
{"id": "C38", "title": "1.x superblock fields are at the md on-disk offsets", "statement": "Every field accessor of a version-1 superblock returns the value stored by the md on-disk format at its documented offset and width, little endian: writing any field values in that format and reading them back gives the same values.", "quantifier": "all field values", "why_tests_cant": "2^32768 contents.", "anchors": ["src/md/superblock/version_1/superblock.rs"]}
{"id": "C39", "title": "1.x role table", "statement": "The role table of a version-1 superblock has min(max_devices, 1920) entries, entry i being the 16-bit value at offset 256+2i; it is computed without panic for every content.", "quantifier": "all contents", "why_tests_cant": "All contents.", "anchors": ["src/md/superblock/version_1/superblock.rs: device_roles"]}
{"id": "C40", "title": "0.90 superblocks decode the same in both byte orders", "statement": "The same field values written in little-endian and in big-endian form give equal results from every accessor, and each accessor returns the value written.", "quantifier": "all field values, both byte orders", "why_tests_cant": "All contents.", "anchors": ["src/md/superblock/version_0/superblock.rs", "src/md/superblock/version_0/little_endian/superblock.rs", "src/md/superblock/version_0/big_endian/superblock.rs"]}
{"id": "C41", "title": "0.90 superblock acceptance", "statement": "A version-0 superblock read succeeds iff the magic (in either byte order) is right, the major version is 0 and every in-use device descriptor has a valid role.", "quantifier": "all 4096-byte contents", "why_tests_cant": "All contents.", "anchors": ["src/md/superblock/version_0/superblock.rs: SuperblockVersion0::read, valid"]}
{"id": "C42", "title": "Array uuids compare equal iff stored uuids are equal", "statement": "Two superblocks of the same version have equal array uuids iff their uuid bytes (v1) or uuid words (v0.90) are equal.", "quantifier": "all uuid contents", "why_tests_cant": "All contents.", "anchors": ["src/md/superblock/array_uuid.rs: ArrayUuid"]}
{"id": "C43", "title": "Reshape geometry", "statement": "A version-1 superblock reports a reshape iff the reshape-active feature bit is set, with the stored new level/layout/chunk; the device count of the reshaped format is the current count plus the signed delta stored in the superblock.", "quantifier": "all superblock contents", "why_tests_cant": "All contents including negative deltas.", "anchors": ["src/md/format.rs: MdFormat::from_superblock_reshape_status", "src/md/superblock/version_1/superblock.rs: reshape_status"]}
{"id": "C44", "title": "Block reader refines a byte stream", "statement": "For every sequence of read, seek and clone operations, a reader over a block device behaves as a cursor over the flat byte content: a read at position p returns content[p..p+n] with n <= requested, n>0 unless p is at/after the end or the buffer is empty, and advances by n.", "quantifier": "all sequences of operations, block sizes, contents", "why_tests_cant": "Unbounded histories.", "anchors": ["src/block_device/reader.rs: BlockDeviceReader (Read, Seek)"]}
{"id": "C45", "title": "Exact reads through the block reader", "statement": "read_exact of n bytes at position p succeeds iff p+n <= size (n>0) and returns content[p..p+n]; otherwise fails with UnexpectedEof.", "quantifier": "all n, p, block sizes, contents", "why_tests_cant": "All alignments of n and p relative to blocks.", "anchors": ["src/block_device/reader.rs: BlockDeviceReader (Read, Seek)"]}
{"id": "C46", "title": "Seeking through the block reader", "statement": "seek returns the resulting absolute position; it fails without moving iff the target is negative or exceeds u64; seeking past the end is allowed and later reads return 0 bytes.", "quantifier": "all positions, offsets, sizes", "why_tests_cant": "All offsets incl. overflow.", "anchors": ["src/block_device/reader.rs: BlockDeviceReader (Read, Seek)"]}
{"id": "C47", "title": "Block reader errors do not move or corrupt", "statement": "If the underlying device fails a block read, the read returns that error and the position is unchanged, so a retry that succeeds returns the right bytes.", "quantifier": "all failure patterns of the device", "why_tests_cant": "All failure schedules.", "anchors": ["src/block_device/reader.rs: BlockDeviceReader (Read, Seek)"]}
{"id": "C48", "title": "In-memory device stream", "statement": "Read and Seek of the in-memory device never panic, the position always stays within [0,len], and reads return the bytes at the position.", "quantifier": "all sequences of operations and contents (64-bit)", "why_tests_cant": "Unbounded histories.", "anchors": ["src/block_device/in_memory.rs: InMemoryBlockDevice"]}
{"id": "C49", "title": "In-memory device block reads", "statement": "read_block with a buffer of exactly block_size returns the block for each block number below block_count; out-of-range block numbers and larger buffers are reported as errors or handled, never a panic.", "quantifier": "all contents, block sizes, block numbers, buffers", "why_tests_cant": "All inputs.", "anchors": ["src/block_device/in_memory.rs: InMemoryBlockDevice"]}
{"id": "C50", "title": "File-backed clones do not interfere", "statement": "Clones of a file-backed device share one kernel file offset; nevertheless every read_block through any clone returns the same as if it were the only user, for any sequential interleaving of operations on all clones. A seek goes to the place asked for, counted from the start, the end or the present position, or fails and moves nothing.", "quantifier": "all interleavings of seek/read/read_block operations on any number of clones", "why_tests_cant": "All schedules.", "anchors": ["src/block_device/internal.rs: InternalFile", "src/block_device/file.rs", "src/block_device/native.rs"]}
{"id": "C51", "title": "Wide value assembly", "statement": "Combining low and high halves yields low + high * 2^bits without loss, is injective, and covers every value; long multiplication of two u32 never overflows.", "quantifier": "all halves of all widths used", "why_tests_cant": "2^64 pairs.", "anchors": ["src/ext/wide_unsigned.rs", "src/ext/long_mul.rs", "src/ext/system_time.rs"]}
{"id": "C52", "title": "CRC32C can be computed in pieces", "statement": "The checksum of a concatenation is the checksum of the second part started from the checksum of the first, for every split; it equals the table-driven and polynomial-division definitions of CRC32C.", "quantifier": "all byte strings, all initial values", "why_tests_cant": "All strings.", "anchors": ["src/ext4/crc.rs: ext4_crc32c"]}
{"id": "C53", "title": "CRC32C detects every burst of up to 32 bits", "statement": "Two byte strings of the same length that differ only inside a window of 32 consecutive bits have different checksums for every initial value.", "quantifier": "all byte strings, all windows, all differences", "why_tests_cant": "2^n strings.", "anchors": ["src/ext4/crc.rs: ext4_crc32c"]}
{"id": "C54", "title": "A corrupted ext4 superblock is rejected", "statement": "If a superblock that uses CRC32C checksums is valid, any change inside 32 consecutive bits (in particular inside 4 consecutive bytes) of its 1024 bytes, stored checksum included, makes it invalid, unless the change sets the checksum type to none; a superblock returned by reading is always valid.", "quantifier": "all valid superblocks and all such corruptions", "why_tests_cant": "All corruptions.", "anchors": ["src/ext4/superblock/superblock.rs: Superblock::valid"]}
{"id": "C55", "title": "A valid ext4 superblock has a sane geometry", "statement": "Checking a superblock never panics. It is valid exactly if: magic 0xef53, block size exponent and cluster size exponent below 53, without BIGALLOC the cluster size equals the block size and clusters per group equal blocks per group, known error policy, flex group exponent below 63, and checksum type none or CRC32C with matching checksum. The block size of a valid superblock is a power of two from 1 KiB to 2^62.", "quantifier": "all 1024-byte contents", "why_tests_cant": "2^8192 contents.", "anchors": ["src/ext4/superblock/superblock.rs: Superblock::valid"]}
{"id": "C56", "title": "ext4 superblock fields are at the documented offsets", "statement": "Every accessor of the ext4 superblock returns the value at the offset and width documented for the ext4 disk format; block counts combine a low and a high word, times a low word and a high byte; fields lie inside the 1024 bytes and do not overlap.", "quantifier": "all field values", "why_tests_cant": "All contents.", "anchors": ["src/ext4/superblock/superblock.rs"]}
{"id": "C57", "title": "Opening an ext4 filesystem rejects what it cannot read", "statement": "Opening succeeds only if the superblock is valid, no unknown or unsupported incompatible feature is set, and the per-group counts are non-zero; otherwise it returns an error (never a panic).", "quantifier": "all device contents", "why_tests_cant": "All contents.", "anchors": ["src/ext4/fs.rs: Ext4Fs::open"]}
{"id": "C58", "title": "Group descriptors read at open", "statement": "On success open has read exactly ceil(blocks/blocks_per_group) descriptors, descriptor i from byte (first descriptor block)*block_size + i*descriptor_size, missing high halves being zero for 32-byte descriptors.", "quantifier": "all devices and superblocks", "why_tests_cant": "All geometries.", "anchors": ["src/ext4/fs.rs: Ext4Fs::open", "src/ext4/block_group/descriptor.rs: BlockGroupDescriptor::new"]}
{"id": "C59", "title": "Inodes are read from their own slot", "statement": "read_inode(n) for 1 <= n <= inode count reads the inode_size bytes at inode_table(group)*block_size + index*inode_size with group=(n-1)/inodes_per_group, index=(n-1)%inodes_per_group; different inodes of a group use disjoint bytes; 0 or larger numbers give InvalidInput.", "quantifier": "all filesystems and inode numbers", "why_tests_cant": "All geometries.", "anchors": ["src/ext4/fs.rs: Ext4Fs::read_inode"]}
{"id": "C60", "title": "Inode decoding", "statement": "Inode construction copies the on-disk inode up to its declared extra size, treats missing fields as zero, and does not panic for any on-disk content.", "quantifier": "all inode buffers", "why_tests_cant": "All contents.", "anchors": ["src/ext4/inode/inode.rs: Inode::new"]}
{"id": "C61", "title": "Timestamps", "statement": "Decoding a 32-bit seconds value with its extra word gives the timestamp the ext4 format encodes: for every time representable on disk, decoding the kernel's encoding returns it; different encodings with nanoseconds below 10^9 decode to different times.", "quantifier": "all 64-bit encodings", "why_tests_cant": "2^64 encodings.", "anchors": ["src/ext4/inode/time.rs: decode_extra_time"]}
{"id": "C62", "title": "File mode decomposition", "statement": "Splitting any mode into file type and permissions and joining them gives the mode back; the inode file type and the directory entry file type convert to each other consistently for all seven known types.", "quantifier": "all 2^16 modes and all type values", "why_tests_cant": "Exhaustive only by proof or enumeration.", "anchors": ["src/ext4/inode/file_mode.rs", "src/ext4/directory/file_type.rs"]}
{"id": "C63", "title": "Reading a file yields exactly its content", "statement": "For a file whose extent tree (of any depth) maps blocks 0..k contiguously and whose size ends in the last block, calling read until 0 returns the blocks in file order, the last one truncated to the size: the concatenation is exactly the first size bytes; afterwards every further read returns 0.", "quantifier": "all extent trees of any depth and width, all contents, all sizes", "why_tests_cant": "Unbounded trees.", "anchors": ["src/ext4/file.rs: Ext4FileInternal::read_next_block", "src/ext4/extent/tree.rs", "src/ext4/regular_file.rs"]}
{"id": "C64", "title": "File reads never return misplaced blocks", "statement": "Whatever the extent tree contains (including corrupt trees and devices failing at any time), each successful non-empty read returns the content of a device block that an extent of the tree maps to the file block number equal to the number of blocks returned before.", "quantifier": "all devices, inodes, failure schedules and histories", "why_tests_cant": "Adversarial contents and schedules.", "anchors": ["src/ext4/file.rs: Ext4FileInternal::read_next_block"]}
{"id": "C65", "title": "Holes and over-allocation are reported", "statement": "A gap in the extent map (sparse file) makes the read of the first missing block fail rather than return other data, and a mapped block beyond the file size is not returned.", "quantifier": "all extent trees", "why_tests_cant": "All trees.", "anchors": ["src/ext4/file.rs: Ext4FileInternal::read_next_block"]}
{"id": "C66", "title": "Reading a file always terminates", "statement": "Every read call on a file returns (data, end or error) after finitely many steps.", "quantifier": "all device contents", "why_tests_cant": "Non-termination needs a crafted image.", "anchors": ["src/ext4/file.rs: Ext4FileInternal::read_next_block"]}
{"id": "C67", "title": "Unwritten extents read as zeros", "statement": "Blocks mapped by an unwritten (uninitialised) extent read as zeros, and an extent length of 0x8000 means 32768 initialised blocks, as in the ext4 format.", "quantifier": "all extents", "why_tests_cant": "All 2^96 extents.", "anchors": ["src/ext4/extent/extent.rs: Extent::length, initialized", "src/ext4/file.rs: Ext4FileInternal::read_next_block"]}
{"id": "C68", "title": "Corrupt extent nodes never panic and are rejected", "statement": "Reading an extent node with a bad magic, a bad checksum or more entries than fit in the node gives an error.", "quantifier": "all node contents", "why_tests_cant": "All contents.", "anchors": ["src/ext4/extent/tree.rs: ExtentTree", "src/ext4/file.rs: Ext4FileInternal::read_next_block"]}
{"id": "C69", "title": "Directory entries tile the block", "statement": "Iterating a directory block returns the entries stored back to back from the start of the block, terminates after at most len/8 entries, and reading back a block written from any list of entries returns that list.", "quantifier": "all blocks and entry lists", "why_tests_cant": "All contents.", "anchors": ["src/ext4/directory/block.rs", "src/ext4/directory/dir_entry.rs"]}
{"id": "C70", "title": "Directory entry names have the stored length", "statement": "The name of a directory entry is its first name_length name bytes.", "quantifier": "all entries", "why_tests_cant": "All contents.", "anchors": ["src/ext4/directory/dir_entry.rs: DirEntry::name"]}
{"id": "C71", "title": "Directory entries come only from checksummed blocks", "statement": "When metadata checksums are enabled every entry returned by a directory comes from a block whose checksum tail verified; corruption of up to 4 consecutive bytes of a valid block is detected.", "quantifier": "all directories, corruptions and retry histories", "why_tests_cant": "All corruptions.", "anchors": ["src/ext4/directory/directory.rs", "src/ext4/directory/block.rs: from_block_and_checksum_seed"]}
{"id": "C72", "title": "Directory iteration terminates and lists all blocks in order", "statement": "Iterating a directory whose file read terminates returns the entries of its blocks in block order and then end-of-directory, which repeats.", "quantifier": "all directories", "why_tests_cant": "Unbounded directories.", "anchors": ["src/ext4/directory/directory.rs: Ext4Directory"]}
{"id": "C73", "title": "Null-terminated strings", "statement": "A string built from a null-terminated buffer is the longest prefix without a zero byte; equal strings have equal hashes and compare as equal, and compare as equal only if equal.", "quantifier": "all byte strings", "why_tests_cant": "All contents.", "anchors": ["src/ext4/string.rs: Ext4String"]}
{"id": "C74", "title": "Filesystem block reads", "statement": "Reading filesystem block b returns the bytes b*block_size.. of the device; block numbers outside the filesystem, short buffers and overflowing offsets give errors.", "quantifier": "all block numbers and buffers", "why_tests_cant": "All inputs.", "anchors": ["src/ext4/fs.rs: Ext4Fs::read_block"]}
{"id": "C75", "title": "open_file follows the inode's type and flags", "statement": "Opening by number an inode that can be read and decoded (see C59, C60) on an opened ext4 volume succeeds as a regular file exactly if the inode's type is 8 and its blocks are mapped by extents (flag bit 19 set, inline-data bit 28 clear), as a directory exactly if the type is 4, the blocks are mapped by extents and the directory is not hash-indexed (bit 12); files and directories without these flags are refused as Unsupported, any other type is reported as that type, and numbers without an inode are InvalidInput. The opened file has the size in the inode, starts at its first block, and reading it returns the blocks its extents map.", "quantifier": "all volumes, all inode numbers, all inode contents, all devices (also failing ones, for what a success means)", "why_tests_cant": "The type, the flags, the number and the volume range over unbounded or astronomically large sets; tests open a handful of inodes of one image.", "anchors": ["src/ext4/fs.rs:129-131", "src/ext4/file.rs:11-30", "src/ext4/directory/directory.rs:28-37", "src/ext4/extent/tree.rs:19-27"]}
{"id": "C76", "title": "What a program sees depends only on the content of the volume; handles do not disturb each other", "statement": "Whatever sequence of calls a program makes through the ext4 API (mounting, cloning, reading inodes and blocks, opening files, reading files and directories, in any order and on any number of handles), its results are determined by the bytes of the volume: two devices of any kind with the same content, which accept the same positions beyond the end, give the same results, whatever their cursors are, however short their reads are and whether or not clones share a cursor. Interleaved calls on other handles never change the results of the calls on one handle. If a device fails, or refuses positions that the other accepts, results are the same up to the first error this causes.", "quantifier": "all programs (finite sequences of calls on all handles obtained), all pairs of devices that answer as the same bytes, all failure schedules", "why_tests_cant": "Quantifies over all call sequences, all interleavings and all pairs of device implementations; in particular shared cursors of cloned file handles only show under interleavings.", "anchors": ["src/ext4/fs.rs:22-131", "src/ext4/file.rs:59-162", "src/ext4/directory/directory.rs:39-75", "src/block_device/file.rs:1-60", "src/block_device/reader.rs:1-140"]}
{"id": "C77", "title": "An ext4 filesystem on an assembled RAID6 array reads as on a plain device", "statement": "Let the members of a RAID6 array, with data areas at their beginning, hold an ext4 volume spread over them by the layout. Any program that uses the ext4 API on the assembled array sees exactly what it would see on one plain device with the volume's bytes, whatever the order of the members, their block sizes, the chunk size, the layout and the hash order; if members fail, the same up to the first error they cause.", "quantifier": "all layouts, member counts, chunk sizes, contents, member orders, hash orders, and all programs", "why_tests_cant": "Composition of the array, the reader and the filesystem over all geometries and all programs; no test in the project goes through all the layers.", "anchors": ["src/md/array.rs:60-180", "src/block_device/reader.rs:1-140", "src/ext4/fs.rs:22-131"]}
{"id": "C78", "title": "The program diagnoses exactly the given devices, or says which of them it cannot use", "statement": "Run with any list of paths on a system where no read or ioctl fails: if some paths cannot be opened or are not block devices, exactly those paths are listed, in the order given, each with its reason, and nothing is diagnosed; otherwise the printed diagnosis is about exactly the devices at the paths, each named by its path, and reports for them exactly the devices that are too small, those without superblock, the disagreements and the duplicate roles that are really there. If reads and ioctls may fail at any time, the program never panics; it either lists some of the paths, in order, among them every path that cannot be used, or it diagnoses exactly the given devices, each with what is on it, with another superblock that is on it, or with none.", "quantifier": "all lists of paths, all file systems and device contents, all physical block sizes, all hash orders, all schedules of failing reads and ioctls", "why_tests_cant": "The program has no test of main; the claim ranges over all contents of all devices and over every point at which the kernel may fail.", "anchors": ["src/main.rs:29-47", "src/md/device/device.rs:28-88", "src/block_device/native.rs:15-60", "src/ioctl/blk.rs:1-6"]}
{"id": "C79", "title": "Paths that are not block devices are always refused", "statement": "If any of the given paths leads to something that opens but is not a block device (an image in an ordinary file, a directory), the program lists that path with an error (ENOTTY if nothing else fails) and diagnoses nothing, whatever the other paths are and whatever else fails.", "quantifier": "all lists of paths containing such a path, all contents, all schedules of failures", "why_tests_cant": "Needs all combinations with other devices and failures; a test shows one file.", "anchors": ["src/main.rs:32-46", "src/block_device/native.rs:26-37", "src/md/device/device.rs:28-88"]}
{"id": "C80", "title": "Superblocks are looked for at the places given by the true size of the device", "statement": "On every block device, whatever its physical block size and also if its size is not a multiple of it, the superblock found is the one expected from the whole content of the device (places of the 1.0 and 0.90 superblocks counted from its true end).", "quantifier": "all device sizes, all physical block sizes, all contents", "why_tests_cant": "Depends on the remainder of the size by the physical block size for all sizes; the project has no test with a native device.", "anchors": ["src/block_device/native.rs:33-37", "src/md/device/device.rs:42-88", "src/main.rs:29-47"]}
{"id": "C81", "title": "Reading everything to the end", "statement": "Reading all of a stream, from any position and whatever sizes the pieces read have, ends and returns exactly the bytes from that position to the end, in order and once each; at or beyond the end it returns nothing. On a device that can fail, it otherwise returns the error.", "quantifier": "all devices, all contents, all positions, all sequences of piece sizes", "why_tests_cant": "The piece sizes are chosen by the standard library and short reads at block ends depend on the block size; the combinations are unbounded, and the project tests read_all only on its own fixtures.", "anchors": ["src/ext/read_all.rs:8-14", "src/block_device/reader.rs:1-215"]}
{"id": "C82", "title": "Coded values survive being read and written", "statement": "For the coded fields of the ext4 structures (error policy, creating OS, hash version, encryption algorithm, checksum type, file types of inodes and of directory entries): reading any number and writing the value gives the number back, and writing any value and reading it gives the value back; a file type converted from its inode form to its directory form, written and read is still that type.", "quantifier": "all numbers and all values of the seven types", "why_tests_cant": "Tests check a few codes; the claim is about all numbers, known and unknown, and about values that can be constructed but never read.", "anchors": ["src/ext4/superblock/error_policy.rs:5-28", "src/ext4/superblock/creator_os.rs:5-30", "src/ext4/superblock/hash_version.rs:5-31", "src/ext4/superblock/encryption_algorithm.rs:5-29", "src/ext4/superblock/checksum_type.rs:5-27", "src/ext4/inode/file_type.rs:5-32", "src/ext4/directory/file_type.rs:6-63"]}
{"id": "C83", "title": "Entries of an extent node by position and by iteration", "statement": "The entry at a position of an extent node is the 12-byte record with that number after the header; positions from the entry count on have none; iterating over a leaf returns its extents in order, each once, and then nothing for ever; accesses panic exactly if the claimed entries do not fit in the node.", "quantifier": "all node contents, all positions, any number of calls", "why_tests_cant": "Depends on all counts and positions, also those beyond what the node holds.", "anchors": ["src/ext4/extent/tree.rs:81-90", "src/ext4/extent/tree.rs:121-130", "src/ext4/extent/tree.rs:145-168"]}
{"id": "C84", "title": "A listing contains exactly the entries in use", "statement": "Listing a directory returns exactly the records that are in use (inode number not zero), each once and in order, and no others.", "quantifier": "all directories of whole blocks, all contents", "why_tests_cant": "Records that are not in use arise by deletion and depend on the history of the directory; the fixtures of the project have none.", "anchors": ["src/ext4/directory/block.rs:48-54", "src/ext4/directory/directory.rs:39-59", "src/ext4/directory/dir_entry.rs:18-43"]}
{"id": "C85", "title": "Damaged directory blocks are reported", "statement": "If the records of a directory block do not go up to its end (before the checksum, if there is one), listing the directory returns an error for the block, so that entries behind the damage do not go missing unnoticed.", "quantifier": "all directories, all damage", "why_tests_cant": "Damage is arbitrary; no test has a damaged block.", "anchors": ["src/ext4/directory/block.rs:48-54", "src/ext4/directory/dir_entry.rs:18-29", "src/ext4/directory/directory.rs:47-58"]}
{"id": "C86", "title": "Debug and release builds give the same results", "statement": "Whatever calls a program makes on ext4 volumes, filesystems, files and directories, it sees the same results in a build with arithmetic overflow checks and in a build without.", "quantifier": "all programs, devices (also failing ones) and contents", "why_tests_cant": "Tests run in one build; the difference shows only for numbers that overflow.", "anchors": ["src/ext4/fs.rs:50-58", "src/ext4/file.rs:131-152", "src/ext4/superblock/superblock.rs:214-220"]}
{"id": "C87", "title": "A report without complaint", "statement": "The program prints a diagnosis without any complaint exactly if every path is a block device that can be opened, every device has a superblock, all superblocks agree in everything that is compared (uuid, name, level and layout, size, chunk size, number of devices, reshape, event count, role table), and no two devices have the same role index. If reads fail, a diagnosis without complaint still means that on each device there is a superblock, that these agree, and that no two have the same role index.", "quantifier": "all lists of paths, file systems, disk contents, hash orders, schedules of failures", "why_tests_cant": "The claim is an equivalence over all disk contents; a test shows one report.", "anchors": ["src/main.rs:29-47", "src/md/definition.rs:20-241", "src/md/diagnosis/diagnosis.rs:5-23"]}
{"id": "C88", "title": "A report without complaint means that all members are there", "statement": "If the superblocks say that the array has n devices and the diagnosis has no complaint, then all n members are among the given devices.", "quantifier": "all lists of devices and superblocks", "why_tests_cant": "No test gives an incomplete set of members to the diagnosis; the claim is about all incomplete sets.", "anchors": ["src/md/definition.rs:20-241", "src/md/diagnosis/diagnosis.rs:5-23", "src/md/array.rs:20-110"]}
{"id": "C89", "title": "From the disks of an array to the files on it", "statement": "If the paths, in any order, are the member disks of a RAID6 array (and possibly spares) with superblocks in step, then the program opens all of them, reports no complaint, and every program that reads the ext4 filesystem on the assembled array sees what it would see on a plain device with the logical content of the array. If the disks fail at any time, either some path is reported with an error or what is seen is right up to the first error.", "quantifier": "all layouts, geometries, contents, block sizes, orders of paths, hash orders, programs, schedules of failures", "why_tests_cant": "Needs real member disks, and all of probing, opening, assembling, reading and ext4 together; tests cover the pieces on fixtures.", "anchors": ["src/main.rs:29-47", "src/md/device/device.rs:29-111", "src/md/array.rs:20-180", "src/ext4/fs.rs:20-120"]}
{"id": "C90", "title": "The text of a report tells the findings", "statement": "Two reports with the same text have the same findings: the same complaints, the same differing values, and for each of them the same devices under the same paths, whatever bytes paths and array names consist of. In particular the output is the text with None for all twelve complaints exactly if nothing is wrong with the devices.", "quantifier": "all diagnoses, all values, all byte strings as paths and names, all hash orders", "why_tests_cant": "That no two different findings look the same is a claim about all pairs of diagnoses, and about all byte strings that have to be escaped.", "anchors": ["src/main.rs:38-46", "src/md/diagnosis/diagnosis.rs:9-23", "src/md/device/id.rs:7-11", "src/md/superblock/array_uuid.rs:6-10", "src/md/algorithm.rs:6-11", "src/md/superblock/reshape_status.rs:4-11"]}
{"id": "C91", "title": "The exit status tells whether the devices could be examined", "statement": "The program exits with status 0 exactly if every path could be opened as a device and a diagnosis was printed.", "quantifier": "all paths, file systems, disk contents, schedules of failures", "why_tests_cant": "No test runs the program; the claim is about all ways in which opening can fail.", "anchors": ["src/main.rs:29-47"]}
{"id": "C92", "title": "A uuid as text", "statement": "The uuid of an array is displayed as its bytes in order, two lower-case hexadecimal digits each, and different uuids are displayed as different texts.", "quantifier": "all short and long uuids", "why_tests_cant": "A claim about all pairs of uuids, among them those with leading zero digits.", "anchors": ["src/md/superblock/array_uuid.rs:6-37"]}
{"id": "C93", "title": "What a report says, line by line", "statement": "Each kind of complaint is written under its own name, in a fixed order: either None or the devices concerned, or the differing values with the devices that have them. Numbers are written in decimal, uuids byte by byte, layouts by their names. Paths and array names are written between quotation marks, character by character from left to right: printable characters as they are, others by an escape sequence, bytes that are not part of a character as two upper-case hexadecimal digits. Nested values are indented by four spaces per level. If paths could not be opened, there is one line for each of them, in order, and no report.", "quantifier": "all diagnoses, all values, all byte strings as paths and names, all hash orders, all tables of printable characters", "why_tests_cant": "A claim about all values and all byte strings, also those that are not UTF-8, in all combinations and nestings.", "anchors": ["src/main.rs:36-46", "src/md/diagnosis/diagnosis.rs:9-23", "src/md/device/id.rs:7-11", "src/md/superblock/array_uuid.rs:6-10", "src/md/algorithm.rs:6-11", "src/md/superblock/reshape_status.rs:4-11"]}
{"id": "C94", "title": "Interruptions by signals are not seen", "statement": "If system calls that read a file are interrupted by signals, at any points and any number of times, reading a block, reading exactly a number of bytes and reading to the end give the same bytes, the same errors and leave the file at the same position as without interruptions. Failures that are not interruptions are reported.", "quantifier": "all files, positions and buffers, all schedules of short reads, failures and interruptions", "why_tests_cant": "Signals arrive at points that a test does not control; the claim is about all of them.", "anchors": ["src/block_device/internal.rs:11-29", "src/ext/read_all.rs:8-14"]}
{"id": "C95", "title": "The command line", "statement": "The devices examined are exactly the paths named on the command line, in their order: every word that does not begin with '-' (or is just '-') and is not the value of an output option, and every word after '--'. Outputs, in any of the forms -o X, -oX, -o=X, --output X, --output=X, have no effect on what is done or printed. -h, --help, -V and --version print a text and do nothing else. Every other command line is refused with status 2 before anything is opened, and the status is 2 in no other case.", "quantifier": "all lists of words, all states of the system", "why_tests_cant": "There are infinitely many command lines, and the claim about outputs compares all of them with one another.", "anchors": ["src/main.rs:19-27", "src/main.rs:30-36"]}
{"id": "C96", "title": "Status 0 means that the report was written", "statement": "If the command line names devices to examine and the program exits with status 0, then all of the report has arrived on the standard output; if it could not be written completely, the status is not 0.", "quantifier": "all command lines and devices, all points at which writing to the standard output fails, standard outputs that are not open for writing", "why_tests_cant": "Writing may fail after any byte of any report.", "anchors": ["src/main.rs:38-46"]}
{"id": "C97", "title": "Texts of quantities", "statement": "The text shown for a quantity (block, sector, chunk, stripe, device, inode numbers; counts and sizes) has its number in decimal and tells its unit: two quantities that are shown alike are of the same unit and equal. Devices given by different names are shown by different texts.", "quantifier": "all unit types and all numbers", "why_tests_cant": "It compares the texts of all pairs of quantities.", "anchors": ["src/block_device/block_number.rs:6-8", "src/block_device/block_count.rs:21-22", "src/md/units/sector_number.rs:9-11", "src/ext4/units/block_count.rs:20-21", "src/md/device/id.rs:44-51"]}
{"id": "C98", "title": "Following a path to the content of a file", "statement": "On a device that holds an ext4 filesystem, a program that opens the filesystem, looks up one name after the other from the root directory (inode 2) among the entries it lists, opens the inode found, and reads blocks until a read returns zero, obtains exactly the content of the file at that path; and if there is no such entry, or something else in the place of a directory or of the file, it learns this. On a device that may fail it obtains the same or an error, never other bytes. The same holds on a RAID6 array assembled from its members.", "quantifier": "all volumes, all files of contiguous written blocks, all directories of sound blocks, all paths of any length, all devices and all failures", "why_tests_cant": "It composes opening, inode lookup, listing, name decoding, extent walking and RAID6 mapping for paths of any length; the tests of the project list one empty root directory.", "anchors": ["src/ext4/fs.rs:27-65", "src/ext4/fs.rs:83-109", "src/ext4/fs.rs:129-132", "src/ext4/directory/directory.rs:39-59", "src/ext4/directory/dir_entry.rs:33-43", "src/ext4/regular_file.rs:20-26"]}
{"id": "C99", "title": "Damage to metadata with checksums is noticed", "statement": "On a filesystem whose metadata has checksums, damage of up to four consecutive bytes to the superblock, a group descriptor, an inode, an extent node or a block of a directory is reported as an error: what is damaged is not used as if it were sound, and damage to one block of a directory does not hide the entries in its other blocks.", "quantifier": "all volumes, all places and values of the damage, all devices", "why_tests_cant": "Every byte of the metadata can be damaged in 255 ways, and bursts in 2^32; tests read undamaged images.", "anchors": ["src/ext4/superblock/superblock.rs:130-175", "src/ext4/superblock/superblock.rs:648-662", "src/ext4/inode/inode.rs:50-92", "src/ext4/inode/inode.rs:189-193", "src/ext4/block_group/descriptor.rs:114-116", "src/ext4/fs.rs:27-65", "src/ext4/fs.rs:83-109", "src/ext4/directory/block.rs:12-46"]}
{"id": "C100", "title": "Damage to one member of an array is never passed on", "statement": "Let the members of a RAID6 array, with data areas at their beginning, have been damaged so that in each sector at most one member holds something other than what was written (not always the same member, in any number of bytes; one whole member may hold anything). Every read of the array, everything a program does with an ext4 filesystem on it and every file read by its path gives what was written or an error, never other data; on members that do not fail, reading a sector gives what was written unless the damage is on data or P of its stripe, and then InvalidData.", "quantifier": "all layouts, geometries, contents, damages to one member per sector, orders of members, failing members, programs and paths", "why_tests_cant": "All damages and all programs are quantified; no test in the project damages a member.", "anchors": ["src/md/raid6/algorithm.rs: Raid6Algorithm::read_sector", "src/md/array.rs:60-180", "src/block_device/reader.rs:1-140", "src/ext4/fs.rs:22-131"]}
{"id": "C101", "title": "What cannot be read hurts only what is stored there", "statement": "Let some blocks of a device be unreadable. Exact reads that touch none of them give what the device holds, opening an ext4 filesystem needs only the superblock and the group descriptors, and a path is followed to what the bytes of the volume say (as in C98) if, of every inode on the way, the inode and the blocks of its extent tree can be read; whatever else is unreadable makes no difference, and other paths give an error or the right answer. On a RAID6 array whose members have unreadable blocks, and in each sector of which at most one member has been damaged besides, a sector can be read unless the same sector of some member cannot, or the damage is on data or P of its stripe; so all files are read none of whose sectors is in such a stripe.", "quantifier": "all devices and sets of unreadable blocks, all volumes and paths, all layouts, geometries, contents and damages", "why_tests_cant": "The places of what is unreadable, relative to the places of the metadata and of the data of each file, are too many to be tried; a test has one image.", "anchors": ["src/ext4/fs.rs:22-131", "src/ext4/file.rs", "src/ext4/extent", "src/ext4/directory/directory.rs", "src/block_device/reader.rs:1-140", "src/md/array.rs:60-180", "src/md/raid6/algorithm.rs: Raid6Algorithm::read_sector"]}
{"id": "C102", "title": "A read of a file that failed can be repeated", "statement": "When reading a file on a failing device, the data returned by all calls of read_next_block together, however many calls failed in between, is the beginning of the file with nothing left out, repeated or misplaced, and a call returns 0 only when all of the file has been returned. A call that failed since the device could not be read for a moment can be made again, and then returns the block it failed to return; if not, the file can be opened anew and is then read as if nothing had happened.", "quantifier": "all volumes and well-formed files of any size and tree depth, all sequences of calls, all failures of the device", "why_tests_cant": "The failure may happen at any device read of any call; a test has to pick the moment and the file.", "anchors": ["src/ext4/file.rs:81-157 Ext4FileInternal::read_next_block", "src/ext4/regular_file.rs:24-26", "src/ext4/fs.rs:111-127 Ext4Fs::read_block"]}
{"id": "C103", "title": "A listing of a directory that failed can be continued", "statement": "When listing a directory on a failing device, the results of all calls of read_next_entry together are, up to the first call that fails because of the device, the beginning of the listing that a device without failures gives: no entry is left out, repeated or out of order, and None is returned only after every entry has been returned. After a call that failed since the device could not be read for a moment, the listing can be continued with the entry that comes next; if not, the directory can be opened anew and is then listed as if nothing had happened.", "quantifier": "all volumes and directories of whole blocks of any number and tree depth, all sequences of calls, all failures of the device", "why_tests_cant": "The failure may happen at any device read of any call; a test has to pick the moment and the directory.", "anchors": ["src/ext4/directory/directory.rs:39-78 Ext4Directory::read_next_entry, read_next_block", "src/ext4/file.rs:81-157 Ext4FileInternal::read_next_block", "src/ext4/fs.rs:111-127 Ext4Fs::read_block"]}
{"id": "C104", "title": "Reading asks the device for the blocks of the file once, in order, and for nothing else", "statement": "Reading a file, listing a directory or reading an inode asks the device only for what belongs to it: the blocks of its extent tree and of its data, in the order in which the tree lists them, each at most once, with one seek to the block and reads that together return at most one buffer; for an inode, the bytes of that inode. This holds whatever the tree contains, in whatever calls and with whatever failures of the device. While no call has failed no block is left out; when the end of the file is reported, every block has been asked for; and after a failed call on a well-formed file nothing is asked for again.", "quantifier": "all volumes, all extent trees that end (well-formed or not), all sequences of calls with buffers of any length, all devices, with or without failures", "why_tests_cant": "A test sees the data returned for chosen files; which places of a failing disk are touched, how often and in which order, over all trees, calls and failures, is not visible in it.", "anchors": ["src/ext4/file.rs:81-157 Ext4FileInternal::read_next_block", "src/ext4/fs.rs:83-127 Ext4Fs::read_inode, read_block", "src/ext4/directory/directory.rs:39-78 Ext4Directory::read_next_entry, read_next_block"]}
{"id": "C105", "title": "A superblock that cannot be read is not taken for an absent one", "statement": "When a place where a superblock may be cannot be read, the user is told so: the device is not reported as having no superblock, and is not given the superblock of another place (for example one left by an earlier use of the disk) instead.", "quantifier": "all device contents and sizes, all sets of unreadable bytes, all devices (also those that deliver less than asked for)", "why_tests_cant": "Tests have no devices with unreadable sectors; and what is reported has to be right for every combination of unreadable bytes and superblocks present.", "anchors": ["src/md/device/device.rs:50-84 MdDevice::from_block_device", "src/main.rs:29-47 main"]}
{"id": "C106", "title": "Opening asks a device only for superblocks and descriptors, once", "statement": "Opening a member device asks it for nothing but the 4096 bytes at the places where a superblock may be, in the order 1.2, 1.1, 1.0, 0.90, each place at most once, with one seek and reads that together return at most 4096 bytes. It stops at the first superblock it finds, and does not report a missing superblock before it has looked at every place that the size of the device allows. Opening an ext4 filesystem asks the device for the 1024 bytes of the superblock, once, and then, only if the superblock is acceptable, for the group descriptors, once and one after the other, and never for more bytes than there are descriptors.", "quantifier": "all devices (also those that fail at any time or deliver less than asked for), all contents and sizes, all superblocks, both builds", "why_tests_cant": "That nothing else is asked for, on a disk that may be failing, is a statement about all requests of all runs, for every content, size and pattern of failures and short reads.", "anchors": ["src/md/device/device.rs:39-85 MdDevice::from_block_device", "src/ext4/fs.rs:27-65 Ext4Fs::open", "src/ext4/superblock/superblock.rs:666-675 Superblock::read"]}
{"id": "C107", "title": "Reading an array asks each member only for the stripe sector needed", "statement": "Reading bytes through the block reader asks the device for the blocks in which these bytes are, in ascending order, once each, and for no other block; a read that fails has asked for some of them, from the first on. Reading a sector of a RAID6 array asks every member, in order, for the blocks in which the one sector of the stripe is (counted from the beginning of the member), once each, and for nothing else; an array whose format is not known or not supported asks its members for nothing. Reading bytes of an opened array asks for this sector after sector: members are asked again for what several sectors need.", "quantifier": "all devices (also those that fail at any time), all block sizes of the members, all geometries and layouts, all positions and lengths, all contents", "why_tests_cant": "That nothing but these blocks is asked for is a statement about all requests of all runs, for every combination of block sizes, geometry, position, length and failures.", "anchors": ["src/block_device/reader.rs:1-140 BlockDeviceReader", "src/md/array.rs:111-180 impl BlockDevice for MdArray", "src/md/raid6/algorithm.rs:194-247 Raid6Algorithm::read_sector"]}
{"id": "C108", "title": "Following a path asks the device only for what lies on the path", "statement": "A program that opens an ext4 filesystem and follows a path in it (open the inode, list the directory until an entry has the name, open that entry's inode, and so on, and at the end read the file) asks the device for the superblock, then for the group descriptors, one after the other, then, of each directory on the way, for its inode and for its blocks (the blocks of its extent tree and its data blocks) in their order from the first up to the one that holds the entry, and at the end for the inode of the file and all its blocks in their order: for nothing that does not lie on the path, and for no block more often than the tree refers to it. Where the device fails, the program has asked for a beginning of this; where no directory entry has the name, for the whole directory; where an inode is not of the kind needed, for none of its blocks.", "quantifier": "all filesystem contents on which the path can be followed, all paths, all devices with short reads and failures at any time", "why_tests_cant": "That nothing else is asked for is a statement about all requests of all runs, with every failure at every point.", "anchors": ["src/ext4/fs.rs:23-147 Ext4Fs::open, read_inode, read_block, open_file", "src/ext4/directory/directory.rs:39-78 Ext4Directory::read_next_entry, read_next_block", "src/ext4/file.rs:81-157 Ext4FileInternal::read_next_block"]}
{"id": "C109", "title": "Nothing is read ahead", "statement": "When a call that reads the next block of an ext4 file returns data, the last block the device was asked for is the block of these data: nothing that comes after it in the file or in its extent tree has been asked for. When a call that reads the next entry of a directory returns an entry, the last block the device was asked for is the one that contains this entry. Both hold after any calls before, whether these succeeded or failed.", "quantifier": "all filesystem contents and extent trees, all histories of calls, all devices with short reads and failures at any time", "why_tests_cant": "It compares every returned piece of data with every request made before it, over all trees, histories and failures; a test sees the data, and a test that records requests sees one tree.", "anchors": ["src/ext4/file.rs:81-157 Ext4FileInternal::read_next_block", "src/ext4/directory/directory.rs:39-78 Ext4Directory::read_next_entry, read_next_block"]}
{"id": "C110", "title": "What is stored elsewhere on a volume does not matter", "statement": "Let two volumes of the same size differ only in some set of bytes B. (a) If on the first one a path can be followed (sound directories on the way, names followed by a zero byte or the end of their record) to a file, to a missing entry, or to something that is neither, and B contains no byte of the superblock, of the group descriptors, of the inodes on the way or of the blocks of their extent trees, then the second volume can be opened too, and following the path there gives the same. (b) Any program that makes calls on devices, filesystems, files and directories, and that would show no error if every read of a byte in B failed, sees exactly the same on both volumes; if an error would be shown at some point, it sees the same up to that point.", "quantifier": "all pairs of contents, all sets of bytes in which they differ, all paths, all sequences of calls on all handles, all devices for (a) (also those that fail at any time)", "why_tests_cant": "It compares the runs on all pairs of volumes, whatever is in the bytes that do not matter; a test compares two images.", "anchors": ["src/ext4/fs.rs:23-147 Ext4Fs::open, read_inode, read_block, open_file", "src/ext4/directory/directory.rs:39-78 Ext4Directory::read_next_entry", "src/ext4/file.rs:81-157 Ext4FileInternal::read_next_block"]}
{"id": "C111", "title": "The report depends on the superblocks only", "statement": "Run the program on the same paths in two systems. If at every path either the same error occurs on opening, or there is no block device in both, or there are block devices on which the same superblock counts (the first of 1.2, 1.1, 1.0 and 0.90 that is there, or none, or the device is too small), then the program prints the same errors in both, or two reports that say the same: the same findings, with the same values and the same devices. In particular all bytes outside the places of the superblocks, and those at a place where there is no superblock before and after, are of no consequence, and so is the physical block size.", "quantifier": "all lists of paths, all pairs of systems that look the same in this sense, all iteration orders of the hash maps", "why_tests_cant": "It compares all pairs of systems with the same superblocks, whatever is in the rest of the devices.", "anchors": ["src/main.rs:29-47 main", "src/md/device/device.rs:28-100 MdDevice::open_path, from_block_device", "src/md/definition.rs:28-240 MdArrayDefinition::diagnose"]}
{"id": "C112", "title": "What a path leads to is really there", "statement": "Whatever a volume contains, however damaged it is, and whatever fails on the way: if a program opens the filesystem, looks up one name after the other from the root directory and reads the file it arrives at to its end, and all its calls succeed, then what it has found is on the volume. Each name is that of the first such record in use among the records of the directory reached, in a block with the right checksum (if there are checksums) that an extent of that directory maps at its place; the inode at the end is a regular file, and the content has the size in the inode and consists of blocks which extents of that inode map to block 0, 1, 2, ... of the file. If the program finds no entry with a name, all blocks of the directory have been read and were sound, and no record shows that name. A record shows the bytes of its name up to the first zero byte.", "quantifier": "all volume contents (of less than 2^64 bytes), all paths, all devices and failures, all bounds on the loops; in a build without overflow checks, volumes whose files have less than 2^32 blocks", "why_tests_cant": "It is about all damaged volumes and all schedules of failures; a test shows one volume on which the answer happens to be right.", "anchors": ["src/ext4/fs.rs:27-65", "src/ext4/fs.rs:83-109", "src/ext4/fs.rs:129-132", "src/ext4/directory/directory.rs:39-59", "src/ext4/directory/dir_entry.rs:33-43", "src/ext4/regular_file.rs"]}
{"id": "C113", "title": "Disks with any content as members of an array", "statement": "Take disks whose superblocks describe a RAID6 array, with anything at all in their data areas: damaged on as many members as one likes, rewritten, or never part of an array. The array made of them is a device with one content, namely what the members hold in the places the layout gives to data. A sector of it is read, and gives this content, exactly if P is the XOR of the data in the same sector of all the members; otherwise the answer is InvalidData. Members with unreadable blocks only add the sectors of whose stripe a member cannot be read. So a program that uses the ext4 filesystem on the array sees the same as on a plain device with this content, up to the first error; what it finds by following a path is there; and a path is followed to the right end if all that is needed for it lies in stripes whose P agrees.", "quantifier": "all layouts, device counts, chunk sizes and member sizes (whole chunks, less than 2^64 bytes in all), all contents of the members, all sectors, all sequences of calls on the filesystem, all paths, all iteration orders of the hash maps", "why_tests_cant": "It is about all contents of all members; there are more than 2^4096 for a single sector of one member.", "anchors": ["src/md/raid6/algorithm.rs: Raid6Algorithm::read_sector", "src/md/array.rs:113-180 impl BlockDevice for MdArray", "src/ext4/fs.rs:22-131"]}
{"id": "C114", "title": "Arrays with superblocks of version 1.1 and 1.2, and data areas anywhere", "statement": "Take the member disks of a RAID6 array with superblocks of version 1.0, 1.1 or 1.2 (also mixed) and any data offsets. All are opened; if the superblocks are in step, the report has no complaint, whatever the data offsets and minor versions. But the array is read from the first sectors of the disks, whatever data offsets the superblocks give: its sectors and the ext4 filesystem on it are those of C113 for the disks counted from their first sectors. So the content is right if the array begins there. If no disk has the ext4 magic number 1080 bytes from its own beginning, the filesystem is refused; in particular on every array of version 1.1 with chunks of at least 3 sectors, where the superblocks themselves are in this place.", "quantifier": "all layouts, device counts, chunk and member sizes, minor versions, data offsets, contents of the disks, orders of the paths, hash orders, programs", "why_tests_cant": "Needs whole disks of every version and every data offset; a test on one image of version 1.2 would not show that all arrays of version 1.1 are refused.", "anchors": ["src/main.rs:29-47", "src/md/device/device.rs:29-111", "src/md/array.rs:113-180 impl BlockDevice for MdArray", "src/md/superblock/version_1/", "src/ext4/fs.rs:27-65"]}
{"id": "C115", "title": "Data of an array come from a complete set of disks that agree", "statement": "Whatever disks are given, of whatever content and behaviour: if reading any sector of the array opened from them returns data, or an ext4 filesystem can be opened on it, then every one of them has a superblock, all superblocks agree on RAID level 6, layout, number of devices, chunk size and size (or on what these are being changed to), and for each member of the array exactly one of the disks claims to be it. The data are those of the member in the right place, and P of the stripe agrees with all members' data.", "quantifier": "for all lists of devices, all contents, failures and behaviours of them, all sector numbers, buffers and orders of iteration", "why_tests_cant": "Tests try some wrong sets of disks; that no wrong set is ever read is a statement about all of them.", "anchors": ["src/md/array.rs:25-104 MdArray::open", "src/md/array.rs:132-173 read_block", "src/md/raid6/algorithm.rs", "src/ext4/fs.rs:27-65"]}
{"id": "C116", "title": "Disks of different arrays, and outdated disks, are not read together", "statement": "If the superblocks of two of the disks given differ in the uuid of the array or in the number of events, the array made of them returns no data, and the report has a complaint.", "quantifier": "for all sets of disks, uuids, numbers of events and orders", "why_tests_cant": "The tests have no disks of two arrays, and would try some combinations only.", "anchors": ["src/md/array.rs:25-104 MdArray::open", "src/md/array.rs:132-173 read_block", "src/md/diagnosis/diagnosis.rs"]}
{"id": "C117", "title": "Volumes that declare no more than they hold cause no panic", "statement": "If the superblock, the inodes and the nodes of extent trees of an ext4 volume declare no more than there is (the table of group descriptors below 2^64, no more extra bytes than an inode has room for, no more entries than a node has room for, files of less than 2^32 blocks), then no call of the API panics, whatever calls are made in whatever order with whatever arguments, whatever else the volume contains (wrong checksums, cycles, trees that lead outside, directories of any bytes), and whichever calls to the device fail. The conditions on the superblock, on inodes and on nodes are needed.", "quantifier": "for all volumes, devices, failures and sequences of calls", "why_tests_cant": "A test opens a few volumes; a damaged volume may contain any bytes, and a panic ends the recovery of everything else.", "anchors": ["src/ext4/fs.rs: Ext4Fs::open, read_inode, open_file", "src/ext4/inode/inode.rs: Inode::new", "src/ext4/extent/tree.rs", "src/ext4/file.rs: Ext4FileInternal::read_next_block", "src/ext4/directory/directory.rs"]}
{"id": "C118", "title": "A member given twice", "statement": "If the path of a member is given twice, or a copy of a member is given along with it, no data is read from the array and no filesystem is opened on it, whatever the devices do and in whatever order they are given; and the report has a complaint.", "quantifier": "for all arrays, members, orders of the paths, and behaviours of the devices", "why_tests_cant": "The tests never give a disk twice; which of two claims wins could depend on the order and on the hashing of the map in use.", "anchors": ["src/md/array.rs:25-104 MdArray::open", "src/md/array.rs:132-173 read_block", "src/md/diagnosis/diagnosis.rs"]}
{"id": "C119", "title": "Which disks must be given", "statement": "Of the disks of an array, members and spares, some are given, in any order, some perhaps several times. If each member is given exactly once, the files on the array are seen as they are, whichever spares are given. Otherwise nothing is read of the array and no filesystem is opened on it, whatever the devices do.", "quantifier": "for all arrays, selections and orders of their disks, sessions and behaviours of the devices", "why_tests_cant": "The selections and orders of disks are unbounded in number; no test opens an array from paths.", "anchors": ["src/main.rs:29-47 main", "src/md/array.rs:25-104 MdArray::open", "src/md/array.rs:132-173 read_block"]}
{"id": "C120", "title": "Arrays with missing members", "statement": "The files on a RAID6 array can be read although up to two of its members are missing.", "quantifier": "for all arrays and sets of at most two missing members", "why_tests_cant": "The tests read no array with a missing member; the sets of missing members and the contents of arrays are unbounded in number.", "anchors": ["src/md/array.rs:132-173 read_block", "src/md/raid6/mod.rs"]}
{"id": "C121", "title": "Programs come to an end", "statement": "On a volume that declares no more than it holds and whose extent trees do not lead in circles, every call of every program returns, without a panic, after a number of rounds that is bounded by the volume alone: two for each extent, two for each child node, one for each block of a directory, whatever was called before, on whichever handles, and whatever fails.", "quantifier": "for all volumes, programs, interleavings of handles, and failures of the device", "why_tests_cant": "Tests show that some calls return; they cannot show that all calls of all programs do, with one bound.", "anchors": ["src/ext4/file.rs:81-157 read_next_block", "src/ext4/directory/directory.rs:39-78 read_next_entry", "src/ext4/fs.rs"]}
{"id": "C122", "title": "One disk that is not what it should be", "statement": "If all disks given are what their superblocks say together, members of one RAID6 array with the right content, except for one disk, with any superblock and any content, of any size (a damaged disk, a disk of another array, an empty disk), then everything read of the array, and of the files on it, is what was written, or there is an error.", "quantifier": "for all arrays, contents, layouts, orders of the disks, places and contents of the one disk, and sequences of calls", "why_tests_cant": "Tests try a few wrong disks; a wrong superblock changes how the roles of all other disks are merged, and the superblocks and contents of a disk are unbounded in number.", "anchors": ["src/md/array.rs:25-100 open", "src/md/array.rs:132-173 read_block", "src/md/raid6/algorithm.rs read_sector", "src/main.rs"]}
{"id": "C123", "title": "Files and directories written on a volume are read back", "statement": "Take any table of files with any contents and of directories with any entries (names of at most 255 bytes, none of them zero; entries may lead back to directories above, and several entries may lead to one file), and write it on a volume in the simplest form of ext4: one block group, inodes of 128 bytes, up to four extents for each file, without checksums or with checksums of the superblock and of the blocks of directories that start from any UUID. Then a program that opens the volume, follows a path of any length and reads the file at its end obtains exactly the content that was written; or learns that there is no such entry; or that there is something else than a directory on the way or than a file at the end. Anything may follow the volume on the device. The same holds on a RAID6 array and from the disks of an array, and on devices that fail the program obtains the same or an error.", "quantifier": "all tables of files that fit into the fields of the format, all block sizes from 1024 to 32768, without checksums or with checksums from any UUID, all paths, all devices and arrays, all failures", "why_tests_cant": "Tests read back some trees of files; the contents, shapes, names and paths are without bound.", "anchors": ["src/ext4/fs.rs:27-65", "src/ext4/fs.rs:83-109", "src/ext4/fs.rs:129-132", "src/ext4/directory/directory.rs:39-59", "src/ext4/directory/dir_entry.rs:33-43", "src/ext4/regular_file.rs:20-26", "src/ext4/file.rs:81-157"]}
{"id": "C124", "title": "New arrays are diagnosed as sound and read back", "statement": "Take the disks of a new RAID6 array (superblocks of version 1.0 with one uuid, name, geometry and event count; device numbers and roles from zero on; any layout the program knows, 3 to 1920 members, any chunk size; physical block sizes that divide 4096) with any content, given in any order. If the data on none of them could be taken for a superblock of version 1.1 or 1.2, then the program reports a diagnosis without complaints; every sequence of calls on the array returns what it would return on the content itself; and files and directories written on the array are read back along every path. Every content of the right length can be stored this way.", "quantifier": "all arrays, contents, orders of the disks, programs, tables of files and paths", "why_tests_cant": "Tests use a few arrays of a few members; sizes, contents, orders and programs are without bound.", "anchors": ["src/main.rs:29-47", "src/md/device/device.rs:29-111", "src/md/array.rs:20-180", "src/md/superblock/version_1/superblock.rs", "src/ext4/fs.rs:20-120"]}
{"id": "C125", "title": "Whole trees of files are read", "statement": "A program that opens the filesystem on a device, lists every directory from the root on (leaving out \".\", \"..\" and entries not in use) and reads every file it meets obtains exactly the tree that the bytes of the volume describe: all names, in order, all contents, and where there is something else than a file or directory. It needs that each directory and file on the way is sound (as in C98) and that the names are followed by a zero or the end of the record. Anything may fail: then it obtains the same tree or an error, never another tree. Every tree of files and directories can be written on a volume in this way, and is recovered from it, from an array and from the disks of an array just created.", "quantifier": "all volumes, all trees of any width and depth, all contents and names, all devices, arrays and failures", "why_tests_cant": "Tests read some trees; their shapes, sizes and contents are without bound, and so are the failures.", "anchors": ["src/ext4/fs.rs:27-65", "src/ext4/fs.rs:83-109", "src/ext4/fs.rs:129-132", "src/ext4/directory/directory.rs:39-59", "src/ext4/directory/dir_entry.rs:33-43", "src/ext4/regular_file.rs:20-26", "src/ext4/file.rs:81-157"]}
{"id": "C126", "title": "A tree that is returned is on the volume", "statement": "Whatever the volume contains, however damaged it is, and whatever fails: if a program that lists all directories from the root on and reads all files arrives at a tree, then that tree is on the volume. Each directory of it is a directory of the volume, whose blocks are all sound, and its entries are exactly the records in use of these blocks, in order, with the names they show; each content is that of blocks which extents map to block 0, 1, ... of the file, up to its size. Nothing is invented, and nothing is left out without an error.", "quantifier": "all contents of the volume, all failures, all trees, all bounds on the loops, devices and arrays", "why_tests_cant": "Tests damage some volumes; the ways in which a volume can be damaged are without bound.", "anchors": ["src/ext4/fs.rs:83-109", "src/ext4/fs.rs:129-132", "src/ext4/directory/directory.rs:39-59", "src/ext4/directory/dir_entry.rs:33-43", "src/ext4/regular_file.rs:20-26", "src/ext4/file.rs:81-157"]}
{"id": "C127", "title": "A program that goes on after errors saves all that can be read", "statement": "A program walks the tree of a volume from the root on. It opens each inode with the given number, lists each directory until the listing ends, reads each file to its end, notes an error where one is returned, and goes on with the next entry. On any volume whose inodes declare no more than they hold, such a program never panics; whatever fails, all that it has saved is on the volume. If parts of the volume can not be read, each file for which the structures of the filesystem, the inodes and blocks of the directories on the way to it and those of the file itself can be read is saved with its content, and a name that is not there is not saved. The same holds on an array with a bad member and unreadable sectors on others. So one bad block costs no more than the file or directory it is in.", "quantifier": "all volumes, all sets of unreadable bytes, all paths, all depths, devices and arrays", "why_tests_cant": "Which parts of a disk can not be read, and what is in the files, is not bounded; that an error leaves the opened filesystem usable for all following calls is a statement on all continuations.", "anchors": ["src/ext4/fs.rs:83-109", "src/ext4/fs.rs:129-132", "src/ext4/directory/directory.rs:39-59", "src/ext4/directory/dir_entry.rs:33-43", "src/ext4/regular_file.rs:20-26", "src/ext4/file.rs:81-157"]}
{"id": "C128", "title": "What lies in front of a block that cannot be read is read", "statement": "A program opens a volume, follows a path and reads the file it finds block by block until a read returns zero or fails, keeping what it has. On a device some bytes of which cannot be read, if what leads to the file can be read (the start of the volume, the directories on the path, the inode and the blocks of its extent tree), the program obtains a part of the file from its beginning on; it contains the first m blocks of the file whenever these can be read, for every m; if no read fails it has the whole file, and no read fails if all blocks can be read. This holds on a RAID6 array with damaged and unreadable sectors on one member per sector, and for every file that was written to a new volume.", "quantifier": "for all volumes, paths, files, sets of unreadable bytes, devices and numbers of blocks", "why_tests_cant": "Tests can place an unreadable sector at a few positions in a few files; the claim is about every position in every file on every volume.", "anchors": ["src/ext4/fs.rs:83-109", "src/ext4/fs.rs:129-132", "src/ext4/directory/directory.rs:39-59", "src/ext4/directory/dir_entry.rs:33-43", "src/ext4/regular_file.rs:20-26", "src/ext4/file.rs:81-157"]}
{"id": "C129", "title": "Directories are usable up to the first block that cannot be read", "statement": "A program opens a volume, follows a path and lists the directory it finds entry by entry until there are no more or a call fails, keeping what it has. On a device some bytes of which cannot be read, if the start of the volume, the inodes on the path and the blocks of their extent trees can be read, and of each directory on the way the blocks up to the one with the entry that is followed, the program obtains the entries of the directory from the first on; those of the first m blocks are among them whenever these blocks can be read, for every m; if no call fails it has all entries, and no call fails if all blocks can be read. Under the same conditions on the way a file at the end of the path is read as in C128. So an unreadable block in a directory hides only the entries in and behind it.", "quantifier": "for all volumes, paths, directories, files, sets of unreadable bytes, devices and numbers of blocks", "why_tests_cant": "Tests can place an unreadable sector at a few positions in a few directories; the claim is about every position in every directory on every path of every volume.", "anchors": ["src/ext4/fs.rs:83-109", "src/ext4/fs.rs:129-132", "src/ext4/directory/directory.rs:39-78", "src/ext4/directory/block.rs:12-54", "src/ext4/directory/dir_entry.rs:18-43", "src/ext4/file.rs:81-157"]}
{"id": "C130", "title": "A rescue keeps the readable front of everything it can reach", "statement": "A program opens a volume and goes through it from the root directory on, to a given depth. It reads each file until the end or until a call fails and keeps what it has, lists each directory until there are no more entries or a call fails and goes on into the entries it has, and notes for each whether it is complete; after an error it goes on with the next entry. It never panics and fails only if opening the filesystem fails, and what it returns is on the volume: each file a start of the content its extents map, each directory a start of its entries. On a device some bytes of which cannot be read, if the superblock and the group descriptors can be read, the program returns for every path, whose directories can be read up to the entry that is followed and whose inodes and extent tree blocks can be read, the file or directory at its end from the beginning up to the first block that cannot be read; it is marked complete if all of it can be read, and only if it is complete. What else is unreadable or damaged elsewhere on the volume makes no difference.", "quantifier": "for all volumes that hold what they declare, lists of paths, sets of unreadable bytes, devices, depths and numbers of blocks", "why_tests_cant": "Tests can place unreadable sectors in a few files of a few trees; the claim is about every set of unreadable bytes, every tree and every file in it at the same time, and about the absence of invented content whatever the device does.", "anchors": ["src/ext4/fs.rs:56-132", "src/ext4/directory/directory.rs:39-78", "src/ext4/directory/block.rs:12-54", "src/ext4/directory/dir_entry.rs:18-43", "src/ext4/file.rs:81-157"]}
{"id": "C131", "title": "A reader is a byte stream and a block device at the same time", "statement": "The reader over a block device can be used as a byte stream (read, seek) and as a block device (block size, block count, reading a block by number), and be cloned, in any order: block operations give what the device below gives, and do not move the position of the stream of this or another reader; stream operations behave as in C44. A reader, wherever it stands, can be given to another reader as its device. The same holds for a reader of an array. It does not hold for the device of a file itself: there a block read leaves the byte stream, also that of the clones, behind the block that was read.", "quantifier": "all devices, also those that fail at any time, contents, block sizes, and sequences of operations on any number of clones", "why_tests_cant": "A test runs a few interleavings; the claim is about all sequences of the operations on all clones.", "anchors": ["src/block_device/reader.rs:25-98", "src/block_device/internal.rs:10-34", "src/block_device/file.rs:28-65", "src/block_device/native.rs:26-60"]}
{"id": "C132", "title": "From damaged disks of an array to the files on it", "statement": "Files and directories were written on an ext4 filesystem that fills a RAID6 array whose disks carry version 1.0 superblocks; afterwards the data on the disks were damaged, in every sector on one disk at most, not always the same. The disks are given to the program in any order. The diagnosis has no complaint, as the damage is not in the superblocks. A program that opens the disks, the array and the filesystem and saves what it reaches, going on after errors, saves of every file and directory what lies in front of the first sector whose data or P on some disk were damaged, provided the tables in front of the files are not damaged so and no block of a directory on the way up to the entry that is followed is. If, besides, reads and queries of the operating system fail at any time, and no disk has a version 0.90 superblock as well, then either some path is reported with an error, or the program does not panic and all that it saves was written there: no wrong byte and no name that was not there.", "quantifier": "for all arrays of three or more members with layouts of the code, trees of files, orders of the disks, damage in one member per sector, failures, depths and numbers of blocks", "why_tests_cant": "The damage, the order of the disks, the moment of each failure and the tree are arbitrary; a test fixes one of each, and shows neither that no wrong byte is ever saved nor that no readable file is lost.", "anchors": ["src/main.rs:29-47", "src/md/device/device.rs:29-111", "src/md/array.rs:20-180", "src/md/raid6/algorithm.rs: Raid6Algorithm::read_sector", "src/block_device/reader.rs:1-140", "src/ext4/fs.rs:22-132", "src/ext4/directory/directory.rs:39-78", "src/ext4/file.rs:81-157"]}
{"id": "C133", "title": "A program that goes on after failures", "statement": "A program uses the ext4 part of the interface on a device that may fail at any time, and goes on after errors. A failure on one handle does not disturb the others: once handles have been obtained without an error, on each of them the program sees, up to the first error on that same handle, exactly what it would see on a device with the same content that never fails, if it made only the calls on that handle; also if the handles share one file cursor. Devices and filesystems outlive their own failures: every call on such a handle has the outcome it has on the device that never fails, or gives an error, whatever failed before on that or any other handle. A new start is as good as the first: after any calls with any failures, a program that begins again with a device handle it has, mounts, opens and reads, sees what a program sees that begins with the device that never fails, up to the first error from a failure. When the failures have ended nothing of them is left: such a new start then sees exactly what it would see had nothing ever failed. The same holds on a RAID6 array with failing members and one damaged member per sector, against what was written.", "quantifier": "for all volumes, devices that may fail, programs (lists of calls on any handles), moments of failure and handles", "why_tests_cant": "The interleaving of calls and failures is unbounded; a test fixes one program and one schedule of failures.", "anchors": ["src/ext4/fs.rs:22-131", "src/ext4/file.rs:24-157", "src/ext4/directory/directory.rs:28-78", "src/block_device/reader.rs:1-97", "src/block_device/internal.rs:11-33", "src/md/array.rs:60-180"]}
{"id": "C134", "title": "Damaged directories never lead to another file", "statement": "Write any table of files and directories on a volume with metadata checksums (as in C123), and then change up to four consecutive bytes in any of the blocks of its directories, in as many blocks and directories as you like. A program that opens the volume, follows a path and reads the file at its end obtains exactly what it would have obtained without the damage, or an error: never another file, never the news that there is no such entry if there is one, never a panic or a loop without end. The error comes exactly if a damaged block of a directory on the way comes no later than the block with the entry looked for; entries in blocks before it are found as before. A program that reads on after errors loses only the damaged blocks: reading the entries of any directory gives in turn each entry in an undamaged block, one error for each damaged block, and then the end. The same holds on a RAID6 array. Without checksums it does not hold: one changed byte leads to another file.", "quantifier": "all tables of files that fit into the fields of the format, all block sizes from 1024 to 32768, all UUIDs, all places and values of the damage, all paths, all devices and arrays, all failures", "why_tests_cant": "Tests damage some bytes of some directory; the places, values and combinations of the damage are without bound, and that none of them is taken for an entry rests on an algebraic property of the checksum.", "anchors": ["src/ext4/directory/block.rs:12-54", "src/ext4/directory/directory.rs:39-59", "src/ext4/fs.rs:27-65", "src/ext4/fs.rs:83-109", "src/ext4/crc.rs"]}
{"id": "C135", "title": "Reading on past errors loses only what damaged blocks of directories held", "statement": "Write any table of files and directories on a volume with metadata checksums (as in C123), and then change up to four consecutive bytes in any of the blocks of its directories, in as many blocks and directories as you like (as in C134). A program that opens the volume, goes through it from the root on to any depth, and goes on calling after a call that reads an entry has failed, finds exactly the table without the entries in damaged blocks: each file with a path by undamaged entries is saved with all its bytes, nothing else is taken for a file, and each damaged block is noticed as exactly one error in its directory. The program ends, also if directories lead back to directories above them. The same holds on a RAID6 array that can be read, and from the paths of its disks on. If the devices fail besides, now and then and anywhere, entries and files may be lost, but what is found is still there: a file found at the end of a path is the file that the path leads to by undamaged entries, with all its bytes, the program does not panic, and only opening the filesystem can fail.", "quantifier": "all tables of files that fit into the fields of the format, all block sizes from 1024 to 32768, all UUIDs, all places and values of the damage, all depths and paths, all devices that do not fail; for the second part all devices, failures and bounds on the loops", "why_tests_cant": "Tests damage some blocks of some directories; that a failed call never swallows the next block, repeats an entry or ends the directory must hold for every combination of damaged blocks in every directory.", "anchors": ["src/ext4/directory/directory.rs:39-78", "src/ext4/directory/block.rs:12-54", "src/ext4/fs.rs:83-109", "src/ext4/file.rs:81-157"]}
{"id": "C136", "title": "Reading on past errors finds every file whose way can be read", "statement": "Write any table of files and directories on a volume with metadata checksums (as in C123), change up to four consecutive bytes in any of the blocks of its directories (as in C134), and let any parts of the device behind the inodes be unreadable for good. A program that opens the volume, goes through it from the root on to any depth, and goes on calling after a call that reads an entry has failed, returns, and has saved with all its bytes each file to which a path leads by undamaged entries, if the blocks of the file and of the directories on the way can be read: whatever else on the device cannot be read. Nothing that is not in the table is taken for a file (C135). The same holds on a RAID6 array whose members have unreadable sectors and damage, in each sector on one member at most, and from the paths of damaged disks on.", "quantifier": "all tables of files that fit into the fields of the format, with different names in each directory, all block sizes from 1024 to 32768, all UUIDs, all places and values of the damage, all sets of unreadable bytes behind the inodes, all depths and paths, all devices on which the same places fail each time; one bound on the loops for all of them", "why_tests_cant": "Tests make some sectors unreadable; that an error in one directory or file never keeps the program from another one must hold for every set of unreadable places, every damage and every shape of tree, loops included.", "anchors": ["src/ext4/directory/directory.rs:39-78", "src/ext4/directory/block.rs:12-54", "src/ext4/fs.rs:83-109", "src/ext4/file.rs:81-157", "src/block_device/reader.rs:1-140"]}
{"id": "C137", "title": "A directory need be readable only up to the entry that leads on", "statement": "Write any table of files and directories on a volume with metadata checksums (as in C123), change up to four consecutive bytes in any of the blocks of its directories (as in C134), and let any parts of the device behind the inodes be unreadable for good. A program that goes through the volume from the root on, and goes on calling after a call that reads an entry has failed, has saved with all its bytes each file to which a path leads by undamaged entries, if the blocks of the file can be read, and of each directory on the way those up to the block with the entry that the path follows: entries in front of a block that cannot be read are not lost by it, even behind blocks with wrong checksums. What lies behind the entry in the directory, and anything else, need not be readable. The same holds on a RAID6 array whose members have unreadable sectors and damage, in each sector on one member at most, and from the paths of damaged disks on.", "quantifier": "all tables of files that fit into the fields of the format, with different names in each directory, all block sizes from 1024 to 32768, all UUIDs, all places and values of the damage, all sets of unreadable bytes behind the inodes, all depths and paths, all devices on which the same places fail each time; one bound on the loops for all of them", "why_tests_cant": "Tests make some block of some directory unreadable; that no entry in front of it is lost must hold for every place of the block, for every number of damaged blocks before it, and for every bound on the loops above one that does not depend on the device.", "anchors": ["src/ext4/directory/directory.rs:39-78", "src/ext4/directory/block.rs:12-54", "src/ext4/fs.rs:83-109", "src/ext4/file.rs:81-157", "src/block_device/reader.rs:1-140"]}
{"id": "C138", "title": "What a device never returns has no influence, and ends what can be read of a file", "statement": "Let a device fail as it likes, but let no successful read of it ever return certain bytes. (a) Everything shown of volumes that may fail holds of it for every content that differs from its own in these bytes only. (b) Whatever following a path gives is really there (as in C112) on every such content: nothing was found by way of these bytes. (c) If one of these bytes is in a block of a file, and not in the superblock, the group descriptors or the inner nodes of the extent tree of the file, no calls on the open file, however many, with whatever buffers and failures, return data from that block or from any block behind it: nothing is made up for it and nothing is skipped. (d) If the block is one of a directory, no calls return an entry of it or of any block behind it. (e) A RAID6 array, in each sector of which at most one member was damaged (as in C100), is such a device: it holds what was written and never returns a byte of a sector with damage on data or P of its stripe, so that what is found at a path is there whatever had been written in these sectors.", "quantifier": "all volumes, all sets of bytes never returned, all devices that withhold them and may fail otherwise, all extent trees without gaps, all sequences of calls, all paths, all RAID6 arrays with one damaged member at most in each sector", "why_tests_cant": "Tests can hide some sector and look at some reads; that no sequence of calls ever gets past the sector, and that no result depends on what is stored there, are statements about all sequences and all contents.", "anchors": ["src/ext4/file.rs:81-157", "src/ext4/directory/directory.rs:39-78", "src/ext4/fs.rs:83-109", "src/ext4/fs.rs:111-131"]}
