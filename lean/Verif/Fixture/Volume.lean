import Verif.Model.Basic

/-! Contents of volumes used as examples. -/

namespace MdRecover.Fixture

/-- The first 4160 bytes of the image /repo/src/ext4/test_data/ext4-100MB-empty.gz: superblock and
group descriptor. -/
@[irreducible] def imageHead : Bytes :=
  [zeros 1025,
  [100, 0, 0, 0, 100, 0, 0, 0, 5, 0, 0, 170, 89, 0, 0, 245, 99, 0, 0, 0, 0, 0, 0, 2, 0, 0, 0, 2,
     0, 0, 0, 0, 128, 0, 0, 0, 128, 0, 0, 0, 100, 0, 0, 0, 0, 0, 0, 93, 59, 19, 105, 0, 0, 255,
     255, 83, 239, 1, 0, 1, 0, 0, 0, 93, 59, 19, 105, 0, 0, 0, 0, 0, 0, 0, 0, 1, 0, 0, 0, 0, 0,
     0, 0, 11, 0, 0, 0, 0, 1, 0, 0, 60, 0, 0, 0, 194, 2, 0, 0, 107, 4, 0, 0, 108, 116, 147, 84,
     15, 178, 64, 122, 135, 121, 187, 62, 74, 54, 68, 184],
  zeros 86,
  [12],
  zeros 17,
  [8, 0, 0, 0, 0, 0, 0, 0, 0, 0, 0, 0, 94, 178, 213, 92, 115, 66, 74, 231, 157, 26, 76, 202,
     238, 223, 193, 128, 1, 1, 64, 0, 12, 0, 0, 0, 0, 0, 0, 0, 93, 59, 19, 105, 10, 243, 3, 0,
     4, 0, 0, 0, 0, 0, 0, 0, 0, 0, 0, 0, 10, 0, 0, 0, 20, 0, 0, 0, 10, 0, 0, 0, 15, 0, 0, 0, 31,
     0, 0, 0, 25, 0, 0, 0, 231, 3, 0, 0, 111, 6],
  zeros 20,
  [64, 0, 0, 0, 0, 0, 0, 0, 0, 0, 0, 0, 0, 0, 32, 0, 32, 0, 1],
  zeros 19,
  [4, 1, 0, 0, 65],
  zeros 207,
  [80, 10],
  zeros 434,
  [117, 176, 128, 216],
  zeros 2048,
  [14, 0, 0, 0, 30, 0, 0, 0, 46, 0, 0, 0, 170, 89, 245, 99, 2, 0, 4, 0, 0, 0, 0, 0, 35, 151,
     233, 2, 245, 99, 226, 103],
  zeros 24,
  [96, 48, 117, 149, 0, 0, 0, 0]].flatten

/-- /repo/src/ext4/inode/test_data/root: the root inode of a real filesystem. -/
@[irreducible] def rootInode : Bytes :=
  [[237, 65, 0, 0, 0, 16, 0, 0, 93, 59, 19, 105, 93, 59, 19, 105, 93, 59, 19, 105, 0, 0, 0, 0, 0,
     0, 3, 0, 8, 0, 0, 0, 0, 0, 8, 0, 0, 0, 0, 0, 10, 243, 1, 0, 4, 0, 0, 0, 0, 0, 0, 0, 0, 0,
     0, 0, 1, 0, 0, 0, 15],
  zeros 63,
  [14, 112, 0, 0, 32, 0, 110, 218, 0, 0, 0, 0, 0, 0, 0, 0, 0, 0, 0, 0, 93, 59, 19, 105],
  zeros 108].flatten

/-- /repo/src/ext4/inode/test_data/superblock: the superblock of that filesystem. -/
@[irreducible] def rootInodeSb : Bytes :=
  [[64, 0, 0, 0, 128, 0, 0, 0, 6, 0, 0, 0, 114, 0, 0, 0, 53, 0, 0, 0, 0, 0, 0, 0, 2, 0, 0, 0, 2,
     0, 0, 0, 0, 128, 0, 0, 0, 128, 0, 0, 64, 0, 0, 0, 0, 0, 0, 0, 76, 84, 59, 103, 0, 0, 255,
     255, 83, 239, 1, 0, 1, 0, 0, 0, 76, 84, 59, 103, 0, 0, 0, 0, 0, 0, 0, 0, 1, 0, 0, 0, 0, 0,
     0, 0, 11, 0, 0, 0, 0, 1, 0, 0, 56, 0, 0, 0, 194, 2, 0, 0, 107, 4, 0, 0, 15, 18, 2, 198,
     165, 46, 77, 248, 165, 167, 127, 0, 28, 55, 184, 232],
  zeros 116,
  [68, 157, 139, 90, 94, 228, 73, 5, 168, 68, 23, 122, 212, 13, 157, 33, 1, 0, 64, 0, 12, 0, 0,
     0, 0, 0, 0, 0, 76, 84, 59, 103],
  zeros 80,
  [32, 0, 32, 0, 1],
  zeros 19,
  [4, 1, 0, 0, 9],
  zeros 207,
  [8],
  zeros 435,
  [23, 11, 53, 66]].flatten

/-- /repo/src/ext4/block_group/test_data/descriptor. -/
@[irreducible] def descriptor : Bytes :=
  [[14, 0, 0, 0, 30, 0, 0, 0, 46, 0, 0, 0, 170, 89, 245, 99, 2, 0, 4, 0, 0, 0, 0, 0, 35, 151,
     233, 2, 245, 99, 226, 103],
  zeros 24,
  [96, 48, 117, 149, 0, 0, 0, 0]].flatten

/-- A filesystem of thirteen 1024-byte blocks made by hand, without checksums.  The superblock is
at 1024, the descriptor of its only group at 2048, the inode table (eight inodes of 256 bytes) in
blocks 3 and 4.  Inode 2 is a directory in block 5.  Inode 3 is a file of 2500 bytes: an index node
in the inode, a leaf in block 6, data in blocks 8, 9 and 10.  Inode 4 has an index node in block 7
whose only child is block 7.  Inode 5 has an unwritten extent, inode 6 a hole at block 0, inode 7 an
extent node that claims five entries, inode 8 no extents. -/
@[irreducible] def smallFs : Bytes :=
  [zeros 1024,
  [8, 0, 0, 0, 13, 0, 0, 0, 0, 0, 0, 0, 0, 0, 0, 0, 0, 0, 0, 0, 1, 0, 0, 0, 0, 0, 0, 0, 0, 0, 0,
     0, 0, 32, 0, 0, 0, 32, 0, 0, 8, 0, 0, 0, 0, 0, 0, 0, 0, 0, 0, 0, 0, 0, 0, 0, 83, 239, 0, 0,
     1],
  zeros 28,
  [1, 0, 0, 0, 0, 0, 0, 66],
  zeros 157,
  [64],
  zeros 769,
  [11, 0, 0, 0, 12, 0, 0, 0, 3],
  zeros 1271,
  [237, 65, 232, 3, 0, 4, 0, 0, 0, 0, 0, 0, 0, 0, 0, 0, 0, 16, 94, 95, 0, 0, 0, 0, 0, 0, 1, 0,
     0, 0, 0, 0, 0, 0, 8, 0, 0, 0, 0, 0, 10, 243, 1, 0, 4, 0, 0, 0, 0, 0, 0, 0, 0, 0, 0, 0, 1,
     0, 0, 0, 5],
  zeros 39,
  [54, 18],
  zeros 26,
  [32, 0, 0, 0, 0, 0, 0, 0, 85, 52, 111, 29],
  zeros 116,
  [164, 129, 232, 3, 196, 9, 0, 0, 0, 0, 0, 0, 0, 0, 0, 0, 0, 16, 94, 95, 0, 0, 0, 0, 0, 0, 1,
     0, 0, 0, 0, 0, 0, 0, 8, 0, 0, 0, 0, 0, 10, 243, 1, 0, 4, 0, 1, 0, 0, 0, 0, 0, 0, 0, 0, 0,
     6],
  zeros 43,
  [55, 18],
  zeros 26,
  [32, 0, 0, 0, 0, 0, 0, 0, 85, 52, 111, 29],
  zeros 116,
  [164, 129, 232, 3, 0, 4, 0, 0, 0, 0, 0, 0, 0, 0, 0, 0, 0, 16, 94, 95, 0, 0, 0, 0, 0, 0, 1, 0,
     0, 0, 0, 0, 0, 0, 8, 0, 0, 0, 0, 0, 10, 243, 1, 0, 4, 0, 1, 0, 0, 0, 0, 0, 0, 0, 0, 0, 7],
  zeros 43,
  [56, 18],
  zeros 26,
  [32, 0, 0, 0, 0, 0, 0, 0, 85, 52, 111, 29],
  zeros 116,
  [164, 129, 232, 3, 0, 4, 0, 0, 0, 0, 0, 0, 0, 0, 0, 0, 0, 16, 94, 95, 0, 0, 0, 0, 0, 0, 1, 0,
     0, 0, 0, 0, 0, 0, 8, 0, 0, 0, 0, 0, 10, 243, 1, 0, 4, 0, 0, 0, 0, 0, 0, 0, 0, 0, 0, 0, 1,
     128, 0, 0, 8],
  zeros 39,
  [57, 18],
  zeros 26,
  [32, 0, 0, 0, 0, 0, 0, 0, 85, 52, 111, 29],
  zeros 116,
  [164, 129, 232, 3, 0, 8, 0, 0, 0, 0, 0, 0, 0, 0, 0, 0, 0, 16, 94, 95, 0, 0, 0, 0, 0, 0, 1, 0,
     0, 0, 0, 0, 0, 0, 8, 0, 0, 0, 0, 0, 10, 243, 1, 0, 4, 0, 0, 0, 0, 0, 0, 0, 1, 0, 0, 0, 1,
     0, 0, 0, 8],
  zeros 39,
  [58, 18],
  zeros 26,
  [32, 0, 0, 0, 0, 0, 0, 0, 85, 52, 111, 29],
  zeros 116,
  [164, 129, 232, 3, 0, 4, 0, 0, 0, 0, 0, 0, 0, 0, 0, 0, 0, 16, 94, 95, 0, 0, 0, 0, 0, 0, 1, 0,
     0, 0, 0, 0, 0, 0, 8, 0, 0, 0, 0, 0, 10, 243, 5, 0, 4, 0, 0, 0, 0, 0, 0, 0, 0, 0, 0, 0, 0,
     0, 0, 0, 8],
  zeros 39,
  [59, 18],
  zeros 26,
  [32, 0, 0, 0, 0, 0, 0, 0, 85, 52, 111, 29],
  zeros 116,
  [164, 129, 232, 3, 0, 0, 0, 0, 0, 0, 0, 0, 0, 0, 0, 0, 0, 16, 94, 95, 0, 0, 0, 0, 0, 0, 1],
  zeros 73,
  [60, 18],
  zeros 26,
  [32, 0, 0, 0, 0, 0, 0, 0, 85, 52, 111, 29],
  zeros 116,
  [2, 0, 0, 0, 12, 0, 1, 2, 46, 0, 0, 0, 2, 0, 0, 0, 12, 0, 2, 2, 46, 46, 0, 0, 3, 0, 0, 0, 16,
     0, 4, 1, 100, 97, 116, 97, 0, 0, 0, 0, 4, 0, 0, 0, 216, 3, 4, 1, 108, 111, 111, 112],
  zeros 972,
  [10, 243, 2, 0, 84, 0, 0, 0, 0, 0, 0, 0, 0, 0, 0, 0, 1, 0, 0, 0, 8, 0, 0, 0, 1, 0, 0, 0, 2, 0,
     0, 0, 9],
  zeros 991,
  [10, 243, 1, 0, 84, 0, 1, 0, 0, 0, 0, 0, 0, 0, 0, 0, 7],
  zeros 1007,
  [128, 129, 130, 131, 132, 133, 134, 135, 136, 137, 138, 139, 140, 141, 142, 143, 144, 145,
     146, 147, 148, 149, 150, 151],
  zeros 999,
  [8, 144, 145, 146, 147, 148, 149, 150, 151, 152, 153, 154, 155, 156, 157, 158, 159, 160, 161,
     162, 163, 164, 165, 166, 167],
  zeros 999,
  [9, 160, 161, 162, 163, 164, 165, 166, 167, 168, 169, 170, 171, 172, 173, 174, 175, 176, 177,
     178, 179, 180, 181, 182, 183],
  zeros 999,
  [10],
  zeros 2048].flatten

end MdRecover.Fixture
