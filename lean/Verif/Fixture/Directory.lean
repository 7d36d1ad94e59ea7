import Verif.Model.Basic

/-! Directory blocks used as examples. -/

namespace MdRecover.Fixture

/-- /repo/src/ext4/directory/test_data/dir_entry. -/
@[irreducible] def dirEntry : Bytes :=
  [[2, 0, 0, 0, 12, 0, 1, 2, 46, 0, 0, 0]].flatten

/-- /repo/src/ext4/directory/test_data/dir_entries_with_padding. -/
@[irreducible] def dirEntries : Bytes :=
  [[2, 0, 0, 0, 12, 0, 1, 2, 46, 0, 0, 0, 2, 0, 0, 0, 12, 0, 2, 2, 46, 46],
  zeros 98].flatten

/-- /repo/src/ext4/directory/test_data/empty-root-dir-block. -/
@[irreducible] def rootDirBlock : Bytes :=
  [[2, 0, 0, 0, 12, 0, 1, 2, 46, 0, 0, 0, 2, 0, 0, 0, 12, 0, 2, 2, 46, 46, 0, 0, 11, 0, 0, 0,
     220, 15, 10, 2, 108, 111, 115, 116, 43, 102, 111, 117, 110, 100],
  zeros 4046,
  [12, 0, 0, 222, 120, 55, 56, 255]].flatten

/-- The filesystem `smallFs` with metadata checksums.  The directory of inode 2 has three blocks: 5 and 9
have the right checksum, 8 has not. -/
@[irreducible] def sumFs : Bytes :=
  [zeros 1024,
  [8, 0, 0, 0, 13, 0, 0, 0, 0, 0, 0, 0, 0, 0, 0, 0, 0, 0, 0, 0, 1, 0, 0, 0, 0, 0, 0, 0, 0, 0, 0,
     0, 0, 32, 0, 0, 0, 32, 0, 0, 8, 0, 0, 0, 0, 0, 0, 0, 0, 0, 0, 0, 0, 0, 0, 0, 83, 239, 0, 0,
     1],
  zeros 28,
  [1, 0, 0, 0, 0, 0, 0, 66, 0, 0, 0, 0, 4, 0, 0, 1, 2, 3, 4, 5, 6, 7, 8, 9, 10, 11, 12, 13, 14,
     15, 16],
  zeros 134,
  [64],
  zeros 118,
  [1],
  zeros 646,
  [216, 61, 232, 99, 11, 0, 0, 0, 12, 0, 0, 0, 3],
  zeros 1271,
  [237, 65, 232, 3, 0, 12, 0, 0, 0, 0, 0, 0, 0, 0, 0, 0, 0, 16, 94, 95, 0, 0, 0, 0, 0, 0, 1, 0,
     0, 0, 0, 0, 0, 0, 8, 0, 0, 0, 0, 0, 10, 243, 3, 0, 4, 0, 0, 0, 0, 0, 0, 0, 0, 0, 0, 0, 1,
     0, 0, 0, 5, 0, 0, 0, 1, 0, 0, 0, 1, 0, 0, 0, 8, 0, 0, 0, 2, 0, 0, 0, 1, 0, 0, 0, 9, 0, 0,
     0, 0, 0, 0, 0, 0, 0, 0, 0, 0, 0, 0, 0, 54, 18],
  zeros 26,
  [32, 0, 0, 0, 0, 0, 0, 0, 85, 52, 111, 29],
  zeros 116,
  [164, 129, 232, 3, 196, 9, 0, 0, 0, 0, 0, 0, 0, 0, 0, 0, 0, 16, 94, 95, 0, 0, 0, 0, 0, 0, 1,
     0, 0, 0, 0, 0, 0, 0, 8, 0, 0, 0, 0, 0, 10, 243, 1, 0, 4, 0, 1, 0, 0, 0, 0, 0, 0, 0, 0, 0,
     6],
  zeros 43,
  [55, 18],
  zeros 26,
  [32, 0, 0, 0, 0, 0, 0, 0, 85, 52, 111, 29],
  zeros 116,
  [164, 129, 232, 3, 0, 4, 0, 0, 0, 0, 0, 0, 0, 0, 0, 0, 0, 16, 94, 95, 0, 0, 0, 0, 0, 0, 1, 0,
     0, 0, 0, 0, 0, 0, 8, 0, 0, 0, 0, 0, 10, 243, 1, 0, 4, 0, 1, 0, 0, 0, 0, 0, 0, 0, 0, 0, 7],
  zeros 43,
  [56, 18],
  zeros 26,
  [32, 0, 0, 0, 0, 0, 0, 0, 85, 52, 111, 29],
  zeros 116,
  [164, 129, 232, 3, 0, 4, 0, 0, 0, 0, 0, 0, 0, 0, 0, 0, 0, 16, 94, 95, 0, 0, 0, 0, 0, 0, 1, 0,
     0, 0, 0, 0, 0, 0, 8, 0, 0, 0, 0, 0, 10, 243, 1, 0, 4, 0, 0, 0, 0, 0, 0, 0, 0, 0, 0, 0, 1,
     128, 0, 0, 8],
  zeros 39,
  [57, 18],
  zeros 26,
  [32, 0, 0, 0, 0, 0, 0, 0, 85, 52, 111, 29],
  zeros 116,
  [164, 129, 232, 3, 0, 8, 0, 0, 0, 0, 0, 0, 0, 0, 0, 0, 0, 16, 94, 95, 0, 0, 0, 0, 0, 0, 1, 0,
     0, 0, 0, 0, 0, 0, 8, 0, 0, 0, 0, 0, 10, 243, 1, 0, 4, 0, 0, 0, 0, 0, 0, 0, 1, 0, 0, 0, 1,
     0, 0, 0, 8],
  zeros 39,
  [58, 18],
  zeros 26,
  [32, 0, 0, 0, 0, 0, 0, 0, 85, 52, 111, 29],
  zeros 116,
  [164, 129, 232, 3, 0, 4, 0, 0, 0, 0, 0, 0, 0, 0, 0, 0, 0, 16, 94, 95, 0, 0, 0, 0, 0, 0, 1, 0,
     0, 0, 0, 0, 0, 0, 8, 0, 0, 0, 0, 0, 10, 243, 5, 0, 4, 0, 0, 0, 0, 0, 0, 0, 0, 0, 0, 0, 0,
     0, 0, 0, 8],
  zeros 39,
  [59, 18],
  zeros 26,
  [32, 0, 0, 0, 0, 0, 0, 0, 85, 52, 111, 29],
  zeros 116,
  [164, 129, 232, 3, 0, 0, 0, 0, 0, 0, 0, 0, 0, 0, 0, 0, 0, 16, 94, 95, 0, 0, 0, 0, 0, 0, 1],
  zeros 73,
  [60, 18],
  zeros 26,
  [32, 0, 0, 0, 0, 0, 0, 0, 85, 52, 111, 29],
  zeros 116,
  [2, 0, 0, 0, 12, 0, 1, 2, 46, 0, 0, 0, 2, 0, 0, 0, 12, 0, 2, 2, 46, 46, 0, 0, 3, 0, 0, 0, 12,
     0, 4, 1, 100, 97, 116, 97, 4, 0, 0, 0, 208, 3, 4, 1, 108, 111, 111, 112],
  zeros 968,
  [12, 0, 0, 222, 24, 205, 86, 26, 10, 243, 2, 0, 84, 0, 0, 0, 0, 0, 0, 0, 0, 0, 0, 0, 1, 0, 0,
     0, 8, 0, 0, 0, 1, 0, 0, 0, 2, 0, 0, 0, 9],
  zeros 991,
  [10, 243, 1, 0, 84, 0, 1, 0, 0, 0, 0, 0, 0, 0, 0, 0, 7],
  zeros 1007,
  [128, 129, 130, 131, 132, 133, 134, 135, 136, 137, 138, 139, 140, 141, 142, 143, 144, 145,
     146, 147, 148, 149, 150, 151],
  zeros 999,
  [8, 5, 0, 0, 0, 244, 3, 5, 1, 101, 120, 116, 114, 97],
  zeros 1003,
  [12, 0, 0, 222, 34, 81, 245, 184, 160, 161, 162, 163, 164, 165, 166, 167, 168, 169, 170, 171,
     172, 173, 174, 175, 176, 177, 178, 179, 180, 181, 182, 183],
  zeros 999,
  [10],
  zeros 2048].flatten

end MdRecover.Fixture
