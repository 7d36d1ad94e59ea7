import Verif.Model.Basic

/-
Test data of /repo as byte strings, used as concrete cases beside the theorems.  Generated from
the files named in the comments; `zeros n` stands for `n` zero bytes.
-/

namespace MdRecover.Fixture

/-- src/ext4/superblock/test_data/ext4-1: a superblock with metadata checksums. -/
def ext4Sb1 : Bytes :=
  [64, 0, 0, 0, 128, 0, 0, 0, 6, 0, 0, 0, 114, 0, 0, 0, 53, 0, 0, 0, 0, 0, 0, 0, 2, 0, 0,
     0, 2, 0, 0, 0, 0, 128, 0, 0, 0, 128, 0, 0, 64, 0, 0, 0, 0, 0, 0, 0, 76, 84, 59, 103, 0,
     0, 255, 255, 83, 239, 1, 0, 1, 0, 0, 0, 76, 84, 59, 103]
    ++ zeros 8
    ++ [1, 0, 0, 0, 0, 0, 0, 0, 11, 0, 0, 0, 0, 1, 0, 0, 56, 0, 0, 0, 194, 2, 0, 0, 107, 4, 0,
     0, 15, 18, 2, 198, 165, 46, 77, 248, 165, 167, 127, 0, 28, 55, 184, 232]
    ++ zeros 116
    ++ [68, 157, 139, 90, 94, 228, 73, 5, 168, 68, 23, 122, 212, 13, 157, 33, 1, 0, 64, 0, 12,
     0, 0, 0, 0, 0, 0, 0, 76, 84, 59, 103]
    ++ zeros 80
    ++ [32, 0, 32, 0, 1]
    ++ zeros 19
    ++ [4, 1, 0, 0, 9]
    ++ zeros 207
    ++ [8]
    ++ zeros 435
    ++ [23, 11, 53, 66]

/-- src/ext4/superblock/test_data/ext2: an ext2 superblock, without checksum. -/
def ext4Ext2 : Bytes :=
  [64, 0, 0, 0, 128, 0, 0, 0, 6, 0, 0, 0, 114, 0, 0, 0, 53, 0, 0, 0, 0, 0, 0, 0, 2, 0, 0,
     0, 2, 0, 0, 0, 0, 128, 0, 0, 0, 128, 0, 0, 64, 0, 0, 0, 0, 0, 0, 0, 197, 73, 59, 103, 0,
     0, 255, 255, 83, 239, 1, 0, 1, 0, 0, 0, 197, 73, 59, 103]
    ++ zeros 8
    ++ [1, 0, 0, 0, 0, 0, 0, 0, 11, 0, 0, 0, 0, 1, 0, 0, 56, 0, 0, 0, 2, 0, 0, 0, 3, 0, 0, 0,
     59, 21, 59, 182, 202, 169, 69, 178, 130, 224, 143, 25, 69, 187, 243, 87]
    ++ zeros 116
    ++ [22, 14, 63, 128, 234, 245, 75, 124, 168, 60, 25, 176, 123, 245, 172, 58, 1, 0, 0, 0,
     12, 0, 0, 0, 0, 0, 0, 0, 197, 73, 59, 103]
    ++ zeros 80
    ++ [32, 0, 32, 0, 1]
    ++ zeros 231
    ++ [8]
    ++ zeros 439

end MdRecover.Fixture
