import Verif.Model.Basic

/-
The first 47 blocks of the volume of src/ext4/test_data/ext4-100MB-empty.gz, made by mkfs: everything that the
tests of /repo read from it.  Generated; `zeros n` stands for `n` zero bytes.
-/

namespace MdRecover.RepoData

/-- The first 192512 bytes of src/ext4/test_data/ext4-100MB-empty.gz, uncompressed. -/
@[irreducible] def mkfsVolume : Bytes :=
  [zeros 1025,
    [100, 0, 0, 0, 100, 0, 0, 0, 5, 0, 0, 170, 89, 0, 0, 245, 99, 0, 0, 0, 0, 0, 0, 2, 0, 0, 0, 2, 0,
     0, 0, 0, 128, 0, 0, 0, 128, 0, 0, 0, 100, 0, 0, 0, 0, 0, 0, 93, 59, 19, 105, 0, 0, 255, 255, 83,
     239, 1, 0, 1, 0, 0, 0, 93, 59, 19, 105],
    zeros 8,
    [1, 0, 0, 0, 0, 0, 0, 0, 11, 0, 0, 0, 0, 1, 0, 0, 60, 0, 0, 0, 194, 2, 0, 0, 107, 4, 0, 0, 108,
     116, 147, 84, 15, 178, 64, 122, 135, 121, 187, 62, 74, 54, 68, 184],
    zeros 86,
    [12],
    zeros 17,
    [8],
    zeros 11,
    [94, 178, 213, 92, 115, 66, 74, 231, 157, 26, 76, 202, 238, 223, 193, 128, 1, 1, 64, 0, 12, 0, 0,
     0, 0, 0, 0, 0, 93, 59, 19, 105, 10, 243, 3, 0, 4],
    zeros 11,
    [10, 0, 0, 0, 20, 0, 0, 0, 10, 0, 0, 0, 15, 0, 0, 0, 31, 0, 0, 0, 25, 0, 0, 0, 231, 3, 0, 0, 111, 6],
    zeros 20,
    [64],
    zeros 13,
    [32, 0, 32, 0, 1],
    zeros 19,
    [4, 1, 0, 0, 65],
    zeros 207,
    [80, 10],
    zeros 434,
    [117, 176, 128, 216],
    zeros 2048,
    [14, 0, 0, 0, 30, 0, 0, 0, 46, 0, 0, 0, 170, 89, 245, 99, 2, 0, 4, 0, 0, 0, 0, 0, 35, 151, 233, 2,
     245, 99, 226, 103],
    zeros 24,
    [96, 48, 117, 149],
    zeros 53188,
    List.replicate 330 255,
    [63],
    zeros 2869,
    List.replicate 896 255,
    [2, 0, 0, 0, 12, 0, 1, 2, 46, 0, 0, 0, 2, 0, 0, 0, 12, 0, 2, 2, 46, 46, 0, 0, 11, 0, 0, 0, 220, 15,
     10, 2, 108, 111, 115, 116, 43, 102, 111, 117, 110, 100],
    zeros 4046,
    [12, 0, 0, 222, 120, 55, 56, 255, 11, 0, 0, 0, 12, 0, 1, 2, 46, 0, 0, 0, 2, 0, 0, 0, 232, 15, 2, 2,
     46, 46],
    zeros 4066,
    [12, 0, 0, 222, 220, 8, 205, 27, 0, 0, 0, 0, 244, 15],
    zeros 4082,
    [12, 0, 0, 222, 50, 46, 189, 73, 0, 0, 0, 0, 244, 15],
    zeros 4082,
    [12, 0, 0, 222, 50, 46, 189, 73, 0, 0, 0, 0, 244, 15],
    zeros 4082,
    [12, 0, 0, 222, 50, 46, 189, 73, 192, 59, 57, 152, 0, 0, 0, 4, 0, 0, 0, 0, 0, 0, 16, 0, 0, 0, 4, 0,
     0, 0, 0, 1, 0, 0, 0, 1],
    zeros 20,
    [108, 116, 147, 84, 15, 178, 64, 122, 135, 121, 187, 62, 74, 54, 68, 184, 0, 0, 0, 1],
    zeros 40892,
    [255, 7],
    zeros 3198,
    List.replicate 896 255,
    zeros 61448,
    [93, 59, 19, 105, 93, 59, 19, 105, 93, 59, 19, 105],
    zeros 104,
    [78, 72],
    zeros 130,
    [237, 65, 0, 0, 0, 16, 0, 0, 93, 59, 19, 105, 93, 59, 19, 105, 93, 59, 19, 105, 0, 0, 0, 0, 0, 0,
     3, 0, 8, 0, 0, 0, 0, 0, 8, 0, 0, 0, 0, 0, 10, 243, 1, 0, 4],
    zeros 11,
    [1, 0, 0, 0, 15],
    zeros 63,
    [14, 112, 0, 0, 32, 0, 110, 218],
    zeros 12,
    [93, 59, 19, 105],
    zeros 232,
    [179, 117],
    zeros 254,
    [89, 210],
    zeros 254,
    [23, 232],
    zeros 254,
    [197, 166],
    zeros 130,
    [128, 129, 0, 0, 0, 192, 64, 0, 93, 59, 19, 105, 93, 59, 19, 105, 93, 59, 19, 105, 0, 0, 0, 0, 0,
     0, 1, 0, 104],
    zeros 63,
    [110, 6],
    zeros 14,
    [1],
    zeros 15,
    [101, 62, 0, 0, 32, 0, 138, 99],
    zeros 12,
    [93, 59, 19, 105],
    zeros 108,
    [128, 129, 0, 0, 0, 0, 64, 0, 93, 59, 19, 105, 93, 59, 19, 105, 93, 59, 19, 105, 0, 0, 0, 0, 0, 0,
     1, 0, 0, 32, 0, 0, 0, 0, 8, 0, 0, 0, 0, 0, 10, 243, 3, 0, 4],
    zeros 11,
    [10, 0, 0, 0, 20, 0, 0, 0, 10, 0, 0, 0, 15, 0, 0, 0, 31, 0, 0, 0, 25, 0, 0, 0, 231, 3, 0, 0, 111, 6],
    zeros 38,
    [4, 52, 0, 0, 32, 0, 46, 65],
    zeros 12,
    [93, 59, 19, 105],
    zeros 232,
    [95, 211],
    zeros 254,
    [141, 157],
    zeros 130,
    [192, 65, 0, 0, 0, 64, 0, 0, 93, 59, 19, 105, 93, 59, 19, 105, 93, 59, 19, 105, 0, 0, 0, 0, 0, 0,
     2, 0, 32, 0, 0, 0, 0, 0, 8, 0, 0, 0, 0, 0, 10, 243, 1, 0, 4],
    zeros 11,
    [4, 0, 0, 0, 16],
    zeros 63,
    [235, 56, 0, 0, 32, 0, 78, 134],
    zeros 12,
    [93, 59, 19, 105],
    zeros 1388].flatten

/-- Bytes 1024 to 2047 of src/ext4/test_data/random-2MB-zero-30MB.gz, uncompressed: where the superblock would
be. -/
@[irreducible] def randomVolume : Bytes :=
  [[115, 9, 158, 196, 109, 187, 25, 74, 209, 226, 60, 80, 68, 244, 162, 83, 250, 133, 15, 39, 232, 10,
     246, 227, 247, 255, 2, 52, 165, 26, 129, 175, 124, 51, 226, 152, 197, 75, 147, 166, 194, 62, 69,
     235, 155, 200, 53, 194, 185, 206, 56, 199, 198, 1, 255, 71, 54, 151, 27, 71, 185, 126, 181, 111,
     154, 214, 229, 121, 87, 140, 33, 4, 191, 166, 231, 13, 72, 226, 105, 103, 139, 141, 169, 146, 127,
     229, 117, 80, 96, 164, 39, 149, 3, 120, 139, 1, 51, 1, 62, 45, 182, 168, 92, 63, 39, 54, 165, 180,
     72, 152, 250, 226, 111, 97, 97, 129, 218, 74, 187, 236, 140, 185, 180, 216, 32, 201, 149, 228,
     100, 7, 117, 83, 208, 175, 88, 73, 70, 140, 237, 58, 191, 51, 100, 14, 148, 81, 197, 2, 64, 8, 85,
     167, 201, 21, 83, 245, 171, 74, 249, 65, 196, 124, 227, 70, 69, 7, 149, 225, 137, 19, 62, 18, 56,
     192, 202, 19, 228, 216, 133, 0, 10, 186, 143, 133, 44, 59, 152, 129, 115, 190, 225, 104, 130, 128,
     166, 185, 75, 74, 73, 80, 9, 230, 104, 127, 212, 162, 178, 7, 60, 157, 189, 25, 13, 65, 146, 53,
     168, 45, 19, 234, 146, 125, 33, 12, 95, 232, 64, 92, 183, 228, 97, 99, 175, 128, 228, 203, 165,
     97, 237, 138, 55, 65, 180, 68, 206, 244, 110, 114, 201, 3, 223, 31, 193, 254, 30, 205, 45, 49, 75,
     157, 107, 99, 195, 65, 92, 145, 151, 202, 235, 250, 42, 17, 168, 216, 2, 126, 200, 153, 168, 106,
     97, 86, 165, 103, 162, 90, 202, 243, 134, 158, 23, 239, 253, 86, 53, 138, 86, 65, 73, 245, 116,
     33, 48, 43, 84, 107, 172, 37, 199, 89, 128, 229, 103, 231, 81, 28, 29, 4, 249, 46, 64, 106, 41,
     220, 81, 31, 33, 17, 233, 51, 181, 64, 143, 181, 220, 133, 213, 136, 216, 98, 25, 46, 136, 164,
     52, 28, 127, 19, 52, 74, 51, 120, 228, 234, 71, 117, 128, 82, 32, 15, 238, 114, 107, 210, 199,
     191, 101, 167, 104, 7, 44, 57, 121, 194, 134, 25, 103, 108, 121, 117, 131, 103, 160, 56, 235, 186,
     174, 74, 45, 162, 205, 139, 236, 168, 194, 56, 162, 129, 113, 152, 156, 233, 248, 152, 172, 75,
     74, 27, 93, 232, 25, 219, 159, 28, 47, 82, 65, 140, 37, 11, 8, 64, 160, 9, 225, 158, 218, 246,
     124, 8, 173, 218, 42, 255, 47, 211, 215, 233, 177, 129, 166, 173, 119, 232, 29, 110, 134, 234,
     105, 89, 181, 73, 84, 153, 39, 123, 148, 208, 84, 14, 215, 190, 84, 243, 82, 181, 98, 252, 48,
     232, 39, 233, 238, 34, 11, 234, 115, 173, 102, 82, 54, 131, 101, 160, 9, 225, 105, 22, 67, 68,
     138, 100, 64, 150, 36, 76, 122, 105, 22, 23, 161, 30, 91, 238, 183, 243, 113, 240, 232, 186, 220,
     233, 83, 14, 194, 130, 232, 103, 201, 7, 231, 120, 153, 63, 116, 214, 43, 35, 242, 197, 135, 98,
     82, 35, 15, 236, 142, 65, 20, 160, 147, 1, 107, 94, 160, 87, 190, 139, 64, 172, 13, 9, 140, 57,
     73, 105, 145, 71, 85, 198, 109, 149, 135, 60, 64, 56, 95, 68, 211, 224, 101, 181, 228, 168, 113,
     134, 219, 75, 106, 119, 167, 231, 187, 60, 56, 146, 86, 106, 166, 80, 252, 203, 0, 84, 10, 125,
     182, 135, 21, 55, 97, 112, 222, 2, 156, 117, 115, 164, 154, 193, 1, 147, 22, 143, 171, 82, 148,
     145, 225, 83, 2, 5, 243, 185, 97, 193, 182, 35, 89, 119, 39, 35, 135, 20, 35, 56, 185, 22, 35, 34,
     49, 244, 196, 9, 66, 241, 221, 245, 233, 202, 110, 76, 240, 21, 93, 84, 188, 99, 95, 35, 79, 113,
     194, 121, 198, 8, 230, 30, 178, 41, 28, 38, 65, 76, 172, 10, 254, 230, 145, 204, 185, 222, 232,
     202, 160, 23, 38, 148, 97, 196, 197, 65, 158, 97, 131, 236, 75, 245, 12, 227, 22, 31, 186, 206,
     66, 35, 182, 224, 56, 196, 181, 127, 245, 216, 72, 133, 229, 191, 140, 233, 26, 115, 115, 90, 35,
     152, 83, 163, 101, 147, 52, 96, 92, 170, 175, 18, 213, 190, 83, 108, 139, 126, 107, 113, 160, 131,
     183, 59, 197, 230, 209, 190, 132, 156, 88, 167, 11, 67, 146, 161, 172, 0, 214, 123, 50, 210, 242,
     134, 117, 37, 124, 126, 157, 106, 146, 47, 225, 196, 148, 254, 124, 125, 160, 221, 172, 158, 100,
     124, 154, 83, 131, 41, 254, 143, 138, 85, 218, 20, 78, 186, 167, 190, 41, 180, 184, 81, 102, 39,
     248, 94, 182, 144, 87, 13, 220, 81, 59, 34, 190, 184, 210, 69, 222, 253, 116, 90, 137, 216, 200,
     116, 35, 61, 117, 130, 189, 143, 222, 117, 206, 210, 245, 133, 9, 54, 233, 182, 214, 221, 182,
     223, 168, 246, 59, 249, 173, 75, 196, 146, 106, 34, 98, 152, 203, 175, 140, 92, 203, 214, 114, 84,
     120, 38, 125, 55, 102, 83, 173, 189, 137, 120, 88, 172, 43, 168, 14, 7, 105, 150, 62, 186, 43,
     161, 218, 182, 151, 118, 239, 6, 119, 34, 238, 189, 138, 192, 226, 134, 189, 23, 123, 117, 65,
     141, 173, 101, 208, 153, 176, 208, 8, 139, 87, 36, 189, 108, 4, 241, 209, 250, 146, 112, 141, 81,
     151, 162, 147, 117, 173, 109, 110, 148, 51, 254, 17, 145, 240, 46, 250, 160, 90, 208, 19, 237,
     168, 170, 87, 88, 52, 46, 180, 213, 218, 153, 88, 89, 215, 43, 143, 249, 153, 213, 203, 4, 154,
     96, 145, 153, 211, 97, 127, 225, 120, 31, 73, 19, 120, 16, 126, 66, 233, 117, 87, 40, 172, 54,
     170, 222, 213, 240, 32, 200, 137, 191, 111, 192, 128, 51, 1, 201, 34, 27, 18, 229, 160, 120, 125,
     0, 144, 37, 0, 98, 199, 98, 214, 147]].flatten

end MdRecover.RepoData
