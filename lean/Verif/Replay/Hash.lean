import Verif.Go.Blake2b

/-! Test vectors of the hash functions (computed with another implementation). -/
namespace Verif.Replay
open Verif.Go

example : sha256 (List.replicate 0 97) =
    [227, 176, 196, 66, 152, 252, 28, 20, 154, 251, 244, 200, 153, 111, 185, 36,
     39, 174, 65, 228, 100, 155, 147, 76, 164, 149, 153, 27, 120, 82, 184, 85] := by decide +kernel

example : sha256 g!"abc" =
    [186, 120, 22, 191, 143, 1, 207, 234, 65, 65, 64, 222, 93, 174, 34, 35,
     176, 3, 97, 163, 150, 23, 122, 156, 180, 16, 255, 97, 242, 0, 21, 173] := by decide +kernel

example : sha256 (List.replicate 64 97) =
    [255, 224, 84, 254, 122, 224, 203, 109, 198, 92, 58, 249, 182, 29, 82, 9,
     244, 57, 133, 29, 180, 61, 11, 165, 153, 115, 55, 223, 21, 70, 104, 235] := by decide +kernel

example : sha256 (List.replicate 119 97) =
    [49, 235, 165, 28, 49, 58, 92, 8, 34, 106, 223, 24, 212, 163, 89, 207,
     223, 216, 210, 232, 22, 177, 63, 74, 249, 82, 247, 234, 101, 132, 220, 251] := by decide +kernel

example : sha256 (List.replicate 130 97) =
    [30, 60, 79, 71, 80, 200, 194, 155, 191, 169, 206, 211, 23, 120, 129, 118,
     177, 86, 211, 66, 229, 127, 119, 119, 246, 47, 215, 34, 26, 68, 49, 47] := by decide +kernel

example : blake2b256 (List.replicate 0 97) g!"abc" =
    [189, 221, 129, 60, 99, 66, 57, 114, 49, 113, 239, 63, 238, 152, 87, 155,
     148, 150, 78, 59, 177, 203, 62, 66, 114, 98, 200, 192, 104, 213, 35, 25] := by decide +kernel

example : blake2b256 (List.replicate 0 97) (List.replicate 0 97) =
    [14, 87, 81, 192, 38, 229, 67, 178, 232, 171, 46, 176, 96, 153, 218, 161,
     209, 229, 223, 71, 119, 143, 119, 135, 250, 171, 69, 205, 241, 47, 227, 168] := by decide +kernel

example : blake2b256 (List.replicate 16 97) g!"abc" =
    [127, 249, 198, 145, 163, 70, 204, 161, 184, 88, 152, 221, 190, 147, 49, 12,
     200, 25, 137, 196, 198, 166, 103, 204, 65, 47, 250, 206, 242, 150, 143, 113] := by decide +kernel

example : blake2b256 (List.replicate 0 97) (List.replicate 128 97) =
    [174, 42, 164, 133, 7, 136, 92, 76, 149, 15, 184, 9, 178, 7, 111, 149,
     156, 222, 159, 142, 166, 218, 38, 13, 154, 53, 135, 223, 51, 218, 196, 80] := by decide +kernel

example : blake2b256 (List.replicate 64 97) (List.replicate 257 97) =
    [139, 95, 0, 138, 117, 228, 196, 83, 171, 106, 183, 55, 23, 143, 51, 254,
     228, 20, 166, 144, 72, 19, 10, 110, 57, 24, 172, 53, 29, 90, 152, 36] := by decide +kernel

end Verif.Replay
