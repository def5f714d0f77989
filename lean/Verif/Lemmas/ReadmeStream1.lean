import Verif.Spec.Readme
import Verif.Std.Crypto
/-
The decryption of the example of the README: the round keys, and the first half of the key stream.
-/
namespace OSK
open Spec

/-- The round keys. -/
def readmeRoundKeys : List Bytes :=
  [[209, 151, 196, 140, 84, 131, 237, 152, 17, 98, 177, 202, 223, 15, 63, 73],
   [3, 127, 32, 34, 37, 219, 1, 44, 36, 100, 130, 51, 118, 31, 218, 86],
   [16, 192, 117, 180, 68, 67, 152, 44, 85, 33, 41, 230, 138, 46, 22, 175],
   [125, 78, 103, 91, 88, 149, 102, 119, 124, 241, 228, 68, 10, 238, 62, 18],
   [58, 114, 188, 211, 126, 49, 36, 255, 43, 16, 13, 25, 161, 62, 27, 182],
   [79, 252, 200, 21, 23, 105, 174, 98, 107, 152, 74, 38, 97, 118, 116, 52],
   [6, 224, 164, 60, 120, 209, 128, 195, 83, 193, 141, 218, 242, 255, 150, 108],
   [198, 234, 88, 69, 209, 131, 246, 39, 186, 27, 188, 1, 219, 109, 200, 53],
   [50, 8, 50, 133, 74, 217, 178, 70, 25, 24, 63, 156, 235, 231, 169, 240],
   [47, 126, 139, 201, 254, 253, 125, 238, 68, 230, 193, 239, 159, 139, 9, 218],
   [31, 9, 101, 94, 85, 208, 215, 24, 76, 200, 232, 132, 167, 47, 65, 116],
   [115, 107, 8, 91, 141, 150, 117, 181, 201, 112, 180, 90, 86, 251, 189, 128],
   [48, 115, 168, 239, 101, 163, 127, 247, 41, 107, 151, 115, 142, 68, 214, 7],
   [106, 112, 254, 158, 231, 230, 139, 43, 46, 150, 63, 113, 120, 109, 130, 241],
   [76, 96, 9, 83, 41, 195, 118, 164, 0, 168, 225, 215, 142, 236, 55, 208]]

theorem readme_roundKeys : Std.aesKeys (readmeKey.take 32) = readmeRoundKeys := by decide +kernel

/-- The beginning of the key stream. -/
def readmeStream1 : Bytes :=
  [72, 172, 118, 186, 206, 103, 85, 202, 69, 50, 152, 28, 241, 20, 80, 71, 8, 0, 75, 158, 111, 75, 188, 165, 161, 5, 5, 74,
   75, 12, 213, 45, 153, 213, 83, 255, 7, 50, 193, 52, 47, 103, 214, 243, 170, 216, 234, 179, 102, 189, 171, 208, 149, 120, 228, 254,
   35, 218, 202, 180, 222, 248, 214, 22, 39, 18, 17, 87, 86, 53, 116, 164, 164, 65, 231, 102, 3, 186, 144, 172]

theorem readme_stream1 : Std.ctrStream (Std.aesEncBlock readmeRoundKeys) 5 57970687779475518933615637000302402236 = readmeStream1 := by
  decide +kernel

end OSK
