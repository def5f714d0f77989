import Verif.Lemmas.ReadmeStream1
/-
The decryption of the example of the README: the second half of the key stream.
-/
namespace OSK
open Spec

/-- The rest of the key stream. -/
def readmeStream2 : Bytes :=
  [46, 234, 60, 240, 21, 188, 112, 2, 40, 139, 83, 198, 30, 170, 182, 127, 155, 73, 128, 88, 58, 52, 89, 85, 179, 198, 77, 231,
   23, 17, 146, 216, 76, 126, 21, 165, 231, 208, 115, 88, 120, 112, 2, 30, 23, 14, 211, 46, 160, 236, 244, 54, 87, 72, 144, 21,
   210, 204, 52, 209, 174, 178, 236, 90]

theorem readme_stream2 : Std.ctrStream (Std.aesEncBlock readmeRoundKeys) 4 (57970687779475518933615637000302402236 + 5) = readmeStream2 := by
  decide +kernel

end OSK
