import Verif.Tests.Cipher
/-
The test vectors of tests/test_cipher.py for the AES-GCM ciphers, on the model.
-/
namespace OSK

/-- test_cipher.py:235-245 -/
def tVector14 : Vector :=
  ⟨.aes128Gcm, [0, 0, 0, 0, 0, 0, 0, 0, 0, 0, 0, 0, 0, 0, 0, 0],
   [0, 0, 0, 0, 0, 0, 0, 0, 0, 0, 0, 0],
   [0, 0, 0, 0, 0, 0, 0, 0, 0, 0, 0, 0, 0, 0, 0, 0],
   [3, 136, 218, 206, 96, 182, 163, 146, 243, 40, 194, 185, 113, 178, 254, 120, 171, 110, 71, 212, 44, 236, 19, 189, 245, 58, 103, 178, 18, 87, 189, 223], 16⟩

/-- The comparison holds. -/
theorem C115_cipher_vector14 : tVector14.Holds := by
  decide +kernel

/-- test_cipher.py:247-265 -/
def tVector15 : Vector :=
  ⟨.aes128Gcm, [254, 255, 233, 146, 134, 101, 115, 28, 109, 106, 143, 148, 103, 48, 131, 8],
   [202, 254, 186, 190, 250, 206, 219, 173, 222, 202, 248, 136],
   [217, 49, 50, 37, 248, 132, 6, 229, 165, 89, 9, 197, 175, 245, 38, 154, 134, 167, 169, 83, 21, 52, 247, 218, 46, 76, 48, 61, 138, 49, 138, 114, 28, 60, 12, 149, 149, 104, 9, 83, 47, 207, 14, 36, 73, 166, 181, 37, 177, 106, 237, 245, 170, 13, 230, 87, 186, 99, 123, 57, 26, 175, 210, 85],
   [66, 131, 30, 194, 33, 119, 116, 36, 75, 114, 33, 183, 132, 208, 212, 156, 227, 170, 33, 47, 44, 2, 164, 224, 53, 193, 126, 35, 41, 172, 161, 46, 33, 213, 20, 178, 84, 102, 147, 28, 125, 143, 106, 90, 172, 132, 170, 5, 27, 163, 11, 57, 106, 10, 172, 151, 61, 88, 224, 145, 71, 63, 89, 133, 77, 92, 42, 243, 39, 205, 100, 166, 44, 243, 90, 189, 43, 166, 250, 180], 16⟩

/-- The comparison holds. -/
theorem C115_cipher_vector15 : tVector15.Holds := by
  decide +kernel

/-- test_cipher.py:267-279 -/
def tVector16 : Vector :=
  ⟨.aes256Gcm, [0, 0, 0, 0, 0, 0, 0, 0, 0, 0, 0, 0, 0, 0, 0, 0, 0, 0, 0, 0, 0, 0, 0, 0, 0, 0, 0, 0, 0, 0, 0, 0],
   [0, 0, 0, 0, 0, 0, 0, 0, 0, 0, 0, 0],
   [0, 0, 0, 0, 0, 0, 0, 0, 0, 0, 0, 0, 0, 0, 0, 0],
   [206, 167, 64, 61, 77, 96, 107, 110, 7, 78, 197, 211, 186, 243, 157, 24, 208, 209, 200, 167, 153, 153, 107, 240, 38, 91, 152, 181, 212, 138, 185, 25], 16⟩

/-- The comparison holds. -/
theorem C115_cipher_vector16 : tVector16.Holds := by
  decide +kernel

/-- test_cipher.py:281-301 -/
def tVector17 : Vector :=
  ⟨.aes256Gcm, [254, 255, 233, 146, 134, 101, 115, 28, 109, 106, 143, 148, 103, 48, 131, 8, 254, 255, 233, 146, 134, 101, 115, 28, 109, 106, 143, 148, 103, 48, 131, 8],
   [202, 254, 186, 190, 250, 206, 219, 173, 222, 202, 248, 136],
   [217, 49, 50, 37, 248, 132, 6, 229, 165, 89, 9, 197, 175, 245, 38, 154, 134, 167, 169, 83, 21, 52, 247, 218, 46, 76, 48, 61, 138, 49, 138, 114, 28, 60, 12, 149, 149, 104, 9, 83, 47, 207, 14, 36, 73, 166, 181, 37, 177, 106, 237, 245, 170, 13, 230, 87, 186, 99, 123, 57, 26, 175, 210, 85],
   [82, 45, 193, 240, 153, 86, 125, 7, 244, 127, 55, 163, 42, 132, 66, 125, 100, 58, 140, 220, 191, 229, 192, 201, 117, 152, 162, 189, 37, 85, 209, 170, 140, 176, 142, 72, 89, 13, 187, 61, 167, 176, 139, 16, 86, 130, 136, 56, 197, 246, 30, 99, 147, 186, 122, 10, 188, 201, 246, 98, 137, 128, 21, 173, 176, 148, 218, 197, 217, 52, 113, 189, 236, 26, 80, 34, 112, 227, 204, 108], 16⟩

/-- The comparison holds. -/
theorem C115_cipher_vector17 : tVector17.Holds := by
  decide +kernel

end OSK
