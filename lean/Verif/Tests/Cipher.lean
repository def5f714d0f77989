import Verif.Tests.PackString
import Verif.Model.Cipher
import Verif.Std.Crypto
import Verif.Lemmas.KernelRfl
import Batteries.Lean.Except
/-
The tests of tests/test_cipher.py, on the model with the standards' functions of Std/.

`test_encrypt` and `test_decrypt` (test_cipher.py:337-353) `return` the comparison instead of asserting it, so that
pytest does not look at it.
-/
namespace OSK

/-- A test vector (test_cipher.py:53-350). -/
structure Vector where
  cls : CipherCls
  key : Bytes
  iv : Bytes
  plain : Bytes
  cipher : Bytes
  block : Nat

/-- `cls.encrypt(TestIdentityKDF(None), key + iv, plaintext)` (test_cipher.py:337-343): the derived bytes are the
passphrase. -/
def Vector.encrypted (v : Vector) : Except Exn Bytes :=
  encryptWithKeyIv Std.crypto v.cls v.plain (splitKeyIv v.cls (v.key ++ v.iv)).1 (splitKeyIv v.cls (v.key ++ v.iv)).2

/-- `cls.decrypt(TestIdentityKDF(None), key + iv, ciphertext)` (test_cipher.py:347-353) -/
def Vector.decrypted (v : Vector) : Except Exn Bytes :=
  decryptWithKeyIv Std.crypto v.cls v.cipher (splitKeyIv v.cls (v.key ++ v.iv)).1 (splitKeyIv v.cls (v.key ++ v.iv)).2

/-- What `test_encrypt`, `test_decrypt` and `test_block_size` compare. -/
def Vector.Holds (v : Vector) : Prop :=
  v.encrypted = .ok v.cipher ∧ v.decrypted = .ok v.plain ∧ v.cls.blockSize = v.block

instance (v : Vector) : Decidable v.Holds := by unfold Vector.Holds; infer_instance

/-- test_cipher.py:57-66 -/
def tVector0 : Vector :=
  ⟨.tripleDesCbc, [1, 1, 1, 1, 1, 1, 1, 1, 1, 1, 1, 1, 1, 1, 1, 1, 1, 1, 1, 1, 1, 1, 1, 1],
   [0, 0, 0, 0, 0, 0, 0, 0],
   [128, 0, 0, 0, 0, 0, 0, 0],
   [149, 248, 165, 229, 221, 49, 217, 0], 8⟩

/-- The comparison holds. -/
theorem C115_cipher_vector0 : tVector0.Holds := by
  decide +kernel

/-- test_cipher.py:68-77 -/
def tVector1 : Vector :=
  ⟨.tripleDesCbc, [128, 1, 1, 1, 1, 1, 1, 1, 128, 1, 1, 1, 1, 1, 1, 1, 128, 1, 1, 1, 1, 1, 1, 1],
   [0, 0, 0, 0, 0, 0, 0, 0],
   [0, 0, 0, 0, 0, 0, 0, 0],
   [149, 168, 215, 40, 19, 218, 169, 77], 8⟩

/-- The comparison holds. -/
theorem C115_cipher_vector1 : tVector1.Holds := by
  decide +kernel

/-- test_cipher.py:80-87 -/
def tVector2 : Vector :=
  ⟨.aes128Ctr, [174, 104, 82, 248, 18, 16, 103, 204, 75, 247, 165, 118, 85, 119, 243, 158],
   [0, 0, 0, 48, 0, 0, 0, 0, 0, 0, 0, 0],
   [83, 105, 110, 103, 108, 101, 32, 98, 108, 111, 99, 107, 32, 109, 115, 103],
   [228, 9, 93, 79, 183, 167, 179, 121, 45, 97, 117, 163, 38, 19, 17, 184], 16⟩

/-- The initialization vector of the test has 12 bytes instead of 16, and the code takes the last four bytes of
the key with it: what is compared is different. -/
theorem C115_cipher_vector2_false : tVector2.encrypted ≠ .ok tVector2.cipher ∧ tVector2.decrypted ≠ .ok tVector2.plain := by
  decide +kernel

/-- With the counter that the standard gives (RFC 3686, section 4), the vector holds. -/
theorem C115_cipher_vector2_partial : { tVector2 with iv := tVector2.iv ++ [0, 0, 0, 1] }.Holds := by
  decide +kernel

/-- test_cipher.py:89-100 -/
def tVector3 : Vector :=
  ⟨.aes128Ctr, [126, 36, 6, 120, 23, 250, 224, 215, 67, 214, 206, 31, 50, 83, 145, 99],
   [0, 108, 182, 219, 192, 84, 59, 89, 218, 72, 217, 11],
   [0, 1, 2, 3, 4, 5, 6, 7, 8, 9, 10, 11, 12, 13, 14, 15, 16, 17, 18, 19, 20, 21, 22, 23, 24, 25, 26, 27, 28, 29, 30, 31],
   [81, 4, 161, 6, 22, 138, 114, 217, 121, 13, 65, 238, 142, 218, 211, 136, 235, 46, 30, 252, 70, 218, 87, 200, 252, 230, 48, 223, 145, 65, 190, 40], 16⟩

/-- The initialization vector of the test has 12 bytes instead of 16, and the code takes the last four bytes of
the key with it: what is compared is different. -/
theorem C115_cipher_vector3_false : tVector3.encrypted ≠ .ok tVector3.cipher ∧ tVector3.decrypted ≠ .ok tVector3.plain := by
  decide +kernel

/-- With the counter that the standard gives (RFC 3686, section 4), the vector holds. -/
theorem C115_cipher_vector3_partial : { tVector3 with iv := tVector3.iv ++ [0, 0, 0, 1] }.Holds := by
  decide +kernel

/-- test_cipher.py:103-114 -/
def tVector4 : Vector :=
  ⟨.aes128Ctr, [118, 145, 190, 3, 94, 80, 32, 168, 172, 110, 97, 133, 41, 249, 160, 220],
   [0, 224, 1, 123, 39, 119, 127, 63, 74, 23, 134, 240],
   [0, 1, 2, 3, 4, 5, 6, 7, 8, 9, 10, 11, 12, 13, 14, 15, 16, 17, 18, 19, 20, 21, 22, 23, 24, 25, 26, 27, 28, 29, 30, 31, 32, 33, 34, 35],
   [193, 207, 72, 168, 159, 47, 253, 217, 207, 70, 82, 233, 239, 219, 114, 215, 69, 64, 164, 43, 222, 109, 120, 54, 213, 154, 92, 234, 174, 243, 16, 83, 37, 178, 7, 47], 16⟩

/-- The initialization vector of the test has 12 bytes instead of 16, and the code takes the last four bytes of
the key with it: what is compared is different. -/
theorem C115_cipher_vector4_false : tVector4.encrypted ≠ .ok tVector4.cipher ∧ tVector4.decrypted ≠ .ok tVector4.plain := by
  decide +kernel

/-- With the counter that the standard gives (RFC 3686, section 4), the vector holds. -/
theorem C115_cipher_vector4_partial : { tVector4 with iv := tVector4.iv ++ [0, 0, 0, 1] }.Holds := by
  decide +kernel

/-- test_cipher.py:116-125 -/
def tVector5 : Vector :=
  ⟨.aes192Ctr, [22, 175, 91, 20, 95, 201, 245, 121, 193, 117, 249, 62, 59, 251, 14, 237, 134, 61, 6, 204, 253, 183, 133, 21],
   [0, 0, 0, 72, 54, 115, 60, 20, 125, 109, 147, 203],
   [83, 105, 110, 103, 108, 101, 32, 98, 108, 111, 99, 107, 32, 109, 115, 103],
   [75, 85, 56, 79, 226, 89, 201, 200, 78, 121, 53, 160, 3, 203, 233, 40], 16⟩

/-- The initialization vector of the test has 12 bytes instead of 16, and the code takes the last four bytes of
the key with it: what is compared is different. -/
theorem C115_cipher_vector5_false : tVector5.encrypted ≠ .ok tVector5.cipher ∧ tVector5.decrypted ≠ .ok tVector5.plain := by
  decide +kernel

/-- With the counter that the standard gives (RFC 3686, section 4), the vector holds. -/
theorem C115_cipher_vector5_partial : { tVector5 with iv := tVector5.iv ++ [0, 0, 0, 1] }.Holds := by
  decide +kernel

/-- test_cipher.py:127-140 -/
def tVector6 : Vector :=
  ⟨.aes192Ctr, [124, 92, 178, 64, 27, 61, 195, 60, 25, 231, 52, 8, 25, 224, 246, 156, 103, 140, 61, 184, 230, 246, 169, 26],
   [0, 150, 176, 59, 2, 12, 110, 173, 194, 203, 80, 13],
   [0, 1, 2, 3, 4, 5, 6, 7, 8, 9, 10, 11, 12, 13, 14, 15, 16, 17, 18, 19, 20, 21, 22, 23, 24, 25, 26, 27, 28, 29, 30, 31],
   [69, 50, 67, 252, 96, 155, 35, 50, 126, 223, 170, 250, 113, 49, 205, 159, 132, 144, 112, 28, 90, 212, 167, 156, 252, 31, 224, 255, 66, 244, 251, 0], 16⟩

/-- The initialization vector of the test has 12 bytes instead of 16, and the code takes the last four bytes of
the key with it: what is compared is different. -/
theorem C115_cipher_vector6_false : tVector6.encrypted ≠ .ok tVector6.cipher ∧ tVector6.decrypted ≠ .ok tVector6.plain := by
  decide +kernel

/-- With the counter that the standard gives (RFC 3686, section 4), the vector holds. -/
theorem C115_cipher_vector6_partial : { tVector6 with iv := tVector6.iv ++ [0, 0, 0, 1] }.Holds := by
  decide +kernel

/-- test_cipher.py:142-155 -/
def tVector7 : Vector :=
  ⟨.aes192Ctr, [2, 191, 57, 30, 232, 236, 177, 89, 185, 89, 97, 123, 9, 101, 39, 155, 245, 155, 96, 167, 134, 211, 224, 254],
   [0, 7, 189, 253, 92, 189, 96, 39, 141, 204, 9, 18],
   [0, 1, 2, 3, 4, 5, 6, 7, 8, 9, 10, 11, 12, 13, 14, 15, 16, 17, 18, 19, 20, 21, 22, 23, 24, 25, 26, 27, 28, 29, 30, 31, 32, 33, 34, 35],
   [150, 137, 63, 197, 94, 92, 114, 47, 84, 11, 125, 209, 221, 247, 231, 88, 210, 136, 188, 149, 198, 145, 101, 136, 69, 54, 200, 17, 102, 47, 33, 136, 171, 238, 9, 53], 16⟩

/-- The initialization vector of the test has 12 bytes instead of 16, and the code takes the last four bytes of
the key with it: what is compared is different. -/
theorem C115_cipher_vector7_false : tVector7.encrypted ≠ .ok tVector7.cipher ∧ tVector7.decrypted ≠ .ok tVector7.plain := by
  decide +kernel

/-- With the counter that the standard gives (RFC 3686, section 4), the vector holds. -/
theorem C115_cipher_vector7_partial : { tVector7 with iv := tVector7.iv ++ [0, 0, 0, 1] }.Holds := by
  decide +kernel

/-- test_cipher.py:157-166 -/
def tVector8 : Vector :=
  ⟨.aes256Ctr, [119, 107, 239, 242, 133, 29, 176, 111, 76, 138, 5, 66, 200, 105, 111, 108, 106, 129, 175, 30, 236, 150, 180, 211, 127, 193, 214, 137, 230, 193, 193, 4],
   [0, 0, 0, 96, 219, 86, 114, 201, 122, 168, 240, 178, 0, 0, 0, 1],
   [83, 105, 110, 103, 108, 101, 32, 98, 108, 111, 99, 107, 32, 109, 115, 103],
   [20, 90, 208, 29, 191, 130, 78, 199, 86, 8, 99, 220, 113, 227, 224, 192], 16⟩

/-- The comparison holds. -/
theorem C115_cipher_vector8 : tVector8.Holds := by
  decide +kernel

/-- test_cipher.py:168-181 -/
def tVector9 : Vector :=
  ⟨.aes256Ctr, [246, 214, 109, 107, 213, 45, 89, 187, 7, 150, 54, 88, 121, 239, 248, 134, 198, 109, 213, 26, 91, 106, 153, 116, 75, 80, 89, 12, 135, 162, 56, 132],
   [0, 250, 172, 36, 193, 88, 94, 241, 90, 67, 216, 117, 0, 0, 0, 1],
   [0, 1, 2, 3, 4, 5, 6, 7, 8, 9, 10, 11, 12, 13, 14, 15, 16, 17, 18, 19, 20, 21, 22, 23, 24, 25, 26, 27, 28, 29, 30, 31],
   [240, 94, 35, 27, 56, 148, 97, 44, 73, 238, 0, 11, 128, 78, 178, 169, 184, 48, 107, 80, 143, 131, 157, 106, 85, 48, 131, 29, 147, 68, 175, 28], 16⟩

/-- The comparison holds. -/
theorem C115_cipher_vector9 : tVector9.Holds := by
  decide +kernel

/-- test_cipher.py:183-198 -/
def tVector10 : Vector :=
  ⟨.aes256Ctr, [255, 122, 97, 124, 230, 145, 72, 228, 241, 114, 110, 47, 67, 88, 29, 226, 170, 98, 217, 248, 5, 83, 46, 223, 241, 238, 214, 135, 251, 84, 21, 61],
   [0, 28, 197, 183, 81, 165, 29, 112, 161, 193, 17, 72, 0, 0, 0, 1],
   [0, 1, 2, 3, 4, 5, 6, 7, 8, 9, 10, 11, 12, 13, 14, 15, 16, 17, 18, 19, 20, 21, 22, 23, 24, 25, 26, 27, 28, 29, 30, 31, 32, 33, 34, 35],
   [235, 108, 82, 130, 29, 11, 187, 247, 206, 117, 148, 70, 42, 202, 79, 170, 180, 7, 223, 134, 101, 105, 253, 7, 244, 140, 192, 181, 131, 214, 7, 31, 30, 192, 230, 184], 16⟩

/-- The comparison holds. -/
theorem C115_cipher_vector10 : tVector10.Holds := by
  decide +kernel

/-- test_cipher.py:203-210 -/
def tVector11 : Vector :=
  ⟨.aes128Cbc, [0, 0, 0, 0, 0, 0, 0, 0, 0, 0, 0, 0, 0, 0, 0, 0],
   [0, 0, 0, 0, 0, 0, 0, 0, 0, 0, 0, 0, 0, 0, 0, 0],
   [243, 68, 129, 236, 60, 198, 39, 186, 205, 93, 195, 251, 8, 242, 115, 230],
   [3, 54, 118, 62, 150, 109, 146, 89, 90, 86, 124, 201, 206, 83, 127, 94], 16⟩

/-- The comparison holds. -/
theorem C115_cipher_vector11 : tVector11.Holds := by
  decide +kernel

/-- test_cipher.py:212-219 -/
def tVector12 : Vector :=
  ⟨.aes192Cbc, [0, 0, 0, 0, 0, 0, 0, 0, 0, 0, 0, 0, 0, 0, 0, 0, 0, 0, 0, 0, 0, 0, 0, 0],
   [0, 0, 0, 0, 0, 0, 0, 0, 0, 0, 0, 0, 0, 0, 0, 0],
   [27, 7, 122, 106, 244, 183, 249, 130, 41, 222, 120, 109, 117, 22, 182, 57],
   [39, 92, 252, 4, 19, 216, 204, 183, 5, 19, 195, 133, 155, 29, 15, 114], 16⟩

/-- The comparison holds. -/
theorem C115_cipher_vector12 : tVector12.Holds := by
  decide +kernel

/-- test_cipher.py:221-230 -/
def tVector13 : Vector :=
  ⟨.aes256Cbc, [0, 0, 0, 0, 0, 0, 0, 0, 0, 0, 0, 0, 0, 0, 0, 0, 0, 0, 0, 0, 0, 0, 0, 0, 0, 0, 0, 0, 0, 0, 0, 0],
   [0, 0, 0, 0, 0, 0, 0, 0, 0, 0, 0, 0, 0, 0, 0, 0],
   [1, 71, 48, 248, 10, 198, 37, 254, 132, 240, 38, 198, 11, 253, 84, 125],
   [92, 157, 132, 78, 212, 111, 152, 133, 8, 94, 93, 106, 79, 148, 199, 215], 16⟩

/-- The comparison holds. -/
theorem C115_cipher_vector13 : tVector13.Holds := by
  decide +kernel

/-- test_cipher.py:24-37 -/
theorem C115_cipher_factory :
    getCipherClass (.str (py! "none")) = .ok .none ∧ getCipherClass (.str (py! "aes128-ctr")) = .ok .aes128Ctr ∧
    getCipherClass (.str (py! "aes192-ctr")) = .ok .aes192Ctr ∧ getCipherClass (.str (py! "aes256-ctr")) = .ok .aes256Ctr := by
  decide +kernel

/-- test_cipher.py:40-51 -/
theorem C115_cipher_none (cr : Crypto) (o : KdfOptions) :
    encrypt cr .none o [] (pb! "abcd") = .ok (pb! "abcd") ∧ decrypt cr .none o [] (pb! "abcd") = .ok (pb! "abcd") ∧
    CipherCls.none.blockSize = 8 := ⟨rfl, rfl, rfl⟩

end OSK
