import Verif.Lemmas.ReadmeStream2
/-
The decryption of the example of the README.
-/
namespace OSK
open Spec

/-- The encrypted part of the file. -/
def readmeCipher : Bytes :=
  [249, 73, 117, 145, 127, 130, 86, 225, 69, 50, 152, 23, 130, 103, 56, 106, 109, 100, 121, 171, 90, 122, 133, 165, 161, 5, 37, 154,
   221, 115, 24, 47, 210, 91, 173, 214, 198, 227, 177, 52, 146, 168, 53, 5, 66, 73, 35, 55, 147, 35, 7, 156, 117, 228, 203, 204,
   74, 226, 152, 180, 222, 248, 150, 143, 47, 41, 50, 80, 239, 2, 68, 103, 79, 29, 233, 130, 194, 160, 68, 190, 136, 239, 180, 134,
   187, 34, 73, 192, 16, 145, 235, 84, 124, 154, 58, 175, 13, 54, 77, 90, 113, 186, 167, 124, 114, 23, 61, 231, 170, 222, 113, 46,
   164, 239, 220, 33, 18, 78, 223, 20, 152, 236, 45, 44, 126, 54, 129, 46, 160, 236, 254, 91, 46, 23, 243, 122, 191, 161, 81, 191,
   218, 179, 238, 89]

/-- What it decrypts to. -/
def readmePlain : Bytes :=
  [177, 229, 3, 43, 177, 229, 3, 43, 0, 0, 0, 11, 115, 115, 104, 45, 101, 100, 50, 53, 53, 49, 57, 0, 0, 0, 32, 208,
   150, 127, 205, 2, 75, 142, 254, 41, 193, 209, 112, 0, 189, 207, 227, 246, 232, 145, 201, 132, 245, 158, 172, 76, 224, 156, 47, 50,
   105, 56, 82, 0, 0, 0, 64, 153, 8, 59, 35, 7, 185, 55, 48, 195, 235, 92, 14, 228, 193, 26, 212, 18, 166, 5, 136, 118,
   174, 158, 57, 194, 56, 26, 184, 146, 98, 48, 140, 208, 150, 127, 205, 2, 75, 142, 254, 41, 193, 209, 112, 0, 189, 207, 227, 246,
   232, 145, 201, 132, 245, 158, 172, 76, 224, 156, 47, 50, 105, 56, 82, 0, 0, 0, 10, 109, 121, 95, 99, 111, 109, 109, 101, 110,
   116, 1, 2, 3]

theorem ctrStream_add (E : Bytes → Bytes) (n : Nat) : ∀ m c, Std.ctrStream E (m + n) c = Std.ctrStream E m c ++ Std.ctrStream E n (c + m)
  | 0, c => by simp [Std.ctrStream]
  | m + 1, c => by
    rw [Nat.add_right_comm, Std.ctrStream, Std.ctrStream, ctrStream_add E n m (c + 1), List.append_assoc, Nat.add_assoc c 1 m,
      Nat.add_comm 1 m]

theorem readme_stream : Std.ctrCrypt (Std.aesEncBlock readmeRoundKeys) (readmeKey.drop 32) readmeCipher = readmePlain := by
  unfold Std.ctrCrypt
  rw [show (readmeCipher.length + 15) / 16 = 5 + 4 from by decide +kernel,
    show beNat (readmeKey.drop 32) = 57970687779475518933615637000302402236 from by decide +kernel, ctrStream_add, readme_stream1, readme_stream2]
  decide +kernel

theorem readme_decrypts : Std.crypto.symDec .aes .ctr (readmeKey.take 32) (readmeKey.drop 32) readmeCipher = .ok readmePlain := by
  show Std.symCrypt false .aes .ctr (readmeKey.take 32) (readmeKey.drop 32) readmeCipher = _
  unfold Std.symCrypt
  rw [if_neg (by decide +kernel), if_neg (by decide +kernel)]
  show Except.ok (Std.ctrCrypt (Std.aesEncBlock (Std.aesKeys (readmeKey.take 32))) _ _) = _
  rw [readme_roundKeys, readme_stream]

/-- The same functions, which are known where the example uses them. -/
theorem deciphers_eq {cr : Crypto} (h : Deciphers cr) : cr =
    { cr with
      bcryptKdf := fun p s n r => if p = pb! "secret_passphrase" ∧ s = readmeSalt ∧ n = 48 ∧ r = 16 then .ok readmeKey
        else cr.bcryptKdf p s n r
      symDec := fun a m key iv b => if a = .aes ∧ m = .ctr ∧ key = readmeKey.take 32 ∧ iv = readmeKey.drop 32 ∧ b = readmeCipher
        then .ok readmePlain else cr.symDec a m key iv b } := by
  obtain ⟨h1, h2⟩ := h
  cases cr with
  | mk f1 f2 f3 f4 f5 f6 f7 =>
    simp only [Crypto.mk.injEq, true_and, and_true] at h1 h2 ⊢
    constructor
    · funext p s n r
      split
      · rename_i h
        obtain ⟨rfl, rfl, rfl, rfl⟩ := h
        exact h1
      · rfl
    · funext a m key iv b
      split
      · rename_i h
        obtain ⟨rfl, rfl, rfl, rfl, rfl⟩ := h
        rw [h2, readme_decrypts]
      · rfl

end OSK
