import Verif.Std.Crypto
import Mathlib.Data.Nat.Prime.Defs
import Mathlib.Data.List.Forall2
/-
C104, further: the algorithms of Std/ are the ones of the standards.  Tables are described by what the standards say they are made from, and
the algorithms give the known answers (FIPS 197, appendix C; the GCM specification, test case 2 and a part of 5; RFC 8439, 2.3.2 and 2.5.2;
FIPS 180-4; the others are from openssl).  `tools/crypto_check.py` compares many more.  Props/StdPi.lean and
Props/StdBlowfish.lean are about Blowfish and `bcrypt_pbkdf`.
-/
namespace OSK
open OSK.Std

/-- The product of two polynomials over the field with two elements, whose coefficients are the binary digits: `n` digits of `b`. -/
def Spec.polyMul (a b : Nat) : Nat → Nat
  | 0 => 0
  | n + 1 => Spec.polyMul a b n ^^^ (if b.testBit n then a <<< n else 0)

/-- `(r, a)` are congruent modulo the polynomial of AES, `x⁸ + x⁴ + x³ + x + 1` (FIPS 197, 4.2). -/
def Spec.AesCongruent (r a : Nat) : Prop := ∃ m < 128, Spec.polyMul 0x11b m 7 = r ^^^ a

instance (r a : Nat) : Decidable (Spec.AesCongruent r a) := inferInstanceAs (Decidable (∃ m < 128, _))

/-- Eight bits turned left. -/
def Spec.turn8 (y n : Nat) : Nat := (y * 2 ^ n) % 256 + y * 2 ^ n / 256

/-- FIPS 197, 5.1.1: the box has the inverse in the field with 256 elements (of zero: zero), then an affine transformation. -/
def Spec.SboxOf (x z : Nat) : Prop :=
  ∃ y < 256, ((x = 0 ∧ y = 0) ∨ Spec.AesCongruent 1 (Spec.polyMul x y 8)) ∧
    z = y ^^^ Spec.turn8 y 1 ^^^ Spec.turn8 y 2 ^^^ Spec.turn8 y 3 ^^^ Spec.turn8 y 4 ^^^ 0x63

/-- The element whose affine image is `z` (a table for the proof). -/
private def unAffine (z : Nat) : Nat := Spec.turn8 z 1 ^^^ Spec.turn8 z 3 ^^^ Spec.turn8 z 6 ^^^ 0x05

/-- The quotient by the polynomial of AES (for the proof). -/
private def aesQuotient : Nat → Nat → Nat → Nat
  | 0, _, q => q
  | n + 1, a, q => if a.testBit (n + 8) then aesQuotient n (a ^^^ (0x11b <<< n)) (q + 2 ^ n) else aesQuotient n a q

private theorem sbox_table : ∀ x < 256,
    (let y := unAffine (sbox (UInt8.ofNat x)).toNat
     y < 256 ∧ ((x = 0 ∧ y = 0) ∨ (aesQuotient 7 (Spec.polyMul x y 8) 0 < 128 ∧
        Spec.polyMul 0x11b (aesQuotient 7 (Spec.polyMul x y 8) 0) 7 = 1 ^^^ Spec.polyMul x y 8)) ∧
       (sbox (UInt8.ofNat x)).toNat = y ^^^ Spec.turn8 y 1 ^^^ Spec.turn8 y 2 ^^^ Spec.turn8 y 3 ^^^ Spec.turn8 y 4 ^^^ 0x63) := by
  decide +kernel

/-- The S-box of AES is the one that FIPS 197 describes. -/
theorem C104_sbox (x : UInt8) : Spec.SboxOf x.toNat (sbox x).toNat := by
  obtain ⟨h1, h2, h3⟩ := sbox_table x.toNat x.toNat_lt
  rw [UInt8.ofNat_toNat] at h1 h2 h3
  refine ⟨_, h1, ?_, h3⟩
  rcases h2 with h2 | ⟨h2, h4⟩
  · exact .inl h2
  · exact .inr ⟨_, h2, h4⟩

/-- The inverse box undoes it. -/
theorem C104_inv_sbox (x : UInt8) : invSbox (sbox x) = x := by
  have h : ∀ n < 256, invSbox (sbox (UInt8.ofNat n)) = UInt8.ofNat n := by decide +kernel
  simpa using h x.toNat x.toNat_lt

/-- `k` are the first 64 bits of the fractional part of the cube root of `p`. -/
def Spec.CubeRootBits (p k : Nat) : Prop := k < 2 ^ 64 ∧ ∃ c < 8, (c * 2 ^ 64 + k) ^ 3 ≤ p * 2 ^ 192 ∧ p * 2 ^ 192 < (c * 2 ^ 64 + k + 1) ^ 3

/-- `k` are the first 64 bits of the fractional part of the square root of `p`. -/
def Spec.SquareRootBits (p k : Nat) : Prop := k < 2 ^ 64 ∧ ∃ c < 8, (c * 2 ^ 64 + k) ^ 2 ≤ p * 2 ^ 128 ∧ p * 2 ^ 128 < (c * 2 ^ 64 + k + 1) ^ 2

instance (p k : Nat) : Decidable (Spec.CubeRootBits p k) := inferInstanceAs (Decidable (_ ∧ _))
instance (p k : Nat) : Decidable (Spec.SquareRootBits p k) := inferInstanceAs (Decidable (_ ∧ _))

/-- The primes below `n`, in order. -/
def Spec.primesBelow (n : Nat) : List Nat := (List.range n).filter (fun p => 2 ≤ p ∧ ∀ d < p, 2 ≤ d → p % d ≠ 0)

theorem Spec.mem_primesBelow (n p : Nat) : p ∈ Spec.primesBelow n ↔ p < n ∧ p.Prime := by
  unfold Spec.primesBelow
  rw [List.mem_filter, List.mem_range, decide_eq_true_eq, Nat.prime_def]
  constructor
  · rintro ⟨h, h2, hd⟩
    refine ⟨h, h2, fun m hm => ?_⟩
    rcases Nat.lt_or_ge m p with h' | h'
    · left
      by_contra hne
      rcases Nat.eq_zero_or_pos m with rfl | hpos
      · rw [Nat.zero_dvd] at hm; omega
      · exact hd m h' (by omega) (Nat.mod_eq_zero_of_dvd hm)
    · exact .inr (Nat.le_antisymm (Nat.le_of_dvd (by omega) hm) h')
  · rintro ⟨h, h2, hd⟩
    refine ⟨h, h2, fun d hlt h2' hm => ?_⟩
    rcases hd d (Nat.dvd_of_mod_eq_zero hm) with rfl | rfl <;> omega

/-- The constants of SHA-512 are those of FIPS 180-4, 4.2.3: the cube roots of the first eighty primes. -/
theorem C104_sha_k : List.Forall₂ Spec.CubeRootBits (Spec.primesBelow 410) (shaK.toList.map UInt64.toNat) := by
  have h : (Spec.primesBelow 410).length = 80 ∧ shaK.toList.length = 80 ∧
      ∀ i < 80, Spec.CubeRootBits ((Spec.primesBelow 410).getD i 0) ((shaK.toList.map UInt64.toNat).getD i 0) := by decide +kernel
  obtain ⟨h1, h2, h3⟩ := h
  rw [List.forall₂_iff_get]
  refine ⟨by rw [h1, List.length_map, h2], fun i hi hj => ?_⟩
  have := h3 i (h1 ▸ hi)
  rwa [List.getD_eq_getElem?_getD, List.getElem?_eq_getElem hi, List.getD_eq_getElem?_getD, List.getElem?_eq_getElem hj] at this

/-- The initial value is that of FIPS 180-4, 5.3.5: the square roots of the first eight primes. -/
theorem C104_sha_h : List.Forall₂ Spec.SquareRootBits (Spec.primesBelow 20) (shaH.map UInt64.toNat) := by
  have h : (Spec.primesBelow 20).length = 8 ∧ shaH.length = 8 ∧
      ∀ i < 8, Spec.SquareRootBits ((Spec.primesBelow 20).getD i 0) ((shaH.map UInt64.toNat).getD i 0) := by decide +kernel
  obtain ⟨h1, h2, h3⟩ := h
  rw [List.forall₂_iff_get]
  refine ⟨by rw [h1, List.length_map, h2], fun i hi hj => ?_⟩
  have := h3 i (h1 ▸ hi)
  rwa [List.getD_eq_getElem?_getD, List.getElem?_eq_getElem hi, List.getD_eq_getElem?_getD, List.getElem?_eq_getElem hj] at this

/-! ### Known answers -/

/-- AES: FIPS 197, appendix C. -/
theorem C104_aes_vectors :
    encBlock .aes [0, 1, 2, 3, 4, 5, 6, 7, 8, 9, 10, 11, 12, 13, 14, 15]
      [0, 17, 34, 51, 68, 85, 102, 119, 136, 153, 170, 187, 204, 221, 238, 255] = [105, 196, 224, 216, 106, 123, 4, 48, 216, 205, 183, 128, 112, 180, 197, 90] ∧
    encBlock .aes [0, 1, 2, 3, 4, 5, 6, 7, 8, 9, 10, 11, 12, 13, 14, 15, 16, 17, 18, 19, 20, 21, 22, 23]
      [0, 17, 34, 51, 68, 85, 102, 119, 136, 153, 170, 187, 204, 221, 238, 255] = [221, 169, 124, 164, 134, 76, 223, 224, 110, 175, 112, 160, 236, 13, 113, 145] ∧
    encBlock .aes [0, 1, 2, 3, 4, 5, 6, 7, 8, 9, 10, 11, 12, 13, 14, 15, 16, 17, 18, 19, 20, 21, 22, 23, 24, 25, 26, 27, 28, 29, 30, 31]
      [0, 17, 34, 51, 68, 85, 102, 119, 136, 153, 170, 187, 204, 221, 238, 255] = [142, 162, 183, 202, 81, 103, 69, 191, 234, 252, 73, 144, 75, 73, 96, 137] := by
  refine ⟨?_, ?_, ?_⟩ <;> decide +kernel

/-- CBC, and CTR with a counter that overflows (openssl). -/
theorem C104_mode_vectors :
    (crypto.symEnc .aes .cbc [0, 1, 2, 3, 4, 5, 6, 7, 8, 9, 10, 11, 12, 13, 14, 15] [16, 17, 18, 19, 20, 21, 22, 23, 24, 25, 26, 27, 28, 29, 30, 31]
      [0, 1, 2, 3, 4, 5, 6, 7, 8, 9, 10, 11, 12, 13, 14, 15, 16, 17, 18, 19, 20, 21, 22, 23, 24, 25, 26, 27, 28, 29, 30, 31]).toOption =
      some [149, 79, 100, 242, 228, 232, 110, 158, 238, 130, 210, 2, 22, 104, 72, 153, 169, 59, 157, 219, 34, 232, 171, 16, 76, 97, 231, 40, 131, 29, 109, 90] ∧
    (crypto.symEnc .aes .ctr [0, 1, 2, 3, 4, 5, 6, 7, 8, 9, 10, 11, 12, 13, 14, 15] (List.replicate 16 255) (List.replicate 20 0)).toOption =
      some [60, 68, 31, 50, 206, 7, 130, 35, 100, 215, 162, 153, 14, 80, 187, 19, 198, 161, 59, 55] := by
  refine ⟨?_, ?_⟩ <;> decide +kernel

/-- Triple DES in CBC mode with keys of three and of two parts (openssl). -/
theorem C104_des_vectors :
    (crypto.symEnc .tripleDes .cbc [0, 1, 2, 3, 4, 5, 6, 7, 8, 9, 10, 11, 12, 13, 14, 15, 16, 17, 18, 19, 20, 21, 22, 23]
      [240, 241, 242, 243, 244, 245, 246, 247] [100, 101, 102, 103, 104, 105, 106, 107, 108, 109, 110, 111, 112, 113, 114, 115]).toOption =
      some [143, 113, 174, 214, 214, 69, 231, 124, 42, 101, 170, 174, 74, 115, 231, 74] ∧
    (crypto.symEnc .tripleDes .cbc [0, 1, 2, 3, 4, 5, 6, 7, 8, 9, 10, 11, 12, 13, 14, 15]
      [240, 241, 242, 243, 244, 245, 246, 247] [100, 101, 102, 103, 104, 105, 106, 107, 108, 109, 110, 111, 112, 113, 114, 115]).toOption =
      some [25, 10, 34, 86, 204, 153, 224, 169, 38, 230, 158, 205, 114, 163, 250, 152] := by
  refine ⟨?_, ?_⟩ <;> decide +kernel

/-- GCM: test case 2 of the specification; and test case 5 (an initialisation vector of eight bytes), of which only the first bytes of the
text are compared, since it has additional data. -/
theorem C104_gcm_vectors :
    (crypto.gcmEnc (List.replicate 16 0) (List.replicate 12 0) (List.replicate 16 0)).toOption =
      some [3, 136, 218, 206, 96, 182, 163, 146, 243, 40, 194, 185, 113, 178, 254, 120,
        171, 110, 71, 212, 44, 236, 19, 189, 245, 58, 103, 178, 18, 87, 189, 223] ∧
    (crypto.gcmEnc [254, 255, 233, 146, 134, 101, 115, 28, 109, 106, 143, 148, 103, 48, 131, 8] [202, 254, 186, 190, 250, 206, 219, 173]
      [217, 49, 50, 37, 248, 132, 6, 229, 165, 89, 9, 197, 175, 245, 38, 154, 134, 167, 169]).toOption.map (·.take 19) =
      some [97, 53, 59, 76, 40, 6, 147, 74, 119, 127, 245, 31, 162, 42, 71, 85, 105, 155, 42] := by
  refine ⟨?_, ?_⟩ <;> decide +kernel

/-- ChaCha20: RFC 8439, 2.3.2, and bytes of two blocks (openssl).  Poly1305: RFC 8439, 2.5.2. -/
theorem C104_chacha_vectors :
    Std.chachaBlock [0, 1, 2, 3, 4, 5, 6, 7, 8, 9, 10, 11, 12, 13, 14, 15, 16, 17, 18, 19, 20, 21, 22, 23, 24, 25, 26, 27, 28, 29, 30, 31]
      [1, 0, 0, 0, 0, 0, 0, 9, 0, 0, 0, 74, 0, 0, 0, 0] 0 =
      [16, 241, 231, 228, 209, 59, 89, 21, 80, 15, 221, 31, 163, 32, 113, 196, 199, 209, 244, 199, 51, 192, 104, 3, 4, 34, 170, 154, 195, 212, 108, 78, 210, 130, 100, 70, 7, 159, 170, 9, 20, 194, 215, 5, 217, 139, 2, 162, 181, 18, 156, 209, 222, 22, 78, 185, 203, 208, 131, 232, 162, 80, 60, 78] ∧
    (crypto.chacha [0, 1, 2, 3, 4, 5, 6, 7, 8, 9, 10, 11, 12, 13, 14, 15, 16, 17, 18, 19, 20, 21, 22, 23, 24, 25, 26, 27, 28, 29, 30, 31] (List.replicate 16 0)).toOption.map (fun s => [s 0, s 63, s 64, s 79]) =
      some [57, 12, 24, 39] ∧
    poly1305 [133, 214, 190, 120, 87, 85, 109, 51, 127, 68, 82, 254, 66, 213, 6, 168, 1, 3, 128, 138, 251, 13, 178, 253, 74, 191, 246, 175, 65,
      73, 245, 27] (pb! "Cryptographic Forum Research Group") = [168, 6, 29, 193, 48, 81, 54, 198, 194, 43, 139, 175, 12, 1, 39, 169] := by
  refine ⟨?_, ?_, ?_⟩ <;> decide +kernel

/-- SHA-512: FIPS 180-4 (`abc`), and a text whose padding takes a block of its own (hashlib). -/
theorem C104_sha_vectors :
    sha512 (pb! "abc") = [221, 175, 53, 161, 147, 97, 122, 186, 204, 65, 115, 73, 174, 32, 65, 49, 18, 230, 250, 78, 137, 169, 126, 162, 10, 158, 238, 230, 75, 85, 211, 154, 33, 146, 153, 42, 39, 79, 193, 168, 54, 186, 60, 35, 163, 254, 235, 189, 69, 77, 68, 35, 100, 60, 232, 14, 42, 154, 201, 79, 165, 76, 164, 159] ∧
    sha512 (List.replicate 112 97) = [192, 29, 8, 14, 253, 73, 39, 118, 161, 196, 59, 210, 61, 217, 157, 10, 46, 98, 109, 72, 30, 22, 120, 46, 117, 213, 76, 37, 3, 181, 220, 50, 189, 5, 240, 241, 186, 51, 229, 104, 184, 143, 210, 217, 112, 146, 155, 113, 158, 203, 177, 82, 245, 143, 19, 10, 64, 124, 136, 48, 96, 75, 112, 202] := by
  refine ⟨?_, ?_⟩ <;> decide +kernel

/-- The first sixteen hexadecimal digits of π after the point. -/
theorem C104_pi_digits : piBits 64 = 0x243f6a8885a308d3 := by decide +kernel

/-- Blowfish with given words in place of a key schedule; this compares the rounds only (computed apart from this model). -/
theorem C104_blowfish_rounds :
    blowfishEnc ((List.range 1042).map (fun i => UInt32.ofNat (i * i * 0x9e3779b9 + i))).toArray 0x01234567 0x89abcdef = (0x82192d7f, 0x604501e1) := by
  decide +kernel

end OSK
