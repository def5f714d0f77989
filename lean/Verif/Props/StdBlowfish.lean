import Verif.Lemmas.BlowfishPi
import Verif.Lemmas.BcryptTurns4
import Verif.Lemmas.Int
import Verif.Lemmas.StdCrypto
/-
C104, further: Blowfish with its key schedule, and `bcrypt_pbkdf`.
-/
namespace OSK
open OSK.Std

/-- Blowfish: three of the published vectors (Eric Young), for keys of eight bytes, which are repeated. -/
theorem C104_blowfish_vectors :
    blowfishEnc (blowfishExpand blowfishInit #[] #[]) 0 0 = (0x4EF99745, 0x6198DD78) ∧
    blowfishEnc (blowfishExpand blowfishInit #[] (words16 (List.replicate 8 [0x01, 0x23, 0x45, 0x67, 0x89, 0xAB, 0xCD, 0xEF]).flatten))
      0x11111111 0x11111111 = (0x61F9C380, 0x2281B096) ∧
    blowfishEnc (blowfishExpand blowfishInit #[] (words16 (List.replicate 8 [0xFE, 0xDC, 0xBA, 0x98, 0x76, 0x54, 0x32, 0x10]).flatten))
      0x01234567 0x89ABCDEF = (0x0ACEAB0F, 0xC6A0A28D) := by
  have h0 : KeyPacks 0 #[] := by unfold KeyPacks; decide +kernel
  refine ⟨?_, ?_, ?_⟩
  · exact blowfish_fast packs_pi h0 h0 0 0 (v := 0x4EF997456198DD78) (by decide +kernel)
  · exact blowfish_fast packs_pi h0 (K := 0x0123456789ABCDEF0123456789ABCDEF0123456789ABCDEF0123456789ABCDEF0123456789ABCDEF0123456789ABCDEF0123456789ABCDEF0123456789ABCDEF)
      (by unfold KeyPacks; decide +kernel) _ _ (v := 0x61F9C3802281B096) (by decide +kernel)
  · exact blowfish_fast packs_pi h0 (K := 0xFEDCBA9876543210FEDCBA9876543210FEDCBA9876543210FEDCBA9876543210FEDCBA9876543210FEDCBA9876543210FEDCBA9876543210FEDCBA9876543210)
      (by unfold KeyPacks; decide +kernel) _ _ (v := 0x0ACEAB0FC6A0A28D) (by decide +kernel)

/-- The key schedule with a salt, as `bcrypt` has it (computed apart from this model, by a program that gives the hashes of crypt(3)). -/
theorem C104_blowfish_salt :
    blowfishEnc (blowfishExpand blowfishInit (words16 ((List.range 64).map (fun i => UInt8.ofNat (100 + i))))
      (words16 ((List.range 64).map (fun i => UInt8.ofNat (7 + 3 * i))))) 0x4F787963 0x68726F6D = (0xE33663B1, 0x04878AAA) := by
  exact blowfish_fast packs_pi (T := 0x6465666768696a6b6c6d6e6f707172737475767778797a7b7c7d7e7f808182838485868788898a8b8c8d8e8f909192939495969798999a9b9c9d9e9fa0a1a2a3)
    (K := 0x70a0d101316191c1f2225282b2e3134373a3d404346494c4f5255585b5e6164676a6d707376797c7f8285888b8e9194979a9da0a3a6a9acafb2b5b8bbbec1c4)
    (by unfold KeyPacks; decide +kernel) (by unfold KeyPacks; decide +kernel) _ _ (v := 0xE33663B104878AAA) (by decide +kernel)

/-! ### `bcrypt_pbkdf` -/

/-- The hashes of block number `count`: the first one is of the salt with the number, the others are of the one before. -/
def Spec.bcryptChain (pass salt : Bytes) (count : Nat) : Nat → Bytes
  | 0 => bcryptHash (sha512 pass) (sha512 (salt ++ natToBE 4 count))
  | i + 1 => bcryptHash (sha512 pass) (sha512 (Spec.bcryptChain pass salt count i))

theorem bcryptHash_length (pass salt : Bytes) : (bcryptHash pass salt).length = 32 := by
  have h : (pieces 8 4 (pb! "OxychromaticBlowfishSwatDynamite")).length = 4 := by decide +kernel
  unfold bcryptHash
  generalize pieces 8 4 (pb! "OxychromaticBlowfishSwatDynamite") = l at *
  dsimp only
  rw [List.length_flatMap, show (fun b : Bytes => (List.length ((natToBE 4 (blowfishTimes _ 64 (UInt32.ofNat (beNat (b.take 4)))
    (UInt32.ofNat (beNat (b.drop 4)))).1.toNat).reverse ++ (natToBE 4 (blowfishTimes _ 64 (UInt32.ofNat (beNat (b.take 4)))
    (UInt32.ofNat (beNat (b.drop 4)))).2.toNat).reverse))) = fun _ => 8 from funext fun b => by
      rw [List.length_append, List.length_reverse, List.length_reverse, natToBE_length, natToBE_length]]
  simp [h]

theorem xorBytes_getD (a b : Bytes) (h : a.length = b.length) (j : Nat) : (xorBytes a b).getD j 0 = a.getD j 0 ^^^ b.getD j 0 := by
  induction a generalizing b j with
  | nil => cases b with
    | nil => simp [xorBytes]
    | cons y b => simp at h
  | cons x a ih => cases b with
    | nil => simp at h
    | cons y b => cases j with
      | zero => simp [xorBytes]
      | succ j => simpa [xorBytes] using ih b (by simpa using h) j

theorem bcryptRoundsFrom_getD (pass salt : Bytes) (count m : Nat) : ∀ (i : Nat) (out : Bytes) (j : Nat), out.length = 32 →
    (bcryptRoundsFrom (sha512 pass) m (Spec.bcryptChain pass salt count i) out).getD j 0 =
      (List.range' (i + 1) m).foldl (fun a n => a ^^^ (Spec.bcryptChain pass salt count n).getD j 0) (out.getD j 0) := by
  induction m with
  | zero => intro i out j _; rfl
  | succ m ih =>
    intro i out j h
    rw [bcryptRoundsFrom, List.range'_succ, List.foldl_cons]
    have hc : bcryptHash (sha512 pass) (sha512 (Spec.bcryptChain pass salt count i)) = Spec.bcryptChain pass salt count (i + 1) := rfl
    have hl : (Spec.bcryptChain pass salt count (i + 1)).length = 32 := by rw [← hc]; exact bcryptHash_length _ _
    rw [hc, ih (i + 1) _ j (by rw [xorBytes_length, h]), xorBytes_getD _ _ (by rw [h, hl])]

/-- `bcrypt_pbkdf` puts the bytes where bcrypt_pbkdf.c does: byte `i` of block number `count` at `i * stride + (count - 1)`, and a block is the
sum of as many hashes as there are rounds, each of the one before. -/
theorem C104_bcrypt_layout (pass salt : Bytes) (n rounds : Nat) (hr : 0 < rounds) :
    (bcryptPbkdf pass salt n rounds).length = n ∧
    ∀ count i, 1 ≤ count → count ≤ (n + 31) / 32 → i * ((n + 31) / 32) + (count - 1) < n →
      (bcryptPbkdf pass salt n rounds).getD (i * ((n + 31) / 32) + (count - 1)) 0 =
        (List.range rounds).foldl (fun a m => a ^^^ (Spec.bcryptChain pass salt count m).getD i 0) 0 := by
  refine ⟨by simp [bcryptPbkdf], fun count i h1 h2 h3 => ?_⟩
  obtain ⟨m, rfl⟩ : ∃ m, rounds = m + 1 := ⟨rounds - 1, by omega⟩
  unfold bcryptPbkdf
  dsimp only
  generalize hs : (n + 31) / 32 = stride at *
  have hp : 0 < stride := by omega
  have e1 : (i * stride + (count - 1)) % stride = count - 1 := by
    rw [Nat.mul_comm, Nat.mul_add_mod, Nat.mod_eq_of_lt (by omega)]
  have e2 : (i * stride + (count - 1)) / stride = i := by
    rw [Nat.mul_comm, Nat.mul_add_div hp, Nat.div_eq_of_lt (by omega), Nat.add_zero]
  have e3 : count - 1 + 1 = count := by omega
  have hc : count - 1 < stride := by omega
  rw [List.getD_eq_getElem?_getD, List.getElem?_map, List.getElem?_range h3]
  simp only [Option.map_some, Option.getD_some]
  have hb : ∀ f : Nat → Bytes, ((List.range stride).map f).getD (count - 1) [] = f (count - 1) := by
    intro f
    rw [List.getD_eq_getElem?_getD, List.getElem?_map, List.getElem?_range hc]
    rfl
  rw [e1, e2, hb]
  rw [e3]
  have := bcryptRoundsFrom_getD pass salt count m 0 (Spec.bcryptChain pass salt count 0) i (bcryptHash_length _ _)
  unfold bcryptBlock
  dsimp only
  rw [Nat.add_sub_cancel]
  refine this.trans ?_
  rw [List.range_eq_range', List.range'_succ, List.foldl_cons, UInt8.zero_xor]

/-- A key of two blocks and three rounds: byte 3 is the second byte of the second block. -/
example (pass salt : Bytes) : (bcryptPbkdf pass salt 48 3).getD 3 0 =
    0 ^^^ (Spec.bcryptChain pass salt 2 0).getD 1 0 ^^^ (Spec.bcryptChain pass salt 2 1).getD 1 0 ^^^
      (Spec.bcryptChain pass salt 2 2).getD 1 0 :=
  (C104_bcrypt_layout pass salt 48 3 (by decide)).2 2 1 (by decide) (by decide) (by decide)

theorem turn_key : KeyPacks turnKey (words16 (sha512 (pb! "password"))) := by unfold KeyPacks; decide +kernel

theorem turn_salt : KeyPacks turnSalt (words16 (sha512 (pb! "salt" ++ natToBE 4 1))) := by unfold KeyPacks; decide +kernel

theorem turn0_eq : force (fastPi * 2 ^ 64) (fun S => fastExpand S turnSalt turnKey (fun S => Nat.beq S turn0)) = true := by decide +kernel

/-- A known answer of `bcrypt_pbkdf` as a whole: 32 bytes and one round for "password" and "salt", whose first hash it is (computed apart
from this model, by a program that with four rounds gives the published answer `5bbf0cc293587f1c…`). -/
theorem C104_bcrypt_vector : bcryptPbkdf (pb! "password") (pb! "salt") 32 1 =
    [122, 244, 20, 105, 229, 40, 96, 218, 73, 222, 191, 170, 106, 78, 18, 162, 203, 133, 123, 144, 123, 43, 178, 13, 41, 2, 169, 204, 212, 36, 173, 177] := by
  have h0 : Packs turn0 (blowfishLoop (words16 (sha512 (pb! "salt" ++ natToBE 4 1))) (words16 (sha512 (pb! "password"))) 0
      (blowfishExpand blowfishInit (words16 (sha512 (pb! "salt" ++ natToBE 4 1))) (words16 (sha512 (pb! "password"))))) :=
    packs_expand_to packs_pi turn_salt turn_key turn0_eq
  have h1 := packs_loop_to h0 turn_salt turn_key turn8_eq
  have h2 := packs_loop_to h1 turn_salt turn_key turn16_eq
  have h3 := packs_loop_to h2 turn_salt turn_key turn24_eq
  have h4 := packs_loop_to h3 turn_salt turn_key turn32_eq
  have h5 := packs_loop_to h4 turn_salt turn_key turn40_eq
  have h6 := packs_loop_to h5 turn_salt turn_key turn48_eq
  have h7 := packs_loop_to h6 turn_salt turn_key turn56_eq
  have h8 := packs_loop_to h7 turn_salt turn_key turn64_eq
  have h := bcryptHash_fast h8 (v := [122, 244, 20, 105, 229, 40, 96, 218, 73, 222, 191, 170, 106, 78, 18, 162, 203, 133, 123, 144, 123, 43, 178, 13, 41, 2, 169, 204, 212, 36, 173, 177]) (by decide +kernel)
  obtain ⟨l1, l2⟩ := C104_bcrypt_layout (pb! "password") (pb! "salt") 32 1 (by decide)
  refine List.ext_getElem (by rw [l1]; rfl) fun i hi1 hi2 => ?_
  have hi : i < 32 := by rw [l1] at hi1; exact hi1
  have := l2 1 i (by decide) (by decide) (by omega)
  rw [show i * ((32 + 31) / 32) + (1 - 1) = i by omega] at this
  rw [← List.getD_eq_getElem _ 0 hi1, this, ← List.getD_eq_getElem _ 0 hi2, ← h]
  exact UInt8.zero_xor

end OSK
