import Mathlib.Data.Set.Finite.List
import Verif.Props.StdCrypto
import Verif.Spec.Exact
/-
Encryption with the standard algorithms undoes decryption.
-/
namespace OSK
open Spec

instance : Finite UInt8 := Finite.of_injective UInt8.toFin (fun _ _ h => UInt8.toFin_inj.1 h)

/-- On the byte strings of a length, what has a left inverse has it as a right inverse. -/
theorem right_inverse {n : Nat} {E D : Bytes → Bytes} (hE : ∀ b, b.length = n → (E b).length = n) (hD : ∀ b, b.length = n → D (E b) = b)
    {b : Bytes} (h : b.length = n) : E (D b) = b := by
  have hf : Finite {l : List UInt8 | l.length = n} := List.finite_length_eq UInt8 n
  let f : {l : List UInt8 | l.length = n} → {l : List UInt8 | l.length = n} := fun x => ⟨E x.1, hE x.1 x.2⟩
  have hinj : Function.Injective f := by
    intro x y hxy
    have hxy : E x.1 = E y.1 := congrArg Subtype.val hxy
    apply Subtype.ext
    rw [← hD x.1 x.2, hxy, hD y.1 y.2]
  obtain ⟨a, ha⟩ := Finite.surjective_of_injective hinj ⟨b, h⟩
  have ha : E a.1 = b := congrArg Subtype.val ha
  rw [← ha, hD a.1 a.2]

theorem Std.encBlock_dec (alg : SymAlg) (key : Bytes) {b : Bytes} (h : b.length = Std.blockLength alg) :
    Std.encBlock alg key (Std.decBlock alg key b) = b :=
  right_inverse (fun _ hb => Std.encBlock_length alg key hb) (fun _ hb => Std.decBlock_enc alg key hb) h

theorem Std.cbcEnc_dec {n : Nat} {E D : Bytes → Bytes} (hD : ∀ b, b.length = n → (D b).length = n) (hE : ∀ b, b.length = n → E (D b) = b)
    (m : Nat) (prev b : Bytes) (h : b.length = n * m) : Std.cbcEnc n E m prev (Std.cbcDec n D m prev b) = b := by
  induction m generalizing prev b with
  | zero =>
    rw [Nat.mul_zero] at h
    rw [List.length_eq_zero_iff.1 h]
    rfl
  | succ m ih =>
    have h1 : (b.take n).length = n := by
      rw [List.length_take, h, Nat.mul_succ]
      omega
    have hl : (Std.xorBytes (D (b.take n)) prev).length = n := by rw [Std.xorBytes_length, hD _ h1]
    rw [Std.cbcDec, Std.cbcEnc, List.take_left' hl, List.drop_left' hl, Std.xorBytes_self, hE _ h1,
      ih _ _ (by rw [List.length_drop, h, Nat.mul_succ]; omega), List.take_append_drop]

theorem Std.symCrypt_reverse {alg : SymAlg} {mode : SymMode} {key iv x y : Bytes} (h : Std.symCrypt false alg mode key iv y = .ok x) :
    Std.symCrypt true alg mode key iv x = .ok y := by
  unfold Std.symCrypt at h ⊢
  by_cases hk : ¬ Std.keyAllowed alg key.length
  · rw [if_pos hk] at h; cases h
  · by_cases hi : iv.length ≠ Std.blockLength alg
    · rw [if_neg hk, if_pos hi] at h; cases h
    · rw [if_neg hk, if_neg hi] at h ⊢
      cases mode with
      | ctr =>
        cases alg with
        | aes =>
          cases h
          exact congrArg _ (Std.ctrCrypt_self _ _ _)
        | tripleDes => cases h
      | cbc =>
        dsimp only at h ⊢
        by_cases hm : y.length % Std.blockLength alg ≠ 0
        · rw [if_pos hm] at h; cases h
        · rw [if_neg hm, if_neg (by decide)] at h
          cases h
          have hy : y.length = Std.blockLength alg * (y.length / Std.blockLength alg) := by
            have := Nat.div_add_mod y.length (Std.blockLength alg)
            omega
          have hl := Std.cbcDec_length (fun b hb => Std.decBlock_length alg key hb) _ iv y hy
          rw [hl, ← hy, if_neg hm, if_pos rfl,
            Std.cbcEnc_dec (fun b hb => Std.decBlock_length alg key hb) (fun b hb => Std.encBlock_dec alg key hb) _ iv y hy]

theorem Std.gcm_reverse {key iv x y : Bytes} (h : Std.gcmDec key iv y = .ok x) : Std.gcmEnc key iv x = .ok y := by
  unfold Std.gcmDec at h
  unfold Std.gcmEnc
  by_cases hk : ¬ Std.gcmAllowed key iv
  · rw [if_pos hk] at h; cases h
  · rw [if_neg hk] at h ⊢
    by_cases hl : y.length < 16
    · rw [if_pos hl] at h; cases h
    · rw [if_neg hl] at h
      dsimp only at h ⊢
      by_cases ht : y.drop (y.length - 16) ≠ Std.gcmTag (Std.encBlock .aes key) iv (y.take (y.length - 16))
      · rw [if_pos ht] at h; cases h
      · rw [if_neg ht] at h
        cases h
        rw [Std.gcmCrypt_self, ← not_not.1 ht, List.take_append_drop]

attribute [local irreducible] Std.gcmEnc Std.gcmDec Std.symCrypt

/-- The standard algorithms have this property. -/
theorem reverse_std : ReverseLaws Std.crypto where
  sym h := by
    rw [Std.crypto_symDec] at h
    rw [Std.crypto_symEnc]
    exact Std.symCrypt_reverse h
  gcm h := by
    rw [Std.crypto_gcmDec] at h
    rw [Std.crypto_gcmEnc]
    exact Std.gcm_reverse h

/-- For the ciphers of the key file format. -/
theorem suite_reverse {cr : Crypto} (hr : ReverseLaws cr) {name : Str} {su : Suite} (h : (name, su) ∈ suites) {key iv x y : Bytes}
    (hd : su.dec cr key iv y = .ok x) : su.enc cr key iv x = .ok y := by
  simp only [suites, List.mem_cons, List.not_mem_nil, or_false, Prod.mk.injEq] at h
  rcases h with ⟨-, rfl⟩ | ⟨-, rfl⟩ | ⟨-, rfl⟩ | ⟨-, rfl⟩ | ⟨-, rfl⟩ | ⟨-, rfl⟩ | ⟨-, rfl⟩ | ⟨-, rfl⟩ | ⟨-, rfl⟩ | ⟨-, rfl⟩ | ⟨-, rfl⟩
  · exact hr.sym hd
  · exact hr.sym hd
  · exact hr.sym hd
  · exact hr.sym hd
  · exact hr.sym hd
  · exact hr.sym hd
  · exact hr.sym hd
  · exact hr.sym hd
  · exact hr.gcm hd
  · exact hr.gcm hd
  · dsimp only at hd ⊢
    unfold chachaOpen at hd
    unfold chachaSeal
    cases hc : cr.chacha (key.take 32) (List.replicate 16 0) with
    | error e => rw [hc] at hd; cases hd
    | ok ks =>
      rw [hc] at hd
      dsimp only at hd ⊢
      by_cases ht : cr.poly1305 (oneTimeKey ks) (y.take (y.length - 16)) = y.drop (y.length - 16)
      · rw [if_pos ht] at hd
        cases hd
        rw [xorStream_twice, ht, List.take_append_drop]
      · rw [if_neg ht] at hd
        cases hd

end OSK
