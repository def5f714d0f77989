import Verif.Props.KeyPairs
import Mathlib.Tactic.NormNum.Prime
/-
Cases for property C109.
-/
namespace OSK
open Spec OSK.Std

/-- A small RSA pair -/
theorem exRsaPair : RsaPair 11 5 7 9 3 55 where
  first := ⟨by decide, show Nat.Prime 11 by norm_num⟩
  second := ⟨by decide, show Nat.Prime 5 by norm_num⟩
  modulus := by decide
  publicExponent := by decide
  privateExponent := by decide
  undo₁ := by decide
  undo₂ := by decide
  inverse := by decide

/-- What the code checks for DSA says nothing about primes. -/
theorem exDsaPair : DsaPair (2 ^ 1023) (2 ^ 159) 2 32 5 where
  sizeP := ⟨1024, by decide, by constructor <;> decide +kernel⟩
  sizeQ := ⟨160, by decide, by constructor <;> decide +kernel⟩
  generator := by decide +kernel
  privateValue := by decide +kernel
  publicValue := by decide +kernel

/-- A library whose keys belong together -/
def exPairGen : Gen where
  rsa := fun _ _ => .ok ⟨11, 5, 7, 7, 3, 9, 3, 55⟩
  dsa := fun _ => .ok ⟨2 ^ 1023, 2 ^ 159, 2, 32, 5⟩
  ed25519 := .ok (List.replicate 32 9)
  ec := Std.ecGenerate (fun _ => 2)

theorem exPairGen_generates : Generates exPairGen where
  rsa := by
    rintro e size k ⟨⟩
    exact exRsaPair
  dsa := by
    rintro size k ⟨⟩
    exact exDsaPair
  ed := by
    rintro b ⟨⟩
    rfl
  ec := by
    intro t name ident oid c g x y d ht h hm hc
    refine C109_ec_generate (choice := fun _ => 2) ht h hm hc ?_
    have hn := (List.of_mem_zip hm).1
    simp only [nistCurves, List.mem_cons, List.not_mem_nil, or_false] at hn
    rcases hn with rfl | rfl | rfl <;> decide +kernel

theorem exOn {name : Str} {g : Group} (h : groupByName name = some g) (hp : (g.public 2).isSome = true) :
    ∃ o, asked.onCurve exPairGen name = .ok o := by
  obtain ⟨⟨x, y⟩, hq⟩ := Option.isSome_iff_exists.1 hp
  refine ⟨.ecPrivate name x y 2, ?_⟩
  unfold asked.onCurve exPairGen Std.ecGenerate
  dsimp only
  rw [h]
  dsimp only
  rw [hq]
  rfl

/-- The hypotheses of `C109_generated` are met, for every key type. -/
example (t : PlainType) : ∃ p, (generate exStd (Std.lib true) exPairGen t.name (py! "me") []).res = .ok p ∧
    BelongTogether t p.priv.params.data := by
  have h : ∃ o, asked exPairGen [] t = .ok o := by
    cases t with
    | rsa => exact ⟨_, rfl⟩
    | dss => exact ⟨_, rfl⟩
    | ed25519 => exact ⟨_, rfl⟩
    | ec256 => exact exOn (name := py! "secp256r1") (g := g256) rfl (by decide +kernel)
    | ec384 => exact exOn (name := py! "secp384r1") (g := g384) rfl (by decide +kernel)
    | ec521 => exact exOn (name := py! "secp521r1") (g := g521) rfl (by decide +kernel)
  obtain ⟨o, ho⟩ := h
  rcases generate_plain (C109_laws exStd rfl true exPairGen_generates) t (py! "me") [] with ⟨e, h1, _⟩ | ⟨o', v, h1, h2, h3⟩
  · rw [ho] at h1; cases h1
  · exact ⟨_, by rw [h3], (C109_generated exStd rfl true exPairGen_generates t (py! "me") [] _ (by rw [h3])).1⟩

/-- An RSA key that belongs together, and the same with another exponent -/
def exRsa (d : Int) : VDict := [(py! "n", .int 55), (py! "e", .int 3), (py! "d", .int d), (py! "iqmp", .int 9),
  (py! "p", .int 11), (py! "q", .int 5)]

example : BelongTogether .rsa (exRsa 7) := ⟨11, 5, 7, 9, 3, 55, exRsaPair, rfl, rfl, rfl, rfl, rfl, rfl⟩

example : ¬ BelongTogether .rsa (exRsa 9) := by
  rintro ⟨p, q, d, i, e, n, h, hp, hq, hd, hi, he, hn⟩
  cases hp
  cases hd
  cases he
  exact absurd h.undo₁ (by decide)

example : ∃ o, convertTo (Std.lib false) ⟨.rsaPriv, exRsa 7⟩ (some fun _ => true) = .ok o :=
  (C109_convert_partial false .rsa (by decide) .rsaPriv (paramsClass_plain .priv .rsa) _ _ (by simp)).2
    ⟨11, 5, 7, 9, 3, 55, exRsaPair, rfl, rfl, rfl, rfl, rfl, rfl⟩

/-- P-256: the private value 2 with the base point, which is that of 1 -/
def exEc (d : Int) : VDict := [(py! "identifier", .str (py! "nistp256")),
  (py! "q", .bytes (Std.encodePoint (py! "secp256r1") g256.gx g256.gy)), (py! "d", .int d)]

example : (∃ o, convertTo (Std.lib false) ⟨.ec256Priv, exEc 1⟩ (some (· == .ecPrivateKey)) = .ok o) ∧
    ∀ o, convertTo (Std.lib false) ⟨.ec256Priv, exEc 2⟩ (some (· == .ecPrivateKey)) ≠ .ok o := by
  constructor
  · exact ⟨.ecPrivate (py! "secp256r1") g256.gx g256.gy 1, by decide +kernel⟩
  · have h : convertTo (Std.lib false) ⟨.ec256Priv, exEc 2⟩ (some (· == .ecPrivateKey))
        = .error (.valueError "Invalid EC key.") := by decide +kernel
    simp [h]

end OSK
