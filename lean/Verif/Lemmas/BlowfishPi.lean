import Verif.Props.StdPi
import Verif.Lemmas.BlowfishFast
/-
The initial state of Blowfish as one large number.
-/
namespace OSK.Std

/-- The digits of π. -/
def fastPi : Nat :=
  (16 * arctanPart 33408 5 1 12 0 + 4 * arctanPart 33408 239 3 12 0 -
    (16 * arctanPart 33408 5 3 12 0 + 4 * arctanPart 33408 239 1 12 0)) / 2 ^ 64 % 2 ^ 33344

theorem packs_pi : Packs (fastPi * 2 ^ 64) blowfishInit := by
  refine ⟨C104_blowfish_pi.1, fun i hi => ?_⟩
  have hp : ∀ n, n = 33344 → piBits n = fastPi := by
    intro n hn
    have h64 : n + 64 = 33408 := by omega
    unfold piBits fastPi
    rw [h64, pi_parts, hn]
  obtain ⟨n, hn⟩ : ∃ n, n = 33344 := ⟨_, rfl⟩
  rw [blowfishInit_word hi n hn, hp n hn, UInt32.toNat_ofNat']
  unfold stateWord wordBefore
  have e : 2 ^ (32 * (1043 - i)) = 2 ^ 64 * 2 ^ (32 * (1041 - i)) := by
    rw [← pow_add]
    congr 1
    omega
  rw [Nat.shiftRight_eq_div_pow, e, ← Nat.div_div_eq_div_mul, Nat.mul_div_cancel _ (by positivity)]

end OSK.Std
