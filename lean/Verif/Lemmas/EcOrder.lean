import Verif.Lemmas.EcFast
import Mathlib.GroupTheory.OrderOfElement

/-!
The base points of the curves have prime order: certificates of primality after Pratt for the orders, and the
multiples of the base points by the orders, which the kernel computes.
-/

namespace OSK
open Spec OSK.Std

namespace Std

/-- The certificates of the orders. -/
def orderCertificate : List (Nat × Nat × List Nat) := [
  (107, 2, [2, 53]),
  (109, 6, [2, 2, 3, 3, 3]),
  (113, 3, [2, 2, 2, 2, 7]),
  (127, 3, [2, 3, 3, 7]),
  (131, 2, [2, 5, 13]),
  (149, 2, [2, 2, 37]),
  (151, 6, [2, 3, 5, 5]),
  (157, 5, [2, 2, 3, 13]),
  (163, 2, [2, 3, 3, 3, 3]),
  (173, 2, [2, 2, 43]),
  (179, 2, [2, 89]),
  (181, 2, [2, 2, 3, 3, 5]),
  (191, 19, [2, 5, 19]),
  (193, 5, [2, 2, 2, 2, 2, 2, 3]),
  (227, 2, [2, 113]),
  (229, 6, [2, 2, 3, 19]),
  (233, 3, [2, 2, 2, 29]),
  (241, 7, [2, 2, 2, 2, 3, 5]),
  (251, 6, [2, 5, 5, 5]),
  (257, 3, [2, 2, 2, 2, 2, 2, 2, 2]),
  (263, 5, [2, 131]),
  (277, 5, [2, 2, 3, 23]),
  (281, 3, [2, 2, 2, 5, 7]),
  (311, 17, [2, 5, 31]),
  (337, 10, [2, 2, 2, 2, 3, 7]),
  (347, 2, [2, 173]),
  (373, 2, [2, 2, 3, 31]),
  (421, 2, [2, 2, 3, 5, 7]),
  (491, 2, [2, 5, 7, 7]),
  (547, 2, [2, 3, 7, 13]),
  (593, 3, [2, 2, 2, 2, 37]),
  (641, 3, [2, 2, 2, 2, 2, 2, 2, 5]),
  (653, 2, [2, 2, 163]),
  (659, 2, [2, 7, 47]),
  (727, 5, [2, 3, 11, 11]),
  (811, 3, [2, 3, 3, 3, 3, 5]),
  (877, 2, [2, 2, 3, 73]),
  (881, 3, [2, 2, 2, 2, 5, 11]),
  (1087, 3, [2, 3, 181]),
  (1117, 2, [2, 2, 3, 3, 31]),
  (1187, 2, [2, 593]),
  (1201, 11, [2, 2, 2, 2, 3, 5, 5]),
  (1283, 2, [2, 641]),
  (1297, 10, [2, 2, 2, 2, 3, 3, 3, 3]),
  (1511, 11, [2, 5, 151]),
  (1543, 5, [2, 3, 257]),
  (1553, 3, [2, 2, 2, 2, 97]),
  (3023, 5, [2, 1511]),
  (3407, 5, [2, 13, 131]),
  (3739, 7, [2, 3, 7, 89]),
  (4349, 2, [2, 2, 1087]),
  (5449, 7, [2, 2, 2, 3, 227]),
  (6043, 5, [2, 3, 19, 53]),
  (8699, 2, [2, 4349]),
  (9227, 2, [2, 7, 659]),
  (9547, 2, [2, 3, 37, 43]),
  (10861, 2, [2, 2, 3, 5, 181]),
  (14461, 2, [2, 2, 3, 5, 241]),
  (15601, 23, [2, 2, 2, 2, 3, 5, 5, 13]),
  (16879, 3, [2, 3, 29, 97]),
  (16979, 2, [2, 13, 653]),
  (17293, 7, [2, 2, 3, 11, 131]),
  (17449, 14, [2, 2, 2, 3, 727]),
  (17467, 3, [2, 3, 41, 71]),
  (20341, 2, [2, 2, 3, 3, 5, 113]),
  (34429, 2, [2, 2, 3, 19, 151]),
  (37447, 3, [2, 3, 79, 79]),
  (38189, 2, [2, 2, 9547]),
  (64901, 2, [2, 2, 5, 5, 11, 59]),
  (65677, 2, [2, 2, 3, 13, 421]),
  (92581, 6, [2, 2, 3, 5, 1543]),
  (104471, 11, [2, 5, 31, 337]),
  (126241, 7, [2, 2, 2, 2, 2, 3, 5, 263]),
  (133279, 3, [2, 3, 97, 229]),
  (155317, 5, [2, 2, 3, 7, 43, 43]),
  (161969, 3, [2, 2, 2, 2, 53, 191]),
  (248431, 3, [2, 3, 5, 7, 7, 13, 13]),
  (330563, 2, [2, 19, 8699]),
  (370471, 3, [2, 3, 5, 53, 233]),
  (455737, 11, [2, 2, 2, 3, 17, 1117]),
  (495527, 5, [2, 41, 6043]),
  (777241, 7, [2, 2, 2, 3, 3, 5, 17, 127]),
  (1276987, 2, [2, 3, 29, 41, 179]),
  (3969899, 2, [2, 19, 104471]),
  (6937379, 2, [2, 7, 495527]),
  (8196883, 2, [2, 3, 79, 17293]),
  (8463023, 5, [2, 113, 37447]),
  (9350987, 2, [2, 17, 229, 1201]),
  (9863677, 5, [2, 2, 3, 3, 311, 881]),
  (10577321, 17, [2, 2, 2, 5, 13, 20341]),
  (10924559, 7, [2, 59, 92581]),
  (19353437, 2, [2, 2, 277, 17467]),
  (154950581, 2, [2, 2, 5, 17, 455737]),
  (186406729, 7, [2, 2, 2, 3, 61, 157, 811]),
  (187019741, 2, [2, 2, 5, 9350987]),
  (191039911, 3, [2, 3, 5, 41, 155317]),
  (272109983, 5, [2, 19, 73, 233, 421]),
  (290064143, 5, [2, 79, 491, 3739]),
  (311245691, 2, [2, 5, 7, 17, 29, 29, 311]),
  (622491383, 5, [2, 311245691]),
  (1458105463, 3, [2, 3, 3, 3, 3, 3, 11, 311, 877]),
  (101785224689, 3, [2, 2, 2, 2, 7, 131, 6937379]),
  (228572385721, 23, [2, 2, 2, 3, 5, 7, 272109983]),
  (1002328039319, 19, [2, 126241, 3969899]),
  (1436833069313, 3, [2, 2, 2, 2, 2, 2, 2, 2, 16979, 330563]),
  (23314383343543, 3, [2, 3, 17, 228572385721]),
  (37344768852931, 3, [2, 3, 5, 7, 11, 11, 149, 9863677]),
  (43800962361397, 6, [2, 2, 3, 41, 10861, 8196883]),
  (55942463741690639, 7, [2, 7, 107, 37344768852931]),
  (60018716061994831, 7, [2, 3, 5, 7, 19, 777241, 19353437]),
  (208150935158385979, 2, [2, 3, 11, 43, 127, 3023, 191039911]),
  (88599952463812275001, 11, [2, 2, 2, 3, 5, 5, 5, 5, 5, 19, 281, 1187, 186406729]),
  (426632512014427833817, 11, [2, 2, 2, 3, 13, 89, 659, 23314383343543]),
  (3473195323567808068309, 2, [2, 2, 3, 3, 13, 19, 59, 9227, 65677, 10924559]),
  (4239602065187190872179, 2, [2, 3, 61, 193, 60018716061994831]),
  (120699720968197491947347, 3, [2, 3, 13, 34429, 154950581, 290064143]),
  (1647781915921980690468599, 13, [2, 17, 547, 88599952463812275001]),
  (1124679999981664229965379347, 2, [2, 3, 1553, 120699720968197491947347]),
  (1495199339761412565498084319, 6, [2, 3, 3, 3, 64901, 426632512014427833817]),
  (2624747550333869278416773953, 7, [2, 2, 2, 2, 2, 2, 3, 3, 1297, 16879, 208150935158385979]),
  (17942392077136950785977011829, 6, [2, 2, 3, 1495199339761412565498084319]),
  (144471089338257942164514676806340723, 11, [2, 3, 3, 11, 109, 14461, 133279, 3473195323567808068309]),
  (7427946019382605513260578233234962521, 3, [2, 2, 2, 5, 43800962361397, 4239602065187190872179]),
  (15994076126984618329123851002118749004583184815459808099, 2, [2, 10577321, 101785224689,
   7427946019382605513260578233234962521]),
  (1059392654943455286185473617842338478315215895509773412096307, 2, [2, 251, 248431, 8463023, 55942463741690639,
   17942392077136950785977011829]),
  (115792089210356248762697446949407573529996955224135760342422259061068512044369, 7, [2, 2, 2, 2, 3, 71, 131, 373,
   3407, 17449, 38189, 187019741, 622491383, 1002328039319, 2624747550333869278416773953]),
  (3055465788140352002733946906144561090641249606160407884365391979704929268480326390471, 12, [2, 3, 5, 151, 347,
   1276987, 1436833069313, 1059392654943455286185473617842338478315215895509773412096307]),
  (3636410625392624440351547907325502812950802686368714273274221490761556277859337865760708490235892541081304511,
   19, [2, 5, 19, 263, 5449, 15601, 370471, 144471089338257942164514676806340723,
   15994076126984618329123851002118749004583184815459808099]),
  (39402006196394479212279040100143613805079739270465446667946905279627659399113263569398956308152294913554433653942643,
   2, [2, 3, 3, 7, 7, 13, 1124679999981664229965379347,
   3055465788140352002733946906144561090641249606160407884365391979704929268480326390471]),
  (3615194794881930010216942559103847593050265703173292383701371712350878926821661243755933835426896058418509759880171943,
   3, [2, 3, 3, 11, 31, 161969,
   3636410625392624440351547907325502812950802686368714273274221490761556277859337865760708490235892541081304511]),
  (6864797660130609714981900799081393217269435300143305409394463459185543183397655394245057746333217197532963996371363321113864768612440380340372808892707005449,
   3, [2, 2, 2, 7, 11, 1283, 1458105463, 1647781915921980690468599,
   3615194794881930010216942559103847593050265703173292383701371712350878926821661243755933835426896058418509759880171943])]

theorem orderCertificate_checked : prattCheck smallPrimes orderCertificate = true := by decide +kernel

/-- What the theorems about a group rely on. -/
structure Group.Good (g : Group) : Prop where
  curve : g.curve.Good
  smooth : 27 * g.curve.b * g.curve.b % g.curve.p ≠ 108 % g.curve.p
  sixteen : 16 < g.curve.p
  x : g.gx < g.curve.p
  y : g.gy < g.curve.p
  equation : g.gy * g.gy % g.curve.p = g.curve.rhs g.gx

/-- What the theorems about all private values rely on. -/
structure Group.Cyclic (g : Group) : Prop where
  prime : g.order.Prime
  infinity : (g.curve.jmul g.order g.gx g.gy).2.2 = 0

theorem g256_good : g256.Good where
  curve := p256_good
  smooth := by decide +kernel
  sixteen := by decide +kernel
  x := by decide +kernel
  y := by decide +kernel
  equation := by decide +kernel

theorem g256_cyclic : g256.Cyclic where
  prime := by
    have h := primes_of_prattCheck smallPrimes_prime orderCertificate_checked
    obtain ⟨e, he, h2⟩ : ∃ e ∈ orderCertificate, e.1 = g256.order := by decide +kernel
    exact h2 ▸ h e he
  infinity := by decide +kernel

theorem g384_good : g384.Good where
  curve := p384_good
  smooth := by decide +kernel
  sixteen := by decide +kernel
  x := by decide +kernel
  y := by decide +kernel
  equation := by decide +kernel

theorem g384_cyclic : g384.Cyclic where
  prime := by
    have h := primes_of_prattCheck smallPrimes_prime orderCertificate_checked
    obtain ⟨e, he, h2⟩ : ∃ e ∈ orderCertificate, e.1 = g384.order := by decide +kernel
    exact h2 ▸ h e he
  infinity := by decide +kernel

theorem g521_good : g521.Good where
  curve := p521_good
  smooth := by decide +kernel
  sixteen := by decide +kernel
  x := by decide +kernel
  y := by decide +kernel
  equation := by decide +kernel

theorem g521_cyclic : g521.Cyclic where
  prime := by
    have h := primes_of_prattCheck smallPrimes_prime orderCertificate_checked
    obtain ⟨e, he, h2⟩ : ∃ e ∈ orderCertificate, e.1 = g521.order := by decide +kernel
    exact h2 ▸ h e he
  infinity := by decide +kernel

end Std
end OSK
