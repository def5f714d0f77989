import Verif.Model.Validity
/-
What is assumed of `datetime`.
-/
namespace OSK.Spec

/-- The laws of a clock: the date for a number of seconds has that timestamp, or none, as near the end of the
year 9999; until four days before that it has one; there are no dates after the year 9999 (with room for the
time zone).  `Std.Zone.clock` is a clock with these laws (`C112_laws`). -/
structure ClockLaws (clock : Clock) : Prop where
  back : ∀ {i : Int} {t}, clock.fromTimestamp (.int i) = .ok t →
    clock.timestamp t = .ok i ∨ ∃ e, clock.timestamp t = .error e
  inside : ∀ {i : Int} {t}, 0 ≤ i → i < 253401955200 → clock.fromTimestamp (.int i) = .ok t →
    clock.timestamp t = .ok i
  last : ∀ i : Int, 253402387200 ≤ i → ∃ e, clock.fromTimestamp (.int i) = .error e

end OSK.Spec
