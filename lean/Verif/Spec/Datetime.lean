import Verif.Std.Datetime
/-
What time zones are like, and what it is for clocks to show a time.
-/
namespace OSK.Spec
open OSK.Std

/-- The clocks on the wall show `w` at the moment `u`. -/
def Shows (z : Zone) (w u : Int) : Prop := u + z.off u = w

/-- The laws of a time zone: clocks are never more than a day off UTC, and in any three days they are changed
at most once, by at most a day. -/
structure ZoneLaws (z : Zone) : Prop where
  near : ∀ u, -86400 ≤ z.off u ∧ z.off u ≤ 86400
  once : ∀ w, ∃ T a b, -86400 ≤ b - a ∧ b - a ≤ 86400 ∧
    ∀ v, w ≤ v → v ≤ w + 259200 → z.off v = if v < T then a else b

/-- Well away (three days) from the beginning of the year 1 and the end of the year 9999. -/
def WellInside (x : Int) : Prop := -62135337600 ≤ x ∧ x ≤ 253402041599

/-- `a == b` for dates: a date without a time zone equals those without a time zone that have the same
fields (`fold` is not compared); with a time zone it is the moment that counts. -/
def SameDate : Datetime → Datetime → Prop
  | .naive s us _, .naive s' us' _ => s = s' ∧ us = us'
  | .aware s us o, .aware s' us' o' => s * 1000000 + us - o = s' * 1000000 + us' - o'
  | _, _ => False

end OSK.Spec
