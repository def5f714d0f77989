import Verif.Spec.Datetime
import Mathlib.Data.Rat.Floor
import Mathlib.Tactic.Linarith
import Mathlib.Tactic.NormNum
import Mathlib.Tactic.Positivity
/-
Lemmas about dates and time zones.
-/
namespace OSK
open Spec OSK.Std

theorem wall_eq {z : Zone} {u w : Int} (h : z.wall u = .ok w) : w = u + z.off u := by
  unfold Zone.wall at h
  dsimp only at h
  split at h
  · exact (Except.ok.inj h).symm
  · cases h

theorem wall_ok {z : Zone} {u : Int} (h1 : -62135596800 ≤ u + z.off u) (h2 : u + z.off u ≤ 253402300799) :
    z.wall u = .ok (u + z.off u) := by
  unfold Zone.wall minSecs maxSecs
  dsimp only
  rw [if_pos ⟨h1, h2⟩]

/-- `local_to_seconds` where no year is out of range. -/
def plainTo (z : Zone) (t : Int) (fold : Bool) : Int :=
  if z.off (t - z.off t) = z.off t then
    if z.off t = z.off (if fold then t - z.off t + 86400 else t - z.off t - 86400) then t - z.off t
    else if z.off (t - z.off (if fold then t - z.off t + 86400 else t - z.off t - 86400)) =
        z.off (if fold then t - z.off t + 86400 else t - z.off t - 86400) then
      t - z.off (if fold then t - z.off t + 86400 else t - z.off t - 86400)
    else t - z.off t
  else if z.off (t - z.off (t - z.off t)) = z.off (t - z.off t) then t - z.off (t - z.off t)
  else if fold then min (t - z.off t) (t - z.off (t - z.off t)) else max (t - z.off t) (t - z.off (t - z.off t))

theorem toSeconds_plain {z : Zone} {t s : Int} {fold : Bool} (h : z.toSeconds t fold = .ok s) :
    s = plainTo z t fold := by
  unfold Zone.toSeconds day at h
  rcases h1 : z.wall t with e | lt <;> rw [h1] at h
  · cases h
  have e1 := wall_eq h1
  subst e1
  change (do
    let t1 ← z.wall (t - (t + z.off t - t))
    _) = _ at h
  rw [show t - (t + z.off t - t) = t - z.off t by omega, show t + z.off t - t = z.off t by omega] at h
  rcases h2 : z.wall (t - z.off t) with e | t1 <;> rw [h2] at h
  · cases h
  have e2 := wall_eq h2
  subst e2
  change (if _ then _ else _ : Except Exn Int) = _ at h
  unfold plainTo
  by_cases c1 : z.off (t - z.off t) = z.off t
  · rw [if_pos c1]
    rw [if_pos (by omega)] at h
    change (do
      let lt ← z.wall (if fold then t - z.off t + 86400 else t - z.off t - 86400)
      _) = _ at h
    generalize (if fold then t - z.off t + 86400 else t - z.off t - 86400) = q at h ⊢
    rcases h3 : z.wall q with e | lt <;> rw [h3] at h
    · cases h
    have e3 := wall_eq h3
    subst e3
    change (if _ then _ else _ : Except Exn Int) = _ at h
    rw [show q + z.off q - q = z.off q by omega] at h
    by_cases c2 : z.off t = z.off q
    · rw [if_pos c2] at h ⊢
      exact (Except.ok.inj h).symm
    · rw [if_neg c2] at h ⊢
      rcases h4 : z.wall (t - z.off q) with e | t2 <;> rw [h4] at h
      · cases h
      have e4 := wall_eq h4
      subst e4
      change (if _ then _ else _ : Except Exn Int) = _ at h
      by_cases c3 : z.off (t - z.off q) = z.off q
      · rw [if_pos c3]
        rw [if_pos (by omega)] at h
        exact (Except.ok.inj h).symm
      · rw [if_neg c3]
        rw [if_neg (by omega)] at h
        exact (Except.ok.inj h).symm
  · rw [if_neg c1]
    rw [if_neg (by omega), show t - z.off t + z.off (t - z.off t) - (t - z.off t) = z.off (t - z.off t) by omega] at h
    generalize z.off (t - z.off t) = b at h ⊢
    rcases h4 : z.wall (t - b) with e | t2 <;> rw [h4] at h
    · cases h
    have e4 := wall_eq h4
    subst e4
    change (if _ then _ else _ : Except Exn Int) = _ at h
    by_cases c3 : z.off (t - b) = b
    · rw [if_pos c3]
      rw [if_pos (by omega)] at h
      exact (Except.ok.inj h).symm
    · rw [if_neg c3]
      rw [if_neg (by omega)] at h
      exact (Except.ok.inj h).symm

/-- Well inside the years there are moments for all times. -/
theorem toSeconds_inside {z : Zone} (hz : ZoneLaws z) {t : Int} (ht : WellInside t) (fold : Bool) :
    z.toSeconds t fold = .ok (plainTo z t fold) := by
  have key : ∃ s, z.toSeconds t fold = .ok s := by
    unfold WellInside at ht
    unfold Zone.toSeconds day
    have n1 := hz.near t
    rw [wall_ok (z := z) (u := t) (by omega) (by omega)]
    simp only [bind, Except.bind]
    rw [show t - (t + z.off t - t) = t - z.off t by omega, show t + z.off t - t = z.off t by omega]
    have n2 := hz.near (t - z.off t)
    rw [wall_ok (z := z) (u := t - z.off t) (by omega) (by omega)]
    dsimp only
    split
    · have hq : t - z.off t - 86400 ≤ (if fold then t - z.off t + 86400 else t - z.off t - 86400) ∧
          (if fold then t - z.off t + 86400 else t - z.off t - 86400) ≤ t - z.off t + 86400 := by
        split <;> omega
      generalize (if fold then t - z.off t + 86400 else t - z.off t - 86400) = q at hq ⊢
      have n3 := hz.near q
      rw [wall_ok (z := z) (u := q) (by omega) (by omega)]
      dsimp only
      split
      · exact ⟨_, rfl⟩
      · rw [show q + z.off q - q = z.off q by omega]
        have n4 := hz.near (t - z.off q)
        rw [wall_ok (z := z) (u := t - z.off q) (by omega) (by omega)]
        dsimp only
        split <;> exact ⟨_, rfl⟩
    · rw [show t - z.off t + z.off (t - z.off t) - (t - z.off t) = z.off (t - z.off t) by omega]
      have n4 := hz.near (t - z.off (t - z.off t))
      rw [wall_ok (z := z) (u := t - z.off (t - z.off t)) (by omega) (by omega)]
      dsimp only
      split <;> exact ⟨_, rfl⟩
  obtain ⟨s, hs⟩ := key
  rw [hs, toSeconds_plain hs]

/-- In three days there are two offsets, the first before the second. -/
theorem once' {z : Zone} (hz : ZoneLaws z) (w : Int) : ∃ T a b, -86400 ≤ b - a ∧ b - a ≤ 86400 ∧
    ∀ v, w ≤ v → v ≤ w + 259200 → (v < T ∧ z.off v = a) ∨ (T ≤ v ∧ z.off v = b) := by
  obtain ⟨T, a, b, h1, h2, h⟩ := hz.once w
  refine ⟨T, a, b, h1, h2, fun v h3 h4 => ?_⟩
  have := h v h3 h4
  split at this
  · exact Or.inl ⟨by assumption, this⟩
  · exact Or.inr ⟨by omega, this⟩

/-- The moment found shows the time and is the first, if one wants the first and there is any. -/
theorem plainTo_first {z : Zone} (hz : ZoneLaws z) {t j : Int} (hj : Shows z t j) :
    Shows z t (plainTo z t false) ∧ plainTo z t false ≤ j := by
  unfold Shows at *
  obtain ⟨T, a, b, hs1, hs2, h⟩ := once' hz (j - 172800)
  have nj := hz.near j
  have nt := hz.near t
  have hj' := h j (by omega) (by omega)
  have ht' := h t (by omega) (by omega)
  have hu := h (t - z.off t) (by omega) (by omega)
  have hq := h (t - z.off t - 86400) (by omega) (by omega)
  have hp := h (t - z.off (t - z.off t - 86400)) (by omega) (by omega)
  have hr := h (t - z.off (t - z.off t)) (by omega) (by omega)
  unfold plainTo
  simp only [Bool.false_eq_true, if_false]
  generalize e1 : z.off t = o1 at *
  generalize e2 : z.off (t - o1) = o2 at *
  generalize e3 : z.off (t - o1 - 86400) = o3 at *
  generalize e4 : z.off (t - o3) = o4 at *
  generalize e5 : z.off (t - o2) = o5 at *
  split
  · split
    · rw [e2]; omega
    · split
      · rw [e4]; omega
      · rw [e2]; omega
  · split
    · rw [e5]; omega
    · omega

/-- The moment found shows the time and is the last, if one wants the last and there is any. -/
theorem plainTo_last {z : Zone} (hz : ZoneLaws z) {t j : Int} (hj : Shows z t j) :
    Shows z t (plainTo z t true) ∧ j ≤ plainTo z t true := by
  unfold Shows at *
  obtain ⟨T, a, b, hs1, hs2, h⟩ := once' hz (j - 86400)
  have nj := hz.near j
  have nt := hz.near t
  have hj' := h j (by omega) (by omega)
  have ht' := h t (by omega) (by omega)
  have hu := h (t - z.off t) (by omega) (by omega)
  have hq := h (t - z.off t + 86400) (by omega) (by omega)
  have hp := h (t - z.off (t - z.off t + 86400)) (by omega) (by omega)
  have hr := h (t - z.off (t - z.off t)) (by omega) (by omega)
  unfold plainTo
  simp only [if_true]
  generalize e1 : z.off t = o1 at *
  generalize e2 : z.off (t - o1) = o2 at *
  generalize e3 : z.off (t - o1 + 86400) = o3 at *
  generalize e4 : z.off (t - o3) = o4 at *
  generalize e5 : z.off (t - o2) = o5 at *
  split
  · split
    · rw [e2]; omega
    · split
      · rw [e4]; omega
      · rw [e2]; omega
  · split
    · rw [e5]; omega
    · omega

/-- Where clocks are put forward over a time, the moment found is one at which they show a later time, or an
earlier one if `fold` is set. -/
theorem plainTo_gap {z : Zone} (hz : ZoneLaws z) {t : Int} (hj : ¬∃ j, Shows z t j) (fold : Bool) :
    if fold then plainTo z t fold + z.off (plainTo z t fold) < t else t < plainTo z t fold + z.off (plainTo z t fold) := by
  obtain ⟨T, a, b, hs1, hs2, h⟩ := once' hz (t - 86400)
  have nt := hz.near t
  have ht' := h t (by omega) (by omega)
  have hu := h (t - z.off t) (by omega) (by omega)
  have hn := hz.near (t - z.off t)
  have hr := h (t - z.off (t - z.off t)) (by omega) (by omega)
  have g1 : z.off (t - z.off t) ≠ z.off t := fun e => hj ⟨t - z.off t, by unfold Shows; omega⟩
  have g2 : z.off (t - z.off (t - z.off t)) ≠ z.off (t - z.off t) :=
    fun e => hj ⟨t - z.off (t - z.off t), by unfold Shows; omega⟩
  unfold plainTo
  rw [if_neg g1, if_neg g2]
  generalize e1 : z.off t = o1 at *
  generalize e2 : z.off (t - o1) = o2 at *
  generalize e5 : z.off (t - o2) = o5 at *
  rcases fold with _ | _
  · simp only [Bool.false_eq_true, if_false]
    rcases le_total (t - o1) (t - o2) with c | c
    · rw [max_eq_right c, e5]; omega
    · rw [max_eq_left c, e2]; omega
  · simp only [if_true]
    rcases le_total (t - o1) (t - o2) with c | c
    · rw [min_eq_left c, e2]; omega
    · rw [min_eq_right c, e5]; omega

/-- `fold` of a date that was read: the clocks have shown the same before. -/
def plainFold (z : Zone) (i : Int) : Bool :=
  decide (z.off i - z.off (i - 86400) < 0 ∧
    z.off (i + (z.off i - z.off (i - 86400))) = z.off (i - 86400))

theorem plainFold_iff {z : Zone} (hz : ZoneLaws z) (i : Int) :
    plainFold z i = true ↔ ∃ j, j < i ∧ Shows z (i + z.off i) j := by
  unfold plainFold Shows
  rw [decide_eq_true_iff]
  constructor
  · rintro ⟨h1, h2⟩
    exact ⟨i + (z.off i - z.off (i - 86400)), by omega, by omega⟩
  · rintro ⟨j, h1, h2⟩
    obtain ⟨T, a, b, hs1, hs2, h⟩ := once' hz (i - 172800)
    have n1 := hz.near i
    have n2 := hz.near j
    have hi := h i (by omega) (by omega)
    have hj := h j (by omega) (by omega)
    have hd := h (i - 86400) (by omega) (by omega)
    have hp := h (i + (z.off i - z.off (i - 86400))) (by omega) (by omega)
    omega

theorem fromSeconds_plain {z : Zone} {i : Int} {d : Datetime} (h : z.fromSeconds i = .ok d) :
    d = .naive (i + z.off i) 0 (plainFold z i) ∧ i + z.off i ≤ 253402300799 ∧ -62135596800 ≤ i + z.off i := by
  unfold Zone.fromSeconds day at h
  split at h
  · cases h
  rcases h1 : z.wall i with e | w <;> rw [h1] at h
  · cases h
  rcases h2 : z.wall (i - 86400) with e | p <;> simp only [h2, bind, Except.bind] at h
  · cases h
  have e1 := wall_eq h1
  have e2 := wall_eq h2
  have r : i + z.off i ≤ 253402300799 ∧ -62135596800 ≤ i + z.off i := by
    unfold Zone.wall minSecs maxSecs at h1
    dsimp only at h1
    split at h1
    · omega
    · cases h1
  refine ⟨?_, r⟩
  subst e1 e2
  rw [show i + z.off i - (i - 86400 + z.off (i - 86400)) - 86400 = z.off i - z.off (i - 86400) by omega] at h
  unfold plainFold
  split at h
  · rcases h3 : z.wall (i + (z.off i - z.off (i - 86400))) with e | q <;> simp only [h3] at h
    · cases h
    have e3 := wall_eq h3
    rw [← Except.ok.inj h]
    congr 1
    rw [Bool.eq_iff_iff, beq_iff_eq, decide_eq_true_iff]
    omega
  · rw [← Except.ok.inj h]
    congr 1
    rw [Bool.eq_iff_iff, decide_eq_true_iff]
    simp only [Bool.false_eq_true, false_iff]
    omega

theorem fromSeconds_inside {z : Zone} (hz : ZoneLaws z) {i : Int} (hi : -62135251200 ≤ i ∧ i ≤ 253402214399) :
    z.fromSeconds i = .ok (.naive (i + z.off i) 0 (plainFold z i)) := by
  have key : ∃ d, z.fromSeconds i = .ok d := by
    unfold Zone.fromSeconds day
    have n1 := hz.near i
    have n2 := hz.near (i - 86400)
    have n3 := hz.near (i + (z.off i - z.off (i - 86400)))
    rw [if_neg (by omega), wall_ok (z := z) (u := i) (by omega) (by omega),
      wall_ok (z := z) (u := i - 86400) (by omega) (by omega)]
    simp only [bind, Except.bind]
    rw [show i + z.off i - (i - 86400 + z.off (i - 86400)) - 86400 = z.off i - z.off (i - 86400) by omega]
    split
    · rw [wall_ok (z := z) (u := i + (z.off i - z.off (i - 86400))) (by omega) (by omega)]
      exact ⟨_, rfl⟩
    · exact ⟨_, rfl⟩
  obtain ⟨d, hd⟩ := key
  rw [hd, (fromSeconds_plain hd).1]

/-- The moment found for a date that was read is the one it was read from. -/
theorem plainTo_plainFold {z : Zone} (hz : ZoneLaws z) (i : Int) : plainTo z (i + z.off i) (plainFold z i) = i := by
  have hi : Shows z (i + z.off i) i := rfl
  rcases hf : plainFold z i with _ | _
  · obtain ⟨h1, h2⟩ := plainTo_first hz hi
    by_contra hne
    have := (plainFold_iff hz i).2 ⟨_, lt_of_le_of_ne h2 hne, h1⟩
    rw [hf] at this
    cases this
  · obtain ⟨h1, h2⟩ := plainTo_last hz hi
    obtain ⟨j, hj, hs⟩ := (plainFold_iff hz i).1 hf
    generalize plainTo z (i + z.off i) true = s at *
    unfold Shows at *
    obtain ⟨T, a, b, hs1, hs2, h⟩ := once' hz (i - 172800)
    have n1 := hz.near i
    have n2 := hz.near j
    have n3 := hz.near s
    have a1 := h i (by omega) (by omega)
    have a2 := h j (by omega) (by omega)
    obtain ⟨T', a', b', hs1', hs2', h'⟩ := once' hz (i - 86400)
    have b1 := h' i (by omega) (by omega)
    have b2 := h' j (by omega) (by omega)
    have b3 := h' s (by omega) (by omega)
    omega

/-- Whole numbers of up to 53 binary digits are `float`s. -/
theorem double_int (n : Int) (h : n.natAbs < 2 ^ 53) : double (n : Rat) = n := by
  unfold double
  split
  · rename_i h0; rw [h0]
  · rename_i h0
    have hn : n ≠ 0 := by exact_mod_cast h0
    have hp : n.natAbs ≠ 0 := by omega
    have hl : Nat.log2 n.natAbs < 53 := (Nat.log2_lt hp).2 h
    have he : exponent (n : Rat) = (Nat.log2 n.natAbs : Int) := by
      unfold exponent
      have l1 : Nat.log2 1 = 0 := by decide +kernel
      simp only [Rat.num_intCast, Rat.den_intCast, l1]
      rw [if_pos]
      · omega
      · have := Nat.log2_self_le hp
        simp only [Nat.cast_one, mul_one, Nat.cast_zero, sub_zero, Int.toNat_natCast]
        rw [show (-(n.natAbs.log2 : Int)).toNat = 0 by omega, pow_zero, mul_one]
        exact_mod_cast this
    dsimp only
    rw [he]
    generalize Nat.log2 n.natAbs = l at *
    have hk : (0 : Int) ≤ 52 - (l : Int) := by omega
    have h1 : scale (n : Rat) (52 - l) = ((n * 2 ^ (52 - (l : Int)).toNat : Int) : Rat) := by
      unfold scale
      rw [if_pos hk]
      push_cast
      rfl
    rw [h1]
    have h2 : ∀ m : Int, halfEven (m : Rat) = m := by
      intro m
      unfold halfEven
      have : Rat.floor (m : Rat) = m := Rat.floor_intCast m
      dsimp only
      rw [this, if_pos (by rw [sub_self]; norm_num)]
    rw [h2]
    unfold scale
    by_cases hl2 : l = 52
    · subst hl2; norm_num
    · rw [if_neg (by omega), neg_neg]
      push_cast
      exact mul_div_cancel_right₀ _ (by positivity)

theorem truncate_int (n : Int) : truncate (n : Rat) = n := by
  unfold truncate
  simp

end OSK
