import Mathlib.Data.Rat.Floor
import Mathlib.Tactic.Linarith
import Verif.Spec.Validity
import Verif.Lemmas.Dict
/-
Property C70: validity dates of certificates.
-/
namespace OSK
open Spec

theorem truncate_nonneg {x : Rat} (h : 0 ≤ x) : (truncate x : Rat) ≤ x ∧ x < truncate x + 1 := by
  have : truncate x = ⌊x⌋ := by
    unfold truncate
    rw [Int.tdiv_eq_ediv_of_nonneg (Rat.num_nonneg.2 h)]
    exact Rat.floor_def'.symm
  rw [this]
  exact ⟨Int.floor_le x, Int.lt_floor_add_one x⟩

theorem truncate_neg (x : Rat) : truncate (-x) = -truncate x := by
  unfold truncate
  rw [Rat.neg_num, Rat.neg_den, Int.neg_tdiv]

/-- **C70** (set).  Setting a date stores its whole seconds, the fraction cut off towards 1970, and changes
nothing else; reading then gives the date of the stored seconds.  If the date has no timestamp, nothing is
changed. -/
theorem C70_set (clock : Clock) (d : VDict) (param : Str) (t : clock.Datetime) :
    match clock.timestamp t with
    | .error e => setValid clock d param t = (.error e, d)
    | .ok x => ∃ (i : Int) (d' : VDict), setValid clock d param t = (.ok (), d') ∧ dget d' param = some (.int i) ∧
        (∀ k, k ≠ param → dget d' k = dget d k) ∧
        (0 ≤ x → (i : Rat) ≤ x ∧ x < i + 1) ∧ (x ≤ 0 → (i : Rat) - 1 < x ∧ x ≤ i) ∧
        getValid clock d' param = clock.fromTimestamp (.int i) := by
  unfold setValid
  rcases clock.timestamp t with e | x
  · rfl
  · refine ⟨truncate x, _, rfl, by rw [dget_dset_self], fun k hk => dget_dset_ne hk.symm _ _, truncate_nonneg, ?_, ?_⟩
    · intro h
      have := truncate_nonneg (x := -x) (by linarith)
      rw [truncate_neg] at this
      push_cast at this
      constructor <;> linarith [this.1, this.2]
    · unfold getValid getItem
      rw [dget_dset_self]
      rfl

/-- **C70** (set what was read).  Setting the date that was read leaves every entry as it is, and does not
raise except in the last days of the year 9999. -/
theorem C70_set_after_get (clock : Clock) (hl : ClockLaws clock) (d : VDict) (param : Str) (i : Int)
    (t : clock.Datetime) (hd : dget d param = some (.int i)) (ht : getValid clock d param = .ok t) :
    ∃ r d', setValid clock d param t = (r, d') ∧ (∀ k, dget d' k = dget d k) ∧
      (0 ≤ i → i < 253401955200 → r = .ok ()) := by
  unfold getValid getItem at ht
  rw [hd] at ht
  have ht' : clock.fromTimestamp (.int i) = .ok t := ht
  have h := C70_set clock d param t
  rcases hl.back ht' with hb | ⟨e, he⟩
  · rw [hb] at h
    obtain ⟨j, d', h1, h2, h3, h4, h5, -⟩ := h
    refine ⟨.ok (), d', h1, fun k => ?_, fun _ _ => rfl⟩
    by_cases hk : k = param
    · subst hk
      have : i = j := by
        rcases le_total 0 i with h0 | h0
        · obtain ⟨a, b⟩ := h4 (by exact_mod_cast h0)
          have a' : j ≤ i := by exact_mod_cast a
          have b' : i < j + 1 := by exact_mod_cast b
          omega
        · obtain ⟨a, b⟩ := h5 (by exact_mod_cast h0)
          have a' : j - 1 < i := by exact_mod_cast a
          have b' : i ≤ j := by exact_mod_cast b
          omega
      rw [h2, hd, this]
    · exact h3 k hk
  · rw [he] at h
    refine ⟨_, _, h, fun _ => rfl, fun h0 h1 => ?_⟩
    rw [hl.inside h0 h1 ht'] at he
    cases he

/-- **C70** (the end of time).  `2^64 - 1`, which OpenSSH writes for certificates that do not expire, is a
value that can be written and read, but asking for its date raises an exception, as for any time after the
year 9999. -/
theorem C70_forever (clock : Clock) (hl : ClockLaws clock) (d : VDict) (param : Str) (i : Int)
    (hi : 253402387200 ≤ i) (hd : dget d param = some (.int i)) :
    ∃ e, getValid clock d param = .error e := by
  obtain ⟨e, he⟩ := hl.last i hi
  refine ⟨e, ?_⟩
  unfold getValid getItem
  rw [hd]
  exact he

/-- A clock with a resolution of half a second: dates are numbers of half seconds. -/
def exClock : Clock where
  Datetime := Int
  fromTimestamp v := match v with
    | .int i => if i < 253402300800 then .ok (2 * i) else .error (.valueError "year is out of range")
    | _ => .error .typeError
  timestamp t := .ok (t / 2)

theorem exClock_back {i : Int} {t : Int} (h : exClock.fromTimestamp (.int i) = .ok t) :
    exClock.timestamp t = .ok (i : Rat) := by
  simp only [exClock] at h ⊢
  split at h
  · cases h
    push_cast
    congr 1
    linarith
  · cases h

theorem exClock_laws : ClockLaws exClock where
  back := fun h => Or.inl (exClock_back h)
  inside := fun _ _ h => exClock_back h
  last := by
    intro i hi
    refine ⟨.valueError "year is out of range", ?_⟩
    simp only [exClock]
    rw [if_neg (by omega)]

def exDated : VDict := [(py! "valid_after", .int 5), (py! "valid_before", .int (2 ^ 64 - 1))]
/-- Non-vacuous: half past five seconds is stored as five seconds, half a second before 1970 as 0. -/
example : (setValid exClock exDated (py! "valid_after") (11 : Int)).2 = exDated ∧
    dget (setValid exClock exDated (py! "valid_after") (-1 : Int)).2 (py! "valid_after") = some (.int 0) ∧
    getValid exClock exDated (py! "valid_after") = .ok (10 : Int) ∧
    dget exDated (py! "valid_before") = some (.int (2 ^ 64 - 1)) ∧ (253402387200 : Int) ≤ 2 ^ 64 - 1 := by
  refine ⟨by decide +kernel, by decide +kernel, rfl, by decide +kernel, by decide +kernel⟩

end OSK
