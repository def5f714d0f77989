import Verif.Lemmas.Datetime
import Verif.Props.Validity
import Verif.Lemmas.KernelRfl
import Batteries.Lean.Except
/-
Property C112: validity dates and the time zone of the machine.
-/
namespace OSK
open Spec OSK.Std

theorem stamp_whole {z : Zone} {w s : Int} {f : Bool} (h : z.toSeconds w f = .ok s) (hs : s.natAbs < 2 ^ 53) :
    z.stamp (.naive w 0 f) = .ok s := by
  change (do
    let s ← z.toSeconds w f
    Except.ok (double ((s : Rat) + double (((0 : Nat) : Rat) / 1000000)))) = _
  rw [h]
  change Except.ok (double ((s : Rat) + double (((0 : Nat) : Rat) / 1000000))) = _
  have : double (((0 : Nat) : Rat) / 1000000) = 0 := by decide +kernel
  rw [this, add_zero, double_int s hs]

theorem plainTo_near {z : Zone} (hz : ZoneLaws z) (t : Int) (f : Bool) :
    t - 172800 ≤ plainTo z t f ∧ plainTo z t f ≤ t + 172800 := by
  have n1 := hz.near t
  have n2 := hz.near (t - z.off t)
  unfold plainTo
  generalize (if f then t - z.off t + 86400 else t - z.off t - 86400) = q
  have n3 := hz.near q
  split
  · split
    · omega
    · split <;> omega
  · split
    · omega
    · split <;> omega

/-- **C112** (laws).  The clock of a machine in any time zone has the laws that C70 supposes. -/
theorem C112_laws {z : Zone} (hz : ZoneLaws z) : ClockLaws z.clock where
  back := by
    intro i t h
    change z.fromSeconds i = .ok t at h
    obtain ⟨rfl, h1, h2⟩ := fromSeconds_plain h
    change z.stamp (.naive (i + z.off i) 0 (plainFold z i)) = _ ∨
      ∃ e, z.stamp (.naive (i + z.off i) 0 (plainFold z i)) = _
    rcases hs : z.toSeconds (i + z.off i) (plainFold z i) with e | s
    · right
      refine ⟨e, ?_⟩
      change (do
        let s ← z.toSeconds (i + z.off i) (plainFold z i)
        Except.ok (double ((s : Rat) + double (((0 : Nat) : Rat) / 1000000)))) = _
      rw [hs]
      rfl
    · left
      have e := toSeconds_plain hs
      rw [plainTo_plainFold hz i] at e
      subst e
      have := hz.near s
      exact stamp_whole hs (by omega)
  inside := by
    intro i t h0 h1 h
    change z.fromSeconds i = .ok t at h
    obtain ⟨rfl, -, -⟩ := fromSeconds_plain h
    change z.stamp (.naive (i + z.off i) 0 (plainFold z i)) = _
    have n := hz.near i
    have hs := toSeconds_inside hz (t := i + z.off i) (by unfold WellInside; omega) (plainFold z i)
    rw [plainTo_plainFold hz i] at hs
    exact stamp_whole hs (by omega)
  last := by
    intro i hi
    change ∃ e, z.fromSeconds i = _
    rcases h : z.fromSeconds i with e | d
    · exact ⟨e, rfl⟩
    · obtain ⟨-, h1, -⟩ := fromSeconds_plain h
      have := hz.near i
      omega

/-- **C112** (read).  A date that is read is what the clocks on the wall show at that moment, to the second,
and has `fold` set just if they have shown the same before. -/
theorem C112_get {z : Zone} (hz : ZoneLaws z) (d : VDict) (param : Str) (i : Int)
    (hd : dget d param = some (.int i)) :
    (∀ t, getValid z.clock d param = .ok t → ∃ fold, t = .naive (i + z.off i) 0 fold ∧
      (fold = true ↔ ∃ j, j < i ∧ Shows z (i + z.off i) j)) ∧
    (WellInside i → ∃ t, getValid z.clock d param = .ok t) := by
  have hg : getValid z.clock d param = z.fromSeconds i := by
    unfold getValid getItem
    rw [hd]
    rfl
  rw [hg]
  constructor
  · intro t ht
    exact ⟨_, (fromSeconds_plain ht).1, plainFold_iff hz i⟩
  · intro hi
    unfold WellInside at hi
    by_cases h : i < -62135251200
    · have n1 := hz.near i
      have n2 := hz.near (i - 86400)
      have n3 := hz.near (i + (z.off i - z.off (i - 86400)))
      unfold Zone.fromSeconds day
      rw [if_neg (by omega), wall_ok (z := z) (u := i) (by omega) (by omega),
        wall_ok (z := z) (u := i - 86400) (by omega) (by omega)]
      simp only [bind, Except.bind]
      rw [show i + z.off i - (i - 86400 + z.off (i - 86400)) - 86400 = z.off i - z.off (i - 86400) by omega]
      obtain ⟨T, a, b, hs1, hs2, h⟩ := once' hz (i - 86400)
      have k1 := h i (by omega) (by omega)
      have k2 := h (i - 86400) (by omega) (by omega)
      split
      · rw [wall_ok (z := z) (u := i + (z.off i - z.off (i - 86400))) (by omega) (by omega)]
        exact ⟨_, rfl⟩
      · exact ⟨_, rfl⟩
    · exact ⟨_, fromSeconds_inside hz (by omega)⟩

theorem setValid_whole {z : Zone} (hz : ZoneLaws z) (d : VDict) (param : Str) {w : Int} (hw : WellInside w)
    (fold : Bool) : setValid z.clock d param (.naive w 0 fold) =
      (.ok (), dset d param (.int (plainTo z w fold))) := by
  have hs := toSeconds_inside hz hw fold
  have := plainTo_near hz w fold
  unfold setValid
  have e : z.clock.timestamp (.naive w 0 fold) = .ok ((plainTo z w fold : Int) : Rat) :=
    stamp_whole hs (by unfold WellInside at hw; omega)
  rw [e]
  dsimp only
  rw [truncate_int]

/-- **C112** (set).  Setting a date without a time zone and without a fraction of a second stores a moment at
which the clocks on the wall show that date: the first if `fold` is not set, the last if it is. -/
theorem C112_set {z : Zone} (hz : ZoneLaws z) (d : VDict) (param : Str) (w : Int) (hw : WellInside w)
    (fold : Bool) (hex : ∃ j, Shows z w j) :
    ∃ s d', setValid z.clock d param (.naive w 0 fold) = (.ok (), d') ∧ dget d' param = some (.int s) ∧
      Shows z w s ∧ ∀ j, Shows z w j → if fold then j ≤ s else s ≤ j := by
  refine ⟨_, _, setValid_whole hz d param hw fold, dget_dset_self _ _ _, ?_, ?_⟩
  · obtain ⟨j, hj⟩ := hex
    rcases fold with _ | _
    · exact (plainTo_first hz hj).1
    · exact (plainTo_last hz hj).1
  · intro j hj
    rcases fold with _ | _
    · exact (plainTo_first hz hj).2
    · exact (plainTo_last hz hj).2

theorem getValid_dset (z : Zone) (d : VDict) (param : Str) (s : Int) :
    getValid z.clock (dset d param (.int s)) param = z.fromSeconds s := by
  unfold getValid getItem
  rw [dget_dset_self]
  rfl

/-- **C112** (set and read), as far as it is true: a date without a time zone and without a fraction of a
second that the clocks on the wall do show is read back as it was set; its `fold` too if they show it more
than once.  (Missing: other dates, see `C112_same_iff` and `C112_false`, and those within three days of
the ends of the calendar.) -/
theorem C112_set_get_partial {z : Zone} (hz : ZoneLaws z) (d : VDict) (param : Str) (w : Int) (hw : WellInside w)
    (fold : Bool) (hex : ∃ j, Shows z w j) :
    ∃ d' fold', setValid z.clock d param (.naive w 0 fold) = (.ok (), d') ∧
      getValid z.clock d' param = .ok (.naive w 0 fold') ∧
      (fold' = true ↔ fold = true ∧ ∃ j j', j ≠ j' ∧ Shows z w j ∧ Shows z w j') := by
  have hset := setValid_whole hz d param hw fold
  have hshow : Shows z w (plainTo z w fold) := by
    obtain ⟨j, hj⟩ := hex
    rcases fold with _ | _
    · exact (plainTo_first hz hj).1
    · exact (plainTo_last hz hj).1
  have hn := plainTo_near hz w fold
  have hw2 : plainTo z w fold + z.off (plainTo z w fold) = w := hshow
  refine ⟨_, plainFold z (plainTo z w fold), hset, ?_, ?_⟩
  · rw [getValid_dset]
    obtain ⟨-, hi⟩ := C112_get hz (dset d param (.int (plainTo z w fold))) param _ (dget_dset_self _ _ _)
    unfold WellInside at hw
    have n1 := hz.near (plainTo z w fold)
    rcases hr : z.fromSeconds (plainTo z w fold) with e | t
    · exfalso
      generalize hs : plainTo z w fold = s at *
      have n2 := hz.near (s - 86400)
      obtain ⟨T, a, b, hs1, hs2, h⟩ := once' hz (s - 86400)
      have k1 := h s (by omega) (by omega)
      have k2 := h (s - 86400) (by omega) (by omega)
      have n3 := hz.near (s + (z.off s - z.off (s - 86400)))
      unfold Zone.fromSeconds day at hr
      rw [if_neg (by omega), wall_ok (z := z) (u := s) (by omega) (by omega),
        wall_ok (z := z) (u := s - 86400) (by omega) (by omega)] at hr
      simp only [bind, Except.bind] at hr
      rw [show s + z.off s - (s - 86400 + z.off (s - 86400)) - 86400 = z.off s - z.off (s - 86400) by omega] at hr
      split at hr
      · rw [wall_ok (z := z) (u := s + (z.off s - z.off (s - 86400))) (by omega) (by omega)] at hr
        cases hr
      · cases hr
    · rw [(fromSeconds_plain hr).1, hw2]
      rfl
  · rw [plainFold_iff hz, hw2]
    constructor
    · rintro ⟨j, hj, hs⟩
      refine ⟨?_, j, _, ne_of_lt hj, hs, hshow⟩
      rcases fold with _ | _
      · have := (plainTo_first hz hs).2
        omega
      · rfl
    · rintro ⟨rfl, j, j', hne, h1, h2⟩
      have l1 := (plainTo_last hz h1).2
      have l2 := (plainTo_last hz h2).2
      by_cases c : j < plainTo z w true
      · exact ⟨j, c, h1⟩
      · exact ⟨j', by omega, h2⟩

/-- **C112** (skipped dates).  A date that the clocks on the wall skip is read back as a later one, or as an
earlier one if `fold` is set. -/
theorem C112_skipped {z : Zone} (hz : ZoneLaws z) (d : VDict) (param : Str) (w : Int) (hw : WellInside w)
    (fold : Bool) (hex : ¬∃ j, Shows z w j) :
    ∃ d', setValid z.clock d param (.naive w 0 fold) = (.ok (), d') ∧
      ∀ t, getValid z.clock d' param = .ok t → ∃ w' fold', t = .naive w' 0 fold' ∧
        if fold then w' < w else w < w' := by
  refine ⟨_, setValid_whole hz d param hw fold, fun t ht => ?_⟩
  rw [getValid_dset] at ht
  exact ⟨_, _, (fromSeconds_plain ht).1, plainTo_gap hz hex fold⟩

/-- **C112** (exactly which).  Of the dates without a time zone, those that are read back as they were set are
exactly those without a fraction of a second that the clocks on the wall show; no date with a time zone is. -/
theorem C112_same_iff {z : Zone} (hz : ZoneLaws z) (d : VDict) (param : Str) :
    (∀ w us fold, WellInside w →
      ((∃ t, getValid z.clock (setValid z.clock d param (.naive w us fold)).2 param = .ok t ∧
          (setValid z.clock d param (.naive w us fold)).1 = .ok () ∧ SameDate t (.naive w us fold)) ↔
        us = 0 ∧ ∃ j, Shows z w j)) ∧
    ∀ w us o t, (setValid z.clock d param (.aware w us o)).1 = .ok () →
      getValid z.clock (setValid z.clock d param (.aware w us o)).2 param = .ok t →
      ¬SameDate t (.aware w us o) := by
  constructor
  · intro w us fold hw
    constructor
    · rintro ⟨t, h1, h2, h3⟩
      have hus : us = 0 := by
        unfold setValid at h1 h2
        rcases ht : z.clock.timestamp (.naive w us fold) with e | x
        · rw [ht] at h2
          cases h2
        · rw [ht] at h1
          dsimp only at h1
          rw [getValid_dset] at h1
          rw [(fromSeconds_plain h1).1] at h3
          exact h3.2.symm
      subst hus
      refine ⟨rfl, ?_⟩
      by_contra hex
      obtain ⟨d', e1, e2⟩ := C112_skipped hz d param w hw fold hex
      rw [e1] at h1
      obtain ⟨w', f', rfl, e3⟩ := e2 t h1
      have : w' = w := h3.1
      split at e3 <;> omega
    · rintro ⟨rfl, hex⟩
      obtain ⟨d', f', e1, e2, -⟩ := C112_set_get_partial hz d param w hw fold hex
      rw [e1]
      exact ⟨_, e2, rfl, rfl, rfl⟩
  · intro w us o t h2 h1
    unfold setValid at h1
    rcases ht : z.clock.timestamp (.aware w us o) with e | x
    · cases ht
    · rw [ht] at h1
      dsimp only at h1
      rw [getValid_dset] at h1
      rw [(fromSeconds_plain h1).1]
      exact id

/-- **C112** (dates with a time zone).  A date with a time zone and without a fraction of a second stores its
moment; what is read is what the clocks on the wall of this machine show at that moment. -/
theorem C112_aware {z : Zone} (hz : ZoneLaws z) (d : VDict) (param : Str) (w o : Int)
    (hw : WellInside (w - o)) :
    ∃ d' fold, setValid z.clock d param (.aware w 0 (o * 1000000)) = (.ok (), d') ∧
      dget d' param = some (.int (w - o)) ∧
      getValid z.clock d' param = .ok (.naive (w - o + z.off (w - o)) 0 fold) := by
  have e : z.clock.timestamp (.aware w 0 (o * 1000000)) = .ok ((w - o : Int) : Rat) := by
    change Except.ok (double (((w * 1000000 + (0 : Nat) - o * 1000000 : Int) : Rat) / 1000000)) = _
    have : ((w * 1000000 + (0 : Nat) - o * 1000000 : Int) : Rat) / 1000000 = ((w - o : Int) : Rat) := by
      push_cast
      ring
    rw [this, double_int _ (by unfold WellInside at hw; omega)]
  have hset : setValid z.clock d param (.aware w 0 (o * 1000000)) = (.ok (), dset d param (.int (w - o))) := by
    unfold setValid
    rw [e]
    dsimp only
    rw [truncate_int]
  obtain ⟨h1, h2⟩ := C112_get hz (dset d param (.int (w - o))) param _ (dget_dset_self _ _ _)
  obtain ⟨t, ht⟩ := h2 hw
  obtain ⟨f, rfl, -⟩ := h1 t ht
  exact ⟨_, f, hset, dget_dset_self _ _ _, ht⟩

/-- **C112** (before 1970).  A date before 1970 is stored as a negative number, which cannot be packed. -/
theorem C112_before_1970 {z : Zone} (hz : ZoneLaws z) (d : VDict) (param : Str) (w : Int) (hw : WellInside w)
    (fold : Bool) (hb : ∀ j, Shows z w j → j < 0) (hex : ∃ j, Shows z w j) :
    ∃ s d', setValid z.clock d param (.naive w 0 fold) = (.ok (), d') ∧ dget d' param = some (.int s) ∧
      structPack fmtBEQ (.int s) = .error .structError := by
  obtain ⟨s, d', h1, h2, h3, -⟩ := C112_set hz d param w hw fold hex
  refine ⟨s, d', h1, h2, ?_⟩
  have := hb s h3
  change (if SCode.inIntRange 8 false s then _ else _ : Except Exn Bytes) = _
  rw [if_neg]
  unfold SCode.inIntRange
  rw [if_neg Bool.false_ne_true]
  omega

/-- Changes of clocks at least three days apart, by at most a day, and never more than a day off UTC. -/
def okTable : Int → List (Int × Int) → Bool
  | o, [] => -86400 ≤ o && o ≤ 86400
  | o, c :: cs => -86400 ≤ o && o ≤ 86400 && -86400 ≤ c.2 - o && c.2 - o ≤ 86400 &&
      (match cs with
        | [] => true
        | c' :: _ => c.1 + 259200 ≤ c'.1) && okTable c.2 cs

theorem foldl_before {cs : List (Int × Int)} {v : Int} (x : Int) :
    ∀ {o}, okTable o cs = true → (∀ c ∈ cs.head?, v < c.1) →
      cs.foldl (fun o c => if c.1 ≤ v then c.2 else o) x = x := by
  induction cs generalizing x with
  | nil => intro o _ _; rfl
  | cons c cs ih =>
    intro o h hv
    have hc : v < c.1 := hv c rfl
    simp only [okTable, Bool.and_eq_true] at h
    rw [List.foldl_cons, if_neg (by omega)]
    refine ih x h.2 ?_
    intro c' hc'
    obtain ⟨⟨-, h4⟩, -⟩ := h
    rcases cs with _ | ⟨c2, cs⟩
    · cases hc'
    · cases hc'
      simp only [decide_eq_true_eq] at h4
      omega

theorem C112_table {first : Int} {changes : List (Int × Int)} (h : okTable first changes = true) :
    ZoneLaws (Zone.ofTable first changes) where
  near := by
    intro u
    change -86400 ≤ changes.foldl (fun o c => if c.1 ≤ u then c.2 else o) first ∧ _ ≤ (86400 : Int)
    change _ ∧ changes.foldl (fun o c => if c.1 ≤ u then c.2 else o) first ≤ 86400
    have key : ∀ (cs : List (Int × Int)) (o x : Int), okTable o cs = true → -86400 ≤ x → x ≤ 86400 →
        -86400 ≤ cs.foldl (fun o c => if c.1 ≤ u then c.2 else o) x ∧
          cs.foldl (fun o c => if c.1 ≤ u then c.2 else o) x ≤ 86400 := by
      intro cs
      induction cs with
      | nil => intro o x _ h1 h2; exact ⟨h1, h2⟩
      | cons c cs ih =>
        intro o x hk h1 h2
        simp only [okTable, Bool.and_eq_true] at hk
        have hc : -86400 ≤ c.2 ∧ c.2 ≤ 86400 := by
          have := hk.2
          rcases cs with _ | ⟨c', cs⟩ <;> simp only [okTable, Bool.and_eq_true, decide_eq_true_eq] at this <;> omega
        rw [List.foldl_cons]
        refine ih c.2 _ hk.2 ?_ ?_ <;> split <;> omega
    have h0 : -86400 ≤ first ∧ first ≤ 86400 := by
      rcases changes with _ | ⟨c', cs⟩ <;> simp only [okTable, Bool.and_eq_true, decide_eq_true_eq] at h <;> omega
    exact key changes first first h h0.1 h0.2
  once := by
    intro w
    change ∃ T a b, _ ∧ _ ∧ ∀ v, w ≤ v → v ≤ w + 259200 →
      changes.foldl (fun o c => if c.1 ≤ v then c.2 else o) first = if v < T then a else b
    induction changes generalizing first with
    | nil =>
      refine ⟨0, first, first, by omega, by omega, fun v _ _ => ?_⟩
      rw [ite_self]
      rfl
    | cons c cs ih =>
      have h' := h
      simp only [okTable, Bool.and_eq_true, decide_eq_true_eq] at h'
      by_cases hw : c.1 ≤ w
      · obtain ⟨T, a, b, h1, h2, h3⟩ := ih h'.2
        refine ⟨T, a, b, h1, h2, fun v hv1 hv2 => ?_⟩
        rw [List.foldl_cons, if_pos (by omega)]
        exact h3 v hv1 hv2
      · refine ⟨c.1, first, c.2, by omega, by omega, fun v hv1 hv2 => ?_⟩
        rw [List.foldl_cons, foldl_before _ h'.2]
        · split <;> split <;> first | rfl | omega
        · intro c' hc'
          obtain ⟨⟨-, h4⟩, -⟩ := h'
          rcases cs with _ | ⟨c2, cs⟩
          · cases hc'
          · cases hc'
            simp only [decide_eq_true_eq] at h4
            omega

/-- Paris from 2023 to 2025. -/
def exParis : Zone := .ofTable 3600
  [(1679792400, 7200), (1698541200, 3600), (1711846800, 7200), (1729990800, 3600), (1743296400, 7200),
    (1761440400, 3600)]

theorem exParis_laws : ZoneLaws exParis := C112_table (by decide +kernel)

/-- Samoa, which left out 30 December 2011, and Alaska, which had 18 October 1867 twice: changes by a day. -/
theorem exSamoa_laws : ZoneLaws (.ofTable (-36000) [(1325239200, 50400)]) ∧
    ZoneLaws (.ofTable 50424 [(-3225223727, -35976)]) :=
  ⟨C112_table (by decide +kernel), C112_table (by decide +kernel)⟩

/-- **C112** (the claim is false).  There are dates that are not read back as they were set: 02:30 on the
morning of 31 March 2024 in Paris becomes 03:30. -/
theorem C112_false : ¬∀ (z : Zone), ZoneLaws z → ∀ (d : VDict) (param : Str) (t : Datetime),
    (setValid z.clock d param t).1 = .ok () →
    ∃ t', getValid z.clock (setValid z.clock d param t).2 param = .ok t' ∧ SameDate t' t := by
  intro h
  obtain ⟨t', h1, h2⟩ := h exParis exParis_laws [] (py! "valid_after") (.naive 1711852200 0 false) rfl
  have e : (exParis.fromSeconds 1711848600) = .ok (.naive 1711855800 0 false) := by decide +kernel
  have : getValid exParis.clock (setValid exParis.clock [] (py! "valid_after") (.naive 1711852200 0 false)).2
      (py! "valid_after") = exParis.fromSeconds 1711848600 := by kernel_rfl
  rw [this, e] at h1
  cases h1
  exact absurd h2.1 (by decide +kernel)

/-- Non-vacuous, and the other ways in which it fails, all in Paris.  02:30 on 27 October 2024 comes twice and
`fold` says which; noon on 1 July 2024 comes once.  Half a second past noon is read back as noon.  Noon in UTC
is read back as 14:00 without a time zone.  One microsecond before 00:00:01 on 1 January 9998 is stored as
00:00:01, since its timestamp is rounded to a `float`.  The last second of the year 9999 can be read but not
set. -/
example :
    exParis.toSeconds 1729996200 false = .ok 1729989000 ∧ exParis.toSeconds 1729996200 true = .ok 1729992600 ∧
    exParis.fromSeconds 1729989000 = .ok (.naive 1729996200 0 false) ∧
    exParis.fromSeconds 1729992600 = .ok (.naive 1729996200 0 true) ∧
    exParis.toSeconds 1719835200 false = .ok 1719828000 ∧
    dget (setValid exParis.clock [] (py! "valid_after") (.naive 1719835200 500000 false)).2 (py! "valid_after") =
      some (.int 1719828000) ∧
    exParis.fromSeconds 1719828000 = .ok (.naive 1719835200 0 false) ∧
    dget (setValid exParis.clock [] (py! "valid_after") (.aware 1719835200 0 0)).2 (py! "valid_after") =
      some (.int 1719835200) ∧
    exParis.fromSeconds 1719835200 = .ok (.naive 1719842400 0 false) ∧
    dget (setValid exParis.clock [] (py! "valid_after") (.naive 253339228800 999999 false)).2 (py! "valid_after") =
      some (.int (253339228801 - 3600)) ∧
    exParis.fromSeconds 253402297199 = .ok (.naive 253402300799 0 false) ∧
    exParis.toSeconds 253402300799 false = .error yearError ∧
    WellInside 1729996200 ∧ Shows exParis 1729996200 1729989000 ∧ Shows exParis 1729996200 1729992600 := by
  refine ⟨by decide +kernel, by decide +kernel, by decide +kernel, by decide +kernel, by decide +kernel,
    by decide +kernel, by decide +kernel, by decide +kernel, by decide +kernel, by decide +kernel,
    by decide +kernel, by decide +kernel, by unfold WellInside; omega, by unfold Shows; decide +kernel,
    by unfold Shows; decide +kernel⟩

end OSK
