import Verif.Lemmas.Wire
import Verif.Props.Key
/-
Certificates: options, principals, signed bytes, authority keys (C45-C53).
-/
namespace OSK
open Spec

/-! ### C45, C46: options -/

/-- The two entries that hold options; `set_critical_option`/`get_critical_option` use the first,
`set_extension_value`/`get_extension_value` the second. -/
def Spec.OptionParam (param : Str) : Prop := param = py! "critical_options" ∨ param = py! "extensions"

theorem Spec.OptionParam.ne_type {param : Str} (h : OptionParam param) : param ≠ py! "type" := by
  rcases h with rfl | rfl <;> decide

theorem getOption_of {d m : VDict} {param : Str} {o : OptArg} {lg : List Event}
    (hg : optionGuard d o = .ok ()) (hm : getOptionValues d param = ⟨lg, .ok m⟩) :
    getOption d param o = ⟨lg, .ok (dget m o.key)⟩ := by
  unfold getOption
  rw [hg, Eff.lift_ok_bind, hm, Eff.mk_bind_ok, findOption_eq]
  simp

theorem getOption_guard {d : VDict} {param : Str} {o : OptArg} {e : Exn}
    (hg : optionGuard d o = .error e) : getOption d param o = ⟨[], .error e⟩ := by
  unfold getOption
  rw [hg, Eff.lift_error_bind]
  rfl

/-- **C45** (set, then get). After a successful set operation, getting that option returns the value that was
set, without warnings, however the option is named (unless the guard of C50 rejects the argument, in
which case it did so before); getting any other option has the result it had before; and no other
entry of the certificate changed. -/
theorem C45_get_after_set (d d' : VDict) (param : Str) (hp : OptionParam param) (o : OptArg) (v : Val)
    (lg : List Event) (h : setOption d param o v = (⟨lg, .ok ()⟩, d')) :
    getOption d' param o = ⟨[], .ok (some v)⟩ ∧
    getOption d' param (.name o.key) = ⟨[], .ok (some v)⟩ ∧
    (∀ o', o'.key = o.key → getOption d' param o' = ⟨[], .ok (some v)⟩ ∨
      ∃ e, (getOption d' param o').res = .error e ∧ (getOption d param o').res = .error e) ∧
    (∀ o', o'.key ≠ o.key → (getOption d' param o').res = (getOption d param o').res) ∧
    (∀ n, n ≠ param → dget d' n = dget d n) := by
  obtain ⟨m, w, hg, hm, hw, rfl⟩ := setOption_ok h
  obtain ⟨m', hm', hn, hs⟩ := getOptionValues_set h
  rw [hm] at hm'; simp at hm'; subst hm'
  have hs' : getOptionValues (dset d param (.bytes w)) param =
      ⟨[], .ok (sortedDict (dset m o.key v))⟩ := hs
  have hgd : ∀ o', optionGuard (dset d param (.bytes w)) o' = optionGuard d o' :=
    fun o' => optionGuard_dset hp.ne_type _ _
  have hsame : ∀ o', o'.key = o.key → optionGuard d o' = .ok () →
      getOption (dset d param (.bytes w)) param o' = ⟨[], .ok (some v)⟩ := by
    intro o' ho hgo
    rw [getOption_of (by rw [hgd]; exact hgo) hs', dget_sortedDict, ho, dget_dset_self]
  refine ⟨hsame o rfl hg, hsame (.name o.key) rfl rfl, ?_, ?_, ?_⟩
  · intro o' ho
    rcases hgo : optionGuard d o' with e | u
    · exact Or.inr ⟨e, by rw [getOption_guard (by rw [hgd]; exact hgo)], by rw [getOption_guard hgo]⟩
    · exact Or.inl (hsame o' ho hgo)
  · intro o' ho
    rcases hgo : optionGuard d o' with e | u
    · rw [getOption_guard (by rw [hgd]; exact hgo), getOption_guard hgo]
    · rw [getOption_of (by rw [hgd]; exact hgo) hs', getOption_of hgo hm, dget_sortedDict,
        dget_dset_ne (Ne.symm ho)]
  · intro n hne
    exact dget_dset_ne (Ne.symm hne) _ _

theorem dset_dset (d : VDict) (k : Str) (x y : Val) : dset (dset d k x) k y = dset d k y := by
  induction d with
  | nil => simp [dset]
  | cons kv t ih =>
    obtain ⟨k', v⟩ := kv
    simp only [dset]
    by_cases hk : k' = k
    · simp [hk, dset]
    · simp only [hk, if_false, dset, ih]

/-- **C45** (set twice). Setting an option twice equals setting it once to the last value. -/
theorem C45_set_twice (d d1 d2 : VDict) (param : Str) (o : OptArg) (v v2 : Val)
    (lg lg2 : List Event) (h1 : setOption d param o v = (⟨lg, .ok ()⟩, d1))
    (h2 : setOption d1 param o v2 = (⟨lg2, .ok ()⟩, d2)) :
    setOption d param o v2 = (⟨lg, .ok ()⟩, d2) ∧ lg2 = [] := by
  obtain ⟨m, w, hg, hm, hw, rfl⟩ := setOption_ok h1
  obtain ⟨m', hm', hn, hs⟩ := getOptionValues_set h1
  rw [hm] at hm'; simp at hm'; subst hm'
  obtain ⟨m2, w2, hg2, hm2, hw2, rfl⟩ := setOption_ok h2
  rw [hs] at hm2
  change (⟨[], .ok (sortedDict (dset m o.key v))⟩ : Eff VDict) = _ at hm2
  simp at hm2
  obtain ⟨rfl, rfl⟩ := hm2
  have hn1 := nodup_dset hn o.key v
  have hcong : packOptions (dset (sortedDict (dset m o.key v)) o.key v2) .bytes =
      packOptions (dset m o.key v2) .bytes := by
    apply packOptions_congr (nodup_dset (pairwise_lt_nodup (sortedDict_sorted hn1)) _ _) (nodup_dset hn _ _)
    intro k
    simp only [dget_dset, dget_sortedDict]
    split <;> rfl
  rw [hcong] at hw2
  refine ⟨?_, rfl⟩
  rw [setOption_of hg hm hw2, dset_dset]

/-- **C45** (order). Setting two different options gives the same certificate, byte for byte, in either
order. -/
theorem C45_commute (d d1 d2 : VDict) (param : Str) (hp : OptionParam param) (o o' : OptArg)
    (hne : o.key ≠ o'.key) (v v' : Val) (lg lg2 : List Event)
    (h1 : setOption d param o v = (⟨lg, .ok ()⟩, d1))
    (h2 : setOption d1 param o' v' = (⟨lg2, .ok ()⟩, d2)) :
    ∃ d1', setOption d param o' v' = (⟨lg, .ok ()⟩, d1') ∧
      setOption d1' param o v = (⟨lg2, .ok ()⟩, d2) := by
  obtain ⟨m, w, hg, hm, hw, rfl⟩ := setOption_ok h1
  obtain ⟨m', hm', hn, hs⟩ := getOptionValues_set h1
  rw [hm] at hm'; simp at hm'; subst hm'
  obtain ⟨m2, w2, hg2, hm2, hw2, rfl⟩ := setOption_ok h2
  rw [hs] at hm2
  change (⟨[], .ok (sortedDict (dset m o.key v))⟩ : Eff VDict) = _ at hm2
  simp at hm2
  obtain ⟨rfl, rfl⟩ := hm2
  have hn1 := nodup_dset hn o.key v
  have hn1' := nodup_dset hn o'.key v'
  have hall := packOptions_ok_iff.1 ⟨w2, hw2⟩
  obtain ⟨w', hw'⟩ : ∃ w', packOptions (dset m o'.key v') .bytes = .ok w' := by
    rw [packOptions_ok_iff]
    intro k x hk
    by_cases h : k = o.key
    · subst h
      rw [dget_dset_ne (Ne.symm hne)] at hk
      exact getOptionValues_packable (d := d) (param := param) (m := m) (by rw [hm]) hk
    · apply hall
      rw [dget_dset] at hk ⊢
      split
      · rename_i h'; rw [if_pos h'] at hk; exact hk
      · rename_i h'
        rw [if_neg h'] at hk
        rw [dget_sortedDict, dget_dset_ne (Ne.symm h), hk]
  have hg' : optionGuard d o' = .ok () := by rwa [optionGuard_dset hp.ne_type] at hg2
  have hset := setOption_of hg' hm hw'
  have hs' := getOptionValues_packed hn1' hw' (d := dset d param (.bytes w')) (param := param) (by simp)
  have hcong : packOptions (dset (sortedDict (dset m o'.key v')) o.key v) .bytes = .ok w2 := by
    rw [← hw2]
    apply packOptions_congr (nodup_dset (pairwise_lt_nodup (sortedDict_sorted hn1')) _ _)
      (nodup_dset (pairwise_lt_nodup (sortedDict_sorted hn1)) _ _)
    intro k
    simp only [dget_dset, dget_sortedDict]
    by_cases h : o.key = k
    · rw [if_pos h, if_neg (by rw [← h]; exact Ne.symm hne), if_pos h]
    · rw [if_neg h, if_neg h]
  refine ⟨_, hset, ?_⟩
  rw [setOption_of (by rw [optionGuard_dset hp.ne_type]; exact hg) hs' hcong, dset_dset, dset_dset]

/-- **C45** (when a set operation succeeds). On a certificate whose options can be read, an option can be set
exactly when the guard of C50 lets the argument pass, its name consists of Unicode scalar values, the
value is `bytes`, and both fit a 4-byte length. -/
theorem C45_set_succeeds_iff (d m : VDict) (param : Str) (o : OptArg) (v : Val) (lg : List Event)
    (hm : getOptionValues d param = ⟨lg, .ok m⟩) :
    (setOption d param o v).1.res = .ok () ↔
      ((getOption d param o).res = .ok (dget m o.key) ∧
        ∃ cs b, o.key = strOf cs ∧ v = .bytes b ∧ (utf8 cs).length < 256 ^ 4 ∧ b.length < 256 ^ 4) := by
  have hiff : (∃ w, packOptions (dset m o.key v) .bytes = .ok w) ↔
      ∃ cs b, o.key = strOf cs ∧ v = .bytes b ∧ (utf8 cs).length < 256 ^ 4 ∧ b.length < 256 ^ 4 := by
    rw [packOptions_ok_iff]
    constructor
    · intro h
      obtain ⟨w, hw⟩ := h o.key v (by simp)
      obtain ⟨cs, b, x, y, h1, h2, h3, h4, -⟩ := packDict_optRec_iff.1 hw
      exact ⟨cs, b, h1, h2, (prefixed_iff.1 h3).1, (prefixed_iff.1 h4).1⟩
    · rintro ⟨cs, b, h1, h2, h3, h4⟩ k x hk
      rw [dget_dset] at hk
      split at hk
      · rename_i h
        simp at hk; subst hk; subst h
        exact ⟨_, packDict_optRec_iff.2 ⟨cs, b, _, _, h1, h2, prefixed_natToBE h3, prefixed_natToBE h4, rfl⟩⟩
      · exact getOptionValues_packable (d := d) (param := param) (m := m) (by rw [hm]) hk
  rw [← hiff]
  rcases hgo : optionGuard d o with e | u
  · rw [getOption_guard hgo]
    simp [setOption, hgo]
  · rw [getOption_of hgo hm]
    simp only [true_and]
    constructor
    · intro h
      rcases hx : setOption d param o v with ⟨⟨lg', r⟩, d'⟩
      rw [hx] at h
      simp at h
      subst h
      obtain ⟨m2, w, -, hm2, hw, -⟩ := setOption_ok hx
      rw [hm] at hm2; simp at hm2
      exact ⟨w, by rw [hm2.2]; exact hw⟩
    · rintro ⟨w, hw⟩
      rw [setOption_of hgo hm hw]

/-- A sequence of set operations on the same entry; stops at the first exception. -/
def setOptions (d : VDict) (param : Str) : List (OptArg × Val) → Except Exn Unit × VDict
  | [] => (.ok (), d)
  | (o, v) :: t =>
    match setOption d param o v with
    | (⟨_, .ok ()⟩, d') => setOptions d' param t
    | (⟨_, .error e⟩, d') => (.error e, d')

/-- The value an option should have after a sequence of assignments: the last one to it, or else the initial
one. -/
def Spec.lastOption (n : Str) (init : Option Val) : List (OptArg × Val) → Option Val
  | [] => init
  | (o, v) :: t => lastOption n (if o.key = n then some v else init) t

/-- **C45** (sequences). After any sequence of successful set operations on a certificate whose options can
be read, every option has the value last assigned to it, or its initial value. -/
theorem C45_sequences (ops : List (OptArg × Val)) (d d' : VDict) (param : Str) (hp : OptionParam param)
    (init : Str → Option Val) (hi : ∀ n, (getOption d param (.name n)).res = .ok (init n))
    (h : setOptions d param ops = (.ok (), d')) :
    (∀ n, (getOption d' param (.name n)).res = .ok (lastOption n (init n) ops)) ∧
      ∀ n, n ≠ param → dget d' n = dget d n := by
  induction ops generalizing d init with
  | nil => simp [setOptions] at h; subst h; exact ⟨hi, fun _ _ => rfl⟩
  | cons ov t ih =>
    obtain ⟨o, v⟩ := ov
    rw [setOptions] at h
    rcases hx : setOption d param o v with ⟨⟨lg, e | u⟩, d1⟩
    · rw [hx] at h; simp at h
    · rw [hx] at h
      obtain ⟨-, g2, -, g4, g5⟩ := C45_get_after_set d d1 param hp o v lg hx
      obtain ⟨i1, i2⟩ := ih d1 (fun n => if o.key = n then some v else init n) (by
        intro n
        by_cases hn : o.key = n
        · subst hn; rw [g2]; simp
        · rw [g4 (.name n) (fun hc => hn hc.symm), hi, if_neg hn]) h
      refine ⟨fun n => by rw [i1 n, lastOption], fun n hn => by rw [i2 n hn, g5 n hn]⟩

/-- The blob of a list of options: name and value, each with a 4-byte length. -/
inductive Spec.OptionsWire : List (List Char × Bytes) → Bytes → Prop
  | nil : OptionsWire [] []
  | cons {n : List Char} {v : Bytes} {t : List (List Char × Bytes)} {x y w : Bytes} :
    Prefixed 4 (utf8 n) x → Prefixed 4 v y → OptionsWire t w → OptionsWire ((n, v) :: t) (x ++ y ++ w)

theorem packed_wire {m : VDict} {w : Bytes} (h : packDicts optionFmt (m.map optRec) = .ok w) :
    ∃ l : List (List Char × Bytes), m = l.map (fun e => (strOf e.1, Val.bytes e.2)) ∧ OptionsWire l w := by
  induction m generalizing w with
  | nil => simp [packDicts] at h; subst h; exact ⟨[], rfl, .nil⟩
  | cons e t ih =>
    obtain ⟨o, v⟩ := e
    obtain ⟨a, b, ha, hb, rfl⟩ := catE_ok h
    obtain ⟨l, rfl, hl⟩ := ih hb
    obtain ⟨cs, y, x', y', rfl, rfl, h1, h2, rfl⟩ := packDict_optRec_iff.1 ha
    exact ⟨(cs, y) :: l, rfl, .cons h1 h2 hl⟩

/-- **C46.** What a set operation stores is the wire form of a list of options whose names are strictly
increasing in code point order (so there are no duplicates), and which consists of the option set and
the options that could be read before. -/
theorem C46_sorted_unique (d d' : VDict) (param : Str) (o : OptArg) (v : Val)
    (lg : List Event) (h : setOption d param o v = (⟨lg, .ok ()⟩, d')) :
    ∃ (l : List (List Char × Bytes)) (w : Bytes), dget d' param = some (.bytes w) ∧ OptionsWire l w ∧
      (l.map (fun e => strOf e.1)).Pairwise (· < ·) ∧
      ∀ (cs : List Char) (b : Bytes), (cs, b) ∈ l ↔
        if strOf cs = o.key then v = .bytes b
        else (getOption d param (.name (strOf cs))).res = .ok (some (.bytes b)) := by
  obtain ⟨m, w, hg, hm, hw, rfl⟩ := setOption_ok h
  have hn := getOptionValues_nodup (d := d) (param := param) (m := m) (by rw [hm])
  have hn1 := nodup_dset hn o.key v
  rw [packOptions_eq] at hw
  obtain ⟨l, hl, hwire⟩ := packed_wire hw
  have hsort := sortedDict_sorted hn1
  have hkeys : dkeys (sortedDict (dset m o.key v)) = l.map (fun e => strOf e.1) := by
    rw [hl]; simp [dkeys, Function.comp_def]
  rw [hkeys] at hsort
  refine ⟨l, w, by simp, hwire, hsort, ?_⟩
  intro cs b
  have hinj : ∀ c c', strOf c = strOf c' → c = c' := by
    intro c c' hc
    have h1 := utf8Encode?_chars c
    unfold strOf at hc
    exact (List.map_inj_right (fun a b hab => Char.toNat_inj.1 hab)).1 hc
  have hmem : (cs, b) ∈ l ↔ dget (sortedDict (dset m o.key v)) (strOf cs) = some (.bytes b) := by
    constructor
    · intro hmem
      apply dget_of_mem
      · rw [hkeys]; exact pairwise_lt_nodup hsort
      · rw [hl]; exact List.mem_map.2 ⟨(cs, b), hmem, rfl⟩
    · intro hget
      have := dget_mem hget
      rw [hl] at this
      obtain ⟨⟨c', b'⟩, hm', he⟩ := List.mem_map.1 this
      simp at he
      rw [← hinj _ _ he.1, ← he.2]
      exact hm'
  rw [hmem, dget_sortedDict, dget_dset, getOption_of (o := .name (strOf cs)) rfl hm]
  by_cases hc : o.key = strOf cs
  · rw [if_pos hc, if_pos hc.symm]; simp
  · rw [if_neg hc, if_neg (Ne.symm hc)]
    simp [OptArg.key]

/-- A certificate's dict with an option blob that holds `permit-pty` twice, out of order with `a`. -/
def exOptBlob : Bytes :=
  pb! "\x00\x00\x00\x0apermit-pty\x00\x00\x00\x00" ++ pb! "\x00\x00\x00\x01a\x00\x00\x00\x01z" ++
    pb! "\x00\x00\x00\x0apermit-pty\x00\x00\x00\x02hi"
def exOptCert : VDict := [(py! "type", .int 1), (py! "critical_options", .bytes []), (py! "extensions", .bytes exOptBlob)]
def exOptCert' : VDict := [(py! "type", .int 1), (py! "critical_options", .bytes []), (py! "extensions", .bytes
  (pb! "\x00\x00\x00\x01a\x00\x00\x00\x01z" ++ pb! "\x00\x00\x00\x0apermit-pty\x00\x00\x00\x02hi" ++
    pb! "\x00\x00\x00\x0epermit-user-rc\x00\x00\x00\x01!"))]

theorem exOpt_set : setOption exOptCert (py! "extensions") (.opt .permitUserRc) (.bytes (pb! "!")) =
    (⟨[.warn (.duplicateOption (py! "permit-pty") (py! "extensions"))], .ok ()⟩, exOptCert') := by
  have h1 : (setOption exOptCert (py! "extensions") (.opt .permitUserRc) (.bytes (pb! "!"))).1.log =
      [.warn (.duplicateOption (py! "permit-pty") (py! "extensions"))] := by decide +kernel
  have h2 : (setOption exOptCert (py! "extensions") (.opt .permitUserRc) (.bytes (pb! "!"))).1.res =
      .ok () := by decide +kernel
  have h3 : (setOption exOptCert (py! "extensions") (.opt .permitUserRc) (.bytes (pb! "!"))).2 =
      exOptCert' := by decide +kernel
  rcases hx : setOption exOptCert (py! "extensions") (.opt .permitUserRc) (.bytes (pb! "!")) with ⟨⟨a, b⟩, c⟩
  rw [hx] at h1 h2 h3
  simp only at h1 h2 h3
  rw [h1, h2, h3]

example : (getOption exOptCert' (py! "extensions") (.name (py! "a"))).res = .ok (some (.bytes (pb! "z"))) := by
  rw [(C45_get_after_set _ _ _ (Or.inr rfl) _ _ _ exOpt_set).2.2.2.1 _ (by decide)]
  decide +kernel
example : (getOption exOptCert' (py! "extensions") (.name (py! "b"))).res = .ok none := by decide +kernel
example : ∃ l w, dget exOptCert' (py! "extensions") = some (.bytes w) ∧ OptionsWire l w ∧ l.length = 3 := by
  obtain ⟨l, w, h1, h2, h3, h4⟩ := C46_sorted_unique _ _ _ _ _ _ exOpt_set
  refine ⟨[("a".toList, pb! "z"), ("permit-pty".toList, pb! "hi"), ("permit-user-rc".toList, pb! "!")], _, rfl, ?_, rfl⟩
  have e1 : OptionsWire [("permit-user-rc".toList, pb! "!")] _ :=
    .cons ⟨[0, 0, 0, 14], rfl, by decide, rfl⟩ ⟨[0, 0, 0, 1], rfl, rfl, rfl⟩ .nil
  have e2 : OptionsWire (("permit-pty".toList, pb! "hi") :: _) _ :=
    .cons ⟨[0, 0, 0, 10], rfl, by decide, rfl⟩ ⟨[0, 0, 0, 2], rfl, rfl, rfl⟩ e1
  have e3 : OptionsWire (("a".toList, pb! "z") :: _) _ :=
    .cons ⟨[0, 0, 0, 1], rfl, by decide, rfl⟩ ⟨[0, 0, 0, 1], rfl, rfl, rfl⟩ e2
  refine Eq.mp (congrArg _ ?_) e3
  decide +kernel

/-! ### C47, C48: principals -/

/-- The blob of a list of principals. -/
inductive Spec.PrincipalsWire : List (List Char) → Bytes → Prop
  | nil : PrincipalsWire [] []
  | cons {p : List Char} {t : List (List Char)} {x w : Bytes} :
    Prefixed 4 (utf8 p) x → PrincipalsWire t w → PrincipalsWire (p :: t) (x ++ w)

/-- The record of one principal. -/
def principalRec (v : Val) : VDict := [(py! "principal", v)]

theorem packList_eq (l : List Val) : packList l .string = packDicts principalFmt (l.map principalRec) := by
  unfold packList
  rw [written_eq (Writes.repeatedly _ _)]
  induction l with
  | nil => rfl
  | cons v t ih =>
    simp only [List.map_cons, packDicts] at ih ⊢
    rw [ih]
    rfl

theorem packPrincipals_ok {l : List Val} {w : Bytes} (h : packDicts principalFmt (l.map principalRec) = .ok w) :
    ∃ cs : List (List Char), l = cs.map (fun c => Val.str (strOf c)) ∧ PrincipalsWire cs w := by
  induction l generalizing w with
  | nil => simp [packDicts] at h; subst h; exact ⟨[], rfl, .nil⟩
  | cons v t ih =>
    obtain ⟨a, b, ha, hb, rfl⟩ := catE_ok h
    obtain ⟨cs, rfl, hcs⟩ := ih hb
    obtain ⟨v', x, y, h1, h2, h3, rfl⟩ := packDict_cons_ok_iff.1 ha
    rw [packDict_nil_iff] at h3
    subst h3
    obtain ⟨c, rfl, hx⟩ := packFI_string_iff.1 h2
    simp [principalRec] at h1
    subst h1
    exact ⟨c :: cs, rfl, by rw [List.append_nil]; exact .cons hx hcs⟩

theorem packPrincipals_of {cs : List (List Char)} (h : ∀ c ∈ cs, (utf8 c).length < 256 ^ 4) :
    ∃ w, packDicts principalFmt ((cs.map (fun c => Val.str (strOf c))).map principalRec) = .ok w := by
  rw [packDicts_ok_iff]
  intro d hd
  rw [List.map_map] at hd
  obtain ⟨c, hc, rfl⟩ := List.mem_map.1 hd
  exact ⟨_, packDict_cons_ok_iff.2 ⟨_, _, _, by simp [principalRec],
    packFI_string_iff.2 ⟨c, rfl, prefixed_natToBE (h c hc)⟩, rfl, rfl⟩⟩

theorem strOf_inj {c c' : List Char} (h : strOf c = strOf c') : c = c' :=
  (List.map_inj_right (fun _ _ hab => Char.toNat_inj.1 hab)).1 h

theorem column_principals (l : List Val) : column (py! "principal") (l.map principalRec) = .ok l := by
  induction l with
  | nil => rfl
  | cons v t ih =>
    simp only [List.map_cons, column]
    rw [ih]
    simp [principalRec, getItem, Except.map]

theorem named_principal (v : Val) : named principalFmt (principalRec v) = principalRec v := by
  simp [named, principalFmt, principalRec]

/-- **C47.** Every list of strings of Unicode scalar values (each fitting a 4-byte length) can be set as
principals, and is what `get_valid_principals` then returns; the stored bytes are its wire form, so
the empty list is stored as the empty byte string; no other entry changes. -/
theorem C47_principals_roundtrip (d : VDict) (cs : List (List Char))
    (hl : ∀ c ∈ cs, (utf8 c).length < 256 ^ 4) :
    ∃ w d', setValidPrincipals d (cs.map (fun c => .str (strOf c))) = (.ok (), d') ∧
      dget d' (py! "valid_principals") = some (.bytes w) ∧ PrincipalsWire cs w ∧ (cs = [] → w = []) ∧
      getValidPrincipals d' = .ok (cs.map (fun c => .str (strOf c))) ∧
      ∀ n, n ≠ py! "valid_principals" → dget d' n = dget d n := by
  obtain ⟨w, hw⟩ := packPrincipals_of hl
  obtain ⟨cs', hcs', hwire⟩ := packPrincipals_ok hw
  have : cs' = cs := by
    have hinj : Function.Injective (fun c => Val.str (strOf c)) := by
      intro a b hab
      simp at hab
      exact strOf_inj hab
    exact ((List.map_inj_right hinj).1 hcs').symm
  subst this
  refine ⟨w, dset d (py! "valid_principals") (.bytes w), ?_, by simp, hwire, ?_, ?_,
    fun n hn => dget_dset_ne (Ne.symm hn) _ _⟩
  · unfold setValidPrincipals
    rw [packList_eq, hw]
  · rintro rfl; cases hwire; rfl
  · unfold getValidPrincipals getItem
    rw [dget_dset_self]
    have hr := readRepeatedly_plain plain_principal nonEmpty_principal _ hw (Stream.of w) (Stream.of_rest w)
    have e : ((cs'.map (fun c => Val.str (strOf c))).map principalRec).map (named principalFmt) =
        (cs'.map (fun c => Val.str (strOf c))).map principalRec := by
      simp only [List.map_map, Function.comp_def, named_principal]
    rw [e] at hr
    simp only [asBuffer, bind, Except.bind]
    rw [hr]
    exact column_principals _

/-- **C47** (rejected lists). If `set_valid_principals` raises, nothing was changed; and it raises for a list
of values exactly when not all of them are strings of Unicode scalar values that fit a 4-byte
length. -/
theorem C47_rejected (d : VDict) (l : List Val) :
    (∀ e d', setValidPrincipals d l = (.error e, d') → d' = d) ∧
    ((∃ d', setValidPrincipals d l = (.ok (), d')) ↔
      ∀ v ∈ l, ∃ c, v = .str (strOf c) ∧ (utf8 c).length < 256 ^ 4) := by
  constructor
  · intro e d' h
    unfold setValidPrincipals at h
    split at h <;> simp at h
    exact h.2.symm
  · constructor
    · rintro ⟨d', h⟩
      unfold setValidPrincipals at h
      split at h
      · rename_i w hw
        rw [packList_eq] at hw
        have := packDicts_ok_iff.1 ⟨w, hw⟩
        intro v hv
        obtain ⟨x, hx⟩ := this _ (List.mem_map.2 ⟨v, hv, rfl⟩)
        obtain ⟨v', x, y, h1, h2, h3, rfl⟩ := packDict_cons_ok_iff.1 hx
        simp [principalRec] at h1
        subst h1
        obtain ⟨c, rfl, hp⟩ := packFI_string_iff.1 h2
        exact ⟨c, rfl, (prefixed_iff.1 hp).1⟩
      · simp at h
    · intro h
      have : ∃ cs : List (List Char), l = cs.map (fun c => Val.str (strOf c)) ∧
          ∀ c ∈ cs, (utf8 c).length < 256 ^ 4 := by
        induction l with
        | nil => exact ⟨[], rfl, by simp⟩
        | cons v t ih =>
          obtain ⟨c, rfl, hc⟩ := h v (by simp)
          obtain ⟨cs, rfl, hcs⟩ := ih (fun v hv => h v (by simp [hv]))
          exact ⟨c :: cs, rfl, by simpa using ⟨hc, hcs⟩⟩
      obtain ⟨cs, rfl, hcs⟩ := this
      obtain ⟨w, d', h, -⟩ := C47_principals_roundtrip d cs hcs
      exact ⟨d', h⟩

example : (setValidPrincipals exOptCert [.str (strOf "ann".toList), .str (strOf "é".toList)]).1 = .ok () ∧
    getValidPrincipals (setValidPrincipals exOptCert [.str (strOf "ann".toList), .str (strOf "é".toList)]).2 =
      .ok [.str (strOf "ann".toList), .str (strOf "é".toList)] := by decide +kernel
example : (setValidPrincipals exOptCert [.str [0xD800]]).1 = .error .unicodeEncodeError := by decide +kernel

/-- **C48** (the part that holds). `get_valid_principals` returns the empty list exactly when the stored field
is empty or consists of a non-zero 4-byte length with nothing behind it.

Full statement: only when the stored field is empty.  `C48_false` shows that the second case occurs. -/
theorem C48_empty_principals_partial (d : VDict) (b : Bytes)
    (hd : dget d (py! "valid_principals") = some (.bytes b)) :
    getValidPrincipals d = .ok [] ↔ b = [] ∨ (b.length = 4 ∧ digitSum b ≠ 0) := by
  have hcol : ∀ l, column (py! "principal") l = .ok [] ↔ l = [] := by
    intro l
    cases l with
    | nil => simp [column]
    | cons x t =>
      simp only [column, reduceCtorEq, iff_false]
      split
      · simp
      · rcases column (py! "principal") t with _ | _ <;> simp [Except.map]
  have e1 : getValidPrincipals d = .ok [] ↔ (readRepeatedly principalFmt (Stream.of b)).1 = .ok [] := by
    unfold getValidPrincipals getItem
    rw [hd]
    simp only [asBuffer, bind, Except.bind]
    rcases (readRepeatedly principalFmt (Stream.of b)).1 with e | l
    · simp
    · simp only [hcol]; simp
  rw [e1, readRepeatedly_eq nonEmpty_principal, (Reader.readDict _).shift, Stream.of_rest]
  have hcase : (∃ t, (prs (readDict principalFmt) b).1 = .error (.eofError true t)) ↔
      b = [] ∨ (b.length = 4 ∧ digitSum b ≠ 0) := by
    unfold principalFmt readDict
    rw [prs_bind (fun _ => (Reader.readDict _).bind (fun _ => Reader.pure _)) (Reader.readFI _)]
    simp only [readFI]
    rw [prs_bind (fun _ => Reader.lift _) (Reader.readPascalBytes _), prs_readPascal4]
    by_cases h4 : b.length < 4
    · rw [if_pos h4]
      by_cases h0 : b.length = 0
      · simp [List.length_eq_zero_iff.1 h0]
      · have : b ≠ [] := fun hc => h0 (by rw [hc]; rfl)
        simp [h0, this]; omega
    · have hne : b ≠ [] := by rintro rfl; simp at h4
      rw [if_neg h4]
      by_cases h5 : b.length - 4 < digitSum (b.take 4)
      · rw [if_pos h5]
        by_cases h6 : b.length = 4
        · have : b.take 4 = b := List.take_of_length_le (by omega)
          rw [this] at h5
          have h5' : digitSum b ≠ 0 := by omega
          simp [h6, h5']
        · simp [h6, hne]
      · rw [if_neg h5]
        have hrhs : ¬ (b = [] ∨ (b.length = 4 ∧ digitSum b ≠ 0)) := by
          rintro (h | ⟨h6, h7⟩)
          · exact hne h
          · have : b.take 4 = b := List.take_of_length_le (by omega)
            rw [this] at h5
            omega
        simp only [hrhs, iff_false, prs_lift, decodePrim, bytesDecode, not_exists]
        intro t
        rcases utf8Decode? ((b.drop 4).take (digitSum (b.take 4))) with _ | x
        · simp [Except.map]
        · simp only [Except.map, readDict]
          rw [prs_bind (fun _ => Reader.pure _) (Reader.pure _), prs_pure]
          simp [prs_pure]
  rw [← hcase]
  rcases prs (readDict principalFmt) b with ⟨e | r, n⟩
  · cases e <;> simp
    rename_i bb t
    cases bb <;> simp
  · simp only [reduceCtorEq, exists_false, iff_false]
    rcases (readRepeatedly principalFmt ⟨(Stream.of b).buf, (Stream.of b).pos + n⟩).1 with e | l
    · simp [Except.map]
    · simp [Except.map]

/-- **C48** is false in full: a field of four bytes, announcing a principal of five bytes that is not there,
reads as "no principals", i.e. a certificate valid for any principal; and constructing the
certificate emits no warning about it. -/
theorem C48_false :
    getValidPrincipals [(py! "valid_principals", .bytes [0, 0, 0, 5])] = .ok [] ∧
    (certPrincipalsCheck [(py! "valid_principals", .bytes [0, 0, 0, 5])]).log = [] ∧
    ¬ ∀ (d : VDict) (b : Bytes), dget d (py! "valid_principals") = some (.bytes b) →
      getValidPrincipals d = .ok [] → b = [] := by
  have h : getValidPrincipals [(py! "valid_principals", .bytes [0, 0, 0, 5])] = .ok [] := by decide +kernel
  refine ⟨h, by decide +kernel, fun hall => ?_⟩
  have := hall _ [0, 0, 0, 5] (by simp) h
  simp at this

example : (getValidPrincipals [(py! "valid_principals", .bytes [0, 0, 0, 5, 65])]) =
    .error (.eofError false eofShortText) := by decide +kernel
example : (getValidPrincipals [(py! "valid_principals", .bytes [0, 0, 0, 0])]) = .ok [.str []] := by decide +kernel

/-! ### C49: signed bytes -/

theorem cert_types : ∀ e ∈ keyTypeMapping, e.2.1.isSubclass .certPub = isCertType e.1 := by decide +kernel

theorem priv_not_cert : ∀ e ∈ keyTypeMapping, ∀ c, e.2.2 = some c → c.isSubclass .certPub = false := by
  decide +kernel

theorem cert_iff {t : Str} {c : Cls} (h : paramsClass .pub (.str t) = .ok c) :
    c.isSubclass .certPub = isCertType t := by
  simp only [paramsClass, getPublicClass] at h
  split at h
  · simp at h
  · rename_i r hr
    obtain ⟨s, hs, hm⟩ := lookupType_mem hr
    simp at hs h; subst hs; subst h
    exact cert_types _ hm

theorem signed_format : ∀ e ∈ keyTypeMapping, e.2.1.isSubclass .certPub = true →
    formatOf e.2.1 = signedFmt e.2.1 ++ [(py! "signature", .pascal .bytes)] := by decide +kernel

theorem signedFmt_eq {t : Str} {c : Cls} (h : paramsClass .pub (.str t) = .ok c) (ht : isCertType t = true) :
    formatOf c = signedFmt c ++ [(py! "signature", .pascal .bytes)] := by
  have hi := cert_iff h
  simp only [paramsClass, getPublicClass] at h
  split at h
  · simp at h
  · rename_i r hr
    obtain ⟨s, hs, hm⟩ := lookupType_mem hr
    simp at hs h; subst hs; subst h
    generalize hf : formatOf = F at *
    have := signed_format (t, r) hm (hi.trans ht)
    rw [← hf]
    exact this

theorem packDict_append (f g : FDict) (d : VDict) :
    packDict (f ++ g) d = catE (packDict f d) (packDict g d) := by
  induction f with
  | nil => simp [packDict]
  | cons kf t ih =>
    obtain ⟨k, fi⟩ := kf
    rw [List.cons_append, packDict, packDict]
    rcases getItem d k with e | v
    · rfl
    · simp only [ih, catE_assoc]

/-- **C49.** For a certificate, `pack_public_bytes` is: the length-prefixed key type, then `pack_signed_bytes`,
then the length-prefixed signature; and it succeeds exactly when these three can be formed.
`pack_signed_bytes` is the documented certificate fields, in their order, without the last one, which
is the signature. -/
theorem C49_signed_bytes (ext : Ext) (h p f : VDict) (clear : Option VDict) (k : Key) (t : Str)
    (hk : (mkKey ext .pub h p f clear).res = .ok k) (ht : dget h (py! "key_type") = some (.str t))
    (hcert : isCertType t = true) :
    (∀ w, packPublicBytes k = .ok w ↔ ∃ cs a s sig g, t = strOf cs ∧ Prefixed 4 (utf8 cs) a ∧
      packSignedBytes k.params.cls p = .ok s ∧ dget p (py! "signature") = some (.bytes sig) ∧
      Prefixed 4 sig g ∧ w = a ++ s ++ g) ∧
    ∃ fields, publicFields t = some (fields ++ [(py! "signature", .pascal .bytes)]) ∧
      packSignedBytes k.params.cls p = written (writeDict fields p) := by
  obtain ⟨t', c, ht', hc, rfl, -⟩ := mkKeyWith_ok hk
  rw [ht] at ht'; simp at ht'; subst ht'
  have hfmt := signedFmt_eq hc hcert
  refine ⟨fun w => ?_, signedFmt c, by rw [publicFields_eq hc, hfmt], rfl⟩
  rw [packPublicBytes_eq]
  simp only [pub_class hc]
  unfold packSignedBytes
  rw [written_eq (Writes.dict _ _), hfmt, packDict_append]
  constructor
  · intro hw
    obtain ⟨w1, w2, h1, h2, rfl⟩ := catE_ok hw
    obtain ⟨s, g, h3, h4, rfl⟩ := catE_ok h2
    obtain ⟨v, a, b, e1, e2, e3, rfl⟩ := packDict_cons_ok_iff.1 h1
    rw [packDict_nil_iff] at e3; subst e3
    rw [ht] at e1; simp at e1; subst e1
    obtain ⟨cs, hcs, hpre⟩ := packFI_string_iff.1 e2
    simp at hcs
    obtain ⟨v', g', b', e1', e2', e3', rfl⟩ := packDict_cons_ok_iff.1 h4
    rw [packDict_nil_iff] at e3'; subst e3'
    obtain ⟨sig, rfl, hsig⟩ := packFI_bytes_iff.1 e2'
    exact ⟨cs, a, s, sig, g', hcs, hpre, h3, e1', hsig, by simp⟩
  · rintro ⟨cs, a, s, sig, g, rfl, hpre, h3, hsig, hg, rfl⟩
    have h1 : packDict (headerFmt .pub) h = .ok (a ++ []) :=
      packDict_cons_ok_iff.2 ⟨_, a, [], ht, packFI_string_iff.2 ⟨cs, rfl, hpre⟩, rfl, rfl⟩
    have h4 : packDict [(py! "signature", .pascal .bytes)] p = .ok (g ++ []) :=
      packDict_cons_ok_iff.2 ⟨_, g, [], hsig, packFI_bytes_iff.2 ⟨sig, rfl, hg⟩, rfl, rfl⟩
    rw [h1, h3, h4]
    simp

/-- An RSA certificate, given its authority field. -/
def exCertParams (ca : Bytes) : VDict :=
  [(py! "nonce", .bytes [1]), (py! "e", .int 17), (py! "n", .int 3233), (py! "serial", .int 7), (py! "type", .int 2),
   (py! "key_id", .str (py! "id")), (py! "valid_principals", .bytes []), (py! "valid_after", .int 0),
   (py! "valid_before", .int 18446744073709551615), (py! "critical_options", .bytes []),
   (py! "extensions", .bytes []), (py! "reserved", .bytes []), (py! "signature_key", .bytes ca),
   (py! "signature", .bytes [8, 9])]
def exCertHeader : VDict := [(py! "key_type", .str (py! "ssh-rsa-cert-v01@openssh.com"))]
def exCert (ca : Bytes) : Key := ⟨.pub, exCertHeader, ⟨.certRsa, exCertParams ca⟩, [], []⟩

example : (mkKey exExt .pub exCertHeader (exCertParams exRsaWire) [] none).res = .ok (exCert exRsaWire) ∧
    (mkKey exExt .pub exCertHeader (exCertParams exRsaWire) [] none).log = [] := by decide +kernel
/-- What the authority signs: 1-byte nonce, `e`, `n`, serial 7, type 2, `id`, no principals, validity, no
options, the authority's key. -/
def exSigned : Bytes :=
  [0, 0, 0, 1, 1] ++ [0, 0, 0, 1, 17] ++ [0, 0, 0, 2, 12, 161] ++ [0, 0, 0, 0, 0, 0, 0, 7] ++ [0, 0, 0, 2] ++
    [0, 0, 0, 2, 105, 100] ++ [0, 0, 0, 0] ++ [0, 0, 0, 0, 0, 0, 0, 0] ++ List.replicate 8 255 ++ [0, 0, 0, 0] ++
    [0, 0, 0, 0] ++ [0, 0, 0, 0] ++ ([0, 0, 0, 22] ++ exRsaWire)
example : packSignedBytes .certRsa (exCertParams exRsaWire) = .ok exSigned := by decide +kernel
example : packPublicBytes (exCert exRsaWire) =
      .ok ([0, 0, 0, 28] ++ pb! "ssh-rsa-cert-v01@openssh.com" ++ exSigned ++ [0, 0, 0, 2, 8, 9]) := by
  decide +kernel

/-! ### C50: principal type and guards -/

/-- **C50** (type). `get_type` returns USER exactly for a stored 1, HOST exactly for a stored 2, and raises
`ValueError` for every other stored value; what was set is what is returned. -/
theorem C50_type (d : VDict) :
    (getType d = .ok .user ↔ dget d (py! "type") = some (.int 1)) ∧
    (getType d = .ok .host ↔ dget d (py! "type") = some (.int 2)) ∧
    (∀ v, dget d (py! "type") = some v → v ≠ .int 1 → v ≠ .int 2 →
      ∃ e, getType d = .error e ∧ e.isValueError = true) ∧
    (∀ t, getType (setType d t) = .ok t) ∧
    (∀ t n, n ≠ py! "type" → dget (setType d t) n = dget d n) := by
  refine ⟨?_, ?_, ?_, ?_, ?_⟩
  · unfold getType getItem
    rcases dget d (py! "type") with _ | v
    · simp
    · by_cases h1 : v = .int 1
      · subst h1; decide
      · by_cases h2 : v = .int 2
        · subst h2; decide
        · simp [PrincipalType.value, h1, h2]
  · unfold getType getItem
    rcases dget d (py! "type") with _ | v
    · simp
    · by_cases h1 : v = .int 1
      · subst h1; decide
      · by_cases h2 : v = .int 2
        · subst h2; decide
        · simp [PrincipalType.value, h1, h2]
  · intro v hv h1 h2
    unfold getType getItem
    simp [hv, PrincipalType.value, h1, h2, Exn.isValueError]
  · intro t
    unfold getType setType getItem
    simp only [dget_dset_self]
    cases t <;> rfl
  · intro t n hn
    exact dget_dset_ne (Ne.symm hn) _ _

/-- **C50** (guards). Every documented option is for user certificates.  Using one on a certificate whose
stored type is anything but 1 raises `ValueError`, from getters and setters alike, and leaves the
certificate unchanged; on a user certificate it is the same as using its name. -/
theorem C50_option_guard (d : VDict) (param : Str) (o : CertOption) (v : Val) :
    (∀ t, dget d (py! "type") = some t → t ≠ .int 1 →
      (∃ e, getOption d param (.opt o) = ⟨[], .error e⟩ ∧ e.isValueError = true) ∧
      (∃ e, setOption d param (.opt o) v = (⟨[], .error e⟩, d) ∧ e.isValueError = true)) ∧
    (dget d (py! "type") = some (.int 1) →
      getOption d param (.opt o) = getOption d param (.name o.name) ∧
      setOption d param (.opt o) v = setOption d param (.name o.name) v) := by
  constructor
  · intro t ht hne
    have hg : ∃ e, optionGuard d (.opt o) = .error e ∧ e.isValueError = true := by
      unfold optionGuard
      by_cases h2 : t = .int 2
      · subst h2
        rw [((C50_type d).2.1).2 ht]
        exact ⟨_, rfl, rfl⟩
      · obtain ⟨e, he, hv⟩ := (C50_type d).2.2.1 t ht hne h2
        rw [he]
        exact ⟨e, rfl, hv⟩
    obtain ⟨e, he, hv⟩ := hg
    refine ⟨⟨e, getOption_guard he, hv⟩, e, ?_, hv⟩
    simp [setOption, he]
  · intro ht
    have hg : optionGuard d (.opt o) = .ok () := by
      unfold optionGuard
      rw [((C50_type d).1).2 ht]
      rfl
    constructor
    · unfold getOption
      rw [hg]; rfl
    · unfold setOption
      rw [hg]; rfl

/-- **C50** (failed set operations). Whenever a set operation raises, the certificate is unchanged. -/
theorem C50_failed_set (d d' : VDict) (param : Str) (o : OptArg) (v : Val) (lg : List Event) (e : Exn)
    (h : setOption d param o v = (⟨lg, .error e⟩, d')) : d' = d := by
  unfold setOption at h
  simp only at h
  split at h
  · simp at h
  · simp at h; exact h.2.symm

example : getType [(py! "type", .int 2)] = .ok .host := by decide +kernel
example : (getOption (setType exOptCert .host) (py! "extensions") (.opt .permitPty)).res.toBool = false := by
  decide +kernel
example : (getOption exOptCert (py! "extensions") (.opt .permitPty)).res = .ok (some (.bytes (pb! "hi"))) := by
  decide +kernel

/-! ### C51: the authority's key -/

/-- **C51** (certificates are rejected). `set_signature_key` with a certificate raises `ValueError` and changes
nothing. -/
theorem C51_rejects_certificates (ext : Ext) (d h p f : VDict) (clear : Option VDict) (k : Key) (t : Str)
    (hk : (mkKey ext .pub h p f clear).res = .ok k) (ht : dget h (py! "key_type") = some (.str t))
    (hcert : isCertType t = true) :
    ∃ e, setSignatureKey d k = (.error e, d) ∧ e.isValueError = true := by
  obtain ⟨t', c, ht', hc, rfl, -⟩ := mkKeyWith_ok hk
  rw [ht] at ht'; simp at ht'; subst ht'
  unfold setSignatureKey
  rw [if_pos (by rw [cert_iff hc]; exact hcert)]
  exact ⟨_, rfl, rfl⟩

/-- **C51** (other keys). Any other public key that can be packed is accepted, and `get_signature_key` then
returns it: same key type, same class, same documented parameters, with the warnings of its
construction and no others.  If it cannot be packed, nothing changes. -/
theorem C51_roundtrip (ext : Ext) (d h p f : VDict) (clear : Option VDict) (k : Key) (t : Str)
    (hk : (mkKey ext .pub h p f clear).res = .ok k) (ht : dget h (py! "key_type") = some (.str t))
    (hcert : isCertType t = false) :
    (∀ b, packPublicBytes k = .ok b → ∃ d' fields k', setSignatureKey d k = (.ok (), d') ∧
      publicFields t = some fields ∧
      getSignatureKey ext d' = ⟨(mkKey ext .pub h p f clear).log, .ok k'⟩ ∧
      k'.kind = .pub ∧ k'.header = [(py! "key_type", .str t)] ∧ k'.params.cls = k.params.cls ∧
      dkeys k'.params.data = dkeys fields ∧ (∀ n ∈ dkeys fields, dget k'.params.data n = dget p n) ∧
      k'.footer = [] ∧ k'.clear = [] ∧ ∀ n, n ≠ py! "signature_key" → dget d' n = dget d n) ∧
    (∀ e, packPublicBytes k = .error e → setSignatureKey d k = (.error e, d)) := by
  obtain ⟨t', c, ht', hc, hkeq, -⟩ := mkKeyWith_ok hk
  rw [ht] at ht'; simp at ht'; subst ht'
  have hnc : k.params.cls.isSubclass .certPub = false := by rw [hkeq]; exact (cert_iff hc).trans hcert
  constructor
  · intro b hb
    obtain ⟨t2, fields, k', e1, e2, e3, e4, e5, e6, e7, e8, e9, e10⟩ :=
      C15_public_key_roundtrip ext h p f clear k b hk hb
    rw [ht] at e1; simp at e1; subst e1
    refine ⟨dset d (py! "signature_key") (.bytes b), fields, k', ?_, e2, ?_, e4, e5, e6, e7,
      fun n hn => (e8 n hn).1, e9, e10, fun n hn => dget_dset_ne (Ne.symm hn) _ _⟩
    · unfold setSignatureKey
      rw [if_neg (by rw [hnc]; simp), hb]
    · unfold getSignatureKey getSignatureKeyWith getItem
      simp only [dget_dset_self, Eff.lift_ok_bind, asBuffer]
      rw [caFromBytes_eq, e3, Eff.mk_bind_ok, e6, hnc]
      simp
  · intro e he
    unfold setSignatureKey
    rw [if_neg (by rw [hnc]; simp), he]

example : (setSignatureKey exOptCert exRsaKey).2 = dset exOptCert (py! "signature_key") (.bytes exRsaWire) := by
  decide +kernel
example : (getSignatureKey exExt (setSignatureKey exOptCert exRsaKey).2).res =
    .ok ⟨.pub, exRsaHeader, ⟨.rsaPub, [(py! "e", .int 17), (py! "n", .int 3233)]⟩, [], []⟩ := by decide +kernel

/-! ### C52: nested authorities -/

/-- The bytes `b` are read as a key whose authority field holds `x`. -/
def Spec.IsAuthority (b x : Bytes) : Prop :=
  ∃ h p f s, readKey .pub (Stream.of b) = (.ok (h, p, f), s) ∧ dget p (py! "signature_key") = some (.bytes x)

/-- A chain of nested authorities: the authority of the first, the authority of that one, and so on. -/
inductive Spec.AuthorityChain : Bytes → Nat → Prop
  | here (b : Bytes) : AuthorityChain b 0
  | nested {b x : Bytes} {n : Nat} : IsAuthority b x → AuthorityChain x n → AuthorityChain b (n + 1)

theorem authority_lt {b x : Bytes} (h : IsAuthority b x) : x.length < b.length := by
  obtain ⟨hd, p, f, s, hr, hx⟩ := h
  rw [readKey_streamOf] at hr
  rcases hp : prs (readKey .pub) b with ⟨r, n⟩
  rw [hp] at hr
  simp at hr
  obtain ⟨rfl, -⟩ := hr
  exact readKey_ca_lt hp hx

/-- **C52.** Nesting of authority keys is at most as deep as there are bytes; parsing satisfies the recursive
equation of the code, with no depth limit involved; any larger limit gives the same outcome; and
running out of depth never is the outcome. -/
theorem C52_nesting_bounded (ext : Ext) (b : Bytes) :
    (∀ n, AuthorityChain b n → n ≤ b.length) ∧
    (∀ kind clear, fromBytes ext kind b clear =
      fromBytesWith ext (fun x => fromBytes ext .pub x none) kind b clear) ∧
    (∀ n, b.length < n → pubFromBytesFuel ext n b = fromBytes ext .pub b none) ∧
    (∀ kind clear, (fromBytes ext kind b clear).res ≠ .error .recursionError) := by
  refine ⟨?_, ?_, ?_, ?_⟩
  · intro n h
    induction h with
    | here b => omega
    | nested ha _ ih => have := authority_lt ha; omega
  · intro kind clear
    have e : caFromBytes ext = fun x => fromBytes ext .pub x none := funext (caFromBytes_eq ext)
    rw [← e]
    rfl
  · intro n hn
    rw [pubFromBytesFuel_stable ext n b hn, caFromBytes_eq]
  · intro kind clear h
    rcases (fromBytes_within ext kind b clear).exn _ h with ⟨k, hk⟩ | hk | hk
    · simp at hk
    · simp at hk
    · simp [Exn.isEOFError] at hk

/-- A certificate whose authority is a certificate: the chain of authorities has length 2. -/
def exCertWire (ca : Bytes) : Bytes := (packPublicBytes (exCert ca)).toOption.getD []

theorem isAuthority_of {b x : Bytes} {h p f : VDict} (h1 : (readKey .pub (Stream.of b)).1 = .ok (h, p, f))
    (h2 : dget p (py! "signature_key") = some (.bytes x)) : IsAuthority b x :=
  ⟨h, p, f, _, Prod.ext h1 rfl, h2⟩

theorem exCert_authority : IsAuthority (exCertWire (exCertWire exRsaWire)) (exCertWire exRsaWire) ∧
    IsAuthority (exCertWire exRsaWire) exRsaWire :=
  ⟨isAuthority_of (h := exCertHeader) (p := exCertParams (exCertWire exRsaWire)) (f := [])
      (by decide +kernel) (by decide +kernel),
    isAuthority_of (h := exCertHeader) (p := exCertParams exRsaWire) (f := []) (by decide +kernel)
      (by decide +kernel)⟩

example : AuthorityChain (exCertWire (exCertWire exRsaWire)) 2 :=
  .nested exCert_authority.1 (.nested exCert_authority.2 (.here _))
example : (fromBytes exExt .pub (exCertWire (exCertWire exRsaWire)) none).log = [.warn .caIsCert] ∧
    (fromBytes exExt .pub (exCertWire (exCertWire exRsaWire)) none).res =
      .ok (exCert (exCertWire exRsaWire)) := by decide +kernel

/-! ### C53: a malformed authority field -/

theorem certPlan : ∀ e ∈ keyTypeMapping, isCertType e.1 = true →
    checkPlan e.2.1 = (checkPlan e.2.1).dropLast ++ [.certPub] ∧ Cls.certPub ∉ (checkPlan e.2.1).dropLast := by
  decide +kernel

theorem certPlan_eq {t : Str} {c : Cls} (h : paramsClass .pub (.str t) = .ok c) (ht : isCertType t = true) :
    ∃ pre, checkPlan c = pre ++ [.certPub] ∧ Cls.certPub ∉ pre := by
  simp only [paramsClass, getPublicClass] at h
  split at h
  · simp at h
  · rename_i r hr
    obtain ⟨s, hs, hm⟩ := lookupType_mem hr
    simp at hs h; subst hs; subst h
    have := certPlan (t, r) hm ht
    exact ⟨_, this.1, this.2⟩

theorem runChecks_append (f : Cls → Eff Unit) (l l' : List Cls) :
    runChecks f (l ++ l') = (do runChecks f l; runChecks f l') := by
  induction l with
  | nil => simp [runChecks]
  | cons D t ih =>
    rw [List.cons_append, runChecks, runChecks, Eff.bind_assoc]
    congr 1
    funext _
    exact ih

/-- Not the warning about the authority. -/
def NotCa (v : Event) : Prop := v ≠ .warn .caInvalid

theorem checkDict_notCa {P : Exn → Prop} {fmt : FDict} (hp : plainFmt fmt = true) (d : VDict) :
    Within P NotCa (checkDict d fmt) := by
  refine ⟨(checkDict_within (P := P) hp d).exn, ?_⟩
  clear hp
  induction fmt with
  | nil => intro v hv; simp [checkDict] at hv
  | cons kf t ih =>
    obtain ⟨k, fi⟩ := kf
    intro v hv
    rcases Eff.mem_bind_log hv with h | ⟨a, -, h⟩
    · unfold checkField at h
      split at h
      · simp at h; subst h; simp [NotCa]
      · split at h
        · split at h <;> simp at h
          subst h; simp [NotCa]
        · split at h <;> simp at h
          subst h; simp [NotCa]
        · split at h <;> simp at h
          subst h; simp [NotCa]
        · simp at h
    · exact ih v h

theorem localCheck_notCa {P : Exn → Prop} {ext : Ext} {ca : Bytes → Eff Key} {T D : Cls} {d : VDict}
    (hT : plainFmt (formatOf T) = true) (hD : D ≠ .certPub) : Within P NotCa (localCheck ext ca T d D) := by
  have hw : ∀ w, w ≠ Warning.caInvalid → Within P NotCa (Eff.warn w) := by
    intro w hw
    exact Within.warn (by intro hc; simp at hc; exact hw hc)
  cases D <;> try exact Within.pure _
  · exact checkDict_notCa hT d
  · simp only [localCheck, ed25519PubLocalCheck]
    split
    · exact Within.pure _
    · exact Within.ite (fun _ => hw _ (by simp)) (fun _ => Within.pure _)
  · simp only [localCheck, ed25519PrivLocalCheck]
    split
    · exact Within.warnIf (by simp [NotCa])
        (Within.ite (fun _ => hw _ (by simp)) (fun _ => Within.pure _))
    · exact Within.pure _
  · simp only [localCheck, ecdsaLocalCheck]
    split
    · exact Within.pure _
    · refine Within.warnIf (by simp [NotCa]) ?_
      split
      · exact Within.pure _
      · exact Within.ite (fun _ => Within.pure _) (fun _ => hw _ (by simp))
  · exact absurd rfl hD

theorem runChecks_notCa {P : Exn → Prop} {ext : Ext} {ca : Bytes → Eff Key} {T : Cls} {d : VDict} {l : List Cls}
    (hT : plainFmt (formatOf T) = true) (hl : Cls.certPub ∉ l) :
    Within P NotCa (runChecks (localCheck ext ca T d) l) := by
  induction l with
  | nil => exact Within.pure _
  | cons D t ih =>
    simp at hl
    exact (localCheck_notCa hT (Ne.symm hl.1)).bind fun _ _ => ih hl.2

theorem eofWarns_notCa {α : Type} {P : Exn → Prop} {x : Eff α} {w : Warning}
    (hx : Within ReadExn NotCa x) (hP : x.res = .error .unicodeDecodeError → P .unicodeDecodeError)
    (hw : w ≠ .caInvalid) : Within P NotCa (eofWarns x w) := by
  unfold eofWarns Eff.tryCatch
  rcases hr : x.res with e | a
  · have hb : (do let _ ← x; pure () : Eff Unit) = ⟨x.log, .error e⟩ := Eff.bind_error hr _
    rw [hb]
    simp only
    rcases hx.exn e hr with he | rfl
    · simp only [he, if_true]
      refine ⟨by simp, ?_⟩
      intro v hv
      simp at hv
      rcases hv with hv | rfl
      · exact hx.ev v hv
      · intro hc; simp at hc; exact hw hc
    · simp only [Exn.isEOFError]
      exact ⟨fun e he => by simp at he; subst he; exact hP hr, hx.ev⟩
  · have hb : (do let _ ← x; pure () : Eff Unit) = ⟨x.log, .ok ()⟩ := by
      rw [Eff.bind_ok hr]; simp
    rw [hb]
    exact ⟨by simp, hx.ev⟩

theorem options_notCa {d : VDict} {param : Str} {b : Bytes} (hb : bytesOf? d param = some b) :
    Within ReadExn NotCa (getOptionValues d param) := by
  refine ⟨(options_within hb).exn, ?_⟩
  intro v hv
  have hcol : ∀ (l : List VDict) (acc : VDict), ∀ v ∈ (collectOptions param acc l).log, NotCa v := by
    intro l
    induction l with
    | nil => intro acc v hv; simp [collectOptions] at hv
    | cons r t ih =>
      intro acc v hv
      rw [collectOptions] at hv
      split at hv
      · split at hv
        · rcases Eff.mem_bind_log hv with h | ⟨_, -, h⟩
          · simp at h; subst h; simp [NotCa]
          · exact ih _ v h
        · exact ih _ v hv
      · simp at hv
  unfold getOptionValues at hv
  rcases Eff.mem_bind_log hv with h | ⟨_, -, h⟩
  · simp at h
  · rcases Eff.mem_bind_log h with h | ⟨_, -, h⟩
    · simp at h
    · rcases Eff.mem_bind_log h with h | ⟨_, -, h⟩
      · simp at h
      · exact hcol _ _ v h

/-- The check of the authority field, by the outcome of parsing it. -/
theorem certCaCheck_eq (ext : Ext) {d : VDict} {b : Bytes} (hb : dget d (py! "signature_key") = some (.bytes b)) :
    certCaCheck (caFromBytes ext) d =
      match fromBytes ext .pub b none with
      | ⟨lg, .ok k⟩ => ⟨lg ++ (if k.params.cls.isSubclass .certPub then [.warn .caIsCert] else []), .ok ()⟩
      | ⟨lg, .error (.keyError k)⟩ => ⟨lg, .error (.keyError k)⟩
      | ⟨lg, .error _⟩ => ⟨lg ++ [.warn .caInvalid], .ok ()⟩ := by
  have hbo : bytesOf? d (py! "signature_key") = some b := by simp [bytesOf?, hb]
  have hw := fromBytes_within ext .pub b none
  unfold certCaCheck
  rw [if_pos (by rw [hbo]; rfl)]
  have hg : getSignatureKeyWith (caFromBytes ext) d = (do
      let k ← fromBytes ext .pub b none
      if k.params.cls.isSubclass .certPub then Eff.warn .caIsCert
      pure k) := by
    unfold getSignatureKeyWith getItem
    simp only [hb, asBuffer, Eff.lift_ok_bind, caFromBytes_eq]
  rw [hg]
  rcases hr : fromBytes ext .pub b none with ⟨lg, e | k⟩
  · rw [hr] at hw
    simp only [Eff.mk_bind_error]
    have := hw.exn e rfl
    unfold Eff.tryCatch
    rcases this with ⟨k, rfl⟩ | rfl | he
    · simp [Exn.isValueError, Exn.isEOFError]
    · simp [Exn.isValueError]
    · cases e <;> simp [Exn.isEOFError] at he
      simp [Exn.isEOFError]
  · simp only [Eff.mk_bind_ok]
    unfold Eff.tryCatch
    by_cases hc : k.params.cls.isSubclass .certPub = true
    · rw [if_pos hc, if_pos hc]
      have ew : (do Eff.warn .caIsCert; pure k : Eff Key) = ⟨[.warn .caIsCert], .ok k⟩ := rfl
      simp only [ew, Eff.mk_bind_ok]
      simp
    · rw [if_neg hc, if_neg hc]
      have ew : (pure k : Eff Key) = ⟨[], .ok k⟩ := rfl
      simp only [ew, Eff.mk_bind_ok]
      simp

/-- Text in the principals or options that is not UTF-8. -/
def BadText (d : VDict) (e : Exn) : Prop :=
  e = .unicodeDecodeError ∧ (getValidPrincipals d = .error e ∨
    (getOptionValues d (py! "critical_options")).res = .error e ∨
    (getOptionValues d (py! "extensions")).res = .error e)

/-- The checks of a certificate before that of the authority. -/
def certBefore (ext : Ext) (ca : Bytes → Eff Key) (c : Cls) (d : VDict) (pre : List Cls) : Eff Unit := do
  runChecks (localCheck ext ca c d) pre
  certTypeCheck d
  certPrincipalsCheck d
  certOptionsCheck d (py! "critical_options") .certCriticalOptions
  certOptionsCheck d (py! "extensions") .certExtensions

theorem certBefore_within {ext : Ext} {ca : Bytes → Eff Key} {c : Cls} {d : VDict} {pre : List Cls}
    (hplain : plainFmt (formatOf c) = true) (hpre : Cls.certPub ∉ pre) :
    Within (BadText d) NotCa (certBefore ext ca c d pre) := by
  refine Within.bind (runChecks_notCa hplain hpre) fun _ _ => Within.bind ?_ fun _ _ =>
    Within.bind ?_ fun _ _ => Within.bind ?_ fun _ _ => ?_
  · unfold certTypeCheck
    refine Within.ite (fun hh => ?_) (fun _ => Within.pure _)
    refine Within.tryCatch (P' := fun e => e.isValueError = true)
      (Within.bind (Within.lift ?_) fun _ _ => Within.pure _) ?_ ?_
    · intro e he
      rw [dhas_iff, ← dget_isSome_iff, Option.isSome_iff_exists] at hh
      obtain ⟨v, hv⟩ := hh
      by_cases h1 : v = .int 1
      · rw [((C50_type d).1).2 (by rw [hv, h1])] at he; simp at he
      · by_cases h2 : v = .int 2
        · rw [((C50_type d).2.1).2 (by rw [hv, h2])] at he; simp at he
        · obtain ⟨e', he', hv'⟩ := (C50_type d).2.2.1 v hv h1 h2
          rw [he'] at he; simp at he; subst he; exact hv'
    · intro e he hn; simp [he] at hn
    · intro e y he hy
      simp [he] at hy; subst hy
      exact Within.warn (by simp [NotCa])
  · unfold certPrincipalsCheck
    refine Within.ite (fun hh => ?_) (fun _ => Within.pure _)
    obtain ⟨x, hx⟩ := isSome_iff.1 hh
    exact eofWarns_notCa (Within.lift (principals_within hx))
      (fun he => ⟨rfl, Or.inl (by simpa using he)⟩) (by simp)
  · unfold certOptionsCheck
    refine Within.ite (fun hh => ?_) (fun _ => Within.pure _)
    obtain ⟨x, hx⟩ := isSome_iff.1 hh
    exact eofWarns_notCa (options_notCa hx) (fun he => ⟨rfl, Or.inr (Or.inl he)⟩) (by simp)
  · unfold certOptionsCheck
    refine Within.ite (fun hh => ?_) (fun _ => Within.pure _)
    obtain ⟨x, hx⟩ := isSome_iff.1 hh
    exact eofWarns_notCa (options_notCa hx) (fun he => ⟨rfl, Or.inr (Or.inr he)⟩) (by simp)

/-- **C53** (the part that holds). Constructing certificate parameters of any type from any values, with any
bytes in the authority field, raises only: the `KeyError` that parsing the authority field raises; or
`UnicodeDecodeError` that reading the principals, critical options or extensions raises.  If it does
not raise, the warning about the authority is emitted exactly when the authority field does not parse
(or parsing it emitted this warning itself, about an authority further inside).

Full statement: it never raises.  `C53_false` shows that it does, for an authority key of a type that
is not supported. -/
theorem C53_authority_partial (ext : Ext) (t : Str) (c : Cls) (hc : paramsClass .pub (.str t) = .ok c)
    (ht : isCertType t = true) (d : VDict) (b : Bytes)
    (hb : dget d (py! "signature_key") = some (.bytes b)) :
    (∀ e, (newParams ext c d).res = .error e →
      (∃ k, e = .keyError k ∧ (fromBytes ext .pub b none).res = .error e) ∨
      (e = .unicodeDecodeError ∧ (getValidPrincipals d = .error e ∨
        (getOptionValues d (py! "critical_options")).res = .error e ∨
        (getOptionValues d (py! "extensions")).res = .error e))) ∧
    (∀ prm, (newParams ext c d).res = .ok prm →
      (.warn .caInvalid ∈ (newParams ext c d).log ↔
        (∃ e, (fromBytes ext .pub b none).res = .error e) ∨
          .warn .caInvalid ∈ (fromBytes ext .pub b none).log)) := by
  obtain ⟨pre, hplan, hpre⟩ := certPlan_eq hc ht
  have hplain := plain_class hc
  let P : Exn → Prop := fun e => e = .unicodeDecodeError ∧ (getValidPrincipals d = .error e ∨
        (getOptionValues d (py! "critical_options")).res = .error e ∨
        (getOptionValues d (py! "extensions")).res = .error e)
  let A : Eff Unit := do
    runChecks (localCheck ext (caFromBytes ext) c d) pre
    certTypeCheck d
    certPrincipalsCheck d
    certOptionsCheck d (py! "critical_options") .certCriticalOptions
    certOptionsCheck d (py! "extensions") .certExtensions
  have hA : Within P NotCa A := certBefore_within hplain hpre
  have hnew : newParams ext c d = (do
      A
      certCaCheck (caFromBytes ext) d
      pure ⟨c, d⟩) := by
    unfold newParams newParamsWith
    rw [hplan, runChecks_append]
    simp only [A, runChecks, localCheck, certLocalCheck, Eff.bind_assoc, Eff.pure_bind]
  rw [hnew]
  have hca := certCaCheck_eq ext hb
  constructor
  · intro e he
    rcases Eff.bind_res_error_iff.1 he with h | ⟨_, _, h⟩
    · exact Or.inr (hA.exn e h)
    · rcases Eff.bind_res_error_iff.1 h with h | ⟨_, _, h⟩
      · left
        rw [hca] at h
        rcases hf : fromBytes ext .pub b none with ⟨lg, e' | k⟩
        · rw [hf] at h
          cases e' <;> simp at h
          subst h
          exact ⟨_, rfl, rfl⟩
        · rw [hf] at h; simp at h
      · simp at h
  · intro prm hok
    obtain ⟨_, hAok, h2⟩ := Eff.bind_res_ok_iff.1 hok
    obtain ⟨_, hcaok, -⟩ := Eff.bind_res_ok_iff.1 h2
    rw [Eff.bind_log_ok hAok, Eff.bind_log_ok hcaok]
    have hnA : (.warn .caInvalid : Event) ∉ A.log := fun hm => hA.ev _ hm rfl
    simp only [List.mem_append, hnA, false_or, Eff.pure_log, List.not_mem_nil, or_false]
    rw [hca] at hcaok ⊢
    rcases hf : fromBytes ext .pub b none with ⟨lg, e' | k⟩
    · rw [hf] at hcaok
      cases e' <;> simp at hcaok ⊢
    · simp

/-- An authority field that holds a key of a type that is not supported. -/
def exForeignCa : Bytes := [0, 0, 0, 7] ++ pb! "ssh-foo" ++ [1, 2, 3]

/-- **C53** is false in full: with an authority key of an unsupported type, constructing the certificate raises
`KeyError`; with an authority field that is not a key at all, it warns, as claimed. -/
theorem C53_false :
    (newParams exExt .certRsa (exCertParams exForeignCa)).res = .error (.keyError (some (py! "ssh-foo"))) ∧
    (newParams exExt .certRsa (exCertParams [0, 0, 0, 7])).log = [.warn .caInvalid] ∧
    ¬ ∀ (ext : Ext) (t : Str) (c : Cls) (d : VDict) (b : Bytes), paramsClass .pub (.str t) = .ok c →
      isCertType t = true → dget d (py! "signature_key") = some (.bytes b) →
      ∃ prm, (newParams ext c d).res = .ok prm := by
  have h : (newParams exExt .certRsa (exCertParams exForeignCa)).res =
      .error (.keyError (some (py! "ssh-foo"))) := by decide +kernel
  refine ⟨h, by decide +kernel, fun hall => ?_⟩
  obtain ⟨prm, hp⟩ := hall exExt (py! "ssh-rsa-cert-v01@openssh.com") .certRsa (exCertParams exForeignCa)
    exForeignCa (by decide +kernel) (by decide +kernel) (by decide +kernel)
  rw [h] at hp
  simp at hp

end OSK
