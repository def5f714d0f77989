import Verif.Lemmas.KeyExn
/-
Option blobs and principals lists of certificates.
-/
namespace OSK
open Spec

/-! ### Order of strings -/

theorem strLt_iff {a b : Str} : strLt a b = true ↔ a < b := by
  induction a generalizing b with
  | nil => cases b <;> simp [strLt]
  | cons x xs ih =>
    cases b with
    | nil => simp [strLt]
    | cons y ys =>
      rw [List.cons_lt_cons_iff, strLt]
      by_cases h1 : x < y
      · simp [h1]
      · rw [if_neg h1]
        by_cases h2 : y < x
        · simp [h2]; omega
        · rw [if_neg h2, ih]
          have : x = y := by omega
          simp [this]

theorem strLt_total {a b : Str} (h : strLt a b = false) (hne : a ≠ b) : b < a := by
  induction a generalizing b with
  | nil => cases b <;> simp [strLt] at h hne
  | cons x xs ih =>
    cases b with
    | nil => simp
    | cons y ys =>
      rw [List.cons_lt_cons_iff]
      rw [strLt] at h
      by_cases h1 : x < y
      · simp [h1] at h
      · rw [if_neg h1] at h
        by_cases h2 : y < x
        · exact Or.inl h2
        · rw [if_neg h2] at h
          have : x = y := by omega
          subst this
          exact Or.inr ⟨rfl, ih h (by simpa using hne)⟩

theorem insertSorted_perm (x : Str) (l : List Str) : (insertSorted x l).Perm (x :: l) := by
  induction l with
  | nil => simp [insertSorted]
  | cons y t ih =>
    rw [insertSorted]
    split
    · exact (ih.cons y).trans (List.Perm.swap x y t)
    · exact List.Perm.refl _

theorem sortedStrs_perm (l : List Str) : (sortedStrs l).Perm l := by
  induction l with
  | nil => exact List.Perm.refl _
  | cons x t ih => exact (insertSorted_perm x _).trans (ih.cons x)

theorem insertSorted_sorted {x : Str} {l : List Str} (h : l.Pairwise (· < ·)) (hx : x ∉ l) :
    (insertSorted x l).Pairwise (· < ·) := by
  induction l with
  | nil => simp [insertSorted]
  | cons y t ih =>
    rw [List.pairwise_cons] at h
    simp at hx
    rw [insertSorted]
    split
    · rename_i hlt
      rw [List.pairwise_cons]
      refine ⟨?_, ih h.2 hx.2⟩
      intro z hz
      have := (insertSorted_perm x t).mem_iff.1 hz
      simp at this
      rcases this with rfl | hz
      · exact strLt_iff.1 hlt
      · exact h.1 z hz
    · rename_i hlt
      have hyx : x < y := strLt_total (by simpa using hlt) (Ne.symm hx.1)
      rw [List.pairwise_cons]
      refine ⟨?_, List.pairwise_cons.2 h⟩
      intro z hz
      simp at hz
      rcases hz with rfl | hz
      · exact hyx
      · exact List.lt_trans hyx (h.1 z hz)

theorem sortedStrs_sorted {l : List Str} (h : l.Nodup) : (sortedStrs l).Pairwise (· < ·) := by
  induction l with
  | nil => simp [sortedStrs]
  | cons x t ih =>
    rw [List.nodup_cons] at h
    exact insertSorted_sorted (ih h.2) (fun hx => h.1 ((sortedStrs_perm t).mem_iff.1 hx))

theorem pairwise_lt_ext {l l' : List Str} (h : l.Pairwise (· < ·)) (h' : l'.Pairwise (· < ·))
    (hm : ∀ x, x ∈ l ↔ x ∈ l') : l = l' := by
  induction l generalizing l' with
  | nil =>
    cases l' with
    | nil => rfl
    | cons y t => have := (hm y).2 (by simp); simp at this
  | cons x t ih =>
    cases l' with
    | nil => have := (hm x).1 (by simp); simp at this
    | cons y t' =>
      rw [List.pairwise_cons] at h h'
      have hxy : x = y := by
        have h1 := (hm x).1 (by simp)
        have h2 := (hm y).2 (by simp)
        simp at h1 h2
        rcases h1 with h1 | h1
        · exact h1
        · rcases h2 with h2 | h2
          · exact h2.symm
          · exact absurd (List.lt_trans (h.1 y h2) (h'.1 x h1)) (List.lt_irrefl x)
      subst hxy
      congr 1
      apply ih h.2 h'.2
      intro z
      have := hm z
      simp only [List.mem_cons] at this
      constructor
      · intro hz
        rcases this.1 (Or.inr hz) with rfl | hz'
        · exact absurd (h.1 z hz) (List.lt_irrefl z)
        · exact hz'
      · intro hz
        rcases this.2 (Or.inr hz) with rfl | hz'
        · exact absurd (h'.1 z hz) (List.lt_irrefl z)
        · exact hz'

theorem pairwise_lt_nodup {l : List Str} (h : l.Pairwise (· < ·)) : l.Nodup :=
  h.imp (fun {a b} hab => by rintro rfl; exact List.lt_irrefl a hab)

/-! ### Sorted dicts -/

/-- The entries of a dict by increasing key. -/
def sortedDict (m : VDict) : VDict :=
  (sortedStrs (dkeys m)).filterMap (fun o => (dget m o).map (fun v => (o, v)))

theorem filterMap_keys {m : VDict} {l : List Str} (h : ∀ o ∈ l, o ∈ dkeys m) :
    dkeys (l.filterMap (fun o => (dget m o).map (fun v => (o, v)))) = l := by
  induction l with
  | nil => rfl
  | cons x t ih =>
    have hx := h x (by simp)
    rw [← dget_isSome_iff, Option.isSome_iff_exists] at hx
    obtain ⟨v, hv⟩ := hx
    simp only [List.filterMap_cons, hv, Option.map_some, dkeys_cons]
    rw [ih (fun o ho => h o (by simp [ho]))]

theorem dkeys_sortedDict (m : VDict) : dkeys (sortedDict m) = sortedStrs (dkeys m) :=
  filterMap_keys (fun _ ho => (sortedStrs_perm _).mem_iff.1 ho)

theorem filterMap_get {m : VDict} {l : List Str} (k : Str) :
    dget (l.filterMap (fun o => (dget m o).map (fun v => (o, v)))) k = if k ∈ l then dget m k else none := by
  induction l with
  | nil => simp
  | cons x t ih =>
    rcases hx : dget m x with _ | v
    · simp only [List.filterMap_cons, hx, Option.map_none, ih]
      by_cases h : k = x
      · subst h; simp [hx]
      · simp [h]
    · simp only [List.filterMap_cons, hx, Option.map_some]
      by_cases h : k = x
      · subst h; simp [hx]
      · rw [dget_cons_ne (Ne.symm h), ih]; simp [h]

theorem dget_sortedDict (m : VDict) (k : Str) : dget (sortedDict m) k = dget m k := by
  unfold sortedDict
  rw [filterMap_get]
  split
  · rfl
  · rename_i h
    rw [(sortedStrs_perm _).mem_iff] at h
    exact (dget_eq_none_iff.2 h).symm

theorem sortedDict_sorted {m : VDict} (h : (dkeys m).Nodup) : (dkeys (sortedDict m)).Pairwise (· < ·) := by
  rw [dkeys_sortedDict]; exact sortedStrs_sorted h

theorem sortedDict_congr {m m' : VDict} (h : (dkeys m).Nodup) (h' : (dkeys m').Nodup)
    (hg : ∀ k, dget m k = dget m' k) : sortedDict m = sortedDict m' := by
  unfold sortedDict
  have e : sortedStrs (dkeys m) = sortedStrs (dkeys m') := by
    apply pairwise_lt_ext (sortedStrs_sorted h) (sortedStrs_sorted h')
    intro x
    rw [(sortedStrs_perm _).mem_iff, (sortedStrs_perm _).mem_iff, ← dget_isSome_iff, ← dget_isSome_iff, hg]
  rw [e]
  simp only [hg]

theorem findOption_eq (k : Str) (m : VDict) : findOption k m = dget m k := by
  induction m with
  | nil => rfl
  | cons kv t ih =>
    obtain ⟨k', v⟩ := kv
    rw [findOption, dget_cons, ih]
    simp only [eq_comm]

/-! ### Lists of records -/

theorem packDicts_ok_iff {fmt : FDict} {ds : List VDict} :
    (∃ w, packDicts fmt ds = .ok w) ↔ ∀ d ∈ ds, ∃ w, packDict fmt d = .ok w := by
  induction ds with
  | nil => simp [packDicts]
  | cons d t ih =>
    constructor
    · rintro ⟨w, hw⟩
      unfold packDicts at hw
      obtain ⟨a, b, ha, hb, rfl⟩ := catE_ok hw
      intro d' hd
      simp at hd
      rcases hd with rfl | hd
      · exact ⟨a, ha⟩
      · exact ih.1 ⟨b, hb⟩ d' hd
    · intro h
      obtain ⟨a, ha⟩ := h d (by simp)
      obtain ⟨b, hb⟩ := ih.2 (fun d' hd => h d' (by simp [hd]))
      exact ⟨a ++ b, by rw [packDicts, ha, hb]; rfl⟩

/-- Reading a list of complete records of a plain format. -/
theorem readRepeatedly_plain {fmt : FDict} (hp : plainFmt fmt = true) (hne : NonEmptyRecord fmt)
    (ds : List VDict) {w : Bytes} (hw : packDicts fmt ds = .ok w) (s : Stream) (hs : s.rest = w) :
    (readRepeatedly fmt s).1 = .ok (ds.map (named fmt)) := by
  induction ds generalizing w s with
  | nil =>
    simp [packDicts] at hw; subst hw
    rw [readRepeatedly_end ?_ hne s hs]
    · rfl
    · intro kf hm
      unfold plainFmt at hp
      rw [Bool.and_eq_true, List.all_eq_true] at hp
      have := hp.1 kf hm
      rcases FI.plain_cases this with ⟨p, hp⟩ | ⟨big, n, sg, hp, h0, h8⟩
      · rw [hp]; trivial
      · rw [hp]
        show SFmt.calcsize _ ≤ pyMaxSize
        have e3 : pyMaxSize = 9223372036854775807 := by decide
        rw [e3]
        simp [SFmt.calcsize, SCode.size]
        omega
  | cons d ds ih =>
    obtain ⟨a, b, ha, hb, rfl⟩ := catE_ok hw
    rw [readRepeatedly_eq hne, (Reader.readDict fmt).shift, hs, prs_readDict_plain hp ha]
    simp only []
    rw [ih hb ⟨s.buf, s.pos + a.length⟩ (by
      have : Stream.rest ⟨s.buf, s.pos + a.length⟩ = s.rest.drop a.length := by simp [Stream.rest]
      rw [this, hs]; simp)]
    simp [Except.map]

theorem Stream.of_rest (b : Bytes) : (Stream.of b).rest = b := by simp [Stream.of, Stream.rest]

/-! ### Options -/

/-- The record of one option. -/
def optRec (e : Str × Val) : VDict := [(py! "option", .str e.1), (py! "value", e.2)]

theorem named_optRec (e : Str × Val) : named optionFmt (optRec e) = optRec e := by
  simp [named, optionFmt, optRec, dget_cons]

theorem optRec_inj {e e' : Str × Val} (h : optRec e = optRec e') : e = e' := by
  simp [optRec] at h
  exact Prod.ext h.1 h.2

theorem packOptions_eq {m : VDict} : packOptions m .bytes = packDicts optionFmt ((sortedDict m).map optRec) := by
  unfold packOptions
  rw [written_eq (Writes.repeatedly _ _)]
  unfold sortedDict
  have hall : ∀ o ∈ sortedStrs (dkeys m), o ∈ dkeys m := fun o ho => (sortedStrs_perm _).mem_iff.1 ho
  have e : (sortedStrs (dkeys m)).map (fun o =>
      (py! "option", Val.str o) :: ((dget m o).map (fun v => (py! "value", v))).toList) =
      ((sortedStrs (dkeys m)).filterMap (fun o => (dget m o).map (fun v => (o, v)))).map optRec := by
    generalize sortedStrs (dkeys m) = l at hall
    induction l with
    | nil => rfl
    | cons x t ih =>
      have hx := hall x (by simp)
      rw [← dget_isSome_iff, Option.isSome_iff_exists] at hx
      obtain ⟨v, hv⟩ := hx
      simp only [List.map_cons, List.filterMap_cons, hv, Option.map_some]
      rw [ih (fun o ho => hall o (by simp [ho]))]
      rfl
  rw [e]
  rfl

theorem collectOptions_nodup (param : Str) {l : VDict} (acc : VDict)
    (h : (dkeys (acc ++ l)).Nodup) : collectOptions param acc (l.map optRec) = pure (acc ++ l) := by
  induction l generalizing acc with
  | nil => simp [collectOptions]
  | cons e t ih =>
    obtain ⟨o, v⟩ := e
    have hno : o ∉ dkeys acc := by
      simp [dkeys, List.nodup_append] at h
      intro hc
      simp [dkeys] at hc
      obtain ⟨v', hv'⟩ := hc
      exact (h.2.2 o v' hv').1 rfl
    have hset : dset acc o v = acc ++ [(o, v)] := by
      clear h ih
      induction acc with
      | nil => rfl
      | cons kv s ihs =>
        obtain ⟨k', v'⟩ := kv
        simp [dkeys_cons] at hno
        rw [dset, if_neg (fun hc => hno.1 hc.symm), ihs hno.2]; rfl
    have hf : dhas acc o = false := by
      rw [Bool.eq_false_iff]; intro hc; exact hno (dhas_iff.1 hc)
    rw [List.map_cons, optRec, collectOptions]
    simp only [dget_cons_self, dget_cons_ne (show (py! "option" : Str) ≠ py! "value" by decide), hf]
    rw [hset, ih (acc ++ [(o, v)]) (by simpa using h)]
    simp

/-- What `_get_option_values_dict` returns on a blob written by `pack_options`. -/
theorem getOptionValues_packed {m d : VDict} {param : Str} {w : Bytes} (hn : (dkeys m).Nodup)
    (hw : packOptions m .bytes = .ok w) (hd : dget d param = some (.bytes w)) :
    getOptionValues d param = pure (sortedDict m) := by
  rw [packOptions_eq] at hw
  have hr := readRepeatedly_plain plain_option nonEmpty_option _ hw (Stream.of w) (Stream.of_rest w)
  have e : ((sortedDict m).map optRec).map (named optionFmt) = (sortedDict m).map optRec := by
    rw [List.map_map]
    apply List.map_congr_left
    intro x _
    exact named_optRec x
  rw [e] at hr
  unfold getOptionValues getItem
  rw [hd]
  simp only [Eff.lift_ok_bind, asBuffer, hr]
  have := collectOptions_nodup param (l := sortedDict m) [] (by
    simpa using pairwise_lt_nodup (sortedDict_sorted hn))
  simpa using this

theorem collectOptions_keys {param : Str} {l : List VDict} {acc m : VDict} (hn : (dkeys acc).Nodup)
    (h : (collectOptions param acc l).res = .ok m) : (dkeys m).Nodup := by
  induction l generalizing acc with
  | nil => simp [collectOptions] at h; subst h; exact hn
  | cons r t ih =>
    rw [collectOptions] at h
    split at h
    · split at h
      · obtain ⟨_, _, h2⟩ := Eff.bind_res_ok_iff.1 h
        exact ih (nodup_dset hn _ _) h2
      · exact ih (nodup_dset hn _ _) h
    · simp at h

theorem getOptionValues_ok {d m : VDict} {param : Str} (h : (getOptionValues d param).res = .ok m) :
    ∃ b l, dget d param = some (.bytes b) ∧ (readRepeatedly optionFmt (Stream.of b)).1 = .ok l ∧
      (collectOptions param [] l).res = .ok m := by
  unfold getOptionValues at h
  obtain ⟨v, hv, h1⟩ := Eff.bind_res_ok_iff.1 h
  obtain ⟨b, hb, h2⟩ := Eff.bind_res_ok_iff.1 h1
  obtain ⟨l, hl, h3⟩ := Eff.bind_res_ok_iff.1 h2
  clear h h1 h2
  simp at hv hb hl
  unfold getItem at hv
  rcases hd : dget d param with _ | v'
  · simp [hd] at hv
  · simp [hd] at hv; subst hv
    cases v' <;> simp [asBuffer] at hb
    subst hb
    exact ⟨_, l, rfl, hl, h3⟩

theorem getOptionValues_nodup {d m : VDict} {param : Str} (h : (getOptionValues d param).res = .ok m) :
    (dkeys m).Nodup := by
  obtain ⟨b, l, -, -, h⟩ := getOptionValues_ok h
  exact collectOptions_keys (by simp [dkeys]) h

/-- Entries of the result come from the records. -/
theorem collectOptions_mem {param : Str} {l : List VDict} {acc m : VDict}
    (h : (collectOptions param acc l).res = .ok m) {o : Str} {v : Val} (hm : dget m o = some v) :
    dget acc o = some v ∨ ∃ r ∈ l, dget r (py! "option") = some (.str o) ∧ dget r (py! "value") = some v := by
  induction l generalizing acc with
  | nil => simp [collectOptions] at h; subst h; exact Or.inl hm
  | cons r t ih =>
    have key : ∀ o' v', dget r (py! "option") = some (.str o') → dget r (py! "value") = some v' →
        (collectOptions param (dset acc o' v') t).res = .ok m →
        dget acc o = some v ∨ ∃ r' ∈ r :: t, dget r' (py! "option") = some (.str o) ∧
          dget r' (py! "value") = some v := by
      intro o' v' h1 h2 h3
      rcases ih h3 with h4 | ⟨r', hr', h4⟩
      · rw [dget_dset] at h4
        split at h4
        · rename_i ho; subst ho
          simp at h4; subst h4
          exact Or.inr ⟨r, by simp, h1, h2⟩
        · exact Or.inl h4
      · exact Or.inr ⟨r', by simp [hr'], h4⟩
    rw [collectOptions] at h
    split at h
    · rename_i h1 h2
      split at h
      · obtain ⟨_, _, h3⟩ := Eff.bind_res_ok_iff.1 h
        exact key _ _ h1 h2 h3
      · exact key _ _ h1 h2 h
    · simp at h

/-- Entries that were read can be written again. -/
theorem getOptionValues_packable {d m : VDict} {param : Str} (h : (getOptionValues d param).res = .ok m)
    {o : Str} {v : Val} (hm : dget m o = some v) : ∃ w, packDict optionFmt (optRec (o, v)) = .ok w := by
  obtain ⟨b, l, -, hl, h⟩ := getOptionValues_ok h
  rcases collectOptions_mem h hm with h | ⟨r, hr, h1, h2⟩
  · simp at h
  · obtain ⟨x, n, hx⟩ := readRepeatedly_records nonEmpty_option _ hl r hr
    obtain ⟨o', v', rfl⟩ := option_record hx
    simp [dget_cons] at h1 h2
    subst h1; subst h2
    have e : packDict optionFmt [(py! "option", Val.str o'), (py! "value", Val.bytes v')] =
        packDict optionFmt (optRec (o', .bytes v')) := rfl
    rw [← e]
    rcases packDict_read_plain plain_option hx with ⟨-, ⟨k, i, hk, -⟩⟩ | ⟨w, hw, -⟩
    · exfalso
      revert hk
      simp [optionFmt]
    · exact ⟨w, hw⟩

/-- A successful set operation. -/
theorem setOption_ok {d : VDict} {param : Str} {o : OptArg} {v : Val} {lg : List Event} {d' : VDict}
    (h : setOption d param o v = (⟨lg, .ok ()⟩, d')) :
    ∃ m w, optionGuard d o = .ok () ∧ getOptionValues d param = ⟨lg, .ok m⟩ ∧
      packOptions (dset m o.key v) .bytes = .ok w ∧ d' = dset d param (.bytes w) := by
  unfold setOption at h
  simp only at h
  split at h
  · rename_i w hw
    obtain ⟨_, hg, h2⟩ := Eff.bind_res_ok_iff.1 hw
    obtain ⟨m, hm, h3⟩ := Eff.bind_res_ok_iff.1 h2
    simp at hg h3
    simp only [Prod.mk.injEq, Eff.mk.injEq] at h
    obtain ⟨⟨h4, -⟩, rfl⟩ := h
    refine ⟨m, w, hg, ?_, h3, rfl⟩
    rw [hg] at h4
    rw [Eff.lift_ok_bind, Eff.bind_log_ok hm] at h4
    simp at h4
    rcases hx : getOptionValues d param with ⟨lg', r⟩
    rw [hx] at h4 hm
    simp at h4 hm
    rw [h4, hm]
  · simp at h

theorem setOption_of {d : VDict} {param : Str} {o : OptArg} {v : Val} {lg : List Event} {m : VDict} {w : Bytes}
    (hg : optionGuard d o = .ok ()) (hm : getOptionValues d param = ⟨lg, .ok m⟩)
    (hw : packOptions (dset m o.key v) .bytes = .ok w) :
    setOption d param o v = (⟨lg, .ok ()⟩, dset d param (.bytes w)) := by
  unfold setOption
  have e : (do
      Eff.lift (optionGuard d o)
      let m ← getOptionValues d param
      Eff.lift (packOptions (dset m o.key v) .bytes) : Eff Bytes) = ⟨lg, .ok w⟩ := by
    rw [hg, Eff.lift_ok_bind, hm, Eff.mk_bind_ok, hw]
    simp
  simp only [e]

theorem optionGuard_dset {d : VDict} {param : Str} (hp : param ≠ py! "type") (x : Val) (o : OptArg) :
    optionGuard (dset d param x) o = optionGuard d o := by
  cases o with
  | name s => rfl
  | opt o =>
    unfold optionGuard getType getItem
    rw [dget_dset_ne hp]

/-- The certificate after a successful set operation. -/
theorem getOptionValues_set {d d' : VDict} {param : Str} {o : OptArg} {v : Val} {lg : List Event}
    (h : setOption d param o v = (⟨lg, .ok ()⟩, d')) :
    ∃ m, (getOptionValues d param) = ⟨lg, .ok m⟩ ∧ (dkeys m).Nodup ∧
      getOptionValues d' param = pure (sortedDict (dset m o.key v)) := by
  obtain ⟨m, w, hg, hm, hw, rfl⟩ := setOption_ok h
  have hn := getOptionValues_nodup (d := d) (param := param) (m := m) (by rw [hm])
  exact ⟨m, hm, hn, getOptionValues_packed (nodup_dset hn _ _) hw (by simp)⟩

theorem packOptions_congr {m m' : VDict} (h : (dkeys m).Nodup) (h' : (dkeys m').Nodup)
    (hg : ∀ k, dget m k = dget m' k) : packOptions m .bytes = packOptions m' .bytes := by
  rw [packOptions_eq, packOptions_eq, sortedDict_congr h h' hg]

theorem packOptions_ok_iff {m : VDict} :
    (∃ w, packOptions m .bytes = .ok w) ↔
      ∀ o v, dget m o = some v → ∃ w, packDict optionFmt (optRec (o, v)) = .ok w := by
  rw [packOptions_eq, packDicts_ok_iff]
  constructor
  · intro hx o v hv
    refine hx _ (List.mem_map.2 ⟨(o, v), ?_, rfl⟩)
    apply dget_mem
    rw [dget_sortedDict, hv]
  · intro hx r hr
    obtain ⟨⟨o, v⟩, he, rfl⟩ := List.mem_map.1 hr
    apply hx
    unfold sortedDict at he
    rw [List.mem_filterMap] at he
    obtain ⟨o', -, ho⟩ := he
    rcases hg : dget m o' with _ | v'
    · rw [hg] at ho; simp at ho
    · rw [hg] at ho; simp at ho
      obtain ⟨rfl, rfl⟩ := ho
      exact hg

end OSK
