import Verif.Props.Checks
/-
Property C89: how often a fault is reported.
-/
namespace OSK
open Spec

/-- One if it holds. -/
noncomputable def Spec.one (p : Prop) : Nat := open Classical in if p then 1 else 0

theorem one_pos {p : Prop} (h : p) : one p = 1 := by unfold one; exact if_pos h
theorem one_neg {p : Prop} (h : ¬ p) : one p = 0 := by unfold one; exact if_neg h
theorem one_congr {p q : Prop} (h : p ↔ q) : one p = one q := by rw [propext h]

/-- Key types of security keys. -/
def Spec.isSkType (t : Str) : Bool := (py! "sk-").isPrefixOf t

/-- How often the checks of the key itself run: twice for security keys, twice for certificates, four times for
both. -/
def Spec.times (t : Str) : Nat := (if isSkType t then 2 else 1) * (if isCertType t then 2 else 1)

/-- How often the fields are checked: as often, but twice for private Ed25519 keys. -/
def Spec.fieldTimes (kind : Kind) (t : Str) : Nat := if kind = .priv ∧ t = py! "ssh-ed25519" then 2 else times t

/-- How often an option is named. -/
def Spec.occurrences (o : Str) (l : List VDict) : Nat :=
  l.countP (fun r => decide (dget r (py! "option") = some (.str o)))

/-- How often the event is caused by the certificate's own fields. -/
noncomputable def Spec.certFaults (ext : Ext) (d : VDict) (v : Event) : Nat :=
  one (v = .warn .certType ∧ ∃ x, dget d (py! "type") = some x ∧ x ≠ .int 1 ∧ x ≠ .int 2) +
  (one (v = .warn .certPrincipals ∧ ∃ b e, dget d (py! "valid_principals") = some (.bytes b) ∧
    getValidPrincipals d = .error e ∧ e.isEOFError = true) +
  (optionFaults (py! "critical_options") .certCriticalOptions +
  (optionFaults (py! "extensions") .certExtensions +
  match dget d (py! "signature_key") with
  | some (.bytes b) =>
    -- what parsing the authority's key reports, and whether it is a certificate or no key at all
    (fromBytes ext .pub b none).log.count v +
    (one (v = .warn .caIsCert ∧ ∃ k t, (fromBytes ext .pub b none).res = .ok k ∧
      dget k.header (py! "key_type") = some (.str t) ∧ isCertType t = true) +
     one (v = .warn .caInvalid ∧ ∃ e, (fromBytes ext .pub b none).res = .error e))
  | _ => 0)))
where
  /-- An option that is named `n + 1` times is reported `n` times; a list that is cut off once. -/
  optionFaults (param : Str) (w : Warning) : Nat :=
    match dget d param with
    | some (.bytes b) =>
      match (readRepeatedly optionFmt (Stream.of b)).1 with
      | .ok l =>
        match v with
        | .warn (.duplicateOption o p) => if p = param then occurrences o l - 1 else 0
        | _ => 0
      | .error e => one (v = .warn w ∧ e.isEOFError = true)
    | _ => 0

/-! ### Counting -/

theorem bind_count {α β : Type} {x : Eff α} {f : α → Eff β} {a : α} {v : Event} (h : x.res = .ok a) :
    (x >>= f).log.count v = x.log.count v + (f a).log.count v := by
  rw [Eff.bind_log_ok h]; simp

theorem runChecks_count {f : Cls → Eff Unit} {l : List Cls} (h : ∀ D ∈ l, (f D).res = .ok ()) (v : Event) :
    (runChecks f l).log.count v = (l.map (fun D => (f D).log.count v)).sum := by
  induction l with
  | nil => simp [runChecks]
  | cons D t ih =>
    have h1 := h D (by simp)
    rw [runChecks, bind_count h1, ih (fun D' hD => h D' (by simp [hD]))]
    simp

theorem count_nodup {l : List Event} (h : l.Nodup) (v : Event) : l.count v = one (v ∈ l) := by
  by_cases hv : v ∈ l
  · rw [one_pos hv, h.count, if_pos hv]
  · rw [one_neg hv, List.count_eq_zero_of_not_mem hv]

theorem checkField_nodup (d : VDict) (k : Str) (fi : FI) : (checkField d k fi).log.length ≤ 1 := by
  unfold checkField
  split
  · simp
  · split
    · split <;> simp
    · split <;> simp
    · split <;> simp
    · simp

/-- The warnings of different fields are different. -/
theorem fieldFault_name {k : Str} {fi : FI} {d : VDict} {w : Warning} (h : FieldFault [(k, fi)] d w) :
    w = .missing k ∨ w = .shouldBeFormatted k ∨ w = .shouldBeOfClass k := by
  cases h with
  | missing h _ => simp at h; simp [h.1]
  | unformatted h _ _ => simp at h; simp [h.1]
  | otherClass h _ _ => simp at h; simp [h.1]

theorem fieldFault_names {fmt : FDict} {d : VDict} {w : Warning} (h : FieldFault fmt d w) :
    ∃ k ∈ fmt.map Prod.fst, w = .missing k ∨ w = .shouldBeFormatted k ∨ w = .shouldBeOfClass k := by
  cases h with
  | missing h _ => exact ⟨_, List.mem_map.2 ⟨_, h, rfl⟩, by simp⟩
  | unformatted h _ _ => exact ⟨_, List.mem_map.2 ⟨_, h, rfl⟩, by simp⟩
  | otherClass h _ _ => exact ⟨_, List.mem_map.2 ⟨_, h, rfl⟩, by simp⟩

theorem checkDict_nodup {d : VDict} {fmt : FDict} (hp : plainFmt fmt = true) (hn : (fmt.map Prod.fst).Nodup) :
    (checkDict d fmt).log.Nodup := by
  induction fmt with
  | nil => simp [checkDict]
  | cons kf t ih =>
    obtain ⟨k, fi⟩ := kf
    obtain ⟨h1, -, h3⟩ := plainFmt_cons hp
    have hr : (checkField d k fi).res = .ok () := by
      refine (checkField_spec d k fi ?_).1
      rintro rfl; simp [FI.plain] at h1
    simp only [List.map_cons, List.nodup_cons] at hn
    rw [checkDict, Eff.bind_log_ok hr, List.nodup_append]
    refine ⟨?_, ih h3 hn.2, ?_⟩
    · have := checkField_nodup d k fi
      rcases h : (checkField d k fi).log with _ | ⟨a, _ | ⟨b, l⟩⟩
      · simp
      · simp
      · rw [h] at this; simp at this
    · intro a ha b hb hab
      subst hab
      obtain ⟨w, rfl, hw⟩ := (checkField_log h1 _).1 ha
      obtain ⟨w', hw1, hw'⟩ := ((checkDict_faults h3).2 _).1 hb
      simp at hw1; subst hw1
      obtain ⟨k', hk', h4⟩ := fieldFault_names hw'
      have h5 := fieldFault_name hw
      have : k' = k := by
        rcases h4 with rfl | rfl | rfl <;> simpa using h5
      exact hn.1 (this ▸ hk')

theorem ed25519Pub_nodup (d : VDict) : (ed25519PubLocalCheck d).log.Nodup := by
  unfold ed25519PubLocalCheck
  split
  · simp
  · split <;> simp

theorem ed25519Priv_nodup (d : VDict) : (ed25519PrivLocalCheck d).log.Nodup := by
  unfold ed25519PrivLocalCheck
  split
  · rename_i pp p _ _
    by_cases h1 : pp.drop ed25519KeySize = p <;>
      by_cases h2 : (pp.drop ed25519KeySize).length = ed25519KeySize
    · rw [if_neg (by simpa using h1), if_neg (by simpa using h2)]; simp
    · rw [if_neg (by simpa using h1), if_pos h2]; simp
    · rw [if_pos h1, if_neg (by simpa using h2), Eff.bind_log_ok (Eff.warn_res _)]; simp
    · rw [if_pos h1, if_pos h2, Eff.bind_log_ok (Eff.warn_res _)]; simp
  · simp

theorem ecdsa_nodup (ext : Ext) (c : Cls) (d : VDict) : (ecdsaLocalCheck ext c d).log.Nodup := by
  unfold ecdsaLocalCheck
  split
  · simp
  · rename_i i hi
    by_cases h1 : Val.str (curveOf c).1 = i
    · rw [if_neg (by simpa using h1)]
      split
      · simp
      · split <;> simp
    · rw [if_pos h1, Eff.bind_log_ok (Eff.warn_res _)]
      split
      · simp
      · split <;> simp

/-- How often the checks of a key type run. -/
structure PlanTimes (kind : Kind) (t : Str) (c : Cls) : Prop where
  fields : (checkPlan c).count .pascalStyleDict = fieldTimes kind t
  material : ∀ D ∈ [Cls.ed25519Pub, Cls.ed25519Priv, Cls.ecdsaPub], D ∈ checkPlan c →
    (checkPlan c).count D = times t
  cert : (checkPlan c).count .certPub = if isCertType t then 1 else 0
  names : ((formatOf c).map Prod.fst).Nodup

instance (kind : Kind) (t : Str) (c : Cls) : Decidable (PlanTimes kind t c) :=
  decidable_of_iff
    ((checkPlan c).count .pascalStyleDict = fieldTimes kind t ∧
      (∀ D ∈ [Cls.ed25519Pub, Cls.ed25519Priv, Cls.ecdsaPub], D ∈ checkPlan c → (checkPlan c).count D = times t) ∧
      ((checkPlan c).count .certPub = if isCertType t then 1 else 0) ∧ ((formatOf c).map Prod.fst).Nodup)
    ⟨fun ⟨a, b, c, d⟩ => ⟨a, b, c, d⟩, fun ⟨a, b, c, d⟩ => ⟨a, b, c, d⟩⟩

theorem planTimes_pub : ∀ e ∈ keyTypeMapping, PlanTimes .pub e.1 e.2.1 := by decide +kernel
theorem planTimes_priv : ∀ e ∈ keyTypeMapping, ∀ c ∈ e.2.2, PlanTimes .priv e.1 c := by decide +kernel

theorem planTimes {kind : Kind} {t : Str} {c : Cls} (h : paramsClass kind (.str t) = .ok c) : PlanTimes kind t c := by
  cases kind
  · simp only [paramsClass, getPublicClass] at h
    split at h
    · simp at h
    · rename_i r hr
      obtain ⟨s, hs, hm⟩ := lookupType_mem hr
      simp at hs h; subst hs; subst h
      exact planTimes_pub _ hm
  · simp only [paramsClass, getPrivateClass] at h
    split at h
    · simp at h
    · rename_i r hr
      obtain ⟨s, hs, hm⟩ := lookupType_mem hr
      split at h
      · simp at h
      · rename_i c' hc
        simp at hs h; subst hs; subst h
        exact planTimes_priv _ hm _ hc

/-- A sum over a list in which only one kind of item counts, and the certificate's part. -/
theorem sum_plan (g : Cls → Nat) (X : Cls) (hX : X ≠ .certPub) (l : List Cls)
    (h : ∀ D ∈ l, D ≠ X → D ≠ .certPub → g D = 0) :
    (l.map g).sum = l.count X * g X + l.count .certPub * g .certPub := by
  induction l with
  | nil => simp
  | cons D t ih =>
    have ih := ih (fun D' hD => h D' (by simp [hD]))
    simp only [List.map_cons, List.sum_cons, ih, List.count_cons]
    by_cases h1 : D = X
    · subst h1
      simp [hX]
      rw [Nat.add_mul]; omega
    · by_cases h2 : D = .certPub
      · subst h2
        simp [h1]
        rw [Nat.add_mul]; omega
      · rw [h D (by simp) h1 h2]
        simp [h1, h2]

/-! ### The certificate's own fields -/

theorem collectOptions_count {param : Str} {l : List VDict}
    (h : ∀ d ∈ l, ∃ o v, d = [(py! "option", Val.str o), (py! "value", Val.bytes v)]) (acc : VDict) (o : Str) :
    (collectOptions param acc l).log.count (.warn (.duplicateOption o param)) =
      if dhas acc o then occurrences o l else occurrences o l - 1 := by
  induction l generalizing acc with
  | nil => simp [collectOptions, occurrences]
  | cons d t ih =>
    obtain ⟨o', x, rfl⟩ := h d (by simp)
    rw [collectOptions]
    simp only [dget_cons_self, dget_cons_ne (show (py! "option") ≠ (py! "value") by decide)]
    have ih := ih (fun d hd => h d (by simp [hd])) (dset acc o' (.bytes x))
    have hocc : occurrences o ([(py! "option", Val.str o'), (py! "value", Val.bytes x)] :: t) =
        occurrences o t + if o' = o then 1 else 0 := by
      unfold occurrences
      rw [List.countP_cons]
      by_cases ho : o' = o
      · subst ho; simp
      · have : ¬ (Val.str o' = Val.str o) := by simp; exact ho
        simp [this, ho]
    have hdh : dhas (dset acc o' (.bytes x)) o = (decide (o' = o) || dhas acc o) := by
      unfold dhas
      by_cases ho : o' = o
      · subst ho; simp
      · rw [dget_dset_ne ho]; simp [ho]
    have hsplit : ∀ (b : Bool) (y : Eff VDict),
        (if b = true then (do Eff.warn (.duplicateOption o' param); y) else y).log.count (.warn (.duplicateOption o param)) =
        (if b = true ∧ o' = o then 1 else 0) + y.log.count (.warn (.duplicateOption o param)) := by
      intro b y
      cases b
      · simp
      · simp only [if_true, true_and]
        rw [bind_count (Eff.warn_res _), Eff.warn_log]
        by_cases ho : o' = o
        · subst ho; simp
        · simp [ho]
    rw [hsplit, ih, hdh, hocc]
    by_cases ho : o' = o
    · subst ho
      cases hd : dhas acc o' <;> simp [Nat.add_comm]
    · cases hd : dhas acc o <;> simp [ho]

theorem collectOptions_count_ne {param : Str} {l : List VDict}
    (h : ∀ d ∈ l, ∃ o v, d = [(py! "option", Val.str o), (py! "value", Val.bytes v)]) (acc : VDict) (v : Event)
    (hv : ∀ o, v ≠ .warn (.duplicateOption o param)) : (collectOptions param acc l).log.count v = 0 := by
  rw [List.count_eq_zero]
  intro hm
  obtain ⟨o, rfl, -⟩ := ((collectOptions_log h acc).2 v).1 hm
  exact hv o rfl

theorem eofWarns_count {α : Type} {x : Eff α} {w : Warning} (h : (eofWarns x w).res = .ok ()) (v : Event) :
    (eofWarns x w).log.count v = x.log.count v + one (v = .warn w ∧ ∃ e, x.res = .error e ∧ e.isEOFError = true) := by
  unfold eofWarns Eff.tryCatch at h ⊢
  rcases hr : x.res with e | a
  · have hb : (do let _ ← x; pure () : Eff Unit) = ⟨x.log, .error e⟩ := Eff.bind_error hr _
    rw [hb] at h ⊢
    simp only at h ⊢
    by_cases he : e.isEOFError = true
    · simp only [he, if_true]
      have e1 : (v = Event.warn w ∧ ∃ e', Except.error (ε := Exn) (α := α) e = .error e' ∧ e'.isEOFError = true) ↔ v = .warn w := by
        simp [he]
      rw [one_congr e1]
      by_cases hv : v = .warn w
      · subst hv; rw [one_pos rfl]; simp
      · rw [one_neg hv]; simp [Ne.symm hv]
    · simp [he] at h
  · have hb : (do let _ ← x; pure () : Eff Unit) = ⟨x.log, .ok ()⟩ := by
      rw [Eff.bind_ok hr]; simp
    rw [hb, one_neg (by simp)]; simp

theorem certOptionsCheck_count {d : VDict} {param : Str} {w : Warning}
    (h : (certOptionsCheck d param w).res = .ok ()) (v : Event) :
    (certOptionsCheck d param w).log.count v = certFaults.optionFaults d v param w := by
  unfold certOptionsCheck at h ⊢
  unfold certFaults.optionFaults
  rcases hb : bytesOf? d param with _ | b
  · have : ∀ b, dget d param ≠ some (.bytes b) := by
      intro b hb'; rw [← bytesOf?_eq, hb] at hb'; simp at hb'
    simp only [Option.isSome_none, Bool.false_eq_true, if_false, Eff.pure_log, List.count_nil]
  · rw [hb] at h
    simp only [Option.isSome_some, if_true] at h ⊢
    rw [eofWarns_count h]
    rw [bytesOf?_eq] at hb
    have hg : getOptionValues d param =
        (Eff.lift (readRepeatedly optionFmt (Stream.of b)).1 >>= collectOptions param []) := by
      unfold getOptionValues getItem
      simp only [hb, asBuffer, Eff.lift_ok_bind]
    rw [hg, hb]
    simp only
    rcases hl : (readRepeatedly optionFmt (Stream.of b)).1 with e | l
    · simp
    · have hrec : ∀ d ∈ l, ∃ o v, d = [(py! "option", Val.str o), (py! "value", Val.bytes v)] := by
        intro d hd
        obtain ⟨r, n, hp⟩ := readRepeatedly_records nonEmpty_option _ hl d hd
        exact option_record hp
      obtain ⟨⟨m, hm⟩, -⟩ := collectOptions_log (param := param) hrec []
      simp only [Eff.lift_ok_bind, hm]
      rw [one_neg (by simp), Nat.add_zero]
      split
      · rename_i o p
        by_cases hp : p = param
        · subst hp
          rw [if_pos rfl, collectOptions_count hrec]
          simp [dhas]
        · rw [if_neg hp]
          exact collectOptions_count_ne hrec _ _ (fun o' h' => hp (by simp at h'; exact h'.2))
      · rename_i hv
        exact collectOptions_count_ne hrec _ _ (fun o' h' => hv o' param h')

theorem certCaCheck_count {ext : Ext} {d : VDict} (h : (certCaCheck (caFromBytes ext) d).res = .ok ()) (v : Event) :
    (certCaCheck (caFromBytes ext) d).log.count v =
      match dget d (py! "signature_key") with
      | some (.bytes b) => (fromBytes ext .pub b none).log.count v +
        (one (v = .warn .caIsCert ∧ ∃ k t, (fromBytes ext .pub b none).res = .ok k ∧
          dget k.header (py! "key_type") = some (.str t) ∧ isCertType t = true) +
         one (v = .warn .caInvalid ∧ ∃ e, (fromBytes ext .pub b none).res = .error e))
      | _ => 0 := by
  rcases hb : bytesOf? d (py! "signature_key") with _ | b
  · have hnb : ∀ b, dget d (py! "signature_key") ≠ some (.bytes b) := by
      intro b hb'; rw [← bytesOf?_eq, hb] at hb'; simp at hb'
    unfold certCaCheck
    rw [hb]
    simp only [Option.isSome_none, Bool.false_eq_true, if_false, Eff.pure_log, List.count_nil]
  · rw [bytesOf?_eq] at hb
    rw [certCaCheck_eq ext hb] at h ⊢
    rw [hb]
    simp only
    have cnt : ∀ w, List.count v [Event.warn w] = one (v = .warn w) := by
      intro w
      by_cases hv : v = .warn w
      · subst hv; rw [one_pos rfl]; simp
      · rw [one_neg hv]; simp [Ne.symm hv]
    rcases hr : fromBytes ext .pub b none with ⟨lg, e | k⟩
    · rw [hr] at h
      rw [one_neg (by simp : ¬ (v = Event.warn .caIsCert ∧ _))]
      have e1 : (v = Event.warn .caInvalid ∧ ∃ e', Except.error (ε := Exn) (α := Key) e = .error e') ↔ v = .warn .caInvalid := by
        simp
      rw [one_congr e1, ← cnt]
      rcases he : (e : Exn) with _ | _ | _ | _ | _ | _ | k <;> first | (subst he; simp at h; done) | simp
    · simp only
      obtain ⟨t, c, hd, p, f, n, -, rfl, hc, -, hk, -⟩ :=
        fromBytes_ok (by rw [hr] : (fromBytes ext .pub b none).res = .ok k)
      have hcert : k.params.cls.isSubclass .certPub = isCertType t := by
        rw [hk]
        simp only [paramsClass, getPublicClass] at hc
        split at hc
        · simp at hc
        · rename_i r hrr
          obtain ⟨s, hs, hm⟩ := lookupType_mem hrr
          simp at hs hc; subst hs; subst hc
          exact cert_types _ hm
      have hkt : dget k.header (py! "key_type") = some (.str t) := by rw [hk]; simp
      have e1 : (v = Event.warn .caIsCert ∧ ∃ k' t', Except.ok (ε := Exn) k = .ok k' ∧
          dget k'.header (py! "key_type") = some (.str t') ∧ isCertType t' = true) ↔
          v = .warn .caIsCert ∧ isCertType t = true := by
        constructor
        · rintro ⟨h1, k', t', h2, h3, h4⟩
          cases h2
          rw [hkt] at h3
          simp at h3; subst h3
          exact ⟨h1, h4⟩
        · rintro ⟨h1, h2⟩
          exact ⟨h1, k, t, rfl, hkt, h2⟩
      rw [one_congr e1, one_neg (by simp : ¬ (v = Event.warn .caInvalid ∧ _)), hcert]
      rcases hct : isCertType t with _ | _
      · rw [one_neg (by simp)]; simp
      · rw [show (v = Event.warn .caIsCert ∧ true = true) = (v = .warn .caIsCert) by simp, ← cnt]
        simp

theorem certTypeCheck_count (d : VDict) (v : Event) : (certTypeCheck d).log.count v =
    one (v = .warn .certType ∧ ∃ x, dget d (py! "type") = some x ∧ x ≠ .int 1 ∧ x ≠ .int 2) := by
  rw [count_nodup ?_, one_congr (certTypeCheck_log d v)]
  unfold certTypeCheck Eff.tryCatch
  split
  · rcases getType d with e | a
    · by_cases he : e.isValueError = true <;> simp [he]
    · simp
  · simp

theorem certPrincipalsCheck_count {d : VDict} (h : (certPrincipalsCheck d).res = .ok ()) (v : Event) :
    (certPrincipalsCheck d).log.count v = one (v = .warn .certPrincipals ∧ ∃ b e,
      dget d (py! "valid_principals") = some (.bytes b) ∧ getValidPrincipals d = .error e ∧ e.isEOFError = true) := by
  rw [count_nodup ?_, one_congr (certPrincipalsCheck_log h v)]
  unfold certPrincipalsCheck at h ⊢
  split
  · unfold eofWarns Eff.tryCatch
    rcases getValidPrincipals d with e | a
    · by_cases he : e.isEOFError = true <;> simp [he]
    · simp
  · simp

theorem certLocalCheck_count {ext : Ext} {d : VDict} (h : (certLocalCheck (caFromBytes ext) d).res = .ok ()) (v : Event) :
    (certLocalCheck (caFromBytes ext) d).log.count v = certFaults ext d v := by
  unfold certLocalCheck at h ⊢
  unfold certFaults
  obtain ⟨⟨⟩, h1, h⟩ := Eff.bind_res_ok_iff.1 h
  obtain ⟨⟨⟩, h2, h⟩ := Eff.bind_res_ok_iff.1 h
  obtain ⟨⟨⟩, h3, h⟩ := Eff.bind_res_ok_iff.1 h
  obtain ⟨⟨⟩, h4, h5⟩ := Eff.bind_res_ok_iff.1 h
  rw [bind_count h1, bind_count h2, bind_count h3, bind_count h4, certTypeCheck_count, certPrincipalsCheck_count h2,
    certOptionsCheck_count h3, certOptionsCheck_count h4, certCaCheck_count h5]

/-! ### C89 -/

/-- **C89**, partial (the claim that each fault is reported once is `C89_false`). If constructing the parameters of a
key succeeds, each fault of a field is reported `fieldTimes` times and each fault of the key material `times` times:
once for a plain key, except for private Ed25519 keys, whose fields are checked twice; twice for certificates and for
security keys; four times for certificates of security keys.  Added to these, for certificates, is what their own
fields cause; nothing else is reported. -/
theorem C89_count_partial (ext : Ext) (kind : Kind) (t : Str) (c : Cls) (d : VDict) (fmt : FDict) (prm : Params)
    (hc : paramsClass kind (.str t) = .ok c) (hf : fieldsOf kind t = some fmt)
    (h : (newParams ext c d).res = .ok prm) (v : Event) :
    (newParams ext c d).log.count v =
      fieldTimes kind t * one (∃ w, v = .warn w ∧ FieldFault fmt d w) +
      times t * one (∃ w, v = .warn w ∧ MaterialFault ext kind t d w) +
      (if isCertType t then certFaults ext d v else 0) := by
  have hfmt := fieldsOf_eq hc
  rw [hf] at hfmt
  simp at hfmt
  have hpl : plainFmt fmt = true := by rw [hfmt]; exact plain_class hc
  have pt := planTimes hc
  have plan := planFor hc
  unfold newParams newParamsWith at h ⊢
  obtain ⟨⟨⟩, h1, h2⟩ := Eff.bind_res_ok_iff.1 h
  have hmem := runChecks_res_mem h1
  rw [bind_count h1, runChecks_count hmem]
  simp only [Eff.pure_log, List.count_nil, Nat.add_zero]
  have nd : ∀ D, D ≠ .certPub → (localCheck ext (caFromBytes ext) c d D).log.Nodup := by
    intro D hD
    cases D <;> first | exact absurd rfl hD | (simp [localCheck]; done) | skip
    · exact checkDict_nodup (by rw [← hfmt]; exact hpl) pt.names
    · exact ed25519Pub_nodup d
    · exact ed25519Priv_nodup d
    · exact ecdsa_nodup ext c d
  have f0 := checkDict_faults (d := d) hpl
  have f1 := ed25519Pub_faults d
  have f2 := ed25519Priv_faults d
  have f3 := ecdsa_faults ext c d
  have hown : (checkPlan c).count .certPub * (localCheck ext (caFromBytes ext) c d .certPub).log.count v =
      if isCertType t then certFaults ext d v else 0 := by
    rw [pt.cert]
    split
    · rename_i hct
      rw [Nat.one_mul]
      exact certLocalCheck_count (hmem _ (plan.cert.2 hct)) v
    · simp
  obtain ⟨-, hall⟩ := plainChecks_faults (ext := ext) (ca := caFromBytes ext) (d := d) hc hf
  -- all events of a check name the check
  have sep : ∀ D D', D ≠ .certPub → D' ≠ .certPub → v ∈ (localCheck ext (caFromBytes ext) c d D).log →
      v ∈ (localCheck ext (caFromBytes ext) c d D').log → D = D' := by
    have lab : ∀ D, D ≠ .certPub → v ∈ (localCheck ext (caFromBytes ext) c d D).log →
        (D = .pascalStyleDict ∧ ∃ k, v = .warn (.missing k) ∨ v = .warn (.shouldBeFormatted k) ∨ v = .warn (.shouldBeOfClass k)) ∨
        (D = .ed25519Pub ∧ v = .warn .ed25519PublicLength) ∨
        (D = .ed25519Priv ∧ (v = .warn .ed25519PublicMismatch ∨ v = .warn .ed25519PrivateLength)) ∨
        (D = .ecdsaPub ∧ (v = .warn .curveIdentifier ∨ v = .warn .notOnCurve)) := by
      intro D hD hv
      cases D <;> first | exact absurd rfl hD | (simp [localCheck] at hv; done) | skip
      · rw [localCheck, ← hfmt, f0.2] at hv
        obtain ⟨w, rfl, hw⟩ := hv
        obtain ⟨k, -, h⟩ := fieldFault_names hw
        exact .inl ⟨rfl, k, by simpa using h⟩
      · rw [localCheck, f1.2] at hv
        exact .inr (.inl ⟨rfl, hv.1⟩)
      · rw [localCheck, f2.2] at hv
        obtain ⟨p, pp, -, -, h | h⟩ := hv
        · exact .inr (.inr (.inl ⟨rfl, .inl h.1⟩))
        · exact .inr (.inr (.inl ⟨rfl, .inr h.1⟩))
      · rw [localCheck, f3.2] at hv
        obtain ⟨i, -, h | h⟩ := hv
        · exact .inr (.inr (.inr ⟨rfl, .inl h.1⟩))
        · exact .inr (.inr (.inr ⟨rfl, .inr h.1⟩))
    intro D D' hD hD' h h'
    rcases lab D hD h with ⟨rfl, k, rfl | rfl | rfl⟩ | ⟨rfl, rfl⟩ | ⟨rfl, rfl | rfl⟩ | ⟨rfl, rfl | rfl⟩ <;>
    rcases lab D' hD' h' with ⟨rfl, k', h | h | h⟩ | ⟨rfl, h⟩ | ⟨rfl, h | h⟩ | ⟨rfl, h | h⟩ <;>
    first | rfl | simp at h
  by_cases hX : ∃ D ∈ checkPlan c, D ≠ .certPub ∧ v ∈ (localCheck ext (caFromBytes ext) c d D).log
  · have hX' := hX
    obtain ⟨X, hXp, hXc, hXv⟩ := hX
    rw [sum_plan _ X hXc _ (fun D _ h1 h2 => List.count_eq_zero.2 (fun hv => h1 (sep _ _ h2 hXc hv hXv))), hown,
      count_nodup (nd X hXc), one_pos hXv, Nat.mul_one]
    congr 1
    by_cases hXf : X = .pascalStyleDict
    · subst hXf
      rw [localCheck, ← hfmt, f0.2] at hXv
      rw [one_pos hXv, pt.fields]
      have : ¬ ∃ w, v = .warn w ∧ MaterialFault ext kind t d w := by
        obtain ⟨w, rfl, hw⟩ := hXv
        obtain ⟨k, -, h⟩ := fieldFault_names hw
        rintro ⟨w', h', hm⟩
        simp at h'; subst h'
        cases hm <;> simp at h
      rw [one_neg this]
      simp
    · have hnf : ¬ ∃ w, v = .warn w ∧ FieldFault fmt d w := by
        intro hh
        rw [← f0.2] at hh
        refine hXf (sep X .pascalStyleDict hXc (by simp) hXv ?_)
        rw [localCheck, ← hfmt]
        exact hh
      have hm : ∃ w, v = .warn w ∧ MaterialFault ext kind t d w := by
        obtain ⟨w, rfl, hw | hw⟩ := (hall v).1 hX'
        · exact absurd ⟨w, rfl, hw⟩ hnf
        · exact ⟨w, rfl, hw⟩
      rw [one_neg hnf, one_pos hm]
      have hXm : X ∈ [Cls.ed25519Pub, Cls.ed25519Priv, Cls.ecdsaPub] := by
        cases X <;> first | exact absurd rfl hXc | exact absurd rfl hXf | (simp [localCheck] at hXv; done) | simp
      rw [pt.material X hXm hXp]
      simp
  · have hz : ∀ D ∈ checkPlan c, D ≠ .pascalStyleDict → D ≠ .certPub →
        (localCheck ext (caFromBytes ext) c d D).log.count v = 0 :=
      fun D hD _ hc' => List.count_eq_zero.2 (fun hv => hX ⟨D, hD, hc', hv⟩)
    rw [sum_plan _ .pascalStyleDict (by simp) _ hz, hown,
      List.count_eq_zero.2 (fun hv => hX ⟨_, plan.fields, by simp, hv⟩)]
    have hno := fun h => hX ((hall v).2 h)
    rw [one_neg (fun ⟨w, h1, h2⟩ => hno ⟨w, h1, .inl h2⟩), one_neg (fun ⟨w, h1, h2⟩ => hno ⟨w, h1, .inr h2⟩)]
    simp

/-- The values of a security key with a public key of the wrong length. -/
def exShortSk : VDict :=
  [(py! "public", .bytes [1]), (py! "application", .str (py! "ssh:"))]

/-- **C89, violated.** One fault, two warnings. -/
theorem C89_false : ∃ (ext : Ext) (c : Cls), paramsClass .pub (.str (py! "sk-ssh-ed25519@openssh.com")) = .ok c ∧
    (newParams ext c exShortSk).res = .ok ⟨c, exShortSk⟩ ∧
    (newParams ext c exShortSk).log = [.warn .ed25519PublicLength, .warn .ed25519PublicLength] :=
  ⟨exExt, .skEd25519Pub, by decide +kernel, by decide +kernel, by decide +kernel⟩

/-- Non-vacuous: the numbers. -/
example : times (py! "ssh-rsa") = 1 ∧ times (py! "ssh-ed25519-cert-v01@openssh.com") = 2 ∧
    times (py! "sk-ssh-ed25519-cert-v01@openssh.com") = 4 ∧ fieldTimes .priv (py! "ssh-ed25519") = 2 := by decide

end OSK
