import Verif.Lemmas.Checks
/-
Properties C71 and C72: what constructing and parsing keys warns about.
-/
namespace OSK
open Spec

/-! ### C71: constructing parameters -/

/-- **C71** (keys). Constructing the parameters of a key that is not a certificate always succeeds, with any
values, and the warnings are exactly the faults of the fields and of the key material. -/
theorem C71_checks (ext : Ext) (kind : Kind) (t : Str) (c : Cls) (d : VDict) (fmt : FDict)
    (hc : paramsClass kind (.str t) = .ok c) (hf : fieldsOf kind t = some fmt) (hn : isCertType t = false) :
    (newParams ext c d).res = .ok ⟨c, d⟩ ∧
    ∀ v, v ∈ (newParams ext c d).log ↔
      ∃ w, v = .warn w ∧ (FieldFault fmt d w ∨ MaterialFault ext kind t d w) := by
  obtain ⟨h1, h2⟩ := plainChecks_faults (ext := ext) (ca := caFromBytes ext) (d := d) hc hf
  have hplan : Cls.certPub ∉ checkPlan c := by rw [(planFor hc).cert, hn]; simp
  have hne : ∀ D ∈ checkPlan c, D ≠ .certPub := fun D hD h => hplan (h ▸ hD)
  obtain ⟨h3, h4⟩ := runChecks_ok (f := localCheck ext (caFromBytes ext) c d) (l := checkPlan c)
    (fun D hD => h1 D (hne D hD))
  unfold newParams newParamsWith
  refine ⟨by rw [Eff.bind_res_of_ok h3]; rfl, ?_⟩
  intro v
  rw [mem_bind_log_iff h3, h4, ← h2]
  simp only [Eff.pure_log, List.not_mem_nil, or_false]
  constructor
  · rintro ⟨D, hD, hv⟩; exact ⟨D, hD, hne D hD, hv⟩
  · rintro ⟨D, hD, -, hv⟩; exact ⟨D, hD, hv⟩

/-- A list of option records names `o` more than once. -/
def Spec.Repeated (o : Str) (l : List VDict) : Prop :=
  2 ≤ l.countP (fun r => decide (dget r (py! "option") = some (.str o)))

/-- What is wrong with the certificate's own fields. -/
inductive Spec.CertFault (ext : Ext) (d : VDict) : Event → Prop
  /-- Neither a user nor a host certificate. -/
  | type {v : Val} : dget d (py! "type") = some v → v ≠ .int 1 → v ≠ .int 2 → CertFault ext d (.warn .certType)
  /-- The principals are cut off. -/
  | principals {b : Bytes} {e : Exn} : dget d (py! "valid_principals") = some (.bytes b) →
      getValidPrincipals d = .error e → e.isEOFError = true → CertFault ext d (.warn .certPrincipals)
  /-- The critical options are cut off. -/
  | critical {b : Bytes} {e : Exn} : dget d (py! "critical_options") = some (.bytes b) →
      (readRepeatedly optionFmt (Stream.of b)).1 = .error e → e.isEOFError = true →
      CertFault ext d (.warn .certCriticalOptions)
  /-- The extensions are cut off. -/
  | extensions {b : Bytes} {e : Exn} : dget d (py! "extensions") = some (.bytes b) →
      (readRepeatedly optionFmt (Stream.of b)).1 = .error e → e.isEOFError = true →
      CertFault ext d (.warn .certExtensions)
  /-- An option is given twice. -/
  | repeated {param o : Str} {b : Bytes} {l : List VDict} : OptionParam param → dget d param = some (.bytes b) →
      (readRepeatedly optionFmt (Stream.of b)).1 = .ok l → Repeated o l →
      CertFault ext d (.warn (.duplicateOption o param))
  /-- Parsing the authority's key warns. -/
  | inside {b : Bytes} {v : Event} : dget d (py! "signature_key") = some (.bytes b) →
      v ∈ (fromBytes ext .pub b none).log → CertFault ext d v
  /-- The authority's key is a certificate. -/
  | authorityCert {b : Bytes} {k : Key} {t : Str} : dget d (py! "signature_key") = some (.bytes b) →
      (fromBytes ext .pub b none).res = .ok k → dget k.header (py! "key_type") = some (.str t) →
      isCertType t = true → CertFault ext d (.warn .caIsCert)
  /-- The authority's key is not a key. -/
  | authority {b : Bytes} {e : Exn} : dget d (py! "signature_key") = some (.bytes b) →
      (fromBytes ext .pub b none).res = .error e → CertFault ext d (.warn .caInvalid)

theorem collectOptions_log {param : Str} {l : List VDict}
    (h : ∀ d ∈ l, ∃ o v, d = [(py! "option", Val.str o), (py! "value", Val.bytes v)]) (acc : VDict) :
    (∃ m, (collectOptions param acc l).res = .ok m) ∧
    ∀ v, v ∈ (collectOptions param acc l).log ↔ ∃ o, v = .warn (.duplicateOption o param) ∧
      (Repeated o l ∨ (dhas acc o = true ∧ ∃ r ∈ l, dget r (py! "option") = some (.str o))) := by
  induction l generalizing acc with
  | nil => simp [collectOptions, Repeated]
  | cons d t ih =>
    obtain ⟨o, x, rfl⟩ := h d (by simp)
    rw [collectOptions]
    simp only [dget_cons_self, dget_cons_ne (show (py! "option") ≠ (py! "value") by decide)]
    obtain ⟨h1, h2⟩ := ih (fun d hd => h d (by simp [hd])) (dset acc o (.bytes x))
    refine ⟨by simp only [warnIf_res]; exact h1, ?_⟩
    intro v
    rw [warnIf_log, h2]
    have hdh : ∀ o', dhas (dset acc o (.bytes x)) o' = true ↔ o' = o ∨ dhas acc o' = true := by
      intro o'
      unfold dhas
      by_cases ho : o' = o
      · subst ho; simp
      · rw [dget_dset_ne (Ne.symm ho)]; simp [ho]
    have hcount : ∀ o', Repeated o' ([(py! "option", Val.str o), (py! "value", Val.bytes x)] :: t) ↔
        Repeated o' t ∨ (o' = o ∧ ∃ r ∈ t, dget r (py! "option") = some (.str o')) := by
      intro o'
      unfold Repeated
      rw [List.countP_cons]
      by_cases ho : o' = o
      · subst ho
        have hpos := List.countP_pos_iff (l := t)
          (p := fun r => decide (dget r (py! "option") = some (Val.str o')))
        simp only [dget_cons_self, decide_true, if_true, true_and, decide_eq_true_eq] at hpos ⊢
        rw [← hpos]
        have h12 : ∀ n : Nat, 2 ≤ n + 1 ↔ 2 ≤ n ∨ 0 < n := fun n => by omega
        exact h12 _
      · have : ¬ (Val.str o = Val.str o') := by simp; exact fun h => ho h.symm
        simp [this, ho]
    simp only [hdh, hcount]
    constructor
    · rintro (⟨rfl, hh⟩ | ⟨o', rfl, hr | ⟨rfl | hh, hr⟩⟩)
      · exact ⟨o, rfl, Or.inr ⟨hh, _, List.mem_cons_self, by simp⟩⟩
      · exact ⟨o', rfl, Or.inl (Or.inl hr)⟩
      · exact ⟨o', rfl, Or.inl (Or.inr ⟨rfl, hr⟩)⟩
      · obtain ⟨r, hm, hr⟩ := hr
        exact ⟨o', rfl, Or.inr ⟨hh, r, List.mem_cons_of_mem _ hm, hr⟩⟩
    · rintro ⟨o', rfl, (hr | ⟨rfl, hr⟩) | ⟨hh, r, hm, hr⟩⟩
      · exact Or.inr ⟨o', rfl, Or.inl hr⟩
      · exact Or.inr ⟨o', rfl, Or.inr ⟨Or.inl rfl, hr⟩⟩
      · simp at hm
        rcases hm with rfl | hm
        · simp at hr
          subst hr
          exact Or.inl ⟨rfl, hh⟩
        · exact Or.inr ⟨o', rfl, Or.inr ⟨Or.inr hh, r, hm, hr⟩⟩

/-- `try … except EOFError` on something that reads: passing, and what is reported. -/
theorem eofWarns_log {α : Type} {x : Eff α} {w : Warning} (h : (eofWarns x w).res = .ok ()) (v : Event) :
    v ∈ (eofWarns x w).log ↔ v ∈ x.log ∨ (v = .warn w ∧ ∃ e, x.res = .error e ∧ e.isEOFError = true) := by
  unfold eofWarns Eff.tryCatch at h ⊢
  rcases hr : x.res with e | a
  · have hb : (do let _ ← x; pure () : Eff Unit) = ⟨x.log, .error e⟩ := Eff.bind_error hr _
    rw [hb] at h ⊢
    simp only at h ⊢
    by_cases he : e.isEOFError = true
    · simp [he]
    · simp [he] at h
  · have hb : (do let _ ← x; pure () : Eff Unit) = ⟨x.log, .ok ()⟩ := by
      rw [Eff.bind_ok hr]; simp
    rw [hb]; simp

theorem certOptionsCheck_log {d : VDict} {param : Str} {w : Warning}
    (h : (certOptionsCheck d param w).res = .ok ()) (v : Event) :
    v ∈ (certOptionsCheck d param w).log ↔ ∃ b, dget d param = some (.bytes b) ∧
      ((∃ l o, (readRepeatedly optionFmt (Stream.of b)).1 = .ok l ∧ Repeated o l ∧
          v = .warn (.duplicateOption o param)) ∨
       (v = .warn w ∧ ∃ e, (readRepeatedly optionFmt (Stream.of b)).1 = .error e ∧ e.isEOFError = true)) := by
  simp only [← bytesOf?_eq]
  unfold certOptionsCheck at h ⊢
  rcases hb : bytesOf? d param with _ | b
  · simp
  · rw [hb] at h
    simp only [Option.isSome_some, if_true] at h ⊢
    rw [eofWarns_log h]
    rw [bytesOf?_eq] at hb
    have hg : getOptionValues d param =
        (Eff.lift (readRepeatedly optionFmt (Stream.of b)).1 >>= collectOptions param []) := by
      unfold getOptionValues getItem
      simp only [hb, asBuffer, Eff.lift_ok_bind]
    rw [hg]
    rcases hl : (readRepeatedly optionFmt (Stream.of b)).1 with e | l
    · simp [hl]
    · have hrec : ∀ d ∈ l, ∃ o v, d = [(py! "option", Val.str o), (py! "value", Val.bytes v)] := by
        intro d hd
        obtain ⟨r, n, hp⟩ := readRepeatedly_records nonEmpty_option _ hl d hd
        exact option_record hp
      obtain ⟨⟨m, hm⟩, hlog⟩ := collectOptions_log (param := param) hrec []
      simp only [Eff.lift_ok_bind, hlog, hm]
      simp only [Option.some.injEq, exists_eq_left', hl]
      constructor
      · rintro (⟨o, rfl, hr | ⟨hh, -⟩⟩ | ⟨-, e, he, -⟩)
        · exact Or.inl ⟨l, o, rfl, hr, rfl⟩
        · simp [dhas] at hh
        · simp at he
      · rintro (⟨l', o, hl', hr, rfl⟩ | ⟨-, e, he, -⟩)
        · simp at hl'; subst hl'
          exact Or.inl ⟨o, rfl, Or.inl hr⟩
        · simp at he

theorem certTypeCheck_log (d : VDict) (v : Event) :
    v ∈ (certTypeCheck d).log ↔ v = .warn .certType ∧ ∃ x, dget d (py! "type") = some x ∧ x ≠ .int 1 ∧ x ≠ .int 2 := by
  unfold certTypeCheck dhas getType getItem
  rcases hx : dget d (py! "type") with _ | x
  · simp
  · simp only [Option.isSome_some, if_true, PrincipalType.value]
    by_cases h1 : x = .int 1
    · simp [h1, Eff.tryCatch]
    · by_cases h2 : x = .int 2
      · simp [h2, Eff.tryCatch]
      · simp [h1, h2, Eff.tryCatch, Exn.isValueError]

theorem certPrincipalsCheck_log {d : VDict} (h : (certPrincipalsCheck d).res = .ok ()) (v : Event) :
    v ∈ (certPrincipalsCheck d).log ↔ v = .warn .certPrincipals ∧ ∃ b e,
      dget d (py! "valid_principals") = some (.bytes b) ∧ getValidPrincipals d = .error e ∧ e.isEOFError = true := by
  simp only [← bytesOf?_eq]
  unfold certPrincipalsCheck at h ⊢
  rcases hb : bytesOf? d (py! "valid_principals") with _ | b
  · simp
  · rw [hb] at h
    simp only [Option.isSome_some, if_true] at h ⊢
    rw [eofWarns_log h]
    simp

theorem certCaCheck_log {ext : Ext} {d : VDict} (h : (certCaCheck (caFromBytes ext) d).res = .ok ()) (v : Event) :
    v ∈ (certCaCheck (caFromBytes ext) d).log ↔ ∃ b, dget d (py! "signature_key") = some (.bytes b) ∧
      (v ∈ (fromBytes ext .pub b none).log ∨
       (v = .warn .caIsCert ∧ ∃ k t, (fromBytes ext .pub b none).res = .ok k ∧
         dget k.header (py! "key_type") = some (.str t) ∧ isCertType t = true) ∨
       (v = .warn .caInvalid ∧ ∃ e, (fromBytes ext .pub b none).res = .error e)) := by
  rcases hb : bytesOf? d (py! "signature_key") with _ | b
  · have hnb : ∀ b, dget d (py! "signature_key") ≠ some (.bytes b) := by
      intro b hb'; rw [← bytesOf?_eq, hb] at hb'; simp at hb'
    unfold certCaCheck
    simp [hb, hnb]
  · rw [bytesOf?_eq] at hb
    rw [certCaCheck_eq ext hb] at h ⊢
    rcases hr : fromBytes ext .pub b none with ⟨lg, e | k⟩
    · rw [hr] at h
      simp only [hb, Option.some.injEq, Val.bytes.injEq, exists_eq_left']
      rcases he : (e : Exn) with _ | _ | _ | _ | _ | _ | k <;> first | (subst he; simp at h; done) | simp [hr]
    · simp only [hb, Option.some.injEq, Val.bytes.injEq, exists_eq_left', hr]
      obtain ⟨t, c, hd, p, f, n, -, rfl, hc, -, hk, -⟩ :=
        fromBytes_ok (by rw [hr] : (fromBytes ext .pub b none).res = .ok k)
      have hcert : k.params.cls.isSubclass .certPub = isCertType t := by
        rw [hk]
        simp only [paramsClass, getPublicClass] at hc
        split at hc
        · simp at hc
        · rename_i r hrr
          obtain ⟨s, hs, hm⟩ := lookupType_mem hrr
          simp at hs hc; subst hs; subst hc
          exact cert_types _ hm
      have hkt : dget k.header (py! "key_type") = some (.str t) := by rw [hk]; simp
      rw [hcert]
      rcases hct : isCertType t with _ | _ <;> simp [hkt, hct]

theorem bind_log_split {x : Eff Unit} {y : Eff Unit} (h : (do x; y : Eff Unit).res = .ok ()) :
    x.res = .ok () ∧ y.res = .ok () ∧ ∀ v, v ∈ (do x; y : Eff Unit).log ↔ v ∈ x.log ∨ v ∈ y.log := by
  obtain ⟨⟨⟩, h1, h2⟩ := Eff.bind_res_ok_iff.1 h
  exact ⟨h1, h2, fun v => mem_bind_log_iff h1⟩

theorem certLocalCheck_log {ext : Ext} {d : VDict} (h : (certLocalCheck (caFromBytes ext) d).res = .ok ()) (v : Event) :
    v ∈ (certLocalCheck (caFromBytes ext) d).log ↔ CertFault ext d v := by
  unfold certLocalCheck at h ⊢
  obtain ⟨-, h, e1⟩ := bind_log_split h
  obtain ⟨h2, h, e2⟩ := bind_log_split h
  obtain ⟨h3, h, e3⟩ := bind_log_split h
  obtain ⟨h4, h5, e4⟩ := bind_log_split h
  rw [e1, e2, e3, e4, certTypeCheck_log, certPrincipalsCheck_log h2, certOptionsCheck_log h3,
    certOptionsCheck_log h4, certCaCheck_log h5]
  constructor
  · rintro (⟨rfl, x, hx, h1, h2⟩ | ⟨rfl, b, e, hb, he, hE⟩ |
      ⟨b, hb, ⟨l, o, hl, hr, rfl⟩ | ⟨rfl, e, he, hE⟩⟩ | ⟨b, hb, ⟨l, o, hl, hr, rfl⟩ | ⟨rfl, e, he, hE⟩⟩ |
      ⟨b, hb, hv | ⟨rfl, k, t, hk, ht, hc⟩ | ⟨rfl, e, he⟩⟩)
    · exact .type hx h1 h2
    · exact .principals hb he hE
    · exact .repeated (Or.inl rfl) hb hl hr
    · exact .critical hb he hE
    · exact .repeated (Or.inr rfl) hb hl hr
    · exact .extensions hb he hE
    · exact .inside hb hv
    · exact .authorityCert hb hk ht hc
    · exact .authority hb he
  · intro h
    cases h with
    | type hx h1 h2 => exact Or.inl ⟨rfl, _, hx, h1, h2⟩
    | principals hb he hE => exact Or.inr (Or.inl ⟨rfl, _, _, hb, he, hE⟩)
    | critical hb he hE => exact Or.inr (Or.inr (Or.inl ⟨_, hb, Or.inr ⟨rfl, _, he, hE⟩⟩))
    | extensions hb he hE => exact Or.inr (Or.inr (Or.inr (Or.inl ⟨_, hb, Or.inr ⟨rfl, _, he, hE⟩⟩)))
    | repeated hp hb hl hr =>
      rcases hp with rfl | rfl
      · exact Or.inr (Or.inr (Or.inl ⟨_, hb, Or.inl ⟨_, _, hl, hr, rfl⟩⟩))
      · exact Or.inr (Or.inr (Or.inr (Or.inl ⟨_, hb, Or.inl ⟨_, _, hl, hr, rfl⟩⟩)))
    | inside hb hv => exact Or.inr (Or.inr (Or.inr (Or.inr ⟨_, hb, Or.inl hv⟩)))
    | authorityCert hb hk ht hc =>
      exact Or.inr (Or.inr (Or.inr (Or.inr ⟨_, hb, Or.inr (Or.inl ⟨rfl, _, _, hk, ht, hc⟩)⟩)))
    | authority hb he => exact Or.inr (Or.inr (Or.inr (Or.inr ⟨_, hb, Or.inr (Or.inr ⟨rfl, _, he⟩)⟩)))

/-- The checks that run for a key type, all of them: if they pass, what they report. -/
theorem allChecks_faults {ext : Ext} {kind : Kind} {t : Str} {c : Cls} {d : VDict} {fmt : FDict}
    (hc : paramsClass kind (.str t) = .ok c) (hf : fieldsOf kind t = some fmt)
    (h : (runChecks (localCheck ext (caFromBytes ext) c d) (checkPlan c)).res = .ok ()) (v : Event) :
    v ∈ (runChecks (localCheck ext (caFromBytes ext) c d) (checkPlan c)).log ↔
      (∃ w, v = .warn w ∧ (FieldFault fmt d w ∨ MaterialFault ext kind t d w)) ∨
      (isCertType t = true ∧ CertFault ext d v) := by
  obtain ⟨-, h2⟩ := plainChecks_faults (ext := ext) (ca := caFromBytes ext) (d := d) hc hf
  have hmem := runChecks_res_mem h
  rw [(runChecks_ok hmem).2, ← h2, ← (planFor hc).cert]
  constructor
  · rintro ⟨D, hD, hv⟩
    by_cases hcp : D = .certPub
    · subst hcp
      exact Or.inr ⟨hD, (certLocalCheck_log (hmem _ hD) v).1 hv⟩
    · exact Or.inl ⟨D, hD, hcp, hv⟩
  · rintro (⟨D, hD, -, hv⟩ | ⟨hD, hv⟩)
    · exact ⟨D, hD, hv⟩
    · exact ⟨.certPub, hD, (certLocalCheck_log (hmem _ hD) v).2 hv⟩

/-- **C71** (certificates). If constructing the parameters of a certificate succeeds (C53 says when it does
not), the warnings are exactly the faults of the fields, of the certified key, and of the certificate's
own fields. -/
theorem C71_certificate_checks (ext : Ext) (t : Str) (c : Cls) (d : VDict) (fmt : FDict) (prm : Params)
    (hc : paramsClass .pub (.str t) = .ok c) (hf : publicFields t = some fmt) (ht : isCertType t = true)
    (h : (newParams ext c d).res = .ok prm) :
    prm = ⟨c, d⟩ ∧
    ∀ v, v ∈ (newParams ext c d).log ↔
      (∃ w, v = .warn w ∧ (FieldFault fmt d w ∨ MaterialFault ext .pub t d w)) ∨ CertFault ext d v := by
  unfold newParams newParamsWith at h ⊢
  obtain ⟨⟨⟩, h1, h2⟩ := Eff.bind_res_ok_iff.1 h
  simp at h2
  refine ⟨h2.symm, ?_⟩
  intro v
  rw [mem_bind_log_iff h1, allChecks_faults hc hf h1, ht]
  simp

/-! ### C72: parsing a key -/

/-- **C72.** The warnings of parsing a key that parses are exactly: the faults of the key material; for a
certificate, those of its own fields; and, if bytes are left over, one warning about them.  (That a field is
missing or of the wrong class is never reported, because the values were just read.) -/
theorem C72_parse_warnings (ext : Ext) (kind : Kind) (b : Bytes) (clear : Option VDict) (k : Key)
    (h : (fromBytes ext kind b clear).res = .ok k) (hcl : dget (clear.getD []) (py! "remainder") = none) :
    ∃ t, dget k.header (py! "key_type") = some (.str t) ∧
    ∀ v, v ∈ (fromBytes ext kind b clear).log ↔
      (∃ w, v = .warn w ∧ MaterialFault ext kind t k.params.data w) ∨
      (isCertType t = true ∧ CertFault ext k.params.data v) ∨
      (v = .warn .excessBytes ∧ (dget k.clear (py! "remainder")).isSome) := by
  obtain ⟨t, c, hd, p, f, n, hr, rfl, hc, hu, hk, hlog⟩ := fromBytes_ok h
  refine ⟨t, by rw [hk]; simp, ?_⟩
  intro v
  have hf := fieldsOf_eq hc
  obtain ⟨t', c', n1, n2, n3, ht', hc', -, h2, -, -⟩ := prs_readKey_ok hr
  simp at ht'; subst ht'
  have := paramsClass_fun hc hc'; subst this
  have hsil := checkDict_read (plain_class hc) h2
  have hnf : ∀ w, ¬ FieldFault (formatOf c) p w := by
    intro w hw
    have := ((checkDict_faults (d := p) (plain_class hc)).2 (.warn w)).2 ⟨w, rfl, hw⟩
    rw [hsil] at this
    simp at this
  rw [hlog, List.mem_append, allChecks_faults hc hf hu, hk]
  simp only [hnf, false_or]
  rw [or_assoc]
  refine or_congr Iff.rfl (or_congr Iff.rfl ?_)
  by_cases hl : 0 < (b.drop n).length
  · simp only [hl, if_true, dget_dset_self]
    simp
  · simp only [hl, if_false, hcl]
    simp

/-! ### Examples -/

/-- A library that accepts exactly the points that start with 4. -/
def exCurves : Ext := ⟨fun _ q => q.head? == some 4, fun _ => []⟩

/-- A P-384 key that names P-256, with a point that is not accepted. -/
def exWrongCurve : VDict := [(py! "identifier", .str (py! "nistp256")), (py! "q", .bytes [5, 6])]

example : paramsClass .pub (.str (py! "ecdsa-sha2-nistp384")) = .ok .ec384Pub ∧
    fieldsOf .pub (py! "ecdsa-sha2-nistp384") = some ecFields ∧
    isCertType (py! "ecdsa-sha2-nistp384") = false ∧
    (newParams exCurves .ec384Pub exWrongCurve).log = [.warn .curveIdentifier, .warn .notOnCurve] ∧
    (newParams exCurves .ec384Pub [(py! "identifier", .str (py! "nistp384")), (py! "q", .bytes [4, 6])]).log = [] ∧
    (newParams exCurves .skEc256Priv [(py! "identifier", .str (py! "nistp256")), (py! "q", .bytes [4, 6]),
      (py! "application", .int 3), (py! "flags", .int 256), (py! "reserved", .bytes [])]).log =
      [.warn (.shouldBeOfClass (py! "application")), .warn (.shouldBeFormatted (py! "flags")),
       .warn (.missing (py! "key_handle")), .warn (.shouldBeOfClass (py! "application")),
       .warn (.shouldBeFormatted (py! "flags")), .warn (.missing (py! "key_handle"))] := by decide +kernel

/-- A certificate with a repeated extension, neither for users nor for hosts, whose authority is not a key. -/
def exFaultyCert : VDict :=
  dset (dset (exCertParams [0, 0, 0, 7]) (py! "type") (.int 7)) (py! "extensions")
    (.bytes ([0, 0, 0, 1, 97, 0, 0, 0, 0] ++ [0, 0, 0, 1, 97, 0, 0, 0, 1, 5]))

example : (newParams exCurves .certRsa exFaultyCert).res = .ok ⟨.certRsa, exFaultyCert⟩ ∧
    (newParams exCurves .certRsa exFaultyCert).log =
      [.warn .certType, .warn (.duplicateOption (py! "a") (py! "extensions")), .warn .caInvalid] := by
  decide +kernel

/-- The bytes of the key with the wrong curve, and one more. -/
def exWrongCurveWire : Bytes :=
  [0, 0, 0, 19] ++ pb! "ecdsa-sha2-nistp384" ++ [0, 0, 0, 8] ++ pb! "nistp256" ++ [0, 0, 0, 2, 5, 6] ++ [9]

example : (fromBytes exCurves .pub exWrongCurveWire none).res =
      .ok ⟨.pub, [(py! "key_type", .str (py! "ecdsa-sha2-nistp384"))], ⟨.ec384Pub, exWrongCurve⟩, [],
        [(py! "remainder", .bytes [9])]⟩ ∧
    (fromBytes exCurves .pub exWrongCurveWire none).log =
      [.warn .curveIdentifier, .warn .notOnCurve, .warn .excessBytes] := by decide +kernel

end OSK
