import Verif.Lemmas.Grammar
import Verif.Props.Checks
/-
Property C74: exactly which byte strings parse as keys, to what, and what is raised for the others.
-/
namespace OSK
open Spec

theorem failsAt_append {P : FI → Bytes → Prop} {a b : FDict} {r : Bytes} :
    FailsAt P (a ++ b) r ↔ FailsAt P a r ∨ ∃ w d r', EncodesAll a w d ∧ r = w ++ r' ∧ FailsAt P b r' := by
  induction a generalizing r with
  | nil =>
    constructor
    · intro h; exact Or.inr ⟨[], [], r, .nil, by simp, h⟩
    · rintro (h | ⟨w, d, r', h1, rfl, h2⟩)
      · cases h
      · cases h1; simpa using h2
  | cons kf t ih =>
    constructor
    · intro h
      cases h with
      | here h => exact Or.inl (.here h)
      | later h1 h2 =>
        rcases ih.1 h2 with h | ⟨w, d, r', h3, rfl, h4⟩
        · exact Or.inl (.later h1 h)
        · exact Or.inr ⟨_, _, r', .cons h1 h3, by simp, h4⟩
    · rintro (h | ⟨w, d, r', h1, rfl, h2⟩)
      · cases h with
        | here h => exact .here h
        | later h1 h2 => exact .later h1 (ih.2 (Or.inl h2))
      · cases h1 with
        | cons h3 h4 =>
          rw [List.append_assoc]
          exact .later h3 (ih.2 (Or.inr ⟨_, _, _, h4, rfl, h2⟩))

theorem paramsClass_of {kind : Kind} {t : Str} {fmt : FDict} (h : fieldsOf kind t = some fmt) :
    ∃ c, paramsClass kind (.str t) = .ok c ∧ formatOf c = fmt := by
  cases kind
  · exact paramsClass_pub_of h
  · exact paramsClass_priv_of h

theorem paramsClass_none {kind : Kind} {t : Str} (h : fieldsOf kind t = none) :
    ∃ m, paramsClass kind (.str t) = .error (.keyError (some m)) := by
  apply unsupported_class
  cases kind
  · simp only [fieldsOf, publicFields, Option.map_eq_none_iff] at h
    exact dget_eq_none_iff.1 h
  · exact h

/-! ### Reading a key -/

theorem header_eq (kind : Kind) : headerFmt kind = [(py! "key_type", .pascal .string)] := by cases kind <;> rfl
theorem footer_eq (kind : Kind) : footerFmt kind = afterFields kind := by cases kind <;> rfl

theorem string_encodes {w : Bytes} {t : Str} (h : Encodes (.pascal .string) w (.str t)) :
    EncodesAll [(py! "key_type", .pascal .string)] w [(py! "key_type", .str t)] := by
  have := EncodesAll.cons (k := py! "key_type") h .nil
  simpa using this

theorem readKey_in {kind : Kind} {b : Bytes} {t : Str} {p f : VDict} {rest : Bytes} (h : KeyIn kind b t p f rest) :
    ∃ n, prs (readKey kind) b = (.ok ([(py! "key_type", .str t)], p, f), n) ∧ b.drop n = rest := by
  obtain ⟨fmt, wt, wp, wf, hf, h1, h2, h3, rfl⟩ := h.layout
  obtain ⟨c, hc, rfl⟩ := paramsClass_of hf
  unfold readKey
  rw [prs_bind (fun h => readKey_rest_reader kind h) (Reader.readDict _)]
  rw [List.append_assoc, List.append_assoc, header_eq, readDict_encodes rfl (string_encodes h1)]
  simp only [getItem, dget_cons_self, SM.lift_ok_bind, hc, List.drop_left]
  rw [prs_bind (fun _ => (Reader.readDict _).bind fun _ => Reader.pure _) (Reader.readDict _),
    readDict_encodes (fieldsOf_wire hf) h2]
  simp only [List.drop_left]
  rw [prs_bind (fun _ => Reader.pure _) (Reader.readDict _), footer_eq, readDict_encodes (afterFields_wire kind) h3]
  simp only [prs_pure]
  refine ⟨_, rfl, ?_⟩
  rw [← List.append_assoc, ← List.append_assoc]
  exact List.drop_left' (by simp)

theorem readKey_fails {P : FI → Bytes → Prop} {e : Exn}
    (hP : ∀ fi r, fi.wire = true → P fi r → ∃ n, prs (readFI fi) r = (.error e, n))
    {kind : Kind} {b : Bytes} (h : KeyFails P kind b) : ∃ n, prs (readKey kind) b = (.error e, n) := by
  unfold readKey
  rw [prs_bind (fun h => readKey_rest_reader kind h) (Reader.readDict _), header_eq]
  cases h with
  | type h =>
    obtain ⟨n, hn⟩ := readDict_fails hP (fmt := [(py! "key_type", .pascal .string)]) rfl (.here h)
    rw [hn]
    exact ⟨_, rfl⟩
  | fields h1 hf h2 =>
    obtain ⟨c, hc, rfl⟩ := paramsClass_of hf
    rw [readDict_encodes rfl (string_encodes h1)]
    simp only [getItem, dget_cons_self, SM.lift_ok_bind, hc, List.drop_left]
    rw [prs_bind (fun _ => (Reader.readDict _).bind fun _ => Reader.pure _) (Reader.readDict _)]
    rcases failsAt_append.1 h2 with h | ⟨w, d, r', h3, rfl, h4⟩
    · obtain ⟨n, hn⟩ := readDict_fails hP (fieldsOf_wire hf) h
      rw [hn]
      exact ⟨_, rfl⟩
    · rw [readDict_encodes (fieldsOf_wire hf) h3]
      simp only [List.drop_left]
      obtain ⟨n, hn⟩ := readDict_fails hP (afterFields_wire kind) h4
      rw [prs_bind (fun _ => Reader.pure _) (Reader.readDict _), footer_eq, hn]
      exact ⟨_, rfl⟩

theorem readKey_unknown {kind : Kind} {t : Str} {wt r : Bytes} (h : Encodes (.pascal .string) wt (.str t))
    (hf : fieldsOf kind t = none) : ∃ m n, prs (readKey kind) (wt ++ r) = (.error (.keyError m), n) := by
  obtain ⟨m, hm⟩ := paramsClass_none hf
  unfold readKey
  rw [prs_bind (fun h => readKey_rest_reader kind h) (Reader.readDict _), header_eq,
    readDict_encodes rfl (string_encodes h)]
  simp only [getItem, dget_cons_self, SM.lift_ok_bind, hm, SM.lift_error_bind, prs_throw]
  exact ⟨_, _, rfl⟩

/-- One of the four cases always applies. -/
theorem key_cases (kind : Kind) (b : Bytes) :
    (∃ t p f rest, KeyIn kind b t p f rest) ∨ (∃ c, KeyFails (CutOff c) kind b) ∨ KeyFails NotText kind b ∨
    ∃ t wt r, Encodes (.pascal .string) wt (.str t) ∧ fieldsOf kind t = none ∧ b = wt ++ r := by
  rcases field_cases (fi := .pascal .string) rfl b with ⟨wt, v, r, h, rfl⟩ | ⟨c, h⟩ | h
  · have hv : ∃ t, v = .str t := by cases h; exact ⟨_, rfl⟩
    obtain ⟨t, rfl⟩ := hv
    rcases hf : fieldsOf kind t with _ | fmt
    · exact Or.inr (Or.inr (Or.inr ⟨t, wt, r, h, hf, rfl⟩))
    · rcases dict_cases (fieldsOf_wire hf) r with ⟨wp, p, r2, h2, rfl⟩ | ⟨c, h2⟩ | h2
      · rcases dict_cases (afterFields_wire kind) r2 with ⟨wf, f, rest, h3, rfl⟩ | ⟨c, h3⟩ | h3
        · exact Or.inl ⟨t, p, f, rest, ⟨fmt, wt, wp, wf, hf, h, h2, h3, by simp⟩⟩
        · exact Or.inr (Or.inl ⟨c, .fields h hf (failsAt_append.2 (Or.inr ⟨_, _, _, h2, rfl, h3⟩))⟩)
        · exact Or.inr (Or.inr (Or.inl (.fields h hf (failsAt_append.2 (Or.inr ⟨_, _, _, h2, rfl, h3⟩)))))
      · exact Or.inr (Or.inl ⟨c, .fields h hf (failsAt_append.2 (Or.inl h2))⟩)
      · exact Or.inr (Or.inr (Or.inl (.fields h hf (failsAt_append.2 (Or.inl h2)))))
  · exact Or.inr (Or.inl ⟨c, .type h⟩)
  · exact Or.inr (Or.inr (Or.inl (.type h)))

/-! ### The checks of a certificate -/

theorem eofWarns_res {α : Type} (x : Eff α) (w : Warning) :
    (eofWarns x w).res = match x.res with
      | .ok _ => .ok ()
      | .error e => if e.isEOFError then .ok () else .error e := by
  unfold eofWarns Eff.tryCatch
  rcases hr : x.res with e | a
  · have hb : (do let _ ← x; pure () : Eff Unit) = ⟨x.log, .error e⟩ := Eff.bind_error hr _
    rw [hb]
    by_cases he : e.isEOFError = true <;> simp [he]
  · have hb : (do let _ ← x; pure () : Eff Unit) = ⟨x.log, .ok ()⟩ := by
      rw [Eff.bind_ok hr]; simp
    rw [hb]

theorem certTypeCheck_res (d : VDict) : (certTypeCheck d).res = .ok () := by
  unfold certTypeCheck dhas getType getItem
  rcases hx : dget d (py! "type") with _ | x
  · simp
  · simp only [Option.isSome_some, if_true, PrincipalType.value]
    by_cases h1 : x = .int 1
    · simp [h1, Eff.tryCatch]
    · by_cases h2 : x = .int 2
      · simp [h2, Eff.tryCatch]
      · simp [h1, h2, Eff.tryCatch, Exn.isValueError]

/-- A list of records in field `name` has text that is not UTF-8. -/
def RecordsNotText (d : VDict) (name : Str) (fmt : FDict) : Prop :=
  ∃ b l r, dget d name = some (.bytes b) ∧ Records fmt b l r ∧ FailsAt NotText fmt r

theorem recordNotText_iff {d : VDict} : RecordNotText d ↔ RecordsNotText d (py! "valid_principals") principalFmt ∨
    RecordsNotText d (py! "critical_options") optionFmt ∨ RecordsNotText d (py! "extensions") optionFmt := by
  unfold RecordNotText recordFields RecordsNotText principalFmt optionFmt
  simp

theorem principal_wire : wireFmt principalFmt = true := rfl
theorem option_wire : wireFmt optionFmt = true := rfl

theorem column_principal {l : List VDict} (h : ∀ d ∈ l, ∃ v, dget d (py! "principal") = some v) :
    ∃ vs, column (py! "principal") l = .ok vs := by
  induction l with
  | nil => exact ⟨[], rfl⟩
  | cons d t ih =>
    obtain ⟨v, hv⟩ := h d (by simp)
    obtain ⟨vs, hvs⟩ := ih (fun d hd => h d (by simp [hd]))
    exact ⟨v :: vs, by simp [column, getItem, hv, hvs, Except.map]⟩

theorem records_dkeys {fmt : FDict} {b : Bytes} {l : List VDict} {r : Bytes} (h : Records fmt b l r) :
    ∀ d ∈ l, dkeys d = dkeys fmt := by
  have one : ∀ {fmt : FDict} {w : Bytes} {d : VDict}, EncodesAll fmt w d → dkeys d = dkeys fmt := by
    intro fmt w d h
    induction h with
    | nil => rfl
    | cons _ _ ih => simp [dkeys_cons, ih]
  induction h with
  | done => simp
  | more h1 _ ih =>
    intro d hd
    simp at hd
    rcases hd with rfl | hd
    · exact one h1
    · exact ih d hd

theorem principals_res {d : VDict} {b : Bytes} (hb : dget d (py! "valid_principals") = some (.bytes b)) :
    (∃ l, (readRepeatedly principalFmt (Stream.of b)).1 = .ok l ∧ ∃ vs, getValidPrincipals d = .ok vs) ∨
    (∃ e, (readRepeatedly principalFmt (Stream.of b)).1 = .error e ∧ getValidPrincipals d = .error e) := by
  have hg : getValidPrincipals d = (readRepeatedly principalFmt (Stream.of b)).1 >>= column (py! "principal") := by
    unfold getValidPrincipals getItem
    simp only [hb, asBuffer]; rfl
  rw [hg]
  rcases hr : (readRepeatedly principalFmt (Stream.of b)).1 with e | l
  · exact Or.inr ⟨e, rfl, rfl⟩
  · left
    refine ⟨l, rfl, ?_⟩
    obtain ⟨r, h1, -⟩ := ((repeated_iff principal_wire nonEmpty_principal b).1 l).1 hr
    refine column_principal fun d hd => ?_
    have := records_dkeys h1 d hd
    rw [← Option.isSome_iff_exists, dget_isSome_iff, this]
    decide

theorem certPrincipalsCheck_res (d : VDict) :
    (RecordsNotText d (py! "valid_principals") principalFmt → (certPrincipalsCheck d).res = .error .unicodeDecodeError) ∧
    (¬ RecordsNotText d (py! "valid_principals") principalFmt → (certPrincipalsCheck d).res = .ok ()) := by
  unfold certPrincipalsCheck
  rcases hb : bytesOf? d (py! "valid_principals") with _ | b
  · refine ⟨?_, fun _ => by simp⟩
    rintro ⟨b, l, r, hb', -⟩
    rw [← bytesOf?_eq, hb] at hb'; simp at hb'
  · simp only [Option.isSome_some, if_true]
    rw [bytesOf?_eq] at hb
    obtain ⟨-, h2, h3, h4⟩ := repeated_iff principal_wire nonEmpty_principal b
    have hiff : RecordsNotText d (py! "valid_principals") principalFmt ↔
        (readRepeatedly principalFmt (Stream.of b)).1 = .error .unicodeDecodeError := by
      rw [h3]
      constructor
      · rintro ⟨b', l, r, hb', h⟩
        rw [hb] at hb'; simp at hb'; subst hb'
        exact ⟨l, r, h⟩
      · rintro ⟨l, r, h⟩; exact ⟨b, l, r, hb, h⟩
    rw [hiff, eofWarns_res]
    rcases principals_res hb with ⟨l, hl, vs, hvs⟩ | ⟨e, he, hg⟩
    · rw [hl]; simp [hvs]
    · rw [he]
      simp only [Eff.lift_res, hg]
      rcases h4 e he with rfl | rfl
      · simp [eofExn, Exn.isEOFError]
      · simp [Exn.isEOFError]

theorem certOptionsCheck_res (d : VDict) (param : Str) (w : Warning) :
    (RecordsNotText d param optionFmt → (certOptionsCheck d param w).res = .error .unicodeDecodeError) ∧
    (¬ RecordsNotText d param optionFmt → (certOptionsCheck d param w).res = .ok ()) := by
  unfold certOptionsCheck
  rcases hb : bytesOf? d param with _ | b
  · refine ⟨?_, fun _ => by simp⟩
    rintro ⟨b, l, r, hb', -⟩
    rw [← bytesOf?_eq, hb] at hb'; simp at hb'
  · simp only [Option.isSome_some, if_true]
    rw [bytesOf?_eq] at hb
    obtain ⟨-, h2, h3, h4⟩ := repeated_iff option_wire nonEmpty_option b
    have hiff : RecordsNotText d param optionFmt ↔
        (readRepeatedly optionFmt (Stream.of b)).1 = .error .unicodeDecodeError := by
      rw [h3]
      constructor
      · rintro ⟨b', l, r, hb', h⟩
        rw [hb] at hb'; simp at hb'; subst hb'
        exact ⟨l, r, h⟩
      · rintro ⟨l, r, h⟩; exact ⟨b, l, r, hb, h⟩
    have hg : getOptionValues d param =
        (Eff.lift (readRepeatedly optionFmt (Stream.of b)).1 >>= collectOptions param []) := by
      unfold getOptionValues getItem
      simp only [hb, asBuffer, Eff.lift_ok_bind]
    rw [hiff, eofWarns_res, hg]
    rcases hl : (readRepeatedly optionFmt (Stream.of b)).1 with e | l
    · rcases h4 e hl with rfl | rfl
      · simp [eofExn, Exn.isEOFError]
      · simp [Exn.isEOFError]
    · have hrec : ∀ d ∈ l, ∃ o v, d = [(py! "option", Val.str o), (py! "value", Val.bytes v)] := by
        intro d hd
        obtain ⟨r, n, hp⟩ := readRepeatedly_records nonEmpty_option _ hl d hd
        exact option_record hp
      obtain ⟨⟨m, hm⟩, -⟩ := collectOptions_log (param := param) hrec []
      simp [Eff.lift_ok_bind, hm]

theorem certLocalCheck_res (ext : Ext) (d : VDict) :
    (RecordNotText d → (certLocalCheck (caFromBytes ext) d).res = .error .unicodeDecodeError) ∧
    (¬ RecordNotText d → (certLocalCheck (caFromBytes ext) d).res = (certCaCheck (caFromBytes ext) d).res) := by
  have hp := certPrincipalsCheck_res d
  have hc := certOptionsCheck_res d (py! "critical_options") .certCriticalOptions
  have hx := certOptionsCheck_res d (py! "extensions") .certExtensions
  unfold certLocalCheck
  rw [Eff.bind_res_of_ok (certTypeCheck_res d), recordNotText_iff]
  by_cases h1 : RecordsNotText d (py! "valid_principals") principalFmt
  · refine ⟨fun _ => ?_, fun h => absurd (Or.inl h1) h⟩
    exact Eff.bind_res_error_iff.2 (Or.inl (hp.1 h1))
  · rw [Eff.bind_res_of_ok (hp.2 h1)]
    by_cases h2 : RecordsNotText d (py! "critical_options") optionFmt
    · refine ⟨fun _ => ?_, fun h => absurd (Or.inr (Or.inl h2)) h⟩
      exact Eff.bind_res_error_iff.2 (Or.inl (hc.1 h2))
    · rw [Eff.bind_res_of_ok (hc.2 h2)]
      by_cases h3 : RecordsNotText d (py! "extensions") optionFmt
      · refine ⟨fun _ => ?_, fun h => absurd (Or.inr (Or.inr h3)) h⟩
        exact Eff.bind_res_error_iff.2 (Or.inl (hx.1 h3))
      · rw [Eff.bind_res_of_ok (hx.2 h3)]
        exact ⟨fun h => by rcases h with h | h | h <;> contradiction, fun _ => rfl⟩

/-- The authority's field holds bytes whose parse raises `KeyError`. -/
def AuthorityRaises (ext : Ext) (d : VDict) : Prop :=
  ∃ a m, dget d (py! "signature_key") = some (.bytes a) ∧ (fromBytes ext .pub a none).res = .error (.keyError m)

theorem certCaCheck_res (ext : Ext) (d : VDict) :
    (AuthorityRaises ext d → ∃ m, (certCaCheck (caFromBytes ext) d).res = .error (.keyError m)) ∧
    (¬ AuthorityRaises ext d → (certCaCheck (caFromBytes ext) d).res = .ok ()) := by
  rcases hb : bytesOf? d (py! "signature_key") with _ | a
  · have hnb : ∀ b, dget d (py! "signature_key") ≠ some (.bytes b) := by
      intro b hb'; rw [← bytesOf?_eq, hb] at hb'; simp at hb'
    refine ⟨fun ⟨a, m, ha, _⟩ => absurd ha (hnb a), fun _ => ?_⟩
    unfold certCaCheck
    simp [hb]
  · rw [bytesOf?_eq] at hb
    rw [certCaCheck_eq ext hb]
    rcases hr : fromBytes ext .pub a none with ⟨lg, e | k⟩
    · by_cases he : ∃ m, e = .keyError m
      · obtain ⟨m, rfl⟩ := he
        refine ⟨fun _ => ⟨m, rfl⟩, fun h => absurd ⟨a, m, hb, by rw [hr]⟩ h⟩
      · constructor
        · rintro ⟨a', m, ha, hm⟩
          rw [hb] at ha; simp at ha; subst ha
          rw [hr] at hm; simp at hm
          exact absurd ⟨m, hm⟩ he
        · intro _
          rcases e with _ | _ | _ | _ | _ | _ | k <;> first | rfl | exact absurd ⟨_, rfl⟩ he
    · refine ⟨?_, fun _ => rfl⟩
      rintro ⟨a', m, ha, hm⟩
      rw [hb] at ha; simp at ha; subst ha
      rw [hr] at hm; simp at hm

theorem cert_not_private : ∀ e ∈ keyTable, isCertType e.1 = true → e.2.2 = none := by decide +kernel

theorem cert_pub {kind : Kind} {t : Str} {fmt : FDict} (h : fieldsOf kind t = some fmt) (ht : isCertType t = true) :
    kind = .pub := by
  cases kind
  · rfl
  · simp only [fieldsOf, privateFields, Option.bind_eq_some_iff] at h
    obtain ⟨r, hr, hf⟩ := h
    rw [cert_not_private _ (dget_mem hr) ht] at hf
    simp at hf

/-- The checks of a key that was read. -/
theorem checks_res {ext : Ext} {kind : Kind} {t : Str} {c : Cls} {d : VDict} (hc : paramsClass kind (.str t) = .ok c) :
    (isCertType t = false → (runChecks (localCheck ext (caFromBytes ext) c d) (checkPlan c)).res = .ok ()) ∧
    (isCertType t = true → (runChecks (localCheck ext (caFromBytes ext) c d) (checkPlan c)).res =
      (certLocalCheck (caFromBytes ext) d).res) := by
  have hf := fieldsOf_eq hc
  obtain ⟨h1, -⟩ := plainChecks_faults (ext := ext) (ca := caFromBytes ext) (d := d) hc hf
  constructor
  · intro hn
    refine (runChecks_ok fun D hD => h1 D ?_).1
    rintro rfl
    rw [(planFor hc).cert, hn] at hD
    simp at hD
  · intro ht
    have := cert_pub hf ht
    subst this
    obtain ⟨pre, hplan, hpre⟩ := certPlan_eq hc ht
    have hok := (runChecks_ok (f := localCheck ext (caFromBytes ext) c d) (l := pre)
      (fun D hD => h1 D (fun h => hpre (h ▸ hD)))).1
    rw [hplan, runChecks_append, Eff.bind_res_of_ok hok]
    simp only [runChecks, localCheck]
    rcases hr : (certLocalCheck (caFromBytes ext) d).res with e | ⟨⟩
    · exact Eff.bind_res_error_iff.2 (Or.inl hr)
    · rw [Eff.bind_res_of_ok hr]; rfl

/-! ### Parsing a key -/

theorem fromBytes_read_error {ext : Ext} {kind : Kind} {b : Bytes} {clear : Option VDict} {e : Exn}
    (h : ∃ n, prs (readKey kind) b = (.error e, n)) : (fromBytes ext kind b clear).res = .error e := by
  obtain ⟨n, hn⟩ := h
  unfold fromBytes
  rw [fromBytesWith_eq, hn]
  rfl

theorem fromBytes_in {ext : Ext} {kind : Kind} {b : Bytes} {clear : Option VDict} {t : Str} {p f : VDict} {rest : Bytes}
    {c : Cls} (h : KeyIn kind b t p f rest) (hc : paramsClass kind (.str t) = .ok c) :
    (∀ e, (runChecks (localCheck ext (caFromBytes ext) c p) (checkPlan c)).res = .error e →
      (fromBytes ext kind b clear).res = .error e) ∧
    ((runChecks (localCheck ext (caFromBytes ext) c p) (checkPlan c)).res = .ok () →
      (fromBytes ext kind b clear).res = .ok ⟨kind, [(py! "key_type", .str t)], ⟨c, p⟩, f,
        if rest = [] then clear.getD [] else dset (clear.getD []) (py! "remainder") (.bytes rest)⟩) := by
  obtain ⟨n, hn, hrest⟩ := readKey_in h
  obtain ⟨t', c', n1, n2, n3, ht', hc', -, -, h3, -⟩ := prs_readKey_ok hn
  unfold fromBytes
  rw [fromBytesWith_eq, hn]
  simp only [hrest]
  rw [mkKeyWith_eq (t := t) (c := c) (by simp) hc, checkDict_read (plain_footer kind) h3]
  constructor
  · intro e he
    exact Eff.bind_res_error_iff.2 (Or.inl (Eff.bind_res_error_iff.2 (Or.inl he)))
  · intro hok
    rw [Eff.bind_res_of_ok (a := ⟨kind, [(py! "key_type", .str t)], ⟨c, p⟩, f, clear.getD []⟩)
      (by rw [Eff.bind_res_of_ok hok]; simp)]
    cases rest with
    | nil => simp
    | cons x xs => simp; rfl

theorem encodesAll_size {fmt : FDict} {w : Bytes} {d : VDict} (h : EncodesAll fmt w d) {k : Str} {a : Bytes}
    (hm : (k, Val.bytes a) ∈ d) : 4 + a.length ≤ w.length := by
  induction h with
  | nil => simp at hm
  | cons h1 h2 ih =>
    simp only [List.mem_cons, Prod.mk.injEq] at hm
    rcases hm with ⟨rfl, rfl⟩ | hm
    · cases h1 with
      | bytes h =>
        obtain ⟨p, hp, -, rfl⟩ := h
        simp [hp]
    · have := ih hm
      simp; omega

theorem keyIn_authority_lt {kind : Kind} {b a : Bytes} {t : Str} {p f : VDict} {rest : Bytes}
    (h : KeyIn kind b t p f rest) {k : Str} (ha : dget p k = some (.bytes a)) : a.length < b.length := by
  obtain ⟨fmt, wt, wp, wf, -, -, h2, -, rfl⟩ := h.layout
  have := encodesAll_size h2 (dget_mem ha)
  simp; omega

/-- Each case of the grammar gives its outcome. -/
theorem fromBytes_unknown {ext : Ext} {kind : Kind} {b : Bytes} {clear : Option VDict} (h : UnknownKey kind b) :
    ∃ m, (fromBytes ext kind b clear).res = .error (.keyError m) := by
  induction h generalizing clear with
  | type h hf =>
    obtain ⟨m, n, hn⟩ := readKey_unknown h hf
    exact ⟨m, fromBytes_read_error ⟨n, hn⟩⟩
  | @authority kind b a t p f rest hk ht hr ha _ ih =>
    obtain ⟨fmt, wt, wp, wf, hf, -⟩ := hk.layout
    obtain ⟨c, hc, -⟩ := paramsClass_of hf
    obtain ⟨m, hm⟩ := ih (clear := none)
    obtain ⟨m', hm'⟩ := (certCaCheck_res ext p).1 ⟨a, m, ha, hm⟩
    refine ⟨m', (fromBytes_in hk hc).1 _ ?_⟩
    rw [(checks_res hc).2 ht, (certLocalCheck_res ext p).2 hr, hm']

/-- The outcome, in every case of the grammar. -/
theorem fromBytes_outcome (ext : Ext) : ∀ (n : Nat) (kind : Kind) (b : Bytes) (clear : Option VDict), b.length ≤ n →
    ((∃ m, (fromBytes ext kind b clear).res = .error (.keyError m)) → UnknownKey kind b) ∧
    ∀ t p f rest, KeyIn kind b t p f rest →
      (Acceptable t p → ∃ c, paramsClass kind (.str t) = .ok c ∧ (fromBytes ext kind b clear).res =
        .ok ⟨kind, [(py! "key_type", .str t)], ⟨c, p⟩, f,
          if rest = [] then clear.getD [] else dset (clear.getD []) (py! "remainder") (.bytes rest)⟩) ∧
      (isCertType t = true → RecordNotText p → (fromBytes ext kind b clear).res = .error .unicodeDecodeError) := by
  intro n
  induction n with
  | zero =>
    intro kind b clear hb
    have hb' : b = [] := List.eq_nil_of_length_eq_zero (by omega)
    subst hb'
    have hcut : KeyFails (CutOff true) kind [] := .type (CutOff.length (r := []) (by simp))
    have hres := fromBytes_read_error (ext := ext) (clear := clear)
      (readKey_fails (fun _ _ hw h => readFI_cutOff hw h) hcut)
    refine ⟨fun ⟨m, hm⟩ => by rw [hres] at hm; simp [eofExn] at hm, ?_⟩
    intro t p f rest hk
    obtain ⟨m, hm, -⟩ := readKey_in hk
    obtain ⟨m', hm'⟩ := readKey_fails (fun _ _ hw h => readFI_cutOff hw h) hcut
    rw [hm'] at hm; simp at hm
  | succ n ih =>
    intro kind b clear hb
    have hin : ∀ t p f rest, KeyIn kind b t p f rest →
        (Acceptable t p → ∃ c, paramsClass kind (.str t) = .ok c ∧ (fromBytes ext kind b clear).res =
          .ok ⟨kind, [(py! "key_type", .str t)], ⟨c, p⟩, f,
            if rest = [] then clear.getD [] else dset (clear.getD []) (py! "remainder") (.bytes rest)⟩) ∧
        (isCertType t = true → RecordNotText p → (fromBytes ext kind b clear).res = .error .unicodeDecodeError) := by
      intro t p f rest hk
      obtain ⟨fmt, wt, wp, wf, hf, -⟩ := hk.layout
      obtain ⟨c, hc, -⟩ := paramsClass_of hf
      refine ⟨fun hacc => ⟨c, hc, (fromBytes_in hk hc).2 ?_⟩, fun ht hr => (fromBytes_in hk hc).1 _ ?_⟩
      · rcases ht : isCertType t with _ | _
        · exact (checks_res hc).1 ht
        · obtain ⟨h1, h2⟩ := hacc ht
          rw [(checks_res hc).2 ht, (certLocalCheck_res ext p).2 h1]
          refine (certCaCheck_res ext p).2 ?_
          rintro ⟨a, m, ha, hm⟩
          have hlt := keyIn_authority_lt hk ha
          exact h2 a ha ((ih .pub a none (by omega)).1 ⟨m, hm⟩)
      · rw [(checks_res hc).2 ht, (certLocalCheck_res ext p).1 hr]
    refine ⟨?_, hin⟩
    rintro ⟨m, hm⟩
    rcases key_cases kind b with ⟨t, p, f, rest, hk⟩ | ⟨c, hk⟩ | hk | ⟨t, wt, r, h1, h2, rfl⟩
    · by_cases hacc : Acceptable t p
      · obtain ⟨c, -, hok⟩ := (hin t p f rest hk).1 hacc
        rw [hok] at hm; simp at hm
      · unfold Acceptable at hacc
        simp only [Classical.not_imp] at hacc
        obtain ⟨ht, hacc⟩ := hacc
        by_cases hr : RecordNotText p
        · rw [(hin t p f rest hk).2 ht hr] at hm; simp at hm
        · have : ∃ a, dget p (py! "signature_key") = some (.bytes a) ∧ UnknownKey .pub a := by
            by_contra hno
            exact hacc ⟨hr, fun a ha hu => hno ⟨a, ha, hu⟩⟩
          obtain ⟨a, ha, hu⟩ := this
          exact .authority hk ht hr ha hu
    · rw [fromBytes_read_error (readKey_fails (fun _ _ hw h => readFI_cutOff hw h) hk)] at hm
      simp [eofExn] at hm
    · rw [fromBytes_read_error (readKey_fails (fun _ _ _ h => readFI_notText h) hk)] at hm
      simp at hm
    · exact .type h1 h2

/-- The grammar is unambiguous: the bytes determine type, values, comment and remainder. -/
theorem C74_unambiguous (kind : Kind) (b : Bytes) (t t' : Str) (p p' f f' : VDict) (rest rest' : Bytes)
    (h : KeyIn kind b t p f rest) (h' : KeyIn kind b t' p' f' rest') : t = t' ∧ p = p' ∧ f = f' ∧ rest = rest' := by
  obtain ⟨n, hn, hr⟩ := readKey_in h
  obtain ⟨n', hn', hr'⟩ := readKey_in h'
  rw [hn] at hn'
  simp at hn'
  obtain ⟨⟨rfl, rfl, rfl⟩, rfl⟩ := hn'
  exact ⟨rfl, rfl, rfl, by rw [← hr, ← hr']⟩

/-- All cases at once. -/
theorem fromBytes_cases (ext : Ext) (kind : Kind) (b : Bytes) (clear : Option VDict) :
    (∃ t p f rest c, KeyIn kind b t p f rest ∧ Acceptable t p ∧ paramsClass kind (.str t) = .ok c ∧
      (fromBytes ext kind b clear).res = .ok ⟨kind, [(py! "key_type", .str t)], ⟨c, p⟩, f,
          if rest = [] then clear.getD [] else dset (clear.getD []) (py! "remainder") (.bytes rest)⟩) ∨
    (∃ c, KeyFails (CutOff c) kind b ∧ (fromBytes ext kind b clear).res = .error (eofExn c)) ∨
    ((KeyFails NotText kind b ∨ ∃ t p f rest, KeyIn kind b t p f rest ∧ isCertType t = true ∧ RecordNotText p) ∧
      (fromBytes ext kind b clear).res = .error .unicodeDecodeError) ∨
    (UnknownKey kind b ∧ ∃ m, (fromBytes ext kind b clear).res = .error (.keyError m)) := by
  have hout := fromBytes_outcome ext b.length kind b clear (Nat.le_refl _)
  rcases key_cases kind b with ⟨t, p, f, rest, hk⟩ | ⟨c, hk⟩ | hk | ⟨t, wt, r, h1, h2, rfl⟩
  · by_cases hacc : Acceptable t p
    · obtain ⟨c, hc, hok⟩ := (hout.2 t p f rest hk).1 hacc
      exact Or.inl ⟨t, p, f, rest, c, hk, hacc, hc, hok⟩
    · unfold Acceptable at hacc
      simp only [Classical.not_imp] at hacc
      obtain ⟨ht, hacc⟩ := hacc
      by_cases hr : RecordNotText p
      · exact Or.inr (Or.inr (Or.inl ⟨Or.inr ⟨t, p, f, rest, hk, ht, hr⟩, (hout.2 t p f rest hk).2 ht hr⟩))
      · have : ∃ a, dget p (py! "signature_key") = some (.bytes a) ∧ UnknownKey .pub a := by
          by_contra hno
          exact hacc ⟨hr, fun a ha hu => hno ⟨a, ha, hu⟩⟩
        obtain ⟨a, ha, hu⟩ := this
        have hu' : UnknownKey kind b := .authority hk ht hr ha hu
        exact Or.inr (Or.inr (Or.inr ⟨hu', fromBytes_unknown hu'⟩))
  · exact Or.inr (Or.inl ⟨c, hk, fromBytes_read_error (readKey_fails (fun _ _ hw h => readFI_cutOff hw h) hk)⟩)
  · exact Or.inr (Or.inr (Or.inl ⟨Or.inl hk, fromBytes_read_error (readKey_fails (fun _ _ _ h => readFI_notText h) hk)⟩))
  · exact Or.inr (Or.inr (Or.inr ⟨.type h1 h2, fromBytes_unknown (.type h1 h2)⟩))

/-- **C74** (acceptance). Parsing any bytes as a key succeeds exactly if the grammar says so, and the key is the
one the grammar says. -/
theorem C74_accepts (ext : Ext) (kind : Kind) (b : Bytes) (clear : Option VDict) (k : Key) :
    (fromBytes ext kind b clear).res = .ok k ↔
      ∃ t p f rest, KeyIn kind b t p f rest ∧ Acceptable t p ∧
        k.kind = kind ∧ k.header = [(py! "key_type", .str t)] ∧ paramsClass kind (.str t) = .ok k.params.cls ∧
        k.params.data = p ∧ k.footer = f ∧
        k.clear = if rest = [] then clear.getD [] else dset (clear.getD []) (py! "remainder") (.bytes rest) := by
  constructor
  · intro h
    rcases fromBytes_cases ext kind b clear with ⟨t, p, f, rest, c, hk, hacc, hc, hok⟩ | ⟨c, -, he⟩ | ⟨-, he⟩ | ⟨-, m, he⟩
    · rw [hok] at h
      simp at h
      subst h
      exact ⟨t, p, f, rest, hk, hacc, rfl, rfl, hc, rfl, rfl, rfl⟩
    · rw [he] at h; simp at h
    · rw [he] at h; simp at h
    · rw [he] at h; simp at h
  · rintro ⟨t, p, f, rest, hk, hacc, h1, h2, h3, h4, h5, h6⟩
    obtain ⟨c, hc, hok⟩ := ((fromBytes_outcome ext b.length kind b clear (Nat.le_refl _)).2 t p f rest hk).1 hacc
    rw [hok]
    obtain ⟨kd, hd, ⟨c', d⟩, ft, cl⟩ := k
    simp only at h1 h2 h3 h4 h5 h6
    subst h1 h2 h4 h5 h6
    rw [paramsClass_fun hc h3]

/-- **C74** (end of the data). `EOFError` is raised exactly if the data ends inside the type string or inside a
field; its first argument is true exactly if nothing is left of what was to be read. -/
theorem C74_end_of_data (ext : Ext) (kind : Kind) (b : Bytes) (clear : Option VDict) (clean : Bool) :
    (∃ m, (fromBytes ext kind b clear).res = .error (.eofError clean m)) ↔ KeyFails (CutOff clean) kind b := by
  constructor
  · rintro ⟨m, h⟩
    rcases fromBytes_cases ext kind b clear with ⟨t, p, f, rest, c, hk, hacc, hc, hok⟩ | ⟨c, hf, he⟩ | ⟨-, he⟩ | ⟨-, m, he⟩
    · rw [hok] at h; simp at h
    · rw [he] at h; simp [eofExn] at h; rw [← h.1]; exact hf
    · rw [he] at h; simp at h
    · rw [he] at h; simp at h
  · intro h
    exact ⟨_, fromBytes_read_error (readKey_fails (fun _ _ hw h => readFI_cutOff hw h) h)⟩

/-- **C74** (text). `UnicodeDecodeError` is raised exactly if a text field, or a text in a list of a certificate,
is complete but not UTF-8, and nothing before it is wrong. -/
theorem C74_not_text (ext : Ext) (kind : Kind) (b : Bytes) (clear : Option VDict) :
    (fromBytes ext kind b clear).res = .error .unicodeDecodeError ↔
      KeyFails NotText kind b ∨ ∃ t p f rest, KeyIn kind b t p f rest ∧ isCertType t = true ∧ RecordNotText p := by
  constructor
  · intro h
    rcases fromBytes_cases ext kind b clear with ⟨t, p, f, rest, c, hk, hacc, hc, hok⟩ | ⟨c, hf, he⟩ | ⟨hf, he⟩ | ⟨-, m, he⟩
    · rw [hok] at h; simp at h
    · rw [he] at h; simp [eofExn] at h
    · exact hf
    · rw [he] at h; simp at h
  · rintro (h | ⟨t, p, f, rest, hk, ht, hr⟩)
    · exact fromBytes_read_error (readKey_fails (fun _ _ _ h => readFI_notText h) h)
    · exact ((fromBytes_outcome ext b.length kind b clear (Nat.le_refl _)).2 t p f rest hk).2 ht hr

/-- **C74** (key type). `KeyError` is raised exactly for a key type that is not supported, of the key itself or of
the authority of an otherwise readable certificate; and no other exception is ever raised. -/
theorem C74_unknown (ext : Ext) (kind : Kind) (b : Bytes) (clear : Option VDict) :
    ((∃ m, (fromBytes ext kind b clear).res = .error (.keyError m)) ↔ UnknownKey kind b) ∧
    ∀ e, (fromBytes ext kind b clear).res = .error e →
      (∃ c m, e = .eofError c m) ∨ e = .unicodeDecodeError ∨ ∃ m, e = .keyError m := by
  refine ⟨⟨fun h => (fromBytes_outcome ext b.length kind b clear (Nat.le_refl _)).1 h, fromBytes_unknown⟩, ?_⟩
  intro e h
  rcases fromBytes_cases ext kind b clear with ⟨t, p, f, rest, c, hk, hacc, hc, hok⟩ | ⟨c, hf, he⟩ | ⟨hf, he⟩ | ⟨-, m, he⟩
  · rw [hok] at h; simp at h
  · rw [he] at h; simp at h; exact Or.inl ⟨_, _, h.symm⟩
  · rw [he] at h; simp at h; exact Or.inr (Or.inl h.symm)
  · rw [he] at h; simp at h; exact Or.inr (Or.inr ⟨m, h.symm⟩)

/-- **C74** (lists). Reading the list of principals or of options in a certificate: it succeeds with exactly the
complete records, if the data ends where a record, or a part of a record, would start; it raises
`EOFError` exactly if the data ends within a part of a record; `UnicodeDecodeError` exactly if a text
is not UTF-8. -/
theorem C74_lists (name : Str) (fmt : FDict) (h : (name, fmt) ∈ recordFields) (b : Bytes) :
    (∀ l, (readRepeatedly fmt (Stream.of b)).1 = .ok l ↔ ∃ r, Records fmt b l r ∧ FailsAt (CutOff true) fmt r) ∧
    ((∃ e, (readRepeatedly fmt (Stream.of b)).1 = .error e ∧ e.isEOFError = true) ↔
      ∃ l r, Records fmt b l r ∧ FailsAt (CutOff false) fmt r) ∧
    ((readRepeatedly fmt (Stream.of b)).1 = .error .unicodeDecodeError ↔
      ∃ l r, Records fmt b l r ∧ FailsAt NotText fmt r) := by
  have key : wireFmt fmt = true ∧ NonEmptyRecord fmt := by
    simp [recordFields] at h
    rcases h with ⟨-, rfl⟩ | ⟨-, rfl⟩ | ⟨-, rfl⟩
    · exact ⟨rfl, nonEmpty_principal⟩
    · exact ⟨rfl, nonEmpty_option⟩
    · exact ⟨rfl, nonEmpty_option⟩
  obtain ⟨h1, h2, h3, h4⟩ := repeated_iff key.1 key.2 b
  refine ⟨h1, ?_, h3⟩
  rw [← h2]
  constructor
  · rintro ⟨e, he, hE⟩
    rcases h4 e he with rfl | rfl
    · exact he
    · simp [Exn.isEOFError] at hE
  · intro h; exact ⟨_, h, rfl⟩

/-- The warning for a list that is cut off. -/
def Spec.listWarning : List (Str × Warning) :=
  [(py! "valid_principals", .certPrincipals), (py! "critical_options", .certCriticalOptions),
   (py! "extensions", .certExtensions)]

/-- What is wrong with the certificate's own fields, by the grammar. -/
inductive Spec.CertIssue (ext : Ext) (d : VDict) : Event → Prop
  /-- Neither a user nor a host certificate. -/
  | type {v : Val} : dget d (py! "type") = some v → v ≠ .int 1 → v ≠ .int 2 → CertIssue ext d (.warn .certType)
  /-- A list ends within a part of a record. -/
  | list {name : Str} {fmt : FDict} {w : Warning} {b r : Bytes} {l : List VDict} : (name, fmt) ∈ recordFields →
      (name, w) ∈ listWarning → dget d name = some (.bytes b) → Records fmt b l r → FailsAt (CutOff false) fmt r →
      CertIssue ext d (.warn w)
  /-- An option is given twice in a list that is otherwise readable. -/
  | repeated {param o : Str} {fmt : FDict} {b r : Bytes} {l : List VDict} : param ≠ py! "valid_principals" →
      (param, fmt) ∈ recordFields → dget d param = some (.bytes b) → Records fmt b l r →
      FailsAt (CutOff true) fmt r → Repeated o l → CertIssue ext d (.warn (.duplicateOption o param))
  /-- Parsing the authority's key warns. -/
  | inside {a : Bytes} {v : Event} : dget d (py! "signature_key") = some (.bytes a) →
      v ∈ (fromBytes ext .pub a none).log → CertIssue ext d v
  /-- The authority's key is a certificate. -/
  | authorityCert {a rest : Bytes} {t : Str} {p f : VDict} : dget d (py! "signature_key") = some (.bytes a) →
      KeyIn .pub a t p f rest → Acceptable t p → isCertType t = true → CertIssue ext d (.warn .caIsCert)
  /-- The authority's key is not a key. -/
  | authority {a : Bytes} : dget d (py! "signature_key") = some (.bytes a) →
      (¬ ∃ t p f rest, KeyIn .pub a t p f rest ∧ Acceptable t p) → CertIssue ext d (.warn .caInvalid)

theorem fromBytes_error_iff (ext : Ext) (kind : Kind) (b : Bytes) (clear : Option VDict) :
    (∃ e, (fromBytes ext kind b clear).res = .error e) ↔ ¬ ∃ t p f rest, KeyIn kind b t p f rest ∧ Acceptable t p := by
  constructor
  · rintro ⟨e, he⟩ ⟨t, p, f, rest, hk, hacc⟩
    obtain ⟨c, hc, hok⟩ := ((fromBytes_outcome ext b.length kind b clear (Nat.le_refl _)).2 t p f rest hk).1 hacc
    rw [hok] at he; simp at he
  · intro h
    rcases hr : (fromBytes ext kind b clear).res with e | k
    · exact ⟨e, rfl⟩
    · obtain ⟨t, p, f, rest, hk, hacc, -⟩ := (C74_accepts ext kind b clear k).1 hr
      exact absurd ⟨t, p, f, rest, hk, hacc⟩ h

/-- **C74** (warnings of certificates). The faults of certificates that C71, C72 and C73 speak about are those of
the grammar. -/
theorem C74_certificate_faults (ext : Ext) (d : VDict) (v : Event) : CertFault ext d v ↔ CertIssue ext d v := by
  have hp := fun b => C74_lists (py! "valid_principals") principalFmt (by decide) b
  have ho := fun b => C74_lists (py! "critical_options") optionFmt (by decide) b
  constructor
  · intro h
    cases h with
    | type h1 h2 h3 => exact .type h1 h2 h3
    | @principals b e hb he hE =>
      have : (readRepeatedly principalFmt (Stream.of b)).1 = .error e := by
        rcases principals_res hb with ⟨l, -, vs, hvs⟩ | ⟨e', he', hg⟩
        · rw [hvs] at he; simp at he
        · rw [he] at hg; simp at hg; subst hg; exact he'
      obtain ⟨l, r, h1, h2⟩ := (hp b).2.1.1 ⟨e, this, hE⟩
      exact .list (name := py! "valid_principals") (fmt := principalFmt) (by decide) (by decide) hb h1 h2
    | @critical b e hb he hE =>
      obtain ⟨l, r, h1, h2⟩ := (ho b).2.1.1 ⟨e, he, hE⟩
      exact .list (name := py! "critical_options") (fmt := optionFmt) (by decide) (by decide) hb h1 h2
    | @extensions b e hb he hE =>
      obtain ⟨l, r, h1, h2⟩ := (ho b).2.1.1 ⟨e, he, hE⟩
      exact .list (name := py! "extensions") (fmt := optionFmt) (by decide) (by decide) hb h1 h2
    | @repeated param o b l hpar hb hl hr =>
      obtain ⟨r, h1, h2⟩ := ((ho b).1 l).1 hl
      rcases hpar with rfl | rfl
      · exact .repeated (by decide) (fmt := optionFmt) (by decide) hb h1 h2 hr
      · exact .repeated (by decide) (fmt := optionFmt) (by decide) hb h1 h2 hr
    | inside hb hv => exact .inside hb hv
    | @authorityCert b k t hb hk ht hc =>
      obtain ⟨t', p, f, rest, h1, h2, -, h4, -⟩ := (C74_accepts ext .pub b none k).1 hk
      rw [h4] at ht
      simp at ht; subst ht
      exact .authorityCert hb h1 h2 hc
    | authority hb he => exact .authority hb ((fromBytes_error_iff ext .pub _ none).1 ⟨_, he⟩)
  · intro h
    cases h with
    | type h1 h2 h3 => exact .type h1 h2 h3
    | @list name fmt w b r l hm hw hb h1 h2 =>
      simp only [recordFields, List.mem_cons, Prod.mk.injEq, List.not_mem_nil, or_false] at hm
      rcases hm with ⟨rfl, rfl⟩ | ⟨rfl, rfl⟩ | ⟨rfl, rfl⟩
      · have : w = .certPrincipals := by
          simp [listWarning] at hw; exact hw
        subst this
        obtain ⟨e, he, hE⟩ := (hp b).2.1.2 ⟨l, r, h1, h2⟩
        rcases principals_res hb with ⟨l', hl', -⟩ | ⟨e', he', hg⟩
        · rw [hl'] at he; simp at he
        · rw [he] at he'; simp at he'; subst he'
          exact .principals hb hg hE
      · have : w = .certCriticalOptions := by
          simp [listWarning] at hw; exact hw
        subst this
        obtain ⟨e, he, hE⟩ := (ho b).2.1.2 ⟨l, r, h1, h2⟩
        exact .critical hb he hE
      · have : w = .certExtensions := by
          simp [listWarning] at hw; exact hw
        subst this
        obtain ⟨e, he, hE⟩ := (ho b).2.1.2 ⟨l, r, h1, h2⟩
        exact .extensions hb he hE
    | @repeated param o fmt b r l hne hm hb h1 h2 hr =>
      simp only [recordFields, List.mem_cons, Prod.mk.injEq, List.not_mem_nil, or_false] at hm
      rcases hm with ⟨rfl, rfl⟩ | ⟨rfl, rfl⟩ | ⟨rfl, rfl⟩
      · exact absurd rfl hne
      · exact .repeated (Or.inl rfl) hb (((ho b).1 l).2 ⟨r, h1, h2⟩) hr
      · exact .repeated (Or.inr rfl) hb (((ho b).1 l).2 ⟨r, h1, h2⟩) hr
    | inside hb hv => exact .inside hb hv
    | @authorityCert a rest t p f hb hk hacc ht =>
      obtain ⟨c, hc, hok⟩ := ((fromBytes_outcome ext a.length .pub a none (Nat.le_refl _)).2 t p f rest hk).1 hacc
      exact .authorityCert hb hok (by simp) ht
    | authority hb he =>
      obtain ⟨e, he⟩ := (fromBytes_error_iff ext .pub _ none).2 he
      exact .authority hb he

/-! ### Instances -/

/-- An Ed25519 public key whose key has two bytes, and one byte too many. -/
def exShortEd : Bytes := [0, 0, 0, 11] ++ pb! "ssh-ed25519" ++ [0, 0, 0, 2, 7, 8] ++ [9]

theorem exEd_type : Encodes (.pascal .string) ([0, 0, 0, 11] ++ pb! "ssh-ed25519") (.str (py! "ssh-ed25519")) :=
  Encodes.text (cs := ['s', 's', 'h', '-', 'e', 'd', '2', '5', '5', '1', '9']) ⟨[0, 0, 0, 11], rfl, by decide, by decide⟩

theorem exShortEd_in : KeyIn .pub exShortEd (py! "ssh-ed25519") [(py! "public", .bytes [7, 8])] [] [9] :=
  ⟨[(py! "public", .pascal .bytes)], [0, 0, 0, 11] ++ pb! "ssh-ed25519", [0, 0, 0, 2, 7, 8], [], by decide +kernel, exEd_type,
    .cons (w := [0, 0, 0, 2, 7, 8]) (w' := []) (.bytes ⟨[0, 0, 0, 2], rfl, by decide, rfl⟩) .nil, .nil, by decide⟩

/-- It is accepted, and the byte is kept. -/
example : Acceptable (py! "ssh-ed25519") [(py! "public", .bytes [7, 8])] ∧
    (fromBytes exExt .pub exShortEd none).res = .ok ⟨.pub, [(py! "key_type", .str (py! "ssh-ed25519"))],
      ⟨.ed25519Pub, [(py! "public", .bytes [7, 8])]⟩, [], [(py! "remainder", .bytes [9])]⟩ :=
  ⟨by
    intro h
    have h2 : isCertType (py! "ssh-ed25519") = false := by decide +kernel
    rw [h2] at h; simp at h, by decide +kernel⟩

/-- A key cut off in the middle of a field, one that ends where a field starts, and one that ends after a length
prefix. -/
example : KeyFails (CutOff false) .pub ([0, 0, 0, 11] ++ pb! "ssh-ed25519" ++ [0, 0, 0, 2, 7]) ∧
    KeyFails (CutOff true) .pub ([0, 0, 0, 11] ++ pb! "ssh-ed25519" ++ []) ∧
    KeyFails (CutOff true) .pub ([0, 0, 0, 11] ++ pb! "ssh-ed25519" ++ [0, 0, 0, 2]) :=
  ⟨.fields exEd_type (fmt := [(py! "public", .pascal .bytes)]) (by decide +kernel)
      (.here (CutOff.contents (l := [0, 0, 0, 2]) (r := [7]) rfl (by decide))),
    .fields exEd_type (fmt := [(py! "public", .pascal .bytes)]) (by decide +kernel)
      (.here (CutOff.length (r := []) (by decide))),
    .fields exEd_type (fmt := [(py! "public", .pascal .bytes)]) (by decide +kernel)
      (.here (CutOff.contents (l := [0, 0, 0, 2]) (r := []) rfl (by decide)))⟩

/-- A type string that is not UTF-8, and a type that is not supported. -/
example : KeyFails NotText .pub ([0, 0, 0, 1, 255] ++ [1, 2]) ∧ UnknownKey .pub exForeignCa ∧
    UnknownKey .priv ([0, 0, 0, 28] ++ pb! "ssh-rsa-cert-v01@openssh.com") := by
  refine ⟨.type (.mk (b := [255]) ⟨[0, 0, 0, 1], rfl, by decide, rfl⟩ fun cs h => ?_), ?_, ?_⟩
  · have h2 := utf8Decode?_utf8 cs
    rw [← h] at h2
    have h3 : utf8Decode? [255] = none := by decide
    rw [h3] at h2; simp at h2
  · exact ((C74_unknown exExt .pub exForeignCa none).1).1 ⟨_, show _ = Except.error (Exn.keyError (some (py! "ssh-foo"))) by
      decide +kernel⟩
  · have h := UnknownKey.type (kind := .priv) (t := py! "ssh-rsa-cert-v01@openssh.com") (r := [])
      (Encodes.text (cs := "ssh-rsa-cert-v01@openssh.com".toList) ⟨[0, 0, 0, 28], rfl, by decide +kernel, rfl⟩)
      (by decide +kernel)
    have e : [0, 0, 0, 28] ++ utf8 "ssh-rsa-cert-v01@openssh.com".toList ++ [] =
        [0, 0, 0, 28] ++ pb! "ssh-rsa-cert-v01@openssh.com" := by decide +kernel
    rw [e] at h
    exact h

/-- A certificate whose authority's key is of an unsupported type, and one with a principal that is not UTF-8. -/
def exBadPrincipal : VDict := dset (exCertParams exRsaWire) (py! "valid_principals") (.bytes [0, 0, 0, 1, 97, 0, 0, 0, 1, 255])

example : UnknownKey .pub (exCertWire exForeignCa) ∧ RecordNotText exBadPrincipal ∧
    (newParams exExt .certRsa exBadPrincipal).res = .error .unicodeDecodeError := by
  refine ⟨((C74_unknown exExt .pub _ none).1).1 ⟨_, show _ = Except.error (Exn.keyError (some (py! "ssh-foo"))) by
      decide +kernel⟩, ?_, by decide +kernel⟩
  refine ⟨_, List.mem_cons_self, [0, 0, 0, 1, 97, 0, 0, 0, 1, 255], _, _, by decide +kernel,
    .more (w := [0, 0, 0, 1, 97]) (b := [0, 0, 0, 1, 255])
      (.cons (w := [0, 0, 0, 1, 97]) (w' := []) (Encodes.text (cs := ['a']) ⟨[0, 0, 0, 1], rfl, by decide, by decide⟩) .nil) .done,
    .here (NotText.mk (b := [255]) (w := [0, 0, 0, 1, 255]) (r := []) ⟨[0, 0, 0, 1], rfl, by decide, rfl⟩ fun cs h => ?_)⟩
  have h2 := utf8Decode?_utf8 cs
  rw [← h] at h2
  have h3 : utf8Decode? [255] = none := by decide
  rw [h3] at h2; simp at h2

/-- A list of options that ends after the name of an option: the data ends where a part of a record would start,
so the list is accepted without this option; one byte less, and it is not. -/
example : (readRepeatedly optionFmt (Stream.of [0, 0, 0, 1, 97])).1 = .ok [] ∧
    FailsAt (CutOff true) optionFmt [0, 0, 0, 1, 97] ∧
    (readRepeatedly optionFmt (Stream.of [0, 0, 0, 2, 97])).1 = .error (.eofError false eofShortText) ∧
    FailsAt (CutOff false) optionFmt [0, 0, 0, 2, 97] :=
  ⟨by decide +kernel,
    .later (w := [0, 0, 0, 1, 97]) (r := []) (Encodes.text (cs := ['a']) ⟨[0, 0, 0, 1], rfl, by decide, by decide⟩)
      (.here (CutOff.length (r := []) (by decide))),
    by decide +kernel,
    .here (CutOff.contents (l := [0, 0, 0, 2]) (r := [97]) rfl (by decide))⟩

end OSK
