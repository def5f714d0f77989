import Verif.Lemmas.KeyMore
/-
Which exceptions and events the key layer can produce.
-/
namespace OSK
open Spec

/-! ### Streams -/

/-- All exceptions that `x` can raise satisfy `P`. -/
def SMExn {α : Type} (P : Exn → Prop) (x : SM α) : Prop := ∀ s e s', x s = (.error e, s') → P e

section
variable {α β : Type} {P : Exn → Prop}

theorem SMExn.pure (a : α) : SMExn P (pure a : SM α) := by
  intro s e s' h; simp at h

theorem SMExn.lift {r : Except Exn α} (h : ∀ e, r = .error e → P e) : SMExn P (SM.lift r) := by
  intro s e s' he
  simp at he
  exact h e he.1

theorem SMExn.bind' {x : SM α} {f : α → SM β} (hx : SMExn P x)
    (hf : ∀ a, (∃ s s', x s = (.ok a, s')) → SMExn P (f a)) : SMExn P (x >>= f) := by
  intro s e s' h
  rw [SM.bind_apply] at h
  rcases hr : x s with ⟨e' | a, s1⟩
  · rw [hr] at h; simp at h
    obtain ⟨rfl, rfl⟩ := h
    exact hx s _ _ hr
  · rw [hr] at h
    exact hf a ⟨s, s1, hr⟩ _ _ _ h

theorem SMExn.bind {x : SM α} {f : α → SM β} (hx : SMExn P x) (hf : ∀ a, SMExn P (f a)) :
    SMExn P (x >>= f) := hx.bind' (fun a _ => hf a)

end

/-- What reading under a plain format can raise. -/
def ReadExn (e : Exn) : Prop := e.isEOFError = true ∨ e = .unicodeDecodeError

theorem SMExn.readFixed {n : Nat} (h : n ≤ pyMaxSize) : SMExn ReadExn (readFixed (n : Int)) := by
  intro s e s' he
  rw [readFixed_apply, if_neg (by omega)] at he
  split at he
  · simp at he
    rw [← he.1]
    left
    split <;> rfl
  · simp at he

theorem SMExn.readPascal4 : SMExn ReadExn (readPascalBytes defaultLengthSize) := by
  unfold readPascalBytes defaultLengthSize
  rw [if_neg (by decide)]
  refine SMExn.bind' (SMExn.readFixed (n := 4) (by decide)) ?_
  rintro b ⟨s, s', hb⟩
  apply SMExn.readFixed
  have h4 : b.length ≤ 4 := by
    have := readFixed_apply 4 s
    rw [show ((4 : Nat) : Int) = 4 from rfl, hb] at this
    rw [if_neg (by decide)] at this
    split at this
    · simp at this
    · simp at this
      rw [this.1]; simp
  have := beNat_lt b
  have h2 : 256 ^ b.length ≤ 256 ^ 4 := Nat.pow_le_pow_right (by decide) h4
  have h3 : 256 ^ 4 ≤ pyMaxSize := by decide
  omega

theorem SMExn.readFI {fi : FI} (h : fi.plain = true) : SMExn ReadExn (readFI fi) := by
  rcases FI.plain_cases h with ⟨p, rfl⟩ | ⟨big, n, sg, rfl, h0, h8⟩
  · refine SMExn.readPascal4.bind fun b => SMExn.lift ?_
    intro e he
    right
    cases p <;> simp [decodePrim] at he
    unfold bytesDecode at he
    split at he <;> simp [Except.map] at he
    exact he.symm
  · refine SMExn.bind (SMExn.readFixed ?_) fun b => SMExn.pure _
    have e : SFmt.calcsize ⟨big, [.int n sg]⟩ = n := by simp [SFmt.calcsize, SCode.size]
    rw [e]
    have : 8 ≤ pyMaxSize := by decide
    omega

theorem SMExn.readDict {fmt : FDict} (h : plainFmt fmt = true) : SMExn ReadExn (readDict fmt) := by
  induction fmt with
  | nil => exact SMExn.pure _
  | cons kf t ih =>
    obtain ⟨k, fi⟩ := kf
    obtain ⟨h1, -, h3⟩ := plainFmt_cons h
    exact (SMExn.readFI h1).bind fun _ => (ih h3).bind fun _ => SMExn.pure _

theorem readRepeatedly_exn {fmt : FDict} (hp : plainFmt fmt = true) (hne : NonEmptyRecord fmt) :
    SMExn ReadExn (readRepeatedly fmt) := by
  intro s
  induction hn : s.rest.length using Nat.strong_induction_on generalizing s with
  | _ n ih =>
    intro e s' h
    rw [readRepeatedly_eq hne] at h
    rcases hr : readDict fmt s with ⟨e' | d, s1⟩
    · rw [hr] at h
      have := SMExn.readDict hp s e' s1 hr
      by_cases he : ∃ t, e' = .eofError true t
      · obtain ⟨t, rfl⟩ := he
        simp at h
      · have h2 : (Except.error e', s1) = ((.error e, s') : Except Exn (List VDict) × Stream) := by
          rw [← h]
          split
          · rename_i heq; simp at heq
          · rename_i heq; simp at heq; exact absurd ⟨_, heq.1⟩ he
          · rename_i heq; simp at heq; rw [heq.1, heq.2]
        simp at h2
        rw [← h2.1]; exact this
    · rw [hr] at h
      simp only at h
      obtain ⟨m, hm, rfl, hrest, hle⟩ := readDict_ok_stream hr
      have hpos := readDict_consumes hne hm
      rcases h2 : readRepeatedly fmt ⟨s.buf, s.pos + m⟩ with ⟨e2 | l, s2⟩
      · rw [h2] at h
        simp [Except.map] at h
        obtain ⟨rfl, rfl⟩ := h
        refine ih _ ?_ ⟨s.buf, s.pos + m⟩ rfl _ _ h2
        rw [hrest]; simp; omega
      · rw [h2] at h; simp [Except.map] at h

/-- Every record of a successful repeated read is the result of reading one record. -/
theorem readRepeatedly_records {fmt : FDict} (hne : NonEmptyRecord fmt) (s : Stream) {l : List VDict}
    (h : (readRepeatedly fmt s).1 = .ok l) :
    ∀ d ∈ l, ∃ r n, prs (readDict fmt) r = (.ok d, n) := by
  induction hn : s.rest.length using Nat.strong_induction_on generalizing s l with
  | _ n ih =>
    rw [readRepeatedly_eq hne] at h
    rcases hr : readDict fmt s with ⟨e' | d, s1⟩
    · rw [hr] at h
      have h2 : l = [] := by
        split at h
        · rename_i heq; simp at heq
        · simp at h; exact h
        · simp at h
      subst h2; simp
    · rw [hr] at h
      simp only at h
      obtain ⟨m, hm, rfl, hrest, hle⟩ := readDict_ok_stream hr
      have hpos := readDict_consumes hne hm
      rcases h2 : (readRepeatedly fmt ⟨s.buf, s.pos + m⟩).1 with e2 | l'
      · rw [h2] at h; simp [Except.map] at h
      · rw [h2] at h; simp [Except.map] at h
        subst h
        intro d' hd'
        simp at hd'
        rcases hd' with rfl | hd'
        · exact ⟨_, _, hm⟩
        · refine ih _ ?_ ⟨s.buf, s.pos + m⟩ h2 rfl d' hd'
          rw [hrest]; simp; omega

/-! ### Effects -/

/-- Exceptions satisfy `P`, events satisfy `Q`. -/
structure Within {α : Type} (P : Exn → Prop) (Q : Event → Prop) (x : Eff α) : Prop where
  exn : ∀ e, x.res = .error e → P e
  ev : ∀ v ∈ x.log, Q v

section
variable {α β : Type} {P P' : Exn → Prop} {Q Q' : Event → Prop}

theorem Within.pure (a : α) : Within P Q (pure a : Eff α) := ⟨by simp, by simp⟩

theorem Within.warn {w : Warning} (h : Q (.warn w)) : Within P Q (Eff.warn w) := ⟨by simp, by simpa using h⟩

theorem Within.throw {e : Exn} (h : P e) : Within P Q (Eff.throw e : Eff α) :=
  ⟨by intro e'; simp; rintro rfl; exact h, by simp⟩

theorem Within.lift {r : Except Exn α} (h : ∀ e, r = .error e → P e) : Within P Q (Eff.lift r) :=
  ⟨by simpa using h, by simp⟩

theorem Within.bind {x : Eff α} {f : α → Eff β} (hx : Within P Q x)
    (hf : ∀ a, x.res = .ok a → Within P Q (f a)) : Within P Q (x >>= f) := by
  constructor
  · intro e he
    rcases Eff.bind_res_error_iff.1 he with h | ⟨a, ha, h⟩
    · exact hx.exn e h
    · exact (hf a ha).exn e h
  · intro v hv
    rcases Eff.mem_bind_log hv with h | ⟨a, ha, h⟩
    · exact hx.ev v h
    · exact (hf a ha).ev v h

theorem Within.mono {x : Eff α} (h : Within P Q x) (hP : ∀ e, P e → P' e) (hQ : ∀ v, Q v → Q' v) :
    Within P' Q' x := ⟨fun e he => hP e (h.exn e he), fun v hv => hQ v (h.ev v hv)⟩

theorem Within.tryCatch {x : Eff α} {h : Exn → Option (Eff α)} (hx : Within P' Q x)
    (hn : ∀ e, P' e → h e = none → P e) (hs : ∀ e y, P' e → h e = some y → Within P Q y) :
    Within P Q (Eff.tryCatch x h) := by
  unfold Eff.tryCatch
  split
  · rename_i a ha
    exact ⟨fun e he => by rw [ha] at he; simp at he, hx.ev⟩
  · rename_i e he
    have hp := hx.exn e he
    split
    · rename_i y hy
      have := hs e y hp hy
      refine ⟨this.exn, ?_⟩
      intro v hv
      simp at hv
      rcases hv with hv | hv
      · exact hx.ev v hv
      · exact this.ev v hv
    · rename_i hy
      refine ⟨fun e' he' => ?_, hx.ev⟩
      rw [he] at he'; simp at he'; subst he'
      exact hn e hp hy

theorem Within.ite {c : Prop} [Decidable c] {x y : Eff α} (hx : c → Within P Q x) (hy : ¬ c → Within P Q y) :
    Within P Q (if c then x else y) := by
  split
  · exact hx (by assumption)
  · exact hy (by assumption)

end

theorem Within.warnIf {α : Type} {P : Exn → Prop} {Q : Event → Prop} {c : Prop} [Decidable c]
    {w : Warning} {y : Eff α} (hw : Q (.warn w)) (hy : Within P Q y) :
    Within P Q (if c then (do Eff.warn w; y) else y) :=
  Within.ite (fun _ => (Within.warn hw).bind fun _ _ => hy) (fun _ => hy)

/-- Events of single keys: not those of key lists, text lines or prompts. -/
def KeyEvent : Event → Prop
  | .warn .clearTypeMismatch | .warn .checkNumbers | .warn (.pairTypeMismatch _)
  | .warn (.pairValueMismatch _) | .warn .padding | .warn (.couldNotParseLine _) | .prompt => False
  | _ => True

/-- What construction of a key or of parameters can raise. -/
def BuildExn (e : Exn) : Prop := (∃ k, e = .keyError k) ∨ e = .unicodeDecodeError

/-- What parsing a key can raise. -/
def ParseExn (e : Exn) : Prop := (∃ k, e = .keyError k) ∨ e = .unicodeDecodeError ∨ e.isEOFError = true

theorem plain_principal : plainFmt principalFmt = true := by decide
theorem plain_option : plainFmt optionFmt = true := by decide
theorem nonEmpty_principal : NonEmptyRecord principalFmt :=
  ⟨(py! "principal", .pascal .string), by simp [principalFmt], by simp⟩
theorem nonEmpty_option : NonEmptyRecord optionFmt :=
  ⟨(py! "option", .pascal .string), by simp [optionFmt], by simp⟩

theorem column_exn {k : Str} {l : List VDict} (h : ∀ d ∈ l, k ∈ dkeys d) : ∃ vs, column k l = .ok vs := by
  induction l with
  | nil => exact ⟨[], rfl⟩
  | cons d t ih =>
    obtain ⟨vs, hvs⟩ := ih (fun d' hd => h d' (by simp [hd]))
    have := h d (by simp)
    rw [← dget_isSome_iff] at this
    rcases hd : dget d k with _ | v
    · simp [hd] at this
    · exact ⟨v :: vs, by simp [column, getItem, hd, hvs, Except.map]⟩

theorem principals_within {d : VDict} {b : Bytes} (hb : bytesOf? d (py! "valid_principals") = some b) :
    ∀ e, getValidPrincipals d = .error e → ReadExn e := by
  intro e he
  unfold bytesOf? at hb
  split at hb
  · rename_i x hx
    simp at hb; subst hb
    unfold getValidPrincipals getItem at he
    rw [hx] at he
    rcases hr : readRepeatedly principalFmt (Stream.of x) with ⟨e' | l, s'⟩
    · simp [asBuffer, bind, Except.bind, hr] at he
      subst he
      exact readRepeatedly_exn plain_principal nonEmpty_principal _ _ _ hr
    · exfalso
      obtain ⟨vs, hvs⟩ := column_exn (k := py! "principal") (l := l) (by
        intro d hd
        obtain ⟨r, n, hp⟩ := readRepeatedly_records nonEmpty_principal _ (by rw [hr]) d hd
        rw [readDict_dkeys hp]
        decide)
      simp [asBuffer, bind, Except.bind, hr, hvs] at he
  · simp at hb

/-- The two entries of a record read under `optionFmt`. -/
theorem option_record {r : Bytes} {d : VDict} {n : Nat} (h : prs (readDict optionFmt) r = (.ok d, n)) :
    ∃ o v, d = [(py! "option", .str o), (py! "value", .bytes v)] := by
  unfold optionFmt at h
  obtain ⟨v1, vs, n1, n2, rfl, h1, h2, -⟩ := readDict_cons_ok h
  obtain ⟨v2, vs', n3, n4, rfl, h3, h4, -⟩ := readDict_cons_ok h2
  simp [readDict, prs_pure] at h4
  obtain ⟨rfl, -⟩ := h4
  obtain ⟨b1, hb1, -⟩ := prs_readPascal_ok h1
  obtain ⟨b2, hb2, -⟩ := prs_readPascal_ok h3
  simp [decodePrim] at hb1 hb2
  unfold bytesDecode at hb1
  split at hb1 <;> simp [Except.map] at hb1
  subst hb1 hb2
  exact ⟨_, _, rfl⟩

theorem collectOptions_within {P : Exn → Prop} {param : Str} {l : List VDict}
    (h : ∀ d ∈ l, ∃ o v, d = [(py! "option", Val.str o), (py! "value", Val.bytes v)]) (acc : VDict) :
    Within P KeyEvent (collectOptions param acc l) := by
  induction l generalizing acc with
  | nil => exact Within.pure _
  | cons d t ih =>
    obtain ⟨o, v, rfl⟩ := h d (by simp)
    unfold collectOptions
    simp only [dget_cons_self, dget_cons_ne (show (py! "option") ≠ (py! "value") by decide)]
    exact Within.warnIf trivial (ih (fun d hd => h d (by simp [hd])) _)

theorem options_within {d : VDict} {param : Str} {b : Bytes} (hb : bytesOf? d param = some b) :
    Within ReadExn KeyEvent (getOptionValues d param) := by
  unfold bytesOf? at hb
  split at hb
  · rename_i x hx
    simp at hb; subst hb
    unfold getOptionValues getItem
    simp only [hx, Eff.lift_ok_bind, asBuffer]
    refine Within.bind (Within.lift ?_) ?_
    · intro e he
      rcases hr : readRepeatedly optionFmt (Stream.of x) with ⟨e' | l, s'⟩
      · rw [hr] at he; simp at he; subst he
        exact readRepeatedly_exn plain_option nonEmpty_option _ _ _ hr
      · rw [hr] at he; simp at he
    · intro l hl
      apply collectOptions_within
      intro d hd
      obtain ⟨r, n, hp⟩ := readRepeatedly_records nonEmpty_option _ (by simpa using hl) d hd
      exact option_record hp
  · simp at hb

theorem eofWarns_within {α : Type} {x : Eff α} {w : Warning} (hx : Within ReadExn KeyEvent x)
    (hw : KeyEvent (.warn w)) : Within BuildExn KeyEvent (eofWarns x w) := by
  unfold eofWarns
  refine Within.tryCatch (P' := ReadExn) (hx.bind fun _ _ => Within.pure _) ?_ ?_
  · intro e he hn
    rcases he with he | rfl
    · simp [he] at hn
    · exact Or.inr rfl
  · intro e y _ hy
    split at hy
    · simp at hy; subst hy; exact Within.warn hw
    · simp at hy

theorem isSome_iff {α : Type} {o : Option α} : o.isSome = true ↔ ∃ a, o = some a := by
  cases o <;> simp

theorem cert_within {ca : Bytes → Eff Key} {d : VDict}
    (hca : ∀ x, dget d (py! "signature_key") = some (.bytes x) → Within ParseExn KeyEvent (ca x)) :
    Within BuildExn KeyEvent (certLocalCheck ca d) := by
  unfold certLocalCheck
  refine Within.bind ?_ fun _ _ => Within.bind ?_ fun _ _ => Within.bind ?_ fun _ _ =>
    Within.bind ?_ fun _ _ => ?_
  · unfold certTypeCheck
    refine Within.ite (fun hh => ?_) (fun _ => Within.pure _)
    refine Within.tryCatch (P' := fun e => e.isValueError = true)
      (Within.bind (Within.lift ?_) fun _ _ => Within.pure _) ?_ ?_
    · intro e he
      unfold getType getItem at he
      unfold dhas at hh
      rcases hd : dget d (py! "type") with _ | v
      · rw [hd] at hh; simp at hh
      · rw [hd] at he
        simp only at he
        split at he
        · simp at he
        · split at he
          · simp at he
          · simp at he; subst he; rfl
    · intro e he hn; simp [he] at hn
    · intro e y he hy
      simp [he] at hy; subst hy; exact Within.warn (by exact trivial)
  · unfold certPrincipalsCheck
    refine Within.ite (fun hh => ?_) (fun _ => Within.pure _)
    obtain ⟨b, hb⟩ := isSome_iff.1 hh
    exact eofWarns_within (Within.lift (principals_within hb)) trivial
  · unfold certOptionsCheck
    refine Within.ite (fun hh => ?_) (fun _ => Within.pure _)
    obtain ⟨b, hb⟩ := isSome_iff.1 hh
    exact eofWarns_within (options_within hb) trivial
  · unfold certOptionsCheck
    refine Within.ite (fun hh => ?_) (fun _ => Within.pure _)
    obtain ⟨b, hb⟩ := isSome_iff.1 hh
    exact eofWarns_within (options_within hb) trivial
  · unfold certCaCheck
    refine Within.ite (fun hh => ?_) (fun _ => Within.pure _)
    obtain ⟨b, hb⟩ := isSome_iff.1 hh
    unfold bytesOf? at hb
    split at hb
    · rename_i x hx
      have hw := hca x hx
      refine Within.tryCatch (P' := ParseExn) (Within.bind ?_ fun _ _ => Within.pure _) ?_ ?_
      · unfold getSignatureKeyWith getItem
        simp only [hx, asBuffer, Eff.lift_ok_bind]
        refine Within.bind hw fun k _ => ?_
        exact Within.warnIf trivial (Within.pure _)
      · intro e he hn
        rcases he with ⟨k, rfl⟩ | rfl | he
        · exact Or.inl ⟨k, rfl⟩
        · simp [Exn.isValueError] at hn
        · simp [he] at hn
      · intro e y _ hy
        split at hy
        · simp at hy; subst hy; exact Within.warn (by exact trivial)
        · simp at hy
    · simp at hb

theorem checkDict_within {P : Exn → Prop} {fmt : FDict} (hp : plainFmt fmt = true) (d : VDict) :
    Within P KeyEvent (checkDict d fmt) := by
  induction fmt with
  | nil => exact Within.pure _
  | cons kf t ih =>
    obtain ⟨k, fi⟩ := kf
    obtain ⟨h1, -, h3⟩ := plainFmt_cons hp
    unfold checkDict
    refine Within.bind ?_ fun _ _ => ih h3
    unfold checkField
    split
    · exact Within.warn (by exact trivial)
    · rename_i v hv
      rcases FI.plain_cases h1 with ⟨p, rfl⟩ | ⟨big, n, sg, rfl, h0, h8⟩
      · exact Within.ite (fun _ => Within.pure _) (fun _ => Within.warn (by exact trivial))
      · simp only
        have : ∀ e, structPack ⟨big, [.int n sg]⟩ v = .error e → e = .structError := by
          intro e he
          unfold structPack SFmt.pack1 at he
          split at he
          · simp only at he
            unfold SCode.pack at he
            split at he
            all_goals first | (simp at he; done) | (simp at he; exact he.symm) | skip
            split at he <;> simp at he
            exact he.symm
          · simp at he; exact he.symm
        rcases hsp : structPack ⟨big, [.int n sg]⟩ v with e | b
        · have := this e hsp; subst this; exact Within.warn (by exact trivial)
        · exact Within.pure _

theorem localCheck_within {ext : Ext} {ca : Bytes → Eff Key} {T D : Cls} {d : VDict}
    (hT : plainFmt (formatOf T) = true)
    (hca : ∀ x, dget d (py! "signature_key") = some (.bytes x) → Within ParseExn KeyEvent (ca x)) :
    Within BuildExn KeyEvent (localCheck ext ca T d D) := by
  cases D <;> try exact Within.pure _
  · exact checkDict_within hT d
  · simp only [localCheck, ed25519PubLocalCheck]
    split
    · exact Within.pure _
    · exact Within.ite (fun _ => Within.warn (by exact trivial)) (fun _ => Within.pure _)
  · simp only [localCheck, ed25519PrivLocalCheck]
    split
    · exact Within.warnIf trivial
        (Within.ite (fun _ => Within.warn (by exact trivial)) (fun _ => Within.pure _))
    · exact Within.pure _
  · simp only [localCheck, ecdsaLocalCheck]
    split
    · exact Within.pure _
    · refine Within.warnIf trivial ?_
      split
      · exact Within.pure _
      · exact Within.ite (fun _ => Within.pure _) (fun _ => Within.warn (by exact trivial))
  · exact cert_within hca

theorem runChecks_within {P : Exn → Prop} {Q : Event → Prop} {f : Cls → Eff Unit} {l : List Cls}
    (h : ∀ D, Within P Q (f D)) : Within P Q (runChecks f l) := by
  induction l with
  | nil => exact Within.pure _
  | cons D t ih => exact (h D).bind fun _ _ => ih

theorem mkKeyWith_within {ext : Ext} {ca : Bytes → Eff Key} {kind : Kind} {h p f : VDict}
    {clear : Option VDict}
    (hca : ∀ x, dget p (py! "signature_key") = some (.bytes x) → Within ParseExn KeyEvent (ca x)) :
    Within BuildExn KeyEvent (mkKeyWith ext ca kind h p f clear) := by
  unfold mkKeyWith
  refine (checkDict_within (plain_header kind) h).bind fun _ _ => ?_
  refine Within.bind (Within.lift ?_) fun t _ => ?_
  · intro e he
    unfold getItem at he
    split at he <;> simp at he
    exact Or.inl ⟨_, he.symm⟩
  refine Within.bind (Within.lift ?_) fun c hc => ?_
  · intro e he
    have key : ∀ e, lookupType t = .error e → ∃ k, e = .keyError k := by
      intro e he
      unfold lookupType at he
      split at he
      · split at he <;> simp at he
        exact ⟨_, he.symm⟩
      · simp at he; exact ⟨_, he.symm⟩
    left
    cases kind
    · simp only [paramsClass, getPublicClass] at he
      split at he <;> simp at he
      rename_i e' hl; subst he; exact key _ hl
    · simp only [paramsClass, getPrivateClass] at he
      split at he
      · simp at he
        rename_i e' hl; subst he; exact key _ hl
      · split at he <;> simp at he
        exact ⟨_, he.symm⟩
  simp only [Eff.lift_res] at hc
  unfold newParamsWith
  refine Within.bind (Within.bind (runChecks_within fun D => localCheck_within (plain_class hc) hca)
    fun _ _ => Within.pure _) fun _ _ => ?_
  exact (checkDict_within (plain_footer kind) f).bind fun _ _ => Within.pure _

theorem readKey_exn (kind : Kind) : SMExn ParseExn (readKey kind) := by
  have hr : ∀ {fmt : FDict}, plainFmt fmt = true → SMExn ParseExn (readDict fmt) := by
    intro fmt h s e s' he
    rcases SMExn.readDict h s e s' he with h | h
    · exact Or.inr (Or.inr h)
    · exact Or.inr (Or.inl h)
  unfold readKey
  refine (hr (plain_header kind)).bind fun h => ?_
  refine SMExn.bind (SMExn.lift ?_) fun t => ?_
  · intro e he
    unfold getItem at he
    split at he <;> simp at he
    exact Or.inl ⟨_, he.symm⟩
  rcases hc : paramsClass kind t with e | c
  · rw [SM.lift_error_bind]
    intro s e' s' he
    simp at he
    obtain ⟨rfl, -⟩ := he
    left
    have key : ∀ e, lookupType t = .error e → ∃ k, e = .keyError k := by
      intro e he
      unfold lookupType at he
      split at he
      · split at he <;> simp at he
        exact ⟨_, he.symm⟩
      · simp at he; exact ⟨_, he.symm⟩
    cases kind
    · simp only [paramsClass, getPublicClass] at hc
      split at hc <;> simp at hc
      rename_i e' hl; subst hc; exact key _ hl
    · simp only [paramsClass, getPrivateClass] at hc
      split at hc
      · simp at hc
        rename_i e' hl; subst hc; exact key _ hl
      · split at hc <;> simp at hc
        exact ⟨_, hc.symm⟩
  · rw [SM.lift_ok_bind]
    exact (hr (plain_class hc)).bind fun _ => (hr (plain_footer kind)).bind fun _ => SMExn.pure _

theorem fromBytesWith_within {ext : Ext} {ca : Bytes → Eff Key} {kind : Kind} {b : Bytes}
    {clear : Option VDict} (hca : ∀ x, x.length < b.length → Within ParseExn KeyEvent (ca x)) :
    Within ParseExn KeyEvent (fromBytesWith ext ca kind b clear) := by
  rw [fromBytesWith_eq]
  have hk := readKey_exn kind (Stream.of b)
  rw [readKey_streamOf] at hk
  rcases hr : prs (readKey kind) b with ⟨e | ⟨h, p, f⟩, n⟩
  · rw [hr] at hk
    exact Within.throw (hk e _ rfl)
  · simp only
    refine Within.bind ((mkKeyWith_within fun x hx => hca x (readKey_ca_lt hr hx)).mono ?_ (fun _ h => h)) ?_
    · rintro e (h | h)
      · exact Or.inl h
      · exact Or.inr (Or.inl h)
    · intro k _
      exact Within.ite (fun _ => (Within.warn (by exact trivial)).bind fun _ _ => Within.pure _) (fun _ => Within.pure _)

theorem caFromBytes_within (ext : Ext) (b : Bytes) : Within ParseExn KeyEvent (caFromBytes ext b) := by
  induction hn : b.length using Nat.strong_induction_on generalizing b with
  | _ n ih =>
    rw [caFromBytes_eq]
    exact fromBytesWith_within fun x hx => ih _ (by omega) x rfl

theorem fromBytes_within (ext : Ext) (kind : Kind) (b : Bytes) (clear : Option VDict) :
    Within ParseExn KeyEvent (fromBytes ext kind b clear) :=
  fromBytesWith_within fun x _ => caFromBytes_within ext x

theorem mkKey_within (ext : Ext) (kind : Kind) (h p f : VDict) (clear : Option VDict) :
    Within BuildExn KeyEvent (mkKey ext kind h p f clear) :=
  mkKeyWith_within fun x _ => caFromBytes_within ext x

end OSK
