import Verif.Lemmas.KeyExn
import Verif.Lemmas.Slice
import Verif.Spec.Convert
/-
Lemmas about the conversions.
-/
namespace OSK
open Spec

/-! ### Outcomes -/

theorem Eff.bind_res {α β : Type} (x : Eff α) (f : α → Eff β) :
    (x >>= f).res = (match x.res with | .ok a => (f a).res | .error e => .error e) := by
  cases h : x.res with
  | ok a => rw [Eff.bind_ok h]
  | error e => rw [Eff.bind_error h]

theorem Eff.tryCatch_res {α : Type} (x : Eff α) (h : Exn → Option (Eff α)) :
    (Eff.tryCatch x h).res = (match x.res with
      | .ok a => .ok a
      | .error e => match h e with | some y => y.res | none => .error e) := by
  unfold Eff.tryCatch
  cases hx : x.res with
  | ok a => simp [hx]
  | error e =>
    simp only
    cases h e with
    | some y => rfl
    | none => simp [hx]

/-! ### Class tables -/

/-- The class of a plain key type. -/
def plainClass : Kind → PlainType → Cls
  | .pub, .rsa => .rsaPub
  | .priv, .rsa => .rsaPriv
  | .pub, .dss => .dssPub
  | .priv, .dss => .dssPriv
  | .pub, .ed25519 => .ed25519Pub
  | .priv, .ed25519 => .ed25519Priv
  | .pub, .ec256 => .ec256Pub
  | .priv, .ec256 => .ec256Priv
  | .pub, .ec384 => .ec384Pub
  | .priv, .ec384 => .ec384Priv
  | .pub, .ec521 => .ec521Pub
  | .priv, .ec521 => .ec521Priv

theorem paramsClass_plain (kind : Kind) (t : PlainType) :
    paramsClass kind (.str t.name) = .ok (plainClass kind t) := by
  cases kind <;> cases t <;> decide +kernel

theorem plainClass_factory (kind : Kind) (t : PlainType) : plainClass kind t ∈ factoryClasses := by
  cases kind <;> cases t <;> decide +kernel

theorem plainClass_noCert (kind : Kind) (t : PlainType) : Cls.certPub ∉ checkPlan (plainClass kind t) := by
  cases kind <;> cases t <;> decide +kernel

theorem runChecks_within_mem {P : Exn → Prop} {Q : Event → Prop} {f : Cls → Eff Unit} {l : List Cls}
    (h : ∀ D ∈ l, Within P Q (f D)) : Within P Q (runChecks f l) := by
  induction l with
  | nil => exact Within.pure _
  | cons D t ih =>
    exact (h D (by simp)).bind fun _ _ => ih fun D' hD' => h D' (by simp [hD'])

/-- Checks other than those of certificates never raise. -/
theorem localCheck_noRaise {ext : Ext} {ca : Bytes → Eff Key} {T D : Cls} {d : VDict}
    (hT : plainFmt (formatOf T) = true) (hD : D ≠ .certPub) :
    Within (fun _ => False) KeyEvent (localCheck ext ca T d D) := by
  cases D <;> try exact Within.pure _
  · exact checkDict_within hT d
  · simp only [localCheck, ed25519PubLocalCheck]
    split
    · exact Within.pure _
    · exact Within.ite (fun _ => Within.warn (by exact trivial)) (fun _ => Within.pure _)
  · simp only [localCheck, ed25519PrivLocalCheck]
    split
    · exact Within.warnIf trivial
        (Within.ite (fun _ => Within.warn (by exact trivial)) (fun _ => Within.pure _))
    · exact Within.pure _
  · simp only [localCheck, ecdsaLocalCheck]
    split
    · exact Within.pure _
    · refine Within.warnIf trivial ?_
      split
      · exact Within.pure _
      · exact Within.ite (fun _ => Within.pure _) (fun _ => Within.warn (by exact trivial))
  · exact absurd rfl hD

/-- Constructing a parameters object without certificate checks always succeeds. -/
theorem newParams_ok (ext : Ext) {c : Cls} (hc : c ∈ factoryClasses) (hn : Cls.certPub ∉ checkPlan c) (d : VDict) :
    (newParams ext c d).res = .ok ⟨c, d⟩ := by
  have h : Within (fun _ => False) KeyEvent
      (runChecks (localCheck ext (caFromBytes ext) c d) (checkPlan c)) := by
    refine runChecks_within_mem fun D hD => localCheck_noRaise (plain_factory _ hc) ?_
    rintro rfl
    exact hn hD
  unfold newParams newParamsWith
  rw [Eff.bind_res]
  cases hr : (runChecks (localCheck ext (caFromBytes ext) c d) (checkPlan c)).res with
  | ok a => rfl
  | error e => exact (h.exn e hr).elim

theorem newParams_plain (ext : Ext) (kind : Kind) (t : PlainType) (d : VDict) :
    (newParams ext (plainClass kind t) d).res = .ok ⟨plainClass kind t, d⟩ :=
  newParams_ok ext (plainClass_factory kind t) (plainClass_noCert kind t) d

/-- For classes that can be instantiated, `convert_from` is the one of `PublicKeyParams`. -/
theorem convertFromFuel_concrete {lib : Lib} {ext : Ext} {n : Nat} {c : Cls} {o : KeyObj}
    (hc : c.isAbstract = false) :
    convertFromFuel lib ext (n + 1) c o
      = convertFromBase lib ext (fun s => convertFromFuel lib ext n s o) c o := by
  rw [convertFromFuel]
  split
  · unfold convertFromEcdsa
    rw [hc]
    rfl
  · rfl

/-- The outcome of `convert_from`, by the outcome of the class's own conversion function. -/
theorem convertFromBase_res (lib : Lib) (ext : Ext) (rec : Cls → Eff Params) (c : Cls) (o : KeyObj) :
    (convertFromBase lib ext rec c o).res =
      match (objectToMapping lib c c.conversionOf o).getD (.ok none) with
      | .error e => .error e
      | .ok own =>
        match (match own with
          | some d => (Except.ok (some d) : Except Exn (Option VDict))
          | none => (trySubclasses rec c.subclasses).res) with
        | .error e => .error e
        | .ok none => .error (.valueError "key_object is not of a supported type")
        | .ok (some d) =>
          match selectFields d (dkeys (formatOf c)) with
          | .error e => .error e
          | .ok sel => (instantiate ext c sel).res := by
  unfold convertFromBase
  rw [Eff.bind_res, Eff.lift_res]
  cases (objectToMapping lib c c.conversionOf o).getD (.ok none) with
  | error e => rfl
  | ok own =>
    cases own with
    | some d =>
      simp only [Eff.bind_res, Eff.pure_res, Eff.lift_res]
      cases selectFields d (dkeys (formatOf c)) <;> rfl
    | none =>
      simp only [Eff.bind_res]
      cases (trySubclasses rec c.subclasses).res with
      | error e => rfl
      | ok m =>
        cases m with
        | none => rfl
        | some d =>
          simp only [Eff.bind_res, Eff.lift_res]
          cases selectFields d (dkeys (formatOf c)) <;> rfl

theorem trySubclasses_cons (rec : Cls → Eff Params) (s : Cls) (t : List Cls) :
    (trySubclasses rec (s :: t)).res =
      match (rec s).res with
      | .ok p => .ok (some p.data)
      | .error e => if e.isValueError then (trySubclasses rec t).res else .error e := by
  rw [trySubclasses, Eff.bind_res, Eff.tryCatch_res, Eff.bind_res]
  cases (rec s).res with
  | ok p => rfl
  | error e =>
    simp only
    cases e.isValueError <;> rfl

/-- The tables of a class that the conversions use. -/
structure ClassRow (c : Cls) (abstr : Bool) (subs : List Cls) (conv : Cls) (fields : List Str) : Prop where
  abs : c.isAbstract = abstr
  sub : c.subclasses = subs
  con : c.conversionOf = conv
  fld : dkeys (formatOf c) = fields

instance (c : Cls) (abstr : Bool) (subs : List Cls) (conv : Cls) (fields : List Str) :
    Decidable (ClassRow c abstr subs conv fields) :=
  decidable_of_iff (c.isAbstract = abstr ∧ c.subclasses = subs ∧ c.conversionOf = conv
    ∧ dkeys (formatOf c) = fields) ⟨fun h => ⟨h.1, h.2.1, h.2.2.1, h.2.2.2⟩, fun h => ⟨h.1, h.2, h.3, h.4⟩⟩

theorem row_rsaPub : ClassRow .rsaPub false [.rsaPriv, .certRsa] .rsaPub [py! "e", py! "n"] := by decide +kernel
theorem row_rsaPriv : ClassRow .rsaPriv false [] .rsaPriv
    [py! "n", py! "e", py! "d", py! "iqmp", py! "p", py! "q"] := by decide +kernel
theorem row_dssPub : ClassRow .dssPub false [.dssPriv, .certDss] .dssPub [py! "p", py! "q", py! "g", py! "y"] := by
  decide +kernel
theorem row_dssPriv : ClassRow .dssPriv false [] .dssPriv [py! "p", py! "q", py! "g", py! "y", py! "x"] := by
  decide +kernel
theorem row_ed25519Pub : ClassRow .ed25519Pub false [.ed25519Priv, .skEd25519Pub, .certEd25519] .ed25519Pub
    [py! "public"] := by decide +kernel
theorem row_ed25519Priv : ClassRow .ed25519Priv false [] .ed25519Priv [py! "public", py! "private_public"] := by
  decide +kernel
theorem row_ec256Pub : ClassRow .ec256Pub false [.ec256Priv, .skEc256Pub, .certEc256] .ecdsaPub
    [py! "identifier", py! "q"] := by decide +kernel
theorem row_ec384Pub : ClassRow .ec384Pub false [.ec384Priv, .certEc384] .ecdsaPub
    [py! "identifier", py! "q"] := by decide +kernel
theorem row_ec521Pub : ClassRow .ec521Pub false [.ec521Priv, .certEc521] .ecdsaPub
    [py! "identifier", py! "q"] := by decide +kernel
theorem row_ec256Priv : ClassRow .ec256Priv false [] .ecdsaPriv [py! "identifier", py! "q", py! "d"] := by
  decide +kernel
theorem row_ec384Priv : ClassRow .ec384Priv false [] .ecdsaPriv [py! "identifier", py! "q", py! "d"] := by
  decide +kernel
theorem row_ec521Priv : ClassRow .ec521Priv false [] .ecdsaPriv [py! "identifier", py! "q", py! "d"] := by
  decide +kernel

theorem row_skEc256Pub : ClassRow .skEc256Pub false [.skEc256Priv, .certSkEc256] .ecdsaPub
    [py! "identifier", py! "q", py! "application"] := by decide +kernel
theorem row_skEd25519Pub : ClassRow .skEd25519Pub false [.skEd25519Priv, .certSkEd25519] .ed25519Pub
    [py! "public", py! "application"] := by decide +kernel

/-- `ValueError`: no class found that converts the object. -/
abbrev unsupported : Exn := .valueError "key_object is not of a supported type"

/-- An object that no class at or below `c` can convert. -/
theorem convert_none {lib : Lib} {ext : Ext} {n : Nat} {c : Cls} {o : KeyObj} {subs : List Cls}
    (ha : c.isAbstract = false) (hs : c.subclasses = subs)
    (ho : (objectToMapping lib c c.conversionOf o).getD (.ok none) = .ok none)
    (hr : ∀ s ∈ subs, (convertFromFuel lib ext n s o).res = .error unsupported) :
    (convertFromFuel lib ext (n + 1) c o).res = .error unsupported := by
  subst hs
  rw [convertFromFuel_concrete ha, convertFromBase_res, ho]
  have : (trySubclasses (fun s => convertFromFuel lib ext n s o) c.subclasses).res = .ok none := by
    generalize c.subclasses = l at hr
    induction l with
    | nil => rfl
    | cons s t ih =>
      rw [trySubclasses_cons, hr s (by simp)]
      simpa [Exn.isValueError] using ih fun s' hs' => hr s' (by simp [hs'])
  rw [this]

/-- The conversion of an object by the class itself. -/
theorem convert_own {lib : Lib} {ext : Ext} {n : Nat} {c : Cls} {o : KeyObj} {d sel : VDict}
    (ha : c.isAbstract = false) (ho : objectToMapping lib c c.conversionOf o = some (.ok (some d)))
    (hs : selectFields d (dkeys (formatOf c)) = .ok sel) (hn : (newParams ext c sel).res = .ok ⟨c, sel⟩) :
    (convertFromFuel lib ext (n + 1) c o).res = .ok ⟨c, sel⟩ := by
  rw [convertFromFuel_concrete ha, convertFromBase_res, ho]
  simp [hs, instantiate, ha, hn]

/-- The conversion of an object by the first subclass. -/
theorem convert_first {lib : Lib} {ext : Ext} {n : Nat} {c s : Cls} {t : List Cls} {o : KeyObj}
    {p : Params} {sel : VDict} (ha : c.isAbstract = false) (hsub : c.subclasses = s :: t)
    (ho : (objectToMapping lib c c.conversionOf o).getD (.ok none) = .ok none)
    (hp : (convertFromFuel lib ext n s o).res = .ok p)
    (hs : selectFields p.data (dkeys (formatOf c)) = .ok sel)
    (hn : (newParams ext c sel).res = .ok ⟨c, sel⟩) :
    (convertFromFuel lib ext (n + 1) c o).res = .ok ⟨c, sel⟩ := by
  rw [convertFromFuel_concrete ha, convertFromBase_res, ho, hsub]
  simp only [trySubclasses_cons, hp]
  simp [hs, instantiate, ha, hn]

theorem row_priv (t : PlainType) : (plainClass .priv t).isAbstract = false
    ∧ (plainClass .priv t).subclasses = [] := by
  cases t <;> decide +kernel

theorem curves : (curveNameOf .ec256Pub = py! "secp256r1" ∧ (curveOf .ec256Pub).1 = py! "nistp256")
    ∧ (curveNameOf .ec384Pub = py! "secp384r1" ∧ (curveOf .ec384Pub).1 = py! "nistp384")
    ∧ (curveNameOf .ec521Pub = py! "secp521r1" ∧ (curveOf .ec521Pub).1 = py! "nistp521")
    ∧ (curveNameOf .ec256Priv = py! "secp256r1" ∧ (curveOf .ec256Priv).1 = py! "nistp256")
    ∧ (curveNameOf .ec384Priv = py! "secp384r1" ∧ (curveOf .ec384Priv).1 = py! "nistp384")
    ∧ (curveNameOf .ec521Priv = py! "secp521r1" ∧ (curveOf .ec521Priv).1 = py! "nistp521") := by
  decide +kernel

theorem curve_oids : (curveOf .ec256Pub).2 = py! "1.2.840.10045.3.1.7" ∧ (curveOf .ec384Pub).2 = py! "1.3.132.0.34"
    ∧ (curveOf .ec521Pub).2 = py! "1.3.132.0.35" ∧ (curveOf .ec256Priv).2 = py! "1.2.840.10045.3.1.7"
    ∧ (curveOf .ec384Priv).2 = py! "1.3.132.0.34" ∧ (curveOf .ec521Priv).2 = py! "1.3.132.0.35" := by
  decide +kernel

/-- The class's own conversion of an object, in terms of the specification. -/
theorem own_priv (lib : Lib) (t : PlainType) (o : KeyObj) (hb : refusal lib .priv t o = none) :
    (objectToMapping lib (plainClass .priv t) (plainClass .priv t).conversionOf o).getD (.ok none)
      = .ok (privateValues lib t o) := by
  cases t
  · simp only [plainClass, row_rsaPriv.con]
    cases o <;> rfl
  · simp only [plainClass, row_dssPriv.con]
    cases o <;> rfl
  · simp only [plainClass, row_ed25519Priv.con]
    cases o <;> try rfl
    · rename_i b
      simp only [refusal] at hb
      cases hl : lib.edPrivate b with
      | ok _ => simp [objectToMapping, hl, privateValues, edPrivateValues]
      | error e => rw [hl] at hb; cases hb
    · simp only [objectToMapping, privateValues]
      cases lib.nacl <;> rfl
  · simp only [plainClass, row_ec256Priv.con]
    cases o <;> try rfl
    simp only [objectToMapping, privateValues, PlainType.curve, curves]
    split <;> simp_all
  · simp only [plainClass, row_ec384Priv.con]
    cases o <;> try rfl
    simp only [objectToMapping, privateValues, PlainType.curve, curves]
    split <;> simp_all
  · simp only [plainClass, row_ec521Priv.con]
    cases o <;> try rfl
    simp only [objectToMapping, privateValues, PlainType.curve, curves]
    split <;> simp_all

theorem select_priv (lib : Lib) (t : PlainType) (o : KeyObj) (d : VDict)
    (h : privateValues lib t o = some d) :
    selectFields d (dkeys (formatOf (plainClass .priv t))) = .ok d := by
  cases t
  · simp only [plainClass, row_rsaPriv.fld]
    cases o <;> simp [privateValues, PlainType.curve] at h
    subst h; rfl
  · simp only [plainClass, row_dssPriv.fld]
    cases o <;> simp [privateValues, PlainType.curve] at h
    subst h; rfl
  · simp only [plainClass, row_ed25519Priv.fld]
    cases o <;> simp [privateValues, PlainType.curve] at h
    · subst h; rfl
    · subst h; rfl
    · obtain ⟨_, h⟩ := h; subst h; rfl
  · simp only [plainClass, row_ec256Priv.fld]
    cases o <;> simp [privateValues, PlainType.curve] at h
    obtain ⟨_, h⟩ := h; subst h; rfl
  · simp only [plainClass, row_ec384Priv.fld]
    cases o <;> simp [privateValues, PlainType.curve] at h
    obtain ⟨_, h⟩ := h; subst h; rfl
  · simp only [plainClass, row_ec521Priv.fld]
    cases o <;> simp [privateValues, PlainType.curve] at h
    obtain ⟨_, h⟩ := h; subst h; rfl

/-- What `convert_from` of a private class does. -/
theorem convert_priv (lib : Lib) (ext : Ext) (n : Nat) (t : PlainType) (o : KeyObj) :
    (convertFromFuel lib ext (n + 1) (plainClass .priv t) o).res =
      match refusal lib .priv t o, privateValues lib t o with
      | some e, _ => .error e
      | none, some d => .ok ⟨plainClass .priv t, d⟩
      | none, none => .error unsupported := by
  rw [convertFromFuel_concrete (row_priv t).1, convertFromBase_res]
  cases hb : refusal lib .priv t o with
  | none =>
    rw [own_priv lib t o hb, (row_priv t).2]
    cases hd : privateValues lib t o with
    | none => rfl
    | some d =>
      simp only [select_priv lib t o d hd, instantiate, (row_priv t).1]
      exact newParams_plain ext .priv t d
  | some e =>
    cases t <;> cases o <;> simp [refusal] at hb
    rename_i b
    simp only [plainClass, row_ed25519Priv.con, objectToMapping]
    cases hl : lib.edPrivate b with
    | ok _ => rw [hl] at hb; cases hb
    | error e' =>
      rw [hl] at hb
      cases hb
      rfl

theorem own_pub (lib : Lib) (t : PlainType) (o : KeyObj) :
    (objectToMapping lib (plainClass .pub t) (plainClass .pub t).conversionOf o).getD (.ok none)
      = .ok (if isPrivateObj o then none else publicValues lib t o) := by
  cases t
  · simp only [plainClass, row_rsaPub.con]
    cases o <;> rfl
  · simp only [plainClass, row_dssPub.con]
    cases o <;> rfl
  · simp only [plainClass, row_ed25519Pub.con]
    cases o <;> try rfl
    simp only [objectToMapping, publicValues, publicObject, isPrivateObj]
    cases lib.nacl <;> rfl
  · simp only [plainClass, row_ec256Pub.con]
    cases o <;> try rfl
    simp only [objectToMapping, publicValues, publicObject, isPrivateObj, PlainType.curve, curves]
    split <;> simp_all
  · simp only [plainClass, row_ec384Pub.con]
    cases o <;> try rfl
    simp only [objectToMapping, publicValues, publicObject, isPrivateObj, PlainType.curve, curves]
    split <;> simp_all
  · simp only [plainClass, row_ec521Pub.con]
    cases o <;> try rfl
    simp only [objectToMapping, publicValues, publicObject, isPrivateObj, PlainType.curve, curves]
    split <;> simp_all

theorem select_pub (lib : Lib) (t : PlainType) (o : KeyObj) (d : VDict)
    (h : publicValues lib t o = some d) :
    selectFields d (dkeys (formatOf (plainClass .pub t))) = .ok d := by
  cases t
  · simp only [plainClass, row_rsaPub.fld]
    cases o <;> simp [publicValues, publicObject, PlainType.curve] at h <;> (subst h; rfl)
  · simp only [plainClass, row_dssPub.fld]
    cases o <;> simp [publicValues, publicObject, PlainType.curve] at h <;> (subst h; rfl)
  · simp only [plainClass, row_ed25519Pub.fld]
    cases o <;> simp [publicValues, publicObject, PlainType.curve] at h <;>
      first | (subst h; rfl) | (obtain ⟨_, h⟩ := h; subst h; rfl)
  · simp only [plainClass, row_ec256Pub.fld]
    cases o <;> simp [publicValues, publicObject, PlainType.curve] at h <;>
      (obtain ⟨_, h⟩ := h; subst h; rfl)
  · simp only [plainClass, row_ec384Pub.fld]
    cases o <;> simp [publicValues, publicObject, PlainType.curve] at h <;>
      (obtain ⟨_, h⟩ := h; subst h; rfl)
  · simp only [plainClass, row_ec521Pub.fld]
    cases o <;> simp [publicValues, publicObject, PlainType.curve] at h <;>
      (obtain ⟨_, h⟩ := h; subst h; rfl)

/-- The values of the private key contain those of the public key, and there are some exactly if there are
public ones. -/
theorem select_priv_pub (lib : Lib) (t : PlainType) (o : KeyObj) (ho : isPrivateObj o = true) :
    (privateValues lib t o = none ∧ publicValues lib t o = none)
    ∨ ∃ d sel, privateValues lib t o = some d ∧ publicValues lib t o = some sel
        ∧ selectFields d (dkeys (formatOf (plainClass .pub t))) = .ok sel := by
  cases t
  · simp only [plainClass, row_rsaPub.fld]
    cases o <;> simp [isPrivateObj] at ho <;> simp [privateValues, publicValues, publicObject, PlainType.curve]
    rfl
  · simp only [plainClass, row_dssPub.fld]
    cases o <;> simp [isPrivateObj] at ho <;> simp [privateValues, publicValues, publicObject, PlainType.curve]
    rfl
  · simp only [plainClass, row_ed25519Pub.fld]
    cases o <;> simp [isPrivateObj] at ho <;> simp [privateValues, publicValues, publicObject, PlainType.curve]
    · rfl
    · cases lib.nacl <;> simp; rfl
  · simp only [plainClass, row_ec256Pub.fld]
    cases o <;> simp [isPrivateObj] at ho <;> simp [privateValues, publicValues, publicObject, PlainType.curve]
    rename_i curve x y d
    by_cases h : curve = py! "secp256r1" <;> simp [h]; rfl
  · simp only [plainClass, row_ec384Pub.fld]
    cases o <;> simp [isPrivateObj] at ho <;> simp [privateValues, publicValues, publicObject, PlainType.curve]
    rename_i curve x y d
    by_cases h : curve = py! "secp384r1" <;> simp [h]; rfl
  · simp only [plainClass, row_ec521Pub.fld]
    cases o <;> simp [isPrivateObj] at ho <;> simp [privateValues, publicValues, publicObject, PlainType.curve]
    rename_i curve x y d
    by_cases h : curve = py! "secp521r1" <;> simp [h]; rfl

theorem objectToMapping_congr (lib : Lib) {c c' : Cls} (o : KeyObj) (h1 : c.conversionOf = c'.conversionOf)
    (h2 : curveNameOf c = curveNameOf c') (h3 : curveOf c = curveOf c') :
    objectToMapping lib c c.conversionOf o = objectToMapping lib c' c'.conversionOf o := by
  rw [h1]
  cases c'.conversionOf <;> cases o <;> simp only [objectToMapping, h2, h3]

/-- The classes below a public class other than its private class: they use its conversions. -/
def heirs : PlainType → List Cls
  | .rsa => [.certRsa]
  | .dss => [.certDss]
  | .ed25519 => [.skEd25519Pub, .certEd25519]
  | .ec256 => [.skEc256Pub, .certEc256]
  | .ec384 => [.certEc384]
  | .ec521 => [.certEc521]

theorem row_pub (t : PlainType) : (plainClass .pub t).isAbstract = false
    ∧ (plainClass .pub t).subclasses = plainClass .priv t :: heirs t := by
  cases t <;> decide +kernel

theorem heirs_row (t : PlainType) : ∀ s ∈ heirs t, s.isAbstract = false
    ∧ s.conversionOf = (plainClass .pub t).conversionOf ∧ curveNameOf s = curveNameOf (plainClass .pub t)
    ∧ curveOf s = curveOf (plainClass .pub t)
    ∧ ∀ s' ∈ s.subclasses, s'.isAbstract = false
      ∧ s'.conversionOf = (plainClass .pub t).conversionOf ∧ curveNameOf s' = curveNameOf (plainClass .pub t)
      ∧ curveOf s' = curveOf (plainClass .pub t) ∧ s'.subclasses = [] := by
  cases t <;> decide +kernel

/-- The classes below a public class do not convert what it does not convert itself. -/
theorem heirs_none (lib : Lib) (ext : Ext) (n : Nat) (t : PlainType) (o : KeyObj)
    (ho : (objectToMapping lib (plainClass .pub t) (plainClass .pub t).conversionOf o).getD (.ok none)
      = .ok none) :
    ∀ s ∈ heirs t, (convertFromFuel lib ext (n + 2) s o).res = .error unsupported := by
  intro s hs
  obtain ⟨ha, h1, h2, h3, hsub⟩ := heirs_row t s hs
  refine convert_none ha rfl (by rw [objectToMapping_congr lib o h1 h2 h3]; exact ho) fun s' hs' => ?_
  obtain ⟨ha', h1', h2', h3', hsub'⟩ := hsub s' hs'
  exact convert_none ha' hsub' (by rw [objectToMapping_congr lib o h1' h2' h3']; exact ho) (by simp)

/-- What `convert_from` of a public class does. -/
theorem convert_pub (lib : Lib) (ext : Ext) (n : Nat) (t : PlainType) (o : KeyObj) :
    (convertFromFuel lib ext (n + 3) (plainClass .pub t) o).res =
      match publicValues lib t o with
      | some d => .ok ⟨plainClass .pub t, d⟩
      | none => .error unsupported := by
  have hown := own_pub lib t o
  have hpriv := convert_priv lib ext (n + 1) t o
  by_cases hp : isPrivateObj o = true
  · rw [if_pos hp] at hown
    have hb' : refusal lib .priv t o = none := by
      cases o <;> cases t <;> simp [isPrivateObj, refusal] at hp ⊢
    rw [hb'] at hpriv
    rcases select_priv_pub lib t o hp with ⟨h1, h2⟩ | ⟨d, sel, h1, h2, h3⟩
    · rw [h1] at hpriv
      rw [h2]
      refine convert_none (row_pub t).1 (row_pub t).2 hown fun s hs => ?_
      rcases List.mem_cons.1 hs with rfl | hs
      · exact hpriv
      · exact heirs_none lib ext n t o hown s hs
    · rw [h1] at hpriv
      rw [h2]
      exact convert_first (row_pub t).1 (row_pub t).2 hown hpriv h3 (newParams_plain ext .pub t sel)
  · rw [if_neg hp] at hown
    cases hd : publicValues lib t o with
    | some d =>
      rw [hd] at hown
      rw [convertFromFuel_concrete (row_pub t).1, convertFromBase_res, hown]
      simp only [select_pub lib t o d hd, instantiate, (row_pub t).1]
      exact newParams_plain ext .pub t d
    | none =>
      rw [hd] at hown
      have hnone : privateValues lib t o = none ∧ refusal lib .priv t o = none := by
        cases o <;> simp [isPrivateObj] at hp <;> cases t <;> simp [privateValues, refusal]
        all_goals simp [publicValues, publicObject] at hd
      rw [hnone.1, hnone.2] at hpriv
      refine convert_none (row_pub t).1 (row_pub t).2 hown fun s hs => ?_
      rcases List.mem_cons.1 hs with rfl | hs
      · exact hpriv
      · exact heirs_none lib ext n t o hown s hs

/-! ### `convert_to` -/

/-- The classes searched by `convert_to`. -/
def scanned (c : Cls) : List (Cls × Cls) :=
  (c.mro.takeWhile (fun s => s.isSubclass .publicKeyParams)).map (fun s => (s, s.conversionOf))

theorem convertCandidates_eq (lib : Lib) (c : Cls) :
    convertCandidates lib c = (scanned c).flatMap (fun sv => (candidates lib sv.2).map (fun k => (sv.1, k))) := by
  simp only [convertCandidates, scanned, List.flatMap_map]

theorem scanned_plain :
    scanned .rsaPub = [(.rsaPub, .rsaPub), (.publicKeyParams, .publicKeyParams)]
    ∧ scanned .rsaPriv = [(.rsaPriv, .rsaPriv), (.privateKeyParams, .publicKeyParams), (.rsaPub, .rsaPub),
        (.publicKeyParams, .publicKeyParams)]
    ∧ scanned .dssPub = [(.dssPub, .dssPub), (.publicKeyParams, .publicKeyParams)]
    ∧ scanned .dssPriv = [(.dssPriv, .dssPriv), (.privateKeyParams, .publicKeyParams), (.dssPub, .dssPub),
        (.publicKeyParams, .publicKeyParams)]
    ∧ scanned .ed25519Pub = [(.ed25519Pub, .ed25519Pub), (.publicKeyParams, .publicKeyParams)]
    ∧ scanned .ed25519Priv = [(.ed25519Priv, .ed25519Priv), (.privateKeyParams, .publicKeyParams),
        (.ed25519Pub, .ed25519Pub), (.publicKeyParams, .publicKeyParams)]
    ∧ scanned .ec256Pub = [(.ec256Pub, .ecdsaPub), (.ecdsaPub, .ecdsaPub), (.publicKeyParams, .publicKeyParams)]
    ∧ scanned .ec384Pub = [(.ec384Pub, .ecdsaPub), (.ecdsaPub, .ecdsaPub), (.publicKeyParams, .publicKeyParams)]
    ∧ scanned .ec521Pub = [(.ec521Pub, .ecdsaPub), (.ecdsaPub, .ecdsaPub), (.publicKeyParams, .publicKeyParams)]
    ∧ scanned .ec256Priv = [(.ec256Priv, .ecdsaPriv), (.ec256Pub, .ecdsaPub), (.ecdsaPriv, .ecdsaPriv),
        (.privateKeyParams, .publicKeyParams), (.ecdsaPub, .ecdsaPub), (.publicKeyParams, .publicKeyParams)]
    ∧ scanned .ec384Priv = [(.ec384Priv, .ecdsaPriv), (.ec384Pub, .ecdsaPub), (.ecdsaPriv, .ecdsaPriv),
        (.privateKeyParams, .publicKeyParams), (.ecdsaPub, .ecdsaPub), (.publicKeyParams, .publicKeyParams)]
    ∧ scanned .ec521Priv = [(.ec521Priv, .ecdsaPriv), (.ec521Pub, .ecdsaPub), (.ecdsaPriv, .ecdsaPriv),
        (.privateKeyParams, .publicKeyParams), (.ecdsaPub, .ecdsaPub), (.publicKeyParams, .publicKeyParams)] := by
  decide +kernel

/-- The class and the conversion that `convert_to` picks. -/
def picks (lib : Lib) : Kind → PlainType → List (Cls × ObjCls)
  | .pub, t => (objClasses lib .pub t).map fun k => (plainClass .pub t, k)
  | .priv, t => ((objClasses lib .priv t).map fun k => (plainClass .priv t, k))
      ++ (objClasses lib .pub t).map fun k => (plainClass .pub t, k)

theorem find_picks (lib : Lib) (kind : Kind) (t : PlainType) (dst : Dest) :
    (convertCandidates lib (plainClass kind t)).find? (fun sk => dst sk.2)
      = (picks lib kind t).find? (fun sk => dst sk.2) := by
  rw [convertCandidates_eq]
  cases kind <;> cases t <;>
    simp only [plainClass, scanned_plain, List.flatMap_cons, List.flatMap_nil, candidates, picks, objClasses,
      List.map_cons, List.map_nil, List.append_nil, List.nil_append, List.cons_append,
      List.find?_cons, List.find?_nil] <;>
    first
      | rfl
      | (cases dst .ecPublicKey <;> rfl)
      | (cases dst .ecPrivateKey <;> cases dst .ecPublicKey <;> rfl)

/-- `convert_to` of the plain classes. -/
theorem convertTo_plain (lib : Lib) (kind : Kind) (t : PlainType) (d : VDict) (dst : Dest) :
    convertTo lib ⟨plainClass kind t, d⟩ (some dst) =
      match (picks lib kind t).find? (fun sk => dst sk.2) with
      | some (s, k) => mappingToObject lib s d s.conversionOf k
      | none => .error (.valueError "Converting this parameters object is not supported") := by
  simp only [convertTo, find_picks]
  rfl

theorem Except.seq_unit_ok {α : Type} {x : Except Exn Unit} {a b : α}
    (h : (do x; pure a : Except Exn α) = .ok b) : x = .ok () ∧ b = a := by
  cases x with
  | error e => cases h
  | ok u => cases h; exact ⟨rfl, rfl⟩

theorem sliceTo_seed {b t : Bytes} (h : b.length = 32) : sliceTo (b ++ t) ed25519KeySize = b := by
  rw [sliceTo_nat]
  have : ed25519KeySize = b.length := by rw [h]; rfl
  rw [this, List.take_left]

/-- The Ed25519 values of a genuine private key object are those of a seed of 32 bytes. -/
theorem ed_seed {lib : Lib} {o : KeyObj} {d : VDict} (hv : privateValues lib .ed25519 o = some d)
    (hg : Genuine lib o) : ∃ b, b.length = 32 ∧ d = edPrivateValues b (lib.edPublicOf b) := by
  cases o <;> simp [privateValues, PlainType.curve] at hv
  · exact ⟨_, hg.1, hv.symm⟩
  · exact ⟨_, hg, hv.symm⟩
  · exact ⟨_, hg.1, hv.2.symm⟩

/-- The values of a genuine private elliptic curve key object. -/
theorem ec_values {lib : Lib} {t : PlainType} {o : KeyObj} {d : VDict} {name ident oid : Str}
    (ht : t.curve = some (name, ident, oid)) (hv : privateValues lib t o = some d) (hg : Genuine lib o) :
    ∃ x y i, o = .ecPrivate name x y i ∧ lib.curveName oid = name
      ∧ lib.decodePoint oid (lib.encodePoint name x y) = .ok (x, y)
      ∧ d = [(py! "identifier", .str ident), (py! "q", .bytes (lib.encodePoint name x y)), (py! "d", .int i)] := by
  cases o <;> cases t <;> simp [privateValues, PlainType.curve] at hv ht
  all_goals
    obtain ⟨rfl, rfl, rfl⟩ := ht
    obtain ⟨rfl, rfl⟩ := hv
    obtain ⟨h1, h2⟩ := hg.1 _ _ _ (by first | exact (rfl : PlainType.curve .ec256 = _)
                                             | exact (rfl : PlainType.curve .ec384 = _)
                                             | exact (rfl : PlainType.curve .ec521 = _))
    exact ⟨_, _, _, rfl, h1, h2, rfl⟩

theorem ecPub_values {lib : Lib} {t : PlainType} {o : KeyObj} {d : VDict} {name ident oid : Str}
    (ht : t.curve = some (name, ident, oid)) (hv : publicValues lib t o = some d)
    (hg : ∀ c x y, publicObject lib o = .ecPublic c x y → Genuine.PointGenuine lib c x y) :
    ∃ x y, publicObject lib o = .ecPublic name x y ∧ lib.curveName oid = name
      ∧ lib.decodePoint oid (lib.encodePoint name x y) = .ok (x, y)
      ∧ d = [(py! "identifier", .str ident), (py! "q", .bytes (lib.encodePoint name x y))] := by
  cases o <;> cases t <;> simp [publicValues, publicObject, PlainType.curve] at hv ht
  all_goals
    obtain ⟨rfl, rfl, rfl⟩ := ht
    obtain ⟨rfl, rfl⟩ := hv
    obtain ⟨h1, h2⟩ := hg _ _ _ rfl _ _ _
      (by first | exact (rfl : PlainType.curve .ec256 = _)
                | exact (rfl : PlainType.curve .ec384 = _)
                | exact (rfl : PlainType.curve .ec521 = _))
    exact ⟨_, _, rfl, h1, h2, rfl⟩

/-- Values of a private key, converted to an object of one of its private classes. -/
theorem mapping_priv {lib : Lib} {t : PlainType} {o o' : KeyObj} {d : VDict} {k : ObjCls}
    (hv : privateValues lib t o = some d) (hg : Genuine lib o) (hk : k ∈ objClasses lib .priv t)
    (h : mappingToObject lib (plainClass .priv t) d (plainClass .priv t).conversionOf k = .ok o') :
    privateValues lib t o' = some d := by
  cases t
  · cases o <;> simp [privateValues, PlainType.curve] at hv
    rename_i p q x dmp1 dmq1 iqmp e n
    subst hv
    simp only [objClasses, List.mem_singleton] at hk
    subst hk
    simp only [plainClass, row_rsaPriv.con] at h
    obtain ⟨h1, h2, h3⟩ := hg
    change (do
      let dmp1 ← lib.rsaCrtDmp1 x p
      let dmq1 ← lib.rsaCrtDmp1 x q
      lib.rsaPrivate p q x dmp1 dmq1 iqmp e n
      pure (KeyObj.rsaPrivate p q x dmp1 dmq1 iqmp e n) : Except Exn KeyObj) = _ at h
    rw [h2, h3] at h
    change (do lib.rsaPrivate p q x dmp1 dmq1 iqmp e n
               pure (KeyObj.rsaPrivate p q x dmp1 dmq1 iqmp e n) : Except Exn KeyObj) = _ at h
    obtain ⟨_, rfl⟩ := Except.seq_unit_ok h
    rfl
  · cases o <;> simp [privateValues, PlainType.curve] at hv
    subst hv
    simp only [objClasses, List.mem_singleton] at hk
    subst hk
    simp only [plainClass, row_dssPriv.con] at h
    obtain ⟨_, rfl⟩ := Except.seq_unit_ok h
    rfl
  · obtain ⟨b, hb, rfl⟩ := ed_seed hv hg
    simp only [plainClass, row_ed25519Priv.con] at h
    have hs := sliceTo_seed (t := lib.edPublicOf b) hb
    simp only [objClasses, List.mem_append, List.mem_cons, List.not_mem_nil, or_false] at hk
    rcases hk with (rfl | rfl) | hk
    · change (do
        lib.edPrivate (sliceTo (b ++ lib.edPublicOf b) ed25519KeySize)
        pure (KeyObj.edPrivate (sliceTo (b ++ lib.edPublicOf b) ed25519KeySize)) : Except Exn KeyObj) = _ at h
      rw [hs] at h
      obtain ⟨_, rfl⟩ := Except.seq_unit_ok h
      rfl
    · change (Except.ok (KeyObj.bytes (sliceTo (b ++ lib.edPublicOf b) ed25519KeySize)) : Except Exn KeyObj) = _ at h
      rw [hs] at h
      cases h
      rfl
    · cases hn : lib.nacl <;> rw [hn] at hk <;> simp at hk
      subst hk
      change (do
        lib.signingKey (sliceTo (b ++ lib.edPublicOf b) ed25519KeySize)
        pure (KeyObj.signingKey (sliceTo (b ++ lib.edPublicOf b) ed25519KeySize)) : Except Exn KeyObj) = _ at h
      rw [hs] at h
      obtain ⟨_, rfl⟩ := Except.seq_unit_ok h
      simp [privateValues, hn, edPrivateValues]
  · obtain ⟨x, y, i, rfl, hc, hdec, rfl⟩ := ec_values rfl hv hg
    simp only [objClasses, List.mem_singleton] at hk
    subst hk
    simp only [plainClass, row_ec256Priv.con] at h
    change (do
      let (px, py) ← lib.decodePoint (curveOf .ec256Priv).2 (lib.encodePoint _ x y)
      lib.ecPrivate (lib.curveName (curveOf .ec256Priv).2) px py i
      pure (KeyObj.ecPrivate (lib.curveName (curveOf .ec256Priv).2) px py i) : Except Exn KeyObj) = _ at h
    rw [curve_oids.2.2.2.1, hc, hdec] at h
    obtain ⟨_, rfl⟩ := Except.seq_unit_ok h
    exact hv
  · obtain ⟨x, y, i, rfl, hc, hdec, rfl⟩ := ec_values rfl hv hg
    simp only [objClasses, List.mem_singleton] at hk
    subst hk
    simp only [plainClass, row_ec384Priv.con] at h
    change (do
      let (px, py) ← lib.decodePoint (curveOf .ec384Priv).2 (lib.encodePoint _ x y)
      lib.ecPrivate (lib.curveName (curveOf .ec384Priv).2) px py i
      pure (KeyObj.ecPrivate (lib.curveName (curveOf .ec384Priv).2) px py i) : Except Exn KeyObj) = _ at h
    rw [curve_oids.2.2.2.2.1, hc, hdec] at h
    obtain ⟨_, rfl⟩ := Except.seq_unit_ok h
    exact hv
  · obtain ⟨x, y, i, rfl, hc, hdec, rfl⟩ := ec_values rfl hv hg
    simp only [objClasses, List.mem_singleton] at hk
    subst hk
    simp only [plainClass, row_ec521Priv.con] at h
    change (do
      let (px, py) ← lib.decodePoint (curveOf .ec521Priv).2 (lib.encodePoint _ x y)
      lib.ecPrivate (lib.curveName (curveOf .ec521Priv).2) px py i
      pure (KeyObj.ecPrivate (lib.curveName (curveOf .ec521Priv).2) px py i) : Except Exn KeyObj) = _ at h
    rw [curve_oids.2.2.2.2.2, hc, hdec] at h
    obtain ⟨_, rfl⟩ := Except.seq_unit_ok h
    exact hv

/-- Values that contain those of a public key, converted to an object of one of its public classes. -/
theorem mapping_pub {lib : Lib} {t : PlainType} {o o' : KeyObj} {d d' : VDict} {k : ObjCls}
    (hv : publicValues lib t o = some d')
    (hg : ∀ c x y, publicObject lib o = .ecPublic c x y → Genuine.PointGenuine lib c x y)
    (hd : ∀ n v, (n, v) ∈ d' → getItem d n = .ok v) (hk : k ∈ objClasses lib .pub t)
    (h : mappingToObject lib (plainClass .pub t) d (plainClass .pub t).conversionOf k = .ok o') :
    publicValues lib t o' = some d' := by
  cases t
  · simp only [publicValues] at hv
    generalize publicObject lib o = po at hv
    cases po <;> simp [PlainType.curve] at hv
    rename_i e n
    subst hv
    simp only [objClasses, List.mem_singleton] at hk
    subst hk
    simp only [plainClass, row_rsaPub.con, mappingToObject, intArg, hd (py! "e") (.int e) (by simp),
      hd (py! "n") (.int n) (by simp)] at h
    obtain ⟨_, rfl⟩ := Except.seq_unit_ok h
    rfl
  · simp only [publicValues] at hv
    generalize publicObject lib o = po at hv
    cases po <;> simp [PlainType.curve] at hv
    rename_i p q g y
    subst hv
    simp only [objClasses, List.mem_singleton] at hk
    subst hk
    simp only [plainClass, row_dssPub.con, mappingToObject, intArg, hd (py! "p") (.int p) (by simp),
      hd (py! "q") (.int q) (by simp), hd (py! "g") (.int g) (by simp), hd (py! "y") (.int y) (by simp)] at h
    obtain ⟨_, rfl⟩ := Except.seq_unit_ok h
    rfl
  · have hb : ∃ b, d' = [(py! "public", .bytes b)] := by
      simp only [publicValues] at hv
      generalize publicObject lib o = po at hv
      cases po <;> simp [PlainType.curve] at hv
      · exact ⟨_, hv.symm⟩
      · exact ⟨_, hv.symm⟩
      · exact ⟨_, hv.2.symm⟩
    obtain ⟨b, rfl⟩ := hb
    simp only [objClasses, List.mem_append, List.mem_cons, List.not_mem_nil, or_false] at hk
    rcases hk with (rfl | rfl) | hk
    · simp only [plainClass, row_ed25519Pub.con, mappingToObject, bytesArg, hd (py! "public") (.bytes b) (by simp)] at h
      obtain ⟨_, rfl⟩ := Except.seq_unit_ok h
      rfl
    · simp only [plainClass, row_ed25519Pub.con, mappingToObject, bytesArg, hd (py! "public") (.bytes b) (by simp)] at h
      cases h
      rfl
    · cases hn : lib.nacl <;> rw [hn] at hk <;> simp at hk
      subst hk
      simp only [plainClass, row_ed25519Pub.con, mappingToObject, bytesArg, hd (py! "public") (.bytes b) (by simp)] at h
      obtain ⟨_, rfl⟩ := Except.seq_unit_ok h
      simp [publicValues, publicObject, hn]
  · obtain ⟨x, y, ho, hc, hdec, rfl⟩ := ecPub_values rfl hv hg
    simp only [objClasses, List.mem_singleton] at hk
    subst hk
    simp only [plainClass, row_ec256Pub.con, mappingToObject, bytesArg, hd (py! "identifier") (.str (py! "nistp256")) (by simp),
      hd (py! "q") (.bytes (lib.encodePoint (py! "secp256r1") x y)) (by simp), curves, curve_oids] at h
    change (do
      let (px, py) ← lib.decodePoint _ (lib.encodePoint _ x y)
      pure (KeyObj.ecPublic (lib.curveName _) px py) : Except Exn KeyObj) = _ at h
    rw [hc, hdec] at h
    cases h
    simp [publicValues, publicObject, PlainType.curve]
  · obtain ⟨x, y, ho, hc, hdec, rfl⟩ := ecPub_values rfl hv hg
    simp only [objClasses, List.mem_singleton] at hk
    subst hk
    simp only [plainClass, row_ec384Pub.con, mappingToObject, bytesArg, hd (py! "identifier") (.str (py! "nistp384")) (by simp),
      hd (py! "q") (.bytes (lib.encodePoint (py! "secp384r1") x y)) (by simp), curves, curve_oids] at h
    change (do
      let (px, py) ← lib.decodePoint _ (lib.encodePoint _ x y)
      pure (KeyObj.ecPublic (lib.curveName _) px py) : Except Exn KeyObj) = _ at h
    rw [hc, hdec] at h
    cases h
    simp [publicValues, publicObject, PlainType.curve]
  · obtain ⟨x, y, ho, hc, hdec, rfl⟩ := ecPub_values rfl hv hg
    simp only [objClasses, List.mem_singleton] at hk
    subst hk
    simp only [plainClass, row_ec521Pub.con, mappingToObject, bytesArg, hd (py! "identifier") (.str (py! "nistp521")) (by simp),
      hd (py! "q") (.bytes (lib.encodePoint (py! "secp521r1") x y)) (by simp), curves, curve_oids] at h
    change (do
      let (px, py) ← lib.decodePoint _ (lib.encodePoint _ x y)
      pure (KeyObj.ecPublic (lib.curveName _) px py) : Except Exn KeyObj) = _ at h
    rw [hc, hdec] at h
    cases h
    simp [publicValues, publicObject, PlainType.curve]

theorem Except.seq_unit_of {α : Type} {x : Except Exn Unit} {a : α} (h : x = .ok ()) :
    (do x; pure a : Except Exn α) = .ok a := by
  rw [h]; rfl

/-- The values of a private key give back the object. -/
theorem mapping_priv_self {lib : Lib} {t : PlainType} {o : KeyObj} {d : VDict}
    (hv : privateValues lib t o = some d) (hg : Genuine lib o) :
    mappingToObject lib (plainClass .priv t) d (plainClass .priv t).conversionOf o.cls = .ok o := by
  cases t
  · cases o <;> simp [privateValues, PlainType.curve] at hv
    rename_i p q x dmp1 dmq1 iqmp e n
    subst hv
    simp only [plainClass, row_rsaPriv.con]
    obtain ⟨h1, h2, h3⟩ := hg
    change (do
      let dmp1 ← lib.rsaCrtDmp1 x p
      let dmq1 ← lib.rsaCrtDmp1 x q
      lib.rsaPrivate p q x dmp1 dmq1 iqmp e n
      pure (KeyObj.rsaPrivate p q x dmp1 dmq1 iqmp e n) : Except Exn KeyObj) = _
    rw [h2, h3]
    exact Except.seq_unit_of h1
  · cases o <;> simp [privateValues, PlainType.curve] at hv
    subst hv
    simp only [plainClass, row_dssPriv.con]
    exact Except.seq_unit_of hg
  · simp only [plainClass, row_ed25519Priv.con]
    cases o <;> simp [privateValues, PlainType.curve] at hv
    · rename_i b
      subst hv
      have hs := sliceTo_seed (t := lib.edPublicOf b) hg.1
      change (do
        lib.edPrivate (sliceTo (b ++ lib.edPublicOf b) ed25519KeySize)
        pure (KeyObj.edPrivate (sliceTo (b ++ lib.edPublicOf b) ed25519KeySize)) : Except Exn KeyObj) = _
      rw [hs]
      exact Except.seq_unit_of hg.2
    · rename_i b
      subst hv
      have hs := sliceTo_seed (t := lib.edPublicOf b) hg
      change (Except.ok (KeyObj.bytes (sliceTo (b ++ lib.edPublicOf b) ed25519KeySize)) : Except Exn KeyObj) = _
      rw [hs]
    · rename_i b
      obtain ⟨_, hv⟩ := hv
      subst hv
      have hs := sliceTo_seed (t := lib.edPublicOf b) hg.1
      change (do
        lib.signingKey (sliceTo (b ++ lib.edPublicOf b) ed25519KeySize)
        pure (KeyObj.signingKey (sliceTo (b ++ lib.edPublicOf b) ed25519KeySize)) : Except Exn KeyObj) = _
      rw [hs]
      exact Except.seq_unit_of hg.2
  · obtain ⟨x, y, i, rfl, hc, hdec, rfl⟩ := ec_values rfl hv hg
    simp only [plainClass, row_ec256Priv.con]
    change (do
      let (px, py) ← lib.decodePoint (curveOf .ec256Priv).2 (lib.encodePoint _ x y)
      lib.ecPrivate (lib.curveName (curveOf .ec256Priv).2) px py i
      pure (KeyObj.ecPrivate (lib.curveName (curveOf .ec256Priv).2) px py i) : Except Exn KeyObj) = _
    rw [curve_oids.2.2.2.1, hc, hdec]
    exact Except.seq_unit_of hg.2
  · obtain ⟨x, y, i, rfl, hc, hdec, rfl⟩ := ec_values rfl hv hg
    simp only [plainClass, row_ec384Priv.con]
    change (do
      let (px, py) ← lib.decodePoint (curveOf .ec384Priv).2 (lib.encodePoint _ x y)
      lib.ecPrivate (lib.curveName (curveOf .ec384Priv).2) px py i
      pure (KeyObj.ecPrivate (lib.curveName (curveOf .ec384Priv).2) px py i) : Except Exn KeyObj) = _
    rw [curve_oids.2.2.2.2.1, hc, hdec]
    exact Except.seq_unit_of hg.2
  · obtain ⟨x, y, i, rfl, hc, hdec, rfl⟩ := ec_values rfl hv hg
    simp only [plainClass, row_ec521Priv.con]
    change (do
      let (px, py) ← lib.decodePoint (curveOf .ec521Priv).2 (lib.encodePoint _ x y)
      lib.ecPrivate (lib.curveName (curveOf .ec521Priv).2) px py i
      pure (KeyObj.ecPrivate (lib.curveName (curveOf .ec521Priv).2) px py i) : Except Exn KeyObj) = _
    rw [curve_oids.2.2.2.2.2, hc, hdec]
    exact Except.seq_unit_of hg.2

/-- Values that contain those of a public key give back the object. -/
theorem mapping_pub_self {lib : Lib} {t : PlainType} {o : KeyObj} {d d' : VDict}
    (hv : publicValues lib t o = some d') (hg : Genuine lib (publicObject lib o))
    (hd : ∀ n v, (n, v) ∈ d' → getItem d n = .ok v) :
    mappingToObject lib (plainClass .pub t) d (plainClass .pub t).conversionOf (publicObject lib o).cls
      = .ok (publicObject lib o) := by
  cases t
  · simp only [publicValues] at hv
    generalize publicObject lib o = po at hv hg
    cases po <;> simp [PlainType.curve] at hv
    rename_i e n
    subst hv
    simp only [plainClass, row_rsaPub.con, mappingToObject, KeyObj.cls, intArg, hd (py! "e") (.int e) (by simp),
      hd (py! "n") (.int n) (by simp)]
    exact Except.seq_unit_of hg
  · simp only [publicValues] at hv
    generalize publicObject lib o = po at hv hg
    cases po <;> simp [PlainType.curve] at hv
    rename_i p q g y
    subst hv
    simp only [plainClass, row_dssPub.con, mappingToObject, KeyObj.cls, intArg, hd (py! "p") (.int p) (by simp),
      hd (py! "q") (.int q) (by simp), hd (py! "g") (.int g) (by simp), hd (py! "y") (.int y) (by simp)]
    exact Except.seq_unit_of hg
  · simp only [publicValues] at hv
    generalize publicObject lib o = po at hv hg
    cases po <;> simp [PlainType.curve] at hv
    · rename_i b
      subst hv
      simp only [plainClass, row_ed25519Pub.con, mappingToObject, KeyObj.cls, bytesArg,
        hd (py! "public") (.bytes b) (by simp)]
      exact Except.seq_unit_of hg
    · rename_i b
      subst hv
      simp only [plainClass, row_ed25519Pub.con, mappingToObject, KeyObj.cls, bytesArg,
        hd (py! "public") (.bytes b) (by simp)]
      rfl
    · rename_i b
      obtain ⟨_, hv⟩ := hv
      subst hv
      simp only [plainClass, row_ed25519Pub.con, mappingToObject, KeyObj.cls, bytesArg,
        hd (py! "public") (.bytes b) (by simp)]
      exact Except.seq_unit_of hg
  · obtain ⟨x, y, ho, hc, hdec, rfl⟩ := ecPub_values rfl hv (fun c x y h => by rw [h] at hg; exact hg)
    rw [ho]
    simp only [plainClass, row_ec256Pub.con, mappingToObject, KeyObj.cls, bytesArg, hd (py! "identifier") (.str (py! "nistp256")) (by simp),
      hd (py! "q") (.bytes (lib.encodePoint (py! "secp256r1") x y)) (by simp), curves, curve_oids]
    change (do
      let (px, py) ← lib.decodePoint _ (lib.encodePoint _ x y)
      pure (KeyObj.ecPublic (lib.curveName _) px py) : Except Exn KeyObj) = _
    rw [hc, hdec]
    rfl
  · obtain ⟨x, y, ho, hc, hdec, rfl⟩ := ecPub_values rfl hv (fun c x y h => by rw [h] at hg; exact hg)
    rw [ho]
    simp only [plainClass, row_ec384Pub.con, mappingToObject, KeyObj.cls, bytesArg, hd (py! "identifier") (.str (py! "nistp384")) (by simp),
      hd (py! "q") (.bytes (lib.encodePoint (py! "secp384r1") x y)) (by simp), curves, curve_oids]
    change (do
      let (px, py) ← lib.decodePoint _ (lib.encodePoint _ x y)
      pure (KeyObj.ecPublic (lib.curveName _) px py) : Except Exn KeyObj) = _
    rw [hc, hdec]
    rfl
  · obtain ⟨x, y, ho, hc, hdec, rfl⟩ := ecPub_values rfl hv (fun c x y h => by rw [h] at hg; exact hg)
    rw [ho]
    simp only [plainClass, row_ec521Pub.con, mappingToObject, KeyObj.cls, bytesArg, hd (py! "identifier") (.str (py! "nistp521")) (by simp),
      hd (py! "q") (.bytes (lib.encodePoint (py! "secp521r1") x y)) (by simp), curves, curve_oids]
    change (do
      let (px, py) ← lib.decodePoint _ (lib.encodePoint _ x y)
      pure (KeyObj.ecPublic (lib.curveName _) px py) : Except Exn KeyObj) = _
    rw [hc, hdec]
    rfl

/-- The values of a public key can be looked up. -/
theorem public_items {lib : Lib} {t : PlainType} {o : KeyObj} {d : VDict} (hv : publicValues lib t o = some d) :
    ∀ n v, (n, v) ∈ d → getItem d n = .ok v := by
  simp only [publicValues] at hv
  generalize publicObject lib o = po at hv
  intro n v hn
  cases t <;> cases po <;> simp [PlainType.curve] at hv
  all_goals
    first
      | subst hv
      | (obtain ⟨_, hv⟩ := hv; subst hv)
    simp at hn
    first
      | (rcases hn with ⟨rfl, rfl⟩ | ⟨rfl, rfl⟩ | ⟨rfl, rfl⟩ | ⟨rfl, rfl⟩ <;> rfl)
      | (rcases hn with ⟨rfl, rfl⟩ | ⟨rfl, rfl⟩ <;> rfl)
      | (obtain ⟨rfl, rfl⟩ := hn; rfl)

/-- The values of a private key contain those of its public key. -/
theorem private_public {lib : Lib} {t : PlainType} {o : KeyObj} {d : VDict}
    (hv : privateValues lib t o = some d) (hg : Genuine lib o) :
    ∃ po d', publicValues lib t po = some d'
      ∧ (∀ c x y, publicObject lib po = .ecPublic c x y → Genuine.PointGenuine lib c x y)
      ∧ (∀ n v, (n, v) ∈ d' → getItem d n = .ok v) ∧ dkeys d' = dkeys (formatOf (plainClass .pub t)) := by
  have hec : ∀ c x y i, o = .ecPrivate c x y i → Genuine.PointGenuine lib c x y := by
    rintro c x y i rfl
    exact hg.1
  cases t
  · cases o <;> simp [privateValues, PlainType.curve] at hv
    rename_i p q x dmp1 dmq1 iqmp e n
    subst hv
    refine ⟨.rsaPublic e n, _, rfl, by simp [publicObject], ?_, row_rsaPub.fld.symm⟩
    intro n v hn
    simp at hn
    rcases hn with ⟨rfl, rfl⟩ | ⟨rfl, rfl⟩ <;> rfl
  · cases o <;> simp [privateValues, PlainType.curve] at hv
    rename_i p q g y x
    subst hv
    refine ⟨.dsaPublic p q g y, _, rfl, by simp [publicObject], ?_, row_dssPub.fld.symm⟩
    intro n v hn
    simp at hn
    rcases hn with ⟨rfl, rfl⟩ | ⟨rfl, rfl⟩ | ⟨rfl, rfl⟩ | ⟨rfl, rfl⟩ <;> rfl
  · obtain ⟨b, _, rfl⟩ := ed_seed hv hg
    refine ⟨.edPublic (lib.edPublicOf b), _, rfl, by simp [publicObject], ?_, row_ed25519Pub.fld.symm⟩
    intro n v hn
    simp at hn
    obtain ⟨rfl, rfl⟩ := hn
    rfl
  · obtain ⟨x, y, i, rfl, hc, hdec, rfl⟩ := ec_values rfl hv hg
    refine ⟨.ecPublic (py! "secp256r1") x y,
      [(py! "identifier", .str (py! "nistp256")), (py! "q", .bytes (lib.encodePoint (py! "secp256r1") x y))], ?_,
      fun c x y h => ?_, ?_, row_ec256Pub.fld.symm⟩
    · simp [publicValues, publicObject, PlainType.curve]
    · simp [publicObject] at h
      obtain ⟨rfl, rfl, rfl⟩ := h
      exact hec _ _ _ _ rfl
    · intro n v hn
      simp at hn
      rcases hn with ⟨rfl, rfl⟩ | ⟨rfl, rfl⟩ <;> rfl
  · obtain ⟨x, y, i, rfl, hc, hdec, rfl⟩ := ec_values rfl hv hg
    refine ⟨.ecPublic (py! "secp384r1") x y,
      [(py! "identifier", .str (py! "nistp384")), (py! "q", .bytes (lib.encodePoint (py! "secp384r1") x y))], ?_,
      fun c x y h => ?_, ?_, row_ec384Pub.fld.symm⟩
    · simp [publicValues, publicObject, PlainType.curve]
    · simp [publicObject] at h
      obtain ⟨rfl, rfl, rfl⟩ := h
      exact hec _ _ _ _ rfl
    · intro n v hn
      simp at hn
      rcases hn with ⟨rfl, rfl⟩ | ⟨rfl, rfl⟩ <;> rfl
  · obtain ⟨x, y, i, rfl, hc, hdec, rfl⟩ := ec_values rfl hv hg
    refine ⟨.ecPublic (py! "secp521r1") x y,
      [(py! "identifier", .str (py! "nistp521")), (py! "q", .bytes (lib.encodePoint (py! "secp521r1") x y))], ?_,
      fun c x y h => ?_, ?_, row_ec521Pub.fld.symm⟩
    · simp [publicValues, publicObject, PlainType.curve]
    · simp [publicObject] at h
      obtain ⟨rfl, rfl, rfl⟩ := h
      exact hec _ _ _ _ rfl
    · intro n v hn
      simp at hn
      rcases hn with ⟨rfl, rfl⟩ | ⟨rfl, rfl⟩ <;> rfl

theorem Except.bind_ok {α β : Type} {x : Except Exn α} {f : α → Except Exn β} {b : β}
    (h : (x >>= f) = .ok b) : ∃ a, x = .ok a ∧ f a = .ok b := by
  cases x with
  | error e => cases h
  | ok a => exact ⟨a, rfl, h⟩

/-- The object made by a conversion is of the class for which the conversion is listed. -/
theorem mapping_cls {lib : Lib} {s v : Cls} {d : VDict} {k : ObjCls} {o : KeyObj}
    (h : mappingToObject lib s d v k = .ok o) : o.cls = k := by
  unfold mappingToObject at h
  split at h
  all_goals
    repeat
      first
        | (cases h; rfl)
        | cases h
        | (obtain ⟨_, _, h⟩ := Except.bind_ok h)
        | split at h

/-- Which class's conversion a private class picks. -/
theorem pick_priv {lib : Lib} {t : PlainType} {dst : Dest} {s : Cls} {k : ObjCls}
    (h : (picks lib .priv t).find? (fun sk => dst sk.2) = some (s, k)) :
    (isPublicCls k = false ∧ s = plainClass .priv t ∧ k ∈ objClasses lib .priv t)
    ∨ (isPublicCls k = true ∧ s = plainClass .pub t ∧ k ∈ objClasses lib .pub t) := by
  have hd : dst k = true := by simpa using List.find?_some h
  have hm := List.mem_of_find?_eq_some h
  rcases List.mem_append.1 hm with hm | hm
  · obtain ⟨k', hk', he⟩ := List.mem_map.1 hm
    cases he
    left
    refine ⟨?_, rfl, hk'⟩
    cases t <;> simp only [objClasses, List.mem_append, List.mem_cons, List.not_mem_nil, or_false] at hk'
    case ed25519 =>
      rcases hk' with (rfl | rfl) | hk'
      · rfl
      · rfl
      · cases hn : lib.nacl <;> rw [hn] at hk' <;> simp at hk'
        subst hk'; rfl
    all_goals (subst hk'; rfl)
  · obtain ⟨k', hk', he⟩ := List.mem_map.1 hm
    cases he
    right
    refine ⟨?_, rfl, hk'⟩
    cases t <;> simp only [objClasses, List.mem_append, List.mem_cons, List.not_mem_nil, or_false] at hk'
    case ed25519 =>
      rcases hk' with (rfl | rfl) | hk'
      · rfl
      · exfalso
        simp only [picks, objClasses, List.map_cons, List.map_append, List.cons_append, List.find?_cons, hd] at h
        cases h1 : dst .ed25519PrivateKey <;> rw [h1] at h <;> simp [plainClass] at h
      · cases hn : lib.nacl <;> rw [hn] at hk' <;> simp at hk'
        subst hk'; rfl
    all_goals (subst hk'; rfl)

/-! ### Depth of the search -/

/-- The height of a class in the hierarchy. -/
def classHeight : Nat → Cls → Nat
  | 0, _ => 0
  | n + 1, c => (c.subclasses.map fun s => classHeight n s + 1).foldr max 0

theorem trySubclasses_congr {f g : Cls → Eff Params} {l : List Cls} (h : ∀ s ∈ l, f s = g s) :
    trySubclasses f l = trySubclasses g l := by
  induction l with
  | nil => rfl
  | cons s t ih =>
    unfold trySubclasses
    rw [h s (by simp), ih fun s' hs' => h s' (by simp [hs'])]

theorem tryConcrete_congr {f g : Cls → Eff Params} {l : List Cls} (h : ∀ s ∈ l, f s = g s) :
    tryConcrete f l = tryConcrete g l := by
  induction l with
  | nil => rfl
  | cons s t ih =>
    unfold tryConcrete
    rw [h s (by simp), ih fun s' hs' => h s' (by simp [hs'])]

theorem convertFromBase_congr {lib : Lib} {ext : Ext} {f g : Cls → Eff Params} {c : Cls} {o : KeyObj}
    (h : ∀ s ∈ c.subclasses, f s = g s) : convertFromBase lib ext f c o = convertFromBase lib ext g c o := by
  unfold convertFromBase
  rw [trySubclasses_congr h]

theorem convertFromEcdsa_congr {lib : Lib} {ext : Ext} {f g : Cls → Eff Params} {c : Cls} {o : KeyObj}
    (h : ∀ s ∈ c.subclasses, f s = g s) : convertFromEcdsa lib ext f c o = convertFromEcdsa lib ext g c o := by
  unfold convertFromEcdsa
  rw [tryConcrete_congr h, convertFromBase_congr h]

theorem height_lt : ∀ c ∈ Cls.definitionOrder, classHeight 6 c < 6
    ∧ ∀ s ∈ c.subclasses, s ∈ Cls.definitionOrder ∧ classHeight 6 s < classHeight 6 c := by
  decide +kernel

/-- The bound on the depth does not matter once it exceeds the height of the class. -/
theorem fuel_enough (lib : Lib) (ext : Ext) (o : KeyObj) (n : Nat) :
    ∀ (m : Nat) (c : Cls), c ∈ Cls.definitionOrder → classHeight 6 c < n → classHeight 6 c < m →
      convertFromFuel lib ext n c o = convertFromFuel lib ext m c o := by
  induction n with
  | zero => intro m c _ h; omega
  | succ n ih =>
    intro m c hc hn hm
    cases m with
    | zero => omega
    | succ m =>
      have hs : ∀ s ∈ c.subclasses, convertFromFuel lib ext n s o = convertFromFuel lib ext m s o := by
        intro s hs
        obtain ⟨h1, h2⟩ := (height_lt c hc).2 s hs
        exact ih m s h1 (by omega) (by omega)
      rw [convertFromFuel, convertFromFuel, convertFromEcdsa_congr hs, convertFromBase_congr hs]

/-! ### Abstract elliptic curve classes -/

theorem tryConcrete_cons (rec : Cls → Eff Params) (s : Cls) (t : List Cls) :
    (tryConcrete rec (s :: t)).res =
      if s.isAbstract then (tryConcrete rec t).res
      else match (rec s).res with
        | .ok p => .ok (some p)
        | .error e => if e.isValueError then (tryConcrete rec t).res else .error e := by
  rw [tryConcrete]
  cases s.isAbstract with
  | true => rfl
  | false =>
    simp only [Bool.false_eq_true, if_false, Eff.bind_res, Eff.tryCatch_res]
    cases (rec s).res with
    | ok p => rfl
    | error e =>
      simp only
      cases e.isValueError <;> rfl

theorem row_ecdsa : Cls.isAbstract .ecdsaPub = true ∧ Cls.isAbstract .ecdsaPriv = true
    ∧ Cls.subclasses .ecdsaPub = [.ecdsaPriv, .ec256Pub, .ec384Pub, .ec521Pub]
    ∧ Cls.subclasses .ecdsaPriv = [.ec256Priv, .ec384Priv, .ec521Priv]
    ∧ Cls.isSubclass .ecdsaPub .ecdsaPub = true ∧ Cls.isSubclass .ecdsaPriv .ecdsaPub = true := by
  decide +kernel

/-! ### Security key and certificate classes -/

/-- The classes of security keys and certificates with the plain type whose conversions they inherit. -/
def inheritors : List (Cls × PlainType) :=
  [(.skEc256Pub, .ec256), (.skEc256Priv, .ec256), (.skEd25519Pub, .ed25519), (.skEd25519Priv, .ed25519),
   (.certRsa, .rsa), (.certDss, .dss), (.certEd25519, .ed25519), (.certEc256, .ec256), (.certEc384, .ec384),
   (.certEc521, .ec521), (.certSkEd25519, .ed25519), (.certSkEc256, .ec256)]

theorem inheritors_row : ∀ ct ∈ inheritors, ct.1.isAbstract = false
    ∧ ct.1.conversionOf = (plainClass .pub ct.2).conversionOf ∧ curveNameOf ct.1 = curveNameOf (plainClass .pub ct.2)
    ∧ curveOf ct.1 = curveOf (plainClass .pub ct.2)
    ∧ (∃ k ∈ dkeys (formatOf ct.1), k ∉ dkeys (formatOf (plainClass .pub ct.2)))
    ∧ ∀ s ∈ ct.1.subclasses, (s, ct.2) ∈ inheritors ∧ s.subclasses = [] := by
  decide +kernel

theorem selectFields_error {d : VDict} {l : List Str} {e : Exn} (h : selectFields d l = .error e) :
    ∃ k, e = .keyError k := by
  induction l with
  | nil => cases h
  | cons k t ih =>
    unfold selectFields at h
    unfold getItem at h
    cases hd : dget d k with
    | none => rw [hd] at h; cases h; exact ⟨_, rfl⟩
    | some v =>
      rw [hd] at h
      simp only at h
      cases hs : selectFields d t with
      | error e' => rw [hs] at h; cases h; exact ih hs
      | ok r => rw [hs] at h; cases h

theorem selectFields_ok_mem {d sel : VDict} {l : List Str} (h : selectFields d l = .ok sel) :
    ∀ k ∈ l, k ∈ dkeys d := by
  induction l generalizing sel with
  | nil => simp
  | cons k t ih =>
    unfold selectFields at h
    unfold getItem at h
    cases hd : dget d k with
    | none => rw [hd] at h; cases h
    | some v =>
      rw [hd] at h
      simp only at h
      cases hs : selectFields d t with
      | error e' => rw [hs] at h; cases h
      | ok r =>
        intro k' hk'
        rcases List.mem_cons.1 hk' with rfl | hk'
        · exact dget_isSome_iff.1 (by rw [hd]; rfl)
        · exact ih hs k' hk'

theorem selectFields_keys {d sel : VDict} {l : List Str} (h : selectFields d l = .ok sel) : dkeys sel = l := by
  induction l generalizing sel with
  | nil => cases h; rfl
  | cons k t ih =>
    unfold selectFields at h
    cases hd : getItem d k with
    | error e => rw [hd] at h; cases h
    | ok v =>
      rw [hd] at h
      simp only at h
      cases hs : selectFields d t with
      | error e' => rw [hs] at h; cases h
      | ok r =>
        rw [hs] at h
        cases h
        simp [dkeys] at *
        exact ih hs

/-- What the conversions of security key and certificate classes do: `KeyError` for the public keys that
the base class converts, `ValueError` for everything else. -/
theorem convert_inheritor {lib : Lib} {ext : Ext} {n : Nat} {c : Cls} {t : PlainType} {o : KeyObj}
    (hc : (c, t) ∈ inheritors) :
    if isPrivateObj o = false ∧ (publicValues lib t o).isSome then
      ∃ k, (convertFromFuel lib ext (n + 2) c o).res = .error (.keyError k)
    else (convertFromFuel lib ext (n + 2) c o).res = .error unsupported := by
  obtain ⟨ha, h1, h2, h3, ⟨f, hf1, hf2⟩, hs⟩ := inheritors_row _ hc
  simp only at ha h1 h2 h3 hf1 hf2 hs
  have hown := own_pub lib t o
  rw [← objectToMapping_congr lib o h1 h2 h3] at hown
  split
  · next h =>
    rw [h.1] at hown
    obtain ⟨d, hd⟩ := Option.isSome_iff_exists.1 h.2
    rw [hd] at hown
    rw [convertFromFuel_concrete ha, convertFromBase_res, hown]
    simp only [Bool.false_eq_true, if_false]
    cases hsel : selectFields d (dkeys (formatOf c)) with
    | error e =>
      obtain ⟨k, rfl⟩ := selectFields_error hsel
      exact ⟨k, rfl⟩
    | ok sel =>
      exfalso
      have h5 := selectFields_ok_mem hsel f hf1
      have h6 := selectFields_keys (select_pub lib t o d hd)
      rw [← h6] at hf2
      exact hf2 h5
  · next h =>
    have hnone : (if isPrivateObj o = true then none else publicValues lib t o) = none := by
      cases hp : isPrivateObj o with
      | true => rfl
      | false =>
        cases hd : publicValues lib t o with
        | none => rfl
        | some d => exact absurd ⟨hp, by rw [hd]; rfl⟩ h
    rw [hnone] at hown
    refine convert_none ha rfl hown fun s hsub => ?_
    obtain ⟨hi, hl⟩ := hs s hsub
    obtain ⟨ha', h1', h2', h3', -, -⟩ := inheritors_row _ hi
    refine convert_none ha' hl ?_ (by simp)
    have := own_pub lib t o
    rw [← objectToMapping_congr lib o h1' h2' h3'] at this
    rw [this, hnone]

/-- `ECDSAPublicKeyParams.convert_from` of a key on a supported curve. -/
theorem convert_ecdsa (lib : Lib) (ext : Ext) (t : PlainType) (o : KeyObj) (d : VDict) (ht : t.curve.isSome)
    (hv : publicValues lib t o = some d) :
    (convertFrom lib ext .ecdsaPub o).res = .ok ⟨plainClass .pub t, d⟩ := by
  have h : ∀ t', (convertFromFuel lib ext 5 (plainClass .pub t') o).res = _ := convert_pub lib ext 2 (o := o)
  have hne : ∀ t', t' ≠ t → publicValues lib t' o = none := by
    intro t' hne
    simp only [publicValues] at hv ⊢
    generalize publicObject lib o = po at hv
    cases t <;> simp [PlainType.curve] at ht <;> cases po <;> simp [PlainType.curve] at hv
    all_goals
      obtain ⟨rfl, -⟩ := hv
      cases t' <;> simp at hne <;> simp [PlainType.curve]
  have h1 := h .ec256
  have h2 := h .ec384
  have h3 := h .ec521
  have habs : Cls.isAbstract .ec256Pub = false ∧ Cls.isAbstract .ec384Pub = false
      ∧ Cls.isAbstract .ec521Pub = false := ⟨row_ec256Pub.abs, row_ec384Pub.abs, row_ec521Pub.abs⟩
  simp only [plainClass] at h1 h2 h3
  unfold convertFrom
  rw [convertFromFuel, if_pos row_ecdsa.2.2.2.2.1]
  unfold convertFromEcdsa
  simp only [row_ecdsa.1, row_ecdsa.2.2.1, if_true, Eff.bind_res, tryConcrete_cons, row_ecdsa.2.1, habs,
    Bool.false_eq_true, if_false]
  cases t <;> simp [PlainType.curve] at ht
  · rw [h1, hv]; rfl
  · rw [h1, hne .ec256 (by simp), h2, hv]; rfl
  · rw [h1, hne .ec256 (by simp), h2, hne .ec384 (by simp), h3, hv]; rfl

/-- `ECDSAPrivateKeyParams.convert_from` of a private key on a supported curve. -/
theorem convert_ecdsa_priv (lib : Lib) (ext : Ext) (t : PlainType) (o : KeyObj) (d : VDict) (ht : t.curve.isSome)
    (hv : privateValues lib t o = some d) :
    (convertFrom lib ext .ecdsaPriv o).res = .ok ⟨plainClass .priv t, d⟩ := by
  have h : ∀ t', (convertFromFuel lib ext 5 (plainClass .priv t') o).res = _ := convert_priv lib ext 4 (o := o)
  have hr : ∀ t', t'.curve.isSome → refusal lib .priv t' o = none := by
    intro t' h'
    cases t' <;> simp [PlainType.curve] at h' <;> rfl
  have hne : ∀ t', t' ≠ t → privateValues lib t' o = none := by
    intro t' hne
    cases t <;> simp [PlainType.curve] at ht <;> cases o <;> simp [privateValues, PlainType.curve] at hv
    all_goals
      obtain ⟨rfl, -⟩ := hv
      cases t' <;> simp at hne <;> simp [privateValues, PlainType.curve]
  have h1 := h .ec256
  have h2 := h .ec384
  have h3 := h .ec521
  have habs : Cls.isAbstract .ec256Priv = false ∧ Cls.isAbstract .ec384Priv = false
      ∧ Cls.isAbstract .ec521Priv = false := ⟨row_ec256Priv.abs, row_ec384Priv.abs, row_ec521Priv.abs⟩
  rw [hr _ rfl] at h1 h2 h3
  simp only [plainClass] at h1 h2 h3
  unfold convertFrom
  rw [convertFromFuel, if_pos row_ecdsa.2.2.2.2.2]
  unfold convertFromEcdsa
  simp only [row_ecdsa.2.1, row_ecdsa.2.2.2.1, if_true, Eff.bind_res, tryConcrete_cons, habs,
    Bool.false_eq_true, if_false]
  cases t <;> simp [PlainType.curve] at ht
  · rw [h1, hv]; rfl
  · rw [h1, hne .ec256 (by simp), h2, hv]; rfl
  · rw [h1, hne .ec256 (by simp), h2, hne .ec384 (by simp), h3, hv]; rfl

/-- Conversions to public objects use only the public values. -/
theorem mapping_pub_congr {lib : Lib} {t : PlainType} {d d' : VDict} {k : ObjCls} (hk : k ∈ objClasses lib .pub t)
    (h : ∀ n ∈ dkeys (formatOf (plainClass .pub t)), dget d n = dget d' n) :
    mappingToObject lib (plainClass .pub t) d (plainClass .pub t).conversionOf k
      = mappingToObject lib (plainClass .pub t) d' (plainClass .pub t).conversionOf k := by
  have hg : ∀ n ∈ dkeys (formatOf (plainClass .pub t)), getItem d n = getItem d' n := by
    intro n hn
    simp only [getItem, h n hn]
  cases t
  · rw [show dkeys (formatOf (plainClass .pub .rsa)) = _ from row_rsaPub.fld] at hg
    simp only [objClasses, List.mem_singleton] at hk
    subst hk
    simp only [plainClass, row_rsaPub.con, mappingToObject, intArg, hg (py! "e") (by simp), hg (py! "n") (by simp)]
  · rw [show dkeys (formatOf (plainClass .pub .dss)) = _ from row_dssPub.fld] at hg
    simp only [objClasses, List.mem_singleton] at hk
    subst hk
    simp only [plainClass, row_dssPub.con, mappingToObject, intArg, hg (py! "p") (by simp),
      hg (py! "q") (by simp), hg (py! "g") (by simp), hg (py! "y") (by simp)]
  · rw [show dkeys (formatOf (plainClass .pub .ed25519)) = _ from row_ed25519Pub.fld] at hg
    simp only [objClasses, List.mem_append, List.mem_cons, List.not_mem_nil, or_false] at hk
    rcases hk with (rfl | rfl) | hk
    · simp only [plainClass, row_ed25519Pub.con, mappingToObject, bytesArg, hg (py! "public") (by simp)]
    · simp only [plainClass, row_ed25519Pub.con, mappingToObject, bytesArg, hg (py! "public") (by simp)]
    · cases hn : lib.nacl <;> rw [hn] at hk <;> simp at hk
      subst hk
      simp only [plainClass, row_ed25519Pub.con, mappingToObject, bytesArg, hg (py! "public") (by simp)]
  · rw [show dkeys (formatOf (plainClass .pub .ec256)) = _ from row_ec256Pub.fld] at hg
    simp only [objClasses, List.mem_singleton] at hk
    subst hk
    simp only [plainClass, row_ec256Pub.con, mappingToObject, bytesArg, hg (py! "identifier") (by simp),
      hg (py! "q") (by simp)]
    rfl
  · rw [show dkeys (formatOf (plainClass .pub .ec384)) = _ from row_ec384Pub.fld] at hg
    simp only [objClasses, List.mem_singleton] at hk
    subst hk
    simp only [plainClass, row_ec384Pub.con, mappingToObject, bytesArg, hg (py! "identifier") (by simp),
      hg (py! "q") (by simp)]
    rfl
  · rw [show dkeys (formatOf (plainClass .pub .ec521)) = _ from row_ec521Pub.fld] at hg
    simp only [objClasses, List.mem_singleton] at hk
    subst hk
    simp only [plainClass, row_ec521Pub.con, mappingToObject, bytesArg, hg (py! "identifier") (by simp),
      hg (py! "q") (by simp)]
    rfl

theorem selectFields_items {d sel : VDict} {l : List Str} (h : selectFields d l = .ok sel) :
    ∀ n v, (n, v) ∈ sel → getItem d n = .ok v := by
  induction l generalizing sel with
  | nil => cases h; simp
  | cons k t ih =>
    unfold selectFields at h
    cases hd : getItem d k with
    | error e => rw [hd] at h; cases h
    | ok v =>
      rw [hd] at h
      simp only at h
      cases hs : selectFields d t with
      | error e' => rw [hs] at h; cases h
      | ok r =>
        rw [hs] at h
        cases h
        intro n v' hn
        rcases List.mem_cons.1 hn with hn | hn
        · cases hn; exact hd
        · exact ih hs n v' hn

end OSK
