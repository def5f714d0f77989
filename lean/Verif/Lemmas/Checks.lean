import Verif.Spec.Checks
import Verif.Props.Cert
import Verif.Props.Record
/-
The warnings of the checks of key parameters.
-/
namespace OSK
open Spec

theorem mem_bind_log_iff {α β : Type} {x : Eff α} {f : α → Eff β} {a : α} {v : Event} (h : x.res = .ok a) :
    v ∈ (x >>= f).log ↔ v ∈ x.log ∨ v ∈ (f a).log := by
  rw [Eff.bind_log_ok h]; simp

/-- All checks pass if each does, and the events are those of the single checks. -/
theorem runChecks_ok {f : Cls → Eff Unit} {l : List Cls} (h : ∀ D ∈ l, (f D).res = .ok ()) :
    (runChecks f l).res = .ok () ∧ ∀ v, v ∈ (runChecks f l).log ↔ ∃ D ∈ l, v ∈ (f D).log := by
  induction l with
  | nil => simp [runChecks]
  | cons D t ih =>
    have h1 := h D (by simp)
    obtain ⟨h2, h3⟩ := ih (fun D' hD => h D' (by simp [hD]))
    rw [runChecks]
    refine ⟨by rw [Eff.bind_res_of_ok h1]; exact h2, ?_⟩
    intro v
    rw [mem_bind_log_iff h1, h3]
    simp

theorem runChecks_res_mem {f : Cls → Eff Unit} {l : List Cls} (h : (runChecks f l).res = .ok ()) :
    ∀ D ∈ l, (f D).res = .ok () := by
  induction l with
  | nil => simp
  | cons D t ih =>
    rw [runChecks] at h
    obtain ⟨⟨⟩, h1, h2⟩ := Eff.bind_res_ok_iff.1 h
    intro D' hD
    simp at hD
    rcases hD with rfl | hD
    · exact h1
    · exact ih h2 D' hD

theorem checkField_log {d : VDict} {k : Str} {fi : FI} (hp : fi.plain = true) (v : Event) :
    v ∈ (checkField d k fi).log ↔ ∃ w, v = .warn w ∧ FieldFault [(k, fi)] d w := by
  unfold checkField
  rcases hk : dget d k with _ | x
  · simp only [Eff.warn_log, List.mem_singleton]
    constructor
    · rintro rfl
      exact ⟨_, rfl, .missing (fi := fi) (by simp) hk⟩
    · rintro ⟨w, rfl, hw⟩
      cases hw with
      | missing hm _ => simp at hm; rw [hm.1]
      | unformatted hm hv _ => simp at hm; rw [hm.1, hk] at hv; simp at hv
      | otherClass hm hv _ => simp at hm; rw [hm.1, hk] at hv; simp at hv
  · rcases FI.plain_cases hp with ⟨p, rfl⟩ | ⟨big, n, sg, rfl, -, -⟩
    · have hm := matchesVal_iff p x
      have key : (∃ w, v = .warn w ∧ FieldFault [(k, .pascal p)] d w) ↔
          v = .warn (.shouldBeOfClass k) ∧ ¬ HasClass (.pascal p) x := by
        constructor
        · rintro ⟨w, rfl, hw⟩
          cases hw with
          | missing hm hv => simp at hm; rw [hm.1, hk] at hv; simp at hv
          | unformatted hm hv _ => simp at hm
          | otherClass hm hv hc =>
            simp at hm; rw [hm.1, hk] at hv; simp at hv
            obtain ⟨rfl, rfl⟩ := hm
            subst hv
            exact ⟨rfl, hc⟩
        · rintro ⟨rfl, hc⟩
          exact ⟨_, rfl, .otherClass (by simp) hk hc⟩
      rw [key, ← hm]
      by_cases hc : p.matchesVal x = true <;> simp [hc]
    · have hm := structPack_hasClass ⟨big, [.int n sg]⟩ x
      have key : (∃ w, v = .warn w ∧ FieldFault [(k, .struct ⟨big, [.int n sg]⟩)] d w) ↔
          v = .warn (.shouldBeFormatted k) ∧ ¬ HasClass (.struct ⟨big, [.int n sg]⟩) x := by
        constructor
        · rintro ⟨w, rfl, hw⟩
          cases hw with
          | missing hm hv => simp at hm; rw [hm.1, hk] at hv; simp at hv
          | otherClass hm hv _ => simp at hm
          | unformatted hm hv hc =>
            simp at hm; rw [hm.1, hk] at hv; simp at hv
            obtain ⟨rfl, rfl⟩ := hm
            subst hv
            exact ⟨rfl, hc⟩
        · rintro ⟨rfl, hc⟩
          exact ⟨_, rfl, .unformatted (by simp) hk hc⟩
      rw [key]
      by_cases hc : HasClass (.struct ⟨big, [.int n sg]⟩) x
      · obtain ⟨b, hb⟩ := hm.1 hc
        simp [hb, hc]
      · simp [hm.2 hc, hc]

theorem fieldFault_cons {k : Str} {fi : FI} {t : FDict} {d : VDict} {w : Warning} :
    FieldFault ((k, fi) :: t) d w ↔ FieldFault [(k, fi)] d w ∨ FieldFault t d w := by
  constructor
  · intro h
    cases h with
    | missing hm hv =>
      simp at hm; rcases hm with ⟨rfl, rfl⟩ | hm
      · exact Or.inl (.missing (List.mem_singleton.2 rfl) hv)
      · exact Or.inr (.missing hm hv)
    | unformatted hm hv hc =>
      simp at hm; rcases hm with ⟨rfl, rfl⟩ | hm
      · exact Or.inl (.unformatted (by simp) hv hc)
      · exact Or.inr (.unformatted hm hv hc)
    | otherClass hm hv hc =>
      simp at hm; rcases hm with ⟨rfl, rfl⟩ | hm
      · exact Or.inl (.otherClass (by simp) hv hc)
      · exact Or.inr (.otherClass hm hv hc)
  · rintro (h | h)
    · cases h with
      | missing hm hv => simp at hm; exact .missing (fi := fi) (by simp [hm.1]) hv
      | unformatted hm hv hc => simp at hm; exact .unformatted (by simp [hm.1, hm.2]) hv hc
      | otherClass hm hv hc => simp at hm; exact .otherClass (by simp [hm.1, hm.2]) hv hc
    · cases h with
      | missing hm hv => exact .missing (List.mem_cons_of_mem _ hm) hv
      | unformatted hm hv hc => exact .unformatted (List.mem_cons_of_mem _ hm) hv hc
      | otherClass hm hv hc => exact .otherClass (List.mem_cons_of_mem _ hm) hv hc

theorem checkDict_faults {d : VDict} {fmt : FDict} (hp : plainFmt fmt = true) :
    (checkDict d fmt).res = .ok () ∧
    ∀ v, v ∈ (checkDict d fmt).log ↔ ∃ w, v = .warn w ∧ FieldFault fmt d w := by
  have hres := checkDict_within (P := fun _ => False) hp d
  constructor
  · rcases h : (checkDict d fmt).res with e | ⟨⟩
    · exact (hres.exn e h).elim
    · rfl
  clear hres
  induction fmt with
  | nil =>
    intro v
    simp only [checkDict, Eff.pure_log, List.not_mem_nil, false_iff]
    rintro ⟨w, -, hw⟩
    cases hw <;> simp_all
  | cons kf t ih =>
    obtain ⟨k, fi⟩ := kf
    obtain ⟨h1, -, h3⟩ := plainFmt_cons hp
    intro v
    have hr : (checkField d k fi).res = .ok () := by
      refine (checkField_spec d k fi ?_).1
      rintro rfl; simp [FI.plain] at h1
    rw [checkDict, mem_bind_log_iff hr, checkField_log h1, ih h3]
    simp only [fieldFault_cons (t := t)]
    constructor
    · rintro (⟨w, rfl, h⟩ | ⟨w, rfl, h⟩)
      · exact ⟨w, rfl, Or.inl h⟩
      · exact ⟨w, rfl, Or.inr h⟩
    · rintro ⟨w, rfl, h | h⟩
      · exact Or.inl ⟨w, rfl, h⟩
      · exact Or.inr ⟨w, rfl, h⟩

/-- Which checks run for which key type, and with which curve. -/
structure PlanFor (kind : Kind) (t : Str) (c : Cls) : Prop where
  fields : Cls.pascalStyleDict ∈ checkPlan c
  ed : Cls.ed25519Pub ∈ checkPlan c ↔ t ∈ ed25519Table
  edPriv : Cls.ed25519Priv ∈ checkPlan c ↔ kind = .priv ∧ t = py! "ssh-ed25519"
  ec : Cls.ecdsaPub ∈ checkPlan c ↔ (dget curveTable t).isSome
  curve : ∀ r, dget curveTable t = some r → curveOf c = r
  cert : Cls.certPub ∈ checkPlan c ↔ isCertType t = true

instance (kind : Kind) (t : Str) (c : Cls) : Decidable (PlanFor kind t c) :=
  decidable_of_iff
    ((Cls.pascalStyleDict ∈ checkPlan c) ∧ (Cls.ed25519Pub ∈ checkPlan c ↔ t ∈ ed25519Table) ∧
      (Cls.ed25519Priv ∈ checkPlan c ↔ kind = .priv ∧ t = py! "ssh-ed25519") ∧
      (Cls.ecdsaPub ∈ checkPlan c ↔ (dget curveTable t).isSome) ∧
      (∀ r ∈ dget curveTable t, curveOf c = r) ∧
      (Cls.certPub ∈ checkPlan c ↔ isCertType t = true))
    ⟨fun ⟨a, b, c, d, e, f⟩ => ⟨a, b, c, d, fun r h => e r h, f⟩,
      fun ⟨a, b, c, d, e, f⟩ => ⟨a, b, c, d, fun r h => e r h, f⟩⟩

theorem planFor_pub : ∀ e ∈ keyTypeMapping, PlanFor .pub e.1 e.2.1 := by decide +kernel
theorem planFor_priv : ∀ e ∈ keyTypeMapping, ∀ c ∈ e.2.2, PlanFor .priv e.1 c := by decide +kernel

theorem planFor {kind : Kind} {t : Str} {c : Cls} (h : paramsClass kind (.str t) = .ok c) : PlanFor kind t c := by
  cases kind
  · simp only [paramsClass, getPublicClass] at h
    split at h
    · simp at h
    · rename_i r hr
      obtain ⟨s, hs, hm⟩ := lookupType_mem hr
      simp at hs h; subst hs; subst h
      exact planFor_pub _ hm
  · simp only [paramsClass, getPrivateClass] at h
    split at h
    · simp at h
    · rename_i r hr
      obtain ⟨s, hs, hm⟩ := lookupType_mem hr
      split at h
      · simp at h
      · rename_i c' hc
        simp at hs h; subst hs; subst h
        exact planFor_priv _ hm _ hc

theorem fieldsOf_eq {kind : Kind} {t : Str} {c : Cls} (h : paramsClass kind (.str t) = .ok c) :
    fieldsOf kind t = some (formatOf c) := by
  cases kind
  · exact publicFields_eq h
  · exact privateFields_eq h

theorem bytesOf?_eq {d : VDict} {k : Str} {b : Bytes} :
    bytesOf? d k = some b ↔ dget d k = some (.bytes b) := by
  unfold bytesOf?
  split
  · rename_i x hx; simp [hx]
  · rename_i h
    constructor
    · intro h'; simp at h'
    · intro h'; exact absurd h' (h b)

theorem ed25519Pub_faults (d : VDict) :
    (ed25519PubLocalCheck d).res = .ok () ∧
    ∀ v, v ∈ (ed25519PubLocalCheck d).log ↔
      v = .warn .ed25519PublicLength ∧ ∃ p, dget d (py! "public") = some (.bytes p) ∧ p.length ≠ 32 := by
  simp only [← bytesOf?_eq]
  unfold ed25519PubLocalCheck ed25519KeySize
  rcases bytesOf? d (py! "public") with _ | p
  · simp
  · by_cases h : p.length = 32 <;> simp [h]

theorem warnIf_res {α : Type} {c : Prop} [Decidable c] {w : Warning} {y : Eff α} :
    (if c then (do Eff.warn w; y) else y).res = y.res := by
  split
  · rw [Eff.bind_res_of_ok (Eff.warn_res w)]
  · rfl

theorem warnIf_log {α : Type} {c : Prop} [Decidable c] {w : Warning} {y : Eff α} {v : Event} :
    v ∈ (if c then (do Eff.warn w; y) else y).log ↔ (v = .warn w ∧ c) ∨ v ∈ y.log := by
  split
  · rename_i h
    rw [mem_bind_log_iff (Eff.warn_res w)]; simp [h]
  · rename_i h; simp [h]

theorem ed25519Priv_faults (d : VDict) :
    (ed25519PrivLocalCheck d).res = .ok () ∧
    ∀ v, v ∈ (ed25519PrivLocalCheck d).log ↔
      ∃ p pp, dget d (py! "public") = some (.bytes p) ∧ dget d (py! "private_public") = some (.bytes pp) ∧
        ((v = .warn .ed25519PublicMismatch ∧ pp.drop 32 ≠ p) ∨
         (v = .warn .ed25519PrivateLength ∧ (pp.drop 32).length ≠ 32)) := by
  simp only [← bytesOf?_eq]
  unfold ed25519PrivLocalCheck ed25519KeySize
  rcases bytesOf? d (py! "public") with _ | p <;> rcases bytesOf? d (py! "private_public") with _ | pp
  · simp
  · simp
  · simp
  · simp only [warnIf_res, warnIf_log]
    constructor
    · split <;> simp
    · intro v
      by_cases h2 : (pp.drop 32).length = 32
      · rw [List.length_drop] at h2; simp [h2]
      · rw [List.length_drop] at h2; simp [h2]

theorem ecdsa_faults (ext : Ext) (c : Cls) (d : VDict) :
    (ecdsaLocalCheck ext c d).res = .ok () ∧
    ∀ v, v ∈ (ecdsaLocalCheck ext c d).log ↔
      ∃ i, dget d (py! "identifier") = some i ∧
        ((v = .warn .curveIdentifier ∧ i ≠ .str (curveOf c).1) ∨
         (v = .warn .notOnCurve ∧ ∃ q, dget d (py! "q") = some (.bytes q) ∧
          ext.validPoint (curveOf c).2 q = false)) := by
  simp only [← bytesOf?_eq]
  unfold ecdsaLocalCheck
  rcases dget d (py! "identifier") with _ | i
  · simp
  · simp only [warnIf_res, warnIf_log]
    have e : (Val.str (curveOf c).1 ≠ i) ↔ i ≠ Val.str (curveOf c).1 := ne_comm
    rcases bytesOf? d (py! "q") with _ | q
    · simp [e]
    · simp only [e]
      cases h : ext.validPoint (curveOf c).2 q <;> simp [h]

/-- The checks other than the certificate's own part: they pass, and report exactly the faults. -/
theorem plainChecks_faults {ext : Ext} {ca : Bytes → Eff Key} {kind : Kind} {t : Str} {c : Cls} {d : VDict}
    {fmt : FDict} (hc : paramsClass kind (.str t) = .ok c) (hf : fieldsOf kind t = some fmt) :
    (∀ D, D ≠ .certPub → (localCheck ext ca c d D).res = .ok ()) ∧
    ∀ v, (∃ D ∈ checkPlan c, D ≠ .certPub ∧ v ∈ (localCheck ext ca c d D).log) ↔
      ∃ w, v = .warn w ∧ (FieldFault fmt d w ∨ MaterialFault ext kind t d w) := by
  have hfmt := fieldsOf_eq hc
  rw [hf] at hfmt
  simp at hfmt
  have hpl : plainFmt fmt = true := by rw [hfmt]; exact plain_class hc
  have plan := planFor hc
  have h0 := checkDict_faults (d := d) hpl
  have h1 := ed25519Pub_faults d
  have h2 := ed25519Priv_faults d
  have h3 := ecdsa_faults ext c d
  have hcurve : ∀ name oid, (t, name, oid) ∈ curveTable ↔ dget curveTable t = some (name, oid) := by
    intro name oid
    constructor
    · intro h
      have key : ∀ e ∈ curveTable, dget curveTable e.1 = some e.2 := by decide
      exact key _ h
    · exact dget_mem
  constructor
  · intro D hD
    cases D <;> first | exact absurd rfl hD | rfl | skip
    · rw [hfmt] at h0; exact h0.1
    · exact h1.1
    · exact h2.1
    · exact h3.1
  · intro v
    constructor
    · rintro ⟨D, hm, hD, hv⟩
      cases D <;> first | exact absurd rfl hD | (simp [localCheck] at hv; done) | skip
      · rw [localCheck, ← hfmt, h0.2] at hv
        obtain ⟨w, rfl, hw⟩ := hv
        exact ⟨w, rfl, Or.inl hw⟩
      · rw [localCheck, h1.2] at hv
        obtain ⟨rfl, p, hp, hl⟩ := hv
        exact ⟨_, rfl, Or.inr (.edLength (plan.ed.1 hm) hp hl)⟩
      · rw [localCheck, h2.2] at hv
        obtain ⟨hk, ht⟩ := plan.edPriv.1 hm
        obtain ⟨p, pp, hp, hpp, ⟨rfl, hx⟩ | ⟨rfl, hx⟩⟩ := hv
        · exact ⟨_, rfl, Or.inr (.edMismatch hk ht hp hpp hx)⟩
        · exact ⟨_, rfl, Or.inr (.edPrivate hk ht hp hpp hx)⟩
      · rw [localCheck, h3.2] at hv
        obtain ⟨⟨name, oid⟩, hr⟩ := Option.isSome_iff_exists.1 (plan.ec.1 hm)
        have hcv := plan.curve _ hr
        rw [hcv] at hv
        obtain ⟨i, hi, ⟨rfl, hx⟩ | ⟨rfl, q, hq, hx⟩⟩ := hv
        · exact ⟨_, rfl, Or.inr (.curve ((hcurve _ _).2 hr) hi hx)⟩
        · exact ⟨_, rfl, Or.inr (.point ((hcurve _ _).2 hr) hi hq hx)⟩
    · rintro ⟨w, rfl, hw | hw⟩
      · refine ⟨.pascalStyleDict, plan.fields, by simp, ?_⟩
        rw [localCheck, ← hfmt, h0.2]
        exact ⟨w, rfl, hw⟩
      · cases hw with
        | curve hr hi hx =>
          rw [hcurve] at hr
          refine ⟨.ecdsaPub, plan.ec.2 (by rw [hr]; rfl), by simp, ?_⟩
          rw [localCheck, h3.2, plan.curve _ hr]
          exact ⟨_, hi, Or.inl ⟨rfl, hx⟩⟩
        | point hr hi hq hx =>
          rw [hcurve] at hr
          refine ⟨.ecdsaPub, plan.ec.2 (by rw [hr]; rfl), by simp, ?_⟩
          rw [localCheck, h3.2, plan.curve _ hr]
          exact ⟨_, hi, Or.inr ⟨rfl, _, hq, hx⟩⟩
        | edLength ht hp hl =>
          refine ⟨.ed25519Pub, plan.ed.2 ht, by simp, ?_⟩
          rw [localCheck, h1.2]
          exact ⟨rfl, _, hp, hl⟩
        | edMismatch hk ht hp hpp hx =>
          refine ⟨.ed25519Priv, plan.edPriv.2 ⟨hk, ht⟩, by simp, ?_⟩
          rw [localCheck, h2.2]
          exact ⟨_, _, hp, hpp, Or.inl ⟨rfl, hx⟩⟩
        | edPrivate hk ht hp hpp hx =>
          refine ⟨.ed25519Priv, plan.edPriv.2 ⟨hk, ht⟩, by simp, ?_⟩
          rw [localCheck, h2.2]
          exact ⟨_, _, hp, hpp, Or.inr ⟨rfl, hx⟩⟩

end OSK
