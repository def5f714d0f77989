import Verif.Lemmas.Key
import Verif.Lemmas.Eff
import Verif.Spec.Tables
/-
The documented tables against the computed ones; keys read back from packed bytes.
-/
namespace OSK
open Spec

/-- The factory's table, with formats computed along the MRO, is the documented table. -/
theorem table_eq : keyTypeMapping.map (fun e => (e.1, formatOf e.2.1, e.2.2.map formatOf)) = keyTable := by
  decide +kernel

theorem dget_map {α β γ : Type} [DecidableEq α] (f : β → γ) (l : List (α × β)) (k : α) :
    dget (l.map (fun e => (e.1, f e.2))) k = (dget l k).map f := by
  induction l with
  | nil => rfl
  | cons e t ih =>
    obtain ⟨k', v⟩ := e
    simp only [List.map_cons, dget_cons, ih]
    split <;> rfl

theorem dget_keyTable (t : Str) :
    dget keyTable t = (dget keyTypeMapping t).map (fun r => (formatOf r.1, r.2.map formatOf)) := by
  rw [← table_eq]
  exact dget_map (fun r : Cls × Option Cls => (formatOf r.1, r.2.map formatOf)) keyTypeMapping t

theorem publicFields_eq {t : Str} {c : Cls} (h : paramsClass .pub (.str t) = .ok c) :
    publicFields t = some (formatOf c) := by
  simp only [paramsClass, getPublicClass, lookupType] at h
  unfold publicFields
  rw [dget_keyTable]
  rcases hd : dget keyTypeMapping t with _ | r
  · simp [hd] at h
  · simp [hd] at h; simp [h]

theorem privateFields_eq {t : Str} {c : Cls} (h : paramsClass .priv (.str t) = .ok c) :
    privateFields t = some (formatOf c) := by
  simp only [paramsClass, getPrivateClass, lookupType] at h
  unfold privateFields
  rw [dget_keyTable]
  rcases hd : dget keyTypeMapping t with _ | ⟨a, _ | b⟩
  · simp [hd] at h
  · simp [hd] at h
  · simp [hd] at h; simp [h]

theorem paramsClass_pub_of {t : Str} {f : FDict} (h : publicFields t = some f) :
    ∃ c, paramsClass .pub (.str t) = .ok c ∧ formatOf c = f := by
  unfold publicFields at h
  rw [dget_keyTable] at h
  rcases hd : dget keyTypeMapping t with _ | ⟨a, b⟩
  · simp [hd] at h
  · simp [hd] at h
    exact ⟨a, by simp [paramsClass, getPublicClass, lookupType, hd], h⟩

theorem paramsClass_priv_of {t : Str} {f : FDict} (h : privateFields t = some f) :
    ∃ c, paramsClass .priv (.str t) = .ok c ∧ formatOf c = f := by
  unfold privateFields at h
  rw [dget_keyTable] at h
  rcases hd : dget keyTypeMapping t with _ | ⟨a, _ | b⟩
  · simp [hd] at h
  · simp [hd] at h
  · simp [hd] at h
    exact ⟨b, by simp [paramsClass, getPrivateClass, lookupType, hd], h⟩

theorem named_congr {fmt : FDict} {d d' : VDict} (h : ∀ k ∈ dkeys fmt, dget d k = dget d' k) :
    named fmt d = named fmt d' := by
  induction fmt with
  | nil => rfl
  | cons kf t ih =>
    obtain ⟨k, fi⟩ := kf
    rw [dkeys_cons] at h
    have := ih (fun k' hk => h k' (List.mem_cons_of_mem _ hk))
    unfold named at this ⊢
    simp only [List.filterMap_cons, h k List.mem_cons_self, this]

/-- A dict with exactly the names of the format, in order, is unchanged by selecting those names. -/
theorem named_self {fmt : FDict} {d : VDict} (hn : (dkeys fmt).Nodup) (h : dkeys d = dkeys fmt) :
    named fmt d = d := by
  induction fmt generalizing d with
  | nil => cases d with
    | nil => rfl
    | cons a t => simp [dkeys] at h
  | cons kf t ih =>
    obtain ⟨k, fi⟩ := kf
    cases d with
    | nil => simp [dkeys] at h
    | cons a vs =>
      obtain ⟨k', v⟩ := a
      rw [dkeys_cons, dkeys_cons] at h
      rw [dkeys_cons, List.nodup_cons] at hn
      simp only [List.cons.injEq] at h
      obtain ⟨rfl, h⟩ := h
      have e : named t ((k', v) :: vs) = named t vs := by
        apply named_congr
        intro x hx
        rw [dget_cons_ne]
        rintro rfl
        exact hn.1 hx
      have e2 : named ((k', fi) :: t) ((k', v) :: vs) = (k', v) :: named t ((k', v) :: vs) := by
        simp [named]
      rw [e2, e, ih hn.2 h]

theorem plain_nodup {fmt : FDict} (h : plainFmt fmt = true) : (dkeys fmt).Nodup := by
  unfold plainFmt at h
  rw [Bool.and_eq_true, decide_eq_true_iff] at h
  exact h.2

theorem named_of_read {fmt : FDict} (hp : plainFmt fmt = true) {r : Bytes} {d : VDict} {n : Nat}
    (h : prs (readDict fmt) r = (.ok d, n)) : named fmt d = d :=
  named_self (plain_nodup hp) (readDict_dkeys h)

theorem checkHeader_silent {kind : Kind} {h : VDict} {t : Str}
    (ht : dget h (py! "key_type") = some (.str t)) : checkDict h (headerFmt kind) = pure () := by
  have e : headerFmt kind = [(py! "key_type", .pascal .string)] := by cases kind <;> rfl
  rw [e]
  simp [checkDict, checkField, ht, Prim.matchesVal]

/-- Construction of a key of a known type. -/
theorem mkKeyWith_eq {ext : Ext} {ca : Bytes → Eff Key} {kind : Kind} {h p f : VDict} {clear : Option VDict}
    {t : Str} {c : Cls} (ht : dget h (py! "key_type") = some (.str t))
    (hc : paramsClass kind (.str t) = .ok c) :
    mkKeyWith ext ca kind h p f clear = (do
      runChecks (localCheck ext ca c p) (checkPlan c)
      checkDict f (footerFmt kind)
      pure ⟨kind, h, ⟨c, p⟩, f, clear.getD []⟩) := by
  unfold mkKeyWith
  rw [checkHeader_silent ht, Eff.pure_bind]
  simp only [getItem, ht, Eff.lift_ok_bind, hc, newParamsWith]
  rw [Eff.bind_assoc]
  simp only [Eff.pure_bind]

theorem paramsClass_fun {kind : Kind} {t : Val} {c c' : Cls} (h : paramsClass kind t = .ok c)
    (h' : paramsClass kind t = .ok c') : c = c' := by rw [h] at h'; simpa using h'

/-- Parsing the bytes of a key written field by field. -/
theorem fromBytes_packed (ext : Ext) {kind : Kind} {t : Str} {c : Cls}
    (hc : paramsClass kind (.str t) = .ok c)
    {h p f : VDict} {w1 w2 w3 : Bytes} (ht : dget h (py! "key_type") = some (.str t))
    (h1 : packDict (headerFmt kind) h = .ok w1) (h2 : packDict (formatOf c) p = .ok w2)
    (h3 : packDict (footerFmt kind) f = .ok w3)
    (clear : Option VDict) :
    fromBytes ext kind (w1 ++ w2 ++ w3) clear = (do
      runChecks (localCheck ext (caFromBytes ext) c p) (checkPlan c)
      pure ⟨kind, [(py! "key_type", .str t)], ⟨c, named (formatOf c) p⟩, named (footerFmt kind) f,
        clear.getD []⟩) := by
  unfold fromBytes
  rw [fromBytesWith_eq]
  have hr := prs_readKey_packed hc ht h1 h2 h3 []
  rw [List.append_nil] at hr
  rw [hr]
  simp only [List.drop_length, List.length_nil, Nat.lt_irrefl, if_false]
  rw [mkKeyWith_eq (t := t) (c := c) (by simp) hc]
  have e : checkDict (named (footerFmt kind) f) (footerFmt kind) = pure () := by
    have := prs_readDict_plain (plain_footer kind) h3 []
    exact checkDict_read (plain_footer kind) this
  rw [e, checks_congr (d := p) (d' := named (formatOf c) p) (paramsClass_mem hc).1
    (fun k hk => by rw [dget_named, if_pos hk]) (fun _ _ => rfl)]
  simp only [Eff.bind_assoc, Eff.pure_bind]

end OSK
