import Verif.Spec.UserDict
import Verif.Props.Checks
/-
Property C102: dictionary operations of parameter objects.
-/
namespace OSK
open Spec

theorem ddel_absent {d : VDict} {k : Str} (h : k ∉ dkeys d) : ddel d k = d := by
  unfold ddel
  rw [List.filter_eq_self]
  intro e he
  simp
  rintro rfl
  exact h (List.mem_map_of_mem he)

theorem ddel_split {a b : VDict} {k : Str} {v : Val} (hn : (dkeys (a ++ (k, v) :: b)).Nodup) :
    ddel (a ++ (k, v) :: b) k = a ++ b := by
  simp only [dkeys, List.map_append, List.map_cons] at hn
  have h1 : k ∉ dkeys a := by
    intro h
    exact (List.nodup_append.1 hn).2.2 k h k (by simp) rfl
  have h2 : k ∉ dkeys b := (List.nodup_cons.1 (List.nodup_append.1 hn).2.1).1
  have e1 := ddel_absent h1
  have e2 := ddel_absent h2
  unfold ddel at *
  rw [List.filter_append, List.filter_cons, e1, e2]
  simp

theorem put_iff {d d' : VDict} (hn : (dkeys d).Nodup) {k : Str} {v : Val} : Put d k v d' ↔ d' = dset d k v := by
  induction d generalizing d' with
  | nil =>
    simp [Put, dset]
  | cons e t ih =>
    obtain ⟨x, u⟩ := e
    rw [dkeys_cons, List.nodup_cons] at hn
    unfold dset
    by_cases hx : x = k
    · subst hx
      rw [if_pos rfl]
      constructor
      · rintro (⟨a, w, b, h1, h2⟩ | ⟨h, _⟩)
        · cases a with
          | nil => cases h1; exact h2
          | cons y a =>
            cases h1
            exact absurd (by simp [dkeys]) hn.1
        · exact absurd (by simp) h
      · rintro rfl
        exact .inl ⟨[], u, t, rfl, rfl⟩
    · rw [if_neg hx]
      constructor
      · rintro (⟨a, w, b, h1, h2⟩ | ⟨h, h2⟩)
        · cases a with
          | nil => cases h1; exact absurd rfl hx
          | cons y a =>
            cases h1
            rw [h2, ← (ih hn.2).1 (.inl ⟨a, w, b, rfl, rfl⟩)]; rfl
        · simp at h
          rw [h2, ← (ih hn.2).1 (.inr ⟨by simpa using h.2, rfl⟩)]; rfl
      · rintro rfl
        rcases (ih hn.2).2 rfl with ⟨a, w, b, h1, h2⟩ | ⟨h, h2⟩
        · exact .inl ⟨(x, u) :: a, w, b, by rw [h1]; rfl, by rw [h2]; rfl⟩
        · exact .inr ⟨by simp at h ⊢; exact ⟨Ne.symm hx, h⟩, by rw [h2]; rfl⟩

theorem puts_iff {d d' other : VDict} (hn : (dkeys d).Nodup) : Puts d other d' ↔ d' = dupdate d other := by
  induction other generalizing d with
  | nil =>
    constructor
    · intro h; cases h; rfl
    · rintro rfl; exact .nil
  | cons e t ih =>
    obtain ⟨k, v⟩ := e
    show _ ↔ d' = dupdate (dset d k v) t
    rw [← ih (nodup_dset hn k v)]
    constructor
    · intro h
      cases h with
      | cons h1 h2 => rw [(put_iff hn).1 h1] at h2; exact h2
    · intro h
      exact .cons ((put_iff hn).2 rfl) h

theorem take_iff {d d' : VDict} (hn : (dkeys d).Nodup) {k : Str} {v : Val} : Take d k v d' ↔ dget d k = some v ∧ d' = ddel d k := by
  constructor
  · rintro ⟨a, b, rfl, rfl⟩
    exact ⟨dget_of_mem hn (by simp), (ddel_split hn).symm⟩
  · rintro ⟨h, rfl⟩
    obtain ⟨a, b, rfl⟩ := List.append_of_mem (dget_mem h)
    exact ⟨a, b, rfl, ddel_split hn⟩

theorem dclear_nil (d : VDict) : dclear d = [] := by
  induction d using dclear.induct with
  | case1 d h =>
    rw [dclear]
    cases d with
    | nil => rfl
    | cons e t => cases h
  | case2 d r h ih =>
    rw [dclear]
    split
    · rename_i h'; rw [h] at h'; cases h'
    · rename_i r' h'; rw [h] at h'; cases h'; exact ih

theorem nodup_dupdate {d : VDict} (hn : (dkeys d).Nodup) (other : VDict) : (dkeys (dupdate d other)).Nodup := by
  induction other generalizing d with
  | nil => exact hn
  | cons e t ih => exact ih (nodup_dset hn _ _)

theorem nodup_ddel {d : VDict} (hn : (dkeys d).Nodup) (k : Str) : (dkeys (ddel d k)).Nodup :=
  hn.sublist (List.filter_sublist.map _)

/-- C102: every operation that changes the object does what `Does` says, or fails as `Fails` says and changes nothing; the class stays,
keys stay unique, and nothing is checked (there is no warning, whatever the values are). -/
theorem C102_changes (p : Params) (hn : (dkeys p.data).Nodup) (op : DictOp) :
    (∀ out p', op.onParams p = (.ok out, p') ↔ p'.cls = p.cls ∧ Does p.data op out p'.data) ∧
    (∀ e p', op.onParams p = (.error e, p') ↔ p' = p ∧ Fails p.data op e) ∧
    (dkeys (op.onParams p).2.data).Nodup := by
  obtain ⟨c, d⟩ := p
  have key : (∀ out d', op.run d = (.ok out, d') ↔ Does d op out d') ∧ (∀ e d', op.run d = (.error e, d') ↔ d' = d ∧ Fails d op e) ∧
      (dkeys (op.run d).2).Nodup := by
    have hk : ∀ k, dget d k = none ↔ k ∉ d.map Prod.fst := fun k => dget_eq_none_iff
    cases op with
    | setItem k v =>
      refine ⟨fun out d' => ?_, fun e d' => ?_, nodup_dset hn k v⟩
      · simp only [DictOp.run, Prod.mk.injEq, Except.ok.injEq]
        constructor
        · rintro ⟨rfl, rfl⟩; exact .setItem ((put_iff hn).2 rfl)
        · intro h; cases h with | setItem h => exact ⟨rfl, ((put_iff hn).1 h).symm⟩
      · simp only [DictOp.run, Prod.mk.injEq, reduceCtorEq, false_and, false_iff]
        rintro ⟨_, h⟩; cases h
    | delItem k =>
      unfold DictOp.run; dsimp only
      cases hg : dget d k with
      | none =>
        rw [if_neg (by simp [dhas, hg])]
        refine ⟨fun out d' => ?_, fun e d' => ?_, hn⟩
        · simp only [Prod.mk.injEq, reduceCtorEq, false_and, false_iff]
          intro h
          cases h with
          | delItem h => rw [((take_iff hn).1 h).1] at hg; cases hg
        · simp only [Prod.mk.injEq, Except.error.injEq]
          constructor
          · rintro ⟨rfl, rfl⟩; exact ⟨rfl, .delItem ((hk k).1 hg)⟩
          · rintro ⟨rfl, h⟩; cases h; exact ⟨rfl, rfl⟩
      | some v =>
        rw [if_pos (by simp [dhas, hg])]
        refine ⟨fun out d' => ?_, fun e d' => ?_, nodup_ddel hn k⟩
        · simp only [Prod.mk.injEq, Except.ok.injEq]
          constructor
          · rintro ⟨rfl, rfl⟩; exact .delItem ((take_iff hn).2 ⟨hg, rfl⟩)
          · intro h; cases h with | delItem h => exact ⟨rfl, ((take_iff hn).1 h).2.symm⟩
        · simp only [Prod.mk.injEq, reduceCtorEq, false_and, false_iff]
          rintro ⟨_, h⟩
          cases h with
          | delItem h => rw [(hk k).2 h] at hg; cases hg
    | pop k w =>
      unfold DictOp.run; dsimp only
      cases hg : dget d k with
      | some v =>
        refine ⟨fun out d' => ?_, fun e d' => ?_, nodup_ddel hn k⟩
        · simp only [Prod.mk.injEq, Except.ok.injEq]
          constructor
          · rintro ⟨rfl, rfl⟩; exact .pop ((take_iff hn).2 ⟨hg, rfl⟩)
          · intro h
            cases h with
            | pop h =>
              have := (take_iff hn).1 h
              rw [hg] at this
              exact ⟨by rw [Option.some.inj this.1], this.2.symm⟩
            | popDefault h => rw [(hk k).2 h] at hg; cases hg
        · simp only [Prod.mk.injEq, reduceCtorEq, false_and, false_iff]
          rintro ⟨_, h⟩
          cases h with
          | pop h => rw [(hk k).2 h] at hg; cases hg
      | none =>
        cases w with
        | some w =>
          refine ⟨fun out d' => ?_, fun e d' => ?_, hn⟩
          · simp only [Prod.mk.injEq, Except.ok.injEq]
            constructor
            · rintro ⟨rfl, rfl⟩; exact .popDefault ((hk k).1 hg)
            · intro h
              cases h with
              | pop h => rw [((take_iff hn).1 h).1] at hg; cases hg
              | popDefault h => exact ⟨rfl, rfl⟩
          · simp only [Prod.mk.injEq, reduceCtorEq, false_and, false_iff]
            rintro ⟨_, h⟩; cases h
        | none =>
          refine ⟨fun out d' => ?_, fun e d' => ?_, hn⟩
          · simp only [Prod.mk.injEq, reduceCtorEq, false_and, false_iff]
            intro h
            cases h with
            | pop h => rw [((take_iff hn).1 h).1] at hg; cases hg
          · simp only [Prod.mk.injEq, Except.error.injEq]
            constructor
            · rintro ⟨rfl, rfl⟩; exact ⟨rfl, .pop ((hk k).1 hg)⟩
            · rintro ⟨rfl, h⟩; cases h; exact ⟨rfl, rfl⟩
    | popItem =>
      unfold DictOp.run; dsimp only
      cases d with
      | nil =>
        refine ⟨fun out d' => ?_, fun e d' => ?_, hn⟩
        · simp only [dpopItem, Prod.mk.injEq, reduceCtorEq, false_and, false_iff]
          intro h; cases h
        · simp only [dpopItem, Prod.mk.injEq, Except.error.injEq]
          constructor
          · rintro ⟨rfl, rfl⟩; exact ⟨rfl, .popItem rfl⟩
          · rintro ⟨rfl, h⟩; cases h; exact ⟨rfl, rfl⟩
      | cons e t =>
        obtain ⟨k, v⟩ := e
        have hd : ddel ((k, v) :: t) k = t := ddel_split (a := []) hn
        simp only [dpopItem, hd]
        refine ⟨fun out d' => ?_, fun e d' => ?_, (List.nodup_cons.1 hn).2⟩
        · simp only [Prod.mk.injEq, Except.ok.injEq]
          constructor
          · rintro ⟨rfl, rfl⟩; exact .popItem
          · intro h; cases h; exact ⟨rfl, rfl⟩
        · simp only [Prod.mk.injEq, reduceCtorEq, false_and, false_iff]
          rintro ⟨_, h⟩
          cases h with
          | popItem h => cases h
    | clear =>
      unfold DictOp.run; dsimp only
      rw [dclear_nil]
      refine ⟨fun out d' => ?_, fun e d' => ?_, by simp [dkeys]⟩
      · simp only [Prod.mk.injEq, Except.ok.injEq]
        constructor
        · rintro ⟨rfl, rfl⟩; exact .clear
        · intro h; cases h; exact ⟨rfl, rfl⟩
      · simp only [Prod.mk.injEq, reduceCtorEq, false_and, false_iff]
        rintro ⟨_, h⟩; cases h
    | update other =>
      refine ⟨fun out d' => ?_, fun e d' => ?_, nodup_dupdate hn other⟩
      · simp only [DictOp.run, Prod.mk.injEq, Except.ok.injEq]
        constructor
        · rintro ⟨rfl, rfl⟩; exact .update ((puts_iff hn).2 rfl)
        · intro h; cases h with | update h => exact ⟨rfl, ((puts_iff hn).1 h).symm⟩
      · simp only [DictOp.run, Prod.mk.injEq, reduceCtorEq, false_and, false_iff]
        rintro ⟨_, h⟩; cases h
    | setDefault k v =>
      unfold DictOp.run; dsimp only
      cases hg : dget d k with
      | some u =>
        refine ⟨fun out d' => ?_, fun e d' => ?_, hn⟩
        · simp only [Prod.mk.injEq, Except.ok.injEq]
          constructor
          · rintro ⟨rfl, rfl⟩; exact .present (dget_mem hg)
          · intro h
            cases h with
            | present h => rw [dget_of_mem hn h] at hg; cases hg; exact ⟨rfl, rfl⟩
            | absent h => rw [(hk k).2 h] at hg; cases hg
        · simp only [Prod.mk.injEq, reduceCtorEq, false_and, false_iff]
          rintro ⟨_, h⟩; cases h
      | none =>
        have hs : dset d k v = d ++ [(k, v)] := ((put_iff hn).1 (.inr ⟨(hk k).1 hg, rfl⟩)).symm
        refine ⟨fun out d' => ?_, fun e d' => ?_, nodup_dset hn k v⟩
        · simp only [hs, Prod.mk.injEq, Except.ok.injEq]
          constructor
          · rintro ⟨rfl, rfl⟩; exact .absent ((hk k).1 hg)
          · intro h
            cases h with
            | present h => rw [dget_of_mem hn h] at hg; cases hg
            | absent h => exact ⟨rfl, rfl⟩
        · simp only [Prod.mk.injEq, reduceCtorEq, false_and, false_iff]
          rintro ⟨_, h⟩; cases h
  obtain ⟨k1, k2, k3⟩ := key
  refine ⟨fun out p' => ?_, fun e p' => ?_, k3⟩
  · obtain ⟨c', d'⟩ := p'
    rw [← k1]
    simp only [DictOp.onParams, Prod.ext_iff, Params.mk.injEq]
    constructor
    · rintro ⟨h1, h2, h3⟩; exact ⟨h2.symm, h1, h3⟩
    · rintro ⟨h1, h2, h3⟩; exact ⟨h2, h1.symm, h3⟩
  · obtain ⟨c', d'⟩ := p'
    have := k2 e d'
    simp only [DictOp.onParams, Prod.ext_iff, Params.mk.injEq] at this ⊢
    constructor
    · rintro ⟨h1, h2, h3⟩
      exact ⟨⟨h2.symm, (this.1 ⟨h1, h3⟩).1⟩, (this.1 ⟨h1, h3⟩).2⟩
    · rintro ⟨⟨h1, h2⟩, h3⟩
      exact ⟨(this.2 ⟨h2, h3⟩).1, h1.symm, (this.2 ⟨h2, h3⟩).2⟩

/-- `p | other` and `other | p` are new objects of the same class, with the entries of both, those of the right one in case of doubt; they
are checked anew: they exist whatever the values are, with exactly the warnings for what is wrong with the combined entries.  (Classes
of keys; for certificates see `C102_certificates`.) -/
theorem C102_combine (ext : Ext) (kind : Kind) (t : Str) (c : Cls) (fmt : FDict) (hc : paramsClass kind (.str t) = .ok c)
    (hf : fieldsOf kind t = some fmt) (hcert : isCertType t = false) (d other d' : VDict) :
    ((dkeys d).Nodup → Puts d other d' → (DictNew.run ext ⟨c, d⟩ (.or other)).res = .ok ⟨c, d'⟩ ∧
      ∀ v, v ∈ (DictNew.run ext ⟨c, d⟩ (.or other)).log ↔ ∃ w, v = .warn w ∧ (FieldFault fmt d' w ∨ MaterialFault ext kind t d' w)) ∧
    ((dkeys other).Nodup → Puts other d d' → (DictNew.run ext ⟨c, d⟩ (.ror other)).res = .ok ⟨c, d'⟩ ∧
      ∀ v, v ∈ (DictNew.run ext ⟨c, d⟩ (.ror other)).log ↔ ∃ w, v = .warn w ∧ (FieldFault fmt d' w ∨ MaterialFault ext kind t d' w)) := by
  constructor
  · intro hn h
    rw [(puts_iff hn).1 h]
    exact C71_checks ext kind t c _ fmt hc hf hcert
  · intro hn h
    rw [(puts_iff hn).1 h]
    exact C71_checks ext kind t c _ fmt hc hf hcert

/-- The same for certificates, if the new object exists (C53 says when it does not). -/
theorem C102_certificates (ext : Ext) (t : Str) (c : Cls) (fmt : FDict) (hc : paramsClass .pub (.str t) = .ok c)
    (hf : publicFields t = some fmt) (hcert : isCertType t = true) (d other d' : VDict) (hn : (dkeys d).Nodup) (h : Puts d other d')
    (prm : Params) (hr : (DictNew.run ext ⟨c, d⟩ (.or other)).res = .ok prm) : prm = ⟨c, d'⟩ ∧
      ∀ v, v ∈ (DictNew.run ext ⟨c, d⟩ (.or other)).log ↔
        (∃ w, v = .warn w ∧ (FieldFault fmt d' w ∨ MaterialFault ext .pub t d' w)) ∨ CertFault ext d' v := by
  rw [(puts_iff hn).1 h]
  exact C71_certificate_checks ext t c _ fmt prm hc hf hcert hr

/-- Which entries they have. -/
theorem C102_entries {d other d' : VDict} (hn : (dkeys d).Nodup) (ho : (dkeys other).Nodup) (h : Puts d other d') (k : Str) :
    dget d' k = (dget other k).or (dget d k) := by
  rw [(puts_iff hn).1 h]
  clear h
  induction other generalizing d with
  | nil => simp [dupdate]
  | cons e t ih =>
    obtain ⟨x, v⟩ := e
    rw [dkeys_cons, List.nodup_cons] at ho
    show dget (dupdate (dset d x v) t) k = _
    rw [ih (nodup_dset hn x v) ho.2, dget_dset, dget_cons]
    by_cases hx : x = k
    · subst hx
      rw [if_pos rfl, if_pos rfl, dget_eq_none_iff.2 ho.1]; rfl
    · rw [if_neg hx, if_neg hx]

theorem dupdate_nil_self {d : VDict} (hn : (dkeys d).Nodup) : dupdate [] d = d := by
  have aux : ∀ (t a : VDict), (dkeys (a ++ t)).Nodup → dupdate a t = a ++ t := by
    intro t
    induction t with
    | nil => intro a _; simp [dupdate]
    | cons e t ih =>
      intro a h
      obtain ⟨k, v⟩ := e
      have ha : k ∉ dkeys a := by
        intro hk
        simp only [dkeys, List.map_append, List.map_cons] at h
        exact (List.nodup_append.1 h).2.2 k hk k (by simp) rfl
      have hn' : (dkeys a).Nodup := by
        simp only [dkeys, List.map_append] at h
        exact (List.nodup_append.1 h).1
      show dupdate (dset a k v) t = _
      rw [← (put_iff hn').1 (.inr ⟨ha, rfl⟩), ih _ (by simpa using h)]
      simp
  exact aux d [] hn

/-- `copy` and `copy.copy` give an object with the same class and the same entries, in the same order, unchecked; `fromkeys` never works. -/
theorem C102_copies (ext : Ext) (p : Params) (hn : (dkeys p.data).Nodup) :
    DictNew.run ext p .copy = ⟨[], .ok p⟩ ∧ DictNew.run ext p .shallow = ⟨[], .ok p⟩ ∧
    ∀ ks v, DictNew.run ext p (.fromKeys ks v) = ⟨[], .error .typeError⟩ := by
  refine ⟨?_, rfl, fun _ _ => rfl⟩
  show (⟨[], .ok ⟨p.cls, dupdate [] p.data⟩⟩ : Eff Params) = _
  rw [dupdate_nil_self hn]

/-- A value of the wrong class is put into the parameters of a key, and taken out again: there is no warning, also in a copy; combining with
the empty dictionary warns. -/
example : ∃ p : Params, (dkeys p.data).Nodup ∧ paramsClass .pub (.str (py! "ssh-ed25519")) = .ok p.cls ∧
    (DictNew.run exExt p (.or [])).log = [] ∧
    (let q := (DictOp.onParams p (.setItem (py! "public") (.str [0x61]))).2
     (DictNew.run exExt q .copy).log = [] ∧ (DictNew.run exExt q (.or [])).log = [.warn (.shouldBeOfClass (py! "public"))] ∧
     (DictOp.onParams q (.pop (py! "public") none)) = (.ok (.value (.str [0x61])), ⟨p.cls, []⟩) ∧
     (DictOp.onParams ⟨p.cls, []⟩ (.pop (py! "public") none)).1.toOption = none) := by
  refine ⟨⟨.ed25519Pub, [(py! "public", .bytes (List.replicate 32 7))]⟩, by decide, rfl, ?_⟩
  decide +kernel

/-- Updating puts new entries at the end and changes the others in their places; `popitem` takes the first. -/
example : DictOp.run [(py! "a", .int 1), (py! "b", .int 2)] (.update [(py! "c", .int 3), (py! "a", .int 4)]) =
      (.ok .nothing, [(py! "a", .int 4), (py! "b", .int 2), (py! "c", .int 3)]) ∧
    (DictOp.run [(py! "a", .int 4), (py! "b", .int 2)] .popItem).2 = [(py! "b", .int 2)] := by
  exact ⟨rfl, rfl⟩

end OSK
