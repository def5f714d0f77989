import Verif.Spec.OpenSSH
import Verif.Props.FileGrammar
/-
Lemmas about the keys that OpenSSH reads.
-/
namespace OSK
open Spec

theorem encodes_unique {fi : FI} {w w' x y : Bytes} {v v' : Val} (h : Encodes fi w v) (h' : Encodes fi w' v')
    (e : w ++ x = w' ++ y) : v = v' ∧ w = w' ∧ x = y := by
  generalize hf : fi = fi' at h'
  cases h with
  | bytes h =>
    cases h' <;> cases hf
    obtain ⟨rfl, a, b⟩ := prefixed_unique h (by assumption) e; exact ⟨rfl, a, b⟩
  | text h =>
    cases h' <;> cases hf
    obtain ⟨c, a, b⟩ := prefixed_unique h (by assumption) e; exact ⟨by rw [utf8_inj c], a, b⟩
  | mpint h =>
    cases h' <;> cases hf
    obtain ⟨rfl, a, b⟩ := prefixed_unique h (by assumption) e; exact ⟨rfl, a, b⟩
  | uint =>
    cases h' with
    | uint =>
      simp only [FI.struct.injEq, SFmt.mk.injEq, List.cons.injEq, SCode.int.injEq, and_true, true_and] at hf
      obtain ⟨rfl, b⟩ := List.append_inj e hf
      exact ⟨rfl, rfl, b⟩
    | _ => cases hf

theorem encodesAll_texts {fmt : FDict} {w : Bytes} {r d : VDict} (h : EncodesAll (withBytes fmt) w r) (ht : Texts fmt r d) :
    EncodesAll fmt w d := by
  induction ht generalizing w with
  | nil => exact h
  | @text k cs t r d _ ih =>
    simp only [withBytes, List.map_cons, if_true] at h
    cases h with
    | cons h1 h2 =>
    cases h1 with
    | bytes h1 => exact .cons (.text h1) (ih h2)
  | @other k fi v t r d hne _ ih =>
    simp only [withBytes, List.map_cons, if_neg hne] at h
    cases h with
    | cons h1 h2 => exact .cons h1 (ih h2)

theorem texts_of {fmt : FDict} {w w' x y : Bytes} {r d : VDict} (h : EncodesAll (withBytes fmt) w r) (h' : EncodesAll fmt w' d)
    (e : w ++ x = w' ++ y) : Texts fmt r d ∧ w = w' ∧ x = y := by
  induction h' generalizing w r with
  | nil =>
    cases h
    exact ⟨.nil, rfl, e⟩
  | @cons k fi t u u' v d h1 h2 ih =>
    by_cases hfi : fi = .pascal .string
    · subst hfi
      simp only [withBytes, List.map_cons, if_true] at h
      cases h with
      | cons g1 g2 =>
      generalize hfi : FI.pascal .bytes = fi at g1
      cases g1 <;> cases hfi
      generalize hfi : FI.pascal .string = fi at h1
      cases h1 <;> cases hfi
      rename_i g1 _ h1
      simp only [List.append_assoc] at e
      obtain ⟨rfl, rfl, e'⟩ := prefixed_unique g1 h1 e
      obtain ⟨a, rfl, c⟩ := ih g2 e'
      exact ⟨.text a, rfl, c⟩
    · simp only [withBytes, List.map_cons, if_neg hfi] at h
      cases h with
      | cons g1 g2 =>
      simp only [List.append_assoc] at e
      obtain ⟨rfl, rfl, e'⟩ := encodes_unique g1 h1 e
      obtain ⟨a, rfl, c⟩ := ih g2 e'
      exact ⟨.other hfi a, rfl, c⟩

/-- The values by name. -/
theorem texts_get {fmt : FDict} {r d : VDict} (h : Texts fmt r d) (n : Str) :
    (dget r n = none ∧ dget d n = none) ∨
    (∃ cs, dget fmt n = some (.pascal .string) ∧ dget r n = some (.bytes (utf8 cs)) ∧ dget d n = some (.str (strOf cs))) ∨
    ∃ fi v, fi ≠ .pascal .string ∧ dget fmt n = some fi ∧ dget r n = some v ∧ dget d n = some v := by
  induction h with
  | nil => exact .inl ⟨rfl, rfl⟩
  | @text k cs t r d _ ih =>
    by_cases hk : k = n
    · subst hk
      exact .inr (.inl ⟨cs, by simp [dget], by simp [dget], by simp [dget]⟩)
    · simp only [dget, if_neg hk]
      exact ih
  | @other k fi v t r d hne _ ih =>
    by_cases hk : k = n
    · subst hk
      exact .inr (.inr ⟨fi, v, hne, by simp [dget], by simp [dget], by simp [dget]⟩)
    · simp only [dget, if_neg hk]
      exact ih

theorem texts_unique {fmt : FDict} {r d d' : VDict} (h : Texts fmt r d) (h' : Texts fmt r d') : d = d' := by
  induction h generalizing d' with
  | nil => cases h'; rfl
  | text _ ih =>
    generalize hr : (_ :: _ : VDict) = x at h'
    cases h' with
    | text h' =>
      simp only [List.cons.injEq, Prod.mk.injEq, Val.bytes.injEq] at hr
      obtain ⟨⟨-, e⟩, rfl⟩ := hr
      rw [utf8_inj e, ih h']
    | other hne => exact absurd rfl hne
  | other hne _ ih =>
    generalize hr : (_ :: _ : VDict) = x at h'
    cases h' with
    | text h' => exact absurd rfl hne
    | other _ h' =>
      cases hr
      rw [ih h']

theorem table_names : ∀ e ∈ keyTable, e.1.getLast? ≠ some 0 ∧ (∀ s ∈ signatureNames, e.1 ≠ s.2) ∧
    ∀ s ∈ shortNames, lowerCase e.1 ≠ s.2 := by decide +kernel

theorem signature_names : ∀ s ∈ signatureNames, s.1 ≠ s.2 := by decide +kernel

theorem fields_row {kind : Kind} {t : Str} {fmt : FDict} (h : fieldsOf kind t = some fmt) : ∃ r, (t, r) ∈ keyTable := by
  cases kind with
  | pub =>
    replace h : publicFields t = some fmt := h
    unfold publicFields at h
    obtain ⟨r, hr, -⟩ := Option.map_eq_some_iff.1 h
    exact ⟨r, dget_mem hr⟩
  | priv =>
    replace h : privateFields t = some fmt := h
    unfold privateFields at h
    obtain ⟨r, hr, -⟩ := Option.bind_eq_some_iff.1 h
    exact ⟨r, dget_mem hr⟩

/-- Of the names that OpenSSH takes, only the name itself is a key type. -/
theorem ssh_name {kind : Kind} {t n raw : Str} {fmt : FDict} (h : SshNames t n) (hc : CName n raw)
    (hf : fieldsOf kind raw = some fmt) : raw = t := by
  obtain ⟨r, hr⟩ := fields_row hf
  obtain ⟨h1, h2, h3⟩ := table_names _ hr
  rcases hc with rfl | rfl
  · cases h with
    | own => rfl
    | signature h => exact absurd rfl (h2 _ h)
    | short h => exact absurd rfl (h3 _ h)
  · simp at h1

theorem curve_names : ∀ e ∈ curveTable, utf8 (e.2.1.map Char.ofNat) = e.2.1.map UInt8.ofNat ∧
    strOf (e.2.1.map Char.ofNat) = e.2.1 := by decide +kernel

theorem utf8_append (a b : List Char) : utf8 (a ++ b) = utf8 a ++ utf8 b := by simp [utf8]

theorem field_kinds : ∀ e ∈ keyTable, ∀ f ∈ e.2.1 :: e.2.2.toList,
    (∀ n ∈ [py! "public", py! "private_public", py! "q"], dget f n ≠ some (.pascal .string)) ∧
    (dget f (py! "identifier") = none ∨ dget f (py! "identifier") = some (.pascal .string)) := by decide +kernel

theorem fields_kinds {kind : Kind} {t : Str} {fmt : FDict} (h : fieldsOf kind t = some fmt) :
    (∀ n ∈ [py! "public", py! "private_public", py! "q"], dget fmt n ≠ some (.pascal .string)) ∧
    (dget fmt (py! "identifier") = none ∨ dget fmt (py! "identifier") = some (.pascal .string)) := by
  cases kind with
  | pub =>
    replace h : publicFields t = some fmt := h
    unfold publicFields at h
    obtain ⟨r, hr, rfl⟩ := Option.map_eq_some_iff.1 h
    exact field_kinds _ (dget_mem hr) _ (by simp)
  | priv =>
    replace h : privateFields t = some fmt := h
    unfold privateFields at h
    obtain ⟨r, hr, h⟩ := Option.bind_eq_some_iff.1 h
    exact field_kinds _ (dget_mem hr) _ (by simp [h])

/-- Such keys have no faults, except that the secret of an Ed25519 key may end with another public key, and that there may be
a zero after the name of the curve. -/
theorem ssh_faults {ext : Ext} {kind : Kind} {t name : Str} {r d : VDict} {w : Bytes} (h : SshValues ext kind t name r w)
    {fmt : FDict} (hf : fieldsOf kind t = some fmt) (ht : Texts fmt r d) {m : Warning} :
    MaterialFault ext kind t d m ↔
      (m = .ed25519PublicMismatch ∧ kind = .priv ∧ t = py! "ssh-ed25519" ∧
        ∃ p s, dget r (py! "public") = some (.bytes p) ∧ dget r (py! "private_public") = some (.bytes s) ∧ s.drop 32 ≠ p) ∨
      (m = .curveIdentifier ∧ ∃ c oid, (t, c, oid) ∈ curveTable ∧
        ∃ b, dget r (py! "identifier") = some (.bytes b) ∧ b.getLast? = some 0) := by
  obtain ⟨hk, hi⟩ := fields_kinds hf
  have plain : ∀ {n}, n ∈ [py! "public", py! "private_public", py! "q"] → dget d n = dget r n := by
    intro n hn
    rcases texts_get ht n with ⟨a, b⟩ | ⟨cs, a, -, -⟩ | ⟨fi, v, -, -, a, b⟩
    · rw [a, b]
    · exact absurd a (hk n hn)
    · rw [a, b]
  have curve : ∀ {c oid}, (t, c, oid) ∈ curveTable → ∃ cs, dget r (py! "identifier") = some (.bytes (utf8 cs)) ∧
      dget d (py! "identifier") = some (.str (strOf cs)) ∧
      ((strOf cs = c ∧ (utf8 cs).getLast? ≠ some 0) ∨ (strOf cs ≠ c ∧ (utf8 cs).getLast? = some 0)) := by
    intro c oid hc
    obtain ⟨⟨b, hb, hz, hb'⟩, -⟩ := h.curve c oid hc
    obtain ⟨h1, h2⟩ := curve_names _ hc
    simp only at h1 h2
    rcases texts_get ht (py! "identifier") with ⟨a, -⟩ | ⟨cs, -, a, a'⟩ | ⟨fi, v, hne, a, -, -⟩
    · rw [a] at hb; cases hb
    · rw [a] at hb
      simp only [Option.some.injEq, Val.bytes.injEq] at hb
      subst hb
      refine ⟨cs, a, a', ?_⟩
      rcases hb' with e | e
      · refine .inl ⟨?_, ?_⟩
        · rw [← h1] at e
          rw [utf8_inj e, h2]
        · rw [e]
          intro hl
          exact hz (List.mem_of_getLast? hl)
      · have e2 : utf8 cs = utf8 (c.map Char.ofNat ++ [Char.ofNat 0]) := by
          rw [e, utf8_append, h1]
          rfl
        refine .inr ⟨?_, by rw [e]; simp⟩
        rw [utf8_inj e2]
        intro e3
        have := congrArg List.length e3
        simp [strOf] at this
    · rcases hi with hi | hi
      · rw [hi] at a; cases a
      · rw [hi] at a; cases a; exact absurd rfl hne
  constructor
  · intro hm
    cases hm with
    | curve e1 e2 e3 =>
      obtain ⟨cs, a, b, ⟨c1, c2⟩ | ⟨c1, c2⟩⟩ := curve e1
      · rw [b] at e2
        cases e2
        rw [c1] at e3
        exact absurd rfl e3
      · exact .inr ⟨rfl, _, _, e1, _, a, c2⟩
    | point e1 e2 e3 e4 =>
      obtain ⟨-, q, hq, hv⟩ := h.curve _ _ e1
      rw [plain (by simp), hq] at e3
      cases e3
      rw [hv] at e4
      cases e4
    | edLength e1 e2 e3 =>
      obtain ⟨p, hp, hv⟩ := h.edPublic e1
      rw [plain (by simp), hp] at e2
      cases e2
      exact absurd hv e3
    | edMismatch e1 e2 e3 e4 e5 =>
      rw [plain (by simp)] at e3 e4
      exact .inl ⟨rfl, e1, e2, _, _, e3, e4, e5⟩
    | edPrivate e1 e2 e3 e4 e5 =>
      obtain ⟨s, hs, hv⟩ := h.edPrivate e1 e2
      rw [plain (by simp), hs] at e4
      cases e4
      simp [hv] at e5
  · rintro (⟨rfl, e1, e2, p, s, e3, e4, e5⟩ | ⟨rfl, c, oid, e1, b, e2, e3⟩)
    · exact .edMismatch e1 e2 (by rw [plain (by simp)]; exact e3) (by rw [plain (by simp)]; exact e4) e5
    · obtain ⟨cs, a, a', ⟨c1, c2⟩ | ⟨c1, c2⟩⟩ := curve e1
      · rw [a] at e2
        cases e2
        exact absurd e3 c2
      · exact .curve e1 a' (by simpa using c1)

/-- Every public field is also a private one. -/
theorem public_in_private : ∀ e ∈ keyTable, ∀ f ∈ e.2.2, ∀ x ∈ e.2.1, x ∈ f := by decide +kernel

theorem curve_fields : ∀ e ∈ keyTable, ∀ c ∈ curveTable, e.1 = c.1 →
    (py! "identifier", FI.pascal .string) ∈ e.2.1 ∧ (py! "q", FI.pascal .bytes) ∈ e.2.1 := by decide +kernel

theorem ed_fields : ∀ e ∈ keyTable, e.1 ∈ ed25519Table → (py! "public", FI.pascal .bytes) ∈ e.2.1 := by decide +kernel

theorem ed_private_fields : ∀ e ∈ keyTable, e.1 = py! "ssh-ed25519" → ∀ f ∈ e.2.2,
    (py! "private_public", FI.pascal .bytes) ∈ f := by decide +kernel

theorem table_row {t : Str} {f g : FDict} (h : privateFields t = some g) (h' : publicFields t = some f) :
    (t, f, some g) ∈ keyTable := by
  unfold privateFields at h
  unfold publicFields at h'
  rcases e : dget keyTable t with _ | ⟨a, b⟩
  · rw [e] at h; cases h
  · rw [e] at h h'
    simp at h h'
    subst h h'
    exact dget_mem e

theorem mem_dkeys {k : Str} {fi : FI} {f : FDict} (h : (k, fi) ∈ f) : k ∈ dkeys f := List.mem_map_of_mem (f := Prod.fst) h

theorem public_row {t : Str} {f : FDict} (h : publicFields t = some f) : ∃ g, (t, f, g) ∈ keyTable := by
  unfold publicFields at h
  obtain ⟨r, hr, rfl⟩ := Option.map_eq_some_iff.1 h
  exact ⟨_, dget_mem hr⟩

theorem public_self : ∀ e ∈ keyTable, ∀ x ∈ e.2.1, dget e.2.1 x.1 = some x.2 := by decide +kernel

theorem table_nodup : ∀ e ∈ keyTable, ∀ f ∈ e.2.1 :: e.2.2.toList, (dkeys f).Nodup := by decide +kernel

theorem fields_nodup {kind : Kind} {t : Str} {fmt : FDict} (h : fieldsOf kind t = some fmt) : (dkeys fmt).Nodup := by
  cases kind with
  | pub =>
    replace h : publicFields t = some fmt := h
    unfold publicFields at h
    obtain ⟨r, hr, rfl⟩ := Option.map_eq_some_iff.1 h
    exact table_nodup _ (dget_mem hr) _ (by simp)
  | priv =>
    replace h : privateFields t = some fmt := h
    unfold privateFields at h
    obtain ⟨r, hr, h⟩ := Option.bind_eq_some_iff.1 h
    exact table_nodup _ (dget_mem hr) _ (by simp [h])

/-- The same, by name. -/
theorem public_lookup : ∀ e ∈ keyTable, ∀ f ∈ e.2.2, ∀ x ∈ e.2.1, dget f x.1 = some x.2 := by decide +kernel

end OSK
