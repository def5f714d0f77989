import Verif.Spec.Strict
import Verif.Props.Filtered
import Verif.Props.FileGrammar
/-
Property C98: what is read if every warning is raised.
-/
namespace OSK
open Spec

theorem encodesAll_dget {fmt : FDict} {w : Bytes} {d : VDict} (h : EncodesAll fmt w d) {k : Str} {fi : FI}
    (hk : dget fmt k = some fi) : ∃ w' v, Encodes fi w' v ∧ dget d k = some v := by
  induction h with
  | nil => cases hk
  | @cons k' fi' t w w' v d he ht ih =>
    unfold dget at hk ⊢
    split at hk
    · rename_i hkk
      cases hk
      exact ⟨w, v, he, by simp [hkk]⟩
    · rename_i hkk
      obtain ⟨w'', v', h1, h2⟩ := ih hk
      exact ⟨w'', v', h1, by simp [hkk, h2]⟩

theorem encodesAll_bytes {fmt : FDict} {w : Bytes} {d : VDict} (h : EncodesAll fmt w d) {k : Str}
    (hk : dget fmt k = some (.pascal .bytes)) : ∃ b, dget d k = some (.bytes b) := by
  obtain ⟨w', v, he, hv⟩ := encodesAll_dget h hk
  generalize hfi : FI.pascal .bytes = fi at he
  cases he <;> cases hfi
  exact ⟨_, hv⟩

theorem strict_fields : ∀ e ∈ keyTable, ∀ f ∈ e.2.1 :: e.2.2.toList,
    (∀ c ∈ curveTable, e.1 = c.1 → dget f (py! "identifier") = some (.pascal .string) ∧ dget f (py! "q") = some (.pascal .bytes)) ∧
    (e.1 ∈ ed25519Table → dget f (py! "public") = some (.pascal .bytes)) ∧
    (isCertType e.1 = true → (dget f (py! "type")).isSome ∧
      ∀ n ∈ [py! "valid_principals", py! "critical_options", py! "extensions", py! "signature_key"],
        dget f n = some (.pascal .bytes)) := by decide +kernel

theorem strict_private_fields : ∀ e ∈ keyTable, e.1 = py! "ssh-ed25519" → ∀ f ∈ e.2.2,
    dget f (py! "private_public") = some (.pascal .bytes) := by decide +kernel

theorem fieldsOf_row {kind : Kind} {t : Str} {f : FDict} (h : fieldsOf kind t = some f) :
    ∃ e ∈ keyTable, e.1 = t ∧ f ∈ e.2.1 :: e.2.2.toList ∧ (kind = .priv → f ∈ e.2.2) := by
  cases kind with
  | pub =>
    obtain ⟨r, hr, rfl⟩ := Option.map_eq_some_iff.1 (show (dget keyTable t).map _ = _ from h)
    exact ⟨_, dget_mem hr, rfl, List.mem_cons_self, by simp⟩
  | priv =>
    obtain ⟨r, hr, hf⟩ := Option.bind_eq_some_iff.1 (show (dget keyTable t).bind _ = _ from h)
    refine ⟨_, dget_mem hr, rfl, List.mem_cons_of_mem _ ?_, fun _ => hf⟩
    simpa using hf

theorem material_iff {ext : Ext} {kind : Kind} {b : Bytes} {t : Str} {p f : VDict} {rest : Bytes}
    (h : KeyIn kind b t p f rest) : MaterialInOrder ext kind t p ↔ ∀ w, ¬ MaterialFault ext kind t p w := by
  obtain ⟨fmt, wt, wp, wf, hf, -, hp, -, -⟩ := h.layout
  obtain ⟨e, he, rfl, hfm, hpriv⟩ := fieldsOf_row hf
  obtain ⟨h1, h2, -⟩ := strict_fields e he fmt hfm
  constructor
  · intro hm w hw
    cases hw with
    | curve a b c => rw [(hm.curve _ _ a).1] at b; cases b; exact c rfl
    | point a b c d =>
      obtain ⟨q, hq, hv⟩ := (hm.curve _ _ a).2
      rw [hq] at c; cases c
      rw [hv] at d; cases d
    | edLength a b c =>
      obtain ⟨x, hx, hl⟩ := hm.ed25519 a
      rw [hx] at b; cases b
      exact c hl
    | edMismatch a b c d g =>
      obtain ⟨s, x, hs, hx, hpp, hpub⟩ := hm.secret a b
      rw [hpub] at c; cases c
      rw [hpp] at d; cases d
      exact g (by rw [← hs, List.drop_left])
    | edPrivate a b c d g =>
      obtain ⟨s, x, hs, hx, hpp, hpub⟩ := hm.secret a b
      rw [hpub] at c; cases c
      rw [hpp] at d; cases d
      exact g (by rw [← hs, List.drop_left, hx, hs])
  · intro hn
    refine ⟨fun name oid hc => ?_, fun ht => ?_, fun hk ht => ?_⟩
    · obtain ⟨hi, hq⟩ := h1 _ hc rfl
      obtain ⟨-, v, -, hv⟩ := encodesAll_dget hp hi
      obtain ⟨q, hq⟩ := encodesAll_bytes hp hq
      have hvn : v = .str name := by
        by_contra hne
        exact hn _ (.curve hc hv hne)
      subst hvn
      refine ⟨hv, q, hq, ?_⟩
      cases hvp : ext.validPoint oid q
      · exact absurd (MaterialFault.point hc hv hq hvp) (hn _)
      · rfl
    · obtain ⟨x, hx⟩ := encodesAll_bytes hp (h2 ht)
      refine ⟨x, hx, ?_⟩
      by_contra hne
      exact hn _ (.edLength ht hx hne)
    · obtain ⟨x, hx⟩ := encodesAll_bytes hp (h2 (by rw [ht]; decide))
      obtain ⟨pp, hpp⟩ := encodesAll_bytes hp (strict_private_fields e he ht fmt (hpriv hk))
      have e1 : pp.drop 32 = x := by
        by_contra hne
        exact hn _ (.edMismatch hk ht hx hpp hne)
      have e2 : (pp.drop 32).length = 32 := by
        by_contra hne
        exact hn _ (.edPrivate hk ht hx hpp hne)
      refine ⟨pp.take 32, x, ?_, by rw [← e1, e2], ?_, hx⟩
      · rw [List.length_drop] at e2
        rw [List.length_take]
        omega
      · rw [← e1, List.take_append_drop]; exact hpp

/-- The warnings of reading a key that is laid out as one. -/
theorem fromBytes_quiet {ext : Ext} {kind : Kind} {b : Bytes} {clear : Option VDict} {t : Str} {p f : VDict} {rest : Bytes}
    (hcl : dget (clear.getD []) (py! "remainder") = none) (h : KeyIn kind b t p f rest) (hacc : Acceptable t p) :
    (∀ v, v ∉ (fromBytes ext kind b clear).log) ↔
      MaterialInOrder ext kind t p ∧ (isCertType t = true → ∀ v, ¬ CertFault ext p v) ∧ rest = [] := by
  obtain ⟨c, hc, hr⟩ := ((fromBytes_outcome ext b.length kind b clear (Nat.le_refl _)).2 t p f rest h).1 hacc
  obtain ⟨t', ht', hl⟩ := C72_parse_warnings ext kind b clear _ hr hcl
  have : t = t' := by simpa [dget] using ht'
  subst this
  simp only [hl, material_iff h, not_or, not_and]
  constructor
  · intro hh
    refine ⟨fun w hw => (hh (.warn w)).1 ⟨w, rfl, hw⟩, fun hct v hv => (hh v).2.1 hct hv, ?_⟩
    by_contra hne
    have := (hh (.warn .excessBytes)).2.2 rfl
    rw [if_neg hne, dget_dset_self] at this
    exact this rfl
  · rintro ⟨h1, h2, rfl⟩ v
    refine ⟨fun ⟨w, _, hw⟩ => h1 w hw, fun hct hv => h2 hct v hv, fun _ hx => ?_⟩
    rw [if_pos rfl, hcl] at hx
    cases hx

theorem record_fmt {e : Str × FDict} (he : e ∈ recordFields) : wireFmt e.2 = true ∧ NonEmptyRecord e.2 := by
  simp only [recordFields, List.mem_cons, List.not_mem_nil, or_false] at he
  rcases he with rfl | rfl | rfl
  · exact ⟨rfl, nonEmpty_principal⟩
  · exact ⟨rfl, nonEmpty_option⟩
  · exact ⟨rfl, nonEmpty_option⟩

theorem certInOrder_iff {ext : Ext} {kind : Kind} {b : Bytes} {t : Str} {p f : VDict} {rest : Bytes}
    (h : KeyIn kind b t p f rest) (ht : isCertType t = true) :
    CertInOrder ext p ↔ Acceptable t p ∧ ∀ v, ¬ CertFault ext p v := by
  obtain ⟨fmt, wt, wp, wf, hf, -, hp, -, -⟩ := h.layout
  obtain ⟨e, he, rfl, hfm, -⟩ := fieldsOf_row hf
  obtain ⟨-, -, h3⟩ := strict_fields e he fmt hfm
  obtain ⟨htype, hbytes⟩ := h3 ht
  constructor
  · intro hc
    obtain ⟨a, t', p', ha, hka, hta, hma⟩ := hc.authority
    have hacc' : Acceptable t' p' := fun hx => by rw [hta] at hx; cases hx
    have hlist : ∀ x ∈ recordFields, ∀ b, dget p x.1 = some (.bytes b) → ∃ l, (readRepeatedly x.2 (Stream.of b)).1 = .ok l ∧
        (x.1 ≠ py! "valid_principals" → NoneTwice l) := by
      intro x hx b hb
      obtain ⟨b', l, r, h1, h2, h3, h4⟩ := hc.lists x hx
      rw [hb] at h1; cases h1
      exact ⟨l, ((C74_lists x.1 x.2 hx b).1 l).2 ⟨r, h2, h3⟩, h4⟩
    refine ⟨fun _ => ⟨?_, ?_⟩, fun v hv => ?_⟩
    · rintro ⟨x, hx, b, l, r, h1, h2, h3⟩
      obtain ⟨l', hl', -⟩ := hlist x hx b h1
      rw [(C74_lists x.1 x.2 hx b).2.2.2 ⟨l, r, h2, h3⟩] at hl'
      cases hl'
    · intro a' ha' hu
      rw [ha] at ha'; cases ha'
      obtain ⟨m, hm⟩ := fromBytes_unknown (ext := ext) (clear := none) hu
      obtain ⟨c, -, hr⟩ := ((fromBytes_outcome ext a.length .pub a none (Nat.le_refl _)).2 t' p' [] [] hka).1 hacc'
      rw [hr] at hm; cases hm
    · rw [C74_certificate_faults] at hv
      obtain ⟨c, -, hr⟩ := ((fromBytes_outcome ext a.length .pub a none (Nat.le_refl _)).2 t' p' [] [] hka).1 hacc'
      cases hv with
      | type h1 h2 h3 =>
        rcases hc.type with h | h
        · rw [h] at h1; cases h1; exact h2 rfl
        · rw [h] at h1; cases h1; exact h3 rfl
      | @list name fm w b r l hm hw hb hr' hcut =>
        obtain ⟨l', hl', -⟩ := hlist _ hm b hb
        obtain ⟨e', he', -⟩ := (C74_lists name fm hm b).2.1.2 ⟨l, r, hr', hcut⟩
        rw [he'] at hl'; cases hl'
      | @repeated param o fm b r l hne hm hb hr' hcut hrep =>
        obtain ⟨l', hl', hno⟩ := hlist _ hm b hb
        rw [((C74_lists param fm hm b).1 l).2 ⟨r, hr', hcut⟩] at hl'
        cases hl'
        have h1 := hno hne o
        have h2 : 2 ≤ _ := hrep
        omega
      | inside ha' hv =>
        rw [ha] at ha'; cases ha'
        exact (fromBytes_quiet rfl hka hacc').2 ⟨hma, fun hx => by (rw [hta] at hx; cases hx), rfl⟩ _ hv
      | authorityCert ha' hk' _ hct =>
        rw [ha] at ha'; cases ha'
        obtain ⟨rfl, -⟩ := C74_unambiguous .pub a _ _ _ _ _ _ _ _ hka hk'
        rw [hta] at hct; cases hct
      | authority ha' hno =>
        rw [ha] at ha'; cases ha'
        exact hno ⟨t', p', [], [], hka, hacc'⟩
  · rintro ⟨hacc, hn⟩
    obtain ⟨hnt, hnu⟩ := hacc ht
    have hn' : ∀ v, ¬ CertIssue ext p v := fun v hv => hn v ((C74_certificate_faults ext p v).2 hv)
    refine ⟨?_, ?_, ?_⟩
    · obtain ⟨fi, hfi⟩ := Option.isSome_iff_exists.1 htype
      obtain ⟨-, v, -, hv⟩ := encodesAll_dget hp hfi
      by_contra hne
      simp only [not_or] at hne
      exact hn' _ (.type hv (fun h => hne.1 (h ▸ hv)) (fun h => hne.2 (h ▸ hv)))
    · intro x hx
      obtain ⟨b, hb⟩ := encodesAll_bytes hp (hbytes x.1 (by
        simp only [recordFields, List.mem_cons, List.not_mem_nil, or_false] at hx
        rcases hx with rfl | rfl | rfl <;> decide))
      obtain ⟨l, r, hr, ⟨c, hcut⟩ | hcut⟩ := records_cases (record_fmt hx).1 (record_fmt hx).2 b
      · cases c with
        | false =>
          obtain ⟨w, hw⟩ : ∃ w, (x.1, w) ∈ listWarning := by
            simp only [recordFields, List.mem_cons, List.not_mem_nil, or_false] at hx
            rcases hx with rfl | rfl | rfl
            · exact ⟨_, List.mem_cons_self⟩
            · exact ⟨_, List.mem_cons_of_mem _ List.mem_cons_self⟩
            · exact ⟨_, List.mem_cons_of_mem _ (List.mem_cons_of_mem _ List.mem_cons_self)⟩
          exact absurd (CertIssue.list (fmt := x.2) hx hw hb hr hcut) (hn' _)
        | true =>
          refine ⟨b, l, r, hb, hr, hcut, fun hne o => ?_⟩
          by_contra hgt
          exact hn' _ (.repeated (o := o) hne hx hb hr hcut (show 2 ≤ _ by omega))
      · exact absurd ⟨x, hx, b, l, r, hb, hr, hcut⟩ hnt
    · obtain ⟨a, ha⟩ := encodesAll_bytes hp (hbytes (py! "signature_key") (by decide))
      by_cases hk : ∃ t p f rest, KeyIn .pub a t p f rest ∧ Acceptable t p
      · obtain ⟨t', p', f', rest', hk, hacc'⟩ := hk
        have hq := (fromBytes_quiet (ext := ext) (clear := none) rfl hk hacc').1 (fun v hv => hn' v (.inside ha hv))
        obtain ⟨hm, -, rfl⟩ := hq
        have hf' : f' = [] := by
          obtain ⟨_, _, _, _, -, -, -, hwf, -⟩ := hk.layout
          cases hwf; rfl
        subst hf'
        refine ⟨a, t', p', ha, hk, ?_, hm⟩
        cases hct : isCertType t'
        · rfl
        · exact absurd (CertIssue.authorityCert ha hk hacc' hct) (hn' _)
      · exact absurd (CertIssue.authority ha hk) (hn' _)

/-- **C98.**  If every warning is raised, exactly those bytes are read as a key that are a key in order, with nothing after
it; a certificate's lists may still end in front of a part of a record. -/
theorem C98_keys_partial (ext : Ext) (kind : Kind) (b : Bytes) (clear : Option VDict)
    (hcl : dget (clear.getD []) (py! "remainder") = none) (k : Key) :
    (@Filtered.fromBytes exStrict ext kind b clear).res = .ok k ↔
      ∃ t p f, KeyIn kind b t p f [] ∧ MaterialInOrder ext kind t p ∧ (isCertType t = true → CertInOrder ext p) ∧
        k.kind = kind ∧ k.header = [(py! "key_type", .str t)] ∧ paramsClass kind (.str t) = .ok k.params.cls ∧
        k.params.data = p ∧ k.footer = f ∧ k.clear = clear.getD [] := by
  have hs := (C97_success (F := exStrict)
    ((C97_keys_partial (F := exStrict) ext exLib exGen).2.1 kind b clear) k).1
  rw [hs]
  have hw : (∀ w, .warn w ∈ (fromBytes ext kind b clear).log → exStrict.raises w = false) ↔
      ∀ w, .warn w ∉ (fromBytes ext kind b clear).log :=
    forall_congr' fun w => ⟨fun h hm => (by cases h hm), fun h hm => absurd hm h⟩
  rw [hw]
  constructor
  · rintro ⟨hr, hq⟩
    obtain ⟨t, p, f, rest, hk, hacc, h1, h2, h3, h4, h5, h6⟩ := (C74_accepts ext kind b clear k).1 hr
    obtain ⟨q1, q2, rfl⟩ := (fromBytes_quiet hcl hk hacc).1 (fun v hv => by
      cases v with
      | warn w => exact hq w hv
      | prompt => exact (fromBytes_within ext kind b clear).ev _ hv)
    exact ⟨t, p, f, hk, q1, fun ht => (certInOrder_iff hk ht).2 ⟨hacc, q2 ht⟩, h1, h2, h3, h4, h5, by rw [h6, if_pos rfl]⟩
  · rintro ⟨t, p, f, hk, q1, q2, h1, h2, h3, h4, h5, h6⟩
    have hacc : Acceptable t p := fun ht => ((certInOrder_iff hk ht).1 (q2 ht)).1 ht
    exact ⟨(C74_accepts ext kind b clear k).2 ⟨t, p, f, [], hk, hacc, h1, h2, h3, h4, h5, by rw [h6, if_pos rfl]⟩,
      fun w hm => (fromBytes_quiet hcl hk hacc).2 ⟨q1, fun ht => ((certInOrder_iff hk ht).1 (q2 ht)).2, rfl⟩ _ hm⟩

/-- **C98** (lines).  If every warning is raised, a line is read exactly if its second word is base64 text of a key that is read,
and its first word is the type of that key. -/
theorem C98_lines_partial (ext : Ext) (kind : Kind) (s : Str) (k : Key) :
    (@Filtered.fromString exStrict ext kind s).res = .ok k ↔
      ∃ a w c b, Words s a w c ∧ TextReads w b ∧
        (@Filtered.fromBytes exStrict ext kind b (some (lineClear a c []))).res = .ok k ∧
        k.header = [(py! "key_type", .str a)] := by
  have hs := (C97_success (F := exStrict)
    ((C97_keys_partial (F := exStrict) ext exLib exGen).2.2.1 kind s) k).1
  rw [hs]
  have hw : ∀ x : Eff Key, (∀ w, .warn w ∈ x.log → exStrict.raises w = false) ↔ ∀ w, .warn w ∉ x.log :=
    fun x => forall_congr' fun w => ⟨fun h hm => (by cases h hm), fun h hm => absurd hm h⟩
  have hb' : ∀ b clear, (@Filtered.fromBytes exStrict ext kind b clear).res = .ok k ↔
      (fromBytes ext kind b clear).res = .ok k ∧ ∀ w, .warn w ∉ (fromBytes ext kind b clear).log := fun b clear => by
    rw [(C97_success (F := exStrict) ((C97_keys_partial (F := exStrict) ext exLib exGen).2.1 kind b clear) k).1, hw]
  simp only [hw, hb']
  have tail : ∀ a w c b, b64decodeStr w = .ok b → (fromBytes ext kind b (some (lineClear a c []))).res = .ok k →
      ∃ t, k.header = [(py! "key_type", .str t)] ∧ (fromStringTail ext kind a w c).log =
        (fromBytes ext kind b (some (lineClear a c []))).log ++ (if t = a then [] else [.warn .clearTypeMismatch]) := by
    intro a w c b hb hr
    obtain ⟨t, p, f, rest, hk, -, -, hh, -⟩ := (C74_accepts ext kind b _ k).1 hr
    refine ⟨t, hh, ?_⟩
    unfold fromStringTail
    rw [hb, Eff.lift_ok_bind]
    have hg : getItem k.header (py! "key_type") = .ok (.str t) := by rw [hh]; rfl
    rw [Eff.bind_ok (show (fromBytes ext kind b (some [(py! "key_type", .str a), (py! "comment", .str c)])).res = .ok k from hr), hg,
      Eff.lift_ok_bind]
    by_cases hta : t = a
    · subst hta; simp [lineClear]
    · have : Val.str t ≠ Val.str a := fun h => hta (by cases h; rfl)
      simp [lineClear, hta, this, Eff.warn]
  constructor
  · rintro ⟨hr, hq⟩
    rcases words_cases ext kind s with ⟨-, e⟩ | ⟨a, w, c, hw, e⟩
    · rw [e] at hr; cases hr
    · rw [e] at hr hq
      rcases hb : b64decodeStr w with x | b
      · unfold fromStringTail at hr
        rw [hb] at hr; cases hr
      · rw [tail_res hb] at hr
        obtain ⟨t, hh, hl⟩ := tail a w c b hb hr
        rw [hl] at hq
        have hta : t = a := by
          by_contra hne
          rw [if_neg hne] at hq
          exact hq _ (List.mem_append_right _ List.mem_cons_self)
        subst hta
        exact ⟨t, w, c, b, hw, textReads_iff.1 hb, ⟨hr, fun v hv => hq v (List.mem_append_left _ hv)⟩, hh⟩
  · rintro ⟨a, w, c, b, hw, hb, ⟨hr, hq⟩, hh⟩
    have hb := textReads_iff.2 hb
    obtain ⟨t, hh', hl⟩ := tail a w c b hb hr
    have hta : t = a := by rw [hh] at hh'; cases hh'; rfl
    rw [words_tail hw, tail_res hb]
    refine ⟨hr, fun v hv => ?_⟩
    rw [hl, if_pos hta, List.append_nil] at hv
    exact hq v hv

/-! ### Examples -/

/-- A certificate, with two options, for an RSA key, by an RSA key. -/
def exOrderParams : VDict := dset (exCertParams exRsaWire) (py! "extensions")
  (.bytes [0, 0, 0, 1, 97, 0, 0, 0, 0, 0, 0, 0, 1, 98, 0, 0, 0, 1, 7])
def exOrderWire : Bytes := (packPublicBytes ⟨.pub, exCertHeader, ⟨.certRsa, exOrderParams⟩, [], []⟩).toOption.getD []
/-- The same, but the list of principals is the length of one that is not there. -/
def exLooseParams : VDict := dset exOrderParams (py! "valid_principals") (.bytes [0, 0, 0, 5])
def exLooseWire : Bytes := (packPublicBytes ⟨.pub, exCertHeader, ⟨.certRsa, exLooseParams⟩, [], []⟩).toOption.getD []

theorem exOrder_read : (fromBytes exExt .pub exOrderWire none) =
    ⟨[], .ok ⟨.pub, exCertHeader, ⟨.certRsa, exOrderParams⟩, [], []⟩⟩ :=
  Eff.ext (by decide +kernel) (by decide +kernel)
theorem exLoose_read : (fromBytes exExt .pub exLooseWire none) =
    ⟨[], .ok ⟨.pub, exCertHeader, ⟨.certRsa, exLooseParams⟩, [], []⟩⟩ :=
  Eff.ext (by decide +kernel) (by decide +kernel)

theorem strict_of_quiet {ext : Ext} {kind : Kind} {b : Bytes} {clear : Option VDict} {k : Key}
    (h : fromBytes ext kind b clear = ⟨[], .ok k⟩) : (@Filtered.fromBytes exStrict ext kind b clear).res = .ok k :=
  (C97_success (F := exStrict) ((C97_keys_partial (F := exStrict) ext exLib exGen).2.1 kind b clear) k).1.2
    ⟨by rw [h], by rw [h]; simp⟩

/-- The first one is in order. -/
example : ∃ t p, KeyIn .pub exOrderWire t p [] [] ∧ isCertType t = true ∧ CertInOrder exExt p := by
  obtain ⟨t, p, f, h1, -, h3, -, h5, -, -, h8, -⟩ := (C98_keys_partial exExt .pub exOrderWire none rfl _).1
    (strict_of_quiet exOrder_read)
  cases h5
  subst h8
  exact ⟨_, p, h1, by decide +kernel, h3 (by decide +kernel)⟩

/-- And read from a line, unless the line names another type. -/
example : (@Filtered.fromString exStrict exExt .pub (py! "ssh-rsa AAAAB3NzaC1yc2EAAAABEQAAAAIMoQ== me")).res.toOption.isSome = true ∧
    (@Filtered.fromString exStrict exExt .pub (py! "ssh-dss AAAAB3NzaC1yc2EAAAABEQAAAAIMoQ== me")).res =
      .error (.userWarning .clearTypeMismatch) := by
  refine ⟨by decide +kernel, ?_⟩
  exact congrArg Eff.res (((C97_keys_partial (F := exStrict) exExt exLib exGen).2.2.1 .pub
    (py! "ssh-dss AAAAB3NzaC1yc2EAAAABEQAAAAIMoQ== me")).first [] .clearTypeMismatch [] (by decide +kernel) rfl (by simp))

/-- **C98** with lists that are whole is false: a list of principals may end with the length of a principal that is not there,
and no warning is raised. -/
theorem C98_false : ¬ ∀ (ext : Ext) (b : Bytes) (k : Key), (@Filtered.fromBytes exStrict ext .pub b none).res = .ok k →
    k.params.cls = .certRsa →
    ∀ e ∈ recordFields, ∃ b l, dget k.params.data e.1 = some (.bytes b) ∧ Records e.2 b l [] := by
  intro h
  obtain ⟨b, l, hb, hr⟩ := h exExt exLooseWire _ (strict_of_quiet exLoose_read) rfl
    (py! "valid_principals", [(py! "principal", .pascal .string)]) List.mem_cons_self
  have : b = [0, 0, 0, 5] := by
    have h : dget exLooseParams (py! "valid_principals") = some (.bytes [0, 0, 0, 5]) := by decide +kernel
    rw [h] at hb
    cases hb; rfl
  subst this
  have h1 : (readRepeatedly principalFmt (Stream.of [0, 0, 0, 5])).1.toOption = some [] := by decide +kernel
  have h2 := ((C74_lists (py! "valid_principals") principalFmt (by decide) [0, 0, 0, 5]).1 l).2
    ⟨[], hr, .here (CutOff.length (p := .string) (r := []) (by simp))⟩
  rw [h2] at h1
  cases h1
  generalize hx : ([0, 0, 0, 5] : Bytes) = x at hr
  cases hr
  cases hx

end OSK
