import Verif.Spec.OpenSSHPublic
import Verif.Props.OpenSSH
/-
Property C95: public keys, certificates and public key lines of OpenSSH.
-/
namespace OSK
open Spec

/-! ### Text in fields and records -/

/-- Fields that are complete are also complete with text, or there is text that is not UTF-8. -/
theorem texts_or {fmt : FDict} {w : Bytes} {r : VDict} (h : EncodesAll (withBytes fmt) w r) :
    (∃ d, Texts fmt r d) ∨ ∀ x, FailsAt NotText fmt (w ++ x) := by
  induction fmt generalizing w r with
  | nil =>
    cases h
    exact .inl ⟨[], .nil⟩
  | cons e t ih =>
    obtain ⟨k, fi⟩ := e
    have h : EncodesAll ((k, if fi = .pascal .string then .pascal .bytes else fi) :: withBytes t) w r := h
    cases h with
    | @cons _ _ _ w1 w2 v d h1 h2 =>
    by_cases hfi : fi = .pascal .string
    · subst hfi
      rw [if_pos rfl] at h1
      generalize hfi : FI.pascal .bytes = fi at h1
      cases h1 <;> cases hfi
      rename_i b hb
      by_cases ht : ∃ cs, b = utf8 cs
      · obtain ⟨cs, rfl⟩ := ht
        rcases ih h2 with ⟨d', hd⟩ | hx
        · exact .inl ⟨_, .text hd⟩
        · refine .inr fun x => ?_
          rw [List.append_assoc]
          exact .later (Encodes.text hb) (hx x)
      · refine .inr fun x => ?_
        rw [List.append_assoc]
        exact .here (.mk hb fun cs e => ht ⟨cs, e⟩)
    · rw [if_neg hfi] at h1
      rcases ih h2 with ⟨d', hd⟩ | hx
      · exact .inl ⟨_, .other hfi hd⟩
      · refine .inr fun x => ?_
        rw [List.append_assoc]
        exact .later h1 (hx x)

/-- The same for records. -/
theorem records_or {fmt : FDict} {b : Bytes} {l : List VDict} (h : Records (withBytes fmt) b l []) :
    (∃ l', Records fmt b l' []) ∨ ∃ l' r, Records fmt b l' r ∧ FailsAt NotText fmt r := by
  generalize hr : ([] : Bytes) = r at h
  induction h with
  | done => subst hr; exact .inl ⟨[], .done⟩
  | @more w b d l r h1 _ ih =>
    rcases texts_or h1 with ⟨d', hd⟩ | hx
    · rcases ih hr with ⟨l', hl⟩ | ⟨l', r', hl, hf⟩
      · exact .inl ⟨_, .more (encodesAll_texts h1 hd) hl⟩
      · exact .inr ⟨_, _, .more (encodesAll_texts h1 hd) hl, hf⟩
    · exact .inr ⟨[], _, .done, hx b⟩

/-- A list that is whole is read. -/
theorem records_read {e : Str × FDict} (he : e ∈ recordFields) {b : Bytes} {l : List VDict} (h : Records e.2 b l []) :
    (readRepeatedly e.2 (Stream.of b)).1 = .ok l := by
  refine ((C74_lists e.1 e.2 he b).1 l).2 ⟨[], h, ?_⟩
  simp only [recordFields, List.mem_cons, List.not_mem_nil, or_false] at he
  rcases he with rfl | rfl | rfl <;> exact .here (CutOff.length (r := []) (by decide))

theorem records_not {e : Str × FDict} (he : e ∈ recordFields) {b : Bytes} {l : List VDict} (h : Records e.2 b l []) :
    (¬ ∃ l r, Records e.2 b l r ∧ FailsAt NotText e.2 r) ∧ (¬ ∃ l r, Records e.2 b l r ∧ FailsAt (CutOff false) e.2 r) ∧
    ∀ l' r, Records e.2 b l' r → FailsAt (CutOff true) e.2 r → l' = l := by
  have hr := records_read he h
  obtain ⟨h1, h2, h3⟩ := C74_lists e.1 e.2 he b
  refine ⟨fun hx => ?_, fun hx => ?_, fun l' r hl hf => ?_⟩
  · rw [h3.2 hx] at hr; cases hr
  · obtain ⟨x, hx, -⟩ := h2.2 hx
    rw [hx] at hr; cases hr
  · have := (h1 l').2 ⟨r, hl, hf⟩
    rw [hr] at this
    exact (Except.ok.inj this).symm

/-! ### Keys -/

/-- A zero after the name of the curve. -/
def Spec.ZeroCurve (t : Str) (d : VDict) : Prop := ∃ c oid, (t, c, oid) ∈ curveTable ∧
  ∃ b, dget d (py! "identifier") = some (.bytes b) ∧ b.getLast? = some 0

/-- The texts of a public key are UTF-8. -/
def Spec.TextsIn (t : Str) (d : VDict) : Prop := ∃ fmt p, publicFields t = some fmt ∧ Texts fmt d p

/-- What the package asks for beyond what OpenSSH does: the names of the key type and of the authority's key type are exactly
these; text is UTF-8, also in the lists of a certificate (but not in the authority's key). -/
structure Spec.PublicPlain (key : SshPublicKey) : Prop where
  name : key.name = key.type
  texts : TextsIn key.type key.values
  lists : isCertType key.type = true → ∀ e ∈ recordFields, ∀ b, dget key.values e.1 = some (.bytes b) → ∃ l, Records e.2 b l []
  authority : ∀ au, key.authority = some au → au.name = au.type

theorem ssh_keyIn {ext : Ext} {t : Str} {d p : VDict} {b : Bytes} {fmt : FDict} (h : SshValues ext .pub t t d b)
    (hf : publicFields t = some fmt) (ht : Texts fmt d p) : KeyIn .pub b t p [] [] := by
  obtain ⟨fmt', wt, wp, h1, h2, h3, rfl⟩ := h.layout
  have : some fmt' = some fmt := h1.symm.trans hf
  cases this
  exact ⟨⟨_, wt, wp, [], h1, h2, encodesAll_texts h3 ht, .nil, by simp⟩⟩

theorem ssh_keyOf {ext : Ext} {t name t' : Str} {d p f : VDict} {b rest : Bytes} (h : SshValues ext .pub t name d b)
    (hk : KeyIn .pub b t' p f rest) :
    name = t ∧ t' = t ∧ f = [] ∧ rest = [] ∧ ∃ fmt, publicFields t = some fmt ∧ Texts fmt d p := by
  have hk' : KeyIn .pub (b ++ []) t' p f rest := by rw [List.append_nil]; exact hk
  obtain ⟨h1, h2, h3, wf, h4, h5⟩ := ssh_key_in h hk'
  obtain ⟨rfl, rfl⟩ := List.append_eq_nil_iff.1 h5.symm
  cases h4
  exact ⟨h1, h2, rfl, rfl, h3⟩

theorem ssh_fields {ext : Ext} {t name : Str} {d : VDict} {b : Bytes} (h : SshValues ext .pub t name d b) :
    ∃ fmt, publicFields t = some fmt := by
  obtain ⟨fmt, -, -, h1, -⟩ := h.layout
  exact ⟨fmt, h1⟩

theorem ssh_unknown {ext : Ext} {t name : Str} {d : VDict} {b : Bytes} (h : SshValues ext .pub t name d b)
    (hn : isCertType t = false) : UnknownKey .pub b ↔ name ≠ t := by
  obtain ⟨n, hn1, hn2⟩ := h.names
  constructor
  · intro hu e
    subst e
    cases hu with
    | @type _ t' wt r h1 h2 =>
      obtain ⟨fmt, wt', wp, g1, g2, -, e⟩ := h.layout
      obtain ⟨e1, -, -⟩ := encodes_unique h1 g2 e
      cases e1
      rw [g1] at h2
      cases h2
    | authority h1 h2 =>
      obtain ⟨-, rfl, -⟩ := ssh_keyOf h h1
      rw [hn] at h2
      cases h2
  · intro hne
    obtain ⟨fmt, wt, wp, g1, g2, -, rfl⟩ := h.layout
    refine .type g2 ?_
    rcases e : fieldsOf .pub name with _ | g
    · rfl
    · exact absurd (ssh_name hn1 hn2 e) hne

theorem cert_fields : ∀ e ∈ keyTable, ∀ n ∈ [py! "type", py! "valid_principals", py! "critical_options", py! "extensions",
    py! "signature_key"], dget e.2.1 n ≠ some (.pascal .string) := by decide +kernel

theorem texts_same {t : Str} {fmt : FDict} {d p : VDict} (hf : publicFields t = some fmt) (ht : Texts fmt d p) {n : Str}
    (hn : n ∈ [py! "type", py! "valid_principals", py! "critical_options", py! "extensions", py! "signature_key"]) :
    dget p n = dget d n := by
  have hr : dget fmt n ≠ some (.pascal .string) := by
    unfold publicFields at hf
    obtain ⟨r, hr, rfl⟩ := Option.map_eq_some_iff.1 hf
    exact cert_fields _ (dget_mem hr) n hn
  rcases texts_get ht n with ⟨a, b⟩ | ⟨cs, a, -⟩ | ⟨fi, v, -, -, a, b⟩
  · rw [a, b]
  · exact absurd a hr
  · rw [a, b]

theorem lists_bytes {ext : Ext} {d : VDict} {au : SshAuthority} (h : SshCert ext d au) {e : Str × FDict} (he : e ∈ recordFields) :
    ∃ b l, dget d e.1 = some (.bytes b) ∧ Records (withBytes e.2) b l [] := by
  simp only [recordFields, List.mem_cons, List.not_mem_nil, or_false] at he
  rcases he with rfl | rfl | rfl
  · obtain ⟨b, l, h1, h2, -⟩ := h.principals
    exact ⟨b, l, h1, h2⟩
  · obtain ⟨b, l, h1, h2⟩ := h.options (py! "critical_options") (by decide)
    exact ⟨b, l, h1, h2⟩
  · obtain ⟨b, l, h1, h2⟩ := h.options (py! "extensions") (by decide)
    exact ⟨b, l, h1, h2⟩

theorem record_names {e : Str × FDict} (he : e ∈ recordFields) : e.1 ∈ [py! "type", py! "valid_principals", py! "critical_options",
    py! "extensions", py! "signature_key"] := by
  simp only [recordFields, List.mem_cons, List.not_mem_nil, or_false] at he
  rcases he with rfl | rfl | rfl <;> decide

/-- Parsing such a key of an authority: the warnings. -/
theorem authority_log {ext : Ext} {t : Str} {d : VDict} {a : Bytes} (h : SshValues ext .pub t t d a)
    (hn : isCertType t = false) (v : Event) :
    v ∈ (fromBytes ext .pub a none).log ↔ TextsIn t d ∧ v = .warn .curveIdentifier ∧ ZeroCurve t d := by
  by_cases ht : TextsIn t d
  · obtain ⟨fmt, p, hf, htx⟩ := ht
    have hk := ssh_keyIn h hf htx
    obtain ⟨c, hc, hr⟩ := ((fromBytes_outcome ext a.length .pub a none (Nat.le_refl _)).2 t p [] [] hk).1
      (fun hx => by rw [hn] at hx; cases hx)
    obtain ⟨t', e1, e2⟩ := C72_parse_warnings ext .pub a none _ hr rfl
    have : t = t' := by simpa [dget] using e1
    subst this
    rw [e2]
    simp only [hn, Bool.false_eq_true, false_and, false_or]
    constructor
    · rintro (⟨w, rfl, hm⟩ | ⟨-, hx⟩)
      · rcases (ssh_faults h hf htx).1 hm with ⟨-, hx, -⟩ | ⟨rfl, hz⟩
        · cases hx
        · exact ⟨⟨fmt, p, hf, htx⟩, rfl, hz⟩
      · simp at hx
    · rintro ⟨-, rfl, hz⟩
      exact .inl ⟨_, rfl, (ssh_faults h hf htx).2 (.inr ⟨rfl, hz⟩)⟩
  · refine ⟨fun hv => ?_, fun hx => absurd hx.1 ht⟩
    exfalso
    obtain ⟨fmt, wt, wp, h1, h2, h3, rfl⟩ := h.layout
    rcases texts_or h3 with ⟨p, hp⟩ | hx
    · exact ht ⟨fmt, p, h1, hp⟩
    · have hx := hx []
      rw [List.append_nil] at hx
      obtain ⟨n, hn⟩ := readKey_fails (fun _ _ _ h => readFI_notText h)
        (KeyFails.fields (kind := .pub) h2 h1 (by rw [show fmt ++ afterFields .pub = fmt from List.append_nil _]; exact hx))
      unfold fromBytes at hv
      rw [fromBytesWith_eq, hn] at hv
      simp [Eff.throw] at hv

/-- **C95** (keys).  A public key or certificate that OpenSSH reads is read by the package exactly if it is `PublicPlain`; the
package then finds the same type and values, and there is a warning exactly for: a zero after the name of the curve; an
option that is given twice in a certificate; and, for its authority's key, a zero after the name of the curve or text
that is not UTF-8. -/
theorem C95_keys_partial {ext : Ext} {limits : Bytes → Prop} {b : Bytes} {key : SshPublicKey} (h : SshPublic ext limits b key)
    (clear : Option VDict) (hcl : dget (clear.getD []) (py! "remainder") = none) :
    ((∃ k, (fromBytes ext .pub b clear).res = .ok k) ↔ PublicPlain key) ∧
    ∀ k, (fromBytes ext .pub b clear).res = .ok k →
      (∃ fmt, k.header = [(py! "key_type", .str key.type)] ∧ publicFields key.type = some fmt ∧
        Texts fmt key.values k.params.data ∧ k.footer = [] ∧ k.clear = clear.getD []) ∧
      ∀ v, v ∈ (fromBytes ext .pub b clear).log ↔
        (v = .warn .curveIdentifier ∧ ZeroCurve key.type key.values) ∨
        (isCertType key.type = true ∧ ∃ o e b l, e ∈ recordFields ∧ e.1 ≠ py! "valid_principals" ∧
          dget key.values e.1 = some (.bytes b) ∧ Records e.2 b l [] ∧ Repeated o l ∧ v = .warn (.duplicateOption o e.1)) ∨
        ∃ au, key.authority = some au ∧
          ((TextsIn au.type au.values ∧ v = .warn .curveIdentifier ∧ ZeroCurve au.type au.values) ∨
           (¬ TextsIn au.type au.values ∧ v = .warn .caInvalid)) := by
  obtain ⟨fmt, hf⟩ := ssh_fields h.values
  -- acceptance
  have hacc : ∀ p, Texts fmt key.values p → (Acceptable key.type p ↔
      (isCertType key.type = true → ∀ e ∈ recordFields, ∀ b, dget key.values e.1 = some (.bytes b) → ∃ l, Records e.2 b l []) ∧
      ∀ au, key.authority = some au → au.name = au.type) := by
    intro p hp
    have hcert := h.cert
    split at hcert
    · rename_i hct
      obtain ⟨au, hau, hcert⟩ := hcert
      obtain ⟨hna, a, ha, hva⟩ := hcert.authority
      have hu := ssh_unknown hva hna
      have hrec : ¬ RecordNotText p ↔ ∀ e ∈ recordFields, ∀ b, dget key.values e.1 = some (.bytes b) → ∃ l, Records e.2 b l [] := by
        constructor
        · intro hr e he b hb
          obtain ⟨b', l, hb', hl⟩ := lists_bytes hcert he
          rw [hb] at hb'
          cases hb'
          rcases records_or hl with hx | ⟨l', r, h1, h2⟩
          · exact hx
          · exact absurd ⟨e, he, b, l', r, by rw [texts_same hf hp (record_names he)]; exact hb, h1, h2⟩ hr
        · rintro hx ⟨e, he, b, l, r, hb, h1, h2⟩
          rw [texts_same hf hp (record_names he)] at hb
          obtain ⟨l', hl'⟩ := hx e he b hb
          exact (records_not he hl').1 ⟨l, r, h1, h2⟩
      unfold Acceptable
      rw [hrec, texts_same hf hp (show py! "signature_key" ∈ _ by decide), ha, hau]
      simp only [hct, true_implies, Option.some.injEq, Val.bytes.injEq, forall_eq', hu, not_not]
    · rename_i hct
      rw [hcert]
      unfold Acceptable
      simp [hct]
  have hfwd : PublicPlain key → ∃ p, Texts fmt key.values p ∧ KeyIn .pub b key.type p [] [] ∧ Acceptable key.type p := by
    intro hpl
    obtain ⟨fmt', p, hf', hp⟩ := hpl.texts
    rw [hf] at hf'
    cases hf'
    have hv := h.values
    rw [hpl.name] at hv
    exact ⟨p, hp, ssh_keyIn hv hf hp, (hacc p hp).2 ⟨hpl.lists, hpl.authority⟩⟩
  have hback : ∀ {t p f rest}, KeyIn .pub b t p f rest → Acceptable t p →
      PublicPlain key ∧ t = key.type ∧ f = [] ∧ rest = [] ∧ Texts fmt key.values p := by
    intro t p f rest hk ha
    obtain ⟨h1, rfl, h3, h4, fmt', h5, h6⟩ := ssh_keyOf h.values hk
    rw [hf] at h5
    cases h5
    have := (hacc p h6).1 ha
    exact ⟨⟨h1, ⟨fmt, p, hf, h6⟩, this.1, this.2⟩, rfl, h3, h4, h6⟩
  refine ⟨⟨?_, ?_⟩, ?_⟩
  · rintro ⟨k, hk⟩
    obtain ⟨t, p, f, rest, h1, h2, -⟩ := (C74_accepts ext .pub b clear k).1 hk
    exact (hback h1 h2).1
  · intro hpl
    obtain ⟨p, -, hk, ha⟩ := hfwd hpl
    obtain ⟨c, -, hr⟩ := ((fromBytes_outcome ext b.length .pub b clear (Nat.le_refl _)).2 _ _ _ _ hk).1 ha
    exact ⟨_, hr⟩
  · intro k hk
    obtain ⟨t, p, f, rest, h1, h2, -, e1, e2, e3, e4, e5⟩ := (C74_accepts ext .pub b clear k).1 hk
    obtain ⟨hpl, rfl, rfl, rfl, htx⟩ := hback h1 h2
    rw [if_pos rfl] at e5
    subst e3
    refine ⟨⟨fmt, e1, hf, htx, e4, e5⟩, fun v => ?_⟩
    obtain ⟨t', g1, g2⟩ := C72_parse_warnings ext .pub b clear k hk hcl
    have : key.type = t' := by rw [e1] at g1; simpa [dget] using g1
    subst this
    have hv := h.values
    rw [hpl.name] at hv
    have hm := fun m => ssh_faults hv hf htx (m := m)
    have hcert := h.cert
    rw [g2, e5, hcl]
    simp only [Option.isSome_none, Bool.false_eq_true, and_false, or_false]
    have hmat : (∃ w, v = .warn w ∧ MaterialFault ext .pub key.type k.params.data w) ↔
        (v = .warn .curveIdentifier ∧ ZeroCurve key.type key.values) := by
      constructor
      · rintro ⟨w, rfl, hw⟩
        rcases (hm w).1 hw with ⟨-, hx, -⟩ | ⟨rfl, hz⟩
        · cases hx
        · exact ⟨rfl, hz⟩
      · rintro ⟨rfl, hz⟩
        exact ⟨_, rfl, (hm _).2 (.inr ⟨rfl, hz⟩)⟩
    rw [hmat]
    refine or_congr_right ?_
    split at hcert
    · rename_i hct
      obtain ⟨au, hau, hcert⟩ := hcert
      obtain ⟨hna, a, ha, hva⟩ := hcert.authority
      have hnm := hpl.authority au hau
      rw [hnm] at hva
      have hsame : ∀ {n}, n ∈ [py! "type", py! "valid_principals", py! "critical_options", py! "extensions", py! "signature_key"] →
        dget k.params.data n = dget key.values n := fun hn => texts_same hf htx hn
      simp only [hct, true_and, C74_certificate_faults, hau, Option.some.injEq, exists_eq_left']
      have hlist : ∀ {name fmt b}, (name, fmt) ∈ recordFields → dget k.params.data name = some (.bytes b) →
          dget key.values name = some (.bytes b) ∧ ∃ l, Records fmt b l [] := by
        intro name fm b he hb
        have hb' := hb
        rw [hsame (record_names he)] at hb'
        exact ⟨hb', hpl.lists hct _ he b hb'⟩
      have hkey : ∀ {x}, dget k.params.data (py! "signature_key") = some (.bytes x) → x = a := by
        intro x hx
        rw [hsame (by decide), ha] at hx
        cases hx
        rfl
      have hk : (∃ t p f rest, KeyIn .pub a t p f rest ∧ Acceptable t p) ↔ TextsIn au.type au.values := by
        constructor
        · rintro ⟨t, p, f, rest, hk, -⟩
          obtain ⟨-, -, -, -, fm, q1, q2⟩ := ssh_keyOf hva hk
          exact ⟨fm, p, q1, q2⟩
        · rintro ⟨fm, p, q1, q2⟩
          exact ⟨_, p, [], [], ssh_keyIn hva q1 q2, fun hx => by rw [hna] at hx; cases hx⟩
      constructor
      · intro hi
        cases hi with
        | type q1 q2 q3 =>
          rw [hsame (by decide)] at q1
          rcases hcert.type with q | q
          · rw [q] at q1; cases q1; exact absurd rfl q2
          · rw [q] at q1; cases q1; exact absurd rfl q3
        | list q1 q2 q3 q4 q5 =>
          obtain ⟨-, l, hl⟩ := hlist q1 q3
          exact absurd ⟨_, _, q4, q5⟩ (records_not q1 hl).2.1
        | @repeated param o fm bb r l q1 q2 q3 q4 q5 q6 =>
          obtain ⟨hb, l', hl⟩ := hlist q2 q3
          have := (records_not q2 hl).2.2 _ _ q4 q5
          subst this
          exact .inl ⟨o, _, _, _, q2, q1, hb, hl, q6, rfl⟩
        | inside q1 q2 =>
          rw [hkey q1] at q2
          exact .inr (.inl ((authority_log hva hna _).1 q2))
        | authorityCert q1 q2 q3 q4 =>
          rw [hkey q1] at q2
          obtain ⟨-, rfl, -⟩ := ssh_keyOf hva q2
          rw [hna] at q4
          cases q4
        | authority q1 q2 =>
          rw [hkey q1, hk] at q2
          exact .inr (.inr ⟨q2, rfl⟩)
      · have ha' : dget k.params.data (py! "signature_key") = some (.bytes a) := by rw [hsame (by decide), ha]
        rintro (⟨o, e, bb, l, q1, q2, q3, q4, q5, rfl⟩ | q | ⟨q, rfl⟩)
        · refine .repeated q2 q1 (by rw [hsame (record_names q1)]; exact q3) q4 ?_ q5
          simp only [recordFields, List.mem_cons, List.not_mem_nil, or_false] at q1
          rcases q1 with rfl | rfl | rfl <;> exact .here (CutOff.length (r := []) (by decide))
        · exact .inside ha' ((authority_log hva hna _).2 q)
        · exact .authority ha' (by rw [hk]; exact q)
    · rename_i hct
      rw [hcert]
      simp [hct]

/-! ### Lines -/

theorem sshLine_decodes {s t : Str} {b : Bytes} {lead a sep w tail : Str} (h : SshLine s t b lead a sep w tail) (x : Str)
    (hx : ∀ c ∈ x, c = 0x09) : b64decodeStr (x ++ w) = .ok b := by
  have hw : ∀ c ∈ w, c < 128 ∧ (c ∈ base64Alphabet.map UInt8.toNat ↔ c ∉ cSpaces) := by
    intro c hc
    by_cases hs : c ∈ cSpaces
    · exact ⟨(spaces_ascii c hs).1, fun h => absurd h (spaces_ascii c hs).2, fun h => absurd hs h⟩
    · have : c ∈ base64Text b := by
        rw [← h.word.2, List.mem_filter]
        exact ⟨hc, decide_eq_true hs⟩
      obtain ⟨y, hy, rfl⟩ := List.mem_map.1 this
      have hy := List.mem_map_of_mem (f := UInt8.toNat) (base64_mem b y hy)
      exact ⟨(alphabet_chars _ hy).1, fun _ => hs, fun _ => hy⟩
  refine C23_decode_str b _ ?_ ?_
  · intro c hc
    rcases List.mem_append.1 hc with hc | hc
    · rw [hx c hc]; decide
    · exact (hw c hc).1
  · have e : x.filter (fun c => decide (c ∈ base64Alphabet.map UInt8.toNat)) = [] := by
      rw [List.filter_eq_nil_iff]
      intro c hc
      rw [hx c hc]
      decide +kernel
    rw [List.filter_append, e, List.nil_append]
    refine Eq.trans (List.filter_congr fun c hc => ?_) h.word.2
    exact decide_eq_decide.2 (hw c hc).2

theorem names_blank : (∀ e ∈ keyTable, 0x20 ∉ e.1) ∧ ∀ e ∈ signatureNames, 0x20 ∉ e.2 := by decide +kernel

/-- **C95** (lines).  Of a line that OpenSSH reads as a public key, in which there are only tabs before the name, exactly one
space between the name and the key, perhaps with tabs around it, and then nothing or a space and a comment, the package
reads the same key, with this comment, or it fails exactly as it does with the key.  There is one more warning if anything but
the key type is before the space.  What is missing: other blanks (`C95_lines_false`). -/
theorem C95_lines_partial (ext : Ext) {s t : Str} {b : Bytes} {lead a t1 t2 w tail c : Str}
    (h : SshLine s t b lead a (t1 ++ 0x20 :: t2) w tail) (hn : ∃ fmt, publicFields t = some fmt)
    (hb : ∀ x ∈ lead ++ t1 ++ t2, x = 0x09) (ht : tail = [] ∧ c = [] ∨ tail = 0x20 :: c) :
    (∀ e, (fromString ext .pub s).res = .error e ↔ (fromBytes ext .pub b none).res = .error e) ∧
    ∀ k, (fromString ext .pub s).res = .ok k → ∃ k', (fromBytes ext .pub b none).res = .ok k' ∧
      k.header = k'.header ∧ k.params = k'.params ∧ k.footer = k'.footer ∧
      dget k.clear (py! "key_type") = some (.str (lead ++ a ++ t1)) ∧ dget k.clear (py! "comment") = some (.str c) ∧
      (dget k'.header (py! "key_type") = some (.str t) → ∀ v, v ∈ (fromString ext .pub s).log ↔
        v ∈ (fromBytes ext .pub b none).log ∨ v = .warn .clearTypeMismatch ∧ lead ++ a ++ t1 ≠ t) := by
  have hlead : ∀ x ∈ lead, x = 0x09 := fun x hx => hb x (by simp [hx])
  have ht1 : ∀ x ∈ t1, x = 0x09 := fun x hx => hb x (by simp [hx])
  have ht2 : ∀ x ∈ t2, x = 0x09 := fun x hx => hb x (by simp [hx])
  have ha : 0x20 ∉ a := by
    obtain ⟨fmt, hf⟩ := hn
    obtain ⟨g, hrow⟩ := public_row hf
    rcases h.name with rfl | hs
    · exact names_blank.1 _ hrow
    · exact names_blank.2 _ hs
  have tabs : ∀ {l : Str}, (∀ x ∈ l, x = 0x09) → 0x20 ∉ l := fun hl hm => absurd (hl _ hm) (by decide)
  have h1 : 0x20 ∉ lead ++ a ++ t1 := by simp [ha, tabs hlead, tabs ht1]
  have h2 : 0x20 ∉ t2 ++ w := by
    have : 0x20 ∉ w := fun hm => h.word.1 _ hm (by decide)
    simp [this, tabs ht2]
  have hw : Words s (lead ++ a ++ t1) (t2 ++ w) c := by
    have e := h.eq
    rcases ht with ⟨rfl, rfl⟩ | rfl
    · have := Words.two h1 h2
      rw [e]
      simpa using this
    · have := Words.three (c := c) h1 h2
      rw [e]
      simpa using this
  have hd := sshLine_decodes h t2 ht2
  have hres : ∀ e, (fromString ext .pub s).res = .error e ↔ (fromBytes ext .pub b none).res = .error e := by
    intro e
    rw [words_tail hw, tail_res hd, fromBytes_clear]
    rcases hfb : fromBytes ext .pub b none with ⟨l, x | k⟩ <;> simp
  refine ⟨hres, fun k hk => ?_⟩
  rcases hfb : fromBytes ext .pub b none with ⟨l, e | k'⟩
  · have := (hres e).2 (by rw [hfb])
    rw [hk] at this
    cases this
  · obtain ⟨t', ht'⟩ := fromBytes_type (show (fromBytes ext .pub b none).res = .ok k' by rw [hfb])
    obtain ⟨k'', e1, -, e2, e3, e4, e5, e6, -⟩ := fromStringTail_parsed hd hfb (lead ++ a ++ t1) c t' ht'
    rw [words_tail hw, e1] at hk ⊢
    simp only [Except.ok.injEq] at hk
    subst hk
    refine ⟨k', rfl, e2, e3, e4, e5, e6, fun hty v => ?_⟩
    rw [ht'] at hty
    cases hty
    by_cases hx : t = lead ++ a ++ t1
    · simp [← hx]
    · rw [if_neg hx]
      simp only [List.mem_append, List.mem_singleton]
      exact or_congr_right ⟨fun h => ⟨h, fun e => hx e.symm⟩, fun h => h.1⟩

/-! ### Examples and counterexamples -/

/-- An Ed25519 public key, with its type written as `wt`. -/
def exSshBlob (wt : Bytes) (x : UInt8) : Bytes := wt ++ ([0, 0, 0, 32] ++ List.replicate 32 x ++ [])

def exSshPublicKey (name : Str) (x : UInt8) : SshPublicKey :=
  ⟨py! "ssh-ed25519", name, [(py! "public", .bytes (List.replicate 32 x))], none⟩

theorem exSsh_public (name : Str) (wt : Bytes) (x : UInt8) (hname : SshNames (py! "ssh-ed25519") name)
    (hwt : Encodes (.pascal .string) wt (.str name)) :
    SshPublic exExt (fun _ => True) (exSshBlob wt x) (exSshPublicKey name x) := by
  have hpub : publicFields (py! "ssh-ed25519") = some ed25519Fields := by decide +kernel
  have hlen : (List.replicate 32 x).length = 32 := by simp
  have hp : Prefixed 4 (List.replicate 32 x) ([0, 0, 0, 32] ++ List.replicate 32 x) :=
    ⟨[0, 0, 0, 32], rfl, by rw [hlen]; decide +kernel, rfl⟩
  refine ⟨trivial, ⟨⟨_, hname, .inl rfl⟩, ⟨ed25519Fields, wt, _, hpub, hwt, .cons (.bytes hp) .nil, rfl⟩, ?_, ?_, ?_, ?_, ?_⟩, ?_⟩
  · intro fmt k b hf hk
    have : some fmt = some ed25519Fields := hf.symm.trans hpub
    cases this
    simp [ed25519Fields] at hk
  · intro n i h
    have := dget_mem h
    simp [exSshPublicKey] at this
  · intro c oid hc
    have : (py! "ssh-ed25519", c, oid) ∈ curveTable := hc
    simp [curveTable] at this
  · intro _
    exact ⟨_, rfl, hlen⟩
  · intro h
    cases h
  · show if isCertType (py! "ssh-ed25519") = true then _ else _
    rw [if_neg (show ¬ isCertType (py! "ssh-ed25519") = true by decide +kernel)]
    rfl

/-- Non-vacuous: such a key is read without a warning. -/
example : ∃ k, (fromBytes exExt .pub (exSshBlob exSshType 1) none).res = .ok k ∧
    dget k.params.data (py! "public") = some (.bytes (List.replicate 32 1)) ∧
    (fromBytes exExt .pub (exSshBlob exSshType 1) none).log = [] := by
  obtain ⟨h0, h1⟩ := C95_keys_partial (exSsh_public _ exSshType 1 .own exEd_type) none rfl
  have hpub : publicFields (py! "ssh-ed25519") = some ed25519Fields := by decide +kernel
  obtain ⟨k, hk⟩ := h0.2 ⟨rfl, ⟨_, _, hpub, .other (by decide) .nil⟩,
    fun h => absurd (show isCertType (py! "ssh-ed25519") = true from h) (by decide +kernel), fun au h => by cases h⟩
  obtain ⟨⟨fmt, -, h2, h3, -⟩, h4⟩ := h1 k hk
  refine ⟨k, hk, ?_, List.eq_nil_iff_forall_not_mem.2 fun v hv => ?_⟩
  · have : some fmt = some ed25519Fields := h2.symm.trans hpub
    cases this
    rw [texts_unique h3 (show Texts ed25519Fields (exSshPublicKey (py! "ssh-ed25519") 1).values _ from .other (by decide) .nil)]
    rfl
  · rcases (h4 v).1 hv with ⟨-, c, oid, h, -⟩ | ⟨h, -⟩ | ⟨au, h, -⟩
    · have : (py! "ssh-ed25519", c, oid) ∈ curveTable := h
      simp [curveTable] at this
    · exact absurd (show isCertType (py! "ssh-ed25519") = true from h) (by decide +kernel)
    · cases h

/-- **C95** is false: a key that OpenSSH reads, under another name of its type, is refused. -/
theorem C95_false : ∃ b key, SshPublic exExt (fun _ => True) b key ∧ (fromBytes exExt .pub b none).res.toOption = none :=
  ⟨_, _, exSsh_public (py! "Ed25519") exSshAlias 1 (.short (by decide +kernel))
    (Encodes.text (cs := "Ed25519".toList) ⟨[0, 0, 0, 7], rfl, by decide +kernel, by decide +kernel⟩), by decide +kernel⟩

/-- The text of the key. -/
def exSshText (x : UInt8) : Str := base64Text (exSshBlob exSshType x)

theorem exSshText_line (x : UInt8) (sep tail : Str) (hs : sep ≠ [] ∧ ∀ c ∈ sep, c ∈ blanks) (hx : x = 1 ∨ x = 2)
    (ht : tail = [] ∨ ∃ c y, c ∈ blanks ∧ tail = c :: y) (hz : 0 ∉ tail ∧ 0x0a ∉ tail) :
    SshLine (py! "ssh-ed25519" ++ sep ++ exSshText x ++ tail) (py! "ssh-ed25519") (exSshBlob exSshType x) []
      (py! "ssh-ed25519") sep (exSshText x) tail := by
  have h1 : (∀ c ∈ exSshText x, c ∉ blanks ∧ c ≠ 0 ∧ c ≠ 0x0a) ∧
      (exSshText x).filter (fun c => decide (c ∉ cSpaces)) = base64Text (exSshBlob exSshType x) := by
    rcases hx with rfl | rfl <;> decide +kernel
  have h2 : ∀ c ∈ blanks, c ≠ 0 ∧ c ≠ 0x0a := by decide
  have h3 : ∀ c ∈ (py! "ssh-ed25519" : Str), c ≠ 0 ∧ c ≠ 0x0a := by decide +kernel
  have h4 : ∀ c ∈ py! "ssh-ed25519" ++ sep ++ exSshText x ++ tail, c ≠ 0 ∧ c ≠ 0x0a := by
    intro c hc
    simp only [List.mem_append] at hc
    rcases hc with ((hc | hc) | hc) | hc
    · exact h3 c hc
    · exact h2 c (hs.2 c hc)
    · exact (h1.1 c hc).2
    · exact ⟨fun e => hz.1 (e ▸ hc), fun e => hz.2 (e ▸ hc)⟩
  exact ⟨by simp, by simp, .inl rfl, hs, ⟨fun c hc => (h1.1 c hc).1, h1.2⟩, ht,
    ⟨fun h => (h4 _ h).1 rfl, fun h => (h4 _ (List.dropLast_subset _ h)).2 rfl⟩⟩

/-- Non-vacuous: a line with a comment. -/
example : (fromString exExt .pub (py! "ssh-ed25519" ++ [0x20, 0x09] ++ exSshText 1 ++ py! " me too")).res.toOption.map
    (fun k => (k.clear, k.params.data)) =
    some ([(py! "key_type", .str (py! "ssh-ed25519")), (py! "comment", .str (py! "me too"))],
      [(py! "public", .bytes (List.replicate 32 1))]) := by decide +kernel
example := C95_lines_partial exExt (t1 := []) (t2 := [0x09]) (c := py! "me too")
  (exSshText_line 1 [0x20, 0x09] (py! " me too") (by decide) (.inl rfl) (.inr ⟨_, _, by decide, rfl⟩) (by decide))
  ⟨ed25519Fields, by decide +kernel⟩ (by decide) (.inr rfl)

/-- **C95** is false of lines.  There is a line that OpenSSH reads, as a key that the package reads, but the line is refused.
And there is a line that OpenSSH reads as one key and the package reads as another key. -/
theorem C95_lines_false :
    (∃ s b key lead sep w tail, SshPublic exExt (fun _ => True) b key ∧ SshLine s key.type b lead key.type sep w tail ∧
      (fromBytes exExt .pub b none).res.toOption.isSome = true ∧ (fromString exExt .pub s).res.toOption = none) ∧
    ∃ s b b' key key' lead sep w tail, SshPublic exExt (fun _ => True) b key ∧ SshPublic exExt (fun _ => True) b' key' ∧
      key.values ≠ key'.values ∧ SshLine s key.type b lead key.type sep w tail ∧
      (fromString exExt .pub s).res.toOption.map (fun k => k.params.data) = some key'.values :=
  ⟨⟨_, _, _, _, _, _, _, exSsh_public _ exSshType 1 .own exEd_type,
      exSshText_line 1 (py! "  ") [] (by decide) (.inl rfl) (.inl rfl) (by decide), by decide +kernel, by decide +kernel⟩,
   ⟨_, _, _, _, _, _, _, _, _, exSsh_public _ exSshType 1 .own exEd_type, exSsh_public _ exSshType 2 .own exEd_type,
      by decide +kernel, exSshText_line 1 [0x09] (0x20 :: (exSshText 2 ++ py! " x")) (by decide) (.inl rfl)
        (.inr ⟨_, _, by decide, rfl⟩) (by decide +kernel), by decide +kernel⟩⟩

end OSK
