import Verif.Spec.Both
import Verif.Props.StrictFile
import Verif.Props.OpenSSHPublicWrite
/-
Property C100: which keys and files in order OpenSSH reads as well.
-/
namespace OSK
open Spec

theorem ctext_iff {x : Bytes} : (∃ s, CText s x) ↔ 0 ∉ x.dropLast := by
  constructor
  · rintro ⟨s, h0, rfl | rfl⟩
    · exact fun h => h0 (List.dropLast_subset _ h)
    · rwa [List.dropLast_concat]
  · intro h
    rcases List.eq_nil_or_concat x with rfl | ⟨y, c, rfl⟩
    · exact ⟨[], by simp, .inl rfl⟩
    · rw [List.concat_eq_append] at h ⊢
      rw [List.dropLast_concat] at h
      by_cases hc : c = 0
      · subst hc; exact ⟨y, h, .inr rfl⟩
      · refine ⟨y ++ [c], ?_, .inl rfl⟩
        simp [h, Ne.symm hc]

theorem utf8_zero_char {c : Char} (h : c.toNat = 0) : String.utf8EncodeChar c = [0] := by
  have : c = Char.ofNat 0 := Char.toNat_inj.1 (by rw [h]; rfl)
  subst this
  decide +kernel

theorem utf8_zero_iff {cs : List Char} : 0 ∈ utf8 cs ↔ 0 ∈ strOf cs := by
  constructor
  · intro h
    by_contra hn
    exact utf8_zero hn h
  · intro h
    obtain ⟨c, hc, h0⟩ := List.mem_map.1 h
    exact List.mem_flatMap.2 ⟨c, hc, by rw [utf8_zero_char h0]; simp⟩

/-- Text without a zero character, except perhaps at its end, is text to OpenSSH. -/
theorem zeroFree_iff {cs : List Char} : ZeroFree (strOf cs) ↔ ∃ s, CText s (utf8 cs) := by
  rw [ctext_iff, ZeroFree, not_iff_not]
  rcases List.eq_nil_or_concat cs with rfl | ⟨y, c, rfl⟩
  · simp [strOf, utf8]
  · have hne : String.utf8EncodeChar c ≠ [] := by
      intro h
      have := congrArg List.length h
      rw [String.length_utf8EncodeChar] at this
      have := Char.utf8Size_pos c
      simp at *
    have e1 : strOf (y.concat c) = strOf y ++ [c.toNat] := by simp [strOf]
    have e2 : utf8 (y.concat c) = utf8 y ++ String.utf8EncodeChar c := by simp [utf8]
    rw [e1, e2, List.dropLast_concat, List.dropLast_append_of_ne_nil hne, List.mem_append, utf8_zero_iff]
    constructor
    · exact .inl
    · rintro (h | h)
      · exact h
      · have h0 := utf8_char_zero c (List.dropLast_subset _ h)
        rw [utf8_zero_char h0] at h
        cases h

theorem encodesAll_as_bytes {fmt : FDict} {w : Bytes} {d : VDict} (h : EncodesAll fmt w d) :
    ∃ r, EncodesAll (withBytes fmt) w r ∧ Texts fmt r d := by
  induction h with
  | nil => exact ⟨[], .nil, .nil⟩
  | @cons k fi t w w' v d h1 _ ih =>
    obtain ⟨r, h3, h4⟩ := ih
    by_cases hfi : fi = .pascal .string
    · subst hfi
      generalize hfi : FI.pascal .string = fi at h1
      cases h1 <;> cases hfi
      rename_i cs hp
      refine ⟨(k, .bytes (utf8 cs)) :: r, ?_, .text h4⟩
      show EncodesAll ((k, if FI.pascal .string = .pascal .string then .pascal .bytes else .pascal .string) :: withBytes t) _ _
      rw [if_pos rfl]
      exact .cons (.bytes hp) h3
    · refine ⟨(k, v) :: r, ?_, .other hfi h4⟩
      show EncodesAll ((k, if fi = .pascal .string then .pascal .bytes else fi) :: withBytes t) _ _
      rw [if_neg hfi]
      exact .cons h1 h3

/-- Only text fields have text. -/
theorem texts_text {fmt : FDict} {r d : VDict} {w : Bytes} (h : Texts fmt r d) (he : EncodesAll fmt w d) {n s : Str}
    (hn : dget d n = some (.str s)) : ∃ cs, s = strOf cs ∧ dget fmt n = some (.pascal .string) ∧ dget r n = some (.bytes (utf8 cs)) := by
  induction he generalizing r with
  | nil => cases hn
  | @cons k fi t w w' v d h1 _ ih =>
    by_cases hk : k = n
    · subst hk
      simp only [dget, if_pos] at hn
      cases hn
      cases h with
      | text => exact ⟨_, rfl, by simp [dget], by simp [dget]⟩
      | other hne => cases h1; exact absurd rfl hne
    · simp only [dget, if_neg hk] at hn ⊢
      cases h with
      | text h => simp only [dget, if_neg hk]; exact ih h hn
      | other _ h => simp only [dget, if_neg hk]; exact ih h hn

/-- A key in order is a key to OpenSSH exactly if its values are. -/
theorem ssh_values_order {ext : Ext} {kind : Kind} {t : Str} {fmt : FDict} {wt wp : Bytes} {d : VDict}
    (hf : fieldsOf kind t = some fmt) (hwt : Encodes (.pascal .string) wt (.str t)) (he : EncodesAll fmt wp d)
    (hm : MaterialInOrder ext kind t d) (hv : ValuesForSsh d) :
    ∃ r, Texts fmt r d ∧ SshValues ext kind t t r (wt ++ wp) := by
  obtain ⟨r, hr, ht⟩ := encodesAll_as_bytes he
  have bytes : ∀ {n b}, dget d n = some (.bytes b) → dget r n = some (.bytes b) := by
    intro n b h
    rcases texts_get ht n with ⟨-, a⟩ | ⟨cs, -, -, a⟩ | ⟨fi, v, -, -, a, a'⟩
    · rw [a] at h; cases h
    · rw [a] at h; cases h
    · rw [a'] at h; rw [a, h]
  refine ⟨r, ht, ⟨⟨t, .own, .inl rfl⟩, ⟨fmt, wt, wp, hf, hwt, hr, rfl⟩, ?_, ?_, ?_, ?_, ?_⟩⟩
  · intro fmt' k b hf' hk hb
    rw [hf] at hf'
    cases hf'
    have hk' : dget fmt k = some (.pascal .string) := dget_of_mem (fields_nodup hf) hk
    rcases texts_get ht k with ⟨a, -⟩ | ⟨cs, -, a, a'⟩ | ⟨fi, v, a, a', -⟩
    · rw [a] at hb; cases hb
    · rw [a] at hb
      cases hb
      exact zeroFree_iff.1 (hv.texts _ _ a')
    · rw [hk'] at a'
      cases a'
      exact absurd rfl a
  · intro n i h
    rcases texts_get ht n with ⟨a, -⟩ | ⟨cs, -, a, -⟩ | ⟨fi, v, -, -, a, a'⟩
    · rw [a] at h; cases h
    · rw [a] at h; cases h
    · rw [a] at h
      cases h
      exact hv.unsigned _ _ a'
  · intro c oid hc
    obtain ⟨h1, q, h2, h3⟩ := hm.curve c oid hc
    refine ⟨?_, q, bytes h2, h3⟩
    obtain ⟨cs, e, -, hb⟩ := texts_text ht he h1
    obtain ⟨k1, k2⟩ := curve_names _ hc
    simp only at k1 k2
    have hcs : cs = c.map Char.ofNat := OSK.strOf_inj (e.symm.trans k2.symm)
    refine ⟨_, hb, ?_, .inl (by rw [hcs, k1])⟩
    rw [← k1]
    refine utf8_zero ?_
    rw [k2]
    exact curve_zero _ hc
  · intro he
    obtain ⟨x, h1, h2⟩ := hm.ed25519 he
    exact ⟨x, bytes h1, h2⟩
  · intro hk he
    obtain ⟨s, x, h1, h2, h3, -⟩ := hm.secret hk he
    exact ⟨_, bytes h3, by simp [h1, h2]⟩
where
  curve_zero : ∀ e ∈ curveTable, 0 ∉ e.2.1 := by decide +kernel

/-- The values that OpenSSH reads are such as it asks for. -/
theorem values_for_ssh {ext : Ext} {kind : Kind} {t name : Str} {fmt : FDict} {w x : Bytes} {r d : VDict}
    (h : SshValues ext kind t name r w) (hf : fieldsOf kind t = some fmt) (ht : Texts fmt r d) (he : EncodesAll fmt x d) :
    ValuesForSsh d := by
  constructor
  · intro n i hi
    rcases texts_get ht n with ⟨-, a⟩ | ⟨cs, -, -, a⟩ | ⟨fi, v, -, -, a, a'⟩
    · rw [a] at hi; cases hi
    · rw [a] at hi; cases hi
    · rw [a'] at hi
      cases hi
      exact h.unsigned _ _ a
  · intro n s hs
    obtain ⟨cs, rfl, h1, h2⟩ := texts_text ht he hs
    exact zeroFree_iff.2 (h.texts fmt n _ hf (dget_mem h1) h2)

/-! ### Public keys and certificates -/

theorem records_as_bytes {fmt : FDict} {b : Bytes} {l : List VDict} {x : Bytes} (h : Records fmt b l x) :
    ∃ l', Records (withBytes fmt) b l' x ∧ List.Forall₂ (Texts fmt) l' l := by
  induction h with
  | done => exact ⟨[], .done, .nil⟩
  | more h1 _ ih =>
    obtain ⟨l', h2, h3⟩ := ih
    obtain ⟨r, h4, h5⟩ := encodesAll_as_bytes h1
    exact ⟨r :: l', .more h4 h2, .cons h5 h3⟩

theorem encodesAll_pos {k : Str} {p : Prim} {t : FDict} {w : Bytes} {d : VDict} (h : EncodesAll ((k, .pascal p) :: t) w d) :
    w ≠ [] := by
  cases h with
  | cons h1 _ =>
  intro e
  have e := (List.append_eq_nil_iff.1 e).1
  subst e
  have hp : ∀ {x : Bytes}, ¬ Prefixed 4 x [] := by
    rintro x ⟨l, h1, -, h3⟩
    have := (List.append_eq_nil_iff.1 h3.symm).1
    subst this
    cases h1
  generalize hw : ([] : Bytes) = w at h1
  cases h1 <;> subst hw <;> rename_i h <;> exact hp h

theorem records_of_bytes {k : Str} {p : Prim} {t : FDict} {b : Bytes} {l : List VDict}
    (h : Records (withBytes ((k, .pascal p) :: t)) b l []) {l' : List VDict}
    (h' : Records ((k, .pascal p) :: t) b l' []) : List.Forall₂ (Texts ((k, .pascal p) :: t)) l l' := by
  have hpos : ∀ {w d}, EncodesAll (withBytes ((k, .pascal p) :: t)) w d → w ≠ [] := by
    intro w d h
    unfold withBytes at h
    rw [List.map_cons] at h
    simp only at h
    split at h
    · exact encodesAll_pos h
    · exact encodesAll_pos h
  generalize hr : ([] : Bytes) = r at h
  induction h generalizing l' with
  | done =>
    subst hr
    generalize hb : ([] : Bytes) = b at h'
    cases h' with
    | done => exact .nil
    | more h1 _ => exact absurd (List.append_eq_nil_iff.1 hb.symm).1 (encodesAll_pos h1)
  | @more w b d l r h1 _ ih =>
    generalize hb : w ++ b = b' at h'
    cases h' with
    | done => exact absurd (List.append_eq_nil_iff.1 hb).1 (hpos h1)
    | more g1 g2 =>
      obtain ⟨a, rfl, rfl⟩ := texts_of h1 g1 hb
      exact .cons a (ih g2 hr)

/-- **C100** (keys).  A public key or certificate in order is one that OpenSSH reads exactly if its values are such as OpenSSH asks
for. -/
theorem C100_keys {ext : Ext} {b : Bytes} {k : Key} (h : KeyInOrder ext .pub b k []) :
    (∃ key, SshPublic ext (fun _ => True) b key) ↔ PublicForSsh k := by
  have hacc := keyInOrder_reads h
  obtain ⟨t, h1, h2, h3, -, h5, -⟩ := h
  obtain ⟨t', h1', hacc, -, h5', -⟩ := hacc
  have : t' = t := by rw [h5] at h5'; simpa using h5'.symm
  subst this
  clear h1' h5'
  have ht : dget k.header (py! "key_type") = some (.str t') := by rw [h5]; simp [dget]
  have hin := h1
  obtain ⟨fmt, wt, wp, wf, g1, g2, g3, g4, rfl⟩ := h1.layout
  have hwf : wf = [] := by
    generalize hnil : afterFields .pub = f, k.footer = e at g4
    cases g4 with
    | nil => rfl
    | cons => cases hnil
  subst hwf
  simp only [List.append_nil] at *
  constructor
  · rintro ⟨key, -, hv, hc⟩
    have hin' : KeyIn .pub (wt ++ wp ++ []) t' k.params.data k.footer [] := by rw [List.append_nil]; exact hin
    obtain ⟨-, e, ⟨fmt', e1, e2⟩, -⟩ := ssh_key_in hv hin'
    subst e
    rw [g1] at e1
    cases e1
    refine ⟨values_for_ssh hv g1 e2 g3, ?_⟩
    intro t'' ht'' hcert
    rw [ht] at ht''
    cases ht''
    rw [if_pos hcert] at hc
    obtain ⟨au, -, hc⟩ := hc
    have hget : ∀ {n}, n ∈ [py! "type", py! "valid_principals", py! "critical_options", py! "extensions", py! "signature_key"] →
        dget k.params.data n = dget key.values n := fun hn => texts_same g1 e2 hn
    have hnot := (hacc hcert).1
    have whole : ∀ {n m p t b l}, (n, (m, .pascal p) :: t) ∈ recordFields → dget k.params.data n = some (.bytes b) → Records (withBytes ((m, .pascal p) :: t)) b l [] →
        ∃ l', Records ((m, .pascal p) :: t) b l' [] ∧ List.Forall₂ (Texts ((m, .pascal p) :: t)) l l' := by
      intro n m p t b l hn hb hr
      rcases records_or hr with ⟨l', hl⟩ | ⟨l', r, hl, hx⟩
      · exact ⟨l', hl, records_of_bytes hr hl⟩
      · exact absurd ⟨(n, (m, .pascal p) :: t), hn, b, l', r, hb, hl, hx⟩ hnot
    constructor
    · obtain ⟨b, l, p1, p2, p3, p4⟩ := hc.principals
      rw [← hget (by decide)] at p1
      obtain ⟨l', q1, q2⟩ := whole (n := py! "valid_principals") (m := py! "principal") (p := .string) (t := []) (by decide) p1 p2
      refine ⟨b, l', p1, q1, by rw [← q2.length_eq]; exact p3, ?_⟩
      intro r' hr' s hs
      obtain ⟨r, hr, hrr⟩ := forall₂_right q2 hr'
      obtain ⟨x, s', rfl, hx⟩ := p4 r hr
      cases hrr with
      | text hn =>
        cases hn
        simp [dget] at hs
        subst hs
        exact zeroFree_iff.2 ⟨_, hx⟩
      | other hne => exact absurd rfl hne
    · intro n hn
      obtain ⟨b, l, p1, p2⟩ := hc.options n hn
      rw [← hget (by simp only [List.mem_cons, List.not_mem_nil, or_false] at hn ⊢; tauto)] at p1
      obtain ⟨l', q1, -⟩ := whole (n := n) (m := py! "option") (p := .string) (t := [(py! "value", .pascal .bytes)])
        (by simp only [recordFields, List.mem_cons, List.not_mem_nil, or_false, Prod.mk.injEq] at hn ⊢; tauto) p1 p2
      exact ⟨b, l', p1, q1⟩
    · intro a t p ha hk
      obtain ⟨-, a', p1, p2⟩ := hc.authority
      rw [← hget (by decide), ha] at p1
      cases p1
      have hk' : KeyIn .pub (a ++ []) t p [] [] := by rw [List.append_nil]; exact hk
      obtain ⟨-, rfl, ⟨fmt', f1, f2⟩, -⟩ := ssh_key_in p2 hk'
      obtain ⟨fmt'', _, _, _, k1, -, k3, -⟩ := hk.layout
      rw [f1] at k1
      cases k1
      exact values_for_ssh p2 f1 f2 k3
  · intro hp
    obtain ⟨r, hr, hv⟩ := ssh_values_order g1 g2 g3 h2 hp.values
    by_cases hcert : isCertType t' = true
    · have hc := hp.cert t' ht hcert
      have hci := h3 hcert
      have hget : ∀ {n}, n ∈ [py! "type", py! "valid_principals", py! "critical_options", py! "extensions", py! "signature_key"] →
          dget k.params.data n = dget r n := fun hn => texts_same g1 hr hn
      obtain ⟨a, ta, pa, a1, a2, a3, a4⟩ := hci.authority
      obtain ⟨fa, wta, wpa, wfa, b1, b2, b3, b4, rfl⟩ := a2.layout
      generalize hnil : ([] : VDict) = e at b4
      cases b4 with
      | nil =>
      simp only [List.append_nil] at *
      obtain ⟨ra, hra, hva⟩ := ssh_values_order b1 b2 b3 a4 (hc.authority _ _ _ a1 a2)
      refine ⟨⟨t', t', r, some ⟨ta, ta, ra⟩⟩, trivial, hv, ?_⟩
      show if isCertType t' = true then _ else _
      rw [if_pos hcert]
      refine ⟨_, rfl, ⟨?_, ?_, ?_, a3, _, ?_, hva⟩⟩
      · show dget r _ = _ ∨ dget r _ = _
        rw [← hget (by decide)]
        exact hci.type
      · obtain ⟨b, l, p1, p2, p3, p4⟩ := hc.principals
        obtain ⟨l', q1, q2⟩ := records_as_bytes p2
        refine ⟨b, l', ?_, q1, by rw [q2.length_eq]; exact p3, ?_⟩
        · show dget r _ = _
          rw [← hget (by decide)]
          exact p1
        · intro r' hr'
          obtain ⟨x, hx, hrr⟩ := forall₂_right q2.flip hr'
          cases hrr with
          | @text _ cs _ _ _ hn =>
            cases hn
            obtain ⟨s, hs⟩ := zeroFree_iff.1 (p4 _ hx (strOf cs) (by simp [dget]))
            exact ⟨_, s, rfl, hs⟩
          | other hne => exact absurd rfl hne
      · intro n hn
        obtain ⟨b, l, p1, p2⟩ := hc.options n hn
        obtain ⟨l', q1, -⟩ := records_as_bytes p2
        refine ⟨b, l', ?_, q1⟩
        show dget r _ = _
        rw [← hget (by simp only [List.mem_cons, List.not_mem_nil, or_false] at hn ⊢; tauto)]
        exact p1
      · show dget r _ = _
        rw [← hget (by decide)]
        exact a1
    · refine ⟨⟨t', t', r, none⟩, trivial, hv, ?_⟩
      show if isCertType t' = true then _ else _
      rw [if_neg hcert]

/-! ### Files -/

theorem suite_lengths {name : Str} {su : Suite} (h : (name, su) ∈ suites) {cr : Crypto} (hl : DecryptLengths cr)
    {key iv x y : Bytes} (hy : su.tag ≤ y.length) (he : su.dec cr key iv y = .ok x) : y.length = x.length + su.tag := by
  unfold suites at h
  simp only [List.mem_cons, Prod.mk.injEq, List.not_mem_nil, or_false] at h
  rcases h with h | h | h | h | h | h | h | h | h | h | h <;> obtain ⟨rfl, rfl⟩ := h
  · exact hl.sym he
  · exact hl.sym he
  · exact hl.sym he
  · exact hl.sym he
  · exact hl.sym he
  · exact hl.sym he
  · exact hl.sym he
  · exact hl.sym he
  · exact hl.gcm he
  · exact hl.gcm he
  · replace he : chachaOpen cr key iv y = .ok x := he
    replace hy : 16 ≤ y.length := hy
    show y.length = x.length + 16
    unfold chachaOpen at he
    split at he
    · cases he
    · split at he
      · simp only [Except.ok.injEq] at he
        rw [← he, xorStream_length, List.length_take]
        omega
      · cases he

/-- The same values in order are the same to OpenSSH. -/
theorem ssh_same_order {t : Str} {f g : FDict} {pd sd pub priv : VDict} {ws : Bytes} (hf : publicFields t = some f)
    (hg : privateFields t = some g) (hs : EncodesAll g ws sd)
    (hsame : ∀ n v w, dget pd n = some v → dget sd n = some w → v = w)
    (htp : Texts f pub pd) (hts : Texts g priv sd) (hz : ∀ n s, dget sd n = some (.str s) → ZeroFree s) : SshSame t pub priv := by
  intro fmt n fi v hf' hn hv
  rw [hf] at hf'
  cases hf'
  have hrow := table_row hg hf
  have hfn := public_self _ hrow _ hn
  have hgn := public_lookup _ hrow g rfl _ hn
  simp only at hfn hgn
  obtain ⟨-, y, -, b1⟩ := encodesAll_dget hs hgn
  rcases texts_get htp n with ⟨a, -⟩ | ⟨cs, a, a2, a3⟩ | ⟨fi', v', a, a2, a3, a4⟩
  · rw [a] at hv; cases hv
  · rw [hfn] at a
    cases a
    rw [if_pos rfl]
    rw [a2] at hv
    cases hv
    have := hsame _ _ _ a3 b1
    subst this
    rcases texts_get hts n with ⟨-, b⟩ | ⟨cs', b, b2, b3⟩ | ⟨fi', v', b, b2, -, -⟩
    · rw [b] at b1; cases b1
    · rw [b3] at b1
      simp only [Option.some.injEq, Val.str.injEq] at b1
      have := OSK.strOf_inj b1
      subst this
      obtain ⟨x, hx⟩ := zeroFree_iff.1 (hz _ _ b3)
      exact ⟨x, _, _, rfl, b2, hx, hx⟩
    · rw [hgn] at b2
      cases b2
      exact absurd rfl b
  · rw [hfn] at a2
    cases a2
    rw [if_neg a]
    rw [a3] at hv
    cases hv
    have := hsame _ _ _ a4 b1
    subst this
    rcases texts_get hts n with ⟨-, b⟩ | ⟨cs', b, -⟩ | ⟨fi', v', -, -, b2, b3⟩
    · rw [b] at b1; cases b1
    · rw [hgn] at b
      cases b
      exact absurd rfl a
    · rw [b3] at b1
      rw [b2, b1]

/-- The public values of a pair in order are such as OpenSSH asks for, if the private ones are. -/
theorem public_for_ssh {t : Str} {f g : FDict} {pd sd : VDict} {wp ws : Bytes} (hf : publicFields t = some f)
    (hg : privateFields t = some g) (hp : EncodesAll f wp pd) (hs : EncodesAll g ws sd)
    (hsame : ∀ n v w, dget pd n = some v → dget sd n = some w → v = w) (h : ValuesForSsh sd) : ValuesForSsh pd := by
  have key : ∀ n v, dget pd n = some v → dget sd n = some v := by
    intro n v hv
    obtain ⟨fi, hfi⟩ := encodesAll_has hp hv
    obtain ⟨-, y, -, b1⟩ := encodesAll_dget hs (public_lookup _ (table_row hg hf) g rfl _ (dget_mem hfi))
    rw [hsame _ _ _ hv b1]
    exact b1
  exact ⟨fun n i hi => h.unsigned n i (key _ _ hi), fun n s hs => h.texts n s (key _ _ hs)⟩
where
  encodesAll_has {fmt : FDict} {w : Bytes} {d : VDict} (h : EncodesAll fmt w d) {n : Str} {v : Val} (hv : dget d n = some v) :
      ∃ fi, dget fmt n = some fi := by
    induction h with
    | nil => cases hv
    | @cons k fi t w w' v d _ _ ih =>
      by_cases hk : k = n
      · exact ⟨fi, by simp [dget, hk]⟩
      · simp only [dget, if_neg hk] at hv ⊢
        exact ih hv

theorem Spec.SshReads.opens {ext : Ext} {limits : Bytes → SshKey → Prop} {cr : Crypto} {pass : List Char} {b : Bytes} {f : KeyFile}
    {key : SshKey} {pad : Nat} (h : SshReads ext limits cr pass b f key pad) : ∃ plain, SshOpens cr pass f plain := by
  obtain ⟨_, _, _, -, -, -, -, ho⟩ := h.plain
  exact ⟨_, ho⟩

/-- **C100** (files).  A key file in order is one that OpenSSH reads exactly if it is such as OpenSSH asks for. -/
theorem C100_files {ext : Ext} {cr : Crypto} (hl : ∀ {p s n r k}, cr.bcryptKdf p s n r = .ok k → k.length = n)
    (hd : DecryptLengths cr) {inp : Inputs} {passphrase : Option Str} {b post : Bytes} {kl : KeyList}
    (h : FileInOrder ext cr inp passphrase b post kl) (pass : List Char)
    (hp : ∀ h, kl.header = some h → dget h (py! "kdf") ≠ some (.str (py! "none")) → Enters inp passphrase (strOf pass)) :
    (∃ f key pad, SshReads ext (fun _ _ => True) cr pass b f key pad) ↔ FileForSsh cr pass post kl := by
  have hreads : FileReads cr inp passphrase b kl :=
    (C75_accepts ext hl inp passphrase b kl).1 ((file_quiet ext hl inp passphrase b kl).2 ⟨post, h⟩).1
  obtain ⟨f, w, c, keys, o, block, pad, rfl, hlays, hsizes, hkdf, hopen, hc4, hpubs, hprivs, hpad, hmod, hpairs, hbs, hhead, -, hopts,
    -, -, -⟩ := h.parts
  have hgc : ∀ {h}, kl.header = some h → dget h (py! "cipher") = some (.str (strOf f.cipher)) := by
    intro h e
    rw [hhead] at e
    cases e
    simp [dget]
  have hgk : ∀ {h}, kl.header = some h → dget h (py! "kdf") = some (.str (strOf f.kdf)) := by
    intro h e
    rw [hhead] at e
    cases e
    simp [dget]
  have hent : strOf f.kdf ≠ py! "none" → Enters inp passphrase (strOf pass) := by
    intro hne
    refine hp _ hhead ?_
    rw [hgk hhead]
    simpa using hne
  have hc0 := known_cipher hsizes
  have hk0 : 0 ∉ strOf f.kdf := by
    cases hkdf with
    | none h => rw [h]; decide
    | bcrypt h => rw [h]; decide
  constructor
  · rintro ⟨f', key, pad', hs⟩
    have hf : f' = f ∧ w ++ post = w ∧ [] = post := by
      obtain ⟨block', hs', -, -⟩ := hs.sizes
      refine lays_unique hs.lays hlays ?_ (by rw [List.append_nil])
      intro hcc
      rw [← hcc] at hsizes
      have := ssh_sizes hs' (known_cipher hsizes)
      rw [hsizes] at this
      simp at this
      exact this.2.symm
    obtain ⟨rfl, -, rfl⟩ := hf
    have hplain := sshReads_plain hs hent hreads
    obtain ⟨kl', p, _, _, _, fmt, fmt', cs, r1, r2, -, -, -, r7, -, -, r8, r9, -, r10, r11, -⟩ := sshReads_file hs hplain hent
    have : kl' = kl := by
      have e1 := (C75_accepts ext hl inp passphrase _ kl').2 r1
      rw [(C75_accepts ext hl inp passphrase _ kl).2 hreads] at e1
      cases e1
      rfl
    subst this
    refine ⟨rfl, ⟨p, r2, ?_, ?_⟩, ?_, ?_, ?_⟩
    · obtain ⟨c, w, wc, -, hpv, -⟩ := hs.plain
      rw [r2] at hprivs
      cases hprivs with
      | cons k1 _ =>
        obtain ⟨t, k1, -, -, -, k5, -⟩ := k1
        have : t = key.type := by rw [r7] at k5; simpa using k5.symm
        subst this
        obtain ⟨fmt2, _, _, _, q1, -, q3, -⟩ := k1.layout
        have : some fmt2 = some fmt' := q1.symm.trans r8
        cases this
        exact values_for_ssh hpv r8 r9 q3
    · intro s hs'
      rw [r11] at hs'
      simp [dget] at hs'
      subst hs'
      rw [zeroFree_iff, ← r10]
      exact hs.comment
    · intro h cn hh hcn
      rw [hgc hh] at hcn
      cases hcn
      rw [hgk hh]
      obtain ⟨plain, ho⟩ := hs.opens
      cases ho with
      | clear h1 h2 =>
        rw [cname_plain h1 hc0]
        exact ⟨by decide, fun h => absurd rfl h⟩
      | derived h1 h2 =>
        rw [cname_plain h1 hc0]
        exact ⟨by decide, fun h => absurd rfl h⟩
      | cipher h1 h2 h3 h4 =>
        rw [cname_plain h2 hc0, cname_plain h3.1 hk0]
        exact ⟨h1.2, fun _ => by decide⟩
    · intro h hh hne
      rw [hgk hh] at hne
      obtain ⟨plain, ho⟩ := hs.opens
      cases ho with
      | clear h1 h2 => rw [cname_plain h2 hk0] at hne; exact absurd rfl hne
      | derived h1 h2 => exact h2.2.1
      | cipher h1 h2 h3 h4 => exact h3.2.1
    · intro h salt rounds hh hcn ho'
      rw [hgc hh] at hcn
      simp only [Option.some.injEq, Val.str.injEq] at hcn
      rw [hopts] at ho'
      simp only [Option.some.injEq] at ho'
      obtain ⟨plain, ho⟩ := hs.opens
      have hder : ∀ {n r}, SshDerives cr pass f' n r → cr.bcryptKdf (utf8 pass) salt n rounds = .ok r := by
        rintro n r ⟨d1, -, salt', rounds', w', x', d2, d3, d4⟩
        cases hkdf with
        | none e =>
          rw [cname_plain d1 hk0] at e
          exact absurd e (by decide)
        | bcrypt e1 e2 e3 e4 =>
          simp only [bcryptOptions, KdfOptions.mk.injEq, List.cons.injEq, Prod.mk.injEq, Val.bytes.injEq, Val.int.injEq,
            true_and, and_true] at ho'
          obtain ⟨rfl, rfl⟩ := ho'
          rw [e3] at d3
          obtain ⟨rfl, rfl⟩ := bcryptField_unique e2 d2 d3
          exact d4
      cases ho with
      | clear h1 h2 =>
        cases hkdf with
        | none e => cases ho'
        | bcrypt e =>
          rw [cname_plain h2 hk0] at e
          exact absurd e (by decide)
      | derived h1 h2 => exact ⟨_, hder h2⟩
      | cipher h1 h2 h3 h4 =>
        rw [cname_plain h2 hc0] at hcn
        exact absurd hcn (suites_ne_none h1.1)
  · intro hx
    obtain rfl := hx.post
    rw [List.append_nil] at *
    obtain ⟨p, hpp, hval, hcom⟩ := hx.key
    rw [hpp] at hpubs hprivs hpairs
    generalize hfp : f.pubs = pubs at hpubs
    cases hpubs with
    | cons hpub hnil =>
    cases hnil
    rename_i bp
    generalize hkp : countUp pad = cp at hprivs
    cases hprivs with
    | cons hpriv hnil =>
    cases hnil
    obtain ⟨t, k1, k2, -, -, k5, -⟩ := hpub
    obtain ⟨t', l1, l2, -, -, l5, -⟩ := hpriv
    have hpo := hpairs p (by simp)
    have : t' = t := by
      have := hpo.type
      rw [k5, l5] at this
      simpa using this.symm
    subst this
    obtain ⟨fmt, wt, wp, wf, a1, a2, a3, a4, rfl⟩ := k1.layout
    obtain ⟨fmt', wt', wp', wf', b1, b2, b3, b4, rfl⟩ := l1.layout
    have hwf : wf = [] := by
      generalize hnil : afterFields .pub = f, p.pub.footer = e at a4
      cases a4 with
      | nil => rfl
      | cons => cases hnil
    subst hwf
    have hcomment : ∃ cs, dget p.priv.footer (py! "comment") = some (.str (strOf cs)) ∧ Prefixed 4 (utf8 cs) wf' := by
      generalize hft : p.priv.footer = ft at b4
      cases b4 with
      | cons q1 q2 =>
      generalize hfi : FI.pascal .string = fi at q1
      cases q1 <;> cases hfi
      rename_i cs q1
      cases q2
      rw [List.append_nil]
      exact ⟨cs, by simp [dget], q1⟩
    obtain ⟨cs, hcs, hwc⟩ := hcomment
    obtain ⟨r', ht', hv'⟩ := ssh_values_order b1 b2 b3 l2 hval
    obtain ⟨r, ht, hv⟩ := ssh_values_order a1 a2 a3 k2 (public_for_ssh a1 b1 a3 b3 hpo.values hval)
    have hks := hx.kdf _ hhead
    rw [hgk hhead] at hks
    obtain ⟨hrij, hkn⟩ := hx.cipher _ _ hhead (hgc hhead)
    rw [hgk hhead] at hkn
    have hss : SshSizes f block f.tag.length := by
      unfold cipherSizes at hsizes
      split at hsizes
      · rename_i e
        simp only [Option.some.injEq, Prod.mk.injEq] at hsizes
        exact .inl ⟨.inl e, hsizes.1.symm, hsizes.2.symm⟩
      · obtain ⟨su, hs, e⟩ := Option.map_eq_some_iff.1 hsizes
        simp only [Prod.mk.injEq] at e
        exact .inr ⟨_, su, ⟨dget_mem hs, hrij⟩, .inl rfl, e.1.symm, e.2.symm⟩
    have hlen : (c ++ c ++ (wt' ++ wp' ++ wf' ++ cp)).length = f.body.length ∧
        SshOpens cr pass f (c ++ c ++ (wt' ++ wp' ++ wf' ++ cp)) := by
      generalize hpl : c ++ c ++ (wt' ++ wp' ++ wf' ++ cp) = plain at hopen
      cases hopen with
      | none e =>
        have htag : f.tag = [] := by
          rw [e] at hsizes
          have : (8, 0) = (block, f.tag.length) := by simpa [cipherSizes] using hsizes
          simp at this
          exact List.length_eq_zero_iff.1 this.2.symm
        rw [htag, List.append_nil]
        refine ⟨rfl, ?_⟩
        cases hkdf with
        | none e' => exact .clear (.inl e) (.inl e')
        | bcrypt e1 e2 e3 e4 =>
          obtain ⟨r, hr⟩ := hx.derives _ _ _ hhead (by rw [hgc hhead, e]) hopts
          exact .derived (.inl e) ⟨.inl e1, hks (by rw [e1]; decide), _, _, _, _, e2, e3, hr⟩
      | @cipher su r _ e1 e2 e3 =>
        have htag : f.tag.length = su.tag := by
          unfold cipherSizes at hsizes
          rw [if_neg (suites_ne_none e1), dget_of_mem suites_nodup e1] at hsizes
          simp at hsizes
          exact hsizes.2.symm
        refine ⟨?_, ?_⟩
        · have := suite_lengths e1 hd (by rw [List.length_append]; omega) e3
          rw [List.length_append] at this
          omega
        · have hne := suites_ne_none e1
          have hkn := hkn hne
          generalize ho : o = oo at e2
          cases hkdf with
          | none e => rw [e] at hkn; exact absurd rfl hkn
          | bcrypt g1 g2 g3 g4 =>
            cases e2 with
            | none => cases ho
            | bcrypt v1 v2 =>
            simp only [bcryptOptions, KdfOptions.mk.injEq, List.cons.injEq, Prod.mk.injEq, Val.bytes.injEq, Val.int.injEq,
              Int.natCast_inj, true_and, and_true] at ho
            obtain ⟨rfl, rfl⟩ := ho
            have := OSK.strOf_inj (enters_unique v1 (hent (by rw [g1]; decide)))
            subst this
            exact .cipher ⟨e1, hrij⟩ (.inl rfl) ⟨.inl g1, hks (by rw [g1]; decide), _, _, _, _, g2, g3, v2⟩ e3
    obtain ⟨hlen, hso⟩ := hlen
    subst hkp
    have e : c ++ c ++ (wt' ++ wp' ++ wf' ++ countUp pad) = c ++ c ++ (wt' ++ wp') ++ wf' ++ countUp pad := by simp
    refine ⟨f, ⟨t', t', r, t', r', utf8 cs⟩, pad, hlays, trivial, ⟨block, hss, ?_, by rw [← hlen]; exact hmod⟩,
      ⟨wt ++ wp, hv, by rw [hfp]; simp⟩, ⟨c, wt' ++ wp', wf', hc4, hv', hwc, by rw [← e]; exact hlen, by rw [← e]; exact hso⟩,
      zeroFree_iff.1 (hcom _ hcs), ssh_same_order a1 b1 b3 hpo.values ht ht' hval.texts⟩
    rw [← hlen]
    refine Nat.le_of_dvd ?_ (Nat.dvd_of_mod_eq_zero hmod)
    simp only [List.length_append]
    omega

/-! ### Examples -/

/-- Keys in order are those that are read with every warning raised. -/
theorem keyInOrder_strict {ext : Ext} {kind : Kind} {b : Bytes} {k : Key} :
    (@Filtered.fromBytes exStrict ext kind b none).res = .ok k ↔ KeyInOrder ext kind b k [] := by
  rw [C98_keys_partial ext kind b none rfl k]
  constructor
  · rintro ⟨t, p, f, h1, h2, h3, h4, h5, h6, rfl, rfl, h9⟩
    exact ⟨t, h1, h2, h3, h4, h5, h6, h9⟩
  · rintro ⟨t, h1, h2, h3, h4, h5, h6, h9⟩
    exact ⟨t, _, _, h1, h2, h3, h4, h5, h6, rfl, rfl, h9⟩

theorem toyCrypto_lengths : DecryptLengths toyCrypto where
  sym := by
    intro alg mode key iv x y h
    simp only [toyCrypto] at h
    split at h
    · cases h
    · cases h
      exact (xorStream_length _ _ _).symm
  gcm := by
    intro key iv x y h
    simp only [toyCrypto] at h
    split at h
    · cases h
    · split at h
      · rename_i e
        have := congrArg List.length e
        simp only [List.length_drop, List.length_replicate] at this
        cases h
        rw [xorStream_length, List.length_take]
        omega
      · cases h

/-- Non-vacuous: an RSA key in order is such as OpenSSH asks for. -/
example : ∃ k, KeyInOrder exExt .pub exRsaWire k [] ∧ PublicForSsh k := by
  have h : KeyInOrder exExt .pub exRsaWire
      ⟨.pub, exRsaHeader, ⟨.rsaPub, [(py! "e", .int 17), (py! "n", .int 3233)]⟩, [], []⟩ [] :=
    keyInOrder_strict.1 (strict_of_quiet (Eff.ext (by decide +kernel) (by decide +kernel)))
  obtain ⟨r, hr⟩ := exRsa_values
  exact ⟨_, h, (C100_keys h).1 ⟨⟨_, _, r, none⟩, trivial, hr, rfl⟩⟩

/-- Non-vacuous: a certificate with two options is in order. -/
example : KeyInOrder exExt .pub exOrderWire ⟨.pub, exCertHeader, ⟨.certRsa, exOrderParams⟩, [], []⟩ [] :=
  keyInOrder_strict.1 (strict_of_quiet exOrder_read)

/-- A certificate in order with half a record in a list is one that OpenSSH does not read. -/
example : KeyInOrder exExt .pub exLooseWire ⟨.pub, exCertHeader, ⟨.certRsa, exLooseParams⟩, [], []⟩ [] ∧
    ¬ ∃ key, SshPublic exExt (fun _ => True) exLooseWire key := by
  have h := keyInOrder_strict.1 (strict_of_quiet exLoose_read)
  refine ⟨h, fun hx => ?_⟩
  obtain ⟨b, l, h1, h2, -⟩ := (((C100_keys h).1 hx).cert (py! "ssh-rsa-cert-v01@openssh.com") (by decide +kernel) (by decide +kernel)).principals
  have : b = [0, 0, 0, 5] := by
    have h : dget exLooseParams (py! "valid_principals") = some (.bytes [0, 0, 0, 5]) := by decide +kernel
    rw [h] at h1
    cases h1; rfl
  subst this
  have h3 : (readRepeatedly principalFmt (Stream.of [0, 0, 0, 5])).1.toOption = some [] := by decide +kernel
  have h4 := ((C74_lists (py! "valid_principals") principalFmt (by decide) [0, 0, 0, 5]).1 l).2
    ⟨[], h2, .here (CutOff.length (p := .string) (r := []) (by simp))⟩
  rw [h4] at h3
  cases h3
  generalize hx : ([0, 0, 0, 5] : Bytes) = x at h2
  cases h2
  cases hx

/-- Nor a key in order with a negative number. -/
example : KeyInOrder exExt .pub exNegativeWire exNegative [] ∧ ¬ ∃ key, SshPublic exExt (fun _ => True) exNegativeWire key := by
  have h : KeyInOrder exExt .pub exNegativeWire exNegative [] :=
    keyInOrder_strict.1 (strict_of_quiet (Eff.ext (by decide +kernel) (by decide +kernel)))
  exact ⟨h, fun hx => absurd (((C100_keys h).1 hx).values.unsigned (py! "e") (-1) rfl) (by decide)⟩

/-- The file is in order, and it names no key derivation function. -/
theorem exSshFile_order (post : Bytes)
    (hq : (listFromBytes exExt toyCrypto exInputs (exSshFile exSshType 109 101 3 ++ post) none).log = [])
    (hr : ((listFromBytes exExt toyCrypto exInputs (exSshFile exSshType 109 101 3 ++ post) none).res.toOption.bind
      (fun kl => kl.header.bind (fun h => dget h (py! "kdf")))) = some (.str (py! "none"))) :
    ∃ kl post', FileInOrder exExt toyCrypto exInputs none (exSshFile exSshType 109 101 3 ++ post) post' kl ∧
      ∀ h, kl.header = some h → dget h (py! "kdf") = some (.str (py! "none")) := by
  rcases e : (listFromBytes exExt toyCrypto exInputs (exSshFile exSshType 109 101 3 ++ post) none).res with x | kl
  · rw [e] at hr; cases hr
  · obtain ⟨post', h⟩ := (file_quiet exExt toyCrypto_laws.kdf_length exInputs none _ kl).1 ⟨e, by simp [hq]⟩
    refine ⟨kl, post', h, fun hd hh => ?_⟩
    rw [e] at hr
    simpa [Except.toOption, hh] using hr

/-- Non-vacuous: a file in order, with one Ed25519 key, is such as OpenSSH asks for. -/
example : ∃ kl post, FileInOrder exExt toyCrypto exInputs none (exSshFile exSshType 109 101 3) post kl ∧
    FileForSsh toyCrypto [] post kl := by
  obtain ⟨kl, post, h, hk⟩ := exSshFile_order [] (by decide +kernel) (by decide +kernel)
  rw [List.append_nil] at h
  exact ⟨kl, post, h, (C100_files toyCrypto_laws.kdf_length toyCrypto_lengths h []
    (fun hd hh hne => absurd (hk hd hh) hne)).1 ⟨_, _, _, exSsh_me []⟩⟩

/-- A file in order with something after it is one that OpenSSH does not read. -/
example : ∃ kl post, FileInOrder exExt toyCrypto exInputs none (exSshFile exSshType 109 101 3 ++ [1]) post kl ∧
    ¬ ∃ pass f key pad, SshReads exExt (fun _ _ => True) toyCrypto pass (exSshFile exSshType 109 101 3 ++ [1]) f key pad := by
  obtain ⟨kl, post, h, hk⟩ := exSshFile_order [1] (by decide +kernel) (by decide +kernel)
  obtain ⟨kl', post', h', hk'⟩ := exSshFile_order [] (by decide +kernel) (by decide +kernel)
  refine ⟨kl, post, h, ?_⟩
  rintro ⟨pass, hx⟩
  have hp := ((C100_files toyCrypto_laws.kdf_length toyCrypto_lengths h pass
    (fun hd hh hne => absurd (hk hd hh) hne)).1 hx).post
  rw [List.append_nil] at h'
  have hp' := ((C100_files toyCrypto_laws.kdf_length toyCrypto_lengths h' []
    (fun hd hh hne => absurd (hk' hd hh) hne)).1 ⟨_, _, _, exSsh_me []⟩).post
  subst hp hp'
  obtain ⟨f, w, _, _, _, _, _, e, hf, hs, -⟩ := h.parts
  obtain ⟨f', w', _, _, _, _, _, e', hf', hs', -⟩ := h'.parts
  rw [List.append_nil] at e e'
  subst e e'
  obtain ⟨-, -, hx⟩ := lays_unique (r := [1]) (r' := []) hf' hf (fun hc => by
    rw [hc, hs] at hs'
    simp at hs'
    omega) (by simp)
  cases hx

end OSK
