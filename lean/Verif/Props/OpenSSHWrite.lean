import Verif.Props.OpenSSH
import Verif.Props.PackList
/-
Property C94: OpenSSH reads what the package writes.
-/
namespace OSK
open Spec

theorem stores_encodes {fi : FI} {v : Val} {w : Bytes} (h : Stores fi v w) : Encodes fi w v := by
  cases h with
  | bytes h => exact .bytes h
  | text h => exact .text h
  | mpint h1 h2 h3 => rw [← h2.1]; exact .mpint h3
  | uint => exact .uint

theorem storesAll_encodes {d : VDict} {fmt : FDict} {w : Bytes} (h : StoresAll d fmt w) : EncodesAll fmt w (named fmt d) := by
  induction h with
  | nil => exact .nil
  | @cons k fi t v w w' h1 h2 _ ih =>
    have e : named ((k, fi) :: t) d = (k, v) :: named t d := by
      simp [named, h1]
    rw [e]
    exact .cons (stores_encodes h2) ih

theorem storesAll_get {d : VDict} {fmt : FDict} {w : Bytes} (h : StoresAll d fmt w) {k : Str} {fi : FI} (hk : (k, fi) ∈ fmt) :
    ∃ v x, dget d k = some v ∧ Stores fi v x := by
  induction h with
  | nil => simp at hk
  | cons h1 h2 _ ih =>
    rcases List.mem_cons.1 hk with e | hk
    · cases e
      exact ⟨_, _, h1, h2⟩
    · exact ih hk

theorem selection_unique {α : Type} {l : List α} {I : Option (List Int)} {s s' : List α} (h : Selection l I s)
    (h' : Selection l I s') : s = s' := by
  cases I with
  | none => rw [show s = l from h, show s' = l from h']
  | some I =>
    replace h : List.Forall₂ (At l) I s := h
    replace h' : List.Forall₂ (At l) I s' := h'
    induction h generalizing s' with
    | nil => cases h'; rfl
    | cons h1 _ ih =>
      cases h' with
      | cons g1 g2 =>
        have e := (pyIndex_ok.2 h1).symm.trans (pyIndex_ok.2 g1)
        simp only [Except.ok.injEq] at e
        rw [e, ih g2]

theorem uses_of {inp : Inputs} {self : KeyList} {retain : Bool} {opts : VDict} {salt : Bytes} {rounds : Nat}
    (h : OptionsFor inp self retain (py! "bcrypt") opts) (h1 : dget opts (py! "salt") = some (.bytes salt))
    (h2 : dget opts (py! "rounds") = some (.int rounds)) : Uses inp self retain salt rounds := by
  rcases h with ⟨o, a, b, rfl⟩ | ⟨a, rfl⟩
  · exact .inl ⟨o, a, b, h1, h2⟩
  · refine .inr ⟨a, ?_, ?_⟩
    · have : inp.tokenBytes 16 = salt := by simpa [freshOptions, dget] using h1
      exact this.symm
    · have : (16 : Int) = rounds := by simpa [freshOptions, dget] using h2
      omega

theorem utf8_char_zero (c : Char) (h : (0 : UInt8) ∈ String.utf8EncodeChar c) : c.toNat = 0 := by
  have e : c.val.toNat = c.toNat := rfl
  have hv : c.toNat < 0x110000 := by
    have : c.toNat < 0xD800 ∨ (0xDFFF < c.toNat ∧ c.toNat < 0x110000) := c.valid
    omega
  have hz : ∀ n : Nat, n < 256 → (0 : UInt8) = n.toUInt8 → n = 0 := by
    intro n hn h
    have := congrArg UInt8.toNat h
    simp at this
    omega
  unfold String.utf8EncodeChar at h
  simp only [e] at h
  generalize c.toNat = n at h hv
  split at h
  · have h : (0 : UInt8) = n.toUInt8 := by simpa using h
    exact hz _ (by omega) h
  exfalso
  repeat' split at h
  all_goals
    simp only [List.mem_cons, List.not_mem_nil, or_false] at h
    repeat' rcases h with h | h
  all_goals
    have := hz _ (by omega) h
    omega

theorem utf8_zero {cs : List Char} (h : 0 ∉ strOf cs) : 0 ∉ utf8 cs := by
  intro hz
  obtain ⟨c, hc, hz⟩ := List.mem_flatMap.1 hz
  exact h (List.mem_map.2 ⟨c, hc, utf8_char_zero c hz⟩)

theorem storesAll_texts {d : VDict} {fmt : FDict} {w : Bytes} (h : StoresAll d fmt w) :
    ∃ r, EncodesAll (withBytes fmt) w r ∧ Texts fmt r (named fmt d) := by
  induction h with
  | nil => exact ⟨[], .nil, .nil⟩
  | @cons k fi t v w w' h1 h2 _ ih =>
    obtain ⟨r, h3, h4⟩ := ih
    have e : named ((k, fi) :: t) d = (k, v) :: named t d := by
      simp [named, h1]
    rw [e]
    by_cases hfi : fi = .pascal .string
    · subst hfi
      generalize hfi : FI.pascal .string = fi at h2
      cases h2 <;> cases hfi
      rename_i cs hp
      refine ⟨(k, .bytes (utf8 cs)) :: r, ?_, .text h4⟩
      show EncodesAll ((k, if FI.pascal .string = .pascal .string then .pascal .bytes else .pascal .string) :: withBytes t) _ _
      rw [if_pos rfl]
      exact .cons (.bytes hp) h3
    · refine ⟨(k, v) :: r, ?_, .other hfi h4⟩
      show EncodesAll ((k, if fi = .pascal .string then .pascal .bytes else fi) :: withBytes t) _ _
      rw [if_neg hfi]
      exact .cons (stores_encodes h2) h3

/-- What is written of sound key material is a key to OpenSSH. -/
theorem ssh_values_of {ext : Ext} {kind : Kind} {t : Str} {fmt f : FDict} {d : VDict} {wt w : Bytes}
    (hf : fieldsOf kind t = some fmt) (hpub : publicFields t = some f)
    (hwt : Encodes (.pascal .string) wt (.str t)) (hs : StoresAll d fmt w)
    (hneg : Unsigned (named fmt d)) (hz : ∀ n s, dget (named fmt d) n = some (.str s) → 0 ∉ s)
    (hm : ∀ m, MaterialFault ext kind t d m → m = .ed25519PublicMismatch) :
    ∃ r, Texts fmt r (named fmt d) ∧ SshValues ext kind t t r (wt ++ w) := by
  obtain ⟨r, hr, ht⟩ := storesAll_texts hs
  obtain ⟨g, hrow⟩ := public_row hpub
  have hsub : ∀ x ∈ f, dget fmt x.1 = some x.2 := by
    cases kind
    · have : some f = some fmt := hpub.symm.trans hf
      cases this
      exact public_self _ hrow
    · exact public_lookup _ (table_row hf hpub) _ rfl
  have text : ∀ {n b}, dget fmt n = some (.pascal .string) → dget r n = some (.bytes b) →
      ∃ cs, b = utf8 cs ∧ dget (named fmt d) n = some (.str (strOf cs)) := by
    intro n b h1 h2
    rcases texts_get ht n with ⟨a, -⟩ | ⟨cs, -, a, a'⟩ | ⟨fi, v, a, a', -⟩
    · rw [a] at h2; cases h2
    · rw [a] at h2
      cases h2
      exact ⟨cs, rfl, a'⟩
    · rw [h1] at a'
      cases a'
      exact absurd rfl a
  have bytes : ∀ {n}, dget fmt n = some (.pascal .bytes) → ∃ b, dget r n = some (.bytes b) ∧ dget d n = some (.bytes b) := by
    intro n h1
    obtain ⟨v, x, h2, h3⟩ := storesAll_get hs (dget_mem h1)
    generalize hfi : FI.pascal .bytes = fi at h3
    cases h3 <;> cases hfi
    rename_i q hq
    refine ⟨q, ?_, h2⟩
    have h2' : dget (named fmt d) n = some (.bytes q) := by
      rw [dget_named, if_pos (mem_dkeys (dget_mem h1)), h2]
    rcases texts_get ht n with ⟨-, a⟩ | ⟨cs, a, -⟩ | ⟨fi, v, -, -, a, a'⟩
    · rw [a] at h2'; cases h2'
    · rw [h1] at a; cases a
    · rw [a'] at h2'
      rw [a, h2']
  refine ⟨r, ht, ⟨⟨t, .own, .inl rfl⟩, ⟨fmt, wt, w, hf, hwt, hr, rfl⟩, ?_, ?_, ?_, ?_, ?_⟩⟩
  · intro fmt' k b hf' hk hb
    rw [hf] at hf'
    cases hf'
    have hk' : dget fmt k = some (.pascal .string) := dget_of_mem (fields_nodup hf) hk
    obtain ⟨cs, rfl, h⟩ := text hk' hb
    exact ⟨_, utf8_zero (hz _ _ h), .inl rfl⟩
  · intro n i h
    rcases texts_get ht n with ⟨a, -⟩ | ⟨cs, -, a, -⟩ | ⟨fi, v, -, a, a', a''⟩
    · rw [a] at h; cases h
    · rw [a] at h; cases h
    · rw [a'] at h
      cases h
      exact hneg _ _ a''
  · intro c oid hc
    obtain ⟨h1, h2⟩ := curve_fields _ hrow _ hc rfl
    obtain ⟨v, x, a1, a3⟩ := storesAll_get hs (dget_mem (hsub _ h1))
    obtain ⟨q, b1, b2⟩ := bytes (hsub _ h2)
    have hv : v = .str c := by
      by_contra hne
      have := hm _ (.curve hc a1 hne)
      cases this
    subst hv
    have a1' : dget (named fmt d) (py! "identifier") = some (.str c) := by
      rw [dget_named, if_pos (mem_dkeys (dget_mem (hsub _ h1))), a1]
    refine ⟨?_, q, b1, ?_⟩
    · rcases texts_get ht (py! "identifier") with ⟨-, a⟩ | ⟨cs, -, a, a'⟩ | ⟨fi, v, a, a', -⟩
      · rw [a] at a1'; cases a1'
      · rw [a'] at a1'
        simp only [Option.some.injEq, Val.str.injEq] at a1'
        obtain ⟨k1, k2⟩ := curve_names _ hc
        simp only at k1 k2
        have hcs : cs = c.map Char.ofNat := strOf_inj (a1'.trans k2.symm)
        refine ⟨_, a, ?_, .inl ?_⟩
        · rw [← k1]
          exact utf8_zero (by rw [k2, ← a1']; exact hz _ _ a')
        · rw [hcs, k1]
      · rw [hsub _ h1] at a'
        cases a'
        exact absurd rfl a
    · by_contra hne
      have := hm _ (.point hc a1 b2 (by simpa using hne))
      cases this
  · intro he
    obtain ⟨q, b1, b2⟩ := bytes (hsub _ (ed_fields _ hrow he))
    refine ⟨q, b1, ?_⟩
    by_contra hne
    have := hm _ (.edLength he b2 hne)
    cases this
  · intro hk he
    subst hk
    obtain ⟨s, a1, a2⟩ := bytes (dget_of_mem (fields_nodup hf) (ed_private_fields _ (table_row hf hpub) he _ rfl))
    obtain ⟨q, b1, b2⟩ := bytes (hsub _ (ed_fields _ hrow (show t ∈ ed25519Table by rw [he]; decide +kernel)))
    refine ⟨s, a1, ?_⟩
    by_contra hne
    have := hm _ (.edPrivate rfl he b2 a2 (by simp; omega))
    cases this

/-- The same public values are written in both keys. -/
theorem ssh_same_of {t : Str} {f g : FDict} {pd sd pub priv : VDict} {wp ws : Bytes}
    (hf : publicFields t = some f) (hg : privateFields t = some g) (hp : StoresAll pd f wp) (hs : StoresAll sd g ws)
    (hsame : ∀ n v w, dget pd n = some v → dget sd n = some w → v = w)
    (htp : Texts f pub (named f pd)) (hts : Texts g priv (named g sd))
    (hz : ∀ n s, dget sd n = some (.str s) → 0 ∉ s) : SshSame t pub priv := by
  intro fmt n fi v hf' hn hv
  rw [hf] at hf'
  cases hf'
  have hrow := table_row hg hf
  have hfn := public_self _ hrow _ hn
  have hgn := public_lookup _ hrow g rfl _ hn
  simp only at hfn hgn
  obtain ⟨x, -, a1, -⟩ := storesAll_get hp hn
  obtain ⟨y, -, b1, -⟩ := storesAll_get hs (dget_mem hgn)
  have := hsame _ _ _ a1 b1
  subst this
  have a1' : dget (named f pd) n = some x := by rw [dget_named, if_pos (mem_dkeys hn), a1]
  have b1' : dget (named g sd) n = some x := by rw [dget_named, if_pos (mem_dkeys (dget_mem hgn)), b1]
  rcases texts_get htp n with ⟨a, -⟩ | ⟨cs, a, a2, a3⟩ | ⟨fi', v', a, a2, a3, a4⟩
  · rw [a] at hv; cases hv
  · rw [hfn] at a
    cases a
    rw [if_pos rfl]
    rw [a2] at hv
    cases hv
    rw [a3] at a1'
    cases a1'
    rcases texts_get hts n with ⟨-, b⟩ | ⟨cs', b, b2, b3⟩ | ⟨fi', v', b, b2, -, -⟩
    · rw [b] at b1'; cases b1'
    · rw [b3] at b1'
      simp only [Option.some.injEq, Val.str.injEq] at b1'
      have := strOf_inj b1'
      subst this
      have := utf8_zero (hz _ _ b1)
      exact ⟨_, _, _, rfl, b2, ⟨this, .inl rfl⟩, ⟨this, .inl rfl⟩⟩
    · rw [hgn] at b2
      cases b2
      exact absurd rfl b
  · rw [hfn] at a2
    cases a2
    rw [if_neg a]
    rw [a3] at hv
    cases hv
    rw [a4] at a1'
    cases a1'
    rcases texts_get hts n with ⟨-, b⟩ | ⟨cs', b, -⟩ | ⟨fi', v', -, -, b2, b3⟩
    · rw [b] at b1'; cases b1'
    · rw [hgn] at b
      cases b
      exact absurd rfl a
    · rw [b3] at b1'
      rw [b2, b1']

/-- **C94.**  If the package packs exactly one pair of keys, with the same public values in both, without negative numbers, with
sound key material, without a zero character in texts and the comment, with another cipher than
`rijndael-cbc@lysator.liu.se`, and with a passphrase that is not empty if it is encrypted, then OpenSSH reads the file, and
the key in it is the pair's (as far as limits of OpenSSH on sizes and numbers allow).  With cipher `none` but key derivation `bcrypt` the derivation must not fail, as OpenSSH tries it.
What is missing: other numbers of keys and the other cases that are excluded (`C94_false`). -/
theorem C94_written_partial {ext : Ext} {cr : Crypto} (hl : CryptoLaws cr) (limits : Bytes → SshKey → Prop) (inp : Inputs)
    (self : KeyList) (passphrase : Option Str) (indices : Option (List Int)) (override retain : Bool) (w : Bytes)
    (hc : AllConstructed ext self.pairs) (hi : inp.checkInt < 2 ^ 32)
    (h : (packKeyList cr inp self passphrase indices override retain).res = .ok w)
    (p : Pair) (hsel : Selection self.pairs indices [p])
    (hov : override = true ∨ ¬ TypesDiffer p ∧ ¬ ValuesDiffer p)
    (hneg : Unsigned p.priv.params.data)
    (htext : ∀ n s, dget p.priv.params.data n = some (.str s) → 0 ∉ s)
    (hcom : ∀ s, dget p.priv.footer (py! "comment") = some (.str s) → 0 ∉ s)
    (t : Str) (ht : dget p.priv.header (py! "key_type") = some (.str t))
    (hm : ∀ m, MaterialFault ext .priv t p.priv.params.data m → m = .ed25519PublicMismatch)
    (cipher kdf : Str) (hn : Names self cipher kdf) (hrij : cipher ≠ py! "rijndael-cbc@lysator.liu.se")
    (pass : List Char) (hp : kdf ≠ py! "none" → pass ≠ [] ∧ Enters inp passphrase (strOf pass))
    (hd : cipher = py! "none" → ∀ salt rounds, Uses inp self retain salt rounds →
      ∃ r, cr.bcryptKdf (utf8 pass) salt 8 (rounds : Nat) = .ok r) :
    ∃ f key pad, key.type = t ∧ (∃ fmt, privateFields t = some fmt ∧ Texts fmt key.priv (named fmt p.priv.params.data)) ∧
      (∃ cs, dget p.priv.footer (py! "comment") = some (.str (strOf cs)) ∧ key.comment = utf8 cs) ∧
      (limits w key → SshReads ext limits cr pass w f key pad) := by
  rcases C91_complete ext inp self indices override retain hc hi with ⟨e, he⟩ | ⟨ci, k, opts, ob, pubs, plain, hprep⟩
  · have := congrArg Eff.res (C91_unprepared ext cr inp self passphrase indices override retain e hc hi he)
    rw [h] at this
    cases this
  have hfin := ((C91_prepared ext cr hl inp self passphrase indices override retain ci k opts ob pubs plain hc hi hprep).2 _).1 h
  obtain ⟨sel, privs, ⟨block, tagl⟩, ⟨⟨hopt, hcl, hol, hcount⟩, hsel', hpubs⟩, hprivs, hsizes, hsec⟩ := hprep
  obtain ⟨hnm, hof, fmtk, hkf, hob⟩ := hopt
  have e := selection_unique hsel' hsel
  subst e
  have hnames := names_iff.2 hn
  rw [named_iff.2 hnm] at hnames
  simp only [Prod.mk.injEq, Val.str.injEq] at hnames
  obtain ⟨rfl, rfl⟩ := hnames
  cases hpubs with
  | cons hpub hnil =>
  cases hnil
  cases hprivs with
  | cons hpriv hnil =>
  cases hnil
  obtain ⟨⟨t1, fmt, wt, wp, a1, a2, a3, a4, rfl⟩, hplen⟩ := hpub
  obtain ⟨t2, fmt', wt', wp', wc, b1, b2, b3, b4, b5, rfl⟩ := hpriv
  rw [ht] at b1
  cases b1
  obtain ⟨c, pad, s1, s2, s3, s4, rfl⟩ := hsec
  -- the public values are the private ones
  have hsame : ∀ n v x, dget (publicOf override p).params.data n = some v → dget p.priv.params.data n = some x → v = x := by
    intro n v x hv hx
    rcases hov with rfl | ⟨-, hvd⟩
    · have : dget p.priv.params.data n = some v := hv
      rw [hx] at this
      cases this
      rfl
    · by_contra hne
      cases override
      · exact hvd ⟨n, v, x, hv, hx, hne⟩
      · have : dget p.priv.params.data n = some v := hv
        rw [hx] at this
        cases this
        exact hne rfl
  have htype : t1 = t := by
    rcases hov with rfl | ⟨htd, -⟩
    · have : dget p.priv.header (py! "key_type") = some (.str t1) := a1
      rw [ht] at this
      cases this
      rfl
    · cases override
      · have : dget p.pub.header (py! "key_type") = some (.str t1) := a1
        unfold TypesDiffer at htd
        rw [this, ht] at htd
        simpa using htd
      · have : dget p.priv.header (py! "key_type") = some (.str t1) := a1
        rw [ht] at this
        cases this
        rfl
  subst htype
  -- the comment
  cases b5 with
  | cons c1 c2 c3 =>
  cases c3
  rename_i cv wc
  generalize hfi : FI.pascal .string = fi at c2
  cases c2 <;> cases hfi
  rename_i cs hcs
  cases hfin with
  | file f1 f2 f3 f4 =>
  rename_i pw ks body tag
  subst f3
  -- sizes
  have hblk : 0 < block := by
    unfold cipherSizes at hsizes
    split at hsizes
    · simp at hsizes; omega
    · rcases Option.map_eq_some_iff.1 hsizes with ⟨su, hsu, e⟩
      simp only [Prod.mk.injEq] at e
      have := suite_sizes (dget_mem hsu)
      omega
  have hlens : body.length = (c ++ c ++ [wt' ++ wp' ++ (wc ++ [])].flatten ++ countUp pad).length ∧ tag.length = tagl := by
    generalize hr : (Except.ok (body, tag) : Except Exn (Bytes × Bytes)) = r at f2
    cases f2 with
    | clear h1 =>
      cases hr
      rw [h1] at hsizes
      have : (8, 0) = (block, tagl) := by simpa [cipherSizes] using hsizes
      simp only [Prod.mk.injEq] at this
      exact ⟨rfl, this.2⟩
    | noKey => cases hr
    | refused => cases hr
    | sealed h1 h2 h3 h4 =>
      cases hr
      have := (suite_inv h1 hl h3).2
      rw [List.length_append, h4] at this
      refine ⟨by omega, ?_⟩
      rw [h4]
      unfold cipherSizes at hsizes
      rw [if_neg (suites_ne_none h1), dget_of_mem suites_nodup h1] at hsizes
      simp at hsizes
      exact hsizes.2
  have hopen : SshOpens cr pass ⟨ci, ks, ob, [wt ++ wp], body, tag⟩ (c ++ c ++ [wt' ++ wp' ++ (wc ++ [])].flatten ++ countUp pad) := by
    have hder : strOf ks = py! "bcrypt" → ∃ salt rounds, BcryptField salt rounds ob ∧
        dget opts (py! "salt") = some (.bytes salt) ∧ dget opts (py! "rounds") = some (.int (rounds : Nat)) := by
      intro hk
      rw [hk] at hkf hof hp
      have : fmtk = kdfFmt .bcrypt := by
        simp [kdfFields] at hkf
        exact hkf
      subst this
      obtain ⟨salt, rounds, g1, g2⟩ := bcrypt_options (storesAll_pack hob)
      have hsalt : dget opts (py! "salt") = some (.bytes salt) := by
        have := dget_named (kdfFmt .bcrypt) opts (py! "salt")
        rw [g1, if_pos (by decide)] at this
        rw [← this]; rfl
      have hrounds : dget opts (py! "rounds") = some (.int rounds) := by
        have := dget_named (kdfFmt .bcrypt) opts (py! "rounds")
        rw [g1, if_pos (by decide)] at this
        rw [← this]; rfl
      exact ⟨salt, rounds, g2, hsalt, hrounds⟩
    generalize hr : (Except.ok (body, tag) : Except Exn (Bytes × Bytes)) = r at f2
    cases f2 with
    | noKey => cases hr
    | refused => cases hr
    | clear h1 =>
      cases hr
      by_cases hk : strOf ks = py! "none"
      · exact .clear (.inl h1) (.inl hk)
      · have hk' : strOf ks = py! "bcrypt" := by
          simp [kdfFields] at hkf
          rcases hkf with ⟨e, -⟩ | ⟨e, -⟩
          · exact absurd e hk
          · exact e
        obtain ⟨salt, rounds, g1, g2, g3⟩ := hder hk'
        obtain ⟨r, hr⟩ := hd h1 salt rounds (uses_of (hk' ▸ hof) g2 g3)
        exact .derived (.inl h1) ⟨.inl hk', (hp hk).1, salt, rounds, ob, [], g1, by simp, hr⟩
    | @sealed su r body' tag' h1 h2 h3 h4 =>
      cases hr
      generalize hx : (Except.ok r : Except Exn Bytes) = x at h2
      cases h2 with
      | none h =>
        cases hx
        obtain ⟨m, hm⟩ := suite_empty h1 hl ((([] : Bytes).drop su.key)) (c ++ c ++ [wt' ++ wp' ++ (wc ++ [])].flatten ++ countUp pad)
        rw [List.take_nil, hm] at h3
        cases h3
      | surrogate => cases hx
      | @bcrypt cs' salt rounds hk g2 g3 =>
        obtain ⟨salt', rounds', g1, g2', g3'⟩ := hder hk
        rw [g2] at g2'
        rw [g3] at g3'
        cases g2'
        cases g3'
        have hne : strOf ks ≠ py! "none" := by rw [hk]; decide
        have : cs' = pass := by
          apply strOf_inj
          refine enters_unique (inp := inp) (passphrase := passphrase) ?_ (hp hne).2
          unfold passphraseFor at f1
          rw [if_neg hne] at f1
          cases passphrase with
          | none => exact .inr ⟨rfl, f1⟩
          | some p => exact .inl (by simpa using f1)
        subst this
        refine .cipher ⟨h1, hrij⟩ (.inl rfl) ⟨.inl hk, (hp hne).1, salt, rounds', ob, [], g1, by simp, hx.symm⟩ (suite_inv h1 hl h3).1
  have hmp : ∀ m, MaterialFault ext .pub t1 (publicOf override p).params.data m → m = .ed25519PublicMismatch := by
    have hrow := table_row b2 a2
    have hget : ∀ {n fi v}, (n, fi) ∈ fmt → dget (publicOf override p).params.data n = some v →
        dget p.priv.params.data n = some v := by
      intro n fi v hn hv
      obtain ⟨x, -, h1, -⟩ := storesAll_get b4 (public_in_private _ hrow fmt' rfl _ hn)
      rw [h1, hsame _ _ _ hv h1]
    intro m hf
    cases hf with
    | curve e1 e2 e3 => exact hm _ (.curve e1 (hget (curve_fields _ hrow _ e1 rfl).1 e2) e3)
    | point e1 e2 e3 e4 =>
      exact hm _ (.point e1 (hget (curve_fields _ hrow _ e1 rfl).1 e2) (hget (curve_fields _ hrow _ e1 rfl).2 e3) e4)
    | edLength e1 e2 e3 => exact hm _ (.edLength e1 (hget (ed_fields _ hrow e1) e2) e3)
    | edMismatch e1 => cases e1
    | edPrivate e1 => cases e1
  have hback : ∀ {n v}, dget (named fmt (publicOf override p).params.data) n = some v → dget p.priv.params.data n = some v := by
    intro n v hv
    rw [dget_named] at hv
    split at hv
    · rename_i hn
      obtain ⟨⟨n', fi⟩, hn', rfl⟩ := List.mem_map.1 hn
      obtain ⟨x, -, h1, -⟩ := storesAll_get b4 (public_in_private _ (table_row b2 a2) fmt' rfl _ hn')
      rw [h1, hsame _ _ _ hv h1]
    · cases hv
  have hown : ∀ {n v}, dget (named fmt' p.priv.params.data) n = some v → dget p.priv.params.data n = some v := by
    intro n v hv
    rw [dget_named] at hv
    split at hv
    · exact hv
    · cases hv
  obtain ⟨pub, htp, hvp⟩ := ssh_values_of (ext := ext) (kind := .pub) a2 a2 (stores_encodes a3) a4
    (fun n i hn => hneg n i (hback hn)) (fun n s hn => htext n s (hback hn)) hmp
  obtain ⟨priv, hts, hvs⟩ := ssh_values_of (ext := ext) (kind := .priv) b2 a2 (stores_encodes b3) b4
    (fun n i hn => hneg n i (hown hn)) (fun n s hn => htext n s (hown hn)) hm
  refine ⟨⟨ci, ks, ob, [wt ++ wp], body, tag⟩, ⟨t1, t1, pub, t1, priv, utf8 cs⟩, pad, rfl, ⟨fmt', b2, hts⟩, ⟨cs, c1, rfl⟩,
    fun hlim => ?_⟩
  have ewp : c ++ c ++ [wt' ++ wp' ++ (wc ++ [])].flatten ++ countUp pad = c ++ c ++ (wt' ++ wp') ++ wc ++ countUp pad := by simp
  rw [ewp] at hopen hlens s4
  constructor
  · exact f4
  · exact hlim
  · refine ⟨block, ?_, ?_, ?_⟩
    · show SshSizes _ _ tag.length
      rw [hlens.2]
      unfold cipherSizes at hsizes
      split at hsizes
      · rename_i e
        simp only [Option.some.injEq, Prod.mk.injEq] at hsizes
        exact .inl ⟨.inl e, hsizes.1.symm, hsizes.2.symm⟩
      · obtain ⟨su, hsu, e⟩ := Option.map_eq_some_iff.1 hsizes
        simp only [Prod.mk.injEq] at e
        exact .inr ⟨_, su, ⟨dget_mem hsu, hrij⟩, .inl rfl, e.1.symm, e.2.symm⟩
    · show block ≤ body.length
      rw [hlens.1]
      refine Nat.le_of_dvd ?_ (Nat.dvd_of_mod_eq_zero s4)
      simp only [List.length_append]
      omega
    · show body.length % block = 0
      rw [hlens.1]
      exact s4
  · exact ⟨wt ++ wp, hvp, rfl⟩
  · exact ⟨c, wt' ++ wp', wc, s1, hvs, hcs, hlens.1.symm, hopen⟩
  · exact ⟨utf8 cs, utf8_zero (hcom _ c1), .inl rfl⟩
  · exact ssh_same_of a2 b2 a4 b4 hsame htp hts htext

/-- **C94** (number of keys).  A file with another number of keys than one is not read by OpenSSH, whatever the
passphrase. -/
theorem C94_count {ext : Ext} {cr : Crypto} (hl : CryptoLaws cr) (limits : Bytes → SshKey → Prop) (inp : Inputs)
    (self : KeyList) (passphrase : Option Str) (indices : Option (List Int)) (override retain : Bool) (w : Bytes)
    (hc : AllConstructed ext self.pairs) (hi : inp.checkInt < 2 ^ 32)
    (h : (packKeyList cr inp self passphrase indices override retain).res = .ok w)
    (sel : List Pair) (hsel : Selection self.pairs indices sel) (hn : sel.length ≠ 1) :
    ¬ ∃ cr pass f key pad, SshReads ext limits cr pass w f key pad := by
  rintro ⟨cr', pass, f, key, pad, hr⟩
  rcases C91_complete ext inp self indices override retain hc hi with ⟨e, he⟩ | ⟨ci, k, opts, ob, pubs, plain, hprep⟩
  · have := congrArg Eff.res (C91_unprepared ext cr inp self passphrase indices override retain e hc hi he)
    rw [h] at this
    cases this
  have hfin := ((C91_prepared ext cr hl inp self passphrase indices override retain ci k opts ob pubs plain hc hi hprep).2 _).1 h
  obtain ⟨sel', privs, sizes, ⟨-, hsel', hpubs⟩, -⟩ := hprep
  have e := selection_unique hsel' hsel
  subst e
  have hlen := hpubs.length_eq
  cases hfin with
  | file f1 f2 f3 f4 =>
    obtain ⟨x, y, g1, g2, e⟩ := f4
    obtain ⟨x', y', g1', g2', e'⟩ := hr.lays
    obtain ⟨w', -, hp⟩ := hr.pub
    rw [e, List.append_assoc, List.append_assoc] at e'
    have := (front_unique g1 g1' e').2.2.2.1
    rw [hp] at this
    replace this : pubs = [w'] := this
    rw [this] at hlen
    exact hn (by simpa using hlen)

/-- **C94** (cipher).  A file with the cipher `rijndael-cbc@lysator.liu.se` is not read by OpenSSH. -/
theorem C94_rijndael {ext : Ext} {cr : Crypto} (hl : CryptoLaws cr) (limits : Bytes → SshKey → Prop) (inp : Inputs)
    (self : KeyList) (passphrase : Option Str) (indices : Option (List Int)) (override retain : Bool) (w : Bytes)
    (hc : AllConstructed ext self.pairs) (hi : inp.checkInt < 2 ^ 32)
    (h : (packKeyList cr inp self passphrase indices override retain).res = .ok w)
    (kdf : Str) (hn : Names self (py! "rijndael-cbc@lysator.liu.se") kdf) :
    ¬ ∃ cr pass f key pad, SshReads ext limits cr pass w f key pad := by
  rintro ⟨cr', pass, f, key, pad, hr⟩
  rcases C91_complete ext inp self indices override retain hc hi with ⟨e, he⟩ | ⟨ci, k, opts, ob, pubs, plain, hprep⟩
  · have := congrArg Eff.res (C91_unprepared ext cr inp self passphrase indices override retain e hc hi he)
    rw [h] at this
    cases this
  have hfin := ((C91_prepared ext cr hl inp self passphrase indices override retain ci k opts ob pubs plain hc hi hprep).2 _).1 h
  obtain ⟨sel', privs, sizes, ⟨⟨⟨hnm, -⟩, -⟩, -⟩, -⟩ := hprep
  have hnames := names_iff.2 hn
  rw [named_iff.2 hnm] at hnames
  simp only [Prod.mk.injEq, Val.str.injEq] at hnames
  cases hfin with
  | file f1 f2 f3 f4 =>
    obtain ⟨x, y, g1, g2, e⟩ := f4
    obtain ⟨x', y', g1', g2', e'⟩ := hr.lays
    rw [e, List.append_assoc, List.append_assoc] at e'
    have := (front_unique g1 g1' e').1
    replace this : ci = f.cipher := this
    rw [this] at hnames
    obtain ⟨block, hs, -⟩ := hr.sizes
    unfold SshSizes at hs
    rw [hnames.1] at hs
    rcases hs with ⟨hc, -⟩ | ⟨n, su, ⟨-, hne⟩, hc, -⟩
    · exact absurd (cname_plain hc (by decide)) (by decide)
    · exact hne (cname_plain hc (by decide)).symm

/-- **C94** fails: a list of two keys is packed, and OpenSSH does not read it. -/
theorem C94_false : ¬ ∀ (ext : Ext) (cr : Crypto), CryptoLaws cr → ∀ (inp : Inputs) (self : KeyList) (passphrase : Option Str) (w : Bytes),
    AllConstructed ext self.pairs → inp.checkInt < 2 ^ 32 → (packKeyList cr inp self passphrase none false true).res = .ok w →
    ∃ pass f key pad, SshReads ext (fun _ _ => True) cr pass w f key pad := by
  intro h
  obtain ⟨pass, f, key, pad, hr⟩ := h exExt toyCrypto toyCrypto_laws exInputs exList none exFile exList_all (by decide) exFile_packed
  exact C94_count toyCrypto_laws _ exInputs exList none none false true exFile exList_all (by decide) exFile_packed exList.pairs rfl
    (by decide) ⟨_, pass, f, key, pad, hr⟩

/-- **C94** (text).  The text that is written is one that OpenSSH reads, as the bytes that are written, and there is nothing
after its end marker. -/
theorem C94_text (cr : Crypto) (inp : Inputs) (self : KeyList) (passphrase : Option Str) (indices : Option (List Int))
    (override retain : Bool) (w : Bytes) (h : (packKeyList cr inp self passphrase indices override retain).res = .ok w) :
    ∃ s, (packListString cr inp self passphrase indices override retain).res = .ok s ∧ SshText s w [] := by
  obtain ⟨ls, ⟨hfl, -⟩, hne, hs, -⟩ := C36_layout cr inp self passphrase indices override retain w h
  refine ⟨_, hs, ?_⟩
  obtain ⟨init, last, rfl⟩ := (List.eq_nil_or_concat ls).resolve_left hne
  have hmem : ∀ l ∈ init.concat last, l.filter (fun c => decide (c ∉ cSpaces)) = l := by
    intro l hl
    rw [List.filter_eq_self]
    intro c hc
    have : c ∈ base64Text w := by
      rw [← hfl]
      exact List.mem_flatten.2 ⟨l, hl, hc⟩
    obtain ⟨x, hx, rfl⟩ := List.mem_map.1 this
    exact decide_eq_true (alphabet_chars _ (List.mem_map_of_mem (f := UInt8.toNat) (base64_mem w x hx))).2.1
  refine ⟨init.flatMap (· ++ [0x0a]) ++ last, ?_, ?_⟩
  · have e : (py! "\n" : Str) = [0x0a] := by decide +kernel
    rw [e]
    simp [List.concat_eq_append]
  · rw [← hfl, List.filter_append, hmem last (by simp), List.concat_eq_append, List.flatten_append]
    congr 1
    · have : ∀ l ∈ init, l.filter (fun c => decide (c ∉ cSpaces)) = l := fun l hl => hmem l (by simp [hl])
      clear hmem hfl hne hs
      induction init with
      | nil => rfl
      | cons l t ih =>
        rw [List.flatMap_cons, List.filter_append, List.filter_append, this l (by simp), ih (fun x hx => this x (by simp [hx]))]
        simp [cSpaces]
    · simp

/-! ### Example -/

/-- The second key of the example list, alone. -/
def exOneFile : Bytes := ((packKeyList toyCrypto exInputs exList none (some [-1]) false true).res.toOption).getD []
theorem exOneFile_packed : (packKeyList toyCrypto exInputs exList none (some [-1]) false true).res = .ok exOneFile := by
  decide +kernel

/-- OpenSSH reads it with the passphrase that was entered. -/
example : ∃ f key pad, key.type = py! "ssh-rsa" ∧ dget key.priv (py! "d") = some (.int 2753) ∧ key.comment = [] ∧
    SshReads exExt (fun _ _ => True) toyCrypto "pw".toList exOneFile f key pad := by
  have hne : ∀ {m}, MaterialFault exExt .priv (py! "ssh-rsa") exRsaPriv.params.data m → m = .ed25519PublicMismatch := by
    intro m hm
    cases hm with
    | curve h => exact absurd h (by simp [curveTable])
    | point h => exact absurd h (by simp [curveTable])
    | edLength h => exact absurd h (by decide +kernel)
    | edMismatch _ h => exact absurd h (by decide +kernel)
    | edPrivate _ h => exact absurd h (by decide +kernel)
  have hdiff : ¬ TypesDiffer ⟨exPub, exRsaPriv⟩ ∧ ¬ ValuesDiffer ⟨exPub, exRsaPriv⟩ := by
    refine ⟨fun h => h rfl, ?_⟩
    rintro ⟨n, v, x, hv, hx, hne⟩
    have := dget_mem hv
    simp [exPub] at this
    rcases this with ⟨rfl, rfl⟩ | ⟨rfl, rfl⟩ <;> exact hne (Option.some.inj (hx.symm.trans (by decide +kernel))).symm
  obtain ⟨f, key, pad, h1, ⟨fmt, h2, h3⟩, ⟨cs, h4, h5⟩, h6⟩ :=
    C94_written_partial toyCrypto_laws (fun _ _ => True) exInputs exList none (some [-1]) false true exOneFile exList_all (by decide)
      exOneFile_packed ⟨exPub, exRsaPriv⟩ (.cons (pyIndex_ok.1 rfl) .nil) (.inr hdiff)
      (by
        intro n i h
        have := dget_mem h
        simp [exRsaPriv, exRsaPrivParams] at this
        omega)
      (by
        intro n s h
        have := dget_mem h
        simp [exRsaPriv, exRsaPrivParams] at this)
      (by
        intro s h
        have h' : (some (.str []) : Option Val) = some (.str s) := h
        cases h'
        simp)
      (py! "ssh-rsa") rfl (fun m => hne) (py! "aes256-ctr") (py! "bcrypt") (names_iff.1 rfl) (by decide) "pw".toList
      (fun _ => ⟨by decide, .inr ⟨rfl, by decide +kernel⟩⟩) (fun h => absurd h (by decide))
  refine ⟨f, key, pad, h1, ?_, ?_, h6 trivial⟩
  · have e : privateFields (py! "ssh-rsa") = some fmt := h2
    have t : ∀ g, privateFields (py! "ssh-rsa") = some g → dget (named g exRsaPriv.params.data) (py! "d") = some (.int 2753) := by
      intro g hg
      rw [dget_named, if_pos]
      · rfl
      · revert hg
        generalize hx : privateFields (py! "ssh-rsa") = x
        rintro rfl
        have : (privateFields (py! "ssh-rsa")).map dkeys = some (dkeys g) := by rw [hx]; rfl
        have h2 : ∀ l, (privateFields (py! "ssh-rsa")).map dkeys = some l → py! "d" ∈ l := by
          intro l hl
          have : (privateFields (py! "ssh-rsa")).map dkeys =
            some [py! "n", py! "e", py! "d", py! "iqmp", py! "p", py! "q"] := by decide +kernel
          rw [this] at hl
          cases hl
          decide +kernel
        exact h2 _ this
    have td := t fmt e
    rcases texts_get h3 (py! "d") with ⟨-, a⟩ | ⟨cs, -, -, a⟩ | ⟨fi, v, -, -, a, a'⟩
    · exact absurd (td.symm.trans a) (by simp)
    · exact absurd (td.symm.trans a) (by simp)
    · exact a.trans (a'.symm.trans td)
  · have h' : (some (.str []) : Option Val) = some (.str (strOf cs)) := h4
    have : strOf cs = [] := by
      simp only [Option.some.injEq, Val.str.injEq] at h'
      exact h'.symm
    have : cs = [] := by simpa [strOf] using this
    rw [h5, this]
    rfl

end OSK
