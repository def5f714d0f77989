import Verif.Spec.OpenSSH
import Verif.Lemmas.SshKey
import Verif.Props.FileGrammar
import Verif.Props.ListWarnings
import Verif.Props.ListText
/-
Property C93: key files of OpenSSH.
-/
namespace OSK
open Spec

theorem countUp_prefix {k n : Nat} : countUp k <+: countUp n ↔ k ≤ n := by
  constructor
  · intro h
    simpa [countUp] using h.length_le
  · intro h
    obtain ⟨m, rfl⟩ := Nat.exists_eq_add_of_le h
    unfold countUp
    rw [List.range_add, List.map_append]
    exact List.prefix_append _ _

theorem private_not_cert {t : Str} {fmt : FDict} (h : privateFields t = some fmt) : isCertType t = false := by
  rcases e : isCertType t with _ | _
  · rfl
  · have := cert_pub (kind := .priv) h e
    cases this

/-- What the package asks for beyond what OpenSSH does: the names of the cipher, of the key derivation function and of the key
type are exactly these; text, also the comment, is UTF-8. -/
structure Spec.SshPlain (f : KeyFile) (key : SshKey) : Prop where
  cipher : 0 ∉ strOf f.cipher
  kdf : 0 ∉ strOf f.kdf
  pubName : key.pubName = key.type
  privName : key.privName = key.type
  pub : ∃ fmt d, publicFields key.type = some fmt ∧ Texts fmt key.pub d
  priv : ∃ fmt d, privateFields key.type = some fmt ∧ Texts fmt key.priv d
  comment : ∃ cs, key.comment = utf8 cs

theorem cname_plain {n raw : Str} (h : CName n raw) (h0 : 0 ∉ raw) : raw = n := by
  rcases h with rfl | rfl
  · rfl
  · simp at h0

theorem cipher_names : ∀ e ∈ suites, 0 ∉ e.1 := by
  simp [suites]

theorem known_cipher {n : Str} {x : Nat × Nat} (h : cipherSizes n = some x) : 0 ∉ n := by
  unfold cipherSizes at h
  split at h
  · rename_i e
    rw [e]; decide
  · obtain ⟨su, hs, -⟩ := Option.map_eq_some_iff.1 h
    exact cipher_names _ (dget_mem hs)

theorem ssh_sizes {f : KeyFile} {block tag : Nat} (h : SshSizes f block tag) (h0 : 0 ∉ strOf f.cipher) :
    cipherSizes (strOf f.cipher) = some (block, tag) := by
  unfold cipherSizes
  rcases h with ⟨hc, rfl, rfl⟩ | ⟨n, su, ⟨hs, -⟩, hc, rfl, rfl⟩
  · rw [if_pos (cname_plain hc h0)]
  · rw [cname_plain hc h0, if_neg (suites_ne_none hs), dget_of_mem suites_nodup hs]
    rfl

/-- The list that the package makes of such a file. -/
theorem sshReads_file {ext : Ext} {limits : Bytes → SshKey → Prop} {cr : Crypto} {pass : List Char} {b : Bytes} {f : KeyFile}
    {key : SshKey} {pad : Nat} (h : SshReads ext limits cr pass b f key pad) (hpl : SshPlain f key)
    {inp : Inputs} {passphrase : Option Str} (hp : strOf f.kdf ≠ py! "none" → Enters inp passphrase (strOf pass)) :
    ∃ kl p plain block c fmt fmt' cs, FileReads cr inp passphrase b kl ∧ kl.pairs = [p] ∧ p.pub.kind = .pub ∧ p.priv.kind = .priv ∧
      p.pub.header = [(py! "key_type", .str key.type)] ∧ p.priv.header = [(py! "key_type", .str key.type)] ∧
      publicFields key.type = some fmt ∧ Texts fmt key.pub p.pub.params.data ∧
      privateFields key.type = some fmt' ∧ Texts fmt' key.priv p.priv.params.data ∧ p.pub.footer = [] ∧
      key.comment = utf8 cs ∧ p.priv.footer = [(py! "comment", .str (strOf cs))] ∧ p.pub.clear = [] ∧ p.priv.clear = [] ∧
      kl.header = some [(py! "auth_magic", .bytes magic), (py! "cipher", .str (strOf f.cipher)),
        (py! "kdf", .str (strOf f.kdf)), (py! "kdf_options", .bytes f.options), (py! "num_keys", .int 1)] ∧
      kl.decipherBytes = some plain ∧ kl.decipherPadding = some (countUp pad) ∧
      cipherSizes (strOf f.cipher) = some (block, f.tag.length) ∧ plain.length % block = 0 ∧
      c.length = 4 ∧ c ++ c <+: plain := by
  obtain ⟨block, hs, -, hm⟩ := h.sizes
  replace hs := ssh_sizes hs hpl.cipher
  obtain ⟨w, hpub, h4⟩ := h.pub
  obtain ⟨c, w', wc, c1, hpriv, c5, c6, c7⟩ := h.plain
  obtain ⟨fmt, wt, wp, h1, h2, h3, rfl⟩ := hpub.layout
  obtain ⟨fmt', wt', wp', c2, c3, c4, rfl⟩ := hpriv.layout
  rw [hpl.pubName] at h2
  rw [hpl.privName] at c3
  obtain ⟨cs, hc⟩ := hpl.comment
  have hpd : ∃ d, Texts fmt key.pub d := by
    obtain ⟨fmt2, d, e, hd⟩ := hpl.pub
    have : some fmt2 = some fmt := e.symm.trans h1
    cases this
    exact ⟨d, hd⟩
  have hsd : ∃ d, Texts fmt' key.priv d := by
    obtain ⟨fmt2, d, e, hd⟩ := hpl.priv
    have : some fmt2 = some fmt' := e.symm.trans c2
    cases this
    exact ⟨d, hd⟩
  obtain ⟨pd, hpd⟩ := hpd
  obtain ⟨sd, hsd⟩ := hsd
  have hnc := private_not_cert c2
  obtain ⟨cls, hcls, -⟩ := paramsClass_of (kind := .pub) h1
  obtain ⟨cls', hcls', -⟩ := paramsClass_of (kind := .priv) c2
  have hcomment : EncodesAll (afterFields .priv) wc [(py! "comment", .str (strOf cs))] := by
    rw [hc] at c5
    have := EncodesAll.cons (k := py! "comment") (Encodes.text c5) .nil
    rwa [List.append_nil] at this
  have hacc : ∀ d, Acceptable key.type d := fun d hcert => by rw [hnc] at hcert; cases hcert
  let pk : Key := ⟨.pub, [(py! "key_type", .str key.type)], ⟨cls, pd⟩, [], []⟩
  let sk : Key := ⟨.priv, [(py! "key_type", .str key.type)], ⟨cls', sd⟩, [(py! "comment", .str (strOf cs))], []⟩
  have hpk : KeyBlob (wt ++ wp) pk :=
    ⟨[], ⟨key.type, ⟨⟨fmt, wt, wp, [], h1, h2, encodesAll_texts h3 hpd, .nil, by simp⟩⟩, hacc _, rfl, rfl, hcls⟩, rfl⟩
  have hsk : KeysIn [sk] (wt' ++ wp' ++ wc ++ countUp pad) (countUp pad) :=
    .cons ⟨key.type, ⟨⟨fmt', wt', wp', wc, c2, c3, encodesAll_texts c4 hsd, hcomment, rfl⟩⟩, hacc _, rfl, rfl, hcls'⟩ rfl .nil
  have hopt : ∃ o, KdfGiven inp passphrase f o ∧
      Opens cr inp passphrase f o (c ++ c ++ (wt' ++ wp') ++ wc ++ countUp pad) := by
    have htag : strOf f.cipher = py! "none" → f.tag = [] := by
      intro e
      rw [e] at hs
      have : (8, 0) = (block, f.tag.length) := by simpa [cipherSizes] using hs
      simp at this
      exact List.length_eq_zero_iff.1 this.2.symm
    have hder : ∀ {n r}, SshDerives cr pass f n r → ∃ o, KdfGiven inp passphrase f o ∧ Derives cr inp passphrase n o r := by
      rintro n r ⟨e1, e2, salt, rounds, w, x, e3, e4, e5⟩
      replace e1 := cname_plain e1 hpl.kdf
      have he := hp (by rw [e1]; decide)
      exact ⟨_, .bcrypt e1 e3 e4 he, .bcrypt he e5⟩
    generalize hpl' : c ++ c ++ (wt' ++ wp') ++ wc ++ countUp pad = plain at c7
    cases c7 with
    | clear e1 e2 =>
      replace e1 := cname_plain e1 hpl.cipher
      refine ⟨_, .none (cname_plain e2 hpl.kdf), ?_⟩
      have := Opens.none (cr := cr) (inp := inp) (passphrase := passphrase) (f := f) (o := ⟨.none, []⟩) e1
      rwa [htag e1, List.append_nil] at this
    | derived e1 e2 =>
      replace e1 := cname_plain e1 hpl.cipher
      obtain ⟨o, ho, -⟩ := hder e2
      refine ⟨o, ho, ?_⟩
      have := Opens.none (cr := cr) (inp := inp) (passphrase := passphrase) (f := f) (o := o) e1
      rwa [htag e1, List.append_nil] at this
    | cipher e0 e1 e2 e3 =>
      obtain ⟨o, ho, hd⟩ := hder e2
      replace e1 := cname_plain e1 hpl.cipher
      exact ⟨o, ho, .cipher (by rw [e1]; exact e0.1) hd e3⟩
  obtain ⟨o, ho, hopen⟩ := hopt
  let kl : KeyList := {
    pairs := [⟨pk, sk⟩], byteString := some b,
    header := some [(py! "auth_magic", .bytes magic), (py! "cipher", .str (strOf f.cipher)),
        (py! "kdf", .str (strOf f.kdf)), (py! "kdf_options", .bytes f.options), (py! "num_keys", .int 1)],
    cipherBytes := some (f.body ++ f.tag), kdfOptions := some o,
    decipherBytes := some (c ++ c ++ (wt' ++ wp') ++ wc ++ countUp pad),
    decipherHeader := some [(py! "check_int_1", .int (digitSum c)), (py! "check_int_2", .int (digitSum c))],
    decipherPadding := some (countUp pad) }
  refine ⟨kl, ⟨pk, sk⟩, _, block, c, fmt, fmt', cs, ⟨⟨f, b, [], _, c, c, wt' ++ wp' ++ wc ++ countUp pad, countUp pad, o, block,
    by simp, h.lays, hs, ho, hopen, by simp, c1, c1, ?_, hsk, rfl, ?_, rfl, rfl, rfl, rfl, rfl⟩⟩, rfl, rfl, rfl, rfl, rfl, h1, hpd,
    c2, hsd, rfl, hc, rfl, rfl, rfl, rfl, rfl, rfl, hs, ?_, c1, ?_⟩
  · rw [h4]
    exact .cons hpk .nil
  · rw [h4]; rfl
  · rw [c6]; exact hm
  · exact ⟨wt' ++ wp' ++ wc ++ countUp pad, by simp⟩

/-- If the package reads a key that OpenSSH reads, then its name is the key type, and its texts are UTF-8. -/
theorem ssh_key_in {ext : Ext} {kind : Kind} {t name t' : Str} {r d e : VDict} {w x rest : Bytes}
    (h : SshValues ext kind t name r w) (hk : KeyIn kind (w ++ x) t' d e rest) :
    name = t ∧ t' = t ∧ (∃ fmt, fieldsOf kind t = some fmt ∧ Texts fmt r d) ∧
      ∃ wf, EncodesAll (afterFields kind) wf e ∧ x = wf ++ rest := by
  obtain ⟨fmt, wt, wp, h1, h2, h3, rfl⟩ := h.layout
  obtain ⟨fmt', wt', wp', wf, g1, g2, g3, g4, eq⟩ := hk.layout
  simp only [List.append_assoc] at eq
  obtain ⟨e1, rfl, eq'⟩ := encodes_unique h2 g2 eq
  simp only [Val.str.injEq] at e1
  subst e1
  obtain ⟨n, hn, hc⟩ := h.names
  have := ssh_name hn hc g1
  subst this
  rw [h1] at g1
  cases g1
  obtain ⟨ht, rfl, eq''⟩ := texts_of h3 g3 eq'
  exact ⟨rfl, rfl, ⟨fmt, h1, ht⟩, wf, g4, eq''⟩

theorem bcryptField_unique {salt salt' w w' x y : Bytes} {n n' : Nat} (h : BcryptField salt n w) (h' : BcryptField salt' n' w')
    (e : w ++ x = w' ++ y) : salt = salt' ∧ n = n' := by
  obtain ⟨a, b, h1, h2, h3, rfl⟩ := h
  obtain ⟨a', b', h1', h2', h3', rfl⟩ := h'
  rw [List.append_assoc, List.append_assoc] at e
  obtain ⟨rfl, -, e⟩ := prefixed_unique h1 h1' e
  obtain ⟨rfl, -⟩ := List.append_inj e (h2.trans h2'.symm)
  exact ⟨rfl, h3.symm.trans h3'⟩

/-- The package reads only such files. -/
theorem sshReads_plain {ext : Ext} {limits : Bytes → SshKey → Prop} {cr : Crypto} {pass : List Char} {b : Bytes} {f : KeyFile}
    {key : SshKey} {pad : Nat} (h : SshReads ext limits cr pass b f key pad)
    {inp : Inputs} {passphrase : Option Str} (hp : strOf f.kdf ≠ py! "none" → Enters inp passphrase (strOf pass)) {kl : KeyList}
    (hr : FileReads cr inp passphrase b kl) : SshPlain f key := by
  obtain ⟨f', w, post, plain, c1, c2, keys, pad', o, block, e1, e2, e3, e4, e5, e6, e7, e8, e9, e10, -⟩ := hr.parts
  obtain ⟨block', hs, -, -⟩ := h.sizes
  have hf : f = f' ∧ b = w ∧ [] = post := by
    refine lays_unique h.lays e2 ?_ (by rw [List.append_nil]; exact e1)
    intro hc
    rw [← hc] at e3
    have := ssh_sizes hs (known_cipher e3)
    rw [e3] at this
    simp at this
    exact this.2.symm
  obtain ⟨rfl, rfl, rfl⟩ := hf
  have hc0 := known_cipher e3
  have hk0 : 0 ∉ strOf f.kdf := by
    cases e4 with
    | none h => rw [h]; decide
    | bcrypt h => rw [h]; decide
  obtain ⟨w, hpub, h4⟩ := h.pub
  rw [h4] at e9
  generalize hps : kl.pairs = ps at e9 e10
  cases e9 with
  | cons hblob hnil =>
  cases hnil
  rename_i p
  obtain ⟨rest, ⟨t, hin, -⟩, -⟩ := hblob
  have hin' : KeyIn .pub (w ++ []) t p.pub.params.data p.pub.footer rest := by rw [List.append_nil]; exact hin
  obtain ⟨n1, -, ⟨fmt, n2, n3⟩, -⟩ := ssh_key_in hpub hin'
  obtain ⟨c, ws, wc, g1, hpriv, g2, g3, g4⟩ := h.plain
  have hplain : plain = c ++ c ++ ws ++ wc ++ countUp pad := by
    have htag : strOf f.cipher = py! "none" → f.tag = [] := by
      intro e
      have hs := ssh_sizes hs hc0
      rw [e] at hs
      have : (8, 0) = (block', f.tag.length) := by simpa [cipherSizes] using hs
      simp at this
      exact List.length_eq_zero_iff.1 this.2.symm
    generalize hpl : c ++ c ++ ws ++ wc ++ countUp pad = plain' at g4
    have hnone : CName (py! "none") (strOf f.cipher) → plain = f.body := by
      intro hn
      have hn := cname_plain hn hc0
      cases e5 with
      | none => rw [htag hn, List.append_nil]
      | cipher h1 => exact absurd hn (suites_ne_none h1)
    cases g4 with
    | clear h1 => exact hnone h1
    | derived h1 => exact hnone h1
    | cipher h1 h2 h3 h4 =>
      have h2 := cname_plain h2 hc0
      obtain ⟨hk, -, salt, rounds, x, y, k1, k2, k3⟩ := h3
      have hk := cname_plain hk hk0
      cases e5 with
      | none h => exact absurd (h2.symm.trans h) (suites_ne_none h1.1)
      | cipher u1 u2 u3 =>
        rw [h2] at u1
        have := dget_of_mem suites_nodup u1
        rw [dget_of_mem suites_nodup h1.1] at this
        cases this
        have hne : strOf f.kdf ≠ py! "none" := by rw [hk]; decide
        cases e4 with
        | none h => exact absurd h hne
        | bcrypt b1 b2 b3 b4 =>
          generalize ho : bcryptOptions _ _ = oo at u2
          cases u2 with
          | none => cases ho
          | bcrypt v1 v2 =>
          simp only [bcryptOptions, KdfOptions.mk.injEq, List.cons.injEq, Prod.mk.injEq, Val.bytes.injEq, Val.int.injEq,
            Int.natCast_inj, true_and, and_true] at ho
          obtain ⟨rfl, rfl⟩ := ho
          have := strOf_inj (enters_unique v1 (hp hne))
          subst this
          rw [b3] at k2
          obtain ⟨rfl, rfl⟩ := bcryptField_unique b2 k1 k2
          rw [k3] at v2
          cases v2
          rw [h4] at u3
          cases u3
          rfl
  rw [e6] at hplain
  have hkeys : keys = ws ++ (wc ++ countUp pad) := by
    have : (c1 ++ c2) ++ keys = (c ++ c) ++ (ws ++ (wc ++ countUp pad)) := by rw [hplain]; simp
    exact (List.append_inj this (by simp [e7, e8, g1])).2
  cases e10 with
  | cons k1 k2 k3 =>
  obtain ⟨t', hin, -⟩ := k1
  rw [hkeys] at hin
  obtain ⟨m1, -, ⟨fmt', m2, m3⟩, wf, m4, m5⟩ := ssh_key_in hpriv hin
  refine ⟨hc0, hk0, n1, m1, ⟨fmt, _, n2, n3⟩, ⟨fmt', _, m2, m3⟩, ?_⟩
  generalize hcf : p.priv.footer = ft at m4
  cases m4 with
  | cons q1 q2 =>
  generalize hfi : FI.pascal .string = fi at q1
  cases q1 <;> cases hfi
  rename_i cs q1
  cases q2
  rw [List.append_nil] at m5
  exact ⟨cs, (prefixed_unique g2 q1 m5).1⟩

/-- Whether decoded values differ is whether the values as written do. -/
theorem ssh_differ {t : Str} {f g : FDict} {pub priv pd sd : VDict} (hf : publicFields t = some f) (hg : privateFields t = some g)
    (hs : SshSame t pub priv) (hp : Texts f pub pd) (hq : Texts g priv sd) :
    (∃ n x y, dget pd n = some x ∧ dget sd n = some y ∧ x ≠ y) ↔
      ∃ n x y, dget pub n = some x ∧ dget priv n = some y ∧ x ≠ y := by
  have hsub := public_lookup _ (table_row hg hf) g rfl
  have text : ∀ {n cs}, dget f n = some (.pascal .string) → dget pub n = some (.bytes (utf8 cs)) →
      dget pd n = some (.str (strOf cs)) → (dget priv n = none ∧ dget sd n = none) ∨
      ∃ cs', dget priv n = some (.bytes (utf8 cs')) ∧ dget sd n = some (.str (strOf cs')) := by
    intro n cs h1 h2 h3
    rcases texts_get hq n with h | ⟨cs', -, a, b⟩ | ⟨fi, v, a, b, -, -⟩
    · exact .inl h
    · exact .inr ⟨cs', a, b⟩
    · rw [hsub _ (dget_mem h1)] at b
      cases b
      exact absurd rfl a
  have other : ∀ {n fi v}, fi ≠ FI.pascal .string → dget f n = some fi → dget pub n = some v →
      dget priv n = some v ∧ dget sd n = some v := by
    intro n fi v h1 h2 h3
    have := hs f n fi v hf (dget_mem h2) h3
    rw [if_neg h1] at this
    rcases texts_get hq n with ⟨a, -⟩ | ⟨cs', a, -⟩ | ⟨fi, v', -, -, a, b⟩
    · rw [a] at this; cases this
    · rw [hsub _ (dget_mem h2)] at a
      cases a
      exact absurd rfl h1
    · rw [a] at this
      cases this
      exact ⟨a, b⟩
  constructor
  · rintro ⟨n, x, y, hx, hy, hne⟩
    rcases texts_get hp n with ⟨-, a⟩ | ⟨cs, a1, a2, a3⟩ | ⟨fi, v, a1, a2, a3, a4⟩
    · rw [a] at hx; cases hx
    · rw [a3] at hx
      cases hx
      rcases text a1 a2 a3 with ⟨-, b⟩ | ⟨cs', b1, b2⟩
      · rw [b] at hy; cases hy
      · rw [b2] at hy
        cases hy
        refine ⟨n, _, _, a2, b1, fun e => hne ?_⟩
        simp only [Val.bytes.injEq] at e
        rw [utf8_inj e]
    · rw [a4] at hx
      cases hx
      rw [(other a1 a2 a3).2] at hy
      cases hy
      exact absurd rfl hne
  · rintro ⟨n, x, y, hx, hy, hne⟩
    rcases texts_get hp n with ⟨a, -⟩ | ⟨cs, a1, a2, a3⟩ | ⟨fi, v, a1, a2, a3, a4⟩
    · rw [a] at hx; cases hx
    · rw [a2] at hx
      cases hx
      rcases text a1 a2 a3 with ⟨b, -⟩ | ⟨cs', b1, b2⟩
      · rw [b] at hy; cases hy
      · rw [b1] at hy
        cases hy
        refine ⟨n, _, _, a3, b2, fun e => hne ?_⟩
        simp only [Val.str.injEq] at e
        rw [strOf_inj e]
    · rw [a3] at hx
      cases hx
      rw [(other a1 a2 a3).1] at hy
      cases hy
      exact absurd rfl hne

/-- **C93** (files).  A private key file that OpenSSH reads is read by the package exactly if the names in it have no aliases
and no zero at the end and its texts are UTF-8 (`SshPlain`); the package then reads the same key.  There is the prompt
if a passphrase is needed and none was given; a warning if there is more than one block of padding, if the secret of an
Ed25519 key does not end with the public key, if there is a zero after the name of the curve, and if texts in the two
keys differ (by a zero at the end); no other warning.  What is missing: the files that are not `SshPlain`
(`C93_false`). -/
theorem C93_reads_partial {ext : Ext} {limits : Bytes → SshKey → Prop} {cr : Crypto}
    (hl : ∀ {p s n r k}, cr.bcryptKdf p s n r = .ok k → k.length = n) {pass : List Char} {b : Bytes} {f : KeyFile}
    {key : SshKey} {pad : Nat} (h : SshReads ext limits cr pass b f key pad)
    (inp : Inputs) (passphrase : Option Str) (hp : strOf f.kdf ≠ py! "none" → Enters inp passphrase (strOf pass)) :
    ((∃ kl, (listFromBytes ext cr inp b passphrase).res = .ok kl) ↔ SshPlain f key) ∧
    ∀ kl, (listFromBytes ext cr inp b passphrase).res = .ok kl →
    (∃ p fmt fmt' cs, kl.pairs = [p] ∧
      p.pub.header = [(py! "key_type", .str key.type)] ∧ p.priv.header = [(py! "key_type", .str key.type)] ∧
      publicFields key.type = some fmt ∧ Texts fmt key.pub p.pub.params.data ∧
      privateFields key.type = some fmt' ∧ Texts fmt' key.priv p.priv.params.data ∧
      key.comment = utf8 cs ∧ p.priv.footer = [(py! "comment", .str (strOf cs))] ∧ p.pub.clear = [] ∧ p.priv.clear = []) ∧
    ∀ v, v ∈ (listFromBytes ext cr inp b passphrase).log ↔
      (v = .prompt ∧ strOf f.kdf ≠ py! "none" ∧ passphrase = none) ∨
      (v = .warn .padding ∧ ∃ block tag, cipherSizes (strOf f.cipher) = some (block, tag) ∧ block < pad) ∨
      (v = .warn .ed25519PublicMismatch ∧ key.type = py! "ssh-ed25519" ∧
        ∃ p s, dget key.priv (py! "public") = some (.bytes p) ∧ dget key.priv (py! "private_public") = some (.bytes s) ∧
          s.drop 32 ≠ p) ∨
      (v = .warn .curveIdentifier ∧ ∃ c oid, (key.type, c, oid) ∈ curveTable ∧
        ∃ d b, (d = key.pub ∨ d = key.priv) ∧ dget d (py! "identifier") = some (.bytes b) ∧ b.getLast? = some 0) ∨
      (v = .warn (.pairValueMismatch 0) ∧ ∃ n x y, dget key.pub n = some x ∧ dget key.priv n = some y ∧ x ≠ y) := by
  refine ⟨⟨fun ⟨kl, hr⟩ => sshReads_plain h hp ((C75_accepts ext hl inp passphrase b kl).1 hr), fun hpl => ?_⟩, fun kl₀ hr₀ => ?_⟩
  · obtain ⟨kl, p, plain, block, c, fmt, fmt', cs, hf, -⟩ := sshReads_file h hpl hp
    exact ⟨kl, (C75_accepts ext hl inp passphrase b kl).2 hf⟩
  have hpl := sshReads_plain h hp ((C75_accepts ext hl inp passphrase b kl₀).1 hr₀)
  obtain ⟨kl, p, plain, block, c, fmt, fmt', cs, hf, g1, k1, k2, g2, g3, q1, g4, q2, g5, g6, q3, g7, g8, g9, g10, g11, g12, g13, g14,
    g15, g16⟩ := sshReads_file h hpl hp
  have hr := (C75_accepts ext hl inp passphrase b kl).2 hf
  have : kl₀ = kl := by
    rw [hr] at hr₀
    exact (Except.ok.inj hr₀).symm
  subst this
  refine ⟨⟨p, fmt, fmt', cs, g1, g2, g3, q1, g4, q2, g5, q3, g7, g8, g9⟩, fun v => ?_⟩
  obtain ⟨header, cipher, kdf, block', tag', plain', pad', nums, ws, w1, w2, w3, w4, w5, w6, w7, w8, -, w10⟩ :=
    C73_list_warnings ext cr inp b passphrase kl₀ hr
  rw [g10] at w1
  cases w1
  have e2 : strOf f.cipher = cipher := by simpa [dget] using w2
  have e3 : strOf f.kdf = kdf := by simpa [dget] using w3
  subst e2 e3
  rw [g13] at w4
  cases w4
  rw [g11] at w5
  cases w5
  rw [g12] at w6
  cases w6
  have hn : nums = c ++ c := by
    obtain ⟨r, hr⟩ := g16
    have : (c ++ c) ++ r = nums ++ (ws.flatten ++ countUp pad) := by rw [hr, w8, List.append_assoc]
    exact ((List.append_inj this (by simp [g15, w7])).1).symm
  have hnum : nums.take 4 = nums.drop 4 := by rw [hn, ← g15]; simp
  have hgood : GoodPadding block plain (countUp pad) ↔ pad ≤ block := by
    unfold GoodPadding
    rw [countUp_prefix]
    exact ⟨fun h => h.2, fun h => ⟨g14, h⟩⟩
  have hnc : isCertType key.type = false := private_not_cert q2
  have hvf : ∀ {kind : Kind} {k : Key} {d : VDict}, k.header = [(py! "key_type", .str key.type)] → k.params.data = d →
      k.clear = [] → (KeyFault ext kind k v ↔ ∃ w, v = .warn w ∧ MaterialFault ext kind key.type d w) := by
    intro kind k d e1 e2 e3
    unfold Spec.KeyFault Spec.ValueFault
    rw [e1, e2, e3]
    simp [dget, hnc]
  rw [w10, g1]
  rw [show (∃ i q, [p][i]? = some q ∧ (v = .warn (.pairTypeMismatch i) ∧ TypesDiffer q ∨
      v = .warn (.pairValueMismatch i) ∧ ValuesDiffer q ∨ KeyFault ext .pub q.pub v ∨ KeyFault ext .priv q.priv v)) ↔
      ((v = .warn .ed25519PublicMismatch ∧ key.type = py! "ssh-ed25519" ∧
        ∃ p s, dget key.priv (py! "public") = some (.bytes p) ∧ dget key.priv (py! "private_public") = some (.bytes s) ∧
          s.drop 32 ≠ p) ∨
      (v = .warn .curveIdentifier ∧ ∃ c oid, (key.type, c, oid) ∈ curveTable ∧
        ∃ d b, (d = key.pub ∨ d = key.priv) ∧ dget d (py! "identifier") = some (.bytes b) ∧ b.getLast? = some 0) ∨
      (v = .warn (.pairValueMismatch 0) ∧ ∃ n x y, dget key.pub n = some x ∧ dget key.priv n = some y ∧ x ≠ y)) from ?_]
  · constructor
    · rintro (h | ⟨-, h⟩ | ⟨h, h'⟩ | h)
      · exact .inl h
      · exact absurd hnum h
      · rw [hgood] at h'
        exact .inr (.inl ⟨h, _, _, g13, by omega⟩)
      · exact .inr (.inr h)
    · rintro (h | ⟨h, block', tag', h1, h2⟩ | h)
      · exact .inl h
      · rw [g13] at h1
        cases h1
        exact .inr (.inr (.inl ⟨h, by rw [hgood]; omega⟩))
      · exact .inr (.inr (.inr h))
  · obtain ⟨w1, hpub, -⟩ := h.pub
    obtain ⟨c1, w2, wc, -, hpriv, -⟩ := h.plain
    have hm := fun m => ssh_faults hpriv q2 g5 (m := m)
    have hm' := fun m => ssh_faults hpub q1 g4 (m := m)
    have hdiff : ValuesDiffer p ↔ _ := ssh_differ q1 q2 h.same g4 g5
    constructor
    · rintro ⟨i, q, hq, h'⟩
      obtain ⟨rfl, rfl⟩ : i = 0 ∧ p = q := by
        cases i with
        | zero => simpa using hq
        | succ i => simp at hq
      rw [hvf g2 rfl g8, hvf g3 rfl g9] at h'
      rcases h' with ⟨-, h'⟩ | ⟨hv, h'⟩ | ⟨w, hw, h'⟩ | ⟨w, hw, h'⟩
      · exact absurd (by rw [g2, g3]) h'
      · exact .inr (.inr ⟨hv, hdiff.1 h'⟩)
      · rcases (hm' w).1 h' with ⟨-, h', -⟩ | ⟨rfl, c, oid, h1, b, h2, h3⟩
        · cases h'
        · exact .inr (.inl ⟨hw, c, oid, h1, _, b, .inl rfl, h2, h3⟩)
      · rcases (hm w).1 h' with ⟨rfl, -, h'⟩ | ⟨rfl, c, oid, h1, b, h2, h3⟩
        · exact .inl ⟨hw, h'⟩
        · exact .inr (.inl ⟨hw, c, oid, h1, _, b, .inr rfl, h2, h3⟩)
    · rintro (⟨hv, h'⟩ | ⟨hv, c, oid, h1, d, b, rfl | rfl, h2, h3⟩ | ⟨hv, h'⟩)
      · refine ⟨0, p, rfl, .inr (.inr (.inr ?_))⟩
        rw [hvf g3 rfl g9]
        exact ⟨_, hv, (hm _).2 (.inl ⟨rfl, rfl, h'⟩)⟩
      · refine ⟨0, p, rfl, .inr (.inr (.inl ?_))⟩
        rw [hvf g2 rfl g8]
        exact ⟨_, hv, (hm' _).2 (.inr ⟨rfl, c, oid, h1, b, h2, h3⟩)⟩
      · refine ⟨0, p, rfl, .inr (.inr (.inr ?_))⟩
        rw [hvf g3 rfl g9]
        exact ⟨_, hv, (hm _).2 (.inr ⟨rfl, c, oid, h1, b, h2, h3⟩)⟩
      · exact ⟨0, p, rfl, .inr (.inl ⟨hv, hdiff.2 h'⟩)⟩

/-! ### Texts -/

theorem linesOf_append {ls ls' : List Str} {m s : Str} (h : LinesOf ls m) (hm : ∃ x, m = x ++ [0x0a]) (hs : LinesOf ls' s) :
    LinesOf (ls ++ ls') (m ++ s) := by
  induction h with
  | nil => obtain ⟨x, hx⟩ := hm; simp at hx
  | @last l h1 h2 =>
    obtain ⟨x, rfl⟩ := hm
    exact absurd (by decide) (h2 0x0a (by simp))
  | @crlf l t ls h1 h2 ih =>
    rw [List.append_assoc, List.cons_append]
    refine .crlf h1 ?_
    rcases List.eq_nil_or_concat t with rfl | ⟨y, z, rfl⟩
    · have : ls = [] := by rw [← splitLines_linesOf h2]; rfl
      subst this
      exact hs
    · refine ih ?_
      obtain ⟨x, hx⟩ := hm
      rw [List.concat_eq_append, ← List.append_assoc] at hx
      obtain ⟨-, hz⟩ := List.append_inj' hx rfl
      cases hz
      exact ⟨y, by simp⟩
  | @cons l t ls e h1 he hn h2 ih =>
    rw [List.append_assoc, List.cons_append]
    rcases List.eq_nil_or_concat t with rfl | ⟨y, z, rfl⟩
    · have : ls = [] := by rw [← splitLines_linesOf h2]; rfl
      subst this
      obtain ⟨x, hx⟩ := hm
      rw [List.append_nil] at hx
      obtain ⟨-, hz⟩ := List.append_inj' hx rfl
      cases hz
      exact .cons h1 he (by rintro ⟨h, -⟩; exact absurd h (by decide)) hs
    · refine .cons h1 he ?_ (ih ?_)
      · rintro ⟨rfl, t', ht'⟩
        cases y with
        | nil =>
          simp at ht'
          exact hn ⟨rfl, [], by simp [ht'.1]⟩
        | cons a y =>
          simp at ht'
          exact hn ⟨rfl, y ++ [z], by simp [ht'.1]⟩
      · obtain ⟨x, hx⟩ := hm
        rw [List.concat_eq_append, ← List.append_assoc] at hx
        obtain ⟨-, hz⟩ := List.append_inj' hx rfl
        cases hz
        exact ⟨y, by simp⟩

theorem linesOf_flatten {ls : List Str} {s : Str} (h : LinesOf ls s) :
    ls.flatten = s.filter (fun c => decide (c ∉ lineBoundaries)) := by
  have keep : ∀ {l : Str}, (∀ c ∈ l, c ∉ lineBoundaries) → l.filter (fun c => decide (c ∉ lineBoundaries)) = l := by
    intro l hl
    rw [List.filter_eq_self]
    intro c hc
    exact decide_eq_true (hl c hc)
  induction h with
  | nil => rfl
  | last h1 h2 => simp only [List.flatten_cons, List.flatten_nil, List.append_nil, keep h2]
  | @crlf l s ls h1 h2 ih =>
    rw [List.flatten_cons, ih, List.filter_append, List.filter_append, keep h1]
    simp [lineBoundaries]
  | @cons l s ls e h1 he hn h2 ih =>
    rw [List.flatten_cons, ih, List.filter_append, List.filter_append, keep h1]
    simp [he]

theorem spaces_ascii : ∀ c ∈ cSpaces, c < 128 ∧ c ∉ base64Alphabet.map UInt8.toNat := by decide +kernel

theorem alphabet_chars : ∀ c ∈ base64Alphabet.map UInt8.toNat, c < 128 ∧ c ∉ cSpaces ∧ c ∉ lineBoundaries := by decide +kernel

/-- **C93** (texts).  Every text that OpenSSH reads as the bytes of a key file and that ends with the end marker is read
by the package as the same bytes.  What is missing: anything after the end marker (`C93_text_false`). -/
theorem C93_text_partial (ext : Ext) (cr : Crypto) (inp : Inputs) (passphrase : Option Str) {s : Str} {b : Bytes}
    (h : SshText s b []) : listFromString ext cr inp s passphrase = listFromBytes ext cr inp b passphrase := by
  obtain ⟨mid, rfl, hm⟩ := h
  have hmem : ∀ c ∈ mid, c < 128 ∧ (c ∈ base64Alphabet.map UInt8.toNat ↔ c ∉ cSpaces) := by
    intro c hc
    by_cases hs : c ∈ cSpaces
    · exact ⟨(spaces_ascii c hs).1, fun h => absurd h (spaces_ascii c hs).2, fun h => absurd hs h⟩
    · have : c ∈ base64Text b := by
        rw [← hm, List.mem_filter]
        exact ⟨hc, decide_eq_true hs⟩
      obtain ⟨x, hx, rfl⟩ := List.mem_map.1 this
      have hx := List.mem_map_of_mem (f := UInt8.toNat) (base64_mem b x hx)
      exact ⟨(alphabet_chars _ hx).1, fun _ => hs, fun _ => hx⟩
  obtain ⟨ls, hls⟩ := linesOf_exists (mid ++ [0x0a])
  have he : LinesOf [endMarker] (endMarker ++ [0x0a]) := by
    have := LinesOf.cons (l := endMarker) (s := []) (e := 0x0a) (by decide +kernel) (by decide)
      (by rintro ⟨h, -⟩; exact absurd h (by decide)) .nil
    rwa [List.append_nil] at this
  have hl : LinesOf (beginMarker :: (ls ++ [endMarker]))
      (beginMarker ++ [0x0a] ++ mid ++ [0x0a] ++ endMarker ++ [0x0a] ++ []) := by
    have := LinesOf.cons (l := beginMarker) (e := 0x0a) (by decide +kernel) (by decide)
      (by rintro ⟨h, -⟩; exact absurd h (by decide)) (linesOf_append hls ⟨mid, rfl⟩ he)
    simpa using this
  have hfl : ls.flatten = mid.filter (fun c => decide (c ∉ lineBoundaries)) := by
    rw [linesOf_flatten hls, List.filter_append]
    simp [lineBoundaries]
  rw [listFromString_lines ext cr inp _ passphrase ls (linesOf_iff.2 hl), C23_decode_str b _ ?_ ?_, Eff.lift_ok_bind]
  · intro c hc
    rw [hfl, List.mem_filter] at hc
    exact (hmem c hc.1).1
  · rw [hfl, List.filter_filter]
    refine Eq.trans ?_ hm
    refine List.filter_congr fun c hc => ?_
    have h1 := (hmem c hc).2
    have h2 := fun hx => (alphabet_chars c hx).2.2
    by_cases hx : c ∈ base64Alphabet.map UInt8.toNat
    · simp only [hx, h2 hx, h1.1 hx, not_false_eq_true, decide_true, Bool.and_self]
    · have : c ∈ cSpaces := by
        by_contra hn
        exact hx (h1.2 hn)
      simp [hx, this]

/-! ### Examples and counterexamples -/

/-- The type string of an Ed25519 key. -/
def exSshType : Bytes := [0, 0, 0, 11] ++ pb! "ssh-ed25519"
/-- Another one that OpenSSH takes. -/
def exSshAlias : Bytes := [0, 0, 0, 7] ++ pb! "Ed25519"
/-- The public key. -/
def exSshPublic : Bytes := List.replicate 32 1
/-- The secret and the public key. -/
def exSshSecret : Bytes := List.replicate 64 1
/-- The encrypted section (not encrypted) of a file whose comment has two bytes. -/
def exSshBody (wt : Bytes) (x y : UInt8) (pad : Nat) : Bytes :=
  [0, 0, 0, 7] ++ [0, 0, 0, 7] ++ (wt ++ ([0, 0, 0, 32] ++ exSshPublic ++ ([0, 0, 0, 64] ++ exSshSecret ++ []))) ++
    [0, 0, 0, 2, x, y] ++ countUp pad
/-- The fields of the file. -/
def exSshFields (wt : Bytes) (x y : UInt8) (pad : Nat) : KeyFile :=
  ⟨"none".toList, "none".toList, [], [exSshType ++ ([0, 0, 0, 32] ++ exSshPublic ++ [])], exSshBody wt x y pad, []⟩
/-- The file; `ssh-keygen -y` accepts it. -/
def exSshFile (wt : Bytes) (x y : UInt8) (pad : Nat) : Bytes :=
  magic ++ ([0, 0, 0, 4] ++ pb! "none") ++ ([0, 0, 0, 4] ++ pb! "none") ++ [0, 0, 0, 0] ++ [0, 0, 0, 1] ++
    ([0, 0, 0, 51] ++ (exSshType ++ ([0, 0, 0, 32] ++ exSshPublic ++ [])) ++ []) ++ ([0, 0, 0, 136] ++ exSshBody wt x y pad) ++ []
/-- The key in it. -/
def exSshKey (name : Str) (x y : UInt8) : SshKey :=
  ⟨py! "ssh-ed25519", py! "ssh-ed25519", [(py! "public", .bytes exSshPublic)],
    name, [(py! "public", .bytes exSshPublic), (py! "private_public", .bytes exSshSecret)], [x, y]⟩

/-- OpenSSH reads the file. -/
theorem exSsh_reads (name : Str) (wt : Bytes) (x y : UInt8) (pad : Nat) (hname : SshNames (py! "ssh-ed25519") name)
    (hwt : Encodes (.pascal .string) wt (.str name)) (hpad : wt.length + pad = 18) (hx : x ≠ 0) (hy : y ≠ 0) (pass : List Char) :
    SshReads exExt (fun _ _ => True) toyCrypto pass (exSshFile wt x y pad) (exSshFields wt x y pad) (exSshKey name x y) pad := by
  have ht : Encodes (.pascal .string) exSshType (.str (py! "ssh-ed25519")) := exEd_type
  have hp : Prefixed 4 exSshPublic ([0, 0, 0, 32] ++ exSshPublic) := ⟨[0, 0, 0, 32], rfl, by decide +kernel, rfl⟩
  have hs : Prefixed 4 exSshSecret ([0, 0, 0, 64] ++ exSshSecret) := ⟨[0, 0, 0, 64], rfl, by decide +kernel, rfl⟩
  have hn : CName (py! "none") (strOf "none".toList) := .inl (by decide +kernel)
  have hnone : Prefixed 4 (utf8 "none".toList) ([0, 0, 0, 4] ++ pb! "none") :=
    ⟨[0, 0, 0, 4], rfl, by decide +kernel, by decide +kernel⟩
  have hblob : (exSshType ++ ([0, 0, 0, 32] ++ exSshPublic ++ [])).length = 51 := by decide +kernel
  have hpub : publicFields (py! "ssh-ed25519") = some ed25519Fields := by decide +kernel
  have hpriv : privateFields (py! "ssh-ed25519") =
      some [(py! "public", .pascal .bytes), (py! "private_public", .pascal .bytes)] := by decide +kernel
  have hcm : Prefixed 4 [x, y] [0, 0, 0, 2, x, y] := ⟨[0, 0, 0, 2], rfl, (by decide +kernel : digitSum [0, 0, 0, 2] = 2), rfl⟩
  have hlen : (exSshBody wt x y pad).length = 136 := by
    simp [exSshBody, exSshPublic, exSshSecret, countUp]
    omega
  have hbody : Prefixed 4 (exSshBody wt x y pad) ([0, 0, 0, 136] ++ exSshBody wt x y pad) :=
    ⟨[0, 0, 0, 136], rfl, by rw [hlen]; decide +kernel, rfl⟩
  have hcurve : ∀ c oid, (py! "ssh-ed25519", c, oid) ∉ curveTable := by simp [curveTable]
  have nostring : ∀ k, (k, FI.pascal .string) ∉ ed25519Fields ∧
      (k, FI.pascal .string) ∉ [(py! "public", FI.pascal .bytes), (py! "private_public", FI.pascal .bytes)] := by
    simp [ed25519Fields]
  refine ⟨?_, trivial, ⟨8, .inl ⟨hn, rfl, rfl⟩, ?_, ?_⟩, ⟨exSshType ++ ([0, 0, 0, 32] ++ exSshPublic ++ []), ?_, rfl⟩,
    ⟨[0, 0, 0, 7], wt ++ ([0, 0, 0, 32] ++ exSshPublic ++ ([0, 0, 0, 64] ++ exSshSecret ++ [])), [0, 0, 0, 2, x, y], rfl, ?_, hcm,
      rfl, .clear hn hn⟩, ?_, ?_⟩
  · refine ⟨_, [0, 0, 0, 136] ++ exSshBody wt x y pad, ⟨[0, 0, 0, 4] ++ pb! "none", [0, 0, 0, 4] ++ pb! "none", [0, 0, 0, 0], [0, 0, 0, 1],
      [0, 0, 0, 51] ++ (exSshType ++ ([0, 0, 0, 32] ++ exSshPublic ++ [])) ++ [], hnone, hnone,
      ⟨[0, 0, 0, 0], rfl, (by decide +kernel : digitSum [0, 0, 0, 0] = 0), rfl⟩, rfl,
      (by decide +kernel : digitSum [0, 0, 0, 1] = 1), (by decide : 1 < 2 ^ 31),
      ⟨_, [], ⟨[0, 0, 0, 51], rfl, by rw [hblob]; decide +kernel, rfl⟩, rfl, rfl⟩, rfl⟩, hbody, rfl⟩
  · show 8 ≤ (exSshBody wt x y pad).length
    rw [hlen]; decide
  · show (exSshBody wt x y pad).length % 8 = 0
    rw [hlen]
  · refine ⟨⟨_, .own, .inl rfl⟩, ⟨ed25519Fields, exSshType, _, hpub, ht, .cons (.bytes hp) .nil, rfl⟩, ?_, ?_, ?_, ?_, ?_⟩
    · intro fmt k b hf hk
      have : some fmt = some ed25519Fields := hf.symm.trans hpub
      cases this
      exact absurd hk (nostring k).1
    · intro n i h
      have := dget_mem h
      simp [exSshKey] at this
    · exact fun c oid hc => absurd hc (hcurve c oid)
    · intro _
      exact ⟨exSshPublic, rfl, rfl⟩
    · intro h
      cases h
  · refine ⟨⟨_, hname, .inl rfl⟩, ⟨_, wt, _, hpriv, hwt, .cons (.bytes hp) (.cons (.bytes hs) .nil), rfl⟩, ?_, ?_, ?_, ?_, ?_⟩
    · intro fmt k b hf hk
      have : some fmt = _ := hf.symm.trans hpriv
      cases this
      exact absurd hk (nostring k).2
    · intro n i h
      have := dget_mem h
      simp [exSshKey] at this
    · exact fun c oid hc => absurd hc (hcurve c oid)
    · intro _
      exact ⟨exSshPublic, rfl, rfl⟩
    · intro _ _
      exact ⟨exSshSecret, rfl, rfl⟩
  · exact ⟨[x, y], by simp [hx.symm, hy.symm], .inl rfl⟩
  · intro fmt n fi v hf hn hv
    have : some fmt = some ed25519Fields := hf.symm.trans hpub
    cases this
    have e : n = py! "public" ∧ fi = .pascal .bytes := by simpa [ed25519Fields] using hn
    obtain ⟨rfl, rfl⟩ := e
    rw [if_neg (by decide)]
    exact hv

theorem exSsh_me (pass : List Char) : SshReads exExt (fun _ _ => True) toyCrypto pass (exSshFile exSshType 109 101 3)
    (exSshFields exSshType 109 101 3) (exSshKey (py! "ssh-ed25519") 109 101) 3 :=
  exSsh_reads _ _ 109 101 3 .own exEd_type (by decide +kernel) (by decide) (by decide) pass

/-- Non-vacuous: a file with the comment `me` is read without any warning. -/
example : ∃ kl p, (listFromBytes exExt toyCrypto exInputs (exSshFile exSshType 109 101 3) none).res = .ok kl ∧ kl.pairs = [p] ∧
    p.priv.footer = [(py! "comment", .str (py! "me"))] ∧
    (listFromBytes exExt toyCrypto exInputs (exSshFile exSshType 109 101 3) none).log = [] := by
  obtain ⟨h0, h1⟩ := C93_reads_partial toyCrypto_laws.kdf_length (exSsh_me []) exInputs none (fun h => absurd rfl h)
  have hpub : publicFields (py! "ssh-ed25519") = some ed25519Fields := by decide +kernel
  have hpriv : privateFields (py! "ssh-ed25519") =
      some [(py! "public", .pascal .bytes), (py! "private_public", .pascal .bytes)] := by decide +kernel
  obtain ⟨kl, hkl⟩ := h0.2 ⟨by decide +kernel, by decide +kernel, rfl, rfl, ⟨_, _, hpub, .other (by decide) .nil⟩,
    ⟨_, _, hpriv, .other (by decide) (.other (by decide) .nil)⟩, ⟨"me".toList, by decide +kernel⟩⟩
  obtain ⟨⟨p, fmt, fmt', cs, h2, -, -, -, -, -, -, h3, h4, -⟩, h5⟩ := h1 kl hkl
  refine ⟨kl, p, hkl, h2, ?_, List.eq_nil_iff_forall_not_mem.2 fun v hv => ?_⟩
  · have : cs = "me".toList := utf8_inj (h3.symm.trans (by decide +kernel))
    rw [h4, this]
    decide +kernel
  rcases (h5 v).1 hv with ⟨-, h, -⟩ | ⟨-, block, tag, h, h'⟩ | ⟨-, -, p, s, e1, e2, h⟩ | ⟨-, c, oid, h, -⟩ | ⟨-, n, x, y, e1, e2, h⟩
  · exact h (by decide +kernel)
  · have : (block, tag) = (8, 0) := by
      rw [show cipherSizes (strOf (exSshFields exSshType 109 101 3).cipher) = some (8, 0) by decide +kernel] at h
      exact (Option.some.inj h).symm
    cases this
    omega
  · cases e1
    cases e2
    exact h (by decide +kernel)
  · revert h
    rw [show (exSshKey (py! "ssh-ed25519") 109 101).type = py! "ssh-ed25519" from rfl]
    simp [curveTable]
  · have := dget_mem e1
    simp [exSshKey] at this
    obtain ⟨rfl, rfl⟩ := this
    cases e2
    exact h rfl

/-- **C93** is false: a file that OpenSSH reads, with a comment in Latin-1, is refused; and so is one whose private key has
another name of the key type. -/
theorem C93_false : (∃ b f key pad, SshReads exExt (fun _ _ => True) toyCrypto [] b f key pad ∧
    key.pubName = key.type ∧ key.privName = key.type ∧ (listFromBytes exExt toyCrypto exInputs b none).res.toOption = none) ∧
    ∃ b f key pad cs, SshReads exExt (fun _ _ => True) toyCrypto [] b f key pad ∧ key.comment = utf8 cs ∧
    (listFromBytes exExt toyCrypto exInputs b none).res.toOption = none :=
  ⟨⟨_, _, _, _, exSsh_reads _ exSshType 0xe9 101 3 .own exEd_type (by decide +kernel) (by decide) (by decide) [], rfl, rfl,
    by decide +kernel⟩,
   ⟨_, _, _, _, "me".toList, exSsh_reads (py! "Ed25519") exSshAlias 109 101 7 (.short (by decide +kernel))
    (Encodes.text (cs := "Ed25519".toList) ⟨[0, 0, 0, 7], rfl, by decide +kernel, by decide +kernel⟩) (by decide +kernel) (by decide)
      (by decide) [], by decide +kernel, by decide +kernel⟩⟩

/-- **C93** is false for texts: OpenSSH ignores what comes after the end marker, the package refuses it. -/
theorem C93_text_false : ∃ s b, SshText s b (py! "\n") ∧ SshReads exExt (fun _ _ => True) toyCrypto [] b
      (exSshFields exSshType 109 101 3) (exSshKey (py! "ssh-ed25519") 109 101) 3 ∧
    (listFromString exExt toyCrypto exInputs s none).res = .error (.valueError "Not an openssh private key") := by
  refine ⟨_, exSshFile exSshType 109 101 3, ⟨base64Text (exSshFile exSshType 109 101 3), rfl, by decide +kernel⟩, exSsh_me [], ?_⟩
  decide +kernel

end OSK
