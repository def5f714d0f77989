import Verif.Props.Checks
import Verif.Props.Generate
/-
Property C73: all warnings of parsing a key list.
-/
namespace OSK
open Spec

/-- What is wrong with the values of a key: faults of its key material, faults of a certificate. -/
def Spec.ValueFault (ext : Ext) (kind : Kind) (k : Key) (v : Event) : Prop :=
  ∃ t, dget k.header (py! "key_type") = some (.str t) ∧
    ((∃ w, v = .warn w ∧ MaterialFault ext kind t k.params.data w) ∨
      (isCertType t = true ∧ CertFault ext k.params.data v))

/-- What parsing a key reports about that key (`C72_parse_warnings`): what is wrong with its values, bytes
after its end. -/
def Spec.KeyFault (ext : Ext) (kind : Kind) (k : Key) (v : Event) : Prop :=
  ValueFault ext kind k v ∨ (v = .warn .excessBytes ∧ (dget k.clear (py! "remainder")).isSome)

theorem fromBytes_faults {ext : Ext} {kind : Kind} {b : Bytes} {k : Key}
    (h : (fromBytes ext kind b none).res = .ok k) (v : Event) :
    v ∈ (fromBytes ext kind b none).log ↔ KeyFault ext kind k v := by
  obtain ⟨t, ht, hv⟩ := C72_parse_warnings ext kind b none k h rfl
  rw [hv]
  constructor
  · rintro (hh | hh | hh)
    · exact .inl ⟨t, ht, .inl hh⟩
    · exact .inl ⟨t, ht, .inr hh⟩
    · exact .inr hh
  · rintro (⟨t', ht', hh⟩ | hh)
    · rw [ht] at ht'
      cases ht'
      rcases hh with hh | hh
      · exact .inl hh
      · exact .inr (.inl hh)
    · exact .inr (.inr hh)

theorem mem_pairsLog_all {ext : Ext} {i : Nat} {ps : List Pair} {ws : List Bytes} (hk : KeysAt ext ps ws)
    {v : Event} :
    v ∈ pairsLog ext i ps ws ↔
      ∃ j p, ps[j]? = some p ∧ (KeyFault ext .priv p.priv v ∨ v ∈ pairWarnings (i + j) p) := by
  induction ps generalizing i ws with
  | nil => simp [pairsLog]
  | cons p ps ih =>
    obtain ⟨w, t, rfl, hw, -, hk⟩ := hk
    simp only [pairsLog, List.mem_append, ih hk, fromBytes_faults hw]
    constructor
    · rintro (h | ⟨j, q, hq, h⟩)
      · exact ⟨0, p, rfl, h⟩
      · exact ⟨j + 1, q, by simpa using hq, by rw [show i + (j + 1) = i + 1 + j by omega]; exact h⟩
    · rintro ⟨j, q, hq, h⟩
      cases j with
      | zero =>
        simp at hq; subst hq
        exact .inl h
      | succ j => exact .inr ⟨j, q, by simpa using hq, by rw [show i + 1 + j = i + (j + 1) by omega]; exact h⟩

theorem mem_flatMap_faults {ext : Ext} {bs : List Bytes} {ks : List Key} {v : Event}
    (h : List.Forall₂ (fun b k => (fromBytes ext .pub b none).res = .ok k) bs ks) :
    v ∈ bs.flatMap (fun b => (fromBytes ext .pub b none).log) ↔ ∃ k ∈ ks, KeyFault ext .pub k v := by
  induction h with
  | nil => simp
  | cons h1 _ ih => simp [ih, fromBytes_faults h1]

/-- **C73.** Everything that is reported while parsing a key list that parses: the prompt if a passphrase is
needed and none was given; different check numbers; wrong padding; for each pair, different types, different
common values, and the faults of its public and of its private key.  Nothing else is reported, and nothing of
this is left out. -/
theorem C73_list_warnings (ext : Ext) (cr : Crypto) (inp : Inputs) (b : Bytes) (passphrase : Option Str)
    (kl : KeyList) (h : (listFromBytes ext cr inp b passphrase).res = .ok kl) :
    ∃ header cipher kdf block tag plain pad nums ws, kl.header = some header ∧
      dget header (py! "cipher") = some (.str cipher) ∧ dget header (py! "kdf") = some (.str kdf) ∧
      cipherSizes cipher = some (block, tag) ∧ kl.decipherBytes = some plain ∧ kl.decipherPadding = some pad ∧
      nums.length = 8 ∧ plain = nums ++ ws.flatten ++ pad ∧ KeysAt ext kl.pairs ws ∧
      ∀ v, v ∈ (listFromBytes ext cr inp b passphrase).log ↔
        (v = .prompt ∧ kdf ≠ py! "none" ∧ passphrase = none) ∨
        (v = .warn .checkNumbers ∧ nums.take 4 ≠ nums.drop 4) ∨
        (v = .warn .padding ∧ ¬ GoodPadding block plain pad) ∨
        ∃ i p, kl.pairs[i]? = some p ∧
          ((v = .warn (.pairTypeMismatch i) ∧ TypesDiffer p) ∨
            (v = .warn (.pairValueMismatch i) ∧ ValuesDiffer p) ∨
            KeyFault ext .pub p.pub v ∨ KeyFault ext .priv p.priv v) := by
  obtain ⟨p⟩ := listFromBytes_parse h
  refine ⟨fileHeader p.f, strOf p.f.cipher, strOf p.f.kdf, p.cc.blockSize, p.cc.tagLength, p.plain, p.pad,
    p.c1 ++ p.c2, p.ws, congrArg KeyList.header p.list, rfl, rfl, cipher_sizes p.cipher,
    congrArg KeyList.decipherBytes p.list, congrArg KeyList.decipherPadding p.list,
    by simp [p.len1, p.len2], p.split, p.keys, ?_⟩
  intro v
  have hkdf := kdf_none_iff p.kdf
  simp only [Val.str.injEq] at hkdf
  rw [p.log]
  simp only [List.mem_append, choosePassphrase_log, mem_pairsLog_all p.keys, Nat.zero_add, padWarnings,
    mem_flatMap_faults p.pubs, ← p.pairs]
  rw [List.take_left' p.len1, List.drop_left' p.len1]
  have hpub : (∃ k ∈ kl.pairs.map Pair.pub, KeyFault ext .pub k v) ↔
      ∃ (i : Nat) (q : Pair), kl.pairs[i]? = some q ∧ KeyFault ext .pub q.pub v := by
    constructor
    · rintro ⟨k, hk, hv⟩
      obtain ⟨q, hq, rfl⟩ := List.mem_map.1 hk
      obtain ⟨i, hi⟩ := List.mem_iff_getElem?.1 hq
      exact ⟨i, q, hi, hv⟩
    · rintro ⟨i, q, hi, hv⟩
      exact ⟨_, List.mem_map_of_mem (List.mem_of_getElem? hi), hv⟩
  have hpw : ∀ i q, v ∈ pairWarnings i q ↔ (v = .warn (.pairTypeMismatch i) ∧ TypesDiffer q) ∨
      (v = .warn (.pairValueMismatch i) ∧ ValuesDiffer q) := by
    intro i q
    constructor
    · exact pairWarnings_events
    · rintro (⟨rfl, h⟩ | ⟨rfl, h⟩)
      · exact mem_pairWarnings_type.2 ⟨rfl, h⟩
      · exact mem_pairWarnings_value.2 ⟨rfl, h⟩
  rw [hpub]
  simp only [hpw, decide_eq_false_iff_not, hkdf]
  constructor
  · rintro ((⟨i, q, hq, h⟩ | h) | ((h | ⟨i, q, hq, h⟩) | h))
    · exact .inr (.inr (.inr ⟨i, q, hq, .inr (.inr (.inl h))⟩))
    · split at h
      · exact .inl ⟨by simpa using h, ‹_ ∧ _›⟩
      · simp at h
    · split at h
      · exact .inr (.inl ⟨by simpa using h, ‹_›⟩)
      · simp at h
    · rcases h with h | h | h
      · exact .inr (.inr (.inr ⟨i, q, hq, .inr (.inr (.inr h))⟩))
      · exact .inr (.inr (.inr ⟨i, q, hq, .inl h⟩))
      · exact .inr (.inr (.inr ⟨i, q, hq, .inr (.inl h)⟩))
    · split at h
      · simp at h
      · exact .inr (.inr (.inl ⟨by simpa using h, ‹_›⟩))
  · rintro (⟨rfl, h1, h2⟩ | ⟨rfl, h⟩ | ⟨rfl, h⟩ | ⟨i, q, hq, h | h | h | h⟩)
    · exact .inl (.inr (by simp [h1, h2]))
    · exact .inr (.inl (.inl (by rw [if_pos h]; simp)))
    · exact .inr (.inr (by rw [if_neg h]; simp))
    · exact .inr (.inl (.inr ⟨i, q, hq, .inr (.inl h)⟩))
    · exact .inr (.inl (.inr ⟨i, q, hq, .inr (.inr h)⟩))
    · exact .inl (.inl ⟨i, q, hq, h⟩)
    · exact .inr (.inl (.inr ⟨i, q, hq, .inl h⟩))

/-! ### Lists that were packed -/

theorem tables_named : (∀ e ∈ keyTable, ∀ name oid, (e.1, name, oid) ∈ curveTable →
      (py! "identifier") ∈ dkeys e.2.1 ∧ (py! "q") ∈ dkeys e.2.1 ∧
      ∀ f ∈ e.2.2, (py! "identifier") ∈ dkeys f ∧ (py! "q") ∈ dkeys f) ∧
    (∀ e ∈ keyTable, e.1 ∈ ed25519Table → (py! "public") ∈ dkeys e.2.1 ∧
      ∀ f ∈ e.2.2, (py! "public") ∈ dkeys f ∧ (e.1 = py! "ssh-ed25519" → (py! "private_public") ∈ dkeys f)) ∧
    (∀ e ∈ keyTable, isCertType e.1 = true → e.2.2 = none ∧
      ∀ n ∈ [py! "type", py! "valid_principals", py! "critical_options", py! "extensions", py! "signature_key"],
        n ∈ dkeys e.2.1) := by
  have h1 : ∀ e ∈ keyTable, ∀ r ∈ curveTable, e.1 = r.1 →
      (py! "identifier") ∈ dkeys e.2.1 ∧ (py! "q") ∈ dkeys e.2.1 ∧
      ∀ f ∈ e.2.2, (py! "identifier") ∈ dkeys f ∧ (py! "q") ∈ dkeys f := by decide +kernel
  exact ⟨fun e he name oid h => h1 e he _ h rfl, by decide +kernel, by decide +kernel⟩

theorem fieldsOf_named {kind : Kind} {t : Str} {f : FDict} (h : fieldsOf kind t = some f) :
    (∀ name oid, (t, name, oid) ∈ curveTable → (py! "identifier") ∈ dkeys f ∧ (py! "q") ∈ dkeys f) ∧
    (t ∈ ed25519Table → (py! "public") ∈ dkeys f) ∧
    (kind = .priv → t = py! "ssh-ed25519" → (py! "private_public") ∈ dkeys f) ∧
    (isCertType t = true →
      ∀ n ∈ [py! "type", py! "valid_principals", py! "critical_options", py! "extensions", py! "signature_key"],
        n ∈ dkeys f) := by
  obtain ⟨a, b, c⟩ := tables_named
  have hm : ∃ e ∈ keyTable, e.1 = t ∧ ((kind = .pub ∧ e.2.1 = f) ∨ (kind = .priv ∧ e.2.2 = some f)) := by
    cases kind with
    | pub =>
      obtain ⟨r, hr, rfl⟩ := Option.map_eq_some_iff.1 (show (dget keyTable t).map _ = _ from h)
      exact ⟨_, dget_mem hr, rfl, .inl ⟨rfl, rfl⟩⟩
    | priv =>
      obtain ⟨r, hr, hf⟩ := Option.bind_eq_some_iff.1 (show (dget keyTable t).bind _ = _ from h)
      exact ⟨_, dget_mem hr, rfl, .inr ⟨rfl, hf⟩⟩
  obtain ⟨e, he, rfl, ⟨rfl, rfl⟩ | ⟨rfl, hf⟩⟩ := hm
  · exact ⟨fun n o h => ⟨(a e he n o h).1, (a e he n o h).2.1⟩, fun h => (b e he h).1, fun h => by simp at h,
      fun h => (c e he h).2⟩
  · refine ⟨fun n o h => (a e he n o h).2.2 f hf, fun h => ((b e he h).2 f hf).1, fun _ h => ?_, fun h => ?_⟩
    · exact ((b e he (by rw [h]; decide)).2 f hf).2 h
    · rw [(c e he h).1] at hf; cases hf

/-- Faults depend only on the documented fields. -/
theorem MaterialFault.same {ext : Ext} {kind : Kind} {t : Str} {f : FDict} {d d' : VDict} {w : Warning}
    (hf : fieldsOf kind t = some f) (hd : ∀ n ∈ dkeys f, dget d' n = dget d n)
    (h : MaterialFault ext kind t d' w) : MaterialFault ext kind t d w := by
  obtain ⟨h1, h2, h3, -⟩ := fieldsOf_named hf
  have h4 : kind = .priv → t = py! "ssh-ed25519" → (py! "public") ∈ dkeys f := fun _ e => h2 (by rw [e]; decide)
  cases h with
  | curve a b c => exact .curve a (hd _ (h1 _ _ a).1 ▸ b) c
  | point a b c e => exact .point a (hd _ (h1 _ _ a).1 ▸ b) (hd _ (h1 _ _ a).2 ▸ c) e
  | edLength a b c => exact .edLength a (hd _ (h2 a) ▸ b) c
  | edMismatch a b c e g => exact .edMismatch a b (hd _ (h4 a b) ▸ c) (hd _ (h3 a b) ▸ e) g
  | edPrivate a b c e g => exact .edPrivate a b (hd _ (h4 a b) ▸ c) (hd _ (h3 a b) ▸ e) g

theorem CertFault.same {ext : Ext} {d d' : VDict} {v : Event}
    (hd : ∀ n ∈ [py! "type", py! "valid_principals", py! "critical_options", py! "extensions", py! "signature_key"],
      dget d' n = dget d n) (h : CertFault ext d' v) : CertFault ext d v := by
  have h1 := hd (py! "type") (by simp)
  have h2 := hd (py! "valid_principals") (by simp)
  have h3 := hd (py! "critical_options") (by simp)
  have h4 := hd (py! "extensions") (by simp)
  have h5 := hd (py! "signature_key") (by simp)
  have h6 : getValidPrincipals d' = getValidPrincipals d := by
    unfold getValidPrincipals getItem
    rw [h2]
  cases h with
  | type a b c => exact .type (h1 ▸ a) b c
  | principals a b c => exact .principals (h2 ▸ a) (h6 ▸ b) c
  | critical a b c => exact .critical (h3 ▸ a) b c
  | extensions a b c => exact .extensions (h4 ▸ a) b c
  | repeated a b c e =>
    refine .repeated a ?_ c e
    rcases a with rfl | rfl
    · rw [← h3]; exact b
    · rw [← h4]; exact b
  | inside a b => exact .inside (h5 ▸ a) b
  | authorityCert a b c e => exact .authorityCert (h5 ▸ a) b c e
  | authority a b => exact .authority (h5 ▸ a) b

theorem ValueFault.same {ext : Ext} {kind : Kind} {t : Str} {f : FDict} {k k' : Key} {v : Event}
    (ht : dget k.header (py! "key_type") = some (.str t)) (ht' : dget k'.header (py! "key_type") = some (.str t))
    (hf : fieldsOf kind t = some f) (hd : ∀ n ∈ dkeys f, dget k'.params.data n = dget k.params.data n) :
    ValueFault ext kind k' v ↔ ValueFault ext kind k v := by
  have go : ∀ {k k' : Key}, dget k.header (py! "key_type") = some (.str t) →
      dget k'.header (py! "key_type") = some (.str t) →
      (∀ n ∈ dkeys f, dget k'.params.data n = dget k.params.data n) →
      ValueFault ext kind k' v → ValueFault ext kind k v := by
    rintro k k' ht ht' hd ⟨t', h1, h2⟩
    rw [ht'] at h1
    cases h1
    refine ⟨t, ht, ?_⟩
    rcases h2 with ⟨w, rfl, h⟩ | ⟨h1, h⟩
    · exact .inl ⟨w, rfl, MaterialFault.same hf hd h⟩
    · exact .inr ⟨h1, CertFault.same (fun n hn => hd n ((fieldsOf_named hf).2.2.2 h1 n hn)) h⟩
  exact ⟨go ht ht' hd, go ht' ht fun n hn => (hd n hn).symm⟩

theorem forall₂_get_left {α β : Type} {R : α → β → Prop} {l : List α} {m : List β} (h : List.Forall₂ R l m) {a : α}
    (ha : a ∈ l) : ∃ (i : Nat) (b : β), m[i]? = some b ∧ R a b := by
  induction h with
  | nil => cases ha
  | cons h1 _ ih =>
    rcases List.mem_cons.1 ha with rfl | ha
    · exact ⟨0, _, rfl, h1⟩
    · obtain ⟨i, b, hb, hr⟩ := ih ha
      exact ⟨i + 1, b, by simpa using hb, hr⟩

/-- **C73** (round trip).  What is reported while parsing a list that was packed, from keys that agree pairwise
(or with the public keys taken from the private ones): the prompt, if the key derivation function needs a
passphrase and none was given, and what is wrong with the values of the packed keys.  Nothing else. -/
theorem C73_packed_list {ext : Ext} {cr : Crypto} (hl : CryptoLaws cr) (inp inp' : Inputs) (self : KeyList)
    (passphrase passphrase' : Option Str) (indices : Option (List Int)) (override retain : Bool) (w : Bytes)
    (cipher kdf : Str) (hn : Names self cipher kdf)
    (hk : ∀ p ∈ self.pairs, Constructed ext p.pub ∧ p.priv.kind = .priv ∧ Constructed ext p.priv)
    (hp : ∀ p, Enters inp passphrase p → Enters inp' passphrase' p)
    (hc : override = true ∨ ∀ p ∈ self.pairs, ¬ TypesDiffer p ∧ ¬ ValuesDiffer p)
    (h : (packKeyList cr inp self passphrase indices override retain).res = .ok w) :
    ∃ sel, Selection self.pairs indices sel ∧ ∀ v, v ∈ (listFromBytes ext cr inp' w passphrase').log ↔
      (v = .prompt ∧ kdf ≠ py! "none" ∧ passphrase' = none) ∨
      ∃ p ∈ sel, ValueFault ext .pub (if override then p.priv else p.pub) v ∨ ValueFault ext .priv p.priv v := by
  have hns := C26_no_warnings hl inp inp' self passphrase passphrase' indices override retain w hk hp hc h
  obtain ⟨k⟩ := packKeyList_pack h
  obtain ⟨kl, h1, h2, h3, -⟩ := k.parsed hl (fun p hp => hk p (Selection.mem k.selection p hp)) hp []
  rw [List.append_nil] at h1
  refine ⟨k.sel, k.selection, ?_⟩
  obtain ⟨header, cipher', kdf', block, tag, plain, pad, nums, ws, e1, -, e3, -, -, -, -, -, -, hv⟩ :=
    C73_list_warnings ext cr inp' w passphrase' kl h1
  have ekdf : kdf' = kdf := by
    rw [h3] at e1
    cases e1
    have e4 := k.names
    rw [names_iff.2 hn] at e4
    have e5 : dget (fileHeader k.f) (py! "kdf") = some (.str (strOf k.f.kdf)) := rfl
    rw [e5] at e3
    simp at e3 e4
    rw [← e3, e4.2]
  subst ekdf
  intro v
  have hone : ∀ p q : Pair, SamePublic (if override then p.priv else p.pub) q.pub → SamePrivate p.priv q.priv →
      q.priv.clear = [] → ((KeyFault ext .pub q.pub v ∨ KeyFault ext .priv q.priv v) ↔
        (ValueFault ext .pub (if override then p.priv else p.pub) v ∨ ValueFault ext .priv p.priv v)) := by
    intro p q s1 s2 s3
    obtain ⟨-, -, a3, t, f, a4, a5, a6, -, -, a9⟩ := s1
    obtain ⟨-, -, t', f', b4, b5, b6, -, b9, -, -⟩ := s2
    unfold KeyFault
    rw [a3, s3, ValueFault.same (kind := .pub) a4 (by rw [a6]; simp) a5 a9,
      ValueFault.same (kind := .priv) b4 (by rw [b6]; simp) b5 b9]
    simp
  constructor
  · intro hm
    have hs := hns v hm
    rcases (hv v).1 hm with h | ⟨rfl, -⟩ | ⟨rfl, -⟩ | ⟨i, q, hq, ⟨rfl, -⟩ | ⟨rfl, -⟩ | h⟩
    · exact .inl h
    · exact absurd (.inl rfl) hs
    · exact absurd (.inr (.inr (.inr (.inl rfl)))) hs
    · exact absurd (.inr (.inl ⟨i, rfl⟩)) hs
    · exact absurd (.inr (.inr (.inl ⟨i, rfl⟩))) hs
    · obtain ⟨p, hpm, s1, s2, s3⟩ := forall₂_get h2 hq
      exact .inr ⟨p, hpm, (hone p q s1 s2 s3).1 h⟩
  · rintro (h | ⟨p, hpm, h⟩)
    · exact (hv v).2 (.inl h)
    · obtain ⟨i, q, hq, s1, s2, s3⟩ := forall₂_get_left h2 hpm
      exact (hv v).2 (.inr (.inr (.inr ⟨i, q, hq, .inr (.inr ((hone p q s1 s2 s3).2 h))⟩)))

/-- Generated keys have no faults. -/
theorem generated_no_fault {ext : Ext} {lib : Lib} {gen : Gen} (hl : GenLaws ext lib gen) {t : PlainType}
    {comment : Str} {kwargs : VDict} {p : Pair} (h : (generate ext lib gen t.name comment kwargs).res = .ok p)
    (v : Event) : ¬ ValueFault ext .pub p.pub v ∧ ¬ ValueFault ext .pub p.priv v ∧ ¬ ValueFault ext .priv p.priv v := by
  rcases generate_plain hl t comment kwargs with ⟨e, -, h2⟩ | ⟨o, d, h1, h2, h3⟩
  · rw [h2] at h; cases h
  rw [h3] at h
  cases h
  have go : ∀ kind, ¬ ((∃ w, v = .warn w ∧ MaterialFault ext kind t.name d w) ∨
      (isCertType t.name = true ∧ CertFault ext d v)) := by
    intro kind
    obtain ⟨d', e, q⟩ := generated_quiet hl (ca := caFromBytes ext) kind h1
    rw [h2] at e
    cases e
    have hf := fieldsOf_eq (paramsClass_plain kind t)
    have := allChecks_faults (ext := ext) (d := d) (paramsClass_plain kind t) hf (by rw [q]; rfl) v
    rw [q] at this
    simp only [Eff.pure_log, List.not_mem_nil, false_iff] at this
    rintro (⟨w, rfl, hw⟩ | hw)
    · exact this (.inl ⟨w, rfl, .inr hw⟩)
    · exact this (.inr hw)
  refine ⟨?_, ?_, ?_⟩ <;> rintro ⟨t', ht, hv⟩ <;> simp at ht <;> subst ht <;> exact go _ hv

/-- **C73** (generated keys).  Parsing a packed list of generated pairs reports nothing at all; if a
passphrase is needed and not given, there is exactly one prompt. -/
theorem C73_generated_list (ext : Ext) (lib : Lib) (gen : Gen) (hg : GenLaws ext lib gen) {cr : Crypto}
    (hl : CryptoLaws cr) (inp inp' : Inputs) (self : KeyList) (passphrase passphrase' : Option Str)
    (indices : Option (List Int)) (override retain : Bool) (w : Bytes) (cipher kdf : Str)
    (hn : Names self cipher kdf)
    (hgen : ∀ p ∈ self.pairs, ∃ (t : PlainType) (comment : Str) (kwargs : VDict),
      (generate ext lib gen t.name comment kwargs).res = .ok p)
    (hp : ∀ p, Enters inp passphrase p → Enters inp' passphrase' p)
    (h : (packKeyList cr inp self passphrase indices override retain).res = .ok w) :
    (listFromBytes ext cr inp' w passphrase').log =
      if kdf ≠ py! "none" ∧ passphrase' = none then [.prompt] else [] := by
  have hcons : ∀ p ∈ self.pairs, (Constructed ext p.pub ∧ p.priv.kind = .priv ∧ Constructed ext p.priv) ∧
      ¬ TypesDiffer p ∧ ¬ ValuesDiffer p := by
    intro p hm
    obtain ⟨t, comment, kwargs, h1⟩ := hgen p hm
    exact generate_consistent h1
  obtain ⟨sel, hs, hv⟩ := C73_packed_list hl inp inp' self passphrase passphrase' indices override retain w cipher kdf
    hn (fun p hm => (hcons p hm).1) hp (.inr fun p hm => (hcons p hm).2) h
  have hv' : ∀ v, v ∈ (listFromBytes ext cr inp' w passphrase').log ↔
      v = .prompt ∧ kdf ≠ py! "none" ∧ passphrase' = none := by
    intro v
    rw [hv, or_iff_left]
    rintro ⟨p, hpm, hf⟩
    obtain ⟨t, comment, kwargs, h1⟩ := hgen p (Selection.mem hs p hpm)
    obtain ⟨a, b, c⟩ := generated_no_fault hg h1 v
    cases override
    · exact hf.elim a c
    · exact hf.elim b c
  have hcount := (C34_parse_prompts ext cr inp' w passphrase').1
  generalize (listFromBytes ext cr inp' w passphrase').log = l at hv' hcount
  split
  · rename_i hh
    simp only [hh, ne_eq, not_false_eq_true, and_self, and_true] at hv'
    match l, hv', hcount with
    | [], hv', _ => exact absurd ((hv' .prompt).2 rfl) (by simp)
    | [a], hv', _ => rw [(hv' a).1 (by simp)]
    | a :: b :: m, hv', hcount =>
      have e1 := (hv' a).1 (by simp)
      have e2 := (hv' b).1 (by simp)
      subst e1 e2
      simp at hcount
  · rename_i hh
    simp only [hh, and_false, iff_false] at hv'
    exact List.eq_nil_iff_forall_not_mem.2 hv'

/-- The examples: short Ed25519 keys are reported for both keys of a pair, after the prompt if there is one; keys
that do not belong together are reported by their position; generated keys are silent. -/
example : (listFromBytes exExt toyCrypto exInputs exFile none).log =
    [.warn .ed25519PublicLength, .prompt, .warn .ed25519PublicLength, .warn .ed25519PublicMismatch,
      .warn .ed25519PrivateLength] ∧
    (listFromBytes exExt toyCrypto exInputs exFile (some (py! "pw"))).log =
    [.warn .ed25519PublicLength, .warn .ed25519PublicLength, .warn .ed25519PublicMismatch,
      .warn .ed25519PrivateLength] ∧
    (listFromBytes exExt toyCrypto exInputs exOddFile none).log =
    [.warn .ed25519PublicLength, .warn .ed25519PublicMismatch,
      .warn .ed25519PrivateLength, .warn (.pairTypeMismatch 0)] := by decide +kernel
example (w : Bytes) (h : (packKeyList toyCrypto exInputs exGenerated (some (py! "pw")) none true false).res = .ok w) :
    (listFromBytes exExt toyCrypto exInputs w none).log = [.prompt] ∧
    (listFromBytes exExt toyCrypto exInputs w (some (py! "pw"))).log = [] := by
  have hg : ∀ p ∈ exGenerated.pairs, ∃ (t : PlainType) (comment : Str) (kwargs : VDict),
      (generate exExt exLib exGen t.name comment kwargs).res = .ok p := fun p hp => by
    obtain ⟨t, c, k, h, -⟩ := exPairs_generated p hp
    exact ⟨t, c, k, h⟩
  refine ⟨C73_generated_list exExt exLib exGen exGen_laws toyCrypto_laws exInputs exInputs exGenerated _ none none true
    false w _ _ (names_iff.1 rfl) hg (fun p hp => ?_) h,
    C73_generated_list exExt exLib exGen exGen_laws toyCrypto_laws exInputs exInputs exGenerated _ _ none true
    false w _ _ (names_iff.1 rfl) hg (fun p hp => hp) h⟩
  rcases hp with hp | ⟨hp, -⟩
  · cases hp; exact .inr ⟨rfl, rfl⟩
  · cases hp

end OSK
