import Verif.Lemmas.Generate
import Verif.Props.Convert
import Verif.Props.ListSucceed
/-
Properties C65 to C68: generated keys.
-/
namespace OSK
open Spec

/-! ### C65 -/

/-- **C65.** Generating a key pair of a plain type asks the library for exactly the key described in
`Spec.asked`.  If the library raises an exception, that is the outcome.  Otherwise the outcome is, without
any warning or prompt, a pair whose keys both have the type asked for and the values of the generated key; the
comment is the footer of the private key. -/
theorem C65_generate (ext : Ext) (lib : Lib) (gen : Gen) (hl : GenLaws ext lib gen) (t : PlainType)
    (comment : Str) (kwargs : VDict) :
    match asked gen kwargs t with
    | .error e => generate ext lib gen t.name comment kwargs = ⟨[], .error e⟩
    | .ok o => ∃ v cpub cpriv, privateValues lib t o = some v ∧
        getPublicClass (.str t.name) = .ok cpub ∧ getPrivateClass (.str t.name) = .ok cpriv ∧
        generate ext lib gen t.name comment kwargs = ⟨[], .ok
          ⟨⟨.pub, [(py! "key_type", .str t.name)], ⟨cpub, v⟩, [], []⟩,
            ⟨.priv, [(py! "key_type", .str t.name)], ⟨cpriv, v⟩, [(py! "comment", .str comment)], []⟩⟩⟩ := by
  rcases generate_plain hl t comment kwargs with ⟨e, h1, h2⟩ | ⟨o, v, h1, h2, h3⟩
  · rw [h1]; exact h2
  · rw [h1]
    exact ⟨v, _, _, h2, paramsClass_plain .pub t, paramsClass_plain .priv t, h3⟩

/-- **C65** (agreement with conversion).  The parameters of both keys of the pair are the ones that
`convert_from` gives for the generated key object. -/
theorem C65_as_converted (ext : Ext) (lib : Lib) (gen : Gen) (hl : GenLaws ext lib gen) (t : PlainType)
    (comment : Str) (kwargs : VDict) (o : KeyObj) (ho : asked gen kwargs t = .ok o) (c : Cls)
    (hc : getPrivateClass (.str t.name) = .ok c) :
    ∃ p, (generate ext lib gen t.name comment kwargs).res = .ok p ∧
      (convertFrom lib ext c o).res = .ok p.priv.params ∧ p.pub.params.data = p.priv.params.data := by
  rcases generate_plain hl t comment kwargs with ⟨e, h1, h2⟩ | ⟨o', v, h1, h2, h3⟩
  · rw [ho] at h1; cases h1
  · rw [ho] at h1; cases h1
    refine ⟨_, by rw [h3], ?_, rfl⟩
    have h := C59_convert_from lib ext .priv t c o hc
    have hr : refusal lib .priv t o = none := by
      cases o <;> cases t <;> first | rfl | simp [privateValues, asked] at h2 ho
      all_goals (split at ho <;> cases ho)
    have hv : values lib .priv t o = some v := h2
    rw [hr, hv] at h
    have := paramsClass_plain .priv t
    rw [show paramsClass .priv (.str t.name) = getPrivateClass (.str t.name) from rfl, hc] at this
    cases this
    exact h

/-- **C65** (without a curve).  Generating parameters with the common class of the elliptic curve types gives a P-256
key, with the class for that. -/
theorem C65_default_curve (ext : Ext) (lib : Lib) (gen : Gen) (hl : GenLaws ext lib gen) (kwargs : VDict) :
    match asked gen kwargs .ec256 with
    | .error e => generateParams ext lib gen .ecdsaPriv kwargs = ⟨[], .error e⟩
    | .ok o => ∃ v c, privateValues lib .ec256 o = some v ∧
        getPrivateClass (.str (py! "ecdsa-sha2-nistp256")) = .ok c ∧
        generateParams ext lib gen .ecdsaPriv kwargs = ⟨[], .ok ⟨c, v⟩⟩ := by
  have h : generateParams ext lib gen .ecdsaPriv kwargs = generateParams ext lib gen (plainClass .priv .ec256) kwargs := by
    have h1 : Cls.ecdsaPriv.resolve generateDef = some .ecdsaPriv := by decide +kernel
    have h2 : (plainClass .priv .ec256).resolve generateDef = some .ecdsaPriv := by decide +kernel
    unfold generateParams
    rw [h1, h2]
    rfl
  rw [h]
  rcases generateParams_plain hl .ec256 kwargs with ⟨e, h1, h2⟩ | ⟨o, v, h1, h2, h3⟩
  · rw [h1]; exact h2
  · rw [h1]
    exact ⟨v, _, h2, paramsClass_plain .priv .ec256, h3⟩

/-! ### C66 -/

/-- Every type name is that of a plain key, that of a security key, or has no private class. -/
theorem type_names (t : Str) : (∃ p : PlainType, t = p.name) ∨ t ∈ securityKeyTypes ∨ Unsupported .priv t := by
  by_cases h : t ∈ dkeys keyTable
  · simp only [dkeys, keyTable, List.map_cons, List.map_nil, List.mem_cons, List.not_mem_nil, or_false] at h
    rcases h with h | h | h | h | h | h | h | h | h | h | h | h | h | h | h | h <;> subst h
    · exact .inl ⟨.rsa, rfl⟩
    · exact .inl ⟨.ed25519, rfl⟩
    · exact .inl ⟨.dss, rfl⟩
    · exact .inl ⟨.ec256, rfl⟩
    · exact .inl ⟨.ec384, rfl⟩
    · exact .inl ⟨.ec521, rfl⟩
    · exact .inr (.inl (by decide))
    · exact .inr (.inl (by decide))
    all_goals exact .inr (.inr (by unfold Unsupported; decide +kernel))
  · refine .inr (.inr ?_)
    show privateFields t = none
    unfold privateFields
    rw [dget_eq_none_iff.2 h]
    rfl

/-- **C66.** Keys of the other types are not generated, and nothing is asked of the library: for security
keys `NotImplementedError` is raised, and for a type name without a private class (unknown names and
certificate types) `KeyError`. -/
theorem C66_refused (ext : Ext) (lib : Lib) (gen : Gen) (t comment : Str) (kwargs : VDict)
    (ht : ∀ p : PlainType, t ≠ p.name) :
    (t ∈ securityKeyTypes ∧ generate ext lib gen t comment kwargs = ⟨[], .error .notImplementedError⟩) ∨
    (t ∉ securityKeyTypes ∧ ∃ m, generate ext lib gen t comment kwargs = ⟨[], .error (.keyError (some m))⟩) := by
  rcases type_names t with ⟨p, h⟩ | h | h
  · exact absurd h (ht p)
  · refine .inl ⟨h, ?_⟩
    simp only [securityKeyTypes, List.mem_cons, List.not_mem_nil, or_false] at h
    have go : ∀ {t c}, getPrivateClass (.str t) = .ok c → c.resolve generateDef = some .skPriv →
        generate ext lib gen t comment kwargs = ⟨[], .error .notImplementedError⟩ := by
      intro t c h1 h2
      unfold generate
      rw [h1, Eff.lift_ok_bind]
      unfold generateParams
      rw [h2]
      rfl
    rcases h with rfl | rfl
    · exact go (c := .skEc256Priv) (by decide +kernel) (by decide +kernel)
    · exact go (c := .skEd25519Priv) (by decide +kernel) (by decide +kernel)
  · refine .inr ⟨?_, ?_⟩
    · intro hm
      simp only [securityKeyTypes, List.mem_cons, List.not_mem_nil, or_false] at hm
      revert h
      rcases hm with rfl | rfl <;> unfold Unsupported <;> decide +kernel
    · obtain ⟨m, hm⟩ := unsupported_class h
      refine ⟨m, ?_⟩
      unfold generate
      rw [show getPrivateClass (.str t) = .error (.keyError (some m)) from hm]
      rfl

/-! ### C67 -/

/-- What `generate` returns are keys that were constructed, with the same type and values. -/
theorem generate_consistent {ext : Ext} {lib : Lib} {gen : Gen} {t comment : Str} {kwargs : VDict} {p : Pair}
    (h : (generate ext lib gen t comment kwargs).res = .ok p) :
    (Constructed ext p.pub ∧ p.priv.kind = .priv ∧ Constructed ext p.priv) ∧ ¬ TypesDiffer p ∧ ¬ ValuesDiffer p := by
  unfold generate at h
  obtain ⟨c, -, h⟩ := Eff.bind_res_ok_iff.1 h
  obtain ⟨d, -, h⟩ := Eff.bind_res_ok_iff.1 h
  unfold generatePair at h
  obtain ⟨c', -, h⟩ := Eff.bind_res_ok_iff.1 h
  obtain ⟨kpriv, h1, h⟩ := Eff.bind_res_ok_iff.1 h
  obtain ⟨kpub, h2, h⟩ := Eff.bind_res_ok_iff.1 h
  cases h
  have h1' := h1
  have h2' := h2
  obtain ⟨t1, c1, -, -, e1, -⟩ := mkKeyWith_ok h1
  obtain ⟨t2, c2, -, -, e2, -⟩ := mkKeyWith_ok h2
  subst e1 e2
  exact ⟨⟨⟨_, _, _, _, h2'⟩, rfl, _, _, _, _, h1'⟩, fun h => h rfl, fun ⟨n, a, b, g1, g2, hne⟩ => hne (by
    simp only at g1 g2
    rw [g1] at g2
    exact Option.some.inj g2)⟩

/-- **C67** (keys).  The keys of a generated pair can be packed, if their values and the comment take at most
`n` bytes each, where `n` may be up to half a gigabyte.  The public keys packed from the public and from the
private key of the pair are the same. -/
theorem C67_keys_pack (ext : Ext) (lib : Lib) (gen : Gen) (hl : GenLaws ext lib gen) (t : PlainType)
    (comment : Str) (kwargs : VDict) (p : Pair) (n : Nat) (hn : 19 ≤ n) (hn' : 8 * (n + 4) < 2 ^ 32)
    (h : (generate ext lib gen t.name comment kwargs).res = .ok p)
    (hv : ∀ k v, dget p.priv.params.data k = some v → FitsIn n v) (hc : FitsIn n (.str comment)) :
    ∃ pub priv, packPublicBytes p.pub = .ok pub ∧ packPublicBytes p.priv = .ok pub ∧
      packPrivateBytes p.priv = .ok priv ∧ pub.length ≤ 8 * (n + 4) ∧ priv.length ≤ 8 * (n + 4) := by
  rcases generate_plain hl t comment kwargs with ⟨e, -, h2⟩ | ⟨o, v, -, h2, h3⟩
  · rw [h2] at h; cases h
  · rw [h3] at h
    cases h
    have hty : FitsIn n (.str t.name) := by
      have : ∃ cs, t.name = strOf cs ∧ (utf8 cs).length ≤ 19 := by
        cases t
        · exact ⟨"ssh-rsa".toList, by decide +kernel, by decide +kernel⟩
        · exact ⟨"ssh-dss".toList, by decide +kernel, by decide +kernel⟩
        · exact ⟨"ssh-ed25519".toList, by decide +kernel, by decide +kernel⟩
        · exact ⟨"ecdsa-sha2-nistp256".toList, by decide +kernel, by decide +kernel⟩
        · exact ⟨"ecdsa-sha2-nistp384".toList, by decide +kernel, by decide +kernel⟩
        · exact ⟨"ecdsa-sha2-nistp521".toList, by decide +kernel, by decide +kernel⟩
      obtain ⟨cs, e, hl⟩ := this
      exact ⟨cs, e, by omega⟩
    obtain ⟨w1, p1, l1⟩ := fits_packs (fi := .pascal .string) (by omega) hty trivial
    obtain ⟨w3, p3, l3⟩ := fits_packs (fi := .pascal .string) (by omega) hc trivial
    have hd : ∀ kind, ∃ w, packDict (formatOf (plainClass kind t)) v = .ok w ∧ w.length ≤ 6 * (n + 4) := by
      intro kind
      obtain ⟨hlen, hf⟩ := generated_fields kind h2
      obtain ⟨w, hw, hwl⟩ := packDict_fits (n := n) (by omega) (fmt := formatOf (plainClass kind t)) (d := v)
        (fun e he => by
          obtain ⟨x, hx, ht⟩ := hf e he
          exact ⟨x, hx, hv _ _ hx, ht⟩)
      exact ⟨w, hw, Nat.le_trans hwl (Nat.mul_le_mul_right _ hlen)⟩
    obtain ⟨w2, p2, l2⟩ := hd .pub
    obtain ⟨w4, p4, l4⟩ := hd .priv
    have hh : packDict (headerFmt .pub) [(py! "key_type", .str t.name)] = .ok w1 :=
      packDict_cons_ok_iff.2 ⟨_, _, _, rfl, p1, rfl, (List.append_nil w1).symm⟩
    have hft : packDict (footerFmt .priv) [(py! "comment", .str comment)] = .ok w3 :=
      packDict_cons_ok_iff.2 ⟨_, _, _, rfl, p3, rfl, (List.append_nil w3).symm⟩
    have f1 : firstPublicClass (plainClass .pub t) = plainClass .pub t := by cases t <;> decide +kernel
    have f2 : firstPublicClass (plainClass .priv t) = plainClass .pub t := by cases t <;> decide +kernel
    refine ⟨w1 ++ w2, w1 ++ (w4 ++ w3), ?_, ?_, ?_, ?_, ?_⟩
    · rw [packPublicBytes_eq]
      simp only [f1, hh, p2]
      rfl
    · rw [packPublicBytes_eq]
      simp only [f2, hh, p2]
      rfl
    · rw [packPrivateBytes_eq]
      simp only [p4, hft]
      rw [show headerFmt .priv = headerFmt .pub from rfl, hh]
      rfl
    · rw [List.length_append]; omega
    · rw [List.length_append, List.length_append]; omega

theorem forall₂_imp_mem {α β : Type} {R S : α → β → Prop} {l : List α} {m : List β} (h : List.Forall₂ R l m)
    (hi : ∀ a b, a ∈ l → R a b → S a b) : List.Forall₂ S l m := by
  induction h with
  | nil => exact .nil
  | cons h1 _ ih =>
    exact .cons (hi _ _ List.mem_cons_self h1) (ih fun a b ha hr => hi a b (List.mem_cons_of_mem _ ha) hr)

/-- A pair that `generate` returned for a plain type, whose values and comment take at most `n` bytes
each. -/
def Spec.Generated (ext : Ext) (lib : Lib) (gen : Gen) (n : Nat) (p : Pair) : Prop :=
  ∃ (t : PlainType) (comment : Str) (kwargs : VDict),
    (generate ext lib gen t.name comment kwargs).res = .ok p ∧
    (∀ k v, dget p.priv.params.data k = some v → FitsIn n v) ∧ FitsIn n (.str comment)

/-- **C67** (lists).  A list of generated pairs can be packed, if there is what it takes to encrypt it, and
parsing the result with the same passphrase gives the same keys, without a warning that something is
wrong with the structure.  The bounds on the sizes allow, for example, 4000 keys with values of 64 KiB. -/
theorem C67_list_round_trip (ext : Ext) (lib : Lib) (gen : Gen) (hl : GenLaws ext lib gen) {cr : Crypto}
    (hcr : CryptoLaws cr) (inp inp' : Inputs) (self : KeyList) (passphrase passphrase' : Option Str)
    (override retain : Bool) (cipher kdf : Str) (n : Nat) (hn : 19 ≤ n)
    (hg : ∀ p ∈ self.pairs, Generated ext lib gen n p)
    (hsize : self.pairs.length * (8 * (n + 4)) + 24 < 2 ^ 31) (hi : inp.checkInt < 2 ^ 32)
    (hnames : Names self cipher kdf) (hr : Ready cr inp self passphrase retain cipher kdf)
    (hp : ∀ p, Enters inp passphrase p → Enters inp' passphrase' p) :
    ∃ w kl, (packKeyList cr inp self passphrase none override retain).res = .ok w ∧
      (listFromBytes ext cr inp' w passphrase').res = .ok kl ∧
      List.Forall₂ (fun (p q : Pair) => SamePublic p.pub q.pub ∧ SamePrivate p.priv q.priv ∧ q.priv.clear = [])
        self.pairs kl.pairs ∧
      ∀ v ∈ (listFromBytes ext cr inp' w passphrase').log, ¬ Structural v := by
  have hpack : ∀ p ∈ self.pairs, ∃ pub priv, packPublicBytes p.pub = .ok pub ∧ packPublicBytes p.priv = .ok pub ∧
      packPrivateBytes p.priv = .ok priv ∧ pub.length ≤ 8 * (n + 4) ∧ priv.length ≤ 8 * (n + 4) := by
    intro p hm
    obtain ⟨t, comment, kwargs, h1, h2, h3⟩ := hg p hm
    have : 1 * (8 * (n + 4)) ≤ self.pairs.length * (8 * (n + 4)) :=
      Nat.mul_le_mul_right _ (List.length_pos_of_mem hm)
    exact C67_keys_pack ext lib gen hl t comment kwargs p n hn (by omega) h1 h2 h3
  have hprivs : ∃ privs, List.Forall₂ (fun (p : Pair) b => packPrivateBytes p.priv = .ok b) self.pairs privs ∧
      privs.flatten.length ≤ self.pairs.length * (8 * (n + 4)) := by
    clear hsize hg
    revert hpack
    generalize self.pairs = ps
    intro hpack
    induction ps with
    | nil => exact ⟨[], .nil, by simp⟩
    | cons p t ih =>
      obtain ⟨-, b, -, -, h3, -, h5⟩ := hpack p List.mem_cons_self
      obtain ⟨bs, h6, h7⟩ := ih (fun q hq => hpack q (List.mem_cons_of_mem _ hq))
      refine ⟨b :: bs, .cons h3 h6, ?_⟩
      rw [List.flatten_cons, List.length_append, List.length_cons, Nat.succ_mul]
      omega
  obtain ⟨privs, hf, hfl⟩ := hprivs
  have hcount : self.pairs.length < 2 ^ 31 := by
    have : self.pairs.length * 1 ≤ self.pairs.length * (8 * (n + 4)) := Nat.mul_le_mul_left _ (by omega)
    omega
  obtain ⟨w, hw⟩ := C69_succeeds hcr inp self passphrase none override retain cipher kdf self.pairs privs hnames hr
    rfl hcount (fun p hm => by
      obtain ⟨pub, priv, h1, h2, h3, h4, h5⟩ := hpack p hm
      have : 1 * (8 * (n + 4)) ≤ self.pairs.length * (8 * (n + 4)) :=
        Nat.mul_le_mul_right _ (List.length_pos_of_mem hm)
      exact ⟨pub, by cases override; exacts [h1, h2], by omega⟩) hf (by omega) hi
  have hcons : ∀ p ∈ self.pairs, (Constructed ext p.pub ∧ p.priv.kind = .priv ∧ Constructed ext p.priv) ∧
      ¬ TypesDiffer p ∧ ¬ ValuesDiffer p := by
    intro p hm
    obtain ⟨t, comment, kwargs, h1, -⟩ := hg p hm
    exact generate_consistent h1
  obtain ⟨kl, sel, h1, h2, h3⟩ := C25_round_trip hcr inp inp' self passphrase passphrase' none override retain w
    (fun p hm => (hcons p hm).1) hp hw
  obtain rfl : sel = self.pairs := h2
  refine ⟨w, kl, hw, h1, ?_, C26_no_warnings hcr inp inp' self passphrase passphrase' none override retain w
    (fun p hm => (hcons p hm).1) hp (.inr fun p hm => (hcons p hm).2) hw⟩
  refine forall₂_imp_mem h3 ?_
  rintro p q hpm ⟨a, b, c⟩
  refine ⟨?_, b, c⟩
  cases override
  · exact a
  · obtain ⟨t, comment, kwargs, hgen, -⟩ := hg p hpm
    obtain ⟨a1, a2, a3, t', f, a4, a5, a6, a7, a8, a9⟩ := a
    have e : p.pub.header = p.priv.header ∧ p.pub.params.data = p.priv.params.data := by
      rcases generate_plain hl t comment kwargs with ⟨e, -, h2⟩ | ⟨o, v, -, h2, h3⟩
      · rw [h2] at hgen; cases hgen
      · rw [h3] at hgen
        cases hgen
        exact ⟨rfl, rfl⟩
    exact ⟨a1, a2, a3, t', f, by rw [e.1]; exact a4, a5, a6, a7, a8, by rw [e.2]; exact a9⟩

/-- Generators with small numbers. -/
def exGen : Gen where
  rsa e _ := match e with
    | .int i => .ok ⟨3, 11, 7, 1, 7, 2, i, 33⟩
    | _ => .error .typeError
  dsa _ := .ok ⟨23, 11, 2, 18, 7⟩
  ed25519 := .ok (List.replicate 32 9)
  ec name := if name = py! "secp521r1" then .error (.valueError "no curve") else .ok (2, 3, 300)

theorem exGen_laws : GenLaws exExt exLib exGen where
  curve := by
    intro t name ident oid h
    cases t <;> simp [PlainType.curve] at h <;> obtain ⟨rfl, rfl, rfl⟩ := h <;> decide +kernel
  ed := by
    intro b h
    cases h
    decide +kernel
  point := fun _ _ => rfl

/-- Non-vacuous: a generated pair of each kind, with a given exponent, and two refusals. -/
def exPairs : List Pair :=
  [(py! "ssh-rsa", [(py! "e", .int 3)]), (py! "ssh-dss", []), (py! "ssh-ed25519", []),
    (py! "ecdsa-sha2-nistp384", [])].filterMap fun (t, kw) =>
      (generate exExt exLib exGen t (py! "me") kw).res.toOption
example : exPairs.map (fun p => (dget p.priv.params.data (py! "e"), p.pub.params.cls, p.priv.params.data.length)) =
    [(some (.int 3), .rsaPub, 6), (none, .dssPub, 5), (none, .ed25519Pub, 2), (none, .ec384Pub, 3)] := by
  decide +kernel
example : (generate exExt exLib exGen (py! "ecdsa-sha2-nistp521") [] []).res = .error (.valueError "no curve") ∧
    asked exGen [] .ec521 = .error (.valueError "no curve") ∧
    (generate exExt exLib exGen (py! "sk-ssh-ed25519@openssh.com") [] []).res = .error .notImplementedError ∧
    (generate exExt exLib exGen (py! "ssh-rsa-cert-v01@openssh.com") [] []).res =
      .error (.keyError (some (py! "No subclass of PrivateKeyParams corresponds to the given key type name"))) := by
  decide +kernel

theorem fitsIn_of {d : VDict} {n : Nat} (h : ∀ e ∈ d, FitsIn n e.2) : ∀ k v, dget d k = some v → FitsIn n v :=
  fun _ _ hd => h _ (dget_mem hd)

theorem exPairs_generated : ∀ p ∈ exPairs, Generated exExt exLib exGen 64 p := by
  have hc : FitsIn 64 (.str (py! "me")) := ⟨"me".toList, by decide +kernel, by decide +kernel⟩
  have e : exPairs = [(generate exExt exLib exGen (PlainType.name .rsa) (py! "me") [(py! "e", .int 3)]),
      (generate exExt exLib exGen (PlainType.name .dss) (py! "me") []),
      (generate exExt exLib exGen (PlainType.name .ed25519) (py! "me") []),
      (generate exExt exLib exGen (PlainType.name .ec384) (py! "me") [])].filterMap (·.res.toOption) := by
    decide +kernel
  have hi : ∀ i : Int, 0 ≤ i → i < 400 → FitsIn 64 (.int i) := by
    intro i h0 h1
    refine ⟨h0, ?_⟩
    have : (800 : Int) ≤ 256 ^ 64 := by decide +kernel
    omega
  intro p hp
  rw [e] at hp
  simp only [List.mem_filterMap, List.mem_cons, List.not_mem_nil, or_false] at hp
  obtain ⟨x, hx, hp⟩ := hp
  have go : ∀ (t : PlainType) (kw : VDict) (p : Pair), (generate exExt exLib exGen t.name (py! "me") kw).res = .ok p →
      (∀ e ∈ p.priv.params.data, FitsIn 64 e.2) → Generated exExt exLib exGen 64 p :=
    fun t kw p h1 h2 => ⟨t, _, kw, h1, fitsIn_of h2, hc⟩
  rcases hx with rfl | rfl | rfl | rfl
  · obtain ⟨q, hq, hd⟩ : ∃ q : Pair, (generate exExt exLib exGen (PlainType.name .rsa) (py! "me") [(py! "e", .int 3)]).res = .ok q ∧
        q.priv.params.data = [(py! "n", .int 33), (py! "e", .int 3), (py! "d", .int 7), (py! "iqmp", .int 2),
          (py! "p", .int 3), (py! "q", .int 11)] := ⟨_, rfl, by decide +kernel⟩
    rw [hq] at hp; cases hp
    refine go _ _ _ hq ?_
    rw [hd]
    simp only [List.mem_cons, List.not_mem_nil, or_false]
    rintro e (rfl | rfl | rfl | rfl | rfl | rfl) <;> exact hi _ (by decide) (by decide)
  · obtain ⟨q, hq, hd⟩ : ∃ q : Pair, (generate exExt exLib exGen (PlainType.name .dss) (py! "me") []).res = .ok q ∧
        q.priv.params.data = [(py! "p", .int 23), (py! "q", .int 11), (py! "g", .int 2), (py! "y", .int 18),
          (py! "x", .int 7)] := ⟨_, rfl, by decide +kernel⟩
    rw [hq] at hp; cases hp
    refine go _ _ _ hq ?_
    rw [hd]
    simp only [List.mem_cons, List.not_mem_nil, or_false]
    rintro e (rfl | rfl | rfl | rfl | rfl) <;> exact hi _ (by decide) (by decide)
  · obtain ⟨q, hq, hd⟩ : ∃ q : Pair, (generate exExt exLib exGen (PlainType.name .ed25519) (py! "me") []).res = .ok q ∧
        q.priv.params.data = [(py! "public", .bytes (List.replicate 32 246)),
          (py! "private_public", .bytes (List.replicate 32 9 ++ List.replicate 32 246))] := ⟨_, rfl, by decide +kernel⟩
    rw [hq] at hp; cases hp
    refine go _ _ _ hq ?_
    rw [hd]
    simp only [List.mem_cons, List.not_mem_nil, or_false]
    rintro e (rfl | rfl) <;> simp [FitsIn]
  · obtain ⟨q, hq, hd⟩ : ∃ q : Pair, (generate exExt exLib exGen (PlainType.name .ec384) (py! "me") []).res = .ok q ∧
        q.priv.params.data = [(py! "identifier", .str (py! "nistp384")), (py! "q", .bytes [1, 1, 0, 1, 1, 1]),
          (py! "d", .int 300)] := ⟨_, rfl, by decide +kernel⟩
    rw [hq] at hp; cases hp
    refine go _ _ _ hq ?_
    rw [hd]
    simp only [List.mem_cons, List.not_mem_nil, or_false]
    rintro e (rfl | rfl | rfl)
    · exact ⟨"nistp384".toList, by decide +kernel, by decide +kernel⟩
    · simp [FitsIn]
    · exact hi _ (by decide) (by decide)

/-- The list of these pairs is packed, encrypted and unencrypted. -/
def exGenerated : KeyList := listFromList exPairs (py! "aes256-ctr") (py! "bcrypt") none
theorem exGenerated_ready : Ready toyCrypto exInputs exGenerated (some (py! "pw")) false (py! "aes256-ctr") (py! "bcrypt") := by
  refine .inr ⟨rfl, exInputs.tokenBytes 16, 16, .inr ⟨.inl rfl, rfl, rfl⟩, by decide +kernel, by decide,
    .inr ⟨"pw".toList, aesCtr 32, _, .inl (by decide +kernel), ?_, rfl, ?_⟩⟩
  · unfold suites
    simp only [List.mem_cons]
    exact .inr (.inr (.inr (.inl trivial)))
  · intro plain _
    exact ⟨_, rfl⟩
example : ∃ w kl, (packKeyList toyCrypto exInputs exGenerated (some (py! "pw")) none true false).res = .ok w ∧
    (listFromBytes exExt toyCrypto exInputs w (some (py! "pw"))).res = .ok kl ∧
    List.Forall₂ (fun (p q : Pair) => SamePublic p.pub q.pub ∧ SamePrivate p.priv q.priv ∧ q.priv.clear = [])
      exPairs kl.pairs ∧
    ∀ v ∈ (listFromBytes exExt toyCrypto exInputs w (some (py! "pw"))).log, ¬ Structural v :=
  C67_list_round_trip exExt exLib exGen exGen_laws toyCrypto_laws exInputs exInputs exGenerated _ _ true false
    _ _ 64 (by decide) exPairs_generated (by decide +kernel) (by decide +kernel) (names_iff.1 rfl) exGenerated_ready
    (fun _ h => h)
example : Ready toyCrypto exInputs (listFromList exPairs (py! "none") (py! "none") none) none true (py! "none")
    (py! "none") := .inl ⟨rfl, rfl⟩

/-! ### C68 -/

/-- Four bytes, unsigned. -/
def Spec.IsUInt32 (v : Val) : Prop := ∃ i : Nat, i < 2 ^ 32 ∧ v = .int i

/-- **C68.** `generate_options` takes a salt of the length asked for (16 bytes by default) and the number of
rounds asked for (16 by default).  If the salt cannot be made, that exception is the outcome.  The only
warning is about a number of rounds that cannot be written. -/
theorem C68_generate_options (tokenBytes : Val → Except Exn Bytes) (kwargs : VDict) :
    generateKdfWith tokenBytes kwargs .none = ⟨[], .ok ⟨.none, []⟩⟩ ∧
    match tokenBytes ((dget kwargs (py! "salt_length")).getD (.int 16)) with
    | .error e => generateKdfWith tokenBytes kwargs .bcrypt = ⟨[], .error e⟩
    | .ok salt => (generateKdfWith tokenBytes kwargs .bcrypt).res = .ok ⟨.bcrypt, [(py! "salt", .bytes salt),
          (py! "rounds", (dget kwargs (py! "rounds")).getD (.int 16))]⟩ ∧
        (IsUInt32 ((dget kwargs (py! "rounds")).getD (.int 16)) →
          (generateKdfWith tokenBytes kwargs .bcrypt).log = []) ∧
        (¬ IsUInt32 ((dget kwargs (py! "rounds")).getD (.int 16)) →
          (generateKdfWith tokenBytes kwargs .bcrypt).log = [.warn (.shouldBeFormatted (py! "rounds"))]) := by
  refine ⟨rfl, ?_⟩
  have hkw : ∀ k d, kwarg kwargs k d = (dget kwargs k).getD d := by
    intro k d; unfold kwarg; cases dget kwargs k <;> rfl
  have e : generateKdfWith tokenBytes kwargs .bcrypt = (do
      let salt ← Eff.lift (tokenBytes ((dget kwargs (py! "salt_length")).getD (.int 16)))
      newKdf .bcrypt [(py! "salt", .bytes salt), (py! "rounds", (dget kwargs (py! "rounds")).getD (.int 16))]) := by
    simp only [generateKdfWith, hkw, bcryptSaltLength, bcryptRounds]
    rfl
  rw [e]
  generalize (dget kwargs (py! "rounds")).getD (.int 16) = r
  rcases tokenBytes ((dget kwargs (py! "salt_length")).getD (.int 16)) with x | salt
  · rfl
  · rw [Eff.lift_ok_bind]
    have h1 : newKdf .bcrypt [(py! "salt", .bytes salt), (py! "rounds", r)] = (do
        checkField [(py! "salt", .bytes salt), (py! "rounds", r)] (py! "rounds") (.struct fmtBEI)
        pure ⟨.bcrypt, [(py! "salt", .bytes salt), (py! "rounds", r)]⟩) := by
      simp only [newKdf, kdfFmt, checkDict, Eff.bind_assoc, Eff.pure_bind]
      rfl
    have h2 : checkField [(py! "salt", .bytes salt), (py! "rounds", r)] (py! "rounds") (.struct fmtBEI) =
        match packFI (.struct fmtBEI) r with
        | .ok _ => pure ()
        | .error .structError => Eff.warn (.shouldBeFormatted (py! "rounds"))
        | .error e => Eff.throw e := rfl
    rw [h1, h2]
    by_cases hr : IsUInt32 r
    · obtain ⟨i, hi, rfl⟩ := hr
      obtain ⟨w, hw, hd⟩ := uint_exists hi
      rw [pack_uint.2 ⟨hw, by rw [hd]⟩]
      exact ⟨rfl, fun _ => rfl, fun h => absurd ⟨i, hi, rfl⟩ h⟩
    · have : packFI (.struct fmtBEI) r = .error .structError := by
        cases r with
        | int i =>
          have h3 : ¬ SCode.inIntRange 4 false i := by
            unfold SCode.inIntRange
            simp only [Bool.false_eq_true, if_false]
            rintro ⟨h0, h1⟩
            exact hr ⟨i.toNat, by omega, by congr 1; omega⟩
          simp only [packFI, structPack, Val.toSVal, SFmt.pack1, fmtBEI, SCode.pack, if_neg h3]
        | _ => rfl
      rw [this]
      exact ⟨rfl, fun h => absurd h hr, fun _ => rfl⟩

/-- **C68** (defaults).  What a list uses when it packs fresh options is `generate_options()` without
arguments. -/
theorem C68_defaults (tokenBytes : Nat → Bytes) (c : KdfCls) :
    generateKdfWith (fun v => match v with
      | .int n => .ok (tokenBytes n.toNat)
      | _ => .error .typeError) [] c = generateKdf tokenBytes c := by
  cases c <;> rfl

example : (generateKdfWith (fun _ => .ok [1, 2]) [(py! "rounds", .int (-1))] .bcrypt).log =
      [.warn (.shouldBeFormatted (py! "rounds"))] ∧
    (generateKdfWith (fun _ => .error .overflowError) [(py! "salt_length", .int (2 ^ 70))] .bcrypt).res =
      .error .overflowError := by
  decide +kernel
example : IsUInt32 (.int 16) ∧ ¬ IsUInt32 (.int (-1)) :=
  ⟨⟨16, by decide, rfl⟩, fun ⟨i, _, h⟩ => by simp at h⟩

end OSK
