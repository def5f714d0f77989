import Verif.Lemmas.KeyMore
/-
Properties C15-C21 and C56: single keys in binary form.
-/
namespace OSK
open Spec

/-! ### Examples used below -/

/-- External functions for the examples. -/
def exExt : Ext := ⟨fun _ _ => true, fun _ => []⟩
/-- An RSA public key (with an entry that the format does not name). -/
def exRsaHeader : VDict := [(py! "key_type", .str (py! "ssh-rsa"))]
def exRsaParams : VDict := [(py! "n", .int 3233), (py! "e", .int 17), (py! "x", .other 0)]
def exRsaKey : Key := ⟨.pub, exRsaHeader, ⟨.rsaPub, exRsaParams⟩, [], []⟩
def exRsaWire : Bytes :=
  [0, 0, 0, 7, 115, 115, 104, 45, 114, 115, 97, 0, 0, 0, 1, 17, 0, 0, 0, 2, 12, 161]

/-! ### C15 -/

/-- **C15.** A public key object, however it was constructed, whose parameters can be packed is recovered
by `from_bytes(pack_public_bytes())`: same key type, same parameter class, the same value for every
documented field and no other entry, no remainder; and parsing emits exactly the warnings that the
construction emitted. -/
theorem C15_public_key_roundtrip (ext : Ext) (h p f : VDict) (clear : Option VDict) (k : Key) (b : Bytes)
    (hk : (mkKey ext .pub h p f clear).res = .ok k) (hp : packPublicBytes k = .ok b) :
    ∃ t fields k', dget h (py! "key_type") = some (.str t) ∧ publicFields t = some fields ∧
      fromBytes ext .pub b none = ⟨(mkKey ext .pub h p f clear).log, .ok k'⟩ ∧
      k'.kind = .pub ∧ k'.header = [(py! "key_type", .str t)] ∧
      k'.params.cls = k.params.cls ∧ dkeys k'.params.data = dkeys fields ∧
      (∀ n ∈ dkeys fields, dget k'.params.data n = dget p n ∧ ∃ v, dget p n = some v) ∧
      k'.footer = [] ∧ k'.clear = [] := by
  obtain ⟨t, c, ht, hc, rfl, hr⟩ := mkKeyWith_ok hk
  rw [packPublicBytes_eq, pub_class hc] at hp
  obtain ⟨w1, w2, h1, h2, rfl⟩ := catE_ok hp
  have hpres := packDict_present h2
  have hfb := fromBytes_packed ext hc (f := f) (w3 := []) ht h1 h2 rfl none
  rw [List.append_nil] at hfb
  refine ⟨t, formatOf c, ⟨.pub, [(py! "key_type", .str t)], ⟨c, named (formatOf c) p⟩, [], []⟩,
    ht, publicFields_eq hc, ?_, rfl, rfl, rfl, dkeys_named hpres, ?_, rfl, rfl⟩
  · rw [hfb]
    unfold mkKey
    rw [mkKeyWith_eq ht hc, Eff.bind_ok hr, Eff.bind_ok hr]
    rfl
  · intro n hn
    exact ⟨by rw [dget_named, if_pos hn], hpres n hn⟩

/-- **C15** (equality). If moreover the object has no entries beyond the documented ones, the parsed key
equals it in the sense of `Key.__eq__`. -/
theorem C15_public_key_roundtrip_eq (ext : Ext) (t : Str) (p : VDict) (k : Key) (b : Bytes)
    (hn : (dkeys p).Nodup)
    (hx : ∀ fields, publicFields t = some fields → ∀ n ∈ dkeys p, n ∈ dkeys fields)
    (hk : (mkKey ext .pub [(py! "key_type", .str t)] p [] none).res = .ok k)
    (hp : packPublicBytes k = .ok b) :
    ∃ k', (fromBytes ext .pub b none).res = .ok k' ∧ k.eq k' = true := by
  obtain ⟨t', fields, k', ht, hf, hfb, hkind, hh, hcls, hd, hv, hft, hcl⟩ :=
    C15_public_key_roundtrip ext _ p [] none k b hk hp
  simp at ht; subst ht
  refine ⟨k', by rw [hfb], ?_⟩
  obtain ⟨t'', c, ht'', hc, rfl, hr⟩ := mkKeyWith_ok hk
  simp at ht''; subst ht''
  have hfc := publicFields_eq hc
  rw [hf] at hfc; simp at hfc; subst hfc
  unfold Key.eq
  rw [hkind, hh, hft, hcl]
  have e : deq p k'.params.data = true := by
    rw [deq_iff hn (by rw [hd]; exact plain_nodup (plain_class hc))]
    intro n
    by_cases hm : n ∈ dkeys (formatOf c)
    · exact (hv n hm).1.symm
    · rw [dget_eq_none_iff.2 (fun h' => hm (hx _ hf n h')), dget_eq_none_iff.2 (by rw [hd]; exact hm)]
  have e2 : deq [(py! "key_type", Val.str t)] [(py! "key_type", Val.str t)] = true := by simp [deq]
  have e3 : deq ([] : VDict) [] = true := rfl
  simp only [e, e2, e3, Option.getD_none, decide_true, Bool.and_self]

example : (mkKey exExt .pub exRsaHeader exRsaParams [] none).res = .ok exRsaKey := by decide +kernel
example : packPublicBytes exRsaKey = .ok exRsaWire := by decide +kernel
example : (fromBytes exExt .pub exRsaWire none).res =
    .ok ⟨.pub, exRsaHeader, ⟨.rsaPub, [(py! "e", .int 17), (py! "n", .int 3233)]⟩, [], []⟩ := by
  decide +kernel

/-! ### C16 -/

/-- What a successful parse says about the input and the key (helper for C16-C18). -/
theorem fromBytes_ok {ext : Ext} {kind : Kind} {b : Bytes} {clear : Option VDict} {k : Key}
    (h : (fromBytes ext kind b clear).res = .ok k) :
    ∃ t c hd p f n, prs (readKey kind) b = (.ok (hd, p, f), n) ∧ hd = [(py! "key_type", .str t)] ∧
      paramsClass kind (.str t) = .ok c ∧
      (runChecks (localCheck ext (caFromBytes ext) c p) (checkPlan c)).res = .ok () ∧
      k = ⟨kind, hd, ⟨c, p⟩, f, if 0 < (b.drop n).length
        then dset (clear.getD []) (py! "remainder") (.bytes (b.drop n)) else clear.getD []⟩ ∧
      (fromBytes ext kind b clear).log =
        (runChecks (localCheck ext (caFromBytes ext) c p) (checkPlan c)).log ++
          (if 0 < (b.drop n).length then [.warn .excessBytes] else []) := by
  unfold fromBytes at h ⊢
  rw [fromBytesWith_eq] at h ⊢
  rcases hr : prs (readKey kind) b with ⟨e | ⟨hd, p, f⟩, n⟩
  · rw [hr] at h; simp at h
  · rw [hr] at h
    simp only at h ⊢
    obtain ⟨t, c, n1, n2, n3, rfl, hc, h1, h2, h3, rfl⟩ := prs_readKey_ok hr
    have hft := checkDict_read (plain_footer kind) h3
    rw [mkKeyWith_eq (t := t) (c := c) (by simp) hc, hft] at h ⊢
    obtain ⟨k0, hk0, hk⟩ := Eff.bind_res_ok_iff.1 h
    obtain ⟨u, hu, hk0'⟩ := Eff.bind_res_ok_iff.1 hk0
    simp only [Eff.pure_bind, Eff.pure_res, Except.ok.injEq] at hk0'
    subst hk0'
    refine ⟨t, c, _, p, f, n1 + n2 + n3, rfl, rfl, hc, hu, ?_, ?_⟩
    · by_cases hlt : 0 < (b.drop (n1 + n2 + n3)).length
      · rw [if_pos hlt] at hk ⊢
        obtain ⟨_, _, hk⟩ := Eff.bind_res_ok_iff.1 hk
        simp only [Eff.pure_res, Except.ok.injEq] at hk
        rw [← hk]
      · rw [if_neg hlt] at hk ⊢
        simp only [Eff.pure_res, Except.ok.injEq] at hk
        rw [← hk]
    · rw [Eff.bind_log_ok hk0, Eff.bind_log_ok hu]
      by_cases hlt : 0 < (b.drop (n1 + n2 + n3)).length
      · rw [if_pos hlt, if_pos hlt]
        simp only [Eff.pure_bind, Eff.pure_log, List.append_nil]; rfl
      · rw [if_neg hlt, if_neg hlt]
        simp only [Eff.pure_bind, Eff.pure_log, List.append_nil]

/-- **C16** (stability). If a byte string parses as a public key and the result can be packed again,
parsing the packed bytes gives the same key (without the remainder, if there were excess bytes), and
the packed form is not longer than the input. -/
theorem C16_parse_pack_parse (ext : Ext) (b b' : Bytes) (clear : Option VDict) (k : Key)
    (h : (fromBytes ext .pub b clear).res = .ok k) (hp : packPublicBytes k = .ok b') :
    (fromBytes ext .pub b' none).res = .ok { k with clear := [] } ∧ b'.length ≤ b.length := by
  obtain ⟨t, c, hd, p, f, n, hr, rfl, hc, hu, rfl, -⟩ := fromBytes_ok h
  have hbound := (Reader.readKey .pub).bound b
  rw [hr] at hbound
  obtain ⟨t', c', n1, n2, n3, ht', hc', h1, h2, h3, rfl⟩ := prs_readKey_ok hr
  simp at ht'; subst ht'
  have := paramsClass_fun hc hc'; subst this
  rw [packPublicBytes_eq] at hp
  simp only [pub_class hc] at hp
  obtain ⟨w1, w2, e1, e2, rfl⟩ := catE_ok hp
  have l1 : w1.length ≤ n1 := by
    rcases packDict_read_plain (plain_header .pub) h1 with ⟨he, -⟩ | ⟨w, hw, hle, -⟩
    · rw [he] at e1; simp at e1
    · rw [hw] at e1; simp at e1; subst e1; exact hle
  have l2 : w2.length ≤ n2 := by
    rcases packDict_read_plain (plain_class hc) h2 with ⟨he, -⟩ | ⟨w, hw, hle, -⟩
    · rw [he] at e2; simp at e2
    · rw [hw] at e2; simp at e2; subst e2; exact hle
  simp only at hbound
  refine ⟨?_, by simp; omega⟩
  have hfb := fromBytes_packed ext hc (f := []) (w3 := []) (by simp) e1 e2 rfl none
  rw [List.append_nil] at hfb
  rw [hfb, Eff.bind_res_of_ok hu, named_of_read (plain_class hc) h2]
  simp [footerFmt, readDict, prs_pure] at h3
  simp [footerFmt, named, h3.1]

/-- **C16** (packing succeeds). A parsed public key can be packed again if none of its integers needs a
sign byte `FF` (by C05 those integers cannot be written at all). -/
theorem C16_pack_succeeds (ext : Ext) (b : Bytes) (clear : Option VDict) (k : Key)
    (h : (fromBytes ext .pub b clear).res = .ok k)
    (hw : ∀ n i, dget k.params.data n = some (.int i) → ¬ NeedsSignByte i) :
    ∃ b', packPublicBytes k = .ok b' := by
  obtain ⟨t, c, hd, p, f, n, hr, rfl, hc, hu, rfl, -⟩ := fromBytes_ok h
  obtain ⟨t', c', n1, n2, n3, ht', hc', h1, h2, h3, rfl⟩ := prs_readKey_ok hr
  simp at ht'; subst ht'
  have := paramsClass_fun hc hc'; subst this
  rw [packPublicBytes_eq]
  simp only [pub_class hc]
  rcases packDict_read_plain (plain_header .pub) h1 with ⟨-, k, i, hm, -⟩ | ⟨w1, hw1, -⟩
  · simp [headerFmt] at hm
  · rcases packDict_read_plain (plain_class hc) h2 with ⟨-, k, i, -, hk, hi⟩ | ⟨w2, hw2, -⟩
    · exact absurd hi (hw k i hk)
    · rw [hw1, hw2]; exact ⟨_, rfl⟩

/-- An RSA key whose integers have superfluous leading zeros, followed by an excess byte. -/
def exPaddedWire : Bytes :=
  [0, 0, 0, 7, 115, 115, 104, 45, 114, 115, 97, 0, 0, 0, 2, 0, 17, 0, 0, 0, 3, 0, 12, 161, 99]
example : (fromBytes exExt .pub exPaddedWire none).res =
    .ok ⟨.pub, exRsaHeader, ⟨.rsaPub, [(py! "e", .int 17), (py! "n", .int 3233)]⟩, [],
      [(py! "remainder", .bytes [99])]⟩ := by decide +kernel
example : packPublicBytes ⟨.pub, exRsaHeader, ⟨.rsaPub, [(py! "e", .int 17), (py! "n", .int 3233)]⟩, [],
      [(py! "remainder", .bytes [99])]⟩ = .ok exRsaWire := by decide +kernel

/-! ### C17 -/

theorem not_needsSignByte_of_nonneg {v : Int} (h : 0 ≤ v) : ¬ NeedsSignByte v := by
  rintro ⟨k, h1, -⟩
  have : (0 : Int) < 2 ^ (8 * k + 7) := by positivity
  omega

/-- **C17** (the part that holds). If a byte string parses as a public key with no excess bytes and every
integer field in it is minimal, packing the parsed key returns the original byte string, unless some
integer is one that the code cannot write, in which case packing raises `OverflowError`.

Full statement: without the second alternative; `C17_false` shows that it fails for the code. -/
theorem C17_canonical_partial (ext : Ext) (b : Bytes) (k : Key) (t : Str) (fields : FDict)
    (h : (fromBytes ext .pub b none).res = .ok k) (hrem : dget k.clear (py! "remainder") = none)
    (ht : dget k.header (py! "key_type") = some (.str t)) (hf : publicFields t = some fields)
    (hcan : CanonicalInts ((py! "key_type", .pascal .string) :: fields) b) :
    packPublicBytes k = .ok b ∨
      (packPublicBytes k = .error .overflowError ∧
        ∃ n i, dget k.params.data n = some (.int i) ∧ NeedsSignByte i) := by
  obtain ⟨t', c, hd, p, f, n, hr, rfl, hc, hu, rfl, -⟩ := fromBytes_ok h
  simp at ht; subst ht
  have hbound := (Reader.readKey .pub).bound b
  rw [hr] at hbound
  obtain ⟨t', c', n1, n2, n3, ht', hc', h1, h2, h3, rfl⟩ := prs_readKey_ok hr
  simp at ht'; subst ht'
  have := paramsClass_fun hc hc'; subst this
  have := publicFields_eq hc
  rw [hf] at this; simp at this; subst this
  simp [footerFmt, readDict, prs_pure] at h3
  obtain ⟨rfl, rfl⟩ := h3
  have hall : b.length = n1 + n2 := by
    by_contra hne
    have : 0 < (b.drop (n1 + n2 + 0)).length := by simp at hbound ⊢; omega
    simp only [if_pos this, dget_dset_self] at hrem
    exact absurd hrem (by simp)
  rw [packPublicBytes_eq]
  simp only [pub_class hc]
  have hspan : n1 = 4 + digitSum (b.take 4) := by
    obtain ⟨v, vs, m1, m2, -, hr1, hr2, rfl⟩ := readDict_cons_ok h1
    simp [readDict, prs_pure] at hr2
    obtain ⟨x, hb, h0, hn, hlx, htk, hle⟩ := prs_readPascal_ok hr1
    simp [defaultLengthSize] at hn hlx htk
    have e1 : b.take 4 = natToBE 4 x.length := by
      have := congrArg (List.take 4) htk
      rw [List.take_take, List.take_append_of_le_length (by simp)] at this
      rw [(by omega : min 4 m1 = 4)] at this
      rw [this, List.take_of_length_le (by simp)]
    rw [e1, digitSum_eq, beNat_natToBE_of_lt hlx]; omega
  simp only [CanonicalInts] at hcan
  rcases packDict_read_plain (plain_header .pub) h1 with ⟨-, k, i, hm, -⟩ | ⟨w1, hw1, -, -, hc1⟩
  · simp [headerFmt] at hm
  · have hw1' := hc1 (by simp [CanonicalInts, headerFmt])
    rcases packDict_read_plain (plain_class hc) h2 with ⟨he, k, i, -, hk, hi⟩ | ⟨w2, hw2, -, -, hc2⟩
    · right
      exact ⟨by rw [hw1, he]; rfl, k, i, hk, hi⟩
    · left
      rw [hw1, hw2, hw1', hc2 (by rw [hspan]; exact hcan.2)]
      simp only [catE_ok_ok]
      rw [← List.take_add, ← hall, List.take_length]

/-- **C17** for keys without negative integers (which includes every key that makes sense
mathematically): the full statement. -/
theorem C17_canonical_nonneg (ext : Ext) (b : Bytes) (k : Key) (t : Str) (fields : FDict)
    (h : (fromBytes ext .pub b none).res = .ok k) (hrem : dget k.clear (py! "remainder") = none)
    (ht : dget k.header (py! "key_type") = some (.str t)) (hf : publicFields t = some fields)
    (hcan : CanonicalInts ((py! "key_type", .pascal .string) :: fields) b)
    (hpos : ∀ n i, dget k.params.data n = some (.int i) → 0 ≤ i) :
    packPublicBytes k = .ok b := by
  rcases C17_canonical_partial ext b k t fields h hrem ht hf hcan with h' | ⟨-, n, i, hn, hi⟩
  · exact h'
  · exact absurd hi (not_needsSignByte_of_nonneg (hpos n i hn))

/-- The RSA key with `e = -129`, `n = 0` in canonical form. -/
def exNegWire : Bytes := [0, 0, 0, 7, 115, 115, 104, 45, 114, 115, 97, 0, 0, 0, 2, 255, 127, 0, 0, 0, 0]

/-- **C17 is false for the code**: a canonical byte string that parses but whose key cannot be packed. -/
theorem C17_false : ∃ (b : Bytes) (k : Key) (fields : FDict),
    (fromBytes exExt .pub b none).res = .ok k ∧ dget k.clear (py! "remainder") = none ∧
    dget k.header (py! "key_type") = some (.str (py! "ssh-rsa")) ∧
    publicFields (py! "ssh-rsa") = some fields ∧
    CanonicalInts ((py! "key_type", .pascal .string) :: fields) b ∧
    packPublicBytes k = .error .overflowError := by
  refine ⟨exNegWire, ⟨.pub, exRsaHeader, ⟨.rsaPub, [(py! "e", .int (-129)), (py! "n", .int 0)]⟩, [], []⟩,
    rsaFields, by decide +kernel, by decide, by decide, by decide +kernel, ?_, by decide +kernel⟩
  refine ⟨by simp, fun _ => ?_, fun _ => ?_, trivial⟩
  · intro b' hb'
    have e : List.take (digitSum (List.take 4 (List.drop (4 + digitSum (List.take 4 exNegWire)) exNegWire)))
      (List.drop 4 (List.drop (4 + digitSum (List.take 4 exNegWire)) exNegWire)) = [255, 127] := by decide
    rw [e] at hb' ⊢
    have hv : tcVal [255, 127] = -129 := by decide
    rw [hv] at hb'
    match b' with
    | [] => simp [tcVal] at hb'
    | [x] =>
      exfalso
      simp [tcVal, digitSum] at hb'
      have := x.toNat_lt
      split at hb' <;> omega
    | _ :: _ :: _ => simp
  · intro b' _
    simp [exNegWire, digitSum]

example : ∃ fields, publicFields (py! "ssh-rsa") = some fields ∧
    CanonicalInts ((py! "key_type", .pascal .string) :: fields) exRsaWire := by
  refine ⟨rsaFields, by decide +kernel, by simp, fun _ => ?_, fun _ => ?_, trivial⟩
  · intro b' hb'
    have e : List.take (digitSum (List.take 4 (List.drop (4 + digitSum (List.take 4 exRsaWire)) exRsaWire)))
      (List.drop 4 (List.drop (4 + digitSum (List.take 4 exRsaWire)) exRsaWire)) = [17] := by decide
    rw [e] at hb' ⊢
    match b' with
    | [] => simp [tcVal, digitSum] at hb'
    | _ :: _ => simp
  · intro b' hb'
    have e : List.take (digitSum (List.take 4 (List.drop (4 + digitSum (List.take 4 (List.drop
        (4 + digitSum (List.take 4 exRsaWire)) exRsaWire))) (List.drop (4 + digitSum (List.take 4 exRsaWire))
        exRsaWire)))) (List.drop 4 (List.drop (4 + digitSum (List.take 4 (List.drop
        (4 + digitSum (List.take 4 exRsaWire)) exRsaWire))) (List.drop (4 + digitSum (List.take 4 exRsaWire))
        exRsaWire))) = [12, 161] := by decide
    rw [e] at hb' ⊢
    have hv : tcVal [12, 161] = 3233 := by decide
    rw [hv] at hb'
    match b' with
    | [] => simp [tcVal] at hb'
    | [x] =>
      exfalso
      simp [tcVal, digitSum] at hb'
      have := x.toNat_lt
      split at hb' <;> omega
    | _ :: _ :: _ => simp

/-! ### C18 -/

/-- **C18** (every parse splits). A byte string that parses consists of a part that parses with the cleartext
exactly as given, and the extra bytes.  Without extra bytes there is no further effect; with extra
bytes there is one more warning, the last one, and they are stored as `clear['remainder']`. -/
theorem C18_excess_split (ext : Ext) (kind : Kind) (b : Bytes) (clear : Option VDict) (k : Key)
    (h : (fromBytes ext kind b clear).res = .ok k) :
    ∃ core extra l k0, b = core ++ extra ∧ fromBytes ext kind core clear = ⟨l, .ok k0⟩ ∧
      k0.clear = clear.getD [] ∧
      (extra = [] → fromBytes ext kind b clear = ⟨l, .ok k0⟩) ∧
      (extra ≠ [] → fromBytes ext kind b clear = ⟨l ++ [.warn .excessBytes],
        .ok { k0 with clear := dset k0.clear (py! "remainder") (.bytes extra) }⟩) := by
  obtain ⟨t, c, hd, p, f, n, hr, rfl, hc, hu, hk, hlog⟩ := fromBytes_ok h
  have hcore := (Reader.readKey kind).okLocal b _ n hr []
  rw [List.append_nil] at hcore
  have hn : n ≤ b.length := by
    have := (Reader.readKey kind).bound b
    rw [hr] at this; exact this
  have hlen : (b.take n).length = n := by simp; omega
  obtain ⟨t', c', n1, n2, n3, ht', hc', h1, h2, h3, -⟩ := prs_readKey_ok hr
  simp at ht'; subst ht'
  have := paramsClass_fun hc hc'; subst this
  have hft := checkDict_read (plain_footer kind) h3
  refine ⟨b.take n, b.drop n, (runChecks (localCheck ext (caFromBytes ext) c p) (checkPlan c)).log,
    ⟨kind, [(py! "key_type", .str t)], ⟨c, p⟩, f, clear.getD []⟩, (List.take_append_drop n b).symm,
    ?_, rfl, ?_, ?_⟩
  · unfold fromBytes
    rw [fromBytesWith_eq, hcore]
    simp only
    rw [List.drop_of_length_le (by omega), mkKeyWith_eq (t := t) (c := c) (by simp) hc, hft]
    simp only [Eff.bind_assoc, Eff.pure_bind]
    rw [Eff.bind_ok hu]
    simp
  · intro he
    rw [he] at hk hlog
    apply Eff.ext
    · rw [hlog]; simp
    · rw [h, hk]; simp
  · intro he
    have : 0 < (b.drop n).length := List.length_pos_of_ne_nil he
    rw [if_pos this] at hk hlog
    apply Eff.ext
    · rw [hlog]
    · rw [h, hk]

/-- **C18** (every extension). Key bytes followed by extra bytes parse as the key does, with one more
warning and the extra bytes as `clear['remainder']`. -/
theorem C18_excess_appended (ext : Ext) (kind : Kind) (b extra : Bytes) (clear : Option VDict)
    (l : List Event) (k : Key) (h : fromBytes ext kind b clear = ⟨l, .ok k⟩)
    (hk : dget k.clear (py! "remainder") = none)
    (he : extra ≠ []) :
    fromBytes ext kind (b ++ extra) clear = ⟨l ++ [.warn .excessBytes],
      .ok { k with clear := dset k.clear (py! "remainder") (.bytes extra) }⟩ := by
  obtain ⟨t, c, hd, p, f, n, hr, rfl, hc, hu, hk', hlog⟩ := fromBytes_ok (by rw [h] : (fromBytes ext kind b clear).res = .ok k)
  have hn : n = b.length := by
    have hb := (Reader.readKey kind).bound b
    rw [hr] at hb
    simp only at hb
    by_contra hne
    have : 0 < (b.drop n).length := by simp; omega
    rw [hk', if_pos this] at hk
    simp at hk
  subst hn
  have hext := (Reader.readKey kind).okLocal b _ _ hr extra
  rw [List.take_length] at hext
  obtain ⟨t', c', n1, n2, n3, ht', hc', h1, h2, h3, -⟩ := prs_readKey_ok hr
  simp at ht'; subst ht'
  have := paramsClass_fun hc hc'; subst this
  have hft := checkDict_read (plain_footer kind) h3
  simp only [List.drop_length, List.length_nil, Nat.lt_irrefl, if_false] at hk' hlog
  rw [h] at hlog
  simp at hlog
  subst hlog hk'
  unfold fromBytes
  rw [fromBytesWith_eq, hext]
  simp only
  rw [List.drop_left, mkKeyWith_eq (t := t) (c := c) (by simp) hc, hft]
  simp only [Eff.bind_assoc, Eff.pure_bind, if_pos (List.length_pos_of_ne_nil he)]
  rw [Eff.bind_ok hu]
  rfl

example : (fromBytes exExt .pub (exRsaWire ++ [1, 2]) none).log = [.warn .excessBytes] := by decide +kernel

/-! ### C19 -/

/-- **C19** (which names are supported). The factory knows exactly the 16 documented names; exactly the
8 that are not certificates have a private class. -/
theorem C19_supported_names (t : Str) :
    ((∃ c, getPublicClass (.str t) = .ok c) ↔ t ∈ dkeys keyTable) ∧
    ((∃ c, getPrivateClass (.str t) = .ok c) ↔ (privateFields t).isSome) ∧
    (dkeys keyTable).length = 16 ∧
    ((dkeys keyTable).filter (fun t => (privateFields t).isSome)).length = 8 := by
  refine ⟨⟨?_, ?_⟩, ⟨?_, ?_⟩, by decide, by decide +kernel⟩
  · rintro ⟨c, hc⟩
    have := publicFields_eq (c := c) hc
    rw [← dget_isSome_iff]
    unfold publicFields at this
    rcases hd : dget keyTable t with _ | r
    · simp [hd] at this
    · rfl
  · intro h
    rw [← dget_isSome_iff] at h
    rcases hd : dget keyTable t with _ | r
    · simp [hd] at h
    · obtain ⟨c, hc, -⟩ := paramsClass_pub_of (t := t) (f := r.1) (by simp [publicFields, hd])
      exact ⟨c, hc⟩
  · rintro ⟨c, hc⟩
    rw [privateFields_eq (c := c) hc]; rfl
  · intro h
    rcases hd : privateFields t with _ | r
    · simp [hd] at h
    · obtain ⟨c, hc, -⟩ := paramsClass_priv_of hd
      exact ⟨c, hc⟩

/-- The names that have no class of the given kind. -/
def Spec.Unsupported (kind : Kind) (t : Str) : Prop :=
  match kind with
  | .pub => t ∉ dkeys keyTable
  | .priv => privateFields t = none

theorem unsupported_class {kind : Kind} {t : Str} (h : Unsupported kind t) :
    ∃ m, paramsClass kind (.str t) = .error (.keyError (some m)) := by
  cases kind
  · have : dget keyTypeMapping t = none := by
      have h' := dget_eq_none_iff.2 h
      rw [dget_keyTable] at h'
      simpa using h'
    exact ⟨t, by simp [paramsClass, getPublicClass, lookupType, this]⟩
  · have h' : privateFields t = none := h
    unfold privateFields at h'
    rw [dget_keyTable] at h'
    rcases hd : dget keyTypeMapping t with _ | ⟨a, _ | b⟩
    · exact ⟨t, by simp [paramsClass, getPrivateClass, lookupType, hd]⟩
    · simp [paramsClass, getPrivateClass, lookupType, hd]
    · simp [hd] at h'

/-- **C19** (construction). Constructing a key with an unsupported type name raises `KeyError`. -/
theorem C19_unsupported_construct (ext : Ext) (kind : Kind) (h p f : VDict) (clear : Option VDict)
    (t : Str) (ht : dget h (py! "key_type") = some (.str t)) (hu : Unsupported kind t) :
    ∃ m, mkKey ext kind h p f clear = ⟨[], .error (.keyError (some m))⟩ := by
  obtain ⟨m, hm⟩ := unsupported_class hu
  refine ⟨m, ?_⟩
  unfold mkKey mkKeyWith
  rw [checkHeader_silent ht, Eff.pure_bind]
  simp only [getItem, ht, Eff.lift_ok_bind, hm, Eff.lift_error_bind]
  rfl

/-- **C19** (parsing). Bytes that start with an unsupported type name raise `KeyError`, whatever follows. -/
theorem C19_unsupported_parse (ext : Ext) (kind : Kind) (cs : List Char) (w rest : Bytes)
    (clear : Option VDict) (hw : Prefixed 4 (utf8 cs) w) (hl : (utf8 cs).length ≤ pyMaxSize)
    (hu : Unsupported kind (strOf cs)) :
    ∃ m, fromBytes ext kind (w ++ rest) clear = ⟨[], .error (.keyError (some m))⟩ := by
  obtain ⟨m, hm⟩ := unsupported_class hu
  refine ⟨m, ?_⟩
  obtain ⟨pre, hpl, hps, rfl⟩ := hw
  unfold fromBytes
  rw [fromBytesWith_eq]
  have hf : headerFmt kind = [(py! "key_type", .pascal .string)] := by cases kind <;> rfl
  have hlt : (utf8 cs).length < 256 ^ 4 := by
    rw [← hps, digitSum_eq, ← hpl]; exact beNat_lt pre
  have hpre : pre = natToBE 4 (utf8 cs).length := by
    rw [← hps, digitSum_eq, ← hpl, natToBE_beNat]
  have hrd : prs (readDict (headerFmt kind)) (pre ++ utf8 cs ++ rest) =
      (.ok [(py! "key_type", .str (strOf cs))], 4 + (utf8 cs).length) := by
    rw [hf, readDict, prs_bind (fun _ => (Reader.readDict _).bind (fun _ => Reader.pure _)) (Reader.readFI _)]
    have : prs (readFI (.pascal .string)) (pre ++ utf8 cs ++ rest) = (.ok (.str (strOf cs)), 4 + (utf8 cs).length) := by
      unfold readFI
      rw [prs_bind (fun _ => Reader.lift _) (Reader.readPascalBytes _)]
      rw [hpre]
      have : prs (readPascalBytes defaultLengthSize) (natToBE 4 (utf8 cs).length ++ utf8 cs ++ rest) = _ :=
        prs_readPascalBytes (size := 4) (by decide) (by decide) hlt hl rest
      rw [this]
      simp [decodePrim, bytesDecode, utf8Decode?_utf8, Except.map, prs_lift]
    rw [this]
    simp [readDict, prs_pure]
  have : prs (readKey kind) (pre ++ utf8 cs ++ rest) = (.error (.keyError (some m)), 4 + (utf8 cs).length) := by
    unfold readKey
    rw [prs_bind (fun h => readKey_rest_reader kind h) (Reader.readDict _), hrd]
    simp [getItem, hm, prs_throw]
  rw [this]
  rfl

example : Unsupported .pub (strOf ['s', 's', 'h']) := by
  show _ ∉ _
  decide
example : Unsupported .priv (py! "ssh-rsa-cert-v01@openssh.com") := by
  show _ = _
  decide +kernel

/-! ### C20 -/

/-- Two private keys are the same as far as the file format goes: key type, class, documented values,
comment. -/
def Spec.SamePrivate (k k' : Key) : Prop :=
  k'.kind = .priv ∧ k'.params.cls = k.params.cls ∧
  ∃ t fields, dget k.header (py! "key_type") = some (.str t) ∧ privateFields t = some fields ∧
    k'.header = [(py! "key_type", .str t)] ∧
    dkeys k'.params.data = dkeys fields ∧
    (∀ n ∈ dkeys fields, dget k'.params.data n = dget k.params.data n) ∧
    dkeys k'.footer = [py! "comment"] ∧
    dget k'.footer (py! "comment") = dget k.footer (py! "comment")

/-- Calling `PrivateKey.from_byte_stream` once per key of the list succeeds every time with the same key
and leaves the stream at `s'`. -/
def Spec.ReadsKeys (ext : Ext) : List Key → Stream → Stream → Prop
  | [], s, s' => s = s'
  | k :: ks, s, s' =>
    ∃ k', (fromByteStream ext .priv none s).1.res = .ok k' ∧ SamePrivate k k' ∧
      ReadsKeys ext ks (fromByteStream ext .priv none s).2 s'

/-- The concatenation of the keys' packed forms. -/
def Spec.packedKeys : List Key → Except Exn Bytes
  | [] => .ok []
  | k :: ks =>
    match packPrivateBytes k, packedKeys ks with
    | .ok a, .ok b => .ok (a ++ b)
    | .error e, _ => .error e
    | _, .error e => .error e

/-- A key object that the constructor can produce. -/
def Spec.Constructed (ext : Ext) (k : Key) : Prop :=
  ∃ h p f clear, (mkKey ext k.kind h p f clear).res = .ok k

/-- Reading one packed private key at the position of a stream. -/
theorem fromByteStream_packed (ext : Ext) (k : Key) (hkind : k.kind = .priv) (hk : Constructed ext k)
    (w : Bytes) (hw : packPrivateBytes k = .ok w) (s : Stream) (post : Bytes)
    (hs : s.rest = w ++ post) (clear : Option VDict) :
    ∃ k', (fromByteStream ext .priv clear s).1.res = .ok k' ∧ SamePrivate k k' ∧
      k'.clear = clear.getD [] ∧
      (fromByteStream ext .priv clear s).2 = ⟨s.buf, s.pos + w.length⟩ ∧
      ∃ t c, dget k.header (py! "key_type") = some (.str t) ∧ paramsClass .priv (.str t) = .ok c ∧
        k.params.cls = c ∧
        (fromByteStream ext .priv clear s).1.log =
          (runChecks (localCheck ext (caFromBytes ext) c k.params.data) (checkPlan c)).log ∧
        k'.params.data = named (formatOf c) k.params.data := by
  obtain ⟨h, p, f, cl, hk⟩ := hk
  rw [hkind] at hk
  obtain ⟨t, c, ht, hc, rfl, hr⟩ := mkKeyWith_ok hk
  rw [packPrivateBytes_eq] at hw
  obtain ⟨w1, w23, h1, h23, rfl⟩ := catE_ok hw
  obtain ⟨w2, w3, h2, h3, rfl⟩ := catE_ok h23
  simp only at h1 h2 h3 ht
  rw [← List.append_assoc] at hs ⊢
  have hread := (Reader.readKey .priv).shift s
  rw [hs, prs_readKey_packed hc ht h1 h2 h3 post] at hread
  have hpres2 := packDict_present h2
  have hpres3 := packDict_present h3
  have hft := checkDict_read (plain_footer .priv)
    (prs_readDict_plain (plain_footer .priv) h3 [])
  have hcong := checks_congr (ext := ext) (ca := caFromBytes ext) (ca' := caFromBytes ext)
    (d := p) (d' := named (formatOf c) p) (paramsClass_mem hc).1
    (fun k hk => by rw [dget_named, if_pos hk]) (fun _ _ => rfl)
  have hmk : mkKeyWith ext (caFromBytes ext) .priv [(py! "key_type", .str t)] (named (formatOf c) p)
      (named (footerFmt .priv) f) clear =
      ⟨(runChecks (localCheck ext (caFromBytes ext) c p) (checkPlan c)).log,
        .ok ⟨.priv, [(py! "key_type", .str t)], ⟨c, named (formatOf c) p⟩, named (footerFmt .priv) f,
          clear.getD []⟩⟩ := by
    rw [mkKeyWith_eq (t := t) (c := c) (by simp) hc, hft, ← hcong, Eff.bind_ok hr]
    simp
  have hfs : fromByteStream ext .priv clear s =
      (⟨(runChecks (localCheck ext (caFromBytes ext) c p) (checkPlan c)).log,
        .ok ⟨.priv, [(py! "key_type", .str t)], ⟨c, named (formatOf c) p⟩, named (footerFmt .priv) f,
          clear.getD []⟩⟩, ⟨s.buf, s.pos + (w1 ++ w2 ++ w3).length⟩) := by
    unfold fromByteStream fromByteStreamWith
    rw [hread]
    simp only
    rw [hmk]
  refine ⟨⟨.priv, [(py! "key_type", .str t)], ⟨c, named (formatOf c) p⟩, named (footerFmt .priv) f,
    clear.getD []⟩, by rw [hfs], ⟨rfl, rfl, t, formatOf c, ht, privateFields_eq hc, rfl, dkeys_named hpres2, ?_,
    dkeys_named hpres3, ?_⟩, rfl, by rw [hfs], t, c, ht, hc, rfl, by rw [hfs], rfl⟩
  · intro n hn
    rw [dget_named, if_pos hn]
  · rw [dget_named]; rfl

/-- **C20.** Any number of private keys of any mix of types, packed back to back anywhere in a stream, are
read one after another by `from_byte_stream` as the same keys, including comments, ending at the end
of the last key. -/
theorem C20_private_keys_in_stream (ext : Ext) (ks : List Key)
    (hk : ∀ k ∈ ks, k.kind = .priv ∧ Constructed ext k) (w : Bytes) (hw : packedKeys ks = .ok w)
    (s : Stream) (post : Bytes) (hs : s.rest = w ++ post) :
    ReadsKeys ext ks s ⟨s.buf, s.pos + w.length⟩ := by
  induction ks generalizing w s with
  | nil =>
    simp [packedKeys] at hw; subst hw
    simp [ReadsKeys]
  | cons k ks ih =>
    unfold packedKeys at hw
    split at hw
    · rename_i a b ha hb
      simp at hw; subst hw
      obtain ⟨k', h1, h2, -, h3, -⟩ := fromByteStream_packed ext k (hk k (by simp)).1 (hk k (by simp)).2 a ha
        s (b ++ post) (by rw [hs]; simp) none
      refine ⟨k', h1, h2, ?_⟩
      rw [h3]
      have := ih (fun k' hk' => hk k' (by simp [hk'])) b hb ⟨s.buf, s.pos + a.length⟩ (by
        have e : (⟨s.buf, s.pos + a.length⟩ : Stream).rest = s.rest.drop a.length := by
          simp [Stream.rest]
        rw [e, hs, List.append_assoc, List.drop_left])
      simpa [Nat.add_assoc] using this
    · simp at hw
    · simp at hw

/-- An Ed25519 private key and an RSA private key. -/
def exEd : Key := ⟨.priv, [(py! "key_type", .str (py! "ssh-ed25519"))],
  ⟨.ed25519Priv, [(py! "public", .bytes [1, 2]), (py! "private_public", .bytes [9, 1, 2])]⟩,
  [(py! "comment", .str [0xE9])], []⟩
def exRsaPrivParams : VDict :=
  [(py! "n", .int 3233), (py! "e", .int 17), (py! "d", .int 2753), (py! "iqmp", .int 38), (py! "p", .int 61),
   (py! "q", .int 53)]
def exRsaPriv : Key := ⟨.priv, exRsaHeader, ⟨.rsaPriv, exRsaPrivParams⟩, [(py! "comment", .str [])], []⟩
example : ∀ k ∈ [exEd, exRsaPriv], k.kind = .priv ∧ Constructed exExt k := by
  intro k hk
  simp at hk
  rcases hk with rfl | rfl
  · exact ⟨rfl, exEd.header, exEd.params.data, exEd.footer, none, by decide +kernel⟩
  · exact ⟨rfl, exRsaPriv.header, exRsaPriv.params.data, exRsaPriv.footer, none, by decide +kernel⟩
example : (packedKeys [exEd, exRsaPriv]).map List.length = .ok 81 := by decide +kernel

/-! ### C21 -/

/-- **C21** (bytes). The packed public form of a key depends only on the key type and the documented public
parameters of that type: two key objects, public or private, that agree on those have the same
packed form. -/
theorem C21_public_bytes_noninterference (ext : Ext) (k k' : Key) (t : Str) (fields : FDict)
    (hk : Constructed ext k) (hk' : Constructed ext k')
    (ht : dget k.header (py! "key_type") = some (.str t))
    (ht' : dget k'.header (py! "key_type") = some (.str t)) (hf : publicFields t = some fields)
    (hag : ∀ n ∈ dkeys fields, dget k.params.data n = dget k'.params.data n) :
    packPublicBytes k = packPublicBytes k' := by
  have key : ∀ k : Key, Constructed ext k → dget k.header (py! "key_type") = some (.str t) →
      formatOf (firstPublicClass k.params.cls) = fields := by
    rintro k ⟨h, p, f, cl, hk⟩ ht
    obtain ⟨kind, hd, ps, ft, c0⟩ := k
    obtain ⟨t', c, ht', hc, he, -⟩ := mkKeyWith_ok hk
    simp only [Key.mk.injEq] at he
    obtain ⟨-, rfl, rfl, -, -⟩ := he
    simp only at ht hc ⊢
    rw [ht] at ht'; simp at ht'; subst ht'
    cases kind
    · have := publicFields_eq hc
      rw [hf] at this; simp at this
      rw [pub_class hc, this]
    · have := publicFields_eq (priv_class hc)
      rw [hf] at this; simp at this
      rw [this]
  rw [packPublicBytes_eq, packPublicBytes_eq, key k hk ht, key k' hk' ht']
  congr 1
  · apply packDict_congr
    intro n fi hm
    simp [headerFmt] at hm
    rw [hm.1, ht, ht']
  · apply packDict_congr
    intro n fi hm
    exact hag n (List.mem_map.2 ⟨_, hm, rfl⟩)

/-- **C21** (string). The same for the one-line form, given the comments that are asked for. -/
theorem C21_public_string_noninterference (ext : Ext) (k k' : Key) (t : Str) (fields : FDict) (uf uc : Bool)
    (hk : Constructed ext k) (hk' : Constructed ext k')
    (ht : dget k.header (py! "key_type") = some (.str t))
    (ht' : dget k'.header (py! "key_type") = some (.str t)) (hf : publicFields t = some fields)
    (hag : ∀ n ∈ dkeys fields, dget k.params.data n = dget k'.params.data n)
    (h1 : uf = true → dget k.footer (py! "comment") = dget k'.footer (py! "comment"))
    (h2 : uc = true → dget k.clear (py! "comment") = dget k'.clear (py! "comment")) :
    packPublicString ext k uf uc = packPublicString ext k' uf uc := by
  unfold packPublicString commentText
  rw [C21_public_bytes_noninterference ext k k' t fields hk hk' ht ht' hf hag]
  rw [getItem_congr (ht.trans ht'.symm)]
  cases uf <;> cases uc <;> simp_all

/-- The RSA private key packs as the RSA public key does. -/
example : packPublicBytes exRsaPriv = .ok exRsaWire := by decide +kernel
example : publicFields (py! "ssh-rsa") = some rsaFields ∧
    ∀ n ∈ dkeys rsaFields, dget exRsaPriv.params.data n = dget exRsaKey.params.data n := by
  decide +kernel

/-! ### C56 -/

/-- **C56** (fields). Each of the 16 key types has the documented public fields and, if it has a private
class, the documented private fields, in the documented order; computed through Python's method
resolution order. -/
theorem C56_format_tables (t : Str) :
    (∀ c, getPublicClass (.str t) = .ok c → publicFields t = some (formatOf c)) ∧
    (∀ c, getPrivateClass (.str t) = .ok c → privateFields t = some (formatOf c)) ∧
    ((∃ c, getPublicClass (.str t) = .ok c) ↔ (publicFields t).isSome) ∧
    ((∃ c, getPrivateClass (.str t) = .ok c) ↔ (privateFields t).isSome) := by
  refine ⟨fun c h => publicFields_eq h, fun c h => privateFields_eq h, ⟨?_, ?_⟩, ⟨?_, ?_⟩⟩
  · rintro ⟨c, h⟩; rw [publicFields_eq h]; rfl
  · intro h
    rcases hf : publicFields t with _ | f
    · simp [hf] at h
    · obtain ⟨c, hc, -⟩ := paramsClass_pub_of hf; exact ⟨c, hc⟩
  · rintro ⟨c, h⟩; rw [privateFields_eq h]; rfl
  · intro h
    rcases hf : privateFields t with _ | f
    · simp [hf] at h
    · obtain ⟨c, hc, -⟩ := paramsClass_priv_of hf; exact ⟨c, hc⟩

/-- **C56** (private contains public). The private class of a key type contains, with the same instruction,
every field of the class that `pack_public_bytes` selects for it, and that class is the public class
of the same key type. -/
theorem C56_private_contains_public (t : Str) (c : Cls) (h : getPrivateClass (.str t) = .ok c) :
    getPublicClass (.str t) = .ok (firstPublicClass c) ∧
    ∀ kf ∈ formatOf (firstPublicClass c), dget (formatOf c) kf.1 = some kf.2 := by
  refine ⟨priv_class h, ?_⟩
  have key : ∀ e ∈ keyTypeMapping, ∀ c, e.2.2 = some c →
      ∀ kf ∈ formatOf (firstPublicClass c), dget (formatOf c) kf.1 = some kf.2 := by decide +kernel
  unfold getPrivateClass at h
  split at h
  · simp at h
  · rename_i r hr
    obtain ⟨s, -, hm⟩ := lookupType_mem hr
    split at h
    · simp at h
    · rename_i c' hc
      simp at h; subst h
      exact key _ hm _ hc

/-- **C56** (linearisation). Every class of the graph has a consistent method resolution order that starts
with the class itself and ends with `object` (so the default in `Cls.mro` is never used). -/
theorem C56_mro_defined (c : Cls) : Cls.mroFuel 12 c = some c.mro ∧ c.mro.head? = some c ∧
    c.mro.getLast? = some .object ∧ c.mro.Nodup := by
  cases c <;> decide +kernel

example : getPrivateClass (.str (py! "sk-ssh-ed25519@openssh.com")) = .ok .skEd25519Priv := by decide
example : formatOf .certSkEc256 = certFields skEcFields := by decide +kernel

end OSK
