import Verif.Lemmas.ListParse
/-
`PrivateKeyList.pack_bytes` without its streams.
-/
namespace OSK
open Spec

theorem Exn.bind_ok_iff {α β : Type} {x : Except Exn α} {f : α → Except Exn β} {b : β} :
    x >>= f = .ok b ↔ ∃ a, x = .ok a ∧ f a = .ok b := by
  rcases x with e | a
  · constructor
    · intro h; cases h
    · rintro ⟨a, h, -⟩; cases h
  · constructor
    · intro h; exact ⟨a, rfl, h⟩
    · rintro ⟨a', h, h'⟩; cases h; exact h'

/-! ### Writing -/

theorem onStream_writes {x : SM Unit} {p : Except Exn Bytes} (h : Writes x p) (s : Stream) :
    onStream x s = (do let b ← Eff.lift p; pure ((), s.wr b)) := by
  unfold onStream
  rcases p with e | b
  · have := h.error e rfl s
    rcases hx : x s with ⟨r, s'⟩
    rw [hx] at this
    simp only at this
    subst this
    rfl
  · rw [h.ok b rfl s]
    rfl

/-- The bytes of the public keys. -/
def pubBytes (self : List Pair) (override : Bool) : List Int → Except Exn Bytes
  | [] => .ok []
  | i :: t => do
    let p ← pyIndex self i
    let b ← packPublicBytes (if override then p.priv else p.pub)
    let w ← packFI (.pascal .bytes) (.bytes b)
    let r ← pubBytes self override t
    pure (w ++ r)

/-- The bytes of the private keys. -/
def privBytes (self : List Pair) : List Int → Except Exn Bytes
  | [] => .ok []
  | i :: t => do
    let p ← pyIndex self i
    let b ← packPrivateBytes p.priv
    let r ← privBytes self t
    pure (b ++ r)

theorem Eff.lift_bind {α β : Type} (x : Except Exn α) (f : α → Except Exn β) :
    Eff.lift (x >>= f) = (Eff.lift x >>= fun a => Eff.lift (f a)) := by
  rcases x with e | a
  · rfl
  · rw [Eff.lift_ok_bind]; rfl

theorem Eff.lift_pure {α : Type} (a : α) : Eff.lift (pure a : Except Exn α) = pure a := rfl

theorem writePublicKeys_eq (self : List Pair) (override : Bool) (l : List Int) (s : Stream) :
    writePublicKeys self override l s = (do let b ← Eff.lift (pubBytes self override l); pure (s.wr b)) := by
  induction l generalizing s with
  | nil => simp [writePublicKeys, pubBytes, Eff.lift_ok_bind]
  | cons i t ih =>
    unfold writePublicKeys pubBytes
    simp only [onStream_writes (Writes.fi _ _), ih, Eff.lift_bind, Eff.bind_assoc, Eff.pure_bind,
      Eff.lift_pure, Stream.wr_append]

theorem writePrivateKeys_eq (self : List Pair) (l : List Int) (s : Stream) :
    writePrivateKeys self l s = (do let b ← Eff.lift (privBytes self l); pure (s.wr b)) := by
  induction l generalizing s with
  | nil => simp [writePrivateKeys, privBytes, Eff.lift_ok_bind]
  | cons i t ih =>
    unfold writePrivateKeys privBytes
    simp only [onStream_writes (Writes.write _), ih, Eff.lift_bind, Eff.bind_assoc, Eff.pure_bind,
      Eff.lift_pure, Stream.wr_append, Eff.lift_ok_bind]

/-- Everything before the encrypted section. -/
def packFront (self : List Pair) (override : Bool) (l : List Int) (cipher kdf : Val) (kc : KdfCls)
    (opts : VDict) : Except Exn Bytes := do
  let ob ← packDict (kdfFmt kc) opts
  let hw ← packDict listHeaderFmt (listHeader cipher kdf ob l.length)
  let pw ← pubBytes self override l
  pure (hw ++ pw)

/-- The decrypted section. -/
def packPlain (inp : Inputs) (self : List Pair) (l : List Int) (cipher : Val) : Except Exn Bytes := do
  let hw ← packDict decipherHeaderFmt
    [(py! "check_int_1", .int inp.checkInt), (py! "check_int_2", .int inp.checkInt)]
  let pw ← privBytes self l
  let c ← getCipherClass cipher
  pure (hw ++ pw ++ paddingBytes (paddingLength (hw ++ pw).length c.blockSize))

/-- The part of the encrypted bytes in the length-prefixed field, and the tag. -/
def bodyTag (c : CipherCls) (y : Bytes) : Bytes × Bytes :=
  if c.isIntegrity then (sliceTo y (-(c.tagLength : Int)), sliceFrom y (-(c.tagLength : Int))) else (y, [])

/-- The encrypted section. -/
def packTail (c : CipherCls) (y : Bytes) : Except Exn Bytes := do
  let b ← packFI (.pascal .bytes) (.bytes (bodyTag c y).1)
  pure (b ++ (bodyTag c y).2)

theorem writePrivateSection_eq (inp : Inputs) (self : List Pair) (l : List Int) (cipher : Val) :
    writePrivateSection inp self l cipher = Eff.lift (packPlain inp self l cipher) := by
  unfold writePrivateSection packPlain
  simp only [onStream_writes (Writes.dict _ _), onStream_writes (Writes.write _), writePrivateKeys_eq,
    Eff.lift_bind, Eff.bind_assoc, Eff.pure_bind, Eff.lift_pure, Eff.lift_ok_bind, ← Stream.wr_append,
    Stream.new_wr_buf, List.append_assoc]

theorem writeCipherBytes_eq (c : CipherCls) (y : Bytes) (s : Stream) :
    writeCipherBytes c y s = (do let b ← Eff.lift (packTail c y); pure (s.wr b)) := by
  unfold writeCipherBytes packTail bodyTag
  by_cases h : c.isIntegrity = true
  · simp only [h, if_true, onStream_writes (Writes.fi _ _), onStream_writes (Writes.write _), Eff.lift_bind,
      Eff.bind_assoc, Eff.pure_bind, Eff.lift_pure, Eff.lift_ok_bind, ← Stream.wr_append]
  · simp only [h, Bool.false_eq_true, if_false, onStream_writes (Writes.fi _ _), Eff.lift_bind,
      Eff.bind_assoc, Eff.pure_bind, Eff.lift_pure, List.append_nil]

theorem packKeyList_eq (cr : Crypto) (inp : Inputs) (self : KeyList) (passphrase : Option Str)
    (indices : Option (List Int)) (override retain : Bool) {cipher kdf : Val}
    (hh : listCipherKdf self.header = (cipher, kdf)) {l : List Int}
    (hl : indices.getD (allIndices self.pairs.length) = l) :
    packKeyList cr inp self passphrase indices override retain = (do
      let opts ← chooseKdfOptions inp self.kdfOptions kdf retain
      let kc ← Eff.lift (getKdfClass kdf)
      let fr ← Eff.lift (packFront self.pairs override l cipher kdf kc opts)
      let plain ← Eff.lift (packPlain inp self.pairs l cipher)
      let pass ← choosePassphrase inp (kdf = .str (py! "none")) passphrase
      let c ← Eff.lift (getCipherClass cipher)
      let o ← newKdf kc opts
      let y ← Eff.lift (encrypt cr c o pass plain)
      let t ← Eff.lift (packTail c y)
      pure (fr ++ t)) := by
  unfold packKeyList packFront
  simp only [hh, hl, written_eq (Writes.dict _ _), onStream_writes (Writes.dict _ _), writePublicKeys_eq,
    writePrivateSection_eq, writeCipherBytes_eq,
    Eff.lift_bind, Eff.bind_assoc, Eff.pure_bind, Eff.lift_pure, ← Stream.wr_append,
    Stream.new_wr_buf, List.append_assoc]

/-! ### Selection -/

theorem pyIndex_ok {α : Type} {l : List α} {i : Int} {a : α} : pyIndex l i = .ok a ↔ At l i a := by
  unfold pyIndex listGet At
  by_cases h : 0 ≤ i
  · rw [if_pos h]
    constructor
    · intro h'
      refine ⟨i.toNat, ?_, .inl (by omega)⟩
      split at h'
      · cases h'; assumption
      · cases h'
    · rintro ⟨n, hn, rfl | e⟩
      · simp [hn]
      · have : n < l.length := by
          by_contra hc
          rw [List.getElem?_eq_none (by omega)] at hn; cases hn
        omega
  · rw [if_neg h]
    by_cases h2 : 0 ≤ (l.length : Int) + i
    · rw [if_pos h2]
      constructor
      · intro h'
        refine ⟨((l.length : Int) + i).toNat, ?_, .inr (by omega)⟩
        split at h'
        · cases h'; assumption
        · cases h'
      · rintro ⟨n, hn, rfl | e⟩
        · omega
        · have : ((l.length : Int) + i).toNat = n := by omega
          simp [this, hn]
    · rw [if_neg h2]
      simp only [reduceCtorEq, false_iff]
      rintro ⟨n, hn, rfl | e⟩ <;> omega

theorem pyIndex_error {α : Type} {l : List α} {i : Int} {e : Exn} (h : pyIndex l i = .error e) :
    e = .indexError := by
  unfold pyIndex listGet at h
  split at h
  · split at h <;> cases h; rfl
  · split at h
    · split at h <;> cases h; rfl
    · cases h; rfl

/-- The public keys of selected pairs. -/
def pubsOf (override : Bool) : List Pair → Except Exn Bytes
  | [] => .ok []
  | p :: t => do
    let b ← packPublicBytes (if override then p.priv else p.pub)
    let w ← packFI (.pascal .bytes) (.bytes b)
    let r ← pubsOf override t
    pure (w ++ r)

/-- The private keys of selected pairs. -/
def privsOf : List Pair → Except Exn Bytes
  | [] => .ok []
  | p :: t => do
    let b ← packPrivateBytes p.priv
    let r ← privsOf t
    pure (b ++ r)

theorem pubBytes_sel {self : List Pair} {override : Bool} {l : List Int} {sel : List Pair}
    (h : List.Forall₂ (At self) l sel) : pubBytes self override l = pubsOf override sel := by
  induction h with
  | nil => rfl
  | cons h1 _ ih =>
    unfold pubBytes pubsOf
    rw [pyIndex_ok.2 h1, ih]
    rfl

theorem privBytes_sel {self : List Pair} {l : List Int} {sel : List Pair}
    (h : List.Forall₂ (At self) l sel) : privBytes self l = privsOf sel := by
  induction h with
  | nil => rfl
  | cons h1 _ ih =>
    unfold privBytes privsOf
    rw [pyIndex_ok.2 h1, ih]
    rfl

theorem pubBytes_selects {self : List Pair} {override : Bool} {l : List Int} {w : Bytes}
    (h : pubBytes self override l = .ok w) : ∃ sel, List.Forall₂ (At self) l sel := by
  induction l generalizing w with
  | nil => exact ⟨[], .nil⟩
  | cons i t ih =>
    unfold pubBytes at h
    obtain ⟨p, h1, h⟩ := Exn.bind_ok_iff.1 h
    obtain ⟨b, -, h⟩ := Exn.bind_ok_iff.1 h
    obtain ⟨x, -, h⟩ := Exn.bind_ok_iff.1 h
    obtain ⟨r, h4, -⟩ := Exn.bind_ok_iff.1 h
    obtain ⟨sel, hs⟩ := ih h4
    exact ⟨p :: sel, .cons (pyIndex_ok.1 h1) hs⟩

theorem selects_all_aux {α : Type} (pre l : List α) :
    List.Forall₂ (At (pre ++ l)) ((List.range' pre.length l.length).map (fun i => Int.ofNat i)) l := by
  induction l generalizing pre with
  | nil => exact .nil
  | cons a t ih =>
    rw [List.length_cons, List.range'_succ, List.map_cons]
    refine .cons ⟨pre.length, by simp, .inl rfl⟩ ?_
    have := ih (pre ++ [a])
    simpa using this

theorem selects_all {α : Type} (l : List α) : List.Forall₂ (At l) (allIndices l.length) l := by
  have := selects_all_aux [] l
  unfold allIndices
  rw [List.range_eq_range']
  simpa using this

/-! ### What a successful packing did -/

theorem pubsOf_ok {override : Bool} {sel : List Pair} {w : Bytes} (h : pubsOf override sel = .ok w) :
    ∃ pubs, List.Forall₂ (fun (p : Pair) b => packPublicBytes (if override then p.priv else p.pub) = .ok b) sel pubs ∧
      FieldsIn pubs w := by
  induction sel generalizing w with
  | nil => cases h; exact ⟨[], .nil, rfl⟩
  | cons p t ih =>
    unfold pubsOf at h
    obtain ⟨b, h1, h⟩ := Exn.bind_ok_iff.1 h
    obtain ⟨x, h2, h⟩ := Exn.bind_ok_iff.1 h
    obtain ⟨r, h3, h⟩ := Exn.bind_ok_iff.1 h
    cases h
    obtain ⟨pubs, hp, hf⟩ := ih h3
    obtain ⟨b', hb', hx⟩ := packFI_bytes_iff.1 h2
    cases hb'
    exact ⟨b :: pubs, .cons h1 hp, x, r, hx, hf, rfl⟩

theorem privsOf_ok {sel : List Pair} {w : Bytes} (h : privsOf sel = .ok w) :
    ∃ privs, List.Forall₂ (fun (p : Pair) b => packPrivateBytes p.priv = .ok b) sel privs ∧ w = privs.flatten := by
  induction sel generalizing w with
  | nil => cases h; exact ⟨[], .nil, rfl⟩
  | cons p t ih =>
    unfold privsOf at h
    obtain ⟨b, h1, h⟩ := Exn.bind_ok_iff.1 h
    obtain ⟨r, h3, h⟩ := Exn.bind_ok_iff.1 h
    cases h
    obtain ⟨privs, hp, rfl⟩ := ih h3
    exact ⟨b :: privs, .cons h1 hp, rfl⟩

theorem packHeader_ok {cipher kdf : Val} {ob : Bytes} {n : Nat} {w : Bytes}
    (h : packDict listHeaderFmt (listHeader cipher kdf ob n) = .ok w) :
    ∃ cs ks wc wk wo wn, cipher = .str (strOf cs) ∧ kdf = .str (strOf ks) ∧ Prefixed 4 (utf8 cs) wc ∧
      Prefixed 4 (utf8 ks) wk ∧ Prefixed 4 ob wo ∧ wn.length = 4 ∧ digitSum wn = n ∧ n < 2 ^ 31 ∧
      w = magic ++ wc ++ wk ++ wo ++ wn := by
  unfold listHeaderFmt at h
  obtain ⟨v1, w1, r1, g1, h1, q1, rfl⟩ := packDict_cons_ok_iff.1 h
  obtain ⟨v2, w2, r2, g2, h2, q2, rfl⟩ := packDict_cons_ok_iff.1 q1
  obtain ⟨v3, w3, r3, g3, h3, q3, rfl⟩ := packDict_cons_ok_iff.1 q2
  obtain ⟨v4, w4, r4, g4, h4, q4, rfl⟩ := packDict_cons_ok_iff.1 q3
  obtain ⟨v5, w5, r5, g5, h5, q5, rfl⟩ := packDict_cons_ok_iff.1 q4
  have e1 : v1 = .bytes authMagic := by
    have : dget (listHeader cipher kdf ob n) (py! "auth_magic") = some (.bytes authMagic) := rfl
    rw [g1] at this; cases this; rfl
  have e2 : v2 = cipher := by
    have : dget (listHeader cipher kdf ob n) (py! "cipher") = some cipher := rfl
    rw [g2] at this; cases this; rfl
  have e3 : v3 = kdf := by
    have : dget (listHeader cipher kdf ob n) (py! "kdf") = some kdf := rfl
    rw [g3] at this; cases this; rfl
  have e4 : v4 = .bytes ob := by
    have : dget (listHeader cipher kdf ob n) (py! "kdf_options") = some (.bytes ob) := rfl
    rw [g4] at this; cases this; rfl
  have e5 : v5 = .int n := by
    have : dget (listHeader cipher kdf ob n) (py! "num_keys") = some (.int n) := rfl
    rw [g5] at this; cases this; rfl
  subst e1 e2 e3 e4 e5
  cases q5
  have e1 : packFI (.struct fmt15s) (.bytes authMagic) = .ok magic := by decide +kernel
  rw [e1] at h1
  cases h1
  obtain ⟨cs, rfl, k2⟩ := packFI_string_iff.1 h2
  obtain ⟨ks, rfl, k3⟩ := packFI_string_iff.1 h3
  obtain ⟨b', hb', k4⟩ := packFI_bytes_iff.1 h4
  cases hb'
  obtain ⟨k5, rfl⟩ := pack_int.1 h5
  refine ⟨cs, ks, w2, w3, w4, natToBE 4 ((n : Int) % 2 ^ 32).toNat, rfl, rfl, k2, k3, k4, by simp, ?_, by omega,
    by simp only [List.append_nil, List.append_assoc]⟩
  have e : ((n : Int) % 2 ^ 32).toNat = n := by omega
  rw [e, digitSum_eq, beNat_natToBE_of_lt (by omega)]

theorem sliceTo_sliceFrom (y : Bytes) (n : Nat) : sliceTo y (-(n : Int)) ++ sliceFrom y (-(n : Int)) = y := by
  exact List.take_append_drop _ _

theorem bodyTag_append (c : CipherCls) (y : Bytes) : (bodyTag c y).1 ++ (bodyTag c y).2 = y := by
  unfold bodyTag
  split
  · exact sliceTo_sliceFrom _ _
  · simp

theorem bodyTag_length {c : CipherCls} {y : Bytes} (h : c.tagLength ≤ y.length) :
    (bodyTag c y).2.length = c.tagLength := by
  unfold bodyTag
  by_cases hi : c.isIntegrity = true
  · have h0 : 0 < c.tagLength := by cases c <;> first | decide | (exact absurd hi (by decide))
    rw [if_pos hi, sliceFrom_neg _ h0]
    simp
    omega
  · have h0 : c.tagLength = 0 := by cases c <;> first | rfl | (exact absurd rfl hi)
    rw [if_neg hi, h0]
    rfl

theorem newKdf_packed {c : KdfCls} {d : VDict} {w : Bytes} (h : packDict (kdfFmt c) d = .ok w) :
    newKdf c d = pure ⟨c, d⟩ ∧ prs (readDict (kdfFmt c)) w = (.ok (named (kdfFmt c) d), w.length) := by
  have h1 := prs_readDict_plain (plain_kdf c) h []
  rw [List.append_nil] at h1
  refine ⟨?_, h1⟩
  unfold newKdf
  have h2 := checkDict_read (plain_kdf c) h1
  rw [checkDict_congr (d' := d) (fun k hk => by rw [dget_named, if_pos hk])] at h2
  rw [h2]
  rfl

theorem packPlain_ok {inp : Inputs} {self : List Pair} {l : List Int} {cipher : Val} {plain : Bytes}
    (h : packPlain inp self l cipher = .ok plain) {sel : List Pair} (hs : List.Forall₂ (At self) l sel)
    {cc : CipherCls} (hc : getCipherClass cipher = .ok cc) :
    ∃ privs, List.Forall₂ (fun (p : Pair) b => packPrivateBytes p.priv = .ok b) sel privs ∧
      Section inp.checkInt privs cc.blockSize plain := by
  unfold packPlain at h
  obtain ⟨hw, h1, h⟩ := Exn.bind_ok_iff.1 h
  obtain ⟨pw, h2, h⟩ := Exn.bind_ok_iff.1 h
  obtain ⟨c, h3, h⟩ := Exn.bind_ok_iff.1 h
  rw [hc] at h3
  cases h3
  cases h
  rw [privBytes_sel hs] at h2
  obtain ⟨privs, hp, rfl⟩ := privsOf_ok h2
  refine ⟨privs, hp, ?_⟩
  have hb : 0 < cc.blockSize := by cases cc <;> decide
  obtain ⟨v1, w1, r1, g1, k1, q1, rfl⟩ := packDict_cons_ok_iff.1 h1
  obtain ⟨v2, w2, r2, g2, k2, q2, rfl⟩ := packDict_cons_ok_iff.1 q1
  cases q2
  cases g1
  have e : v2 = .int inp.checkInt := by cases g2; rfl
  subst e
  obtain ⟨l1, e1⟩ := pack_uint.1 k1
  obtain ⟨l2, e2⟩ := pack_uint.1 k2
  have := digitSum_inj (l1.trans l2.symm) (by omega)
  subst this
  rw [List.append_nil]
  refine ⟨w1, paddingLength ((w1 ++ w1) ++ privs.flatten).length cc.blockSize, l1, by omega, ?_, ?_, ?_⟩
  · unfold paddingLength
    have := Int.emod_lt_of_pos (-(((w1 ++ w1) ++ privs.flatten).length : Int)) (b := (cc.blockSize : Int)) (by omega)
    omega
  · rw [List.length_append]
    have e : (paddingBytes (paddingLength ((w1 ++ w1) ++ privs.flatten).length cc.blockSize)).length =
        paddingLength ((w1 ++ w1) ++ privs.flatten).length cc.blockSize := by simp [paddingBytes]
    rw [e]
    unfold paddingLength
    generalize ((w1 ++ w1) ++ privs.flatten).length = n
    have h0 := Int.emod_nonneg (-(n : Int)) (b := (cc.blockSize : Int)) (by omega)
    have h1 := Int.emod_add_mul_ediv (-(n : Int)) (cc.blockSize : Int)
    generalize (-(n : Int)) % (cc.blockSize : Int) = r at *
    obtain ⟨r', rfl⟩ := Int.eq_ofNat_of_zero_le h0
    have : ((n + r' : Nat) : Int) % (cc.blockSize : Int) = 0 := by
      have e : ((n + r' : Nat) : Int) = (cc.blockSize : Int) * -(-(n : Int) / (cc.blockSize : Int)) := by
        rw [Int.mul_neg]; push_cast; omega
      rw [e, Int.mul_emod_right]
    have h2 : (((n + r') % cc.blockSize : Nat) : Int) = 0 := by rw [Int.natCast_emod]; exact this
    exact_mod_cast h2
  · rfl

theorem selection_iff {α : Type} {l : List α} {I : Option (List Int)} {sel : List α} :
    Selection l I sel ↔ List.Forall₂ (At l) (I.getD (allIndices l.length)) sel := by
  cases I with
  | some I => exact Iff.rfl
  | none =>
    constructor
    · rintro rfl; exact selects_all _
    · intro h
      have h1 := selects_all l
      simp only [Option.getD_none] at h
      have h2 : sel.length = l.length := by
        have a := h.length_eq
        have b := h1.length_eq
        omega
      apply List.ext_getElem h2
      intro i hi hi'
      have hl : i < (allIndices l.length).length := by simp [allIndices]; exact hi'
      have a := h.get hl hi
      have b := h1.get hl hi'
      have a' := pyIndex_ok.2 a
      have b' := pyIndex_ok.2 b
      rw [a'] at b'
      simpa using b'

/-- What a successful packing did. -/
structure ListPack (cr : Crypto) (inp : Inputs) (kl : KeyList) (passphrase : Option Str)
    (indices : Option (List Int)) (override retain : Bool) (w : Bytes) where
  f : KeyFile
  opts : VDict
  kc : KdfCls
  cc : CipherCls
  sel : List Pair
  privs : List Bytes
  plain : Bytes
  p : Str
  names : listCipherKdf kl.header = (.str (strOf f.cipher), .str (strOf f.kdf))
  choose : (chooseKdfOptions inp kl.kdfOptions (.str (strOf f.kdf)) retain).res = .ok opts
  kdf : getKdfClass (.str (strOf f.kdf)) = .ok kc
  cipher : getCipherClass (.str (strOf f.cipher)) = .ok cc
  selection : Selection kl.pairs indices sel
  options : packDict (kdfFmt kc) opts = .ok f.options
  pubs : List.Forall₂ (fun (p : Pair) b => packPublicBytes (if override then p.priv else p.pub) = .ok b) sel f.pubs
  privKeys : List.Forall₂ (fun (p : Pair) b => packPrivateBytes p.priv = .ok b) sel privs
  section_ : Section inp.checkInt privs cc.blockSize plain
  pass : (choosePassphrase inp (kc = .none) passphrase).res = .ok p
  enc : encrypt cr cc ⟨kc, opts⟩ p plain = .ok (f.body ++ f.tag)
  split : (f.body, f.tag) = bodyTag cc (f.body ++ f.tag)
  lays : f.Lays w
  log : (packKeyList cr inp kl passphrase indices override retain).log =
    (chooseKdfOptions inp kl.kdfOptions (.str (strOf f.kdf)) retain).log ++
      (choosePassphrase inp (kc = .none) passphrase).log

theorem kdf_none_iff {s : Str} {kc : KdfCls} (h : getKdfClass (.str s) = .ok kc) :
    kc = .none ↔ Val.str s = .str (py! "none") := by
  unfold getKdfClass at h
  simp only at h
  split at h
  · rename_i c hc
    cases h
    have hm := dget_mem hc
    simp only [kdfMapping, List.mem_cons, Prod.mk.injEq, List.not_mem_nil, or_false] at hm
    rcases hm with ⟨h1, h2⟩ | ⟨h1, h2⟩
    · rw [h1, h2]; simp
    · rw [h1, h2]; simp
  · cases h

theorem packing_steps {w : Bytes} (x1 : Eff VDict) (x2 : Except Exn KdfCls) (x3 : KdfCls → VDict → Except Exn Bytes)
    (x4 : Except Exn Bytes) (x5 : Eff Str) (x6 : Except Exn CipherCls) (x7 : KdfCls → VDict → Eff KdfOptions)
    (x8 : CipherCls → KdfOptions → Str → Bytes → Except Exn Bytes) (x9 : CipherCls → Bytes → Except Exn Bytes)
    (h : (do
      let opts ← x1
      let kc ← Eff.lift x2
      let fr ← Eff.lift (x3 kc opts)
      let plain ← Eff.lift x4
      let pass ← x5
      let c ← Eff.lift x6
      let o ← x7 kc opts
      let y ← Eff.lift (x8 c o pass plain)
      let t ← Eff.lift (x9 c y)
      pure (fr ++ t) : Eff Bytes).res = .ok w) :
    ∃ opts kc fr plain pass c o y t, x1.res = .ok opts ∧ x2 = .ok kc ∧ x3 kc opts = .ok fr ∧ x4 = .ok plain ∧
      x5.res = .ok pass ∧ x6 = .ok c ∧ (x7 kc opts).res = .ok o ∧ x8 c o pass plain = .ok y ∧ x9 c y = .ok t ∧
      w = fr ++ t := by
  obtain ⟨opts, h1, h⟩ := Eff.bind_res_ok_iff.1 h
  obtain ⟨kc, h2, h⟩ := Eff.bind_res_ok_iff.1 h
  obtain ⟨fr, h3, h⟩ := Eff.bind_res_ok_iff.1 h
  obtain ⟨plain, h4, h⟩ := Eff.bind_res_ok_iff.1 h
  obtain ⟨p, h5, h⟩ := Eff.bind_res_ok_iff.1 h
  obtain ⟨cc, h6, h⟩ := Eff.bind_res_ok_iff.1 h
  obtain ⟨o, h7, h⟩ := Eff.bind_res_ok_iff.1 h
  obtain ⟨y, h8, h⟩ := Eff.bind_res_ok_iff.1 h
  obtain ⟨t, h9, h⟩ := Eff.bind_res_ok_iff.1 h
  rw [Eff.lift_res] at h2 h3 h4 h6 h8 h9
  rw [Eff.pure_res] at h
  exact ⟨opts, kc, fr, plain, p, cc, o, y, t, h1, h2, h3, h4, h5, h6, h7, h8, h9, (Except.ok.inj h).symm⟩

theorem packing_log (x1 : Eff VDict) (x2 : Except Exn KdfCls) (x3 : KdfCls → VDict → Except Exn Bytes)
    (x4 : Except Exn Bytes) (x5 : Eff Str) (x6 : Except Exn CipherCls) (x7 : KdfCls → VDict → Eff KdfOptions)
    (x8 : CipherCls → KdfOptions → Str → Bytes → Except Exn Bytes) (x9 : CipherCls → Bytes → Except Exn Bytes)
    {opts kc fr plain pass c o} (h1 : x1.res = .ok opts) (h2 : x2 = .ok kc) (h3 : x3 kc opts = .ok fr)
    (h4 : x4 = .ok plain) (h5 : x5.res = .ok pass) (h6 : x6 = .ok c) (h7 : x7 kc opts = pure o) :
    (do
      let opts ← x1
      let kc ← Eff.lift x2
      let fr ← Eff.lift (x3 kc opts)
      let plain ← Eff.lift x4
      let pass ← x5
      let c ← Eff.lift x6
      let o ← x7 kc opts
      let y ← Eff.lift (x8 c o pass plain)
      let t ← Eff.lift (x9 c y)
      pure (fr ++ t) : Eff Bytes).log = x1.log ++ x5.log := by
  subst h2 h4 h6
  rw [Eff.bind_log_ok h1, Eff.lift_ok_bind, h3, Eff.lift_ok_bind, Eff.lift_ok_bind, Eff.bind_log_ok h5,
    Eff.lift_ok_bind, h7, Eff.pure_bind]
  rcases h8 : x8 c o pass plain with e | y
  · rw [Eff.lift_error_bind]; simp
  · rw [Eff.lift_ok_bind]
    rcases h9 : x9 c y with e | t
    · rw [Eff.lift_error_bind]; simp
    · rw [Eff.lift_ok_bind]; simp

theorem packKeyList_pack {cr : Crypto} {inp : Inputs} {self : KeyList} {passphrase : Option Str}
    {indices : Option (List Int)} {override retain : Bool} {w : Bytes}
    (h : (packKeyList cr inp self passphrase indices override retain).res = .ok w) :
    Nonempty (ListPack cr inp self passphrase indices override retain w) := by
  rcases hh : listCipherKdf self.header with ⟨cipher, kdf⟩
  obtain ⟨l, hl⟩ : ∃ l, indices.getD (allIndices self.pairs.length) = l := ⟨_, rfl⟩
  have e := packKeyList_eq cr inp self passphrase indices override retain hh hl
  rw [e] at h
  obtain ⟨opts, kc, fr, plain, p, cc, o, y, t, h1, h2, h3, h4, h5, h6, h7, h8, h9, h⟩ :=
    packing_steps _ _ _ _ _ _ _ _ _ h
  have h3' := h3
  unfold packFront at h3
  obtain ⟨ob, k1, h3⟩ := Exn.bind_ok_iff.1 h3
  obtain ⟨hw, k2, h3⟩ := Exn.bind_ok_iff.1 h3
  obtain ⟨pw, k3, h3⟩ := Exn.bind_ok_iff.1 h3
  obtain rfl := Except.ok.inj h3
  obtain ⟨cs, ks, wc, wk, wo, wn, rfl, rfl, m1, m2, m3, m4, m5, m6, rfl⟩ := packHeader_ok k2
  obtain ⟨sel, hsel⟩ := pubBytes_selects k3
  rw [pubBytes_sel hsel] at k3
  obtain ⟨pubs, hpubs, hfields⟩ := pubsOf_ok k3
  obtain ⟨privs, hprivs, hsec⟩ := packPlain_ok h4 hsel h6
  have hn := newKdf_packed k1
  rw [hn.1, Eff.pure_res] at h7
  obtain rfl := Except.ok.inj h7
  unfold packTail at h9
  obtain ⟨wb, k4, h9⟩ := Exn.bind_ok_iff.1 h9
  obtain rfl := Except.ok.inj h9
  obtain ⟨b', hb', k5⟩ := packFI_bytes_iff.1 k4
  obtain rfl := Val.bytes.inj hb'
  subst h
  have hlen : sel.length = l.length := hsel.length_eq.symm
  have hkn : decide (Val.str (strOf ks) = .str (py! "none")) = decide (kc = .none) := by
    simp only [kdf_none_iff h2]
  refine ⟨⟨⟨cs, ks, ob, pubs, (bodyTag cc y).1, (bodyTag cc y).2⟩, opts, kc, cc, sel, privs, plain, p, hh, h1, h2, h6,
    selection_iff.2 (by rw [hl]; exact hsel), k1, hpubs, hprivs, hsec, ?_, ?_, ?_, ?_, ?_⟩⟩
  · rw [← hkn]; exact h5
  · simp only [bodyTag_append]; exact h8
  · simp only [bodyTag_append]
  · refine ⟨_, wb, ⟨wc, wk, wo, wn, pw, m1, m2, m3, m4, ?_, ?_, hfields, rfl⟩, k5, by simp⟩
    · simp only [m5, ← hpubs.length_eq, hlen]
    · simp only [← hpubs.length_eq, hlen]; exact m6
  · rw [e]
    refine (packing_log _ _ _ _ _ _ _ _ _ h1 h2 h3' h4 h5 h6 hn.1).trans ?_
    simp only [← hkn]

end OSK
