import Verif.Lemmas.ListWire
import Verif.Props.ListPack
/-
Properties C31–C35, C37, C39 and C44: what `PrivateKeyList.pack_bytes` writes.
-/
namespace OSK
open Spec

/-! ### C31, C32, C44 -/

/-- **C31** (packing). The packed bytes are a key file whose encrypted section holds a section ending in
`1, 2, …, k` with `k` less than the block size of the cipher, a whole number of blocks long, and between
the check numbers and that padding just the packed selected private keys. -/
theorem C31_pack {cr : Crypto} (hl : CryptoLaws cr) (inp : Inputs) (self : KeyList)
    (passphrase : Option Str) (indices : Option (List Int)) (override retain : Bool) (w : Bytes)
    (h : (packKeyList cr inp self passphrase indices override retain).res = .ok w) :
    ∃ f plain sel privs nums k block tag, f.Lays w ∧ Names self (strOf f.cipher) (strOf f.kdf) ∧
      Encloses cr inp passphrase f plain ∧ cipherSizes (strOf f.cipher) = some (block, tag) ∧
      Selection self.pairs indices sel ∧
      List.Forall₂ (fun (p : Pair) b => packPrivateBytes p.priv = .ok b) sel privs ∧
      nums.length = 8 ∧ plain = nums ++ privs.flatten ++ countUp k ∧ k < block ∧ plain.length % block = 0 := by
  obtain ⟨k⟩ := packKeyList_pack h
  obtain ⟨c, n, hc, -, hn, hmod, hplain⟩ := k.section_
  exact ⟨k.f, k.plain, k.sel, k.privs, c ++ c, n, k.cc.blockSize, _, k.lays, names_iff.1 k.names, k.encloses hl,
    cipher_sizes k.cipher, k.selection, k.privKeys, by simp [hc], hplain, hn, hmod⟩

/-- **C32** (packing). The decrypted section starts with the random number, big-endian in 4 bytes, twice. -/
theorem C32_pack {cr : Crypto} (hl : CryptoLaws cr) (inp : Inputs) (self : KeyList)
    (passphrase : Option Str) (indices : Option (List Int)) (override retain : Bool) (w : Bytes)
    (h : (packKeyList cr inp self passphrase indices override retain).res = .ok w) :
    ∃ f plain c rest, f.Lays w ∧ Encloses cr inp passphrase f plain ∧ c.length = 4 ∧
      digitSum c = inp.checkInt ∧ plain = c ++ c ++ rest := by
  obtain ⟨k⟩ := packKeyList_pack h
  obtain ⟨c, n, hc, hd, -, -, hplain⟩ := k.section_
  exact ⟨k.f, k.plain, c, _, k.lays, k.encloses hl, hc, hd, by rw [hplain, List.append_assoc]⟩

/-- **C44.** The length-prefixed field has as many bytes as the decrypted section, and after it there are
exactly as many bytes as the cipher's tag has: 16 for the three authenticated ciphers, none for the
others. -/
theorem C44_tag {cr : Crypto} (hl : CryptoLaws cr) (inp : Inputs) (self : KeyList)
    (passphrase : Option Str) (indices : Option (List Int)) (override retain : Bool) (w : Bytes)
    (h : (packKeyList cr inp self passphrase indices override retain).res = .ok w) :
    ∃ f plain front field, Encloses cr inp passphrase f plain ∧ f.Front front ∧ Prefixed 4 f.body field ∧
      w = front ++ field ++ f.tag ∧ f.body.length = plain.length ∧
      f.tag.length = if strOf f.cipher ∈ [py! "aes128-gcm@openssh.com", py! "aes256-gcm@openssh.com",
        py! "chacha20-poly1305@openssh.com"] then 16 else 0 := by
  obtain ⟨k⟩ := packKeyList_pack h
  obtain ⟨front, field, h1, h2, h3⟩ := k.lays
  refine ⟨k.f, k.plain, front, field, k.encloses hl, h1, h2, h3, (k.tagFits hl).2, ?_⟩
  rw [(k.tagFits hl).1]
  have key : ∀ e ∈ cipherMapping, e.2.tagLength = if e.1 ∈ [py! "aes128-gcm@openssh.com",
      py! "aes256-gcm@openssh.com", py! "chacha20-poly1305@openssh.com"] then 16 else 0 := by decide +kernel
  have hc := k.cipher
  unfold getCipherClass at hc
  simp only at hc
  split at hc
  · rename_i c hd
    cases hc
    exact key _ (dget_mem hd)
  · cases hc

/-- The example, with an authenticated cipher and with another. -/
example : (packKeyList toyCrypto exInputs { exList with
      header := some [(py! "cipher", .str (py! "aes256-gcm@openssh.com")), (py! "kdf", .str (py! "bcrypt"))] }
    none none false true).res.toOption.isSome = true := by decide +kernel

/-! ### C34 -/

theorem chooseKdfOptions_prompts (inp : Inputs) (o : Option KdfOptions) (kdf : Val) (retain : Bool) :
    Prompts 0 (chooseKdfOptions inp o kdf retain) := by
  have key : Prompts 0 (do
      let c ← Eff.lift (getKdfClass kdf)
      let o ← generateKdf inp.tokenBytes c
      pure o.data) := by
    refine Prompts.bind0 (Prompts.lift _) fun c => ?_
    refine Prompts.bind0 ?_ fun _ => Prompts.pure _
    cases c <;> exact newKdf_prompts _ _
  unfold chooseKdfOptions
  cases retain <;> cases o <;> first | exact key | exact Prompts.pure _

theorem pack_prompts {cr : Crypto} {inp : Inputs} {self : KeyList} {passphrase : Option Str}
    {indices : Option (List Int)} {override retain : Bool} {n : Nat}
    (hn : Prompts n (choosePassphrase inp
      ((listCipherKdf self.header).2 = .str (py! "none")) passphrase)) :
    Prompts n (packKeyList cr inp self passphrase indices override retain) := by
  rw [packKeyList_eq cr inp self passphrase indices override retain (Prod.mk.eta).symm rfl]
  exact (chooseKdfOptions_prompts _ _ _ _).bind0 fun _ => (Prompts.lift _).bind0 fun _ =>
    (Prompts.lift _).bind0 fun _ => (Prompts.lift _).bind0 fun _ => Prompts.bind (m := 0) hn fun _ =>
    (Prompts.lift _).bind0 fun _ => (newKdf_prompts _ _).bind0 fun _ => (Prompts.lift _).bind0 fun _ =>
    (Prompts.lift _).bind0 fun _ => Prompts.pure _

/-- **C34** (packing, prompts). Whatever the outcome, there is at most one prompt, and none if a passphrase
was given or the list says that there is no key derivation function. -/
theorem C34_pack_prompts (cr : Crypto) (inp : Inputs) (self : KeyList) (passphrase : Option Str)
    (indices : Option (List Int)) (override retain : Bool) :
    (packKeyList cr inp self passphrase indices override retain).log.count .prompt ≤ 1 ∧
    (passphrase ≠ none ∨ (∃ cipher, Names self cipher (py! "none")) →
      .prompt ∉ (packKeyList cr inp self passphrase indices override retain).log) := by
  constructor
  · refine pack_prompts (n := 1) ?_
    unfold Prompts
    rw [choosePassphrase_log]
    split <;> simp
  · intro h
    have : Prompts 0 (packKeyList cr inp self passphrase indices override retain) := by
      refine pack_prompts ?_
      unfold Prompts
      rw [choosePassphrase_log, if_neg]
      · simp
      · rintro ⟨h1, h2⟩
        rcases h with h | ⟨c, h⟩
        · exact h h2
        · rw [← names_iff] at h
          rw [h] at h1
          simp at h1
    unfold Prompts at this
    exact List.count_eq_zero.1 (Nat.le_zero.1 this)

/-- **C34** (packing, when). If packing succeeds, there was a prompt exactly if the key derivation function
is not `none` and no passphrase was given. -/
theorem C34_pack_prompts_iff (cr : Crypto) (inp : Inputs) (self : KeyList) (passphrase : Option Str)
    (indices : Option (List Int)) (override retain : Bool) (w : Bytes)
    (h : (packKeyList cr inp self passphrase indices override retain).res = .ok w) :
    ∃ cipher kdf, Names self cipher kdf ∧
      (.prompt ∈ (packKeyList cr inp self passphrase indices override retain).log ↔
        kdf ≠ py! "none" ∧ passphrase = none) := by
  obtain ⟨k⟩ := packKeyList_pack h
  refine ⟨_, _, names_iff.1 k.names, ?_⟩
  have h0 : .prompt ∉ (chooseKdfOptions inp self.kdfOptions (.str (strOf k.f.kdf)) retain).log := by
    have := chooseKdfOptions_prompts inp self.kdfOptions (.str (strOf k.f.kdf)) retain
    exact List.count_eq_zero.1 (Nat.le_zero.1 this)
  have h1 := kdf_none_iff k.kdf
  simp only [Val.str.injEq] at h1
  rw [k.log, List.mem_append, choosePassphrase_log]
  simp only [h0, false_or, decide_eq_false_iff_not, h1]
  split <;> simp_all

/-- **C34** (packing, `none`). Without a key derivation function, passphrase and prompt make no difference
to the result, the warnings and the exception. -/
theorem C34_pack_none (cr : Crypto) (inp : Inputs) (answer : Except Exn Str) (self : KeyList)
    (passphrase passphrase' : Option Str) (indices : Option (List Int)) (override retain : Bool) (cipher : Str)
    (h : Names self cipher (py! "none")) :
    packKeyList cr inp self passphrase indices override retain =
      packKeyList cr { inp with answer := answer } self passphrase' indices override retain := by
  have hn := names_iff.2 h
  rw [packKeyList_eq cr inp self passphrase indices override retain hn rfl,
    packKeyList_eq cr _ self passphrase' indices override retain hn rfl]
  rfl

example : Names exOddList (py! "none") (py! "none") := names_iff.1 rfl
example : (packKeyList toyCrypto exInputs exList none none false true).log = [.prompt] := by decide +kernel
example : (packKeyList toyCrypto exInputs exOddList none none false true).log = [] := by decide +kernel

/-! ### C33 -/

/-- **C33.** Packing with `include_indices` does the same as packing the list of the selected pairs. -/
theorem C33_selects (cr : Crypto) (inp : Inputs) (self : KeyList) (passphrase : Option Str)
    (I : List Int) (sel : List Pair) (override retain : Bool) (h : Selects self.pairs I sel) :
    packKeyList cr inp self passphrase (some I) override retain =
      packKeyList cr inp { self with pairs := sel } passphrase none override retain := by
  rw [packKeyList_eq cr inp self passphrase (some I) override retain (Prod.mk.eta).symm rfl,
    packKeyList_eq cr inp { self with pairs := sel } passphrase none override retain (Prod.mk.eta).symm rfl]
  have h1 : ∀ c k kc o, packFront self.pairs override I c k kc o =
      packFront sel override (allIndices sel.length) c k kc o := by
    intro c k kc o
    unfold packFront
    rw [pubBytes_sel h, pubBytes_sel (selects_all sel), List.Forall₂.length_eq h,
      show (allIndices sel.length).length = sel.length by simp [allIndices]]
  have h2 : ∀ c, packPlain inp self.pairs I c = packPlain inp sel (allIndices sel.length) c := by
    intro c
    unfold packPlain
    rw [privBytes_sel h, privBytes_sel (selects_all sel)]
  simp only [Option.getD_some, Option.getD_none, h1, h2]

/-- **C33** (count). The number of keys that the file declares, and of public keys in it, is that of the
indices. -/
theorem C33_count (cr : Crypto) (inp : Inputs) (self : KeyList) (passphrase : Option Str)
    (I : List Int) (override retain : Bool) (w : Bytes)
    (h : (packKeyList cr inp self passphrase (some I) override retain).res = .ok w) :
    ∃ f, KeyFile.Lays f w ∧ f.pubs.length = I.length ∧ ∃ sel, Selects self.pairs I sel ∧
      List.Forall₂ (fun (p : Pair) b => packPublicBytes (if override then p.priv else p.pub) = .ok b) sel f.pubs := by
  obtain ⟨k⟩ := packKeyList_pack h
  have hs : List.Forall₂ (At self.pairs) I k.sel := k.selection
  exact ⟨k.f, k.lays, by rw [← k.pubs.length_eq, hs.length_eq], k.sel, hs, k.pubs⟩

theorem pubBytes_out {self : List Pair} {override : Bool} {I1 I2 : List Int} {i : Int} {w : Bytes}
    (h : pubBytes self override I1 = .ok w) (hi : ∀ a, ¬ At self i a) :
    pubBytes self override (I1 ++ i :: I2) = .error .indexError := by
  induction I1 generalizing w with
  | nil =>
    rw [List.nil_append]
    unfold pubBytes
    rcases hp : pyIndex self i with e | a
    · rw [pyIndex_error hp]; rfl
    · exact absurd (pyIndex_ok.1 hp) (hi a)
  | cons j t ih =>
    unfold pubBytes at h
    obtain ⟨p, h1, h⟩ := Exn.bind_ok_iff.1 h
    obtain ⟨b, h2, h⟩ := Exn.bind_ok_iff.1 h
    obtain ⟨x, h3, h⟩ := Exn.bind_ok_iff.1 h
    obtain ⟨r, h4, -⟩ := Exn.bind_ok_iff.1 h
    rw [List.cons_append]
    unfold pubBytes
    rw [h1]
    show (do
      let b ← packPublicBytes (if override then p.priv else p.pub)
      let w ← packFI (.pascal .bytes) (.bytes b)
      let r ← pubBytes self override (t ++ i :: I2)
      pure (w ++ r)) = _
    rw [h2]
    show (do
      let w ← packFI (.pascal .bytes) (.bytes b)
      let r ← pubBytes self override (t ++ i :: I2)
      pure (w ++ r)) = _
    rw [h3, ih h4]
    rfl

theorem packHeader_count {cipher kdf : Val} {ob : Bytes} {n m : Nat} {w : Bytes} (hm : m < 2 ^ 31)
    (h : packDict listHeaderFmt (listHeader cipher kdf ob n) = .ok w) :
    ∃ w', packDict listHeaderFmt (listHeader cipher kdf ob m) = .ok w' := by
  unfold listHeaderFmt at h ⊢
  obtain ⟨v1, w1, r1, g1, h1, q1, rfl⟩ := packDict_cons_ok_iff.1 h
  obtain ⟨v2, w2, r2, g2, h2, q2, rfl⟩ := packDict_cons_ok_iff.1 q1
  obtain ⟨v3, w3, r3, g3, h3, q3, rfl⟩ := packDict_cons_ok_iff.1 q2
  obtain ⟨v4, w4, r4, g4, h4, q4, rfl⟩ := packDict_cons_ok_iff.1 q3
  exact ⟨_, packDict_cons_ok_iff.2 ⟨v1, w1, _, g1, h1, packDict_cons_ok_iff.2 ⟨v2, w2, _, g2, h2,
    packDict_cons_ok_iff.2 ⟨v3, w3, _, g3, h3, packDict_cons_ok_iff.2 ⟨v4, w4, _, g4, h4,
      packDict_cons_ok_iff.2 ⟨.int m, _, [], rfl, pack_int.2 ⟨by omega, rfl⟩, rfl, rfl⟩, rfl⟩, rfl⟩, rfl⟩, rfl⟩⟩

/-- **C33** (out of range). If packing succeeds with the indices `I₁`, then with an index that is out of
range after them, and any further ones, it raises `IndexError`. -/
theorem C33_out_of_range (cr : Crypto) (inp : Inputs) (self : KeyList) (passphrase : Option Str)
    (I₁ I₂ : List Int) (i : Int) (override retain : Bool) (w : Bytes)
    (hi : i < -(self.pairs.length : Int) ∨ (self.pairs.length : Int) ≤ i)
    (hlen : (I₁ ++ i :: I₂).length < 2 ^ 31)
    (h : (packKeyList cr inp self passphrase (some I₁) override retain).res = .ok w) :
    (packKeyList cr inp self passphrase (some (I₁ ++ i :: I₂)) override retain).res = .error .indexError := by
  have hi' : ∀ a, ¬ At self.pairs i a := by
    rintro a ⟨n, hn, h⟩
    have := (List.getElem?_eq_some_iff.1 hn).1
    omega
  rw [packKeyList_eq cr inp self passphrase (some I₁) override retain (Prod.mk.eta).symm rfl] at h
  obtain ⟨opts, kc, fr, -, -, -, -, -, -, h1, h2, h3, -⟩ := packing_steps _ _ (fun kc opts => packFront self.pairs override
    ((some I₁).getD (allIndices self.pairs.length)) (listCipherKdf self.header).1 (listCipherKdf self.header).2 kc opts)
    _ _ _ _ (fun c o pass plain => encrypt cr c o pass plain) packTail h
  rw [packKeyList_eq cr inp self passphrase (some (I₁ ++ i :: I₂)) override retain (Prod.mk.eta).symm rfl]
  rw [Eff.bind_res_of_ok h1, h2, Eff.lift_ok_bind]
  have h4 : packFront self.pairs override (I₁ ++ i :: I₂) (listCipherKdf self.header).1
      (listCipherKdf self.header).2 kc opts = .error .indexError := by
    unfold packFront at h3 ⊢
    obtain ⟨ob, g1, g⟩ := Exn.bind_ok_iff.1 h3
    obtain ⟨hw, g2, g⟩ := Exn.bind_ok_iff.1 g
    obtain ⟨pw, g3, -⟩ := Exn.bind_ok_iff.1 g
    obtain ⟨hw', g2'⟩ := packHeader_count hlen g2
    rw [g1]
    show (do
      let hw ← packDict listHeaderFmt (listHeader (listCipherKdf self.header).1 (listCipherKdf self.header).2 ob
        (I₁ ++ i :: I₂).length)
      let pw ← pubBytes self.pairs override (I₁ ++ i :: I₂)
      pure (hw ++ pw)) = _
    have g3' : pubBytes self.pairs override I₁ = .ok pw := g3
    rw [g2', pubBytes_out g3' hi']
    rfl
  show (Eff.lift (packFront self.pairs override (I₁ ++ i :: I₂) _ _ kc opts) >>= _).res = _
  rw [h4, Eff.lift_error_bind]
  rfl

example : Selects exList.pairs [-1, 0, 1] [⟨exPub, exRsaPriv⟩, ⟨exEdPub, exEd⟩, ⟨exPub, exRsaPriv⟩] :=
  .cons ⟨1, rfl, .inr (by decide)⟩ (.cons ⟨0, rfl, .inl rfl⟩ (.cons ⟨1, rfl, .inl rfl⟩ .nil))
example : (packKeyList toyCrypto exInputs exList none (some [0, 2]) false true).res = .error .indexError :=
  C33_out_of_range toyCrypto exInputs exList none [0] [] 2 false true
    (((packKeyList toyCrypto exInputs exList none (some [0]) false true).res.toOption).getD [])
    (.inr (by decide)) (by decide) (by decide +kernel)

/-! ### C35 -/

/-- The list says cipher `none` and key derivation function `bcrypt`. -/
def exClear : KeyList := { exList with
  header := some [(py! "cipher", .str (py! "none")), (py! "kdf", .str (py! "bcrypt"))] }

/-- **C35, violated.** With key derivation function `bcrypt` and cipher `none` the passphrase is asked for
and the options are written, but the private key appears in the packed bytes as it is. -/
theorem C35_false : ∃ (inp : Inputs) (self : KeyList) (w : Bytes) (p : Pair) (b : Bytes),
    Names self (py! "none") (py! "bcrypt") ∧ p ∈ self.pairs ∧ packPrivateBytes p.priv = .ok b ∧
    (packKeyList toyCrypto inp self none none false true).res = .ok w ∧
    .prompt ∈ (packKeyList toyCrypto inp self none none false true).log ∧ b <:+: w := by
  refine ⟨exInputs, exClear, ((packKeyList toyCrypto exInputs exClear none none false true).res.toOption).getD [],
    ⟨exPub, exRsaPriv⟩, ((packPrivateBytes exRsaPriv).toOption).getD [], names_iff.1 rfl, ?_, ?_, ?_, ?_, ?_⟩
  · exact List.mem_cons_of_mem _ List.mem_cons_self
  · decide +kernel
  · decide +kernel
  · decide +kernel
  · decide +kernel

/-- **C35**, partial. Missing: the cipher `none`, for which the claim is false (`C35_false`).  With any
other cipher, the key derivation function is `bcrypt`, and body and tag are the encryption of the private
section under the key derived from the passphrase that was given or entered. -/
theorem C35_sealed_partial {cr : Crypto} (hl : CryptoLaws cr) (inp : Inputs) (self : KeyList)
    (passphrase : Option Str) (indices : Option (List Int)) (override retain : Bool) (w : Bytes)
    (cipher kdf : Str) (hn : Names self cipher kdf) (hc : cipher ≠ py! "none")
    (h : (packKeyList cr inp self passphrase indices override retain).res = .ok w) :
    kdf = py! "bcrypt" ∧ ∃ f plain privs block pass salt rounds, KeyFile.Lays f w ∧ strOf f.cipher = cipher ∧
      Section inp.checkInt privs block plain ∧ Enters inp passphrase (strOf pass) ∧
      BcryptField salt rounds f.options ∧ Sealed cr f pass salt rounds plain := by
  obtain ⟨k⟩ := packKeyList_pack h
  have hn' := names_iff.2 hn
  rw [k.names] at hn'
  obtain ⟨h1, h2⟩ := Prod.mk.inj hn'
  have h1 := Val.str.inj h1
  have h2 := Val.str.inj h2
  rcases k.encloses hl with ⟨h3, -⟩ | ⟨h3, pass, salt, rounds, h4, h5, h6⟩
  · exact absurd (h1.symm.trans h3) hc
  · exact ⟨h2.symm.trans h3, k.f, k.plain, k.privs, k.cc.blockSize, pass, salt, rounds, k.lays, h1, k.section_,
      h4, h5, h6⟩

/-- **C35** (`none`). Without a key derivation function nothing is packed with any cipher but `none`. -/
theorem C35_none {cr : Crypto} (hl : CryptoLaws cr) (inp : Inputs) (self : KeyList)
    (passphrase : Option Str) (indices : Option (List Int)) (override retain : Bool)
    (cipher : Str) (hn : Names self cipher (py! "none")) (hc : cipher ≠ py! "none") :
    ∃ e, (packKeyList cr inp self passphrase indices override retain).res = .error e := by
  rcases h : (packKeyList cr inp self passphrase indices override retain).res with e | w
  · exact ⟨e, rfl⟩
  · have := (C35_sealed_partial hl inp self passphrase indices override retain w cipher _ hn hc h).1
    exact absurd this (by decide)

/-- A cipher without key derivation function; the exception is a `ValueError`. -/
def exNoKdf : KeyList := { exList with
  header := some [(py! "cipher", .str (py! "aes256-ctr")), (py! "kdf", .str (py! "none"))] }
example : (packKeyList toyCrypto exInputs exNoKdf none none false false).res =
    .error (.valueError "key") := by decide +kernel
example : Names exList (py! "aes256-ctr") (py! "bcrypt") := names_iff.1 rfl

/-! ### C37 -/

theorem at_unique {α β : Type} {R : α → β → Prop} {l : List α} {m : List β} (h : List.Forall₂ R l m) {i : Int}
    {a : α} {b : β} (ha : At l i a) (hb : At m i b) : R a b := by
  obtain ⟨n, hn, hi⟩ := ha
  obtain ⟨n', hn', hi'⟩ := hb
  have h1 := (List.getElem?_eq_some_iff.1 hn).1
  have h2 := (List.getElem?_eq_some_iff.1 hn').1
  have h3 := h.length_eq
  have : n = n' := by omega
  subst this
  have := h.get h1 h2
  simp only [List.get_eq_getElem] at this
  rwa [(List.getElem?_eq_some_iff.1 hn).2, (List.getElem?_eq_some_iff.1 hn').2] at this

theorem selection_forall {α β : Type} {R : α → β → Prop} {l : List α} {m : List β} (h : List.Forall₂ R l m)
    {I : Option (List Int)} {a : List α} {b : List β} (ha : Selection l I a) (hb : Selection m I b) :
    List.Forall₂ R a b := by
  cases I with
  | none => rw [show a = l from ha, show b = m from hb]; exact h
  | some I =>
    have ha' : List.Forall₂ (At l) I a := ha
    have hb' : List.Forall₂ (At m) I b := hb
    clear ha hb
    induction ha' generalizing b with
    | nil => cases hb'; exact .nil
    | cons h1 _ ih =>
      cases hb' with
      | cons h2 h3 => exact .cons (at_unique h h1 h2) (ih h3)

theorem fieldsIn_det {l : List Bytes} {x y : Bytes} (hx : FieldsIn l x) (hy : FieldsIn l y) : x = y := by
  induction l generalizing x y with
  | nil => rw [show x = [] from hx, show y = [] from hy]
  | cons b t ih =>
    obtain ⟨a1, r1, p1, q1, rfl⟩ := hx
    obtain ⟨a2, r2, p2, q2, rfl⟩ := hy
    rw [(prefixed_iff.1 p1).2, (prefixed_iff.1 p2).2, ih q1 q2]

theorem front_det {f f' : KeyFile} {x x' : Bytes} (h : f.Front x) (h' : f'.Front x') (h1 : f.cipher = f'.cipher)
    (h2 : f.kdf = f'.kdf) (h3 : f.options = f'.options) (h4 : f.pubs = f'.pubs) : x = x' := by
  obtain ⟨wc, wk, wo, wn, wp, a1, a2, a3, a4, a5, -, a6, rfl⟩ := h
  obtain ⟨wc', wk', wo', wn', wp', b1, b2, b3, b4, b5, -, b6, rfl⟩ := h'
  rw [h1] at a1
  rw [h2] at a2
  rw [h3] at a3
  rw [h4] at a5 a6
  rw [(prefixed_iff.1 a1).2, (prefixed_iff.1 a2).2, (prefixed_iff.1 a3).2, (prefixed_iff.1 b1).2,
    (prefixed_iff.1 b2).2, (prefixed_iff.1 b3).2, fieldsIn_det a6 b6,
    digitSum_inj (a4.trans b4.symm) (a5.trans b5.symm)]

/-- Two keys (of whatever kind) have the same type and the same values of the public fields of that type. -/
def Spec.AgreePublicly (ext : Ext) (k k' : Key) : Prop :=
  Constructed ext k ∧ Constructed ext k' ∧ ∃ t fields, dget k.header (py! "key_type") = some (.str t) ∧
    dget k'.header (py! "key_type") = some (.str t) ∧ publicFields t = some fields ∧
    ∀ n ∈ dkeys fields, dget k.params.data n = dget k'.params.data n

/-- **C37.** Pack two lists that say the same cipher and key derivation function, have the same options (and
would generate the same salt), and whose keys agree publicly, with the same selection.  Private values,
comments, passphrases, prompts, check numbers and cryptography may all differ.  Then everything before the
encrypted section is the same.  (The lists agree on the public keys that are written: those of the private
keys with `override_public_with_private`.) -/
theorem C37_front {ext : Ext} (cr cr' : Crypto) (inp inp' : Inputs) (self self' : KeyList)
    (passphrase passphrase' : Option Str) (indices : Option (List Int)) (override retain : Bool)
    (w w' : Bytes) (cipher kdf : Str) (hn : Names self cipher kdf) (hn' : Names self' cipher kdf)
    (ho : self.kdfOptions = self'.kdfOptions) (ht : inp.tokenBytes = inp'.tokenBytes)
    (hp : List.Forall₂ (fun (p q : Pair) => AgreePublicly ext (if override then p.priv else p.pub)
      (if override then q.priv else q.pub)) self.pairs self'.pairs)
    (h : (packKeyList cr inp self passphrase indices override retain).res = .ok w)
    (h' : (packKeyList cr' inp' self' passphrase' indices override retain).res = .ok w') :
    ∃ f f' front a a', KeyFile.Front f front ∧ KeyFile.Front f' front ∧ Prefixed 4 f.body a ∧ Prefixed 4 f'.body a' ∧
      w = front ++ a ++ f.tag ∧ w' = front ++ a' ++ f'.tag := by
  obtain ⟨k⟩ := packKeyList_pack h
  obtain ⟨k'⟩ := packKeyList_pack h'
  obtain ⟨front, a, h1, h2, h3⟩ := k.lays
  obtain ⟨front', a', h1', h2', h3'⟩ := k'.lays
  have e := k.names
  have e' := k'.names
  rw [names_iff.2 hn] at e
  rw [names_iff.2 hn'] at e'
  have ec : k.f.cipher = k'.f.cipher := strOf_inj (Val.str.inj ((Prod.mk.inj e).1.symm.trans (Prod.mk.inj e').1))
  have ek : k.f.kdf = k'.f.kdf := strOf_inj (Val.str.inj ((Prod.mk.inj e).2.symm.trans (Prod.mk.inj e').2))
  have ekc : k.kc = k'.kc := by
    have := k.kdf
    rw [ek, k'.kdf] at this
    exact (Except.ok.inj this).symm
  have eo : k.opts = k'.opts := by
    have h4 := k.choose
    have h5 := k'.choose
    have h6 : chooseKdfOptions inp self.kdfOptions (.str (strOf k.f.kdf)) retain =
        chooseKdfOptions inp' self'.kdfOptions (.str (strOf k'.f.kdf)) retain := by
      unfold chooseKdfOptions
      rw [ho, ek, ht]
    rw [h6, h5] at h4
    exact (Except.ok.inj h4).symm
  have eopt : k.f.options = k'.f.options := by
    have := k.options
    rw [ekc, eo, k'.options] at this
    exact (Except.ok.inj this).symm
  have epub : k.f.pubs = k'.f.pubs := by
    have hsel := selection_forall hp k.selection k'.selection
    have g := k.pubs
    have g' := k'.pubs
    generalize k.sel = s at *
    generalize k'.sel = s' at *
    generalize k.f.pubs = l at *
    generalize k'.f.pubs = l' at *
    clear h1 h1'
    induction hsel generalizing l l' with
    | nil => cases g; cases g'; rfl
    | cons q1 _ ih =>
      cases g with
      | cons p1 p2 =>
        cases g' with
        | cons p1' p2' =>
          obtain ⟨c1, c2, t, fields, t1, t2, t3, t4⟩ := q1
          have := C21_public_bytes_noninterference ext _ _ t fields c1 c2 t1 t2 t3 t4
          rw [p1, p1'] at this
          rw [Except.ok.inj this, ih _ p2 _ p2']
  have := front_det h1 h1' ec ek eopt epub
  subst this
  exact ⟨k.f, k'.f, front, a, a', h1, h1', h2, h2', h3, h3'⟩

/-- The same public keys with another private key and comment. -/
def exEd' : Key := ⟨.priv, exEd.header,
  ⟨.ed25519Priv, [(py! "public", .bytes [1, 2]), (py! "private_public", .bytes [8, 8, 8, 1, 2])]⟩,
  [(py! "comment", .str (py! "other"))], []⟩
def exList' : KeyList := { exList with pairs := [⟨exEdPub, exEd'⟩, ⟨exPub, exRsaPriv⟩] }
example : List.Forall₂ (fun (p q : Pair) => AgreePublicly exExt p.pub q.pub) exList.pairs exList'.pairs := by
  have h1 : Constructed exExt exEdPub := (exList_constructed ⟨exEdPub, exEd⟩ List.mem_cons_self).1
  have h2 : Constructed exExt exPub :=
    (exList_constructed ⟨exPub, exRsaPriv⟩ (List.mem_cons_of_mem _ List.mem_cons_self)).1
  exact .cons ⟨h1, h1, _, _, rfl, rfl, rfl, fun _ _ => rfl⟩ (.cons ⟨h2, h2, _, _, rfl, rfl, rfl, fun _ _ => rfl⟩ .nil)
example : (packKeyList toyCrypto { exInputs with checkInt := 5 } exList' (some (py! "q")) none false true).res.toOption.map
    (fun w => (decide (w.take 109 = exFile.take 109), decide (w.take 120 = exFile.take 120))) = some (true, false) := by decide +kernel

/-! ### C39 -/

theorem ListPack.kdfIs {cr : Crypto} {inp : Inputs} {self : KeyList} {passphrase : Option Str}
    {indices : Option (List Int)} {override retain : Bool} {w : Bytes}
    (k : ListPack cr inp self passphrase indices override retain w) {cipher kdf : Str}
    (hn : Names self cipher kdf) : strOf k.f.kdf = kdf := by
  have := k.names
  rw [names_iff.2 hn] at this
  exact (Val.str.inj (Prod.mk.inj this).2).symm

/-- **C39** (retained). With `retain_kdf_options_if_present` the salt and the rounds in the file are those
of the list. -/
theorem C39_retained (cr : Crypto) (inp : Inputs) (self : KeyList) (passphrase : Option Str)
    (indices : Option (List Int)) (override : Bool) (w : Bytes) (o : KdfOptions) (cipher : Str)
    (ho : self.kdfOptions = some o) (hn : Names self cipher (py! "bcrypt"))
    (h : (packKeyList cr inp self passphrase indices override true).res = .ok w) :
    ∃ f salt rounds, KeyFile.Lays f w ∧ dget o.data (py! "salt") = some (.bytes salt) ∧
      dget o.data (py! "rounds") = some (.int (rounds : Nat)) ∧ BcryptField salt rounds f.options := by
  obtain ⟨k⟩ := packKeyList_pack h
  have hb : k.kc = .bcrypt := by
    have := k.kdf
    rw [k.kdfIs hn] at this
    exact (Except.ok.inj this).symm
  have hch := k.choose
  rw [ho] at hch
  have hch : o.data = k.opts := Except.ok.inj hch
  have hopt := k.options
  rw [hb, ← hch] at hopt
  obtain ⟨salt, rounds, hd, hf⟩ := bcrypt_options hopt
  have e1 : dget (named (kdfFmt .bcrypt) o.data) (py! "salt") = some (.bytes salt) := by rw [hd]; rfl
  have e2 : dget (named (kdfFmt .bcrypt) o.data) (py! "rounds") = some (.int rounds) := by rw [hd]; rfl
  rw [dget_named, if_pos (by decide)] at e1 e2
  exact ⟨k.f, salt, rounds, k.lays, e1, e2, hf⟩

/-- **C39** (regenerated). Otherwise, or if the list has no options, the salt in the file is 16 random
bytes, and the rounds are 16. -/
theorem C39_fresh (cr : Crypto) (inp : Inputs) (self : KeyList) (passphrase : Option Str)
    (indices : Option (List Int)) (override retain : Bool) (w : Bytes) (cipher : Str)
    (hr : retain = false ∨ self.kdfOptions = none) (hn : Names self cipher (py! "bcrypt"))
    (h : (packKeyList cr inp self passphrase indices override retain).res = .ok w) :
    ∃ f, KeyFile.Lays f w ∧ BcryptField (inp.tokenBytes 16) 16 f.options := by
  obtain ⟨k⟩ := packKeyList_pack h
  have hb : k.kc = .bcrypt := by
    have := k.kdf
    rw [k.kdfIs hn] at this
    exact (Except.ok.inj this).symm
  have hch := k.choose
  rw [k.kdfIs hn] at hch
  have hgen : (chooseKdfOptions inp self.kdfOptions (.str (py! "bcrypt")) retain) =
      (do let o ← generateKdf inp.tokenBytes .bcrypt; pure o.data) := by
    unfold chooseKdfOptions
    rcases hr with rfl | hr
    · rfl
    · rw [hr]; cases retain <;> rfl
  rw [hgen] at hch
  have hch : (bcryptOptions (inp.tokenBytes 16) 16).data = k.opts := by
    obtain ⟨o, h1, h2⟩ := Eff.bind_res_ok_iff.1 hch
    unfold generateKdf newKdf at h1
    obtain ⟨-, -, h3⟩ := Eff.bind_res_ok_iff.1 h1
    rw [Eff.pure_res] at h2 h3
    rw [← Except.ok.inj h2, ← Except.ok.inj h3]
    rfl
  have hopt := k.options
  rw [hb, ← hch] at hopt
  obtain ⟨salt, rounds, hd, hf⟩ := bcrypt_options hopt
  have e1 : dget (named (kdfFmt .bcrypt) (bcryptOptions (inp.tokenBytes 16) 16).data) (py! "salt") =
      some (.bytes salt) := by rw [hd]; rfl
  have e2 : dget (named (kdfFmt .bcrypt) (bcryptOptions (inp.tokenBytes 16) 16).data) (py! "rounds") =
      some (.int rounds) := by rw [hd]; rfl
  rw [dget_named, if_pos (by decide)] at e1 e2
  have e1' : inp.tokenBytes 16 = salt := Val.bytes.inj (Option.some.inj e1)
  have e2' : (16 : Int) = rounds := Val.int.inj (Option.some.inj e2)
  have e2'' : 16 = rounds := by omega
  rw [e1', e2'']
  exact ⟨k.f, k.lays, hf⟩

theorem kdf_canonical (c : KdfCls) (r : Bytes) : CanonicalInts (kdfFmt c) r := by
  cases c
  · trivial
  · exact ⟨by simp, trivial⟩

/-- **C39** (parsed and packed). Whatever file was parsed, if the result is packed with
`retain_kdf_options_if_present`, then the new file has the same cipher and key derivation function, and the
same options (but for bytes after the options, which parsing ignores). -/
theorem C39_repacked (ext : Ext) (cr cr' : Crypto) (inp inp' : Inputs) (b : Bytes)
    (passphrase passphrase' : Option Str) (indices : Option (List Int)) (override : Bool) (kl : KeyList) (w : Bytes)
    (h : (listFromBytes ext cr inp b passphrase).res = .ok kl)
    (h' : (packKeyList cr' inp' kl passphrase' indices override true).res = .ok w) :
    ∃ f v post f', b = v ++ post ∧ KeyFile.Lays f v ∧ KeyFile.Lays f' w ∧ f'.cipher = f.cipher ∧ f'.kdf = f.kdf ∧
      f'.options <+: f.options ∧ (strOf f.kdf = py! "bcrypt" → ∃ salt rounds, BcryptField salt rounds f'.options) := by
  obtain ⟨p⟩ := listFromBytes_parse h
  obtain ⟨k⟩ := packKeyList_pack h'
  have hh : kl.header = some (fileHeader p.f) := congrArg KeyList.header p.list
  have ho : kl.kdfOptions = some ⟨p.kc, p.od⟩ := congrArg KeyList.kdfOptions p.list
  have hn := k.names
  rw [hh] at hn
  have hn : (Val.str (strOf p.f.cipher), Val.str (strOf p.f.kdf)) = (.str (strOf k.f.cipher), .str (strOf k.f.kdf)) :=
    hn
  have ec := strOf_inj (Val.str.inj (Prod.mk.inj hn).1)
  have ek := strOf_inj (Val.str.inj (Prod.mk.inj hn).2)
  have ekc : p.kc = k.kc := by
    have := p.kdf
    rw [ek, k.kdf] at this
    exact (Except.ok.inj this).symm
  have hch := k.choose
  rw [ho] at hch
  have hch : p.od = k.opts := Except.ok.inj hch
  have hopt := k.options
  rw [← ekc, ← hch] at hopt
  refine ⟨p.f, p.w, p.post, k.f, p.input, p.lays, k.lays, ec.symm, ek.symm, ?_, ?_⟩
  · rcases packDict_read_plain (plain_kdf p.kc) p.options with ⟨h1, -⟩ | ⟨w', h1, -, -, h2⟩
    · rw [hopt] at h1; cases h1
    · rw [hopt] at h1
      rw [Except.ok.inj h1, h2 (kdf_canonical _ _)]
      exact List.take_prefix _ _
  · intro hk
    have hb : p.kc = .bcrypt := by
      have := p.kdf
      rw [hk] at this
      exact (Except.ok.inj this).symm
    rw [hb] at hopt
    obtain ⟨salt, rounds, -, hf⟩ := bcrypt_options hopt
    exact ⟨salt, rounds, hf⟩

/-- **C39, violated.** A list made by `from_list` with key derivation function `bcrypt` and without options
cannot be packed with `retain_kdf_options_if_present`: it has the options of `none`, and `KeyError` is
raised. -/
theorem C39_false : ∃ (inp : Inputs) (pairs : List Pair) (cipher : Str),
    (packKeyList toyCrypto inp (listFromList pairs cipher (py! "bcrypt") none) none none false false).res.toOption.isSome
      = true ∧
    (packKeyList toyCrypto inp (listFromList pairs cipher (py! "bcrypt") none) none none false true).res =
      .error (.keyError (some (py! "salt"))) :=
  ⟨exInputs, exList.pairs, py! "aes256-ctr", by decide +kernel, by decide +kernel⟩

/-- **C39** (`from_list`), partial. Missing: the case of `C39_false`.  A list made without options packs, if
the options are not to be retained, as it would with any options; and if the key derivation function is
`none`, also if they are to be retained. -/
theorem C39_from_list_partial (cr : Crypto) (inp : Inputs) (pairs : List Pair) (cipher kdf : Str)
    (o : Option KdfOptions) (passphrase : Option Str) (indices : Option (List Int)) (override : Bool) :
    packKeyList cr inp (listFromList pairs cipher kdf none) passphrase indices override false =
      packKeyList cr inp (listFromList pairs cipher kdf o) passphrase indices override false ∧
    (kdf = py! "none" → packKeyList cr inp (listFromList pairs cipher kdf none) passphrase indices override true =
      packKeyList cr inp (listFromList pairs cipher kdf o) passphrase indices override false) := by
  have hn : ∀ o, listCipherKdf (listFromList pairs cipher kdf o).header = (.str cipher, .str kdf) := fun _ => rfl
  refine ⟨?_, ?_⟩
  · rw [packKeyList_eq cr inp _ passphrase indices override false (hn none) rfl,
      packKeyList_eq cr inp _ passphrase indices override false (hn o) rfl]
    rfl
  · rintro rfl
    rw [packKeyList_eq cr inp _ passphrase indices override true (hn none) rfl,
      packKeyList_eq cr inp _ passphrase indices override false (hn o) rfl]
    rfl

end OSK
