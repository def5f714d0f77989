import Verif.Lemmas.ListParse
import Verif.Lemmas.KeyExn
/-
Properties C27, C30, C38, C40 and the parsing sides of C31, C32 and C34: `PrivateKeyList.from_bytes`.
-/
namespace OSK
open Spec

/-! ### Examples used below -/

def exPub : Key := ⟨.pub, exRsaHeader, ⟨.rsaPub, [(py! "e", .int 17), (py! "n", .int 3233)]⟩, [], []⟩
def exEdPub : Key := ⟨.pub, [(py! "key_type", .str (py! "ssh-ed25519"))],
  ⟨.ed25519Pub, [(py! "public", .bytes [1, 2])]⟩, [], []⟩
def exInputs : Inputs := ⟨.ok (py! "pw"), 12345, fun n => List.replicate n 7⟩
/-- Two pairs, to be encrypted. -/
def exList : KeyList := listFromList [⟨exEdPub, exEd⟩, ⟨exPub, exRsaPriv⟩] (py! "aes256-ctr") (py! "bcrypt")
  (some (bcryptOptions [1, 2, 3] 16))
/-- A pair of keys that do not belong together, not to be encrypted. -/
def exOddList : KeyList := listFromList [⟨exPub, exEd⟩, ⟨exPub, exRsaPriv⟩] (py! "none") (py! "none") none

/-- The packed example. -/
def exFile : Bytes :=
  ((packKeyList toyCrypto exInputs exList none none false true).res.toOption).getD []
def exOddFile : Bytes :=
  ((packKeyList toyCrypto exInputs exOddList none none false true).res.toOption).getD []

/-- Whether a parse succeeded. -/
def parses (b : Bytes) (p : Option Str) : Bool :=
  (listFromBytes exExt toyCrypto exInputs b p).res.toOption.isSome

/-! ### C27 -/

/-- **C27.** Whatever the bytes, the passphrase and the outcome of the cryptographic functions,
`from_bytes` returns or raises `ValueError` (or a subclass). -/
theorem C27_only_value_error (ext : Ext) (cr : Crypto) (inp : Inputs) (b : Bytes) (passphrase : Option Str)
    (e : Exn) (h : (listFromBytes ext cr inp b passphrase).res = .error e) : e.isValueError = true := by
  unfold listFromBytes Eff.tryCatch at h
  split at h
  · rename_i a ha; rw [ha] at h; cases h
  · rename_i e' he
    simp only [Eff.throw_res, Except.error.injEq] at h
    subst h
    unfold listExcept
    split
    · assumption
    · split <;> rfl

/-- Both outcomes occur; the errors come from an end of file, an unknown name and a wrong passphrase. -/
example : parses exFile none = true ∧ parses exFile (some (py! "pw")) = true ∧
    parses exFile (some (py! "wrong")) = false ∧ parses (exFile.take 40) none = false := by decide +kernel

/-! ### C30 -/

/-- **C30.** Bytes after a file that parses change nothing except the recorded input. -/
theorem C30_suffix (ext : Ext) (cr : Crypto) (inp : Inputs) (b post : Bytes) (passphrase : Option Str)
    (kl : KeyList) (h : (listFromBytes ext cr inp b passphrase).res = .ok kl) :
    (listFromBytes ext cr inp (b ++ post) passphrase).res = .ok { kl with byteString := some (b ++ post) } ∧
    (listFromBytes ext cr inp (b ++ post) passphrase).log = (listFromBytes ext cr inp b passphrase).log ∧
    kl.byteString = some b := by
  rw [listFromBytes_body] at h
  have hlb := listFromBytes_of_ok h
  obtain ⟨f, w, post', kc, cc, rfl, hf, hk, hc, ht⟩ := listFromBytesBody_ok h
  have e1 := listFromBytesBody_eq ext cr inp passphrase hf hk hc ht post'
  have e2 := listFromBytesBody_eq ext cr inp passphrase hf hk hc ht (post' ++ post)
  rw [← List.append_assoc] at e2
  have key : ∀ b' kl, (parseFields ext cr inp passphrase f kc cc (w ++ post')).res = .ok kl →
      (parseFields ext cr inp passphrase f kc cc b').res = .ok { kl with byteString := some b' } ∧
      (parseFields ext cr inp passphrase f kc cc b').log =
        (parseFields ext cr inp passphrase f kc cc (w ++ post')).log ∧
      kl.byteString = some (w ++ post') := by
    intro b' kl hkl
    unfold parseFields at hkl ⊢
    obtain ⟨ks, h1, hkl⟩ := Eff.bind_res_ok_iff.1 hkl
    obtain ⟨⟨od, s1⟩, h2, hkl⟩ := Eff.bind_res_ok_iff.1 hkl
    obtain ⟨o, h3, hkl⟩ := Eff.bind_res_ok_iff.1 hkl
    obtain ⟨p, h4, hkl⟩ := Eff.bind_res_ok_iff.1 hkl
    obtain ⟨o', h5, hkl⟩ := Eff.bind_res_ok_iff.1 hkl
    obtain ⟨pl, h6, hkl⟩ := Eff.bind_res_ok_iff.1 hkl
    obtain ⟨⟨ps, dh, pad⟩, h7, hkl⟩ := Eff.bind_res_ok_iff.1 hkl
    simp only [Eff.pure_res, Except.ok.injEq] at hkl
    subst hkl
    simp only [Eff.bind_ok h1, Eff.bind_ok h2, Eff.bind_ok h3, Eff.bind_ok h4, Eff.bind_ok h5,
      Eff.bind_ok h6, Eff.bind_ok h7, Eff.pure_res, Eff.pure_log, and_self]
  rw [e1] at h hlb
  obtain ⟨k1, k2, k3⟩ := key (w ++ post' ++ post) kl h
  rw [← e2] at k1 k2
  rw [listFromBytes_of_ok k1, hlb]
  exact ⟨k1, k2, k3⟩

example : (listFromBytes exExt toyCrypto exInputs (exFile ++ [1, 2, 3]) none).res.toOption.isSome = true := by
  decide +kernel

/-! ### C38 -/

/-- **C38** (magic). A byte string that does not start with the 15 magic bytes raises `ValueError`. -/
theorem C38_magic (ext : Ext) (cr : Crypto) (inp : Inputs) (b : Bytes) (passphrase : Option Str)
    (h : ¬ magic <+: b) :
    ∃ e, (listFromBytes ext cr inp b passphrase).res = .error e ∧ e.isValueError = true := by
  rcases hr : (listFromBytes ext cr inp b passphrase).res with e | kl
  · exact ⟨e, rfl, C27_only_value_error ext cr inp b passphrase e hr⟩
  · obtain ⟨p⟩ := listFromBytes_parse hr
    obtain ⟨front, wb, ⟨wc, wk, wo, wn, wp, -, -, -, -, -, -, -, rfl⟩, -, hw⟩ := p.lays
    exfalso
    apply h
    rw [p.input, hw]
    simp only [List.append_assoc]
    exact List.prefix_append _ _

/-- **C38** (negative count). A byte string that declares a negative number of keys raises `ValueError`. -/
theorem C38_negative (ext : Ext) (cr : Crypto) (inp : Inputs) (passphrase : Option Str)
    (cipher kdf options wc wk wo wn rest : Bytes) (hc : Prefixed 4 cipher wc) (hk : Prefixed 4 kdf wk)
    (ho : Prefixed 4 options wo) (hn : wn.length = 4) (hneg : tcVal wn < 0) :
    ∃ e, (listFromBytes ext cr inp (magic ++ wc ++ wk ++ wo ++ wn ++ rest) passphrase).res = .error e ∧
      e.isValueError = true := by
  rcases hr : (listFromBytes ext cr inp (magic ++ wc ++ wk ++ wo ++ wn ++ rest) passphrase).res with e | kl
  · exact ⟨e, rfl, C27_only_value_error ext cr inp _ passphrase e hr⟩
  · obtain ⟨p⟩ := listFromBytes_parse hr
    obtain ⟨front, wb, ⟨wc', wk', wo', wn', wp, h1, h2, h3, h4, h5, h6, -, rfl⟩, -, hw⟩ := p.lays
    exfalso
    have e := p.input
    rw [hw] at e
    simp only [List.append_assoc] at e
    obtain ⟨-, -, e⟩ := prefixed_unique hc h1 (List.append_cancel_left e)
    obtain ⟨-, -, e⟩ := prefixed_unique hk h2 e
    obtain ⟨-, -, e⟩ := prefixed_unique ho h3 e
    obtain ⟨rfl, -⟩ := List.append_inj e (by omega)
    rw [tcVal_eq, beInt_eq] at hneg
    rw [digitSum_eq] at h5
    rw [hn] at hneg
    split at hneg <;> omega

/-- **C38** (count). A list that was parsed has exactly the declared number of pairs. -/
theorem C38_count (ext : Ext) (cr : Crypto) (inp : Inputs) (b : Bytes) (passphrase : Option Str)
    (kl : KeyList) (h : (listFromBytes ext cr inp b passphrase).res = .ok kl) :
    ∃ cipher kdf options wc wk wo wn rest, Prefixed 4 cipher wc ∧ Prefixed 4 kdf wk ∧ Prefixed 4 options wo ∧
      wn.length = 4 ∧ b = magic ++ wc ++ wk ++ wo ++ wn ++ rest ∧ (kl.pairs.length : Int) = tcVal wn := by
  obtain ⟨p⟩ := listFromBytes_parse h
  obtain ⟨front, wb, ⟨wc, wk, wo, wn, wp, h1, h2, h3, h4, h5, h6, -, rfl⟩, -, hw⟩ := p.lays
  refine ⟨_, _, _, wc, wk, wo, wn, wp ++ wb ++ p.f.tag ++ p.post, h1, h2, h3, h4, ?_, ?_⟩
  · refine p.input.trans ?_
    rw [hw]; simp
  · have e1 : kl.pairs.length = p.f.pubs.length := by
      rw [p.pubs.length_eq, ← p.pairs, List.length_map]
    rw [e1, tcVal_eq, beInt_eq, ← h5, digitSum_eq, if_neg]
    rintro ⟨-, hh⟩
    rw [h4] at hh
    rw [digitSum_eq] at h5
    omega

/-- The magic with one bit changed; a count of -1. -/
example : parses (110 :: exFile.drop 1) none = false := by decide +kernel
example : parses (exOddFile.take 35 ++ [255, 255, 255, 255] ++ exOddFile.drop 39) none = false := by
  decide +kernel
example : (exOddFile.drop 35).take 4 = [0, 0, 0, 2] ∧ tcVal [255, 255, 255, 255] < 0 := by decide +kernel
example : ((listFromBytes exExt toyCrypto exInputs exOddFile none).res.toOption.map
    (fun kl => kl.pairs.length)) = some 2 := by decide +kernel

/-! ### Events of single keys -/

theorem keyEvents {ext : Ext} {kind : Kind} {b : Bytes} {v : Event} (h : v ∈ (fromBytes ext kind b none).log) :
    KeyEvent v := (fromBytes_within ext kind b none).ev v h

theorem pairWarnings_events {i : Nat} {p : Pair} {v : Event} (h : v ∈ pairWarnings i p) :
    (v = .warn (.pairTypeMismatch i) ∧ TypesDiffer p) ∨ (v = .warn (.pairValueMismatch i) ∧ ValuesDiffer p) := by
  unfold pairWarnings at h
  rw [List.mem_append] at h
  rcases h with h | h
  · split at h
    · exact .inl ⟨by simpa using h, by assumption⟩
    · simp at h
  · split at h
    · exact .inr ⟨by simpa using h, by assumption⟩
    · simp at h

theorem mem_pairWarnings_type {i j : Nat} {p : Pair} :
    .warn (.pairTypeMismatch j) ∈ pairWarnings i p ↔ i = j ∧ TypesDiffer p := by
  unfold pairWarnings
  by_cases h : TypesDiffer p <;> by_cases h2 : ValuesDiffer p <;> simp [h, h2, eq_comm]

theorem mem_pairWarnings_value {i j : Nat} {p : Pair} :
    .warn (.pairValueMismatch j) ∈ pairWarnings i p ↔ i = j ∧ ValuesDiffer p := by
  unfold pairWarnings
  by_cases h : TypesDiffer p <;> by_cases h2 : ValuesDiffer p <;> simp [h, h2, eq_comm]

theorem mem_pairsLog {ext : Ext} {i : Nat} {ps : List Pair} {ws : List Bytes} (hk : KeysAt ext ps ws)
    {v : Event} (hv : ¬ KeyEvent v) :
    v ∈ pairsLog ext i ps ws ↔ ∃ j p, ps[j]? = some p ∧ v ∈ pairWarnings (i + j) p := by
  induction ps generalizing i ws with
  | nil => simp [pairsLog]
  | cons p ps ih =>
    obtain ⟨w, t, rfl, -, -, hk⟩ := hk
    simp only [pairsLog, List.mem_append, ih hk]
    constructor
    · rintro ((h | h) | ⟨j, q, hq, h⟩)
      · exact absurd (keyEvents h) hv
      · exact ⟨0, p, rfl, h⟩
      · exact ⟨j + 1, q, by simpa using hq, by rw [show i + (j + 1) = i + 1 + j by omega]; exact h⟩
    · rintro ⟨j, q, hq, h⟩
      cases j with
      | zero =>
        simp at hq; subst hq
        exact .inl (.inr h)
      | succ j => exact .inr ⟨j, q, by simpa using hq, by rw [show i + 1 + j = i + (j + 1) by omega]; exact h⟩

theorem mem_flatMap_keys {ext : Ext} {bs : List Bytes} {v : Event} (hv : ¬ KeyEvent v) :
    v ∉ bs.flatMap (fun b => (fromBytes ext .pub b none).log) := by
  intro h
  obtain ⟨b, -, h⟩ := List.mem_flatMap.1 h
  exact hv (keyEvents h)

theorem choosePassphrase_log (inp : Inputs) (isNone : Bool) (p : Option Str) :
    (choosePassphrase inp isNone p).log = if isNone = false ∧ p = none then [.prompt] else [] := by
  unfold choosePassphrase getpass
  cases isNone <;> cases p <;> simp

theorem ListParse.mem_log {ext : Ext} {cr : Crypto} {inp : Inputs} {passphrase : Option Str} {b : Bytes}
    {kl : KeyList} (p : ListParse ext cr inp passphrase b kl) {v : Event} (hv : ¬ KeyEvent v) :
    v ∈ (listFromBytes ext cr inp b passphrase).log ↔
      (v = .prompt ∧ p.kc ≠ .none ∧ passphrase = none) ∨ (v = .warn .checkNumbers ∧ p.c1 ≠ p.c2) ∨
      (∃ j q, kl.pairs[j]? = some q ∧ v ∈ pairWarnings j q) ∨
      (v = .warn .padding ∧ ¬ GoodPadding p.cc.blockSize p.plain p.pad) := by
  rw [p.log]
  simp only [List.mem_append, choosePassphrase_log, mem_pairsLog p.keys hv, Nat.zero_add, padWarnings]
  have h1 := mem_flatMap_keys (ext := ext) (bs := p.f.pubs) hv
  simp only [h1, false_or]
  by_cases h2 : p.kc = .none <;> by_cases h3 : passphrase = none <;> by_cases h4 : p.c1 = p.c2 <;>
    by_cases h5 : GoodPadding p.cc.blockSize p.plain p.pad <;> simp [h2, h3, h4, h5, or_assoc]

/-! ### C31, C32 -/

/-- **C31** (parsing). In a list that was parsed, the decrypted bytes are 8 bytes, the bytes of the private
keys, and the padding; the padding warning is emitted exactly if the decrypted length is not a multiple
of the cipher's block size or the padding is not an initial segment of `1, 2, …, block size`. -/
theorem C31_padding_warning (ext : Ext) (cr : Crypto) (inp : Inputs) (b : Bytes) (passphrase : Option Str)
    (kl : KeyList) (h : (listFromBytes ext cr inp b passphrase).res = .ok kl) :
    ∃ cipher header block tag plain pad nums ws, kl.header = some header ∧
      dget header (py! "cipher") = some (.str cipher) ∧ cipherSizes cipher = some (block, tag) ∧
      kl.decipherBytes = some plain ∧ kl.decipherPadding = some pad ∧
      nums.length = 8 ∧ plain = nums ++ ws.flatten ++ pad ∧ KeysAt ext kl.pairs ws ∧
      (.warn .padding ∈ (listFromBytes ext cr inp b passphrase).log ↔ ¬ GoodPadding block plain pad) := by
  obtain ⟨p⟩ := listFromBytes_parse h
  refine ⟨strOf p.f.cipher, fileHeader p.f, p.cc.blockSize, p.cc.tagLength, p.plain, p.pad, p.c1 ++ p.c2,
    p.ws, congrArg KeyList.header p.list, rfl, cipher_sizes p.cipher,
    congrArg KeyList.decipherBytes p.list, congrArg KeyList.decipherPadding p.list,
    by simp [p.len1, p.len2], p.split, p.keys, ?_⟩
  rw [p.mem_log (by exact not_false)]
  simp only [reduceCtorEq, false_and, false_or, true_and, Event.warn.injEq, or_iff_right_iff_imp]
  rintro ⟨j, q, -, h⟩
  · rcases pairWarnings_events h with ⟨h, -⟩ | ⟨h, -⟩ <;> simp at h

/-- **C32** (parsing). The check number warning is emitted exactly if the first four decrypted bytes differ
from the second four. -/
theorem C32_check_warning (ext : Ext) (cr : Crypto) (inp : Inputs) (b : Bytes) (passphrase : Option Str)
    (kl : KeyList) (h : (listFromBytes ext cr inp b passphrase).res = .ok kl) :
    ∃ plain, kl.decipherBytes = some plain ∧ 8 ≤ plain.length ∧
      (.warn .checkNumbers ∈ (listFromBytes ext cr inp b passphrase).log ↔
        plain.take 4 ≠ (plain.drop 4).take 4) := by
  obtain ⟨p⟩ := listFromBytes_parse h
  have l1 := p.len1
  have l2 := p.len2
  refine ⟨p.plain, congrArg KeyList.decipherBytes p.list, by rw [p.split]; simp; omega, ?_⟩
  have e1 : p.plain.take 4 = p.c1 := by
    rw [p.split, List.append_assoc, List.append_assoc, ← l1, List.take_left]
  have e2 : (p.plain.drop 4).take 4 = p.c2 := by
    rw [p.split, List.append_assoc, List.append_assoc, ← l1, List.drop_left, l1, ← l2, List.take_left]
  rw [p.mem_log (by exact not_false), e1, e2]
  simp only [reduceCtorEq, false_and, false_or, true_and, or_false, Event.warn.injEq,
    or_iff_left_iff_imp]
  rintro ⟨j, q, -, h⟩
  rcases pairWarnings_events h with ⟨h, -⟩ | ⟨h, -⟩ <;> simp at h

/-- A wrong padding byte (191 is the length); a wrong check number (they begin at 95). -/
example : (listFromBytes exExt toyCrypto exInputs (exOddFile.take 190 ++ [9]) none).log.contains
    (.warn .padding) = true := by decide +kernel
example : (listFromBytes exExt toyCrypto exInputs exOddFile none).log.contains (.warn .padding) = false ∧
    (listFromBytes exExt toyCrypto exInputs exOddFile none).log.contains (.warn .checkNumbers) = false := by
  decide +kernel
example : (listFromBytes exExt toyCrypto exInputs (exOddFile.take 98 ++ [9] ++ exOddFile.drop 99) none).log.contains
    (.warn .checkNumbers) = true := by decide +kernel

/-! ### C40 -/

/-- **C40.** For every index `i`: parsing warns that the key types of pair `i` differ exactly if they do,
and that values differ exactly if some parameter that both have has different values. -/
theorem C40_pair_warnings (ext : Ext) (cr : Crypto) (inp : Inputs) (b : Bytes) (passphrase : Option Str)
    (kl : KeyList) (h : (listFromBytes ext cr inp b passphrase).res = .ok kl) (i : Nat) :
    (.warn (.pairTypeMismatch i) ∈ (listFromBytes ext cr inp b passphrase).log ↔
      ∃ p, kl.pairs[i]? = some p ∧ TypesDiffer p) ∧
    (.warn (.pairValueMismatch i) ∈ (listFromBytes ext cr inp b passphrase).log ↔
      ∃ p, kl.pairs[i]? = some p ∧ ValuesDiffer p) := by
  obtain ⟨p⟩ := listFromBytes_parse h
  rw [p.mem_log (by exact not_false), p.mem_log (by exact not_false)]
  simp only [reduceCtorEq, false_and, false_or, or_false, Event.warn.injEq, mem_pairWarnings_type,
    mem_pairWarnings_value]
  constructor
  · constructor
    · rintro ⟨j, q, hq, rfl, ht⟩; exact ⟨q, hq, ht⟩
    · rintro ⟨q, hq, ht⟩; exact ⟨i, q, hq, rfl, ht⟩
  · constructor
    · rintro ⟨j, q, hq, rfl, ht⟩; exact ⟨q, hq, ht⟩
    · rintro ⟨q, hq, ht⟩; exact ⟨i, q, hq, rfl, ht⟩

/-- An RSA public key with an Ed25519 private key, then a consistent pair. -/
example : (listFromBytes exExt toyCrypto exInputs exOddFile none).log.filter
    (fun v => v = .warn (.pairTypeMismatch 0) ∨ v = .warn (.pairTypeMismatch 1) ∨
      v = .warn (.pairValueMismatch 0) ∨ v = .warn (.pairValueMismatch 1)) =
    [.warn (.pairTypeMismatch 0)] := by decide +kernel

/-! ### C34 -/

/-- At most `n` prompts. -/
def Prompts {α : Type} (n : Nat) (x : Eff α) : Prop := x.log.count .prompt ≤ n

theorem Prompts.bind {α β : Type} {n m : Nat} {x : Eff α} {f : α → Eff β} (hx : Prompts n x)
    (hf : ∀ a, Prompts m (f a)) : Prompts (n + m) (x >>= f) := by
  unfold Prompts at *
  rcases h : x.res with e | a
  · rw [Eff.bind_error h]; simp only; omega
  · rw [Eff.bind_ok h]
    simp only [List.count_append]
    have := hf a
    omega

theorem Prompts.bind0 {α β : Type} {n : Nat} {x : Eff α} {f : α → Eff β} (hx : Prompts 0 x)
    (hf : ∀ a, Prompts n (f a)) : Prompts n (x >>= f) := by
  have := hx.bind hf
  rwa [Nat.zero_add] at this

theorem Prompts.pure {α : Type} (a : α) : Prompts 0 (pure a : Eff α) := by simp [Prompts]
theorem Prompts.lift {α : Type} (r : Except Exn α) : Prompts 0 (Eff.lift r) := by simp [Prompts]
theorem Prompts.throw {α : Type} {n : Nat} (e : Exn) : Prompts n (Eff.throw e : Eff α) := by simp [Prompts]
theorem Prompts.warn (w : Warning) : Prompts 0 (Eff.warn w) := by simp [Prompts]

theorem Prompts.within {α : Type} {P : Exn → Prop} {x : Eff α} (h : Within P KeyEvent x) : Prompts 0 x := by
  unfold Prompts
  rw [Nat.le_zero, List.count_eq_zero]
  exact fun hm => h.ev _ hm

theorem Prompts.onStream {α : Type} (x : SM α) (s : Stream) : Prompts 0 (onStream x s) := by
  unfold OSK.onStream Prompts
  rcases x s with ⟨e | a, s'⟩ <;> simp

theorem Prompts.readPublicKeys (ext : Ext) (n : Nat) (s : Stream) : Prompts 0 (readPublicKeys ext n s) := by
  induction n generalizing s with
  | zero => exact Prompts.pure _
  | succ n ih =>
    exact (Prompts.onStream _ _).bind0 fun a => (Prompts.lift _).bind0 fun b =>
      (Prompts.within (fromBytes_within ext .pub b none)).bind0 fun k => (ih a.2).bind0 fun _ => Prompts.pure _

theorem newKdf_prompts (c : KdfCls) (d : VDict) : Prompts 0 (newKdf c d) :=
  (Prompts.within (checkDict_within (P := fun _ => True) (plain_kdf c) d)).bind0 fun _ => Prompts.pure _

theorem Prompts.fromByteStream (ext : Ext) (s : Stream) : Prompts 0 (fromByteStream ext .priv none s).1 := by
  unfold OSK.fromByteStream fromByteStreamWith
  rcases readKey .priv s with ⟨e | ⟨h, p, f⟩, s'⟩
  · exact Prompts.throw _
  · exact Prompts.within (mkKey_within ext .priv h p f none)

theorem Prompts.readPairs (ext : Ext) (ks : List Key) (i : Nat) (s : Stream) :
    Prompts 0 (readPairs ext ks i s) := by
  induction ks generalizing i s with
  | nil => exact Prompts.pure _
  | cons k ks ih =>
    refine (Prompts.fromByteStream ext s).bind0 fun priv => Prompts.bind0 ?_ fun _ => Prompts.bind0 ?_ fun _ =>
      (ih _ _).bind0 fun _ => Prompts.pure _
    · refine (Prompts.lift _).bind0 fun _ => (Prompts.lift _).bind0 fun _ => ?_
      split
      · exact Prompts.warn _
      · exact Prompts.pure _
    · unfold checkPairValues
      split
      · exact Prompts.warn _
      · exact Prompts.pure _

theorem Prompts.readPrivateSection (ext : Ext) (c : CipherCls) (ks : List Key) (plain : Bytes) :
    Prompts 0 (readPrivateSection ext c ks plain) := by
  refine (Prompts.onStream _ _).bind0 fun a => Prompts.bind0 ?_ fun _ => (Prompts.readPairs ext ks _ _).bind0 fun _ =>
    (Prompts.onStream _ _).bind0 fun _ => Prompts.bind0 ?_ fun _ => Prompts.pure _
  · refine (Prompts.lift _).bind0 fun _ => (Prompts.lift _).bind0 fun _ => ?_
    split
    · exact Prompts.warn _
    · exact Prompts.pure _
  · unfold checkPadding
    split
    · exact Prompts.warn _
    · exact Prompts.pure _

theorem Prompts.body {ext : Ext} {cr : Crypto} {inp : Inputs} {b : Bytes} {passphrase : Option Str} {n : Nat}
    (hch : ∀ kc, Prompts n (choosePassphrase inp kc passphrase)) :
    Prompts n (listFromBytesBody ext cr inp b passphrase) := by
  unfold listFromBytesBody
  refine (Prompts.onStream _ _).bind0 fun _ => (Prompts.lift _).bind0 fun _ => ?_
  split
  · exact Prompts.throw _
  refine (Prompts.lift _).bind0 fun _ => (Prompts.lift _).bind0 fun _ => ?_
  split
  · exact Prompts.throw _
  refine (Prompts.readPublicKeys _ _ _).bind0 fun _ => (Prompts.onStream _ _).bind0 fun _ =>
    (Prompts.lift _).bind0 fun _ => (Prompts.lift _).bind0 fun _ => (Prompts.lift _).bind0 fun _ =>
    (Prompts.lift _).bind0 fun _ => (Prompts.lift _).bind0 fun _ => (Prompts.onStream _ _).bind0 fun _ =>
    (newKdf_prompts _ _).bind0 fun _ => (Prompts.lift _).bind0 fun _ => (Prompts.lift _).bind0 fun _ =>
    Prompts.bind (m := 0) (hch _) fun _ => Prompts.bind0 ?_ fun _ => (newKdf_prompts _ _).bind0 fun _ =>
    (Prompts.lift _).bind0 fun _ => (Prompts.readPrivateSection _ _ _ _).bind0 fun _ => Prompts.pure _
  unfold readTag
  split
  · exact (Prompts.onStream _ _).bind0 fun _ => Prompts.pure _
  · exact Prompts.pure _

theorem Prompts.list {ext : Ext} {cr : Crypto} {inp : Inputs} {b : Bytes} {passphrase : Option Str} {n : Nat}
    (h : Prompts n (listFromBytesBody ext cr inp b passphrase)) :
    Prompts n (listFromBytes ext cr inp b passphrase) := by
  unfold Prompts listFromBytes Eff.tryCatch at *
  split
  · exact h
  · simpa using h

/-- **C34** (parsing, prompts). Whatever the outcome, there is at most one prompt, and none if a passphrase
was given. -/
theorem C34_parse_prompts (ext : Ext) (cr : Crypto) (inp : Inputs) (b : Bytes) (passphrase : Option Str) :
    (listFromBytes ext cr inp b passphrase).log.count .prompt ≤ 1 ∧
    (passphrase ≠ none → .prompt ∉ (listFromBytes ext cr inp b passphrase).log) := by
  constructor
  · apply Prompts.list
    apply Prompts.body
    intro kc
    unfold Prompts
    rw [choosePassphrase_log]
    split <;> simp
  · intro hp
    rw [← List.count_eq_zero, ← Nat.le_zero]
    apply Prompts.list
    apply Prompts.body
    intro kc
    unfold Prompts
    rw [choosePassphrase_log]
    simp [hp]

/-- **C34** (parsing, exactly when). For a file that parses: it was prompted exactly if the key derivation
function is not `none` and no passphrase was given. -/
theorem C34_parse_prompts_iff (ext : Ext) (cr : Crypto) (inp : Inputs) (b : Bytes) (passphrase : Option Str)
    (kl : KeyList) (h : (listFromBytes ext cr inp b passphrase).res = .ok kl) :
    ∃ header kdf, kl.header = some header ∧ dget header (py! "kdf") = some kdf ∧
      (.prompt ∈ (listFromBytes ext cr inp b passphrase).log ↔ kdf ≠ .str (py! "none") ∧ passphrase = none) := by
  obtain ⟨p⟩ := listFromBytes_parse h
  refine ⟨fileHeader p.f, .str (strOf p.f.kdf), congrArg KeyList.header p.list, rfl, ?_⟩
  rw [p.mem_log (by exact not_false)]
  have e : p.kc = .none ↔ Val.str (strOf p.f.kdf) = .str (py! "none") := by
    have hk := p.kdf
    unfold getKdfClass at hk
    simp only at hk
    split at hk
    · rename_i c hc
      cases hk
      have hm := dget_mem hc
      simp only [kdfMapping, List.mem_cons, Prod.mk.injEq, List.not_mem_nil, or_false] at hm
      rcases hm with ⟨h1, h2⟩ | ⟨h1, h2⟩
      · rw [h1, h2]; simp
      · rw [h1, h2]; simp
    · cases hk
  rw [ne_eq, e]
  simp only [reduceCtorEq, false_and, or_false, true_and, or_iff_left_iff_imp, false_or]
  rintro ⟨j, q, -, h⟩
  rcases pairWarnings_events h with ⟨h, -⟩ | ⟨h, -⟩ <;> simp at h

theorem Eff.bind_congr {α β : Type} {x : Eff α} {f g : α → Eff β} (h : ∀ a, x.res = .ok a → f a = g a) :
    x >>= f = x >>= g := by
  rcases hx : x.res with e | a
  · rw [Eff.bind_error hx, Eff.bind_error hx]
  · rw [Eff.bind_ok hx, Eff.bind_ok hx, h a hx]

/-- **C34** (parsing with `none`). If the file declares the key derivation function `none`, neither the
passphrase nor the answer to a prompt matters, whatever the outcome. -/
theorem C34_parse_none (ext : Ext) (cr : Crypto) (inp inp' : Inputs) (passphrase passphrase' : Option Str)
    (cipher wc wk rest : Bytes) (hc : Prefixed 4 cipher wc) (hk : Prefixed 4 (utf8 "none".toList) wk) :
    listFromBytes ext cr inp (magic ++ wc ++ wk ++ rest) passphrase =
      listFromBytes ext cr inp' (magic ++ wc ++ wk ++ rest) passphrase' := by
  have key : listFromBytesBody ext cr inp (magic ++ wc ++ wk ++ rest) passphrase =
      listFromBytesBody ext cr inp' (magic ++ wc ++ wk ++ rest) passphrase' := by
    unfold listFromBytesBody
    apply Eff.bind_congr
    rintro ⟨hd, s⟩ hr
    obtain ⟨N, hp, -⟩ := onStream_res_ok (Reader.readDict _) hr
    rw [Stream.rest_of] at hp
    obtain ⟨m, ci, kdf, opts, wc', wk', wo, wn, k, hm, rfl, h1, h2, h3, h4, h5, hb, hN⟩ := prs_header_ok hp
    simp only [List.append_assoc] at hb
    obtain ⟨rfl, hb1⟩ := List.append_inj hb (by rw [hm]; rfl)
    obtain ⟨-, -, hb2⟩ := prefixed_unique hc h1 hb1
    obtain ⟨e, -, -⟩ := prefixed_unique hk h2 hb2
    have := utf8_inj e
    subst this
    have g3 : ∀ (a b c d : Val), getItem [(py! "auth_magic", a), (py! "cipher", b),
      (py! "kdf", .str (strOf "none".toList)), (py! "kdf_options", c), (py! "num_keys", d)]
      (py! "kdf") = .ok (.str (py! "none")) := fun _ _ _ _ => rfl
    have g4 : getKdfClass (.str (py! "none")) = .ok .none := by decide +kernel
    simp only [g3, g4, Eff.lift_ok_bind, choosePassphrase, decide_true, if_true]
  unfold listFromBytes
  rw [key]

example : ∃ wc wk rest, Prefixed 4 (utf8 "none".toList) wc ∧ Prefixed 4 (utf8 "none".toList) wk ∧
    exOddFile = magic ++ wc ++ wk ++ rest :=
  ⟨[0, 0, 0, 4, 110, 111, 110, 101], [0, 0, 0, 4, 110, 111, 110, 101], exOddFile.drop 31,
    ⟨[0, 0, 0, 4], by decide +kernel⟩, ⟨[0, 0, 0, 4], by decide +kernel⟩, by decide +kernel⟩
example : (listFromBytes exExt toyCrypto exInputs exFile none).log.count .prompt = 1 ∧
    (listFromBytes exExt toyCrypto exInputs exFile (some (py! "pw"))).log.count .prompt = 0 ∧
    (listFromBytes exExt toyCrypto exInputs exOddFile none).log.count .prompt = 0 := by decide +kernel

end OSK
