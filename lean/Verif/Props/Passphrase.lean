import Verif.Props.Tamper
/-
C117: is a wrong passphrase noticed?
-/
namespace OSK
open Spec

/-! ### Spec -/

/-- The ciphers in counter mode, with the length of their keys. -/
def Spec.counterSizes : List (Str × Nat) := [(py! "aes128-ctr", 16), (py! "aes192-ctr", 24), (py! "aes256-ctr", 32)]

/-- The beginning of the key stream: the initialisation vector (what is left of the derived bytes `r` after the key of `n` bytes),
encrypted. -/
def Spec.streamStart (n : Nat) (r : Bytes) : Bytes := Std.encBlock .aes (r.take n) (r.drop n)

/-- The differences of two key streams in the first four bytes and in the next four are the same. -/
def Spec.SameShift (s s' : Bytes) : Prop := xorB (s.take 4) (s'.take 4) = xorB ((s.drop 4).take 4) ((s'.drop 4).take 4)

/-! ### Two readings of the same file -/

theorem kdfGiven_unique {inp : Inputs} {p p' : Option Str} {f : KeyFile} {o o' : KdfOptions} (h : KdfGiven inp p f o)
    (h' : KdfGiven inp p' f o') : o = o' := by
  cases h with
  | none h1 => cases h' with
    | none => rfl
    | bcrypt h2 => rw [h1] at h2; exact absurd h2 (by decide)
  | bcrypt h1 h2 h3 => cases h' with
    | none g1 => rw [h1] at g1; exact absurd g1 (by decide)
    | bcrypt g1 g2 g3 =>
      rw [h3] at g3
      obtain ⟨rfl, rfl, -⟩ := bcryptField_unique h2 g2 g3
      rfl

/-- What two readings of the same file, with two passphrases, have in common. -/
theorem read_twice {ext : Ext} {cr : Crypto} (hl : ∀ {p s n r k}, cr.bcryptKdf p s n r = .ok k → k.length = n) {inp : Inputs}
    {p p' : Option Str} {b : Bytes} {kl kl' : KeyList} (h : (listFromBytes ext cr inp b p).res = .ok kl)
    (h' : (listFromBytes ext cr inp b p').res = .ok kl') :
    ∃ f o plain plain' block, Opens cr inp p f o plain ∧ Opens cr inp p' f o plain' ∧ kl.kdfOptions = some o ∧
      cipherSizes (strOf f.cipher) = some (block, f.tag.length) ∧ kl'.kdfOptions = some o ∧
      kl.decipherBytes = some plain ∧ kl'.decipherBytes = some plain' ∧ kl.cipherBytes = some (f.body ++ f.tag) ∧
      (∀ name, HasCipher kl name → name = strOf f.cipher) ∧ 8 ≤ plain.length ∧ 8 ≤ plain'.length := by
  obtain ⟨f, w, post, plain, c1, c2, keys, pad, o, block, rfl, a2, a3, a4, a5, a6, a7, a8, -, -, -, a12, a13, a14, a15, -⟩ :=
    ((C75_accepts ext hl inp p b kl).1 h).parts
  obtain ⟨f', w', post', plain', c1', c2', keys', pad', o', block', b1, b2, b3, b4, b5, b6, b7, b8, -, -, -, b12, b13, b14, b15, -⟩ :=
    ((C75_accepts ext hl inp p' _ kl').1 h').parts
  obtain ⟨rfl, -, -⟩ := lays_unique a2 b2 (fun e => by
    rw [e, b3] at a3
    simpa using (Prod.mk.inj (Option.some.inj a3)).2.symm) b1
  have ho := kdfGiven_unique a4 b4
  subst ho
  refine ⟨f, o, plain, plain', block, a5, b5, a14, a3, b14, a15, b15, a13, fun name hn => hasCipher_file a12 hn, ?_, ?_⟩
  · rw [a6]; simp only [List.length_append, a7, a8]; omega
  · rw [b6]; simp only [List.length_append, b7, b8]; omega

/-! ### Counter mode -/

theorem xorBytes_take : ∀ (x s : Bytes) (m : Nat), m ≤ s.length → (Std.xorBytes x s).take m = xorB (x.take m) (s.take m)
  | [], s, m, _ => by simp [Std.xorBytes, xorB]
  | _ :: _, _, 0, _ => by simp [xorB]
  | _ :: _, [], m + 1, h => by simp at h
  | a :: x, b :: s, m + 1, h => by
    have ih := xorBytes_take x s m (by simpa using h)
    show (a ^^^ b) :: (Std.xorBytes x s).take m = (a ^^^ b) :: xorB (x.take m) (s.take m)
    rw [ih]

theorem xorBytes_drop : ∀ (x s : Bytes) (m : Nat), (Std.xorBytes x s).drop m = Std.xorBytes (x.drop m) (s.drop m)
  | [], s, m => by simp [Std.xorBytes]
  | _ :: _, _, 0 => rfl
  | a :: x, [], m + 1 => by
    show x.drop m = Std.xorBytes (x.drop m) []
    cases x.drop m <;> rfl
  | a :: x, b :: s, m + 1 => xorBytes_drop x s m

/-- The first eight bytes that counter mode gives. -/
theorem ctr_start {E : Bytes → Bytes} {iv b : Bytes} (hi : iv.length = 16) (hE : (E iv).length = 16) (hb : 8 ≤ b.length) :
    (Std.ctrCrypt E iv b).take 4 = xorB (b.take 4) ((E iv).take 4) ∧
    ((Std.ctrCrypt E iv b).drop 4).take 4 = xorB ((b.drop 4).take 4) (((E iv).drop 4).take 4) := by
  obtain ⟨m, hm⟩ : ∃ m, (b.length + 15) / 16 = m + 1 := ⟨(b.length + 15) / 16 - 1, by omega⟩
  have hiv : natToBE 16 (beNat iv % 2 ^ 128) = iv := by
    have h1 := beNat_lt iv
    have h2 := natToBE_beNat iv
    rw [hi] at h1 h2
    rw [Nat.mod_eq_of_lt (by simpa using h1), h2]
  have hs : Std.ctrStream E ((b.length + 15) / 16) (beNat iv) = E iv ++ Std.ctrStream E m (beNat iv + 1) := by
    rw [hm, Std.ctrStream, hiv]
  unfold Std.ctrCrypt
  rw [hs, xorBytes_take _ _ _ (by rw [List.length_append, hE]; omega), List.take_append_of_le_length (by omega), xorBytes_drop,
    xorBytes_take _ _ _ (by rw [List.length_drop, List.length_append, hE]; omega), List.drop_append_of_le_length (by omega),
    List.take_append_of_le_length (by rw [List.length_drop, hE]; omega)]
  exact ⟨rfl, rfl⟩

theorem xorB_xorB : ∀ {a s s' : Bytes}, a.length = s.length → a.length = s'.length → xorB (xorB a s) (xorB a s') = xorB s s'
  | [], [], [], _, _ => rfl
  | x :: a, y :: s, z :: s', h, h' => by
    have ih := xorB_xorB (a := a) (s := s) (s' := s') (by simpa using h) (by simpa using h')
    show ((x ^^^ y) ^^^ (x ^^^ z)) :: xorB (xorB a s) (xorB a s') = (y ^^^ z) :: xorB s s'
    rw [ih, UInt8.xor_comm x y, UInt8.xor_assoc, ← UInt8.xor_assoc x x z, UInt8.xor_self, UInt8.zero_xor]

theorem counter_size {name : Str} {n : Nat} (h : (name, n) ∈ counterSizes) : (name, aesCtr n) ∈ suites ∧ name ≠ py! "none" := by
  simp only [counterSizes, List.mem_cons, Prod.mk.injEq, List.not_mem_nil, or_false] at h
  rcases h with ⟨rfl, rfl⟩ | ⟨rfl, rfl⟩ | ⟨rfl, rfl⟩
  · exact ⟨by simp [suites], by decide⟩
  · exact ⟨by simp [suites], by decide⟩
  · exact ⟨by simp [suites], by decide⟩

/-- What a cipher in counter mode decrypts. -/
theorem opens_counter {inp : Inputs} {p : Option Str} {f : KeyFile} {o : KdfOptions} {plain : Bytes} {n : Nat}
    (hn : (strOf f.cipher, n) ∈ counterSizes) (h : Opens Std.crypto inp p f o plain) (hl : 8 ≤ plain.length) :
    ∃ r, Derives Std.crypto inp p (n + 16) o r ∧ 8 ≤ (f.body ++ f.tag).length ∧ (streamStart n r).length = 16 ∧
      plain.take 4 = xorB ((f.body ++ f.tag).take 4) ((streamStart n r).take 4) ∧
      (plain.drop 4).take 4 = xorB (((f.body ++ f.tag).drop 4).take 4) (((streamStart n r).drop 4).take 4) := by
  obtain ⟨h1, h2⟩ := counter_size hn
  cases h with
  | none h0 => exact absurd h0 h2
  | @cipher su r _ g1 g2 g3 =>
    have := suites_unique g1 h1
    subst this
    refine ⟨r, g2, ?_⟩
    change Std.crypto.symDec .aes .ctr (r.take n) (r.drop n) (f.body ++ f.tag) = .ok plain at g3
    have hlen := std_counterMode.length g3
    rw [Std.crypto_symDec] at g3
    unfold Std.symCrypt at g3
    split at g3
    · cases g3
    · split at g3
      · cases g3
      · rename_i _ hi
        have hi : (r.drop n).length = 16 := by simpa [Std.blockLength] using hi
        simp only [Except.ok.injEq] at g3
        subst g3
        have hE : (Std.encBlock .aes (r.take n) (r.drop n)).length = 16 := Std.encBlock_length .aes _ hi
        exact ⟨by omega, hE, ctr_start hi hE (by omega)⟩

/-- **C117** (ciphers in counter mode). A file is read with its passphrase without a warning of the check numbers.  If it can be
read with another passphrase at all, then there is this warning, unless the two key streams happen to be shifted against each other in
the second four bytes as they are in the first.  This depends on the passphrases and the options of the key derivation function
only; not on the keys in the file. -/
theorem C117_counter_partial (ext : Ext) (inp : Inputs) (p p' : Option Str) (b : Bytes) (kl kl' : KeyList) (name : Str) (n : Nat)
    (h : (listFromBytes ext Std.crypto inp b p).res = .ok kl)
    (hq : .warn .checkNumbers ∉ (listFromBytes ext Std.crypto inp b p).log)
    (h' : (listFromBytes ext Std.crypto inp b p').res = .ok kl') (hn : HasCipher kl name) (hm : (name, n) ∈ counterSizes) :
    ∃ o r r', kl.kdfOptions = some o ∧ Derives Std.crypto inp p (n + 16) o r ∧ Derives Std.crypto inp p' (n + 16) o r' ∧
      (.warn .checkNumbers ∉ (listFromBytes ext Std.crypto inp b p').log ↔ SameShift (streamStart n r) (streamStart n r')) := by
  obtain ⟨f, o, plain, plain', block, a1, a2, a3, -, -, a5, a6, -, a7, a8, a9⟩ := read_twice C104_laws.kdf_length h h'
  have e := a7 name hn
  subst e
  obtain ⟨r, b1, b2, b3, b4, b5⟩ := opens_counter hm a1 a8
  obtain ⟨r', c1, c2, c3, c4, c5⟩ := opens_counter hm a2 a9
  refine ⟨o, r, r', a3, b1, c1, ?_⟩
  obtain ⟨q, hq1, -, hq2⟩ := C32_check_warning ext Std.crypto inp b p kl h
  obtain ⟨q', hq1', -, hq2'⟩ := C32_check_warning ext Std.crypto inp b p' kl' h'
  rw [a5] at hq1
  cases hq1
  rw [a6] at hq1'
  cases hq1'
  rw [hq2, ne_eq, not_not] at hq
  rw [hq2', ne_eq, not_not]
  generalize f.body ++ f.tag = x at b2 b4 b5 c4 c5
  have l : ∀ {m : Nat} {s : Bytes}, s.length = 16 → (x.take 4).length = (s.take 4).length ∧
      ((x.drop 4).take 4).length = ((s.drop 4).take 4).length := by
    intro m s hs
    simp only [List.length_take, List.length_drop, hs]
    omega
  have z1 : xorB (plain.take 4) (plain'.take 4) = xorB ((streamStart n r).take 4) ((streamStart n r').take 4) := by
    rw [b4, c4]
    exact xorB_xorB (l (m := 0) b3).1 (l (m := 0) c3).1
  have z2 : xorB ((plain.drop 4).take 4) ((plain'.drop 4).take 4) =
      xorB (((streamStart n r).drop 4).take 4) (((streamStart n r').drop 4).take 4) := by
    rw [b5, c5]
    exact xorB_xorB (l (m := 0) b3).2 (l (m := 0) c3).2
  unfold SameShift
  rw [← z1, ← z2, ← hq]
  constructor
  · intro h
    rw [← h]
  · intro h
    have k1 : (plain.take 4).length = (plain'.take 4).length := by simp only [List.length_take]; omega
    have k2 : (plain.take 4).length = ((plain'.drop 4).take 4).length := by simp only [List.length_take, List.length_drop]; omega
    rw [← xorB_cancel k1, h, xorB_cancel k2]

/-! ### Ciphers with a tag -/

/-- **C117** (ciphers with a tag). A file that is read with two passphrases has the tag of the standard under both of them. -/
theorem C117_tag_partial (ext : Ext) (inp : Inputs) (p p' : Option Str) (b : Bytes) (kl kl' : KeyList) (name : Str) (n : Nat)
    (h : (listFromBytes ext Std.crypto inp b p).res = .ok kl) (h' : (listFromBytes ext Std.crypto inp b p').res = .ok kl')
    (hn : HasCipher kl name) (ht : (name, n) ∈ taggedCiphers) :
    ∃ o r r' body tag, kl.kdfOptions = some o ∧ Derives Std.crypto inp p n o r ∧ Derives Std.crypto inp p' n o r' ∧
      kl.cipherBytes = some (body ++ tag) ∧ tag.length = 16 ∧ Tagged name r body tag ∧ Tagged name r' body tag := by
  obtain ⟨f, w, post, plain, c1, c2, keys, pad, o, block, rfl, a2, a3, a4, -, -, -, -, -, -, -, a12, a13, a14, -, -⟩ :=
    ((C75_accepts ext C104_laws.kdf_length inp p b kl).1 h).parts
  obtain ⟨f', w', post', plain', c1', c2', keys', pad', o', block', b1, b2, b3, b4, -, -, -, -, -, -, -, b12, b13, b14, -, -⟩ :=
    ((C75_accepts ext C104_laws.kdf_length inp p' _ kl').1 h').parts
  obtain ⟨rfl, -, -⟩ := lays_unique a2 b2 (fun e => by
    rw [e, b3] at a3
    simpa using (Prod.mk.inj (Option.some.inj a3)).2.symm) b1
  have ho := kdfGiven_unique a4 b4
  subst ho
  have e := hasCipher_file a12 hn
  have hn' : HasCipher kl' name := ⟨_, b12, by rw [e]; rfl⟩
  obtain ⟨o1, r, body, tag, d1, d2, d3, d4, d5⟩ := C114_tag ext inp p _ kl name n h hn ht
  obtain ⟨o2, r', body', tag', e1, e2, e3, e4, e5⟩ := C114_tag ext inp p' _ kl' name n h' hn' ht
  rw [a14] at d1
  cases d1
  rw [b14] at e1
  cases e1
  have hbt : body ++ tag = body' ++ tag' := by
    rw [a13] at d3
    rw [b13] at e3
    exact (Option.some.inj d3).symm.trans (Option.some.inj e3)
  obtain ⟨rfl, rfl⟩ := List.append_inj' hbt (by rw [d4, e4])
  exact ⟨o, r, r', body, tag, a14, d2, e2, d3, d4, d5, e5⟩

/-! ### A passphrase that does not matter -/

theorem exUnsealed_keys (ext : Ext) : ∃ w : Bytes, w.length = 125 ∧
    KeysInOrder ext [(exTamperPair 1).priv] (w ++ countUp 3) (countUp 3) := by
  have h := exTamper_keys ext 1
  generalize hb : exTamperKeys 1 = x at h
  generalize hp : countUp 11 = pad at h
  cases h with
  | cons h1 h2 =>
    cases h2
    obtain ⟨w, rfl, hw⟩ := keyInOrder_front h1
    refine ⟨w, ?_, .cons (hw _) .nil⟩
    have := congrArg List.length hb
    rw [← hp, List.length_append] at this
    have e1 : (exTamperKeys 1).length = 136 := by decide +kernel
    have e2 : (countUp 11).length = 11 := by decide +kernel
    omega

/-- **C117** is false: a file may name the key derivation function `bcrypt` and the cipher `none`.  It asks for a passphrase, and is
read with every passphrase, without a warning. -/
theorem C117_false (ext : Ext) : ∃ b kl, kl.pairs = [exTamperPair 1] ∧
    (∀ inp p, ReadsQuietly ext Std.crypto inp (some p) b kl) ∧
    ∀ inp p, inp.answer = .ok p → ReadsQuietly ext Std.crypto inp none b kl ∧
      .prompt ∈ (listFromBytes ext Std.crypto inp b none).log := by
  obtain ⟨w, hw, hk⟩ := exUnsealed_keys ext
  let pub : Bytes := exSshType ++ ([0, 0, 0, 32] ++ exSshPublic)
  let body : Bytes := [0, 0, 0, 7] ++ [0, 0, 0, 7] ++ (w ++ countUp 3)
  have hb : body.length = 136 := by
    have e2 : (countUp 3).length = 3 := by decide +kernel
    simp only [body, List.length_append, hw, e2]
    rfl
  let f : KeyFile := ⟨"none".toList, "bcrypt".toList, [0, 0, 0, 1, 1] ++ [0, 0, 0, 16], [pub], body, []⟩
  let front : Bytes := magic ++ ([0, 0, 0, 4] ++ utf8 "none".toList) ++ ([0, 0, 0, 6] ++ utf8 "bcrypt".toList) ++
    ([0, 0, 0, 9] ++ f.options) ++ [0, 0, 0, 1] ++ ([0, 0, 0, 51] ++ pub ++ [])
  have d1 : digitSum [0, 0, 0, 4] = (utf8 "none".toList).length := by decide +kernel
  have d2 : digitSum [0, 0, 0, 6] = (utf8 "bcrypt".toList).length := by decide +kernel
  have d3 : digitSum [0, 0, 0, 9] = 9 := by decide +kernel
  have d4 : digitSum [0, 0, 0, 1] = 1 := by decide +kernel
  have hf : f.Front front :=
    ⟨_, _, _, [0, 0, 0, 1], _, ⟨[0, 0, 0, 4], rfl, d1, rfl⟩, ⟨[0, 0, 0, 6], rfl, d2, rfl⟩,
      ⟨[0, 0, 0, 9], rfl, d3, rfl⟩, rfl, d4, by show 1 < 2 ^ 31; decide,
      ⟨_, [], ⟨[0, 0, 0, 51], rfl, by decide +kernel, rfl⟩, rfl, rfl⟩, rfl⟩
  have hname : strOf "none".toList = py! "none" := by decide +kernel
  have hkdf : strOf "bcrypt".toList = py! "bcrypt" := by decide +kernel
  let b : Bytes := front ++ ([0, 0, 0, 136] ++ body) ++ [] ++ []
  let header : VDict := [(py! "auth_magic", .bytes magic), (py! "cipher", .str (strOf f.cipher)),
      (py! "kdf", .str (strOf f.kdf)), (py! "kdf_options", .bytes f.options), (py! "num_keys", .int f.pubs.length)]
  let kl : KeyList := ⟨[exTamperPair 1], some b, some header, some (body ++ []), some (bcryptOptions [1] (16 : Nat)), some body,
    some [(py! "check_int_1", .int (digitSum [0, 0, 0, 7])), (py! "check_int_2", .int (digitSum [0, 0, 0, 7]))], some (countUp 3)⟩
  have key : ∀ inp p q, Enters inp p q → ReadsQuietly ext Std.crypto inp p b kl := by
    intro inp p q hq
    refine (file_quiet ext C104_laws.kdf_length inp _ _ _).2 ⟨[], ⟨⟨f, _, [0, 0, 0, 7], w ++ countUp 3, bcryptOptions [1] (16 : Nat), 8, 3, rfl,
      ⟨front, _, hf, ⟨[0, 0, 0, 136], rfl, by show _ = body.length; rw [hb]; decide +kernel, rfl⟩, rfl⟩,
      by show cipherSizes (strOf "none".toList) = _; rw [hname]; rfl,
      ?_, ?_, rfl, .cons (exTamper_pub ext 1) .nil, hk, by decide, by show body.length % 8 = 0; rw [hb], ?_, rfl, rfl, rfl, rfl, rfl, rfl, rfl⟩⟩⟩
    · exact .bcrypt (p := q) (salt := [1]) (w := [0, 0, 0, 1, 1] ++ [0, 0, 0, 16]) (r := []) hkdf
        ⟨[0, 0, 0, 1, 1], [0, 0, 0, 16], ⟨[0, 0, 0, 1], rfl, by decide +kernel, rfl⟩, rfl, by decide +kernel, rfl⟩ (by simp [f]) hq
    · have : Opens Std.crypto inp p f (bcryptOptions [1] (16 : Nat)) (f.body ++ f.tag) := .none hname
      rw [show f.body ++ f.tag = body from List.append_nil body] at this
      exact this
    · intro x hx
      rw [List.mem_singleton.1 hx]
      exact exTamper_pair 1
  refine ⟨b, kl, rfl, fun inp p => key inp _ p (.inl rfl), fun inp p hp => ?_⟩
  have h := key inp none p (.inr ⟨rfl, hp⟩)
  refine ⟨h, ?_⟩
  obtain ⟨hd, cipher, kdf, block, tag, plain, pad, nums, ws, g1, -, g3, -, -, -, -, -, -, g9⟩ := C73_list_warnings ext Std.crypto inp b none kl h.1
  refine (g9 _).2 (.inl ⟨rfl, ?_, rfl⟩)
  cases g1
  have : dget header (py! "kdf") = some (.str (py! "bcrypt")) := by
    show dget [_, _, (_, Val.str (strOf "bcrypt".toList)), _, _] _ = _
    rw [hkdf]
    simp [dget]
  rw [this] at g3
  cases g3
  decide

/-- `C117_counter_partial` is not vacuous: a file without keys is read with every passphrase, and with its own without a warning. -/
theorem exNoKeys (ext : Ext) (inp : Inputs) (pass pass' : List Char) (hp : pass ≠ []) (hp' : pass' ≠ []) : ∃ b kl kl',
    (listFromBytes ext Std.crypto inp b (some (strOf pass))).res = .ok kl ∧
    .warn .checkNumbers ∉ (listFromBytes ext Std.crypto inp b (some (strOf pass))).log ∧
    (listFromBytes ext Std.crypto inp b (some (strOf pass'))).res = .ok kl' ∧ HasCipher kl (py! "aes256-ctr") := by
  have hutf : ∀ {x : List Char}, x ≠ [] → utf8 x ≠ [] := fun hx h0 => hx (OSK.utf8_inj (b := []) h0)
  obtain ⟨r, hr⟩ := (C104_kdf (utf8 pass) [1] 48 16).2 ⟨hutf hp, by simp, by decide, by decide, by decide⟩
  obtain ⟨r', hr'⟩ := (C104_kdf (utf8 pass') [1] 48 16).2 ⟨hutf hp', by simp, by decide, by decide, by decide⟩
  have hlen := C104_laws.kdf_length hr
  have hlen' := C104_laws.kdf_length hr'
  let plain : Bytes := [0, 0, 0, 7] ++ [0, 0, 0, 7] ++ countUp 8
  obtain ⟨body, hbody⟩ := C104_encrypts (name := py! "aes256-ctr") (su := aesCtr 32) (by simp [suites]) (key := r.take 32) (iv := r.drop 32)
    (plain := plain) (by rw [List.length_take, hlen]; rfl) (by rw [List.length_drop, hlen]; rfl) (by decide +kernel)
  replace hbody : Std.crypto.symEnc .aes .ctr (r.take 32) (r.drop 32) plain = .ok body := hbody
  have hb : body.length = 16 := by
    have := C104_laws.sym_length hbody
    rw [this]
    decide +kernel
  have hdec := C104_laws.sym_inv hbody
  obtain ⟨plain', hdec'⟩ : ∃ plain', Std.crypto.symDec .aes .ctr (r'.take 32) (r'.drop 32) body = .ok plain' := by
    rw [Std.crypto_symDec]
    unfold Std.symCrypt
    rw [if_neg (by rw [List.length_take, hlen']; decide), if_neg (by rw [List.length_drop, hlen']; decide)]
    exact ⟨_, rfl⟩
  have hb' : plain'.length = 16 := by rw [← std_counterMode.length hdec', hb]
  let f : KeyFile := ⟨"aes256-ctr".toList, "bcrypt".toList, [0, 0, 0, 1, 1] ++ [0, 0, 0, 16], [], body, []⟩
  let front : Bytes := magic ++ ([0, 0, 0, 10] ++ utf8 "aes256-ctr".toList) ++ ([0, 0, 0, 6] ++ utf8 "bcrypt".toList) ++
    ([0, 0, 0, 9] ++ f.options) ++ [0, 0, 0, 0] ++ []
  have d1 : digitSum [0, 0, 0, 10] = (utf8 "aes256-ctr".toList).length := by decide +kernel
  have d2 : digitSum [0, 0, 0, 6] = (utf8 "bcrypt".toList).length := by decide +kernel
  have d3 : digitSum [0, 0, 0, 9] = 9 := by decide +kernel
  have d4 : digitSum [0, 0, 0, 0] = 0 := by decide +kernel
  have hf : f.Front front :=
    ⟨_, _, _, [0, 0, 0, 0], _, ⟨[0, 0, 0, 10], rfl, d1, rfl⟩, ⟨[0, 0, 0, 6], rfl, d2, rfl⟩,
      ⟨[0, 0, 0, 9], rfl, d3, rfl⟩, rfl, d4, by show 0 < 2 ^ 31; decide, rfl, rfl⟩
  have hname : strOf "aes256-ctr".toList = py! "aes256-ctr" := by decide +kernel
  have hkdf : strOf "bcrypt".toList = py! "bcrypt" := by decide +kernel
  let b : Bytes := front ++ ([0, 0, 0, 16] ++ body) ++ [] ++ []
  have hlays : f.Lays (front ++ ([0, 0, 0, 16] ++ body) ++ []) :=
    ⟨front, _, hf, ⟨[0, 0, 0, 16], rfl, by show _ = body.length; rw [hb]; decide +kernel, rfl⟩, rfl⟩
  have key : ∀ (q : List Char) (s pl : Bytes), Std.crypto.bcryptKdf (utf8 q) [1] 48 (16 : Nat) = .ok s →
      Std.crypto.symDec .aes .ctr (s.take 32) (s.drop 32) body = .ok pl → pl.length = 16 →
      ∃ k : KeyList, (listFromBytes ext Std.crypto inp b (some (strOf q))).res = .ok k ∧ HasCipher k (py! "aes256-ctr") ∧
        k.decipherBytes = some pl := by
    intro q s pl h1 h2 h3
    refine ⟨⟨[], some b, some _, some _, some _, some pl, some _, some (pl.drop 8)⟩,
      (C75_accepts ext C104_laws.kdf_length inp _ b _).2 ⟨⟨f, _, [], pl, pl.take 4, (pl.drop 4).take 4, pl.drop 8, pl.drop 8,
        bcryptOptions [1] (16 : Nat), 16, rfl, hlays, by show cipherSizes (strOf "aes256-ctr".toList) = _; rw [hname]; rfl,
        ?_, ?_, ?_, by rw [List.length_take]; omega, by rw [List.length_take, List.length_drop]; omega, .nil, .nil, rfl, rfl, rfl, rfl, rfl, rfl, rfl⟩⟩,
      ⟨_, rfl, ?_⟩, rfl⟩
    · exact .bcrypt (p := strOf q) (salt := [1]) (w := [0, 0, 0, 1, 1] ++ [0, 0, 0, 16]) (r := []) hkdf
        ⟨[0, 0, 0, 1, 1], [0, 0, 0, 16], ⟨[0, 0, 0, 1], rfl, by decide +kernel, rfl⟩, rfl, by decide +kernel, rfl⟩ (by simp [f]) (.inl rfl)
    · refine .cipher (su := aesCtr 32) (r := s) ?_ (.bcrypt (pass := q) (.inl rfl) h1) ?_
      · show (strOf "aes256-ctr".toList, _) ∈ _
        rw [hname]
        simp [suites]
      · show Std.crypto.symDec .aes .ctr _ _ (body ++ []) = _
        rw [List.append_nil]
        exact h2
    · have e1 : pl.drop 8 = (pl.drop 4).drop 4 := by rw [List.drop_drop]
      rw [e1, List.append_assoc, List.take_append_drop, List.take_append_drop]
    · show dget [(_, _), (_, Val.str (strOf "aes256-ctr".toList)), _, _, _] _ = _
      rw [hname]
      simp [dget]
  obtain ⟨kl, k1, k2, k3⟩ := key pass r plain hr hdec (by decide +kernel)
  obtain ⟨kl', k1', -, -⟩ := key pass' r' plain' hr' hdec' hb'
  refine ⟨b, kl, kl', k1, ?_, k1', k2⟩
  obtain ⟨x, x1, -, x2⟩ := C32_check_warning ext Std.crypto inp b _ kl k1
  rw [k3] at x1
  cases x1
  rw [x2]
  simp only [ne_eq, not_not]
  decide +kernel

end OSK
