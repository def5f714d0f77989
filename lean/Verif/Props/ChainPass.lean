import Verif.Props.Chain
import Verif.Props.Passphrase
/-
C117 for the ciphers in cipher block chaining mode.
-/
namespace OSK
open Spec

theorem chain_key {name : Str} {alg : SymAlg} {n : Nat} (h : (name, alg, n) ∈ chainKeys) : name ≠ py! "none" ∧
    ∃ su : Suite, (name, su) ∈ suites ∧ su.key = n ∧ su.iv = Std.blockLength alg ∧ su.dec Std.crypto = Std.symCrypt false alg .cbc := by
  simp only [chainKeys, List.mem_cons, Prod.mk.injEq, List.not_mem_nil, or_false] at h
  rcases h with ⟨rfl, rfl, rfl⟩ | ⟨rfl, rfl, rfl⟩ | ⟨rfl, rfl, rfl⟩ | ⟨rfl, rfl, rfl⟩ | ⟨rfl, rfl, rfl⟩
  · exact ⟨by decide, _, by unfold suites; exact .head _, rfl, rfl, rfl⟩
  · exact ⟨by decide, aesCbc 16, by unfold suites; simp [aesCbc], rfl, rfl, rfl⟩
  · exact ⟨by decide, aesCbc 24, by unfold suites; simp [aesCbc], rfl, rfl, rfl⟩
  · exact ⟨by decide, aesCbc 32, by unfold suites; simp [aesCbc], rfl, rfl, rfl⟩
  · exact ⟨by decide, aesCbc 32, by unfold suites; simp [aesCbc], rfl, rfl, rfl⟩

/-- What such a cipher decrypts the first block to. -/
theorem opens_chain {inp : Inputs} {p : Option Str} {f : KeyFile} {o : KdfOptions} {plain : Bytes} {alg : SymAlg} {n : Nat}
    (hn : (strOf f.cipher, alg, n) ∈ chainKeys) (h : Opens Std.crypto inp p f o plain) (hl : 8 ≤ plain.length) :
    ∃ r, Derives Std.crypto inp p (n + Std.blockLength alg) o r ∧
      plain.take (Std.blockLength alg) = firstPlain alg n r (f.body ++ f.tag) ∧
      (f.body ++ f.tag).take (Std.blockLength alg) = firstSealed alg n r plain := by
  obtain ⟨h2, su', h1, rfl, hi, hd⟩ := chain_key hn
  cases h with
  | none h0 => exact absurd h0 h2
  | @cipher su r _ g1 g2 g3 =>
    have := suites_unique g1 h1
    subst this
    rw [hi] at g2
    rw [hd] at g3
    have he := suite_reverse C119_laws g1 (by rw [hd]; exact g3)
    obtain ⟨q1, m, q2, q3⟩ := chain_dec g3
    have hD := fun (y : Bytes) (hy : y.length = Std.blockLength alg) => Std.decBlock_length alg (r.take su.key) hy
    have hpos : 0 < Std.blockLength alg := by cases alg <;> decide
    have hlen : plain.length = (f.body ++ f.tag).length := by rw [q3, Std.cbcDec_length hD _ _ _ q2, q2]
    cases m with
    | zero => rw [q2] at hlen; omega
    | succ m =>
      rw [Nat.mul_succ] at q2
      have ht : ((f.body ++ f.tag).take (Std.blockLength alg)).length = Std.blockLength alg := by rw [List.length_take]; omega
      have e1 : plain.take (Std.blockLength alg) = firstPlain alg su.key r (f.body ++ f.tag) := by
        rw [q3, Std.cbcDec, List.take_left' (by rw [Std.xorBytes_length, hD _ ht]), xorBytes_same (by rw [hD _ ht, q1])]
        rfl
      refine ⟨r, g2, e1, ?_⟩
      obtain ⟨alg', a1, a2, a3⟩ := chain_suite (n := Std.blockLength alg) (by
        have := hn
        simp only [chainKeys, List.mem_cons, Prod.mk.injEq, List.not_mem_nil, or_false] at this
        unfold chainCiphers
        rcases this with ⟨e, rfl, -⟩ | ⟨e, rfl, -⟩ | ⟨e, rfl, -⟩ | ⟨e, rfl, -⟩ | ⟨e, rfl, -⟩ <;> rw [e] <;> simp [Std.blockLength]) g1
      have : alg' = alg := by
        revert a1
        cases alg <;> cases alg' <;> decide
      subst this
      rw [a2] at he
      obtain ⟨m', s1, s2⟩ := chain_enc he
      have hm : m' = m + 1 := by
        rw [hlen, q2, ← Nat.mul_succ] at s1
        exact (Nat.eq_of_mul_eq_mul_left hpos s1).symm
      subst hm
      have hp : (plain.take (Std.blockLength alg')).length = Std.blockLength alg' := by rw [List.length_take]; omega
      rw [s2, Std.cbcEnc, List.take_left' (Std.encBlock_length alg' _ (by rw [Std.xorBytes_length, hp])), xorBytes_same (by rw [hp, q1])]
      rfl

/-- **C117** (ciphers in cipher block chaining mode). A file is read with its passphrase.  If it can be read with another passphrase at all, then
there is a warning of the check numbers, unless the first block, encrypted with the one and decrypted with the other, happens to begin with the
same four bytes twice.  This depends on the passphrases, the options of the key derivation function, the check numbers, and with AES on the
beginning of the first key, which is the same for all keys of a type. -/
theorem C117_chain_partial (ext : Ext) (inp : Inputs) (p p' : Option Str) (b : Bytes) (kl kl' : KeyList) (name : Str) (alg : SymAlg) (n : Nat)
    (h : (listFromBytes ext Std.crypto inp b p).res = .ok kl) (h' : (listFromBytes ext Std.crypto inp b p').res = .ok kl')
    (hn : HasCipher kl name) (hm : (name, alg, n) ∈ chainKeys) :
    ∃ o r r' x, kl.kdfOptions = some o ∧ Derives Std.crypto inp p (n + Std.blockLength alg) o r ∧
      Derives Std.crypto inp p' (n + Std.blockLength alg) o r' ∧ kl.decipherBytes = some x ∧
      (.warn .checkNumbers ∉ (listFromBytes ext Std.crypto inp b p').log ↔
        (firstPlain alg n r' (firstSealed alg n r x)).take 4 = ((firstPlain alg n r' (firstSealed alg n r x)).drop 4).take 4) := by
  obtain ⟨f, o, plain, plain', block, a1, a2, a3, -, -, a5, a6, -, a7, a8, a9⟩ := read_twice C104_laws.kdf_length h h'
  have e := a7 name hn
  subst e
  obtain ⟨r, b1, -, b3⟩ := opens_chain hm a1 a8
  obtain ⟨r', c1, c2, -⟩ := opens_chain hm a2 a9
  refine ⟨o, r, r', plain, a3, b1, c1, a5, ?_⟩
  obtain ⟨q', hq1', -, hq2'⟩ := C32_check_warning ext Std.crypto inp b p' kl' h'
  rw [a6] at hq1'
  cases hq1'
  have hpos : 8 ≤ Std.blockLength alg := by cases alg <;> decide
  have e2 : firstPlain alg n r' (firstSealed alg n r plain) = plain'.take (Std.blockLength alg) := by
    rw [c2, ← b3]
    unfold firstPlain
    rw [List.take_take, Nat.min_self]
  rw [hq2', ne_eq, not_not, e2, List.take_take, Nat.min_eq_left (by omega), List.drop_take, List.take_take, Nat.min_eq_left (by omega)]


/-- `C117_chain_partial` is not vacuous: a file without keys is read with every passphrase, and with its own without a warning. -/
theorem exNoKeysChain (ext : Ext) (inp : Inputs) (pass pass' : List Char) (hp : pass ≠ []) (hp' : pass' ≠ []) : ∃ b kl kl',
    (listFromBytes ext Std.crypto inp b (some (strOf pass))).res = .ok kl ∧
    .warn .checkNumbers ∉ (listFromBytes ext Std.crypto inp b (some (strOf pass))).log ∧
    (listFromBytes ext Std.crypto inp b (some (strOf pass'))).res = .ok kl' ∧ HasCipher kl (py! "aes256-cbc") := by
  have hutf : ∀ {x : List Char}, x ≠ [] → utf8 x ≠ [] := fun hx h0 => hx (OSK.utf8_inj (b := []) h0)
  obtain ⟨r, hr⟩ := (C104_kdf (utf8 pass) [1] 48 16).2 ⟨hutf hp, by simp, by decide, by decide, by decide⟩
  obtain ⟨r', hr'⟩ := (C104_kdf (utf8 pass') [1] 48 16).2 ⟨hutf hp', by simp, by decide, by decide, by decide⟩
  have hlen := C104_laws.kdf_length hr
  have hlen' := C104_laws.kdf_length hr'
  let plain : Bytes := [0, 0, 0, 7] ++ [0, 0, 0, 7] ++ countUp 8
  obtain ⟨body, hbody⟩ := C104_encrypts (name := py! "aes256-cbc") (su := aesCbc 32) (by simp [suites]) (key := r.take 32) (iv := r.drop 32)
    (plain := plain) (by rw [List.length_take, hlen]; rfl) (by rw [List.length_drop, hlen]; rfl) (by decide +kernel)
  replace hbody : Std.crypto.symEnc .aes .cbc (r.take 32) (r.drop 32) plain = .ok body := hbody
  have hb : body.length = 16 := by
    have := C104_laws.sym_length hbody
    rw [this]
    decide +kernel
  have hdec := C104_laws.sym_inv hbody
  obtain ⟨plain', hdec'⟩ : ∃ plain', Std.crypto.symDec .aes .cbc (r'.take 32) (r'.drop 32) body = .ok plain' := by
    rw [Std.crypto_symDec]
    unfold Std.symCrypt
    rw [if_neg (by rw [List.length_take, hlen']; decide), if_neg (by rw [List.length_drop, hlen']; decide)]
    simp only [hb]
    exact ⟨_, rfl⟩
  have hb' : plain'.length = 16 := by
    obtain ⟨-, m, q2, q3⟩ := chain_dec hdec'
    rw [q3, Std.cbcDec_length (fun y hy => Std.decBlock_length .aes _ hy) _ _ _ q2, ← q2, hb]
  let f : KeyFile := ⟨"aes256-cbc".toList, "bcrypt".toList, [0, 0, 0, 1, 1] ++ [0, 0, 0, 16], [], body, []⟩
  let front : Bytes := magic ++ ([0, 0, 0, 10] ++ utf8 "aes256-cbc".toList) ++ ([0, 0, 0, 6] ++ utf8 "bcrypt".toList) ++
    ([0, 0, 0, 9] ++ f.options) ++ [0, 0, 0, 0] ++ []
  have d1 : digitSum [0, 0, 0, 10] = (utf8 "aes256-cbc".toList).length := by decide +kernel
  have d2 : digitSum [0, 0, 0, 6] = (utf8 "bcrypt".toList).length := by decide +kernel
  have d3 : digitSum [0, 0, 0, 9] = 9 := by decide +kernel
  have d4 : digitSum [0, 0, 0, 0] = 0 := by decide +kernel
  have hf : f.Front front :=
    ⟨_, _, _, [0, 0, 0, 0], _, ⟨[0, 0, 0, 10], rfl, d1, rfl⟩, ⟨[0, 0, 0, 6], rfl, d2, rfl⟩,
      ⟨[0, 0, 0, 9], rfl, d3, rfl⟩, rfl, d4, by show 0 < 2 ^ 31; decide, rfl, rfl⟩
  have hname : strOf "aes256-cbc".toList = py! "aes256-cbc" := by decide +kernel
  have hkdf : strOf "bcrypt".toList = py! "bcrypt" := by decide +kernel
  let b : Bytes := front ++ ([0, 0, 0, 16] ++ body) ++ [] ++ []
  have hlays : f.Lays (front ++ ([0, 0, 0, 16] ++ body) ++ []) :=
    ⟨front, _, hf, ⟨[0, 0, 0, 16], rfl, by show _ = body.length; rw [hb]; decide +kernel, rfl⟩, rfl⟩
  have key : ∀ (q : List Char) (s pl : Bytes), Std.crypto.bcryptKdf (utf8 q) [1] 48 (16 : Nat) = .ok s →
      Std.crypto.symDec .aes .cbc (s.take 32) (s.drop 32) body = .ok pl → pl.length = 16 →
      ∃ k : KeyList, (listFromBytes ext Std.crypto inp b (some (strOf q))).res = .ok k ∧ HasCipher k (py! "aes256-cbc") ∧
        k.decipherBytes = some pl := by
    intro q s pl h1 h2 h3
    refine ⟨⟨[], some b, some _, some _, some _, some pl, some _, some (pl.drop 8)⟩,
      (C75_accepts ext C104_laws.kdf_length inp _ b _).2 ⟨⟨f, _, [], pl, pl.take 4, (pl.drop 4).take 4, pl.drop 8, pl.drop 8,
        bcryptOptions [1] (16 : Nat), 16, rfl, hlays, by show cipherSizes (strOf "aes256-cbc".toList) = _; rw [hname]; rfl,
        ?_, ?_, ?_, by rw [List.length_take]; omega, by rw [List.length_take, List.length_drop]; omega, .nil, .nil, rfl, rfl, rfl, rfl, rfl, rfl, rfl⟩⟩,
      ⟨_, rfl, ?_⟩, rfl⟩
    · exact .bcrypt (p := strOf q) (salt := [1]) (w := [0, 0, 0, 1, 1] ++ [0, 0, 0, 16]) (r := []) hkdf
        ⟨[0, 0, 0, 1, 1], [0, 0, 0, 16], ⟨[0, 0, 0, 1], rfl, by decide +kernel, rfl⟩, rfl, by decide +kernel, rfl⟩ (by simp [f]) (.inl rfl)
    · refine .cipher (su := aesCbc 32) (r := s) ?_ (.bcrypt (pass := q) (.inl rfl) h1) ?_
      · show (strOf "aes256-cbc".toList, _) ∈ _
        rw [hname]
        simp [suites]
      · show Std.crypto.symDec .aes .cbc _ _ (body ++ []) = _
        rw [List.append_nil]
        exact h2
    · have e1 : pl.drop 8 = (pl.drop 4).drop 4 := by rw [List.drop_drop]
      rw [e1, List.append_assoc, List.take_append_drop, List.take_append_drop]
    · show dget [(_, _), (_, Val.str (strOf "aes256-cbc".toList)), _, _, _] _ = _
      rw [hname]
      simp [dget]
  obtain ⟨kl, k1, k2, k3⟩ := key pass r plain hr hdec (by decide +kernel)
  obtain ⟨kl', k1', -, -⟩ := key pass' r' plain' hr' hdec' hb'
  refine ⟨b, kl, kl', k1, ?_, k1', k2⟩
  obtain ⟨x, x1, -, x2⟩ := C32_check_warning ext Std.crypto inp b _ kl k1
  rw [k3] at x1
  cases x1
  rw [x2]
  simp only [ne_eq, not_not]
  decide +kernel

end OSK
