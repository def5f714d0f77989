import Verif.Lemmas.ListRound
/-
The file that `PrivateKeyList.pack_bytes` wrote.
-/
namespace OSK
open Spec

theorem bcrypt_options {d : VDict} {w : Bytes} (h : packDict (kdfFmt .bcrypt) d = .ok w) :
    ∃ salt rounds, named (kdfFmt .bcrypt) d = (bcryptOptions salt (rounds : Nat)).data ∧ BcryptField salt rounds w := by
  obtain ⟨v1, w1, r1, g1, h1, q1, rfl⟩ := packDict_cons_ok_iff.1 h
  obtain ⟨v2, w2, r2, g2, h2, q2, rfl⟩ := packDict_cons_ok_iff.1 q1
  cases q2
  obtain ⟨salt, rfl, hs⟩ := packFI_bytes_iff.1 h1
  obtain ⟨i, rfl⟩ : ∃ i, v2 = .int i := by
    cases v2 <;> first | exact ⟨_, rfl⟩ | (exfalso; simp [packFI, structPack, Val.toSVal, SFmt.pack1, fmtBEI, SCode.pack] at h2)
  obtain ⟨hl, rfl⟩ := pack_uint.1 h2
  refine ⟨salt, digitSum w2, ?_, w1, w2, hs, hl, rfl, by rw [List.append_nil]⟩
  unfold kdfFmt bcryptOptions
  simp only [named, List.filterMap_cons, List.filterMap_nil, g1, g2]
  rfl

theorem names_iff {self : KeyList} {cipher kdf : Str} :
    listCipherKdf self.header = (.str cipher, .str kdf) ↔ Names self cipher kdf := by
  unfold listCipherKdf Names
  rcases self.header with _ | h
  · simp [eq_comm]
  · simp only [Option.some.injEq, forall_eq', exists_eq_left']
    rcases h1 : dget h (py! "cipher") with _ | c <;> rcases h2 : dget h (py! "kdf") with _ | k <;>
      simp [eq_comm]

theorem strEncode_ok {s : Str} {b : Bytes} (h : strEncode s = .ok b) : ∃ cs, s = strOf cs ∧ b = utf8 cs := by
  unfold strEncode at h
  split at h
  · rename_i b' hb
    cases h
    exact utf8Encode?_some hb
  · cases h

theorem enters_of_choose {inp : Inputs} {passphrase : Option Str} {p : Str}
    (h : (choosePassphrase inp false passphrase).res = .ok p) : Enters inp passphrase p := by
  unfold choosePassphrase at h
  cases passphrase with
  | none => exact .inr ⟨rfl, h⟩
  | some q => simp at h; subst h; exact .inl rfl

theorem kdf_bcrypt {s : Str} {kc : KdfCls} (h : getKdfClass (.str s) = .ok kc) (hn : kc ≠ .none) :
    kc = .bcrypt ∧ s = py! "bcrypt" := by
  unfold getKdfClass at h
  simp only at h
  split at h
  · rename_i c hc
    cases h
    have hm := dget_mem hc
    simp only [kdfMapping, List.mem_cons, Prod.mk.injEq, List.not_mem_nil, or_false] at hm
    rcases hm with ⟨h1, h2⟩ | ⟨h1, h2⟩
    · exact absurd h2 hn
    · exact ⟨h2, h1⟩
  · cases h

/-- Without a key derivation function nothing can be encrypted. -/
theorem encrypt_none_kdf {cr : Crypto} (hl : CryptoLaws cr) {t : Val} {cc : CipherCls}
    (hc : getCipherClass t = .ok cc) (hn : cc ≠ .none) (d : VDict) (p : Str) (x : Bytes) :
    ∃ m, encrypt cr cc ⟨.none, d⟩ p x = .error (.valueError m) := by
  rcases class_suite hc with ⟨-, rfl⟩ | ⟨name, su, -, hm, hs⟩
  · exact absurd rfl hn
  · rw [encrypt_ne_none hn]
    have e1 : deriveKey cr ⟨.none, d⟩ p (cc.keyLength + cc.ivLength) = .ok [] := rfl
    rw [e1]
    show ∃ m, encryptWithKeyIv cr cc x (splitKeyIv cc []).1 (splitKeyIv cc []).2 = _
    rw [hs.enc]
    have e2 : (splitKeyIv cc []).1 = [] := by cases cc <;> rfl
    rw [e2]
    exact suite_empty hm hl _ _

theorem ListPack.encloses {cr : Crypto} (hl : CryptoLaws cr) {inp : Inputs} {self : KeyList}
    {passphrase : Option Str} {indices : Option (List Int)} {override retain : Bool} {w : Bytes}
    (k : ListPack cr inp self passphrase indices override retain w) :
    Encloses cr inp passphrase k.f k.plain := by
  rcases class_suite k.cipher with ⟨h1, h2⟩ | ⟨name, su, h1, hm, hs⟩
  · refine .inl ⟨Val.str.inj h1, ?_⟩
    have h3 := k.enc
    have h4 := k.split
    rw [h2] at h3 h4
    have h5 : k.plain = k.f.body ++ k.f.tag := Except.ok.inj h3
    have h6 : (k.f.body, k.f.tag) = (k.f.body ++ k.f.tag, []) := h4
    have h7 : k.f.tag = [] := (Prod.mk.inj h6).2
    exact ⟨by rw [h5, h7, List.append_nil], h7⟩
  · right
    have hkc : k.kc ≠ .none := by
      intro e
      obtain ⟨m, hm'⟩ := encrypt_none_kdf hl k.cipher hs.notNone k.opts k.p k.plain
      have h3 := k.enc
      rw [e, hm'] at h3
      cases h3
    obtain ⟨hb, hbn⟩ := kdf_bcrypt k.kdf hkc
    have hopt := k.options
    rw [hb] at hopt
    obtain ⟨salt, rounds, hn, hf⟩ := bcrypt_options hopt
    have hp : Enters inp passphrase k.p := enters_of_choose (by
      have := k.pass
      rwa [show decide (k.kc = .none) = false by simp [hkc]] at this)
    have h3 := k.enc
    rw [hb] at h3
    rw [encrypt_ne_none hs.notNone, ← deriveKey_named, hn,
      show (⟨.bcrypt, (bcryptOptions salt rounds).data⟩ : KdfOptions) = bcryptOptions salt rounds from rfl,
      ← encrypt_ne_none hs.notNone] at h3
    obtain ⟨cs, hcs, pw, hpw⟩ : ∃ cs, k.p = strOf cs ∧ ∃ pw, strEncode k.p = .ok pw := by
      rcases hq : strEncode k.p with e | b
      · rw [encrypt_ne_none hs.notNone, deriveKey_bcrypt, hq] at h3
        cases h3
      · obtain ⟨cs, hcs, -⟩ := strEncode_ok hq
        exact ⟨cs, hcs, b, rfl⟩
    obtain ⟨cs', hcs', rfl⟩ := strEncode_ok hpw
    rw [hcs] at hcs'
    obtain rfl := strOf_inj hcs'
    obtain ⟨c, hc, hmatch⟩ := C41_key_iv_split hl.kdf_length hm hpw salt rounds k.plain
    have : c = k.cc := by
      have := k.cipher
      rw [h1, hc] at this
      exact Except.ok.inj this
    subst this
    refine ⟨hbn, cs, salt, rounds, hcs ▸ hp, hf, su, ?_⟩
    rw [Val.str.inj h1]
    rcases hkdf : cr.bcryptKdf (utf8 cs) salt (su.key + su.iv) rounds with e | r
    · rw [hkdf] at hmatch
      simp only at hmatch
      rw [hmatch.1] at h3
      cases h3
    · rw [hkdf] at hmatch
      simp only at hmatch
      exact ⟨r, hm, rfl, hmatch.1, by rw [← hmatch.2.1]; exact h3⟩

end OSK
