import Verif.Lemmas.StdCrypto
import Verif.Props.OpenSSHWrite
import Verif.Spec.Both
/-
C104: the laws that other theorems assume of the cryptographic functions hold of the standard algorithms.
-/
namespace OSK
open Spec

theorem Std.symCrypt_inv {alg : SymAlg} {mode : SymMode} {key iv x y : Bytes} (h : Std.symCrypt true alg mode key iv x = .ok y) :
    Std.symCrypt false alg mode key iv y = .ok x ∧ y.length = x.length := by
  unfold Std.symCrypt at h ⊢
  by_cases hk : ¬ Std.keyAllowed alg key.length
  · rw [if_pos hk] at h; cases h
  · by_cases hi : iv.length ≠ Std.blockLength alg
    · rw [if_neg hk, if_pos hi] at h; cases h
    · rw [if_neg hk, if_neg hi] at h ⊢
      cases mode with
      | ctr =>
        cases alg with
        | aes =>
          cases h
          exact ⟨congrArg _ (Std.ctrCrypt_self _ _ _), Std.ctrCrypt_length _ _ _⟩
        | tripleDes => cases h
      | cbc =>
        dsimp only at h ⊢
        by_cases hm : x.length % Std.blockLength alg ≠ 0
        · rw [if_pos hm] at h; cases h
        · rw [if_neg hm, if_pos rfl] at h
          cases h
          have hx : x.length = Std.blockLength alg * (x.length / Std.blockLength alg) := by
            have := Nat.div_add_mod x.length (Std.blockLength alg)
            omega
          have hl := Std.cbcEnc_length (fun b hb => Std.encBlock_length alg key hb) _ iv x hx
          rw [hl, ← hx, if_neg hm, if_neg (by decide),
            Std.cbcDec_enc (fun b hb => Std.encBlock_length alg key hb) (fun b hb => Std.decBlock_enc alg key hb) _ iv x hx]
          exact ⟨rfl, rfl⟩

theorem Std.gcm_inv {key iv x y : Bytes} (h : Std.gcmEnc key iv x = .ok y) :
    Std.gcmDec key iv y = .ok x ∧ y.length = x.length + 16 := by
  unfold Std.gcmEnc at h
  unfold Std.gcmDec
  by_cases hk : ¬ Std.gcmAllowed key iv
  · rw [if_pos hk] at h; cases h
  · rw [if_neg hk] at h ⊢
    cases h
    have hl := Std.gcmCrypt_length (Std.encBlock .aes key) iv x
    have ht := Std.gcmTag_length (Std.encBlock .aes key) iv (Std.gcmCrypt (Std.encBlock .aes key) iv x)
    generalize hc : Std.gcmCrypt (Std.encBlock .aes key) iv x = c at hl ht ⊢
    generalize htag : Std.gcmTag (Std.encBlock .aes key) iv c = t at ht ⊢
    have hn : (c ++ t).length - 16 = c.length := by rw [List.length_append, ht]; omega
    rw [if_neg (by rw [List.length_append, ht]; omega), hn]
    dsimp only
    rw [List.take_left, List.drop_left, htag, if_neg (by simp), ← hc, Std.gcmCrypt_self, hc, List.length_append, ht, hl]
    exact ⟨rfl, rfl⟩

theorem Std.symCrypt_empty (alg : SymAlg) (mode : SymMode) (iv x : Bytes) :
    Std.symCrypt true alg mode [] iv x = .error (.valueError "Invalid key size") := by
  unfold Std.symCrypt
  rw [if_pos (by cases alg <;> decide)]

theorem Std.gcmEnc_empty (iv x : Bytes) :
    Std.gcmEnc [] iv x = .error (.valueError "AESGCM key must be 128, 192, or 256 bits.") := by
  unfold Std.gcmEnc
  rw [if_pos (by unfold Std.gcmAllowed; simp [Std.keyAllowed])]

theorem Std.chacha_empty (n : Bytes) : Std.chacha [] n = .error (.valueError "Invalid key size") := by
  unfold Std.chacha
  rw [if_pos (by decide)]

theorem Std.symCrypt_length {alg : SymAlg} {mode : SymMode} {key iv x y : Bytes} (h : Std.symCrypt false alg mode key iv y = .ok x) :
    y.length = x.length := by
  unfold Std.symCrypt at h
  by_cases hk : ¬ Std.keyAllowed alg key.length
  · rw [if_pos hk] at h; cases h
  · by_cases hi : iv.length ≠ Std.blockLength alg
    · rw [if_neg hk, if_pos hi] at h; cases h
    · rw [if_neg hk, if_neg hi] at h
      cases mode with
      | ctr =>
        cases alg with
        | aes =>
          cases h
          exact (Std.ctrCrypt_length _ _ _).symm
        | tripleDes => cases h
      | cbc =>
        dsimp only at h
        by_cases hm : y.length % Std.blockLength alg ≠ 0
        · rw [if_pos hm] at h; cases h
        · rw [if_neg hm, if_neg (by decide)] at h
          cases h
          have hy : y.length = Std.blockLength alg * (y.length / Std.blockLength alg) := by
            have := Nat.div_add_mod y.length (Std.blockLength alg)
            omega
          rw [Std.cbcDec_length (fun b hb => Std.decBlock_length alg key hb) _ iv y hy]
          exact hy

theorem Std.gcmDec_length {key iv x y : Bytes} (h : Std.gcmDec key iv y = .ok x) : y.length = x.length + 16 := by
  unfold Std.gcmDec at h
  by_cases hk : ¬ Std.gcmAllowed key iv
  · rw [if_pos hk] at h; cases h
  · rw [if_neg hk] at h
    by_cases hl : y.length < 16
    · rw [if_pos hl] at h; cases h
    · rw [if_neg hl] at h
      dsimp only at h
      split at h
      · cases h
      · cases h
        rw [Std.gcmCrypt_length, List.length_take]
        omega

attribute [local irreducible] Std.poly1305 Std.bcryptKdf Std.gcmEnc Std.gcmDec Std.symCrypt Std.chacha

theorem Std.crypto_symEnc : Std.crypto.symEnc = Std.symCrypt true := by unfold Std.crypto; rfl
theorem Std.crypto_gcmEnc : Std.crypto.gcmEnc = Std.gcmEnc := by unfold Std.crypto; rfl
theorem Std.crypto_poly1305 : Std.crypto.poly1305 = Std.poly1305 := by unfold Std.crypto; rfl
theorem Std.crypto_bcryptKdf : Std.crypto.bcryptKdf = Std.bcryptKdf := by unfold Std.crypto; rfl

/-- The standard algorithms have all the properties that theorems about encrypted files assume. -/
theorem C104_laws : CryptoLaws Std.crypto := by
  constructor
  · intro alg mode key iv x y h
    rw [Std.crypto_symEnc] at h
    exact (Std.symCrypt_inv h).1
  · intro alg mode key iv x y h
    rw [Std.crypto_symEnc] at h
    exact (Std.symCrypt_inv h).2
  · intro key iv x y h
    rw [Std.crypto_gcmEnc] at h
    exact (Std.gcm_inv h).1
  · intro key iv x y h
    rw [Std.crypto_gcmEnc] at h
    exact (Std.gcm_inv h).2
  · rw [Std.crypto_poly1305]
    exact Std.poly1305_length
  · intro p s n r k h
    rw [Std.crypto_bcryptKdf] at h
    exact Std.bcryptKdf_length h
  · intro alg mode iv x
    exact ⟨_, Std.symCrypt_empty alg mode iv x⟩
  · intro iv x
    exact ⟨_, Std.gcmEnc_empty iv x⟩
  · intro n
    exact ⟨_, Std.chacha_empty n⟩

theorem Std.crypto_chacha : Std.crypto.chacha = Std.chacha := by unfold Std.crypto; rfl

theorem Std.crypto_symDec : Std.crypto.symDec = Std.symCrypt false := by unfold Std.crypto; rfl
theorem Std.crypto_gcmDec : Std.crypto.gcmDec = Std.gcmDec := by unfold Std.crypto; rfl

/-- The law that C100 assumes. -/
theorem C104_lengths : DecryptLengths Std.crypto where
  sym h := by rw [Std.crypto_symDec] at h; exact Std.symCrypt_length h
  gcm h := by rw [Std.crypto_gcmDec] at h; exact Std.gcmDec_length h

/-- The key derivation function works exactly with a passphrase, a salt, at least one round, and from 1 to 512 bytes. -/
theorem C104_kdf (password salt : Bytes) (n : Nat) (rounds : Int) :
    (∃ k, Std.crypto.bcryptKdf password salt n rounds = .ok k) ↔ password ≠ [] ∧ salt ≠ [] ∧ 1 ≤ n ∧ n ≤ 512 ∧ 1 ≤ rounds := by
  rw [Std.crypto_bcryptKdf]
  have e : ∀ l : Bytes, l.length = 0 ↔ l = [] := fun _ => List.length_eq_zero_iff
  constructor
  · rintro ⟨k, h⟩
    unfold Std.bcryptKdf at h
    by_cases h1 : password.length = 0 ∨ salt.length = 0
    · rw [if_pos h1] at h; cases h
    · rw [if_neg h1] at h
      by_cases h2 : n = 0 ∨ 512 < n
      · rw [if_pos h2] at h; cases h
      · rw [if_neg h2] at h
        by_cases h3 : rounds < 1
        · rw [if_pos h3] at h; cases h
        · rw [e, e, not_or] at h1
          exact ⟨h1.1, h1.2, by omega, by omega, by omega⟩
  · rintro ⟨h1, h2, h3, h4, h5⟩
    refine ⟨Std.bcryptPbkdf password salt n rounds.toNat, ?_⟩
    unfold Std.bcryptKdf
    rw [if_neg (by rw [e, e, not_or]; exact ⟨h1, h2⟩), if_neg (by omega), if_neg (by omega)]

/-- Every cipher of the table encrypts every whole number of blocks, with a key and an initialisation vector of its sizes. -/
theorem C104_encrypts {name : Str} {su : Suite} (h : (name, su) ∈ suites) {key iv plain : Bytes} (hk : key.length = su.key)
    (hi : iv.length = su.iv) (hp : plain.length % su.block = 0) : ∃ y, su.enc Std.crypto key iv plain = .ok y := by
  have hsym : ∀ (alg : SymAlg) (mode : SymMode), Std.keyAllowed alg key.length = true → iv.length = Std.blockLength alg →
      plain.length % Std.blockLength alg = 0 → (mode = .ctr → alg = .aes) → ∃ y, Std.crypto.symEnc alg mode key iv plain = .ok y := by
    intro alg mode h1 h2 h3 h4
    rw [Std.crypto_symEnc]
    unfold Std.symCrypt
    rw [if_neg (by simp [h1]), if_neg (by simp [h2])]
    cases mode with
    | ctr => cases h4 rfl; exact ⟨_, rfl⟩
    | cbc =>
      dsimp only
      rw [if_neg (by simp [h3]), if_pos rfl]
      exact ⟨_, rfl⟩
  have hgcm : Std.keyAllowed .aes key.length = true → iv.length = 12 → ∃ y, Std.crypto.gcmEnc key iv plain = .ok y := by
    intro h1 h2
    rw [Std.crypto_gcmEnc]
    unfold Std.gcmEnc
    rw [if_neg (by unfold Std.gcmAllowed; simp [h1, h2])]
    exact ⟨_, rfl⟩
  unfold suites at h
  simp only [List.mem_cons, Prod.mk.injEq, List.not_mem_nil, or_false] at h
  rcases h with ⟨-, rfl⟩ | ⟨-, rfl⟩ | ⟨-, rfl⟩ | ⟨-, rfl⟩ | ⟨-, rfl⟩ | ⟨-, rfl⟩ | ⟨-, rfl⟩ | ⟨-, rfl⟩ | ⟨-, rfl⟩ | ⟨-, rfl⟩ | ⟨-, rfl⟩
  · exact hsym .tripleDes .cbc (by rw [hk]; rfl) hi hp (fun h => nomatch h)
  · exact hsym .aes .ctr (by rw [hk]; rfl) hi hp (fun _ => rfl)
  · exact hsym .aes .ctr (by rw [hk]; rfl) hi hp (fun _ => rfl)
  · exact hsym .aes .ctr (by rw [hk]; rfl) hi hp (fun _ => rfl)
  · exact hsym .aes .cbc (by rw [hk]; rfl) hi hp (fun _ => rfl)
  · exact hsym .aes .cbc (by rw [hk]; rfl) hi hp (fun _ => rfl)
  · exact hsym .aes .cbc (by rw [hk]; rfl) hi hp (fun _ => rfl)
  · exact hsym .aes .cbc (by rw [hk]; rfl) hi hp (fun _ => rfl)
  · exact hgcm (by rw [hk]; rfl) hi
  · exact hgcm (by rw [hk]; rfl) hi
  · show ∃ y, chachaSeal Std.crypto key iv plain = .ok y
    unfold chachaSeal
    rw [Std.crypto_chacha]
    have : ∃ ks, Std.chacha (key.take 32) (List.replicate 16 0) = .ok ks := by
      unfold Std.chacha
      rw [if_neg (by simp only [List.length_take, hk]; decide), if_neg (by decide)]
      exact ⟨_, rfl⟩
    obtain ⟨ks, hks⟩ := this
    rw [hks]
    exact ⟨_, rfl⟩

theorem Std.suite_sizes {name : Str} {su : Suite} (h : (name, su) ∈ suites) : 1 ≤ su.key + su.iv ∧ su.key + su.iv ≤ 512 := by
  unfold suites at h
  simp only [List.mem_cons, Prod.mk.injEq, List.not_mem_nil, or_false] at h
  rcases h with ⟨-, rfl⟩ | ⟨-, rfl⟩ | ⟨-, rfl⟩ | ⟨-, rfl⟩ | ⟨-, rfl⟩ | ⟨-, rfl⟩ | ⟨-, rfl⟩ | ⟨-, rfl⟩ | ⟨-, rfl⟩ | ⟨-, rfl⟩ | ⟨-, rfl⟩ <;>
    simp only [aesCtr, aesCbc, aesGcm] <;> omega

/-- With the standard algorithms a list of keys is encrypted with any of the ciphers and any passphrase other than the empty one, and is
read again with the same passphrase: nothing is assumed of the cryptographic functions. -/
theorem C104_file {ext : Ext} (inp inp' : Inputs) (self : KeyList) (passphrase passphrase' : Option Str) (indices : Option (List Int))
    (override retain : Bool) (cipher : Str) (su : Suite) (salt : Bytes) (rounds : Nat) (pass : List Char) (sel : List Pair)
    (privs : List Bytes) (hn : Names self cipher (py! "bcrypt")) (hsu : (cipher, su) ∈ suites)
    (hu : Uses inp self retain salt rounds) (hsalt : salt ≠ []) (hsl : salt.length + 8 < 2 ^ 32) (hr : 1 ≤ rounds) (hrl : rounds < 2 ^ 32)
    (hpass : pass ≠ []) (he : Enters inp passphrase (strOf pass)) (he' : Enters inp' passphrase' (strOf pass))
    (hk : ∀ p ∈ self.pairs, Constructed ext p.pub ∧ p.priv.kind = .priv ∧ Constructed ext p.priv)
    (hsel : Selection self.pairs indices sel) (hcount : sel.length < 2 ^ 31)
    (hpub : ∀ p ∈ sel, ∃ b, packPublicBytes (if override then p.priv else p.pub) = .ok b ∧ b.length < 2 ^ 32)
    (hpriv : List.Forall₂ (fun (p : Pair) b => packPrivateBytes p.priv = .ok b) sel privs)
    (hsize : privs.flatten.length + 24 ≤ 2 ^ 32) (hi : inp.checkInt < 2 ^ 32) :
    ∃ w kl, (packKeyList Std.crypto inp self passphrase indices override retain).res = .ok w ∧
      (listFromBytes ext Std.crypto inp' w passphrase').res = .ok kl ∧
      List.Forall₂ (fun (p q : Pair) => SamePublic (if override then p.priv else p.pub) q.pub ∧
        SamePrivate p.priv q.priv ∧ q.priv.clear = []) sel kl.pairs := by
  have hutf : utf8 pass ≠ [] := by
    cases pass with
    | nil => exact absurd rfl hpass
    | cons c t =>
      intro h0
      have h1 : (String.utf8EncodeChar c).length + (utf8 t).length = 0 := by
        rw [← List.length_append]
        exact congrArg List.length h0
      have := Char.utf8Size_pos c
      rw [String.length_utf8EncodeChar] at h1
      omega
  obtain ⟨hs1, hs2⟩ := Std.suite_sizes hsu
  obtain ⟨r, hkdf⟩ := (C104_kdf (utf8 pass) salt (su.key + su.iv) rounds).2 ⟨hutf, hsalt, hs1, hs2, by omega⟩
  have hlen := C104_laws.kdf_length hkdf
  have hready : Ready Std.crypto inp self passphrase retain cipher (py! "bcrypt") :=
    .inr ⟨rfl, salt, rounds, hu, hsl, hrl, .inr ⟨pass, su, r, he, hsu, hkdf, fun plain hp =>
      C104_encrypts hsu (by rw [List.length_take, hlen]; omega) (by rw [List.length_drop, hlen]; omega) hp⟩⟩
  obtain ⟨w, hw⟩ := C69_succeeds C104_laws inp self passphrase indices override retain cipher _ sel privs hn hready hsel hcount hpub hpriv
    hsize hi
  have hp : ∀ p, Enters inp passphrase p → Enters inp' passphrase' p := by
    intro p hp
    have : p = strOf pass := by
      rcases he with he | ⟨he, ha⟩ <;> rcases hp with hp | ⟨hp, hb⟩
      · rw [he] at hp; cases hp; rfl
      · rw [he] at hp; cases hp
      · rw [he] at hp; cases hp
      · rw [ha] at hb; cases hb; rfl
    rw [this]
    exact he'
  obtain ⟨kl, sel', h1, h2, h3⟩ := C25_round_trip C104_laws inp inp' self passphrase passphrase' indices override retain w hk hp hw
  have : sel' = sel := selection_unique h2 hsel
  subst this
  exact ⟨w, kl, hw, h1, h3⟩

/-- The example list, two pairs encrypted with AES-256 under the passphrase `pw` entered at a prompt. -/
example : ∃ w kl, (packKeyList Std.crypto exInputs exList none none false true).res = .ok w ∧
    (listFromBytes exExt Std.crypto exInputs w (some (py! "pw"))).res = .ok kl ∧ kl.pairs.length = 2 := by
  obtain ⟨w, kl, h1, h2, h3⟩ := C104_file exInputs exInputs exList none (some (py! "pw")) none false true (py! "aes256-ctr")
    (aesCtr 32) [1, 2, 3] 16 ['p', 'w'] exList.pairs
    [(packPrivateBytes exEd).toOption.getD [], (packPrivateBytes exRsaPriv).toOption.getD []]
    (.inl ⟨_, rfl, by decide +kernel, by decide +kernel⟩) (by unfold suites; simp [aesCtr])
    (.inl ⟨_, rfl, rfl, by decide +kernel, by decide +kernel⟩) (by decide) (by decide) (by decide) (by decide) (by decide)
    (.inr ⟨rfl, by decide +kernel⟩) (.inl (by decide +kernel)) exList_constructed rfl (by decide +kernel)
    (by
      intro p hp
      rcases List.mem_cons.1 hp with rfl | hp
      · exact ⟨(packPublicBytes exEdPub).toOption.getD [], by decide +kernel, by decide +kernel⟩
      · rcases List.mem_cons.1 hp with rfl | hp
        · exact ⟨(packPublicBytes exPub).toOption.getD [], by decide +kernel, by decide +kernel⟩
        · cases hp)
    (.cons (by decide +kernel) (.cons (by decide +kernel) .nil)) (by decide +kernel) (by decide)
  exact ⟨w, kl, h1, h2, h3.length_eq.symm.trans rfl⟩

end OSK
