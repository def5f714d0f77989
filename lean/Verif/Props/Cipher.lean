import Verif.Lemmas.Cipher
/-
The properties of the cipher layer (C41–C43).
-/
namespace OSK
open Spec

/-- C41: for each cipher of the table, the code asks the key derivation function for exactly key length +
vector length bytes, the key is the first part of what it got, and the initialisation vector is the rest
(so the two are disjoint and together everything). -/
theorem C41_key_iv_split {cr : Crypto} (hl : ∀ {p s n r k}, cr.bcryptKdf p s n r = .ok k → k.length = n)
    {name : Str} {su : Suite} (h : (name, su) ∈ suites) {p : Str} {pw : Bytes} (hp : strEncode p = .ok pw)
    (salt : Bytes) (rounds : Int) (x : Bytes) :
    ∃ c, getCipherClass (.str name) = .ok c ∧
      match cr.bcryptKdf pw salt (su.key + su.iv) rounds with
      | .error e =>
        encrypt cr c (bcryptOptions salt rounds) p x = .error e ∧
        decrypt cr c (bcryptOptions salt rounds) p x = .error e
      | .ok r => r.length = su.key + su.iv ∧
        encrypt cr c (bcryptOptions salt rounds) p x = su.enc cr (r.take su.key) (r.drop su.key) x ∧
        decrypt cr c (bcryptOptions salt rounds) p x = su.dec cr (r.take su.key) (r.drop su.key) x := by
  obtain ⟨c, hc, hs⟩ := suite_class h
  refine ⟨c, hc, ?_⟩
  rw [encrypt_ne_none hs.notNone, decrypt_ne_none hs.notNone, deriveKey_bcrypt, hp, hs.key, hs.iv]
  rcases e : cr.bcryptKdf pw salt (su.key + su.iv) rounds with e' | r
  · refine ⟨?_, ?_⟩ <;> (show (cr.bcryptKdf pw salt (su.key + su.iv) rounds >>= _) = _; rw [e]; rfl)
  · obtain ⟨h1, h2⟩ := splitKeyIv_eq hs (hl e)
    refine ⟨hl e, ?_, ?_⟩
    · show (cr.bcryptKdf pw salt (su.key + su.iv) rounds >>= _) = _
      rw [e]
      show encryptWithKeyIv cr c x _ _ = _
      rw [hs.enc, h1]
      by_cases hi : 0 < su.iv
      · rw [h2 hi]
      · exact (suite_iv h hi cr _ _ _ x).1
    · show (cr.bcryptKdf pw salt (su.key + su.iv) rounds >>= _) = _
      rw [e]
      show decryptWithKeyIv cr c x _ _ = _
      rw [hs.dec, h1]
      by_cases hi : 0 < su.iv
      · rw [h2 hi]
      · exact (suite_iv h hi cr _ _ _ x).2

/-- C41: exactly the names in the table, and `none`, are known. -/
theorem C41_names (name : Str) :
    (∃ c, getCipherClass (.str name) = .ok c) ↔ name = py! "none" ∨ name ∈ suites.map Prod.fst := by
  constructor
  · rintro ⟨c, h⟩
    rcases class_suite h with ⟨h, _⟩ | ⟨n, su, h, hm, _⟩
    · cases h; exact .inl rfl
    · cases h; exact .inr (List.mem_map.2 ⟨_, hm, rfl⟩)
  · rintro (rfl | h)
    · exact ⟨.none, by decide +kernel⟩
    · obtain ⟨⟨n, su⟩, hm, rfl⟩ := List.mem_map.1 h
      obtain ⟨c, hc, _⟩ := suite_class hm
      exact ⟨c, hc⟩

/-- With the toy functions, a 16-byte key and a 16-byte vector come from one 32-byte derivation. -/
example : (encrypt toyCrypto .aes128Ctr (bcryptOptions [1, 2, 3] 16) (py! "pw") [7, 7]).toOption
    = some (xorStream (toyStream (((List.range 32).map (toyStream (pb! "pw") [1, 2, 3])).take 16)
        (((List.range 32).map (toyStream (pb! "pw") [1, 2, 3])).drop 16)) 0 [7, 7]) := by decide +kernel

/-- C42: whatever encryption returns, decryption with the same options and passphrase gives back the
plaintext; the ciphertext is longer than it by the tag.  (Block alignment is not needed as a hypothesis:
for an unaligned plaintext a block mode raises, so there is no ciphertext.) -/
theorem C42_decrypt_encrypt {cr : Crypto} (hl : CryptoLaws cr) {t : Val} {c : CipherCls}
    (hc : getCipherClass t = .ok c) (o : KdfOptions) (p : Str) {x y : Bytes}
    (h : encrypt cr c o p x = .ok y) :
    decrypt cr c o p y = .ok x ∧ y.length = x.length + c.tagLength := by
  rcases class_suite hc with ⟨_, rfl⟩ | ⟨n, su, _, hm, hs⟩
  · cases h; exact ⟨rfl, rfl⟩
  · rw [encrypt_ne_none hs.notNone] at h
    rw [decrypt_ne_none hs.notNone]
    rcases hr : deriveKey cr o p (c.keyLength + c.ivLength) with e | r
    · rw [hr] at h; cases h
    · rw [hr] at h
      have h' : encryptWithKeyIv cr c x (splitKeyIv c r).1 (splitKeyIv c r).2 = .ok y := h
      rw [hs.enc] at h'
      obtain ⟨h1, h2⟩ := suite_inv hm hl h'
      refine ⟨?_, by rw [hs.tag]; exact h2⟩
      show decryptWithKeyIv cr c y _ _ = _
      rw [hs.dec]
      exact h1

/-- C42 for ChaCha20-Poly1305: the composition in the code is invertible for any key stream and any
function giving 16-byte tags; no law of the cipher itself is used. -/
theorem C42_chacha {cr : Crypto} (hp : ∀ k x, (cr.poly1305 k x).length = 16) (o : KdfOptions) (p : Str)
    {x y : Bytes} (h : encrypt cr .chacha20Poly1305 o p x = .ok y) :
    decrypt cr .chacha20Poly1305 o p y = .ok x := by
  rw [encrypt_ne_none (by decide)] at h
  rw [decrypt_ne_none (by decide)]
  rcases hr : deriveKey cr o p (CipherCls.chacha20Poly1305.keyLength + CipherCls.chacha20Poly1305.ivLength)
      with e | r
  · rw [hr] at h; cases h
  · rw [hr] at h
    have h' : chachaEncrypt cr x (splitKeyIv .chacha20Poly1305 r).1 = .ok y := h
    rw [chachaEncrypt_eq cr x _ []] at h'
    show chachaDecrypt cr y (splitKeyIv .chacha20Poly1305 r).1 = .ok x
    rw [chachaDecrypt_eq cr y _ []]
    exact (chacha_inv hp h').1

example : (encrypt toyCrypto .chacha20Poly1305 (bcryptOptions [1] 16) (py! "pw") [5, 6]).toOption.isSome
    = true := by decide +kernel
example : (encrypt toyCrypto .aes256Gcm (bcryptOptions [1] 16) (py! "pw") [5, 6]).toOption.isSome
    = true := by decide +kernel
example : (encrypt toyCrypto .tripleDesCbc (bcryptOptions [1] 16) (py! "pw") [5, 6]).toOption.isSome
    = true := by decide +kernel

/-- C43: decryption returns `x` exactly if the derived key is accepted, the last 16 bytes are the Poly1305
tag of the rest under the first 32 bytes of key stream block 0, and `x` is the rest xor the key stream from
block 1 on; and if only the tag is wrong, the exception is `InvalidSignature`. -/
theorem C43_tag (cr : Crypto) {p : Str} {pw : Bytes} (hp : strEncode p = .ok pw) (salt : Bytes)
    (rounds : Int) (y x : Bytes) :
    decrypt cr .chacha20Poly1305 (bcryptOptions salt rounds) p y = .ok x ↔
    ∃ r ks body tag, cr.bcryptKdf pw salt 64 rounds = .ok r ∧
      cr.chacha (r.take 32) (List.replicate 16 0) = .ok ks ∧
      y = body ++ tag ∧ (tag.length = 16 ∨ (body = [] ∧ tag.length < 16)) ∧
      tag = cr.poly1305 ((List.range 32).map ks) body ∧
      x = xorStream ks 64 body := by
  rw [decrypt_ne_none (by decide), deriveKey_bcrypt, hp]
  show (cr.bcryptKdf pw salt 64 rounds >>= fun r =>
    chachaDecrypt cr y (splitKeyIv .chacha20Poly1305 r).1) = .ok x ↔ _
  rcases hr : cr.bcryptKdf pw salt 64 rounds with e | r
  · constructor
    · intro h; cases h
    · rintro ⟨r, ks, body, tag, h, _⟩; cases h
  · have e0 : (splitKeyIv .chacha20Poly1305 r).1 = r.take 64 := sliceTo_nat _ _
    show chachaDecrypt cr y (splitKeyIv .chacha20Poly1305 r).1 = .ok x ↔ _
    rw [chachaDecrypt_eq cr y _ [], e0]
    unfold chachaOpen
    rw [List.take_take, show min 32 64 = 32 from rfl]
    constructor
    · intro h
      split at h
      · cases h
      · rename_i ks hk
        split at h
        · rename_i ht
          cases h
          refine ⟨r, ks, _, _, rfl, hk, (List.take_append_drop (y.length - 16) y).symm, ?_, ht.symm, rfl⟩
          rcases Nat.lt_or_ge y.length 16 with hlt | hge
          · refine .inr ⟨?_, by simp; omega⟩
            rw [show y.length - 16 = 0 by omega, List.take_zero]
          · exact .inl (by simp; omega)
        · cases h
    · rintro ⟨r', ks, body, tag, h, hk, rfl, hlen, ht, rfl⟩
      cases h
      simp only [hk]
      have e1 : (body ++ tag).length - 16 = body.length := by
        simp
        rcases hlen with h | ⟨rfl, h⟩
        · omega
        · simp; omega
      rw [e1, List.take_left' rfl, List.drop_left' rfl]
      rw [if_pos (show cr.poly1305 (oneTimeKey ks) body = tag from ht.symm)]

/-- C43: with a tag of another value nothing is returned. -/
theorem C43_rejects (cr : Crypto) {p : Str} {pw : Bytes} (hp : strEncode p = .ok pw) (salt : Bytes)
    (rounds : Int) {r : Bytes} (hr : cr.bcryptKdf pw salt 64 rounds = .ok r) {ks : Nat → UInt8}
    (hk : cr.chacha (r.take 32) (List.replicate 16 0) = .ok ks) (body tag : Bytes) (ht : tag.length = 16)
    (hn : tag ≠ cr.poly1305 ((List.range 32).map ks) body) :
    decrypt cr .chacha20Poly1305 (bcryptOptions salt rounds) p (body ++ tag) = .error .invalidSignature := by
  rw [decrypt_ne_none (by decide), deriveKey_bcrypt, hp]
  show (cr.bcryptKdf pw salt 64 rounds >>= fun r =>
    chachaDecrypt cr _ (splitKeyIv .chacha20Poly1305 r).1) = _
  rw [hr]
  show chachaDecrypt cr _ (splitKeyIv .chacha20Poly1305 r).1 = _
  have e0 : (splitKeyIv .chacha20Poly1305 r).1 = r.take 64 := sliceTo_nat _ _
  rw [chachaDecrypt_eq cr _ _ [], e0]
  unfold chachaOpen
  rw [List.take_take, show min 32 64 = 32 from rfl]
  simp only [hk]
  have e1 : (body ++ tag).length - 16 = body.length := by simp; omega
  rw [e1, List.take_left' rfl, List.drop_left' rfl]
  rw [if_neg (show ¬cr.poly1305 (oneTimeKey ks) body = tag from fun h => hn h.symm)]

/-- A right and a wrong tag. -/
example : (decrypt toyCrypto .chacha20Poly1305 (bcryptOptions [1] 16) (py! "pw")
    ([9, 9] ++ List.replicate 16 34)).toOption.isSome = true := by decide +kernel
example : decrypt toyCrypto .chacha20Poly1305 (bcryptOptions [1] 16) (py! "pw")
    ([9, 9] ++ List.replicate 16 33) = .error .invalidSignature := by decide +kernel

end OSK
