import Verif.Spec.Cipher
import Verif.Lemmas.Slice
import Verif.Lemmas.Dict
/-
Lemmas about the cipher layer: each class against its line of the cipher table.
-/
namespace OSK
open Spec

theorem streamUpdate_eq (ks : Nat → UInt8) (a : Bytes) : ∀ pos, streamUpdate ks pos a = xorStream ks pos a := by
  induction a with
  | nil => intro pos; rfl
  | cons x t ih => intro pos; rw [streamUpdate, ih, xorStream_cons]

theorem oneTimeKey_eq (ks : Nat → UInt8) :
    sliceTo (streamUpdate ks 0 (List.replicate chachaBlock 0)) polyKeyLength = oneTimeKey ks := by
  rw [sliceTo_nat, streamUpdate_eq]
  unfold oneTimeKey
  apply List.ext_getElem
  · simp [xorStream_length, chachaBlock, polyKeyLength]
  · intro i h1 h2
    simp [xorStream]

theorem chachaEncrypt_eq (cr : Crypto) (plain key iv : Bytes) :
    chachaEncrypt cr plain key = chachaSeal cr key iv plain := by
  unfold chachaEncrypt chachaSeal
  rw [show sliceTo key (chachaKeyLength : Int) = key.take 32 from sliceTo_nat _ _,
    show chachaNonce = List.replicate 16 0 from rfl]
  rcases cr.chacha (key.take 32) (List.replicate 16 0) with e | ks
  · rfl
  · show Except.ok _ = Except.ok _
    rw [oneTimeKey_eq, streamUpdate_eq]
    rfl

theorem chachaDecrypt_eq (cr : Crypto) (cipher key iv : Bytes) :
    chachaDecrypt cr cipher key = chachaOpen cr key iv cipher := by
  unfold chachaDecrypt chachaOpen
  rw [show sliceTo key (chachaKeyLength : Int) = key.take 32 from sliceTo_nat _ _,
    show chachaNonce = List.replicate 16 0 from rfl,
    show (CipherCls.chacha20Poly1305.tagLength : Int) = ((16 : Nat) : Int) from rfl,
    sliceTo_neg _ (by decide), sliceFrom_neg _ (by decide)]
  dsimp only
  rcases cr.chacha (key.take 32) (List.replicate 16 0) with e | ks
  · rfl
  · show (if _ then _ else _) = (if _ then _ else _)
    rw [oneTimeKey_eq, streamUpdate_eq]
    by_cases h : cr.poly1305 (oneTimeKey ks) (cipher.take (cipher.length - 16))
        = cipher.drop (cipher.length - 16)
    · rw [if_neg (not_not_intro h), if_pos h]; rfl
    · rw [if_pos h, if_neg h]

/-- The class is that of the table line. -/
structure IsSuite (c : CipherCls) (su : Suite) : Prop where
  notNone : c ≠ .none
  block : c.blockSize = su.block
  key : c.keyLength = su.key
  iv : c.ivLength = su.iv
  integrity : c.isIntegrity = decide (0 < su.tag)
  tag : c.tagLength = su.tag
  enc : ∀ cr plain key iv, encryptWithKeyIv cr c plain key iv = su.enc cr key iv plain
  dec : ∀ cr cipher key iv, decryptWithKeyIv cr c cipher key iv = su.dec cr key iv cipher

theorem suite_class {name : Str} {su : Suite} (h : (name, su) ∈ suites) :
    ∃ c, getCipherClass (.str name) = .ok c ∧ IsSuite c su := by
  unfold suites at h
  simp only [List.mem_cons, Prod.mk.injEq, List.not_mem_nil, or_false] at h
  rcases h with h | h | h | h | h | h | h | h | h | h | h <;> obtain ⟨rfl, rfl⟩ := h
  · exact ⟨.tripleDesCbc, by decide +kernel, by decide, rfl, rfl, rfl, rfl, rfl, fun _ _ _ _ => rfl, fun _ _ _ _ => rfl⟩
  · exact ⟨.aes128Ctr, by decide +kernel, by decide, rfl, rfl, rfl, rfl, rfl, fun _ _ _ _ => rfl, fun _ _ _ _ => rfl⟩
  · exact ⟨.aes192Ctr, by decide +kernel, by decide, rfl, rfl, rfl, rfl, rfl, fun _ _ _ _ => rfl, fun _ _ _ _ => rfl⟩
  · exact ⟨.aes256Ctr, by decide +kernel, by decide, rfl, rfl, rfl, rfl, rfl, fun _ _ _ _ => rfl, fun _ _ _ _ => rfl⟩
  · exact ⟨.aes128Cbc, by decide +kernel, by decide, rfl, rfl, rfl, rfl, rfl, fun _ _ _ _ => rfl, fun _ _ _ _ => rfl⟩
  · exact ⟨.aes192Cbc, by decide +kernel, by decide, rfl, rfl, rfl, rfl, rfl, fun _ _ _ _ => rfl, fun _ _ _ _ => rfl⟩
  · exact ⟨.aes256Cbc, by decide +kernel, by decide, rfl, rfl, rfl, rfl, rfl, fun _ _ _ _ => rfl, fun _ _ _ _ => rfl⟩
  · exact ⟨.aes256Cbc, by decide +kernel, by decide, rfl, rfl, rfl, rfl, rfl, fun _ _ _ _ => rfl, fun _ _ _ _ => rfl⟩
  · exact ⟨.aes128Gcm, by decide +kernel, by decide, rfl, rfl, rfl, rfl, rfl, fun _ _ _ _ => rfl, fun _ _ _ _ => rfl⟩
  · exact ⟨.aes256Gcm, by decide +kernel, by decide, rfl, rfl, rfl, rfl, rfl, fun _ _ _ _ => rfl, fun _ _ _ _ => rfl⟩
  · exact ⟨.chacha20Poly1305, by decide +kernel, by decide, rfl, rfl, rfl, rfl, rfl,
      fun cr p k iv => chachaEncrypt_eq cr p k iv, fun cr p k iv => chachaDecrypt_eq cr p k iv⟩

/-- Every class but `none` has a line in the table. -/
theorem class_suite {t : Val} {c : CipherCls} (h : getCipherClass t = .ok c) :
    (t = .str (py! "none") ∧ c = .none) ∨
    ∃ name su, t = .str name ∧ (name, su) ∈ suites ∧ IsSuite c su := by
  unfold getCipherClass at h
  split at h
  · rename_i s
    split at h
    · rename_i c' hc
      cases h
      have hm : (s, c) ∈ cipherMapping := dget_mem hc
      have table : ∀ x ∈ cipherMapping.map Prod.fst, x = py! "none" ∨ x ∈ suites.map Prod.fst := by
        decide +kernel
      have hn : s = py! "none" ∨ ∃ su, (s, su) ∈ suites := by
        rcases table s (List.mem_map.2 ⟨_, hm, rfl⟩) with h | h
        · exact .inl h
        · obtain ⟨q, hq, rfl⟩ := List.mem_map.1 h
          exact .inr ⟨q.2, hq⟩
      rcases hn with rfl | ⟨su, hsu⟩
      · refine .inl ⟨rfl, ?_⟩
        have : dget cipherMapping (py! "none") = some .none := by decide +kernel
        rw [this] at hc
        exact (Option.some.inj hc).symm
      · obtain ⟨c', hc', hs⟩ := suite_class hsu
        unfold getCipherClass at hc'
        simp only [hc] at hc'
        cases hc'
        exact .inr ⟨s, su, rfl, hsu, hs⟩
    · cases h
  · cases h

/-- No suite has an empty key or block, and the key and the vector are shorter than their total. -/
theorem suite_sizes {name : Str} {su : Suite} (h : (name, su) ∈ suites) :
    0 < su.key ∧ 0 < su.block ∧ su.block < 256 ∧ (su.tag = 0 ∨ su.tag = 16) := by
  unfold suites at h
  simp only [List.mem_cons, Prod.mk.injEq, List.not_mem_nil, or_false] at h
  rcases h with h | h | h | h | h | h | h | h | h | h | h <;> obtain ⟨rfl, rfl⟩ := h <;>
    simp [aesCtr, aesCbc, aesGcm]

theorem chacha_inv {cr : Crypto} (hp : ∀ k x, (cr.poly1305 k x).length = 16) {key iv x y : Bytes}
    (h : chachaSeal cr key iv x = .ok y) : chachaOpen cr key iv y = .ok x ∧ y.length = x.length + 16 := by
  unfold chachaSeal at h
  unfold chachaOpen
  split at h
  · cases h
  · cases h
    simp [hp, xorStream_twice, xorStream_length]

theorem suite_inv {name : Str} {su : Suite} (h : (name, su) ∈ suites) {cr : Crypto} (hl : CryptoLaws cr)
    {key iv x y : Bytes} (he : su.enc cr key iv x = .ok y) :
    su.dec cr key iv y = .ok x ∧ y.length = x.length + su.tag := by
  unfold suites at h
  simp only [List.mem_cons, Prod.mk.injEq, List.not_mem_nil, or_false] at h
  rcases h with h | h | h | h | h | h | h | h | h | h | h <;> obtain ⟨rfl, rfl⟩ := h
  · exact ⟨hl.sym_inv he, hl.sym_length he⟩
  · exact ⟨hl.sym_inv he, hl.sym_length he⟩
  · exact ⟨hl.sym_inv he, hl.sym_length he⟩
  · exact ⟨hl.sym_inv he, hl.sym_length he⟩
  · exact ⟨hl.sym_inv he, hl.sym_length he⟩
  · exact ⟨hl.sym_inv he, hl.sym_length he⟩
  · exact ⟨hl.sym_inv he, hl.sym_length he⟩
  · exact ⟨hl.sym_inv he, hl.sym_length he⟩
  · exact ⟨hl.gcm_inv he, hl.gcm_length he⟩
  · exact ⟨hl.gcm_inv he, hl.gcm_length he⟩
  · exact chacha_inv (iv := iv) hl.poly_length he

theorem suite_empty {name : Str} {su : Suite} (h : (name, su) ∈ suites) {cr : Crypto} (hl : CryptoLaws cr)
    (iv x : Bytes) : ∃ m, su.enc cr [] iv x = .error (.valueError m) := by
  unfold suites at h
  simp only [List.mem_cons, Prod.mk.injEq, List.not_mem_nil, or_false] at h
  rcases h with h | h | h | h | h | h | h | h | h | h | h <;> obtain ⟨rfl, rfl⟩ := h
  · exact hl.sym_empty _ _ _ _
  · exact hl.sym_empty _ _ _ _
  · exact hl.sym_empty _ _ _ _
  · exact hl.sym_empty _ _ _ _
  · exact hl.sym_empty _ _ _ _
  · exact hl.sym_empty _ _ _ _
  · exact hl.sym_empty _ _ _ _
  · exact hl.sym_empty _ _ _ _
  · exact hl.gcm_empty _ _
  · exact hl.gcm_empty _ _
  · obtain ⟨m, hm⟩ := hl.chacha_empty (List.replicate 16 0)
    refine ⟨m, ?_⟩
    show chachaSeal cr [] iv x = _
    unfold chachaSeal
    rw [List.take_nil, hm]

theorem encrypt_ne_none {cr : Crypto} {c : CipherCls} (h : c ≠ .none) (o : KdfOptions) (p : Str) (x : Bytes) :
    encrypt cr c o p x = (do
      let r ← deriveKey cr o p (c.keyLength + c.ivLength)
      encryptWithKeyIv cr c x (splitKeyIv c r).1 (splitKeyIv c r).2) := by
  cases c <;> first | exact absurd rfl h | rfl

theorem decrypt_ne_none {cr : Crypto} {c : CipherCls} (h : c ≠ .none) (o : KdfOptions) (p : Str) (x : Bytes) :
    decrypt cr c o p x = (do
      let r ← deriveKey cr o p (c.keyLength + c.ivLength)
      decryptWithKeyIv cr c x (splitKeyIv c r).1 (splitKeyIv c r).2) := by
  cases c <;> first | exact absurd rfl h | rfl

theorem deriveKey_bcrypt (cr : Crypto) (salt : Bytes) (rounds : Int) (p : Str) (n : Nat) :
    deriveKey cr (bcryptOptions salt rounds) p n
      = (do let pw ← strEncode p; cr.bcryptKdf pw salt n rounds) := by
  have e1 : getItem (bcryptOptions salt rounds).data (py! "salt") = .ok (.bytes salt) := rfl
  have e2 : getItem (bcryptOptions salt rounds).data (py! "rounds") = .ok (.int rounds) := rfl
  unfold deriveKey
  simp only [e1, e2]
  rfl

/-- The vector of the ChaCha20-Poly1305 cipher is not used. -/
theorem splitKeyIv_eq {su : Suite} {c : CipherCls} (hs : IsSuite c su)
    {r : Bytes} (hr : r.length = su.key + su.iv) :
    (splitKeyIv c r).1 = r.take su.key ∧ (0 < su.iv → (splitKeyIv c r).2 = r.drop su.key) := by
  unfold splitKeyIv
  rw [hs.key, hs.iv]
  refine ⟨sliceTo_nat _ _, fun hi => ?_⟩
  rw [sliceFrom_neg _ hi, hr, Nat.add_sub_cancel]

theorem suite_iv {name : Str} {su : Suite} (h : (name, su) ∈ suites) (hi : ¬0 < su.iv) (cr : Crypto)
    (key iv iv' x : Bytes) : su.enc cr key iv x = su.enc cr key iv' x ∧ su.dec cr key iv x = su.dec cr key iv' x := by
  unfold suites at h
  simp only [List.mem_cons, Prod.mk.injEq, List.not_mem_nil, or_false] at h
  rcases h with h | h | h | h | h | h | h | h | h | h | h <;> obtain ⟨rfl, rfl⟩ := h
  all_goals first | exact absurd (by decide) hi | exact ⟨rfl, rfl⟩

end OSK
