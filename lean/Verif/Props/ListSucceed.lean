import Verif.Lemmas.ListSucceed
import Verif.Props.ListPack
/-
Property C69: when a key list can be packed.
-/
namespace OSK
open Spec

/-! ### C69 -/

/-- Names of ciphers are text of less than 4 GiB. -/
theorem suite_name {name : Str} {su : Suite} (h : (name, su) ∈ suites) :
    ∃ cs, name = strOf cs ∧ (utf8 cs).length < 2 ^ 32 := by
  unfold suites at h
  simp only [List.mem_cons, Prod.mk.injEq, List.not_mem_nil, or_false] at h
  rcases h with h | h | h | h | h | h | h | h | h | h | h <;> obtain ⟨rfl, rfl⟩ := h
  · exact ⟨"3des-cbc".toList, by decide +kernel, by decide +kernel⟩
  · exact ⟨"aes128-ctr".toList, by decide +kernel, by decide +kernel⟩
  · exact ⟨"aes192-ctr".toList, by decide +kernel, by decide +kernel⟩
  · exact ⟨"aes256-ctr".toList, by decide +kernel, by decide +kernel⟩
  · exact ⟨"aes128-cbc".toList, by decide +kernel, by decide +kernel⟩
  · exact ⟨"aes192-cbc".toList, by decide +kernel, by decide +kernel⟩
  · exact ⟨"aes256-cbc".toList, by decide +kernel, by decide +kernel⟩
  · exact ⟨"rijndael-cbc@lysator.liu.se".toList, by decide +kernel, by decide +kernel⟩
  · exact ⟨"aes128-gcm@openssh.com".toList, by decide +kernel, by decide +kernel⟩
  · exact ⟨"aes256-gcm@openssh.com".toList, by decide +kernel, by decide +kernel⟩
  · exact ⟨"chacha20-poly1305@openssh.com".toList, by decide +kernel, by decide +kernel⟩

theorem bcrypt_packs {opts : VDict} {salt : Bytes} {rounds : Nat} (h1 : dget opts (py! "salt") = some (.bytes salt))
    (h2 : dget opts (py! "rounds") = some (.int rounds)) (hs : salt.length + 8 < 2 ^ 32) (hr : rounds < 2 ^ 32) :
    ∃ ob, packDict (kdfFmt .bcrypt) opts = .ok ob ∧ ob.length < 2 ^ 32 := by
  obtain ⟨a, ha, hal⟩ := prefixed_exists (b := salt) (by omega)
  obtain ⟨b, hb, hbd⟩ := uint_exists hr
  refine ⟨a ++ (b ++ []), packDict_cons_ok_iff.2 ⟨_, _, _, h1, packFI_bytes_iff.2 ⟨_, rfl, ha⟩,
    packDict_cons_ok_iff.2 ⟨_, _, _, h2, pack_uint.2 ⟨hb, by rw [hbd]⟩, rfl, rfl⟩, rfl⟩, ?_⟩
  simp only [List.length_append, List.length_nil]
  omega

/-- **C69.** Packing a key list succeeds whenever it can: the selected indices exist, the keys can be packed,
everything fits its length field, and there is what it takes to encrypt (`Spec.Ready`). -/
theorem C69_succeeds {cr : Crypto} (hl : CryptoLaws cr) (inp : Inputs) (self : KeyList) (passphrase : Option Str)
    (indices : Option (List Int)) (override retain : Bool) (cipher kdf : Str) (sel : List Pair)
    (privs : List Bytes) (hn : Names self cipher kdf) (hr : Ready cr inp self passphrase retain cipher kdf)
    (hsel : Selection self.pairs indices sel) (hcount : sel.length < 2 ^ 31)
    (hpub : ∀ p ∈ sel, ∃ b, packPublicBytes (if override then p.priv else p.pub) = .ok b ∧ b.length < 2 ^ 32)
    (hpriv : List.Forall₂ (fun (p : Pair) b => packPrivateBytes p.priv = .ok b) sel privs)
    (hsize : privs.flatten.length + 24 ≤ 2 ^ 32) (hi : inp.checkInt < 2 ^ 32) :
    ∃ w, (packKeyList cr inp self passphrase indices override retain).res = .ok w := by
  have hnone : (py! "none") = strOf "none".toList ∧ (utf8 "none".toList).length < 2 ^ 32 := by
    constructor <;> decide +kernel
  have hbc : (py! "bcrypt") = strOf "bcrypt".toList ∧ (utf8 "bcrypt".toList).length < 2 ^ 32 := by
    constructor <;> decide +kernel
  have hn' := names_iff.2 hn
  have k0 : getKdfClass (.str (py! "none")) = .ok .none := by decide +kernel
  have k1 : getKdfClass (.str (py! "bcrypt")) = .ok .bcrypt := by decide +kernel
  have c0 : getCipherClass (.str (py! "none")) = .ok .none := by decide +kernel
  rcases hr with ⟨rfl, rfl⟩ | ⟨rfl, salt, rounds, hu, hsl, hrl, hc⟩
  · obtain ⟨opts, ho⟩ := chooseKdfOptions_none inp self.kdfOptions retain
    rw [hnone.1] at hn' k0 c0 ho
    exact pack_from_steps hn' hnone.2 hnone.2 hsel hcount hpub hpriv hi ho k0 c0 (ob := []) rfl (by decide)
      (pass := []) rfl (fun plain _ hlt => ⟨plain, rfl, by
        have e : (CipherCls.none).blockSize = 8 := rfl
        show plain.length < _
        omega⟩)
  · obtain ⟨opts, ho, g1, g2⟩ := chooseKdfOptions_uses hu
    obtain ⟨ob, hob, hobl⟩ := bcrypt_packs g1 g2 hsl hrl
    rcases hc with ⟨rfl, pass, hp⟩ | ⟨pass, su, r, hp, hsu, hkdf, henc⟩
    · rw [hnone.1] at hn' c0
      rw [hbc.1] at hn' k1 ho
      exact pack_from_steps hn' hnone.2 hbc.2 hsel hcount hpub hpriv hi ho k1 c0 hob hobl
        (choosePassphrase_enters hp) (fun plain _ hlt => ⟨plain, rfl, by
          have e : (CipherCls.none).blockSize = 8 := rfl
          show plain.length < _
          omega⟩)
    · obtain ⟨cs, rfl, hcl⟩ := suite_name hsu
      obtain ⟨c, hcc, his⟩ := suite_class hsu
      rw [hbc.1] at hn' k1 ho
      refine pack_from_steps hn' hcl hbc.2 hsel hcount hpub hpriv hi ho k1 hcc hob hobl
        (choosePassphrase_enters hp) (fun plain hm hlt => ?_)
      rw [his.block] at hm hlt
      obtain ⟨y, hy⟩ := henc plain hm
      have hs := C41_key_iv_split hl.kdf_length hsu (p := strOf pass) (by unfold strEncode; rw [utf8Encode?_chars]) salt rounds plain
      obtain ⟨c', hc', hs⟩ := hs
      rw [hcc] at hc'
      cases hc'
      rw [hkdf] at hs
      obtain ⟨-, hs, -⟩ := hs
      have hy' : encrypt cr c ⟨.bcrypt, opts⟩ (strOf pass) plain = .ok y := by
        rw [encrypt_ne_none his.notNone, deriveKey_dget _ _ g1 g2, ← encrypt_ne_none his.notNone, hs, hy]
      refine ⟨y, hy', ?_⟩
      have hb : su.block ≤ 16 := by
        rw [← his.block]; cases c <;> decide
      have h1 := congrArg List.length (bodyTag_append c y)
      rw [List.length_append] at h1
      have h2 := (suite_inv hsu hl hy).2
      have h3 := bodyTag_length (c := c) (y := y) (by rw [his.tag]; omega)
      rw [his.tag] at h3
      omega

end OSK
