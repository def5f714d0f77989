import Verif.Props.Clear
import Verif.Spec.Once
/-
C124: what the key derivation function is used for.
-/
namespace OSK
open Spec

theorem decryptWithKeyIv_kdf (cr : Crypto) (kdf : Bytes → Bytes → Nat → Int → Except Exn Bytes) (c : CipherCls) (x key iv : Bytes) :
    decryptWithKeyIv (withKdf cr kdf) c x key iv = decryptWithKeyIv cr c x key iv := by
  cases c <;> rfl

/-- The other functions are used in the same way. -/
theorem decrypt_kdf {cr : Crypto} {kdf : Bytes → Bytes → Nat → Int → Except Exn Bytes} {c : CipherCls} {o : KdfOptions} {p : Str}
    (h : c = .none ∨ deriveKey (withKdf cr kdf) o p (c.keyLength + c.ivLength) = deriveKey cr o p (c.keyLength + c.ivLength)) (x : Bytes) :
    decrypt (withKdf cr kdf) c o p x = decrypt cr c o p x := by
  by_cases hc : c = .none
  · rw [hc]; rfl
  · have h := h.resolve_left hc
    rw [decrypt_ne_none hc, decrypt_ne_none hc, h]
    simp only [decryptWithKeyIv_kdf]

/-- Reading depends on the cryptographic functions by what they decrypt only. -/
theorem reading_decrypts {ext : Ext} {cr cr' : Crypto} {inp : Inputs} {b : Bytes} {passphrase : Option Str}
    (h : ∀ f o cc m p, ClearPart b f → getKdfClass (.str (strOf f.kdf)) = .ok o.cls → getCipherClass (.str (strOf f.cipher)) = .ok cc →
      prs (readDict (kdfFmt o.cls)) f.options = (.ok o.data, m) → (choosePassphrase inp (o.cls = .none) passphrase).res = .ok p →
      ∀ x, decrypt cr' cc o p x = decrypt cr cc o p x) :
    listFromBytes ext cr' inp b passphrase = listFromBytes ext cr inp b passphrase := by
  rcases hr : (clearPart ext b).res with e | x
  · rw [listFromBytes_prefix.1 e hr, listFromBytes_prefix.1 e hr]
  obtain ⟨f, hf⟩ := clearPart_ok hr
  obtain ⟨ks, kc, o, cc, s, hx, hk, hc, rfl, m, ho⟩ := clearPart_reads (ext := ext) hf
  unfold listFromBytes
  rw [listFromBytesBody_parts, listFromBytesBody_parts]
  refine congrArg (fun y => Eff.tryCatch y _) ?_
  refine Eff.bind_congr fun y hy => ?_
  rw [hx] at hy
  have hy := (Except.ok.inj hy).symm
  subst hy
  refine Eff.bind_congr fun p hp => ?_
  unfold hiddenPart
  refine Eff.bind_congr fun y _ => ?_
  rw [newKdf_read ho]
  simp only [Eff.pure_bind]
  rw [h f o cc m p hf hk hc ho hp]

/-- The fields before the tag are determined. -/
theorem clear_unique {b : Bytes} {f f' : KeyFile} {w w' post post' : Bytes} (h : f.Lays w) (e : b = w ++ post) (h' : f'.Lays w')
    (e' : b = w' ++ post') : f.cipher = f'.cipher ∧ f.kdf = f'.kdf ∧ f.options = f'.options := by
  obtain ⟨x, y, h1, -, rfl⟩ := h
  obtain ⟨x', y', h1', -, rfl⟩ := h'
  rw [e] at e'
  simp only [List.append_assoc] at e'
  obtain ⟨g1, g2, g3, -⟩ := front_unique h1 h1' e'
  exact ⟨g1, g2, g3⟩

theorem options_read {f : KeyFile} {o : KdfOptions} {m : Nat} (hk : getKdfClass (.str (strOf f.kdf)) = .ok o.cls)
    (ho : prs (readDict (kdfFmt o.cls)) f.options = (.ok o.data, m)) {salt w r : Bytes} {rounds : Nat}
    (hb : strOf f.kdf = py! "bcrypt") (hw : BcryptField salt rounds w) (hr : f.options = w ++ r) : o = bcryptOptions salt rounds := by
  obtain ⟨cls, d⟩ := o
  simp only at hk ho
  rcases getKdfClass_iff.1 hk with ⟨h, rfl⟩ | ⟨h, rfl⟩
  · rw [hb] at h; exact absurd h (by decide)
  · have e := readDict_encodes (kdf_wire .bcrypt) (bcrypt_fields.2 ⟨_, _, hw, rfl⟩) r
    rw [← hr, ho] at e
    simp only [Prod.mk.injEq, Except.ok.injEq] at e
    rw [e.1]
    rfl

/-- **C124** (not used). The key derivation function is not used for a file whose clear part is not in order, that names `none` as cipher,
or that names `none` as key derivation function: result, warnings and questions are the same with any other one. -/
theorem C124_unused (ext : Ext) (cr : Crypto) (kdf : Bytes → Bytes → Nat → Int → Except Exn Bytes) (inp : Inputs) (b : Bytes)
    (passphrase : Option Str) (h : ∀ f, ClearPart b f → strOf f.cipher = py! "none" ∨ strOf f.kdf = py! "none") :
    listFromBytes ext (withKdf cr kdf) inp b passphrase = listFromBytes ext cr inp b passphrase := by
  refine reading_decrypts fun f o cc m p hf hk hc ho hp => decrypt_kdf ?_
  rcases h f hf with h | h
  · left
    rw [h] at hc
    exact (Except.ok.inj ((show getCipherClass (.str (py! "none")) = .ok .none by decide +kernel).symm.trans hc)).symm
  · right
    rcases getKdfClass_iff.1 hk with ⟨-, h'⟩ | ⟨h', -⟩
    · unfold deriveKey
      rw [h']
    · rw [h] at h'
      exact absurd h' (by decide)

/-- **C124** (used once), partial. Missing: a limit to the rounds, which there is not (`C124_full`, `C124_false`). For any other file it is used for one argument only, the same whatever the function gives: the passphrase that is
entered, salt and rounds as they stand in the file, and the number of bytes that the cipher needs. A function that gives the same
there leads to the same result, warnings and questions. -/
theorem C124_once_partial (ext : Ext) (cr : Crypto) (kdf : Bytes → Bytes → Nat → Int → Except Exn Bytes) (inp : Inputs) (b : Bytes)
    (passphrase : Option Str) (f : KeyFile) (su : Suite) (salt w r : Bytes) (rounds : Nat) (hf : ClearPart b f)
    (hc : (strOf f.cipher, su) ∈ suites) (hb : strOf f.kdf = py! "bcrypt") (hw : BcryptField salt rounds w) (hr : f.options = w ++ r)
    (h : ∀ pass, Enters inp passphrase (strOf pass) →
      kdf (utf8 pass) salt (su.key + su.iv) rounds = cr.bcryptKdf (utf8 pass) salt (su.key + su.iv) rounds) :
    listFromBytes ext (withKdf cr kdf) inp b passphrase = listFromBytes ext cr inp b passphrase := by
  refine reading_decrypts fun f' o cc m p hf' hk hc' ho hp => decrypt_kdf (.inr ?_)
  obtain ⟨-, v, post, a1, a2⟩ := hf.layout
  obtain ⟨-, v', post', b1, b2⟩ := hf'.layout
  obtain ⟨e1, e2, e3⟩ := clear_unique a1 a2 b1 b2
  rw [e1] at hc
  rw [e2] at hb
  rw [e3] at hr
  have e := options_read hk ho hb hw hr
  subst e
  obtain ⟨c, h1, h2⟩ := suite_class hc
  rw [h1] at hc'
  injection hc' with hc'
  subst hc'
  rw [deriveKey_bcrypt, deriveKey_bcrypt, h2.key, h2.iv]
  rcases hs : strEncode p with e | pw
  · rfl
  · obtain ⟨cs, rfl, rfl⟩ := strEncode_ok hs
    exact h cs (choosePassphrase_iff.1 hp)

/-- **C124** (it is used). If the function fails there, so does reading. -/
theorem C124_needed (ext : Ext) (cr : Crypto) (inp : Inputs) (b : Bytes)
    (passphrase : Option Str) (f : KeyFile) (su : Suite) (salt w r : Bytes) (rounds : Nat) (hf : ClearPart b f)
    (hc : (strOf f.cipher, su) ∈ suites) (hb : strOf f.kdf = py! "bcrypt") (hw : BcryptField salt rounds w) (hr : f.options = w ++ r)
    (pass : List Char) (he : Enters inp passphrase (strOf pass)) (e : Exn)
    (h : cr.bcryptKdf (utf8 pass) salt (su.key + su.iv) rounds = .error e) :
    ∃ e', (listFromBytes ext cr inp b passphrase).res = .error e' := by
  rcases hres : (listFromBytes ext cr inp b passphrase).res with e' | kl
  · exact ⟨e', rfl⟩
  exfalso
  obtain ⟨k⟩ := listFromBytes_parse hres
  obtain ⟨-, v, post, a1, a2⟩ := hf.layout
  obtain ⟨e1, e2, e3⟩ := clear_unique a1 a2 k.lays k.input
  rw [e1] at hc
  rw [e2] at hb
  rw [e3] at hr
  have ho := options_read (o := ⟨k.kc, k.od⟩) k.kdf k.options hb hw hr
  have hp := k.pass
  have hd := k.dec
  rw [ho] at hd
  rw [show k.kc = .bcrypt from congrArg KdfOptions.cls ho] at hp
  rw [enters_unique (choosePassphrase_iff.1 hp) he] at hd
  obtain ⟨c, g1, g2⟩ := suite_class hc
  have hcc := g1.symm.trans k.cipher
  injection hcc with hcc
  rw [← hcc, decrypt_ne_none g2.notNone, deriveKey_bcrypt, strEncode_strOf, g2.key, g2.iv] at hd
  simp only [Except.bind, bind, h] at hd
  cases hd

/-! ### Packing -/

theorem encryptWithKeyIv_kdf (cr : Crypto) (kdf : Bytes → Bytes → Nat → Int → Except Exn Bytes) (c : CipherCls) (x key iv : Bytes) :
    encryptWithKeyIv (withKdf cr kdf) c x key iv = encryptWithKeyIv cr c x key iv := by
  cases c <;> rfl

theorem encrypt_kdf {cr : Crypto} {kdf : Bytes → Bytes → Nat → Int → Except Exn Bytes} {c : CipherCls} {o : KdfOptions} {p : Str}
    (h : c = .none ∨ deriveKey (withKdf cr kdf) o p (c.keyLength + c.ivLength) = deriveKey cr o p (c.keyLength + c.ivLength)) (x : Bytes) :
    encrypt (withKdf cr kdf) c o p x = encrypt cr c o p x := by
  by_cases hc : c = .none
  · rw [hc]; rfl
  · have h := h.resolve_left hc
    rw [encrypt_ne_none hc, encrypt_ne_none hc, h]
    simp only [encryptWithKeyIv_kdf]

theorem packing_encrypts {cr cr' : Crypto} {inp : Inputs} {self : KeyList} {passphrase : Option Str} {indices : Option (List Int)}
    {override retain : Bool}
    (h : ∀ options kc c p, (chooseKdfOptions inp self.kdfOptions (listCipherKdf self.header).2 retain).res = .ok options →
      getKdfClass (listCipherKdf self.header).2 = .ok kc → getCipherClass (listCipherKdf self.header).1 = .ok c →
      (choosePassphrase inp ((listCipherKdf self.header).2 = .str (py! "none")) passphrase).res = .ok p →
      ∀ x, encrypt cr' c ⟨kc, options⟩ p x = encrypt cr c ⟨kc, options⟩ p x) :
    packKeyList cr' inp self passphrase indices override retain = packKeyList cr inp self passphrase indices override retain := by
  unfold packKeyList
  refine Eff.bind_congr fun options h1 => ?_
  refine Eff.bind_congr fun kc h2 => ?_
  rw [Eff.lift_res] at h2
  refine Eff.bind_congr fun ob _ => ?_
  refine Eff.bind_congr fun ws _ => ?_
  refine Eff.bind_congr fun ws' _ => ?_
  refine Eff.bind_congr fun plain _ => ?_
  refine Eff.bind_congr fun p h3 => ?_
  refine Eff.bind_congr fun c h4 => ?_
  rw [Eff.lift_res] at h4
  refine Eff.bind_congr fun o h5 => ?_
  have ho : o = ⟨kc, options⟩ := by
    unfold newKdf at h5
    obtain ⟨-, -, h5⟩ := Eff.bind_res_ok_iff.1 h5
    exact (Except.ok.inj h5).symm
  rw [ho, h options kc c p h1 h2 h4 h3]

/-- **C124** (packing, not used). Packing a list that names `none` as cipher or as key derivation function does not use the function. -/
theorem C124_pack_unused (cr : Crypto) (kdf : Bytes → Bytes → Nat → Int → Except Exn Bytes) (inp : Inputs) (self : KeyList)
    (passphrase : Option Str) (indices : Option (List Int)) (override retain : Bool) (cipher name : Str) (hn : Names self cipher name)
    (h : cipher = py! "none" ∨ name = py! "none") :
    packKeyList (withKdf cr kdf) inp self passphrase indices override retain = packKeyList cr inp self passphrase indices override retain := by
  refine packing_encrypts fun options kc c p h1 h2 h3 h4 => encrypt_kdf ?_
  rw [names_iff.2 hn] at h2 h3
  rcases h with rfl | rfl
  · exact .inl (Except.ok.inj ((show getCipherClass (.str (py! "none")) = .ok .none by decide +kernel).symm.trans h3)).symm
  · right
    rw [show kc = .none from (Except.ok.inj ((show getKdfClass (.str (py! "none")) = .ok .none from rfl).symm.trans h2)).symm]
    rfl

/-- **C124** (packing, used once). Otherwise it is used for one argument: the passphrase entered, the salt and the rounds that are written, and
the number of bytes that the cipher needs. -/
theorem C124_pack_once (cr : Crypto) (kdf : Bytes → Bytes → Nat → Int → Except Exn Bytes) (inp : Inputs) (self : KeyList)
    (passphrase : Option Str) (indices : Option (List Int)) (override retain : Bool) (cipher : Str) (su : Suite) (salt : Bytes) (rounds : Nat)
    (hn : Names self cipher (py! "bcrypt")) (hc : (cipher, su) ∈ suites) (hu : Uses inp self retain salt rounds)
    (h : ∀ pass, Enters inp passphrase (strOf pass) →
      kdf (utf8 pass) salt (su.key + su.iv) rounds = cr.bcryptKdf (utf8 pass) salt (su.key + su.iv) rounds) :
    packKeyList (withKdf cr kdf) inp self passphrase indices override retain = packKeyList cr inp self passphrase indices override retain := by
  refine packing_encrypts fun options kc c p h1 h2 h3 h4 => encrypt_kdf (.inr ?_)
  rw [names_iff.2 hn] at h1 h2 h3 h4
  have hk : kc = .bcrypt := (Except.ok.inj ((show getKdfClass (.str (py! "bcrypt")) = .ok .bcrypt from rfl).symm.trans h2)).symm
  subst hk
  obtain ⟨c', g1, g2⟩ := suite_class hc
  have hcc := g1.symm.trans h3
  injection hcc with hcc
  subst hcc
  have hp : Enters inp passphrase p := choosePassphrase_iff.1 h4
  have ho : dget options (py! "salt") = some (.bytes salt) ∧ dget options (py! "rounds") = some (.int rounds) := by
    rcases hu with ⟨o, rfl, u1, u2, u3⟩ | ⟨u1, rfl, rfl⟩
    · rw [u1] at h1
      have e : o.data = options := Except.ok.inj h1
      rw [← e]
      exact ⟨u2, u3⟩
    · have hgen : (chooseKdfOptions inp self.kdfOptions (.str (py! "bcrypt")) retain) =
          (do let o ← generateKdf inp.tokenBytes .bcrypt; pure o.data) := by
        unfold chooseKdfOptions
        rcases u1 with rfl | hr
        · rfl
        · rw [hr]; cases retain <;> rfl
      rw [hgen] at h1
      obtain ⟨o, q1, q2⟩ := Eff.bind_res_ok_iff.1 h1
      unfold generateKdf newKdf at q1
      obtain ⟨-, -, q3⟩ := Eff.bind_res_ok_iff.1 q1
      rw [Eff.pure_res] at q2 q3
      rw [← Except.ok.inj q2, ← Except.ok.inj q3]
      exact ⟨rfl, rfl⟩
  have hd : ∀ cr : Crypto, deriveKey cr ⟨.bcrypt, options⟩ p (c'.keyLength + c'.ivLength) =
      (strEncode p >>= fun pw => cr.bcryptKdf pw salt (su.key + su.iv) rounds) := by
    intro cr
    unfold deriveKey getItem
    simp only [ho.1, ho.2, g2.key, g2.iv]
    rfl
  rw [hd, hd]
  rcases hs : strEncode p with e | pw
  · rfl
  · obtain ⟨cs, rfl, rfl⟩ := strEncode_ok hs
    exact h cs hp

/-- The full claim: a file cannot ask for more rounds than some limit, less than the greatest number that fits into the field. -/
def C124_full : Prop := ∃ limit : Int, limit < 2 ^ 32 - 1 ∧ ∀ (ext : Ext) (cr : Crypto) (kdf : Bytes → Bytes → Nat → Int → Except Exn Bytes)
    (inp : Inputs) (b : Bytes) (passphrase : Option Str), (∀ p s n r, r ≤ limit → kdf p s n r = cr.bcryptKdf p s n r) →
    listFromBytes ext (withKdf cr kdf) inp b passphrase = listFromBytes ext cr inp b passphrase

/-- A file without keys and with 4294967295 rounds. -/
def exRounds : Bytes :=
  pb! "openssh-key-v1" ++ [0] ++ ([0, 0, 0, 10] ++ pb! "aes256-ctr") ++ ([0, 0, 0, 6] ++ pb! "bcrypt") ++
    ([0, 0, 0, 9] ++ [0, 0, 0, 1, 9, 255, 255, 255, 255]) ++ [0, 0, 0, 0] ++ ([0, 0, 0, 16] ++ List.replicate 16 5)

/-- **C124**, the full claim, is false: the rounds of the file are handed to the key derivation function as they are
(kdf_options/bcrypt_options.py:63-69), so that 76 bytes ask for 4294967295 rounds. -/
theorem C124_false : ¬ C124_full := by
  rintro ⟨limit, h1, h2⟩
  have h := h2 exExt toyCrypto (fun p s n r => if r = 4294967295 then .error (.valueError "rounds") else toyCrypto.bcryptKdf p s n r)
    exInputs exRounds (some (py! "pw")) (fun p s n r hr => by rw [if_neg (by omega)])
  have e := congrArg (fun y => y.res.toOption.isSome) h
  exact absurd e (by decide +kernel)

/-! The file has a clear part in order: `C124_once_partial` and `C124_needed` apply. -/

example : exRounds.length = 76 := by decide

def exRoundsFile : KeyFile :=
  ⟨"aes256-ctr".toList, "bcrypt".toList, [0, 0, 0, 1, 9, 255, 255, 255, 255], [], List.replicate 16 5, []⟩

theorem exRounds_field : BcryptField [9] 4294967295 [0, 0, 0, 1, 9, 255, 255, 255, 255] :=
  ⟨[0, 0, 0, 1, 9], [255, 255, 255, 255], ⟨[0, 0, 0, 1], rfl, by decide, rfl⟩, rfl, by decide, rfl⟩

theorem exRounds_clear : ClearPart exRounds exRoundsFile where
  layout := ⟨rfl, exRounds, [], ⟨_, [0, 0, 0, 16] ++ List.replicate 16 5,
    ⟨[0, 0, 0, 10] ++ pb! "aes256-ctr", [0, 0, 0, 6] ++ pb! "bcrypt", [0, 0, 0, 9] ++ [0, 0, 0, 1, 9, 255, 255, 255, 255], [0, 0, 0, 0], [],
      ⟨[0, 0, 0, 10], rfl, by decide +kernel, by decide +kernel⟩, ⟨[0, 0, 0, 6], rfl, by decide +kernel, by decide +kernel⟩,
      ⟨[0, 0, 0, 9], rfl, by decide +kernel, by decide +kernel⟩, rfl, by decide +kernel, by decide +kernel, rfl, rfl⟩,
    ⟨[0, 0, 0, 16], rfl, by decide +kernel, rfl⟩, by decide +kernel⟩, by decide +kernel⟩
  cipher := by decide +kernel
  kdf := .inr ⟨by decide +kernel, _, _, _, [], exRounds_field, rfl⟩
  pubs := by intro p hp; cases hp

example (inp : Inputs) (kdf : Bytes → Bytes → Nat → Int → Except Exn Bytes)
    (h : kdf (pb! "pw") [9] 48 4294967295 = toyCrypto.bcryptKdf (pb! "pw") [9] 48 4294967295) :
    listFromBytes exExt (withKdf toyCrypto kdf) inp exRounds (some (py! "pw")) = listFromBytes exExt toyCrypto inp exRounds (some (py! "pw")) := by
  refine C124_once_partial exExt toyCrypto kdf inp exRounds (some (py! "pw")) exRoundsFile (aesCtr 32) [9] _ [] 4294967295 exRounds_clear
    (by rw [show strOf exRoundsFile.cipher = py! "aes256-ctr" by decide +kernel]; unfold suites; simp [aesCtr]) (by decide +kernel)
    exRounds_field rfl ?_
  intro pass hp
  have e : pass = ['p', 'w'] := strOf_inj ((enters_unique hp (.inl rfl)).trans (by decide +kernel))
  subst e
  exact h

example : ∃ e, (listFromBytes exExt (withKdf toyCrypto fun _ _ _ _ => .error (.valueError "rounds")) exInputs exRounds (some (py! "pw"))).res =
    .error e :=
  C124_needed exExt _ exInputs exRounds (some (py! "pw")) exRoundsFile (aesCtr 32) [9] _ [] 4294967295 exRounds_clear
    (by rw [show strOf exRoundsFile.cipher = py! "aes256-ctr" by decide +kernel]; unfold suites; simp [aesCtr]) (by decide +kernel)
    exRounds_field rfl ['p', 'w'] (.inl (by decide +kernel)) _ rfl

/-- Nothing is derived for a file that is cut short. -/
example (kdf : Bytes → Bytes → Nat → Int → Except Exn Bytes) :
    listFromBytes exExt (withKdf toyCrypto kdf) exInputs (exRounds.take 40) none = listFromBytes exExt toyCrypto exInputs (exRounds.take 40) none := by
  refine C124_unused exExt toyCrypto kdf exInputs _ none fun f hf => ?_
  obtain ⟨ks, kc, o, cc, s, hx, -⟩ := clearPart_reads (ext := exExt) hf
  have h : (clearPart exExt (exRounds.take 40)).res.toOption.isSome = false := by decide +kernel
  rw [hx] at h
  cases h

/-- In packing with fresh options, the function is used for the passphrase entered, the random salt, and 16 rounds. -/
example (kdf : Bytes → Bytes → Nat → Int → Except Exn Bytes)
    (h : kdf (pb! "pw") (exInputs.tokenBytes 16) 48 16 = toyCrypto.bcryptKdf (pb! "pw") (exInputs.tokenBytes 16) 48 16) :
    packKeyList (withKdf toyCrypto kdf) exInputs exList (some (py! "pw")) none false false =
      packKeyList toyCrypto exInputs exList (some (py! "pw")) none false false := by
  refine C124_pack_once toyCrypto kdf exInputs exList (some (py! "pw")) none false false (py! "aes256-ctr") (aesCtr 32) _ 16 (names_iff.1 rfl)
    (by unfold suites; simp [aesCtr]) (.inr ⟨.inl rfl, rfl, rfl⟩) ?_
  intro pass hp
  have e : pass = ['p', 'w'] := strOf_inj ((enters_unique hp (.inl rfl)).trans (by decide +kernel))
  subst e
  exact h

example : ((packKeyList toyCrypto exInputs exList (some (py! "pw")) none false false).res.toOption).isSome = true := by decide +kernel

end OSK
