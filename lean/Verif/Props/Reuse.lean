import Verif.Props.Tamper
import Verif.Props.ListWire
import Verif.Props.OpenSSH
import Verif.Props.Exact
import Verif.Spec.Reuse
/-
C122: what a second file under the same passphrase reveals.
-/
namespace OSK
open Spec

/-! ### The standard's ciphers -/

/-- The same stream, as far as it is needed. -/
theorem xorB_stream : ∀ (x y s t u : Bytes), x.length ≤ s.length → y.length ≤ t.length → s = t ++ u ∨ t = s ++ u →
    xorB (Std.xorBytes x s) (Std.xorBytes y t) = xorB x y
  | [], y, s, t, u, _, _, _ => by simp [Std.xorBytes, xorB]
  | x :: xs, [], s, t, u, _, _, _ => by simp [Std.xorBytes, xorB]
  | x :: xs, y :: ys, [], t, u, h, _, _ => by simp at h
  | x :: xs, y :: ys, a :: s, [], u, _, h, _ => by simp at h
  | x :: xs, y :: ys, a :: s, b :: t, u, h, h', e => by
    have hab : a = b ∧ (s = t ++ u ∨ t = s ++ u) := by
      rcases e with e | e <;> rw [List.cons_append] at e <;> injection e with e1 e2
      · exact ⟨e1, .inl e2⟩
      · exact ⟨e1.symm, .inr e2⟩
    obtain ⟨rfl, e'⟩ := hab
    have ih := xorB_stream xs ys s t u (by simpa using h) (by simpa using h') e'
    simp only [Std.xorBytes, xorB, List.zipWith_cons_cons] at ih ⊢
    rw [ih]
    congr 1
    rw [UInt8.xor_comm y a, UInt8.xor_assoc, ← UInt8.xor_assoc a a y, UInt8.xor_self, UInt8.zero_xor]

/-- Streams of blocks that are continued for longer texts. -/
theorem xorB_blocks {S : Nat → Bytes} (hs : ∀ m n, ∃ t, S (m + n) = S m ++ t) (hl : ∀ m, (S m).length = 16 * m) (x y : Bytes) :
    xorB (Std.xorBytes x (S ((x.length + 15) / 16))) (Std.xorBytes y (S ((y.length + 15) / 16))) = xorB x y := by
  rcases Nat.le_total ((x.length + 15) / 16) ((y.length + 15) / 16) with h | h
  · obtain ⟨n, hn⟩ := Nat.exists_eq_add_of_le h
    obtain ⟨t, ht⟩ := hs ((x.length + 15) / 16) n
    exact xorB_stream _ _ _ _ t (by rw [hl]; omega) (by rw [hl]; omega) (.inr (by rw [hn, ht]))
  · obtain ⟨n, hn⟩ := Nat.exists_eq_add_of_le h
    obtain ⟨t, ht⟩ := hs ((y.length + 15) / 16) n
    exact xorB_stream _ _ _ _ t (by rw [hl]; omega) (by rw [hl]; omega) (.inl (by rw [hn, ht]))

theorem ctrStream_prefix (E : Bytes → Bytes) : ∀ (m n i : Nat), ∃ t, Std.ctrStream E (m + n) i = Std.ctrStream E m i ++ t := by
  intro m
  induction m with
  | zero => intro n i; exact ⟨_, rfl⟩
  | succ m ih =>
    intro n i
    rw [Nat.succ_add]
    unfold Std.ctrStream
    obtain ⟨t, ht⟩ := ih n (i + 1)
    exact ⟨t, by rw [ht, List.append_assoc]⟩

theorem ctrStream_len {E : Bytes → Bytes} (hE : ∀ b, b.length = 16 → (E b).length = 16) : ∀ m i, (Std.ctrStream E m i).length = 16 * m := by
  intro m
  induction m with
  | zero => intro i; rfl
  | succ m ih =>
    intro i
    unfold Std.ctrStream
    rw [List.length_append, ih, hE _ (by simp)]
    omega

theorem gcmStream_prefix (E : Bytes → Bytes) : ∀ (m n i : Nat), ∃ t, Std.gcmStream E (m + n) i = Std.gcmStream E m i ++ t := by
  intro m
  induction m with
  | zero => intro n i; exact ⟨_, rfl⟩
  | succ m ih =>
    intro n i
    rw [Nat.succ_add]
    unfold Std.gcmStream
    obtain ⟨t, ht⟩ := ih n (i / 2 ^ 32 * 2 ^ 32 + (i + 1) % 2 ^ 32)
    exact ⟨t, by rw [ht, List.append_assoc]⟩

theorem gcmStream_len {E : Bytes → Bytes} (hE : ∀ b, b.length = 16 → (E b).length = 16) : ∀ m i, (Std.gcmStream E m i).length = 16 * m := by
  intro m
  induction m with
  | zero => intro i; rfl
  | succ m ih =>
    intro i
    unfold Std.gcmStream
    rw [List.length_append, ih, hE _ (by simp)]
    omega

theorem aes_block (key : Bytes) : ∀ b : Bytes, b.length = 16 → (Std.encBlock .aes key b).length = 16 :=
  fun _ h => Std.encBlock_length .aes key h

theorem xorB_xorStream (ks : Nat → UInt8) : ∀ (x y : Bytes) (pos : Nat), xorB (xorStream ks pos x) (xorStream ks pos y) = xorB x y
  | [], y, pos => by simp [xorStream, xorB]
  | x :: xs, [], pos => by simp [xorStream, xorB]
  | x :: xs, y :: ys, pos => by
    have ih := xorB_xorStream ks xs ys (pos + 1)
    have e : ∀ (z : UInt8) (zs : Bytes), xorStream ks pos (z :: zs) = (z ^^^ ks pos) :: xorStream ks (pos + 1) zs := by
      intro z zs
      simp only [xorStream, List.mapIdx_cons, Nat.add_zero]
      congr 2
      funext i w
      rw [show pos + (i + 1) = pos + 1 + i by omega]
    rw [e, e]
    simp only [xorB, List.zipWith_cons_cons] at ih ⊢
    rw [ih]
    congr 1
    rw [UInt8.xor_comm y, UInt8.xor_assoc, ← UInt8.xor_assoc _ _ y, UInt8.xor_self, UInt8.zero_xor]

theorem xorStream_length' (ks : Nat → UInt8) (pos : Nat) (x : Bytes) : (xorStream ks pos x).length = x.length := by
  simp [xorStream]

/-- All six are stream ciphers in the standards. -/
theorem std_xorsStream : XorsStream Std.crypto := by
  have hctr : ∀ {key iv x y c d : Bytes}, Std.crypto.symEnc .aes .ctr key iv x = .ok c → Std.crypto.symEnc .aes .ctr key iv y = .ok d →
      xorB (c.take x.length) (d.take y.length) = xorB x y := by
    intro key iv x y c d h h'
    change Std.symCrypt true .aes .ctr key iv x = _ at h
    change Std.symCrypt true .aes .ctr key iv y = _ at h'
    unfold Std.symCrypt at h h'
    split at h
    · cases h
    split at h
    · cases h
    rename_i g1 g2
    rw [if_neg g1, if_neg g2] at h'
    simp only [Except.ok.injEq] at h h'
    subst h; subst h'
    unfold Std.ctrCrypt
    rw [List.take_of_length_le (by rw [Std.xorBytes_length]), List.take_of_length_le (by rw [Std.xorBytes_length])]
    exact xorB_blocks (S := fun m => Std.ctrStream _ m _) (fun m n => ctrStream_prefix _ m n _) (fun m => ctrStream_len (aes_block key) m _) x y
  have hgcm : ∀ {key iv x y c d : Bytes}, Std.crypto.gcmEnc key iv x = .ok c → Std.crypto.gcmEnc key iv y = .ok d →
      xorB (c.take x.length) (d.take y.length) = xorB x y := by
    intro key iv x y c d h h'
    change Std.gcmEnc key iv x = _ at h
    change Std.gcmEnc key iv y = _ at h'
    unfold Std.gcmEnc at h h'
    split at h
    · cases h
    rename_i g1
    rw [if_neg g1] at h'
    simp only [Except.ok.injEq] at h h'
    subst h; subst h'
    have hlen : ∀ z : Bytes, (Std.gcmCrypt (Std.encBlock .aes key) iv z).length = z.length := by
      intro z; unfold Std.gcmCrypt; rw [Std.xorBytes_length]
    rw [List.take_left' (hlen x), List.take_left' (hlen y)]
    unfold Std.gcmCrypt
    refine xorB_blocks (S := fun m => (Std.gcmStream _ (m + 1) _).drop 16) (fun m n => ?_) (fun m => ?_) x y
    · obtain ⟨t, ht⟩ := gcmStream_prefix (Std.encBlock .aes key) (m + 1) n
        (Std.gcmStart (beNat (Std.encBlock .aes key (List.replicate 16 0))) iv)
      refine ⟨t, ?_⟩
      rw [show m + n + 1 = m + 1 + n by omega, ht, List.drop_append_of_le_length]
      rw [gcmStream_len (aes_block key)]
      omega
    · rw [List.length_drop, gcmStream_len (aes_block key)]
      omega
  have hcha : ∀ {key iv x y c d : Bytes}, chachaSeal Std.crypto key iv x = .ok c → chachaSeal Std.crypto key iv y = .ok d →
      xorB (c.take x.length) (d.take y.length) = xorB x y := by
    intro key iv x y c d h h'
    unfold chachaSeal at h h'
    split at h
    · cases h
    rename_i ks hks
    rw [hks] at h'
    simp only [Except.ok.injEq] at h h'
    subst h; subst h'
    rw [List.take_left' (xorStream_length' ..), List.take_left' (xorStream_length' ..)]
    exact xorB_xorStream ks x y 64
  intro name su hsu hn key iv x y c d h h'
  have hd : ∀ e ∈ suites, e.1 ∈ streamCiphers → e = (py! "aes128-ctr", aesCtr 16) ∨ e = (py! "aes192-ctr", aesCtr 24) ∨
      e = (py! "aes256-ctr", aesCtr 32) ∨ e = (py! "aes128-gcm@openssh.com", aesGcm 16) ∨ e = (py! "aes256-gcm@openssh.com", aesGcm 32) ∨
      e = (py! "chacha20-poly1305@openssh.com", ⟨8, 64, 0, 16, chachaSeal, chachaOpen⟩) := by
    intro e he hs
    simp only [suites, List.mem_cons, List.not_mem_nil, or_false] at he
    rcases he with rfl | rfl | rfl | rfl | rfl | rfl | rfl | rfl | rfl | rfl | rfl <;> first
      | (exact absurd hs (by decide +kernel))
      | simp
  rcases hd _ hsu hn with e | e | e | e | e | e <;> injection e with e1 e2 <;> subst e2
  · exact hctr h h'
  · exact hctr h h'
  · exact hctr h h'
  · exact hgcm h h'
  · exact hgcm h h'
  · exact hcha (iv := iv) h h'

/-! ### Two files -/

theorem derives_same {cr : Crypto} {inp inp' : Inputs} {passphrase passphrase' : Option Str} {n : Nat} {o : KdfOptions} {r r' : Bytes}
    (hp : ∀ p, Enters inp passphrase p → Enters inp' passphrase' p) (h : Derives cr inp passphrase n o r)
    (h' : Derives cr inp' passphrase' n o r') : r = r' := by
  refine derives_unique (inp := inp') (passphrase := passphrase') ?_ h'
  cases h with
  | none => exact .none
  | bcrypt e k => exact .bcrypt (hp _ e) k

/-- **C122** (the same options). Two files with the same cipher and the same options, read with the same passphrase: the encrypted
sections differ by exactly what the private sections differ by, whatever the passphrase is. This is so for the ciphers in
counter mode, AES-GCM and ChaCha20-Poly1305. -/
theorem C122_difference {ext : Ext} {cr : Crypto} (hl : CryptoLaws cr) (hv : ReverseLaws cr) (hx : XorsStream cr) (inp inp' : Inputs)
    (passphrase passphrase' : Option Str) (b b' : Bytes) (kl kl' : KeyList) (name : Str) (hs : name ∈ streamCiphers)
    (hp : ∀ p, Enters inp passphrase p → Enters inp' passphrase' p)
    (h : (listFromBytes ext cr inp b passphrase).res = .ok kl) (h' : (listFromBytes ext cr inp' b' passphrase').res = .ok kl')
    (hn : HasCipher kl name) (hn' : HasCipher kl' name) (ho : kl.kdfOptions = kl'.kdfOptions) :
    ∃ c c' x x', kl.cipherBytes = some c ∧ kl'.cipherBytes = some c' ∧ kl.decipherBytes = some x ∧ kl'.decipherBytes = some x' ∧
      xorB (c.take x.length) (c'.take x'.length) = xorB x x' := by
  obtain ⟨f, w, post, plain, c1, c2, keys, pad, o, block, -, -, -, -, a1, -, -, -, -, -, -, a2, a3, a4, a5, -, -⟩ :=
    ((C75_accepts ext hl.kdf_length inp passphrase b kl).1 h).parts
  obtain ⟨f', w', post', plain', c1', c2', keys', pad', o', block', -, -, -, -, b1, -, -, -, -, -, -, b2, b3, b4, b5, -, -⟩ :=
    ((C75_accepts ext hl.kdf_length inp' passphrase' b' kl').1 h').parts
  have e1 := hasCipher_file a2 hn
  have e2 := hasCipher_file b2 hn'
  rw [a4, b4] at ho
  injection ho with ho
  subst ho
  refine ⟨_, _, _, _, a3, b3, a5, b5, ?_⟩
  have hnone : ∀ {s : Str}, name = s → s ≠ py! "none" := by
    intro s e h0
    subst e
    rw [h0] at hs
    exact absurd hs (by decide +kernel)
  cases a1 with
  | none h0 => exact absurd h0 (hnone e1)
  | cipher g1 g2 g3 =>
    cases b1 with
    | none h0 => exact absurd h0 (hnone e2)
    | cipher g1' g2' g3' =>
      rw [← e1] at g1
      rw [← e2] at g1'
      have := suites_unique g1 g1'
      subst this
      have := derives_same hp g2 g2'
      subst this
      exact hx _ _ g1 hs _ _ _ _ _ _ (suite_reverse hv g1 g3) (suite_reverse hv g1 g3')

theorem packs_named {cr : Crypto} {inp : Inputs} {self : KeyList} {passphrase : Option Str} {indices : Option (List Int)}
    {override retain : Bool} {w : Bytes} (k : ListPack cr inp self passphrase indices override retain w) {cipher kdf : Str}
    (hn : Names self cipher kdf) : strOf k.f.cipher = cipher ∧ strOf k.f.kdf = kdf := by
  have hn' := names_iff.2 hn
  rw [k.names] at hn'
  obtain ⟨h1, h2⟩ := Prod.mk.inj hn'
  exact ⟨Val.str.inj h1, Val.str.inj h2⟩

theorem packs_options {cr : Crypto} {inp : Inputs} {self : KeyList} {passphrase : Option Str} {indices : Option (List Int)}
    {override : Bool} {w : Bytes} (k : ListPack cr inp self passphrase indices override true w) {cipher : Str} {o : KdfOptions}
    (hn : Names self cipher (py! "bcrypt")) (ho : self.kdfOptions = some o) : packDict (kdfFmt .bcrypt) o.data = .ok k.f.options := by
  have hb : k.kc = .bcrypt := by
    have := k.kdf
    rw [k.kdfIs hn] at this
    exact (Except.ok.inj this).symm
  have hch := k.choose
  rw [ho] at hch
  have hch : o.data = k.opts := Except.ok.inj hch
  have hopt := k.options
  rwa [hb, ← hch] at hopt

/-- A packed file is laid out in one way only. -/
theorem packs_file {cr : Crypto} (hl : CryptoLaws cr) {inp : Inputs} {self : KeyList} {passphrase : Option Str} {indices : Option (List Int)}
    {override retain : Bool} {w : Bytes} (k : ListPack cr inp self passphrase indices override retain w) {f : KeyFile} {v post : Bytes}
    {block : Nat} (h : f.Lays v) (ht : cipherSizes (strOf f.cipher) = some (block, f.tag.length)) (e : w = v ++ post) :
    f = k.f ∧ post = [] := by
  have := lays_unique (r := post) (r' := []) h k.lays (fun hc => ?_) (by rw [← e, List.append_nil])
  · exact ⟨this.1, this.2.2⟩
  · rw [hc, cipher_sizes k.cipher] at ht
    injection ht with ht
    injection ht with _ ht
    rw [← ht]
    exact (k.tagFits hl).1.symm

/-- **C122** (the same options, packing). Two lists with the same options, which are retained, are packed to files that have the same
options when they are read, whatever else is in the lists. -/
theorem C122_retained {ext : Ext} {cr : Crypto} (hl : CryptoLaws cr) (inp inp' inp1 inp1' : Inputs) (self self' : KeyList)
    (passphrase passphrase' pass1 pass1' : Option Str) (indices indices' : Option (List Int)) (override override' : Bool) (w w' : Bytes)
    (kl kl' : KeyList) (name : Str) (o : KdfOptions) (hn : Names self name (py! "bcrypt")) (hn' : Names self' name (py! "bcrypt"))
    (ho : self.kdfOptions = some o) (ho' : self'.kdfOptions = some o)
    (h : (packKeyList cr inp self passphrase indices override true).res = .ok w)
    (h' : (packKeyList cr inp' self' passphrase' indices' override' true).res = .ok w')
    (hr : (listFromBytes ext cr inp1 w pass1).res = .ok kl) (hr' : (listFromBytes ext cr inp1' w' pass1').res = .ok kl') :
    kl.kdfOptions = kl'.kdfOptions ∧ HasCipher kl name ∧ HasCipher kl' name := by
  obtain ⟨k⟩ := packKeyList_pack h
  obtain ⟨k'⟩ := packKeyList_pack h'
  have e : k.f.options = k'.f.options := by
    have e1 := packs_options k hn ho
    have e2 := packs_options k' hn' ho'
    rw [e1] at e2
    injection e2
  obtain ⟨f, v, post, plain, c1, c2, keys, pad, oo, block, a0, a1, a2, a3, -, -, -, -, -, -, -, a4, -, a5, -, -, -⟩ :=
    ((C75_accepts ext hl.kdf_length inp1 pass1 w kl).1 hr).parts
  obtain ⟨f', v', post', plain', c1', c2', keys', pad', oo', block', b0, b1, b2, b3, -, -, -, -, -, -, -, b4, -, b5, -, -, -⟩ :=
    ((C75_accepts ext hl.kdf_length inp1' pass1' w' kl').1 hr').parts
  have ef := packs_file hl k a1 a2 a0
  have ef' := packs_file hl k' b1 b2 b0
  have n1 := packs_named k hn
  have n2 := packs_named k' hn'
  rw [← ef.1] at n1 e
  rw [← ef'.1] at n2 e
  refine ⟨?_, ⟨_, a4, by rw [n1.1]; rfl⟩, ⟨_, b4, by rw [n2.1]; rfl⟩⟩
  rw [a5, b5]
  cases a3 with
  | none h0 => rw [n1.2] at h0; exact absurd h0 (by decide)
  | bcrypt _ s1 s2 _ => cases b3 with
    | none h0 => rw [n2.2] at h0; exact absurd h0 (by decide)
    | bcrypt _ t1 t2 _ =>
      obtain ⟨rfl, rfl⟩ := bcryptField_unique s1 t1 (by rw [← s2, e, t2])
      rfl

/-- **C122** (fresh options), partial. Missing: lists whose options are retained, for which the claim is false (`C122_false`). Without
`retain_kdf_options_if_present`, two files have the same salt only if the same 16 bytes were drawn for both. -/
theorem C122_fresh_partial (cr : Crypto) (inp inp' : Inputs) (self self' : KeyList)
    (passphrase passphrase' : Option Str) (indices indices' : Option (List Int)) (override override' : Bool) (w w' : Bytes)
    (name name' : Str) (hn : Names self name (py! "bcrypt")) (hn' : Names self' name' (py! "bcrypt"))
    (h : (packKeyList cr inp self passphrase indices override false).res = .ok w)
    (h' : (packKeyList cr inp' self' passphrase' indices' override' false).res = .ok w')
    (hd : inp.tokenBytes 16 ≠ inp'.tokenBytes 16) :
    ∃ f f' salt salt', KeyFile.Lays f w ∧ KeyFile.Lays f' w' ∧ BcryptField salt 16 f.options ∧ BcryptField salt' 16 f'.options ∧
      salt ≠ salt' ∧ f.options ≠ f'.options := by
  obtain ⟨f, h1, h2⟩ := C39_fresh cr inp self passphrase indices override false w name (.inl rfl) hn h
  obtain ⟨f', h1', h2'⟩ := C39_fresh cr inp' self' passphrase' indices' override' false w' name' (.inl rfl) hn' h'
  exact ⟨f, f', _, _, h1, h1', h2, h2', hd, fun e => hd (bcryptField_unique (x := []) (y := []) h2 h2' (by rw [e])).1⟩

theorem xorB_comm : ∀ a b : Bytes, xorB a b = xorB b a
  | [], b => by cases b <;> rfl
  | a :: as, [] => rfl
  | a :: as, b :: bs => by
    have ih := xorB_comm as bs
    simp only [xorB, List.zipWith_cons_cons] at ih ⊢
    rw [ih, UInt8.xor_comm]

/-- The full claim: nobody who knows the private section of one file learns that of another from the two files, without the passphrase. -/
def C122_full : Prop := ¬ ∃ learn : Bytes → Bytes → Bytes → Bytes, ∀ (ext : Ext) (inp inp' inp1 inp1' : Inputs) (self self' : KeyList)
    (passphrase passphrase' : Option Str) (indices indices' : Option (List Int)) (override override' : Bool) (w w' : Bytes)
    (kl kl' : KeyList) (name : Str) (o : KdfOptions) (p : Str) (x x' : Bytes), name ∈ counterCiphers → Names self name (py! "bcrypt") →
    Names self' name (py! "bcrypt") → self.kdfOptions = some o → self'.kdfOptions = some o →
    (packKeyList Std.crypto inp self passphrase indices override true).res = .ok w →
    (packKeyList Std.crypto inp' self' passphrase' indices' override' true).res = .ok w' →
    (listFromBytes ext Std.crypto inp1 w (some p)).res = .ok kl → (listFromBytes ext Std.crypto inp1' w' (some p)).res = .ok kl' →
    kl.decipherBytes = some x → kl'.decipherBytes = some x' → x.length = x'.length → learn x w w' = x'

/-- In a packed file with a cipher in counter mode the encrypted section is at the end. -/
theorem packs_end {ext : Ext} {inp inp1 : Inputs} {self : KeyList} {passphrase pass1 : Option Str} {indices : Option (List Int)}
    {override retain : Bool} {w : Bytes} {kl : KeyList} {name : Str} {x c : Bytes} (hs : name ∈ counterCiphers)
    (hn : Names self name (py! "bcrypt")) (h : (packKeyList Std.crypto inp self passphrase indices override retain).res = .ok w)
    (hr : (listFromBytes ext Std.crypto inp1 w pass1).res = .ok kl) (hx : kl.decipherBytes = some x) (hc : kl.cipherBytes = some c) :
    w.drop (w.length - x.length) = c ∧ c.length = x.length := by
  obtain ⟨k⟩ := packKeyList_pack h
  obtain ⟨f, v, post, plain, c1, c2, keys, pad, oo, block, a0, a1, a2, -, a3, -, -, -, -, -, -, -, a5, -, a6, -, -⟩ :=
    ((C75_accepts ext C104_laws.kdf_length inp1 pass1 w kl).1 hr).parts
  obtain ⟨ef, rfl⟩ := packs_file C104_laws k a1 a2 a0
  have n1 := (packs_named k hn).1
  rw [← ef] at n1
  rw [hx] at a6
  injection a6 with a6
  rw [hc] at a5
  injection a5 with a5
  subst a6 a5
  have key : ∀ n ∈ counterCiphers, ∀ z, cipherSizes n = some z → z.2 = 0 := by
    intro n hn z hz
    simp only [counterCiphers, List.mem_cons, List.not_mem_nil, or_false] at hn
    rcases hn with rfl | rfl | rfl <;> (have : z = (16, 0) := by (injection hz.symm)) <;> rw [this]
  rw [n1] at a2
  have t1 : f.tag = [] := List.length_eq_zero_iff.1 (key _ hs _ a2)
  have hlen : (f.body ++ f.tag).length = x.length := by
    cases a3 with
    | none => rfl
    | cipher g1 g2 g3 =>
      have := (suite_inv g1 C104_laws (suite_reverse C119_laws g1 g3)).2
      have hz : ∀ e ∈ suites, e.1 ∈ counterCiphers → e.2.tag = 0 := by
        intro e he hs
        simp only [suites, List.mem_cons, List.not_mem_nil, or_false] at he
        rcases he with rfl | rfl | rfl | rfl | rfl | rfl | rfl | rfl | rfl | rfl | rfl <;> first
          | rfl
          | (exact absurd hs (by decide +kernel))
      rw [this, hz _ g1 (by rw [n1]; exact hs)]
      rfl
  refine ⟨?_, hlen⟩
  obtain ⟨front, field, d1, ⟨pre, d2, d3, d4⟩, hw⟩ := a1
  rw [a0, List.append_nil, ← hlen, hw, d4, t1, List.append_nil, List.append_nil, ← List.append_assoc,
    show (front ++ pre ++ f.body).length - f.body.length = (front ++ pre).length by simp only [List.length_append]; omega,
    List.drop_left]

/-- **C122**, the full claim, is false: `steal` gives the private section of the second file, of any keys and with any passphrase, if the
options are retained and the sections have the same length. -/
theorem C122_false : ¬ C122_full := by
  refine fun hf => hf ⟨steal, ?_⟩
  intro ext inp inp' inp1 inp1' self self' passphrase passphrase' indices indices' override override' w w' kl kl' name o p x x' hs hn hn'
    ho ho' h h' hr hr' hx hx' hlen
  obtain ⟨e1, e2, e3⟩ := C122_retained C104_laws inp inp' inp1 inp1' self self' passphrase passphrase' (some p) (some p) indices indices'
    override override' w w' kl kl' name o hn hn' ho ho' h h' hr hr'
  have hp : ∀ q, Enters inp1 (some p) q → Enters inp1' (some p) q := by
    rintro q (hq | ⟨hq, -⟩)
    · exact .inl hq
    · cases hq
  obtain ⟨c, c', y, y', g1, g2, g3, g4, g5⟩ := C122_difference C104_laws C119_laws std_xorsStream inp1 inp1' (some p) (some p) w w' kl kl' name
    (List.mem_append_left _ hs) hp hr hr' e2 e3 e1
  rw [hx] at g3
  rw [hx'] at g4
  injection g3 with g3
  injection g4 with g4
  subst g3 g4
  obtain ⟨d1, d2⟩ := packs_end hs hn h hr hx g1
  obtain ⟨d3, d4⟩ := packs_end hs hn' h' hr' hx' g2
  rw [List.take_of_length_le (by omega), List.take_of_length_le (by omega)] at g5
  unfold steal
  rw [d1, hlen, d3, g5, xorB_comm (xorB _ _), xorB_cancel hlen]

/-! Two files with the same keys in another order, both encrypted under the passphrase `pw`. -/

/-- The example list in another order. -/
def exListSwapped : KeyList := { exList with pairs := exList.pairs.reverse }

theorem packed_unique {sel : List Pair} {a b : List Bytes}
    (h : List.Forall₂ (fun (p : Pair) b => packPrivateBytes p.priv = .ok b) sel a)
    (h' : List.Forall₂ (fun (p : Pair) b => packPrivateBytes p.priv = .ok b) sel b) : a = b := by
  induction h generalizing b with
  | nil => cases h'; rfl
  | cons h1 _ ih => cases h' with
    | cons g1 g2 =>
      rw [h1] at g1
      injection g1 with g1
      rw [g1, ih g2]

theorem sections_ne {x x' a b : Bytes} (h : (x.drop 8).take a.length = a) (h' : (x'.drop 8).take b.length = b)
    (hl : a.length = b.length) (hn : a ≠ b) : x ≠ x' := by
  rintro rfl
  rw [hl] at h
  exact hn (h.symm.trans h')

theorem exReuse {self : KeyList} {sel : List Pair} {privs : List Bytes} (hself : self = { exList with pairs := sel })
    (hsel : ∀ p ∈ sel, p ∈ exList.pairs) (hc : sel.length < 2 ^ 31)
    (hpriv : List.Forall₂ (fun (p : Pair) b => packPrivateBytes p.priv = .ok b) sel privs) (hlen : privs.flatten.length + 24 ≤ 2 ^ 32) :
    ∃ w kl x, (packKeyList Std.crypto exInputs self none none false true).res = .ok w ∧
      (listFromBytes exExt Std.crypto exInputs w (some (py! "pw"))).res = .ok kl ∧ kl.decipherBytes = some x ∧
      x.length = (privs.flatten.length + 23) / 16 * 16 ∧ (x.drop 8).take privs.flatten.length = privs.flatten := by
  subst hself
  have hk : ∀ p ∈ sel, Constructed exExt p.pub ∧ p.priv.kind = .priv ∧ Constructed exExt p.priv :=
    fun p hp => exList_constructed p (hsel p hp)
  have hp : ∀ p, Enters exInputs none p → Enters exInputs (some (py! "pw")) p := by
    rintro p (hp | ⟨-, ha⟩)
    · cases hp
    · exact .inl (by rw [show p = py! "pw" from (Except.ok.inj (ha.symm.trans (by decide +kernel)))])
  have hn : Names { exList with pairs := sel } (py! "aes256-ctr") (py! "bcrypt") := .inl ⟨_, rfl, by decide +kernel, by decide +kernel⟩
  obtain ⟨w, kl, h1, h2, -⟩ := C104_file (ext := exExt) exInputs exInputs { exList with pairs := sel } none (some (py! "pw")) none false true
    (py! "aes256-ctr") (aesCtr 32) [1, 2, 3] 16 ['p', 'w'] sel privs hn (by unfold suites; simp [aesCtr])
    (.inl ⟨_, rfl, rfl, by decide +kernel, by decide +kernel⟩) (by decide) (by decide) (by decide) (by decide) (by decide)
    (.inr ⟨rfl, by decide +kernel⟩) (.inl (by decide +kernel)) hk rfl hc
    (by
      intro p hp
      rcases List.mem_cons.1 (hsel p hp) with rfl | hp
      · exact ⟨(packPublicBytes exEdPub).toOption.getD [], by decide +kernel, by decide +kernel⟩
      · rcases List.mem_cons.1 hp with rfl | hp
        · exact ⟨(packPublicBytes exPub).toOption.getD [], by decide +kernel, by decide +kernel⟩
        · cases hp)
    hpriv hlen (by decide)
  obtain ⟨k⟩ := packKeyList_pack h1
  have hs : k.sel = sel := selection_unique k.selection rfl
  have hpr : k.privs = privs := by
    have := k.privKeys
    rw [hs] at this
    exact packed_unique this hpriv
  obtain ⟨kl', g1, -, -, -, g2, -⟩ := k.parsed (ext := exExt) C104_laws (inp' := exInputs) (passphrase' := some (py! "pw"))
    (by rw [hs]; exact hk) hp []
  rw [List.append_nil, h2] at g1
  injection g1 with g1
  subst g1
  have hb : k.cc.blockSize = 16 := by
    have := cipher_sizes k.cipher
    rw [(packs_named k hn).1] at this
    have h16 : cipherSizes (py! "aes256-ctr") = some (16, 0) := by decide +kernel
    exact (congrArg Prod.fst (Option.some.inj (h16.symm.trans this))).symm
  obtain ⟨c, n, e1, -, e2, e3, e4⟩ := k.section_
  rw [hb] at e2 e3
  rw [hpr] at e4
  have hcu : (countUp n).length = n := by simp [countUp]
  have hl : k.plain.length = 8 + privs.flatten.length + n := by
    rw [e4]
    simp only [List.length_append, e1, hcu]
  refine ⟨w, kl, k.plain, h1, h2, g2, by omega, ?_⟩
  rw [e4, List.append_assoc, List.drop_left' (by simp [e1]), List.take_left]

example : ∃ w w' kl kl' x x', (packKeyList Std.crypto exInputs exList none none false true).res = .ok w ∧
    (packKeyList Std.crypto exInputs exListSwapped none none false true).res = .ok w' ∧
    (listFromBytes exExt Std.crypto exInputs w (some (py! "pw"))).res = .ok kl ∧
    (listFromBytes exExt Std.crypto exInputs w' (some (py! "pw"))).res = .ok kl' ∧
    kl.decipherBytes = some x ∧ kl'.decipherBytes = some x' ∧ x.length = x'.length ∧ x ≠ x' ∧ w ≠ w' := by
  obtain ⟨w, kl, x, h1, h2, h3, h4, h5⟩ := exReuse (self := exList) (sel := exList.pairs)
    (privs := [(packPrivateBytes exEd).toOption.getD [], (packPrivateBytes exRsaPriv).toOption.getD []]) rfl (fun _ h => h) (by decide +kernel)
    (.cons (by decide +kernel) (.cons (by decide +kernel) .nil)) (by decide +kernel)
  obtain ⟨w', kl', x', h1', h2', h3', h4', h5'⟩ := exReuse (self := exListSwapped) (sel := exList.pairs.reverse)
    (privs := [(packPrivateBytes exRsaPriv).toOption.getD [], (packPrivateBytes exEd).toOption.getD []]) rfl (fun _ h => List.mem_reverse.1 h)
    (by decide +kernel) (.cons (by decide +kernel) (.cons (by decide +kernel) .nil)) (by decide +kernel)
  have hlen : x.length = x'.length := by
    rw [h4, h4']
    decide +kernel
  have hne : x ≠ x' := sections_ne h5 h5' (by decide +kernel) (by decide +kernel)
  refine ⟨w, w', kl, kl', x, x', h1, h1', h2, h2', h3, h3', hlen, hne, ?_⟩
  intro e
  rw [e, h2'] at h2
  cases h2
  rw [h3'] at h3
  injection h3 with h3
  exact hne h3.symm

/-! Two files with options of their own. -/
example : ∃ w w', (packKeyList toyCrypto exInputs exList none none false false).res = .ok w ∧
    (packKeyList toyCrypto { exInputs with tokenBytes := fun n => List.replicate n 9 } exList none none false false).res = .ok w' ∧
    exInputs.tokenBytes 16 ≠ (fun n => List.replicate n 9) 16 :=
  ⟨((packKeyList toyCrypto exInputs exList none none false false).res.toOption).getD [],
    ((packKeyList toyCrypto { exInputs with tokenBytes := fun n => List.replicate n 9 } exList none none false false).res.toOption).getD [],
    by decide +kernel, by decide +kernel, by decide +kernel⟩

end OSK
