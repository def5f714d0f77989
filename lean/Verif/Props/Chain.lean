import Verif.Props.Reuse
import Verif.Spec.Chain
/-
C125: what two files in cipher block chaining mode with the same key have in common.
-/
namespace OSK
open Spec

theorem cbcDec_split {n : Nat} {D : Bytes → Bytes} {y : Bytes} (hy : y.length = n) : ∀ (k m : Nat) (iv u b : Bytes), u.length = n * k →
    Std.cbcDec n D (k + 1 + m) iv (u ++ (y ++ b)) = Std.cbcDec n D (k + 1) iv (u ++ y) ++ Std.cbcDec n D m y b := by
  intro k
  induction k with
  | zero =>
    intro m iv u b hu
    rw [Nat.mul_zero] at hu
    rw [List.length_eq_zero_iff.1 hu, Nat.zero_add, Nat.add_comm 1 m]
    simp only [List.nil_append, Std.cbcDec, List.take_left' hy, List.drop_left' hy, List.append_nil, List.take_of_length_le (Nat.le_of_eq hy)]
  | succ k ih =>
    intro m iv u b hu
    rw [Nat.mul_succ] at hu
    have h1 : (u.take n).length = n := by rw [List.length_take]; omega
    have h2 : (u.drop n).length = n * k := by rw [List.length_drop]; omega
    have h3 : n ≤ u.length := by omega
    rw [show k + 1 + 1 + m = (k + 1 + m) + 1 by omega, Std.cbcDec, Std.cbcDec, List.take_append_of_le_length h3, List.drop_append_of_le_length h3,
      List.take_append_of_le_length h3, List.drop_append_of_le_length h3, ih m _ _ b h2, List.append_assoc]

theorem cbcDec_take {n : Nat} {D : Bytes → Bytes} (hD : ∀ b, b.length = n → (D b).length = n) : ∀ (k m : Nat) (iv b : Bytes),
    b.length = n * (k + m) → (Std.cbcDec n D (k + m) iv b).take (n * k) = Std.cbcDec n D k iv (b.take (n * k)) := by
  intro k
  induction k with
  | zero => intro m iv b _; simp [Std.cbcDec]
  | succ k ih =>
    intro m iv b hb
    rw [show k + 1 + m = (k + m) + 1 by omega, Nat.mul_succ] at hb
    have h1 : (b.take n).length = n := by rw [List.length_take]; omega
    rw [show k + 1 + m = (k + m) + 1 by omega, Std.cbcDec, Std.cbcDec, Nat.mul_succ, Nat.add_comm (n * k) n, List.take_append,
      List.take_of_length_le (by rw [Std.xorBytes_length, hD _ h1]; omega), Std.xorBytes_length, hD _ h1,
      Nat.add_sub_cancel_left, ih m _ _ (by rw [List.length_drop]; omega), List.take_take, Nat.min_eq_left (by omega), List.drop_take,
      Nat.add_sub_cancel_left]

theorem cbcEnc_take {n : Nat} {E : Bytes → Bytes} (hE : ∀ b, b.length = n → (E b).length = n) : ∀ (k m : Nat) (iv b : Bytes),
    b.length = n * (k + m) → (Std.cbcEnc n E (k + m) iv b).take (n * k) = Std.cbcEnc n E k iv (b.take (n * k)) := by
  intro k
  induction k with
  | zero => intro m iv b _; simp [Std.cbcEnc]
  | succ k ih =>
    intro m iv b hb
    rw [show k + 1 + m = (k + m) + 1 by omega, Nat.mul_succ] at hb
    have h1 : (b.take n).length = n := by rw [List.length_take]; omega
    have h2 := hE (Std.xorBytes (b.take n) iv) (by rw [Std.xorBytes_length, h1])
    rw [show k + 1 + m = (k + m) + 1 by omega, Std.cbcEnc, Std.cbcEnc, Nat.mul_succ, Nat.add_comm (n * k) n, List.take_append,
      List.take_of_length_le (by omega), h2,
      Nat.add_sub_cancel_left, ih m _ _ (by rw [List.length_drop]; omega), List.take_take, Nat.min_eq_left (by omega), List.drop_take,
      Nat.add_sub_cancel_left]

theorem xorB_xorBytes : ∀ {s y y' : Bytes}, y.length = s.length → y'.length = s.length →
    xorB (Std.xorBytes s y) (Std.xorBytes s y') = xorB y y'
  | [], [], [], _, _ => rfl
  | a :: s, b :: y, c :: y', h, h' => by
    have ih := xorB_xorBytes (s := s) (y := y) (y' := y') (by simpa using h) (by simpa using h')
    unfold xorB at ih ⊢
    simp only [Std.xorBytes, List.zipWith_cons_cons, ih]
    congr 1
    rw [UInt8.xor_comm a b, UInt8.xor_assoc, ← UInt8.xor_assoc a a c, UInt8.xor_self, UInt8.zero_xor]

theorem xorBytes_same : ∀ {x s : Bytes}, x.length = s.length → Std.xorBytes x s = xorB x s
  | [], [], _ => rfl
  | a :: x, b :: s, h => by
    show (a ^^^ b) :: Std.xorBytes x s = (a ^^^ b) :: xorB x s
    rw [xorBytes_same (by simpa using h)]

theorem xorB_assoc : ∀ (x y z : Bytes), xorB (xorB x y) z = xorB x (xorB y z)
  | [], _, _ => rfl
  | _ :: _, [], _ => rfl
  | _ :: _, _ :: _, [] => rfl
  | a :: x, b :: y, c :: z => by
    show ((a ^^^ b) ^^^ c) :: xorB (xorB x y) z = (a ^^^ (b ^^^ c)) :: xorB x (xorB y z)
    rw [xorB_assoc x y z, UInt8.xor_assoc]

theorem chain_suite {name : Str} {n : Nat} {su : Suite} (hm : (name, n) ∈ chainCiphers) (hs : (name, su) ∈ suites) :
    ∃ alg, Std.blockLength alg = n ∧ su.enc Std.crypto = Std.symCrypt true alg .cbc ∧ su.dec Std.crypto = Std.symCrypt false alg .cbc := by
  have key : ∀ {s : Suite}, (name, s) ∈ suites → (∃ alg, Std.blockLength alg = n ∧ s.enc Std.crypto = Std.symCrypt true alg .cbc ∧
      s.dec Std.crypto = Std.symCrypt false alg .cbc) → ∃ alg, Std.blockLength alg = n ∧ su.enc Std.crypto = Std.symCrypt true alg .cbc ∧
      su.dec Std.crypto = Std.symCrypt false alg .cbc := by
    intro s h1 h2
    rw [suites_unique hs h1]
    exact h2
  simp only [chainCiphers, List.mem_cons, List.not_mem_nil, or_false, Prod.mk.injEq] at hm
  rcases hm with ⟨rfl, rfl⟩ | ⟨rfl, rfl⟩ | ⟨rfl, rfl⟩ | ⟨rfl, rfl⟩ | ⟨rfl, rfl⟩
  · exact key (by unfold suites; exact .head _) ⟨.tripleDes, rfl, rfl, rfl⟩
  · exact key (s := aesCbc 16) (by unfold suites; simp [aesCbc]) ⟨.aes, rfl, rfl, rfl⟩
  · exact key (s := aesCbc 24) (by unfold suites; simp [aesCbc]) ⟨.aes, rfl, rfl, rfl⟩
  · exact key (s := aesCbc 32) (by unfold suites; simp [aesCbc]) ⟨.aes, rfl, rfl, rfl⟩
  · exact key (s := aesCbc 32) (by unfold suites; simp [aesCbc]) ⟨.aes, rfl, rfl, rfl⟩

theorem chain_dec {alg : SymAlg} {key iv b x : Bytes} (h : Std.symCrypt false alg .cbc key iv b = .ok x) :
    iv.length = Std.blockLength alg ∧ ∃ m, b.length = Std.blockLength alg * m ∧
      x = Std.cbcDec (Std.blockLength alg) (Std.decBlock alg key) m iv b := by
  unfold Std.symCrypt at h
  split at h
  · cases h
  · split at h
    · cases h
    · rename_i h2
      dsimp only at h
      split at h
      · cases h
      · rename_i h3
        rw [if_neg (by simp)] at h
        have hd := Nat.div_add_mod b.length (Std.blockLength alg)
        exact ⟨by omega, b.length / Std.blockLength alg, by omega, (Except.ok.inj h).symm⟩

theorem chain_enc {alg : SymAlg} {key iv b x : Bytes} (h : Std.symCrypt true alg .cbc key iv b = .ok x) :
    ∃ m, b.length = Std.blockLength alg * m ∧ x = Std.cbcEnc (Std.blockLength alg) (Std.encBlock alg key) m iv b := by
  unfold Std.symCrypt at h
  split at h
  · cases h
  · split at h
    · cases h
    · dsimp only at h
      split at h
      · cases h
      · rename_i h3
        rw [if_pos rfl] at h
        have hd := Nat.div_add_mod b.length (Std.blockLength alg)
        exact ⟨b.length / Std.blockLength alg, by omega, (Except.ok.inj h).symm⟩

/-- Two files with the same cipher, options and passphrase are decrypted with the same key. -/
theorem chain_read {ext : Ext} {inp inp' : Inputs} {passphrase passphrase' : Option Str} {b b' : Bytes} {kl kl' : KeyList} {name : Str} {n : Nat}
    (hm : (name, n) ∈ chainCiphers) (hp : ∀ p, Enters inp passphrase p → Enters inp' passphrase' p)
    (h : (listFromBytes ext Std.crypto inp b passphrase).res = .ok kl) (h' : (listFromBytes ext Std.crypto inp' b' passphrase').res = .ok kl')
    (hn : HasCipher kl name) (hn' : HasCipher kl' name) (ho : kl.kdfOptions = kl'.kdfOptions) :
    ∃ alg key iv c c' x x', Std.blockLength alg = n ∧ kl.cipherBytes = some c ∧ kl'.cipherBytes = some c' ∧ kl.decipherBytes = some x ∧
      kl'.decipherBytes = some x' ∧ Std.symCrypt false alg .cbc key iv c = .ok x ∧ Std.symCrypt false alg .cbc key iv c' = .ok x' ∧
      Std.symCrypt true alg .cbc key iv x = .ok c ∧ Std.symCrypt true alg .cbc key iv x' = .ok c' := by
  obtain ⟨f, w, post, plain, c1, c2, keys, pad, o, block, -, -, -, -, a1, -, -, -, -, -, -, a2, a3, a4, a5, -, -⟩ :=
    ((C75_accepts ext C104_laws.kdf_length inp passphrase b kl).1 h).parts
  obtain ⟨f', w', post', plain', c1', c2', keys', pad', o', block', -, -, -, -, b1, -, -, -, -, -, -, b2, b3, b4, b5, -, -⟩ :=
    ((C75_accepts ext C104_laws.kdf_length inp' passphrase' b' kl').1 h').parts
  have e1 := hasCipher_file a2 hn
  have e2 := hasCipher_file b2 hn'
  rw [a4, b4] at ho
  injection ho with ho
  subst ho
  have hnone : ∀ {s : Str}, name = s → s ≠ py! "none" := by
    intro s e h0
    subst e
    rw [h0] at hm
    exact absurd (List.mem_map_of_mem (f := Prod.fst) hm) (show py! "none" ∉ chainCiphers.map Prod.fst by decide +kernel)
  cases a1 with
  | none h0 => exact absurd h0 (hnone e1)
  | cipher g1 g2 g3 =>
    cases b1 with
    | none h0 => exact absurd h0 (hnone e2)
    | cipher g1' g2' g3' =>
      rw [← e1] at g1
      rw [← e2] at g1'
      have := suites_unique g1 g1'
      subst this
      have := derives_same hp g2 g2'
      subst this
      obtain ⟨alg, q1, q2, q3⟩ := chain_suite hm g1
      have r1 := suite_reverse C119_laws g1 g3
      have r2 := suite_reverse C119_laws g1 g3'
      rw [q2] at r1 r2
      rw [q3] at g3 g3'
      exact ⟨alg, _, _, _, _, _, _, q1, a3, b3, a5, b5, g3, g3', r1, r2⟩

/-- **C125** (what is visible). Two files with the same cipher in cipher block chaining mode and the same options, read with the same passphrase:
the encrypted sections agree in the first blocks exactly if the private sections do. -/
theorem C125_visible (ext : Ext) (inp inp' : Inputs) (passphrase passphrase' : Option Str) (b b' : Bytes) (kl kl' : KeyList) (name : Str) (n : Nat)
    (hm : (name, n) ∈ chainCiphers) (hp : ∀ p, Enters inp passphrase p → Enters inp' passphrase' p)
    (h : (listFromBytes ext Std.crypto inp b passphrase).res = .ok kl) (h' : (listFromBytes ext Std.crypto inp' b' passphrase').res = .ok kl')
    (hn : HasCipher kl name) (hn' : HasCipher kl' name) (ho : kl.kdfOptions = kl'.kdfOptions) :
    ∃ c c' x x', kl.cipherBytes = some c ∧ kl'.cipherBytes = some c' ∧ kl.decipherBytes = some x ∧ kl'.decipherBytes = some x' ∧
      c.length = x.length ∧ c'.length = x'.length ∧
      ∀ k, n * k ≤ x.length → n * k ≤ x'.length → (c.take (n * k) = c'.take (n * k) ↔ x.take (n * k) = x'.take (n * k)) := by
  obtain ⟨alg, key, iv, c, c', x, x', rfl, a1, a2, a3, a4, d, d', e, e'⟩ := chain_read hm hp h h' hn hn' ho
  obtain ⟨-, m, d1, d2⟩ := chain_dec d
  obtain ⟨-, m', d1', d2'⟩ := chain_dec d'
  obtain ⟨q, e1, e2⟩ := chain_enc e
  obtain ⟨q', e1', e2'⟩ := chain_enc e'
  have hD : ∀ y : Bytes, y.length = Std.blockLength alg → (Std.decBlock alg key y).length = Std.blockLength alg :=
    fun _ hy => Std.decBlock_length alg key hy
  have hE : ∀ y : Bytes, y.length = Std.blockLength alg → (Std.encBlock alg key y).length = Std.blockLength alg :=
    fun _ hy => Std.encBlock_length alg key hy
  have l : x.length = c.length := by rw [d2, Std.cbcDec_length hD _ _ _ d1, d1]
  have l' : x'.length = c'.length := by rw [d2', Std.cbcDec_length hD _ _ _ d1', d1']
  have hpos : 0 < Std.blockLength alg := by cases alg <;> decide
  refine ⟨c, c', x, x', a1, a2, a3, a4, l.symm, l'.symm, fun k hk hk' => ⟨fun hc => ?_, fun hx => ?_⟩⟩
  · rw [l, d1] at hk
    rw [l', d1'] at hk'
    obtain ⟨j, rfl⟩ := Nat.exists_eq_add_of_le (Nat.le_of_mul_le_mul_left hk hpos)
    obtain ⟨j', rfl⟩ := Nat.exists_eq_add_of_le (Nat.le_of_mul_le_mul_left hk' hpos)
    rw [d2, d2', cbcDec_take hD k j iv c d1, cbcDec_take hD k j' iv c' d1', hc]
  · rw [e1] at hk
    rw [e1'] at hk'
    obtain ⟨j, rfl⟩ := Nat.exists_eq_add_of_le (Nat.le_of_mul_le_mul_left hk hpos)
    obtain ⟨j', rfl⟩ := Nat.exists_eq_add_of_le (Nat.le_of_mul_le_mul_left hk' hpos)
    rw [e2, e2', cbcEnc_take hE k j iv x e1, cbcEnc_take hE k j' iv x' e1', hx]

theorem chain_slice {alg : SymAlg} {key iv u y z v x : Bytes} {n k : Nat} (hn : Std.blockLength alg = n) (hu : u.length = n * k)
    (hy : y.length = n) (hz : z.length = n) (h : Std.symCrypt false alg .cbc key iv (u ++ y ++ z ++ v) = .ok x) :
    bytesAt (u.length + n) n x = Std.xorBytes (Std.decBlock alg key z) y := by
  obtain ⟨-, m, d1, d2⟩ := chain_dec h
  subst hn
  have hD : ∀ y : Bytes, y.length = Std.blockLength alg → (Std.decBlock alg key y).length = Std.blockLength alg :=
    fun _ hy => Std.decBlock_length alg key hy
  have hpos : 0 < Std.blockLength alg := by cases alg <;> decide
  have hk : k + 1 + 1 ≤ m := by
    refine Nat.le_of_mul_le_mul_left (c := Std.blockLength alg) ?_ hpos
    rw [← d1]
    simp only [List.length_append, hu, hy, hz, Nat.mul_succ]
    omega
  obtain ⟨j, rfl⟩ := Nat.exists_eq_add_of_le hk
  rw [List.append_assoc, List.append_assoc, Nat.add_assoc (k + 1), cbcDec_split hy k _ iv u _ hu, Nat.add_comm 1 j,
    show Std.cbcDec (Std.blockLength alg) (Std.decBlock alg key) (j + 1) y (z ++ v) = Std.xorBytes (Std.decBlock alg key ((z ++ v).take (Std.blockLength alg))) y ++
      Std.cbcDec (Std.blockLength alg) (Std.decBlock alg key) j ((z ++ v).take (Std.blockLength alg)) ((z ++ v).drop (Std.blockLength alg)) from rfl,
    List.take_left' hz] at d2
  have h1 : (Std.cbcDec (Std.blockLength alg) (Std.decBlock alg key) (k + 1) iv (u ++ y)).length = u.length + Std.blockLength alg := by
    rw [Std.cbcDec_length hD _ _ _ (by rw [List.length_append, hu, hy, Nat.mul_succ]), hu, Nat.mul_succ]
  unfold bytesAt
  rw [d2, List.drop_left' h1, List.take_left' (by rw [Std.xorBytes_length, hD _ hz])]

/-- **C125** (blocks moved). A block `z` that the encrypted sections of two such files have in common, in whatever place, after blocks `y` and `y'`:
what it is decrypted to in one of them is what it is decrypted to in the other, xor'ed with what `y` and `y'` differ by. Nothing else matters. -/
theorem C125_moved (ext : Ext) (inp inp' : Inputs) (passphrase passphrase' : Option Str) (b b' : Bytes) (kl kl' : KeyList) (name : Str) (n : Nat)
    (hm : (name, n) ∈ chainCiphers) (hp : ∀ p, Enters inp passphrase p → Enters inp' passphrase' p)
    (h : (listFromBytes ext Std.crypto inp b passphrase).res = .ok kl) (h' : (listFromBytes ext Std.crypto inp' b' passphrase').res = .ok kl')
    (hn : HasCipher kl name) (hn' : HasCipher kl' name) (ho : kl.kdfOptions = kl'.kdfOptions) (u y z v u' y' v' : Bytes)
    (hc : kl.cipherBytes = some (u ++ y ++ z ++ v)) (hc' : kl'.cipherBytes = some (u' ++ y' ++ z ++ v'))
    (hu : n ∣ u.length) (hu' : n ∣ u'.length) (hy : y.length = n) (hy' : y'.length = n) (hz : z.length = n) :
    ∃ x x', kl.decipherBytes = some x ∧ kl'.decipherBytes = some x' ∧
      xorB (bytesAt (u.length + n) n x) (bytesAt (u'.length + n) n x') = xorB y y' := by
  obtain ⟨alg, key, iv, c, c', x, x', q, a1, a2, a3, a4, d, d', -, -⟩ := chain_read hm hp h h' hn hn' ho
  rw [hc] at a1
  cases a1
  rw [hc'] at a2
  cases a2
  obtain ⟨k, hk⟩ := hu
  obtain ⟨k', hk'⟩ := hu'
  have hD := Std.decBlock_length alg key (hz.trans q.symm)
  refine ⟨x, x', a3, a4, ?_⟩
  rw [chain_slice q hk hy hz d, chain_slice q hk' hy' hz d']
  exact xorB_xorBytes (by omega) (by omega)

/-! Two files with the same first key, both encrypted under the passphrase `pw` with the same options and the same check number. -/

/-- A list of keys to be encrypted in cipher block chaining mode. -/
def exChain (sel : List Pair) : KeyList := listFromList sel (py! "aes256-cbc") (py! "bcrypt") (some (bcryptOptions [1, 2, 3] 16))

theorem exChain_names (sel : List Pair) : Names (exChain sel) (py! "aes256-cbc") (py! "bcrypt") :=
  .inl ⟨_, rfl, by decide +kernel, by decide +kernel⟩

theorem exChain_file {sel : List Pair} {privs : List Bytes} (hsel : ∀ p ∈ sel, p ∈ exList.pairs) (hc : sel.length < 2 ^ 31)
    (hpriv : List.Forall₂ (fun (p : Pair) b => packPrivateBytes p.priv = .ok b) sel privs) (hlen : privs.flatten.length + 24 ≤ 2 ^ 32) :
    ∃ w kl x c, (packKeyList Std.crypto exInputs (exChain sel) none none false true).res = .ok w ∧
      (listFromBytes exExt Std.crypto exInputs w (some (py! "pw"))).res = .ok kl ∧ kl.decipherBytes = some x ∧
      c.length = 4 ∧ digitSum c = exInputs.checkInt ∧ (c ++ c ++ privs.flatten) <+: x ∧ x.length = (privs.flatten.length + 23) / 16 * 16 := by
  have hk : ∀ p ∈ sel, Constructed exExt p.pub ∧ p.priv.kind = .priv ∧ Constructed exExt p.priv :=
    fun p hp => exList_constructed p (hsel p hp)
  have hp : ∀ p, Enters exInputs none p → Enters exInputs (some (py! "pw")) p := by
    rintro p (hp | ⟨-, ha⟩)
    · cases hp
    · exact .inl (by rw [show p = py! "pw" from (Except.ok.inj (ha.symm.trans (by decide +kernel)))])
  obtain ⟨w, kl, h1, h2, -⟩ := C104_file (ext := exExt) exInputs exInputs (exChain sel) none (some (py! "pw")) none false true
    (py! "aes256-cbc") (aesCbc 32) [1, 2, 3] 16 ['p', 'w'] sel privs (exChain_names sel) (by unfold suites; simp [aesCbc])
    (.inl ⟨_, rfl, rfl, by decide +kernel, by decide +kernel⟩) (by decide) (by decide) (by decide) (by decide) (by decide)
    (.inr ⟨rfl, by decide +kernel⟩) (.inl (by decide +kernel)) hk rfl hc
    (by
      intro p hp
      rcases List.mem_cons.1 (hsel p hp) with rfl | hp
      · exact ⟨(packPublicBytes exEdPub).toOption.getD [], by decide +kernel, by decide +kernel⟩
      · rcases List.mem_cons.1 hp with rfl | hp
        · exact ⟨(packPublicBytes exPub).toOption.getD [], by decide +kernel, by decide +kernel⟩
        · cases hp)
    hpriv hlen (by decide)
  obtain ⟨k⟩ := packKeyList_pack h1
  have hs : k.sel = sel := selection_unique k.selection rfl
  have hpr : k.privs = privs := by
    have := k.privKeys
    rw [hs] at this
    exact packed_unique this hpriv
  obtain ⟨kl', g1, -, -, -, g2, -⟩ := k.parsed (ext := exExt) C104_laws (inp' := exInputs) (passphrase' := some (py! "pw"))
    (by rw [hs]; exact hk) hp []
  rw [List.append_nil, h2] at g1
  injection g1 with g1
  subst g1
  have hb : k.cc.blockSize = 16 := by
    have := cipher_sizes k.cipher
    rw [(packs_named k (exChain_names sel)).1] at this
    have h16 : cipherSizes (py! "aes256-cbc") = some (16, 0) := by decide +kernel
    exact (congrArg Prod.fst (Option.some.inj (h16.symm.trans this))).symm
  obtain ⟨c, n, e1, e0, e2, e3, e4⟩ := k.section_
  rw [hb] at e2 e3
  rw [hpr] at e4
  have hcu : (countUp n).length = n := by simp [countUp]
  have hl : k.plain.length = 8 + privs.flatten.length + n := by
    rw [e4]
    simp only [List.length_append, e1, hcu]
  exact ⟨w, kl, k.plain, c, h1, h2, g2, e1, e0, ⟨countUp n, e4.symm⟩, by omega⟩

/-- The packed Ed25519 key of the example. -/
def exChainKey : Bytes := (packPrivateBytes exEd).toOption.getD []
def exChainKey' : Bytes := (packPrivateBytes exRsaPriv).toOption.getD []

/-- They agree in the blocks of the first key, and this is visible. -/
example : ∃ kl kl' c c' x x', kl.cipherBytes = some c ∧ kl'.cipherBytes = some c' ∧ kl.decipherBytes = some x ∧ kl'.decipherBytes = some x' ∧
    c.take 32 = c'.take 32 ∧ c.length ≠ c'.length ∧
    (listFromBytes exExt Std.crypto exInputs
      ((packKeyList Std.crypto exInputs (exChain exList.pairs) none none false true).res.toOption.getD []) (some (py! "pw"))).res = .ok kl ∧
    (listFromBytes exExt Std.crypto exInputs
      ((packKeyList Std.crypto exInputs (exChain (exList.pairs.take 1)) none none false true).res.toOption.getD []) (some (py! "pw"))).res =
      .ok kl' ∧ bytesAt 16 16 x = bytesAt 16 16 x' := by
  obtain ⟨w, kl, x, d, h1, h2, h3, h4, h5, h6, h7⟩ := exChain_file (sel := exList.pairs) (privs := [exChainKey, exChainKey'])
    (fun _ h => h) (by decide +kernel) (.cons (by decide +kernel) (.cons (by decide +kernel) .nil)) (by decide +kernel)
  obtain ⟨w', kl', x', d', h1', h2', h3', h4', h5', h6', h7'⟩ := exChain_file (sel := exList.pairs.take 1) (privs := [exChainKey])
    (fun _ h => List.mem_of_mem_take h) (by decide +kernel) (.cons (by decide +kernel) .nil) (by decide +kernel)
  obtain ⟨r1, r2, r3⟩ := C122_retained C104_laws exInputs exInputs exInputs exInputs _ _ none none _ _ none none false false w w' kl kl' _ _
    (exChain_names _) (exChain_names _) rfl rfl h1 h1' h2 h2'
  have hd : d = d' := by
    have := digitSum_inj (h4.trans h4'.symm) (h5.trans h5'.symm)
    exact this
  subst hd
  have hm : (py! "aes256-cbc", 16) ∈ chainCiphers := by unfold chainCiphers; simp
  obtain ⟨c, c', y, y', v1, v2, v3, v4, v5, v6, v7⟩ := C125_visible exExt exInputs exInputs (some (py! "pw")) (some (py! "pw")) w w' kl kl' _ 16 hm
    (fun _ h => h) h2 h2' r2 r3 r1
  rw [h3] at v3
  cases v3
  rw [h3'] at v4
  cases v4
  have l1 : x.length = ([exChainKey, exChainKey'].flatten.length + 23) / 16 * 16 := h7
  have l2 : x'.length = ([exChainKey].flatten.length + 23) / 16 * 16 := h7'
  rw [show ([exChainKey, exChainKey'].flatten.length + 23) / 16 * 16 = 96 by decide +kernel] at l1
  rw [show ([exChainKey].flatten.length + 23) / 16 * 16 = 48 by decide +kernel] at l2
  have ht : x.take 32 = x'.take 32 := by
    obtain ⟨s, rfl⟩ := h6
    obtain ⟨s', rfl⟩ := h6'
    have hk : 24 ≤ exChainKey.length := by decide +kernel
    simp only [List.flatten_cons, List.flatten_nil, List.append_nil, List.append_assoc]
    simp only [List.take_append, h4]
    rw [Nat.sub_eq_zero_of_le (show 32 - 4 - 4 ≤ exChainKey.length by omega)]
    simp
  have hct := (v7 2 (by omega) (by omega)).2 ht
  refine ⟨kl, kl', c, c', x, x', v1, v2, h3, h3', hct, by omega, by rw [h1]; exact h2, by rw [h1']; exact h2', ?_⟩
  have hcl : c = [] ++ c.take 16 ++ (c.take 32).drop 16 ++ c.drop 32 := by
    rw [List.nil_append, show c.take 16 = (c.take 32).take 16 by rw [List.take_take]; rfl, List.take_append_drop, List.take_append_drop]
  have hcl' : c' = [] ++ c'.take 16 ++ (c.take 32).drop 16 ++ c'.drop 32 := by
    rw [List.nil_append, hct, show c'.take 16 = (c'.take 32).take 16 by rw [List.take_take]; rfl, List.take_append_drop, List.take_append_drop]
  obtain ⟨z, z', z1, z2, z3⟩ := C125_moved exExt exInputs exInputs (some (py! "pw")) (some (py! "pw")) w w' kl kl' _ 16 hm
    (fun _ h => h) h2 h2' r2 r3 r1 [] (c.take 16) ((c.take 32).drop 16) (c.drop 32) [] (c'.take 16) (c'.drop 32)
    (by rw [← hcl]; exact v1) (by rw [← hcl']; exact v2) ⟨0, rfl⟩ ⟨0, rfl⟩ (by simp; omega) (by simp; omega) (by simp; omega)
  rw [h3] at z1
  cases z1
  rw [h3'] at z2
  cases z2
  rw [show c.take 16 = c'.take 16 by
    have := congrArg (List.take 16) hct
    simpa [List.take_take] using this, xorB_self] at z3
  have q : (bytesAt 16 16 x).length = (bytesAt 16 16 x').length := by
    unfold bytesAt
    simp only [List.length_take, List.length_drop]
    omega
  have q' : (bytesAt 16 16 x).length = (c'.take 16).length := by
    unfold bytesAt
    simp only [List.length_take, List.length_drop]
    omega
  have := xorB_cancel q
  rw [show xorB (bytesAt 16 16 x) (bytesAt 16 16 x') = _ from z3, ← q', xorB_zero] at this
  exact this

end OSK
