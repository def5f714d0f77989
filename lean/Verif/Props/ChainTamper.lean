import Verif.Props.Chain
/-
C114 for the ciphers in cipher block chaining mode.
-/
namespace OSK
open Spec

theorem cbcDec_append {n : Nat} {D : Bytes → Bytes} : ∀ (k : Nat) (iv u : Bytes), u.length = n * k →
    ∃ l : Bytes, ∀ m b, Std.cbcDec n D (k + m) iv (u ++ b) = Std.cbcDec n D k iv u ++ Std.cbcDec n D m l b := by
  intro k
  induction k with
  | zero =>
    intro iv u hu
    rw [Nat.mul_zero] at hu
    rw [List.length_eq_zero_iff.1 hu]
    exact ⟨iv, fun m b => by rw [Nat.zero_add]; rfl⟩
  | succ k ih =>
    intro iv u hu
    rw [Nat.mul_succ] at hu
    have h3 : n ≤ u.length := by omega
    obtain ⟨l, hl⟩ := ih (u.take n) (u.drop n) (by rw [List.length_drop]; omega)
    refine ⟨l, fun m b => ?_⟩
    rw [show k + 1 + m = (k + m) + 1 by omega, Std.cbcDec, Std.cbcDec, List.take_append_of_le_length h3, List.drop_append_of_le_length h3, hl,
      List.append_assoc]

/-- Where a change of one encrypted block is seen: in this block, and in the next one, which is changed in the same way. -/
theorem cbcDec_change {n : Nat} {D : Bytes → Bytes} (hD : ∀ b, b.length = n → (D b).length = n) {k m : Nat} {iv u y z v d : Bytes}
    (hu : u.length = n * k) (hy : y.length = n) (hz : z.length = n) (hd : d.length = n) :
    ∃ p a a' w r, p.length = n * k ∧ a.length = n ∧ a'.length = n ∧ w.length = n ∧
      Std.cbcDec n D (k + (m + 1 + 1)) iv (u ++ (y ++ (z ++ v))) = p ++ (a ++ (w ++ r)) ∧
      Std.cbcDec n D (k + (m + 1 + 1)) iv (u ++ (xorB y d ++ (z ++ v))) = p ++ (a' ++ (xorB w d ++ r)) := by
  obtain ⟨l, hl⟩ := cbcDec_append (D := D) k iv u hu
  have hy' : (xorB y d).length = n := by rw [xorB_length (by omega), hy]
  have two : ∀ y : Bytes, y.length = n → Std.cbcDec n D (m + 1 + 1) l (y ++ (z ++ v)) =
      Std.xorBytes (D y) l ++ (Std.xorBytes (D z) y ++ Std.cbcDec n D m z v) := by
    intro y hy
    rw [Std.cbcDec, Std.cbcDec, List.take_left' hy, List.drop_left' hy, List.take_left' hz, List.drop_left' hz]
  have hx : ∀ {a y : Bytes}, a.length = n → y.length = n → Std.xorBytes a (xorB y d) = xorB (Std.xorBytes a y) d := by
    intro a y ha hy
    rw [xorBytes_same (by rw [xorB_length (by omega)]; omega), xorBytes_same (by omega), xorB_assoc]
  refine ⟨Std.cbcDec n D k iv u, Std.xorBytes (D y) l, Std.xorBytes (D (xorB y d)) l, Std.xorBytes (D z) y, Std.cbcDec n D m z v,
    Std.cbcDec_length hD _ _ _ hu, by rw [Std.xorBytes_length, hD _ hy], by rw [Std.xorBytes_length, hD _ hy'],
    by rw [Std.xorBytes_length, hD _ hz], by rw [hl, two y hy], by rw [hl, two _ hy', hx (hD _ hz) hy]⟩

theorem chain_sizes {name : Str} {n : Nat} (hm : (name, n) ∈ chainCiphers) : name ≠ py! "none" ∧ cipherSizes name = some (n, 0) ∧ (n = 8 ∨ n = 16) := by
  simp only [chainCiphers, List.mem_cons, List.not_mem_nil, or_false, Prod.mk.injEq] at hm
  rcases hm with ⟨rfl, rfl⟩ | ⟨rfl, rfl⟩ | ⟨rfl, rfl⟩ | ⟨rfl, rfl⟩ | ⟨rfl, rfl⟩ <;> decide +kernel

/-- In the decrypted bytes `a ++ s ++ v` a change of encrypted bytes is confined to the 32 bytes `s`. -/
theorem chain_confined {alg : SymAlg} {key iv body a s v : Bytes} {n : Nat} (hn : Std.blockLength alg = n) (h16 : n = 8 ∨ n = 16) (hs : s.length = 32)
    (h : Std.symCrypt false alg .cbc key iv body = .ok (a ++ s ++ v)) :
    ∃ pos m, 1 ≤ m ∧ pos + m ≤ body.length ∧ ∀ d : Bytes, d.length = m → ∃ s', s'.length = 32 ∧
      Std.symCrypt false alg .cbc key iv (changeAt pos d body) = .ok (a ++ s' ++ v) ∧ (s' = s → d = List.replicate m 0) := by
  obtain ⟨hiv, M, b1, b2⟩ := chain_dec h
  have hD := fun (y : Bytes) (hy : y.length = Std.blockLength alg) => Std.decBlock_length alg key hy
  have hlen := congrArg List.length b2
  rw [Std.cbcDec_length hD _ _ _ b1] at hlen
  rw [hn] at b1 b2 hlen hD
  simp only [List.length_append, hs] at hlen
  obtain ⟨q, k, hk, q1, q2⟩ : ∃ q k, q = n * k ∧ a.length ≤ q ∧ q < a.length + n := by
    refine ⟨n * ((a.length + n - 1) / n), _, rfl, ?_, ?_⟩ <;> rcases h16 with rfl | rfl <;> omega
  have hM : ∃ j, M = k + (j + 1 + 1) := by
    refine ⟨M - k - 2, ?_⟩
    rcases h16 with rfl | rfl <;> omega
  obtain ⟨j, rfl⟩ := hM
  have hbl : q + n + n ≤ body.length := by
    rw [b1, hk]
    rcases h16 with rfl | rfl <;> omega
  obtain ⟨m, hm1, hm2, hm3⟩ : ∃ m, 1 ≤ m ∧ m ≤ n ∧ q + n + m ≤ a.length + 32 := by
    refine ⟨min n (a.length + 32 - (q + n)), ?_, ?_, ?_⟩ <;> rcases h16 with rfl | rfl <;> omega
  refine ⟨q, m, hm1, by omega, fun d hd => ?_⟩
  have hy : ((body.drop q).take n).length = n := by rw [List.length_take, List.length_drop]; omega
  have hz : ((body.drop (q + n)).take n).length = n := by rw [List.length_take, List.length_drop]; omega
  have hu : (body.take q).length = n * k := by rw [List.length_take, ← hk]; omega
  have hd' : (d ++ List.replicate (n - m) 0).length = n := by rw [List.length_append, List.length_replicate]; omega
  have hsplit : body = body.take q ++ ((body.drop q).take n ++ ((body.drop (q + n)).take n ++ body.drop (q + n + n))) := by
    rw [← List.drop_drop (i := n) (j := q + n), List.take_append_drop, ← List.drop_drop (i := n) (j := q), List.take_append_drop, List.take_append_drop]
  obtain ⟨p, y, y', z, r, l1, l2, l3, l4, e1, e2⟩ := cbcDec_change hD (k := k) (m := j) (iv := iv) (u := body.take q) (y := (body.drop q).take n)
    (z := (body.drop (q + n)).take n) (v := body.drop (q + n + n)) (d := d ++ List.replicate (n - m) 0) hu hy hz hd'
  have hchange : changeAt q d body = body.take q ++ (xorB ((body.drop q).take n) (d ++ List.replicate (n - m) 0) ++
      ((body.drop (q + n)).take n ++ body.drop (q + n + n))) := by
    have g := changeAt_zeros q 0 (n - m) d body (by omega)
    rw [Nat.add_zero, List.replicate_zero, List.nil_append] at g
    rw [← g]
    have g2 := changeAt_parts (body.take q) ((body.drop q).take n) ((body.drop (q + n)).take n ++ body.drop (q + n + n))
      (d ++ List.replicate (n - m) 0) (by omega)
    rw [List.append_assoc, ← hsplit, hu, ← hk] at g2
    rw [g2, List.append_assoc]
  rw [← hsplit, ← b2] at e1
  have hclen : (changeAt q d body).length = body.length := by
    rw [hchange]
    conv_rhs => rw [hsplit]
    simp only [List.length_append, xorB_length (hy.trans hd'.symm)]
  -- what is decrypted
  have hdec : Std.symCrypt false alg .cbc key iv (changeAt q d body) = .ok (p ++ (y' ++ (xorB z (d ++ List.replicate (n - m) 0) ++ r))) := by
    have h' := h
    unfold Std.symCrypt at h' ⊢
    split at h'
    · cases h'
    · rename_i c1
      rw [if_neg c1]
      split at h'
      · cases h'
      · rename_i c2
        rw [if_neg c2]
        dsimp only at h' ⊢
        rw [hclen]
        split at h'
        · cases h'
        · rename_i c3
          rw [if_neg c3, if_neg (by simp)]
          have hdiv : body.length / Std.blockLength alg = k + (j + 1 + 1) := by
            rw [hn, b1]
            exact Nat.mul_div_cancel_left _ (by omega)
          rw [hdiv, hn, hchange, e2]
  have hxl : (xorB z (d ++ List.replicate (n - m) 0)).length = n := by rw [xorB_length (l4.trans hd'.symm), l4]
  have hxd : xorB z (d ++ List.replicate (n - m) 0) = xorB (z.take m) d ++ z.drop m := by
    have : z = z.take m ++ z.drop m := (List.take_append_drop m z).symm
    conv_lhs => rw [this]
    rw [xorB_append (by rw [List.length_take]; omega), show n - m = (z.drop m).length by rw [List.length_drop]; omega, xorB_zero]
  have hzt : (z.take m).length = m := by rw [List.length_take]; omega
  have hxm : (xorB (z.take m) d).length = m := by rw [xorB_length (by omega), hzt]
  generalize hw : p ++ (y' ++ (xorB z (d ++ List.replicate (n - m) 0) ++ r)) = plain' at hdec
  have w1 : plain'.take q = (a ++ s ++ v).take q := by
    rw [← hw, e1, List.take_left' (by rw [l1, hk]), List.take_left' (by rw [l1, hk])]
  have w2 : plain'.drop (q + n + m) = (a ++ s ++ v).drop (q + n + m) := by
    rw [← hw, e1, hxd]
    have x1 : (p ++ (y' ++ xorB (z.take m) d)).length = q + n + m := by simp only [List.length_append, l1, l3, hxm, hk]; omega
    have x2 : (p ++ (y ++ z.take m)).length = q + n + m := by simp only [List.length_append, l1, l2, hzt, hk]; omega
    have y1 : p ++ (y' ++ (xorB (z.take m) d ++ z.drop m ++ r)) = (p ++ (y' ++ xorB (z.take m) d)) ++ (z.drop m ++ r) := by
      simp only [List.append_assoc]
    have y2 : p ++ (y ++ (z ++ r)) = (p ++ (y ++ z.take m)) ++ (z.drop m ++ r) := by
      simp only [List.append_assoc]
      rw [← List.append_assoc (z.take m), List.take_append_drop]
    rw [y1, y2, List.drop_left' x1, List.drop_left' x2]
  have w3 : plain'.length = (a ++ s ++ v).length := by
    rw [← hw, e1]
    simp only [List.length_append, l2, l3, l4, hxl]
  have v1 : plain'.take a.length = a := by
    have := congrArg (List.take a.length) w1
    rw [List.take_take, List.take_take, Nat.min_eq_left q1] at this
    rw [this, List.append_assoc, List.take_left]
  have v2 : plain'.drop (a.length + 32) = v := by
    have := congrArg (List.drop (a.length + 32 - (q + n + m))) w2
    rw [List.drop_drop, List.drop_drop, show q + n + m + (a.length + 32 - (q + n + m)) = a.length + 32 by omega] at this
    rw [this, List.drop_left' (by rw [List.length_append, hs])]
  have v3 : ((plain'.drop a.length).take 32).length = 32 := by
    rw [List.length_take, List.length_drop, w3]
    simp only [List.length_append, hs]
    omega
  have v4 : plain' = a ++ (plain'.drop a.length).take 32 ++ v := by
    conv_lhs => rw [← List.take_append_drop a.length plain', v1, ← List.take_append_drop 32 (plain'.drop a.length), List.drop_drop, v2]
    rw [List.append_assoc]
  refine ⟨(plain'.drop a.length).take 32, v3, by rw [hdec]; exact congrArg Except.ok v4, fun hss => ?_⟩
  rw [hss, ← hw, e1] at v4
  have u1 := List.append_cancel_left v4
  have u2 := (List.append_inj u1 (by omega)).2
  have u3 := (List.append_inj u2 (by omega)).1
  have u4 : xorB (z.take m) d = z.take m := by
    have := congrArg (List.take m) u3
    rwa [hxd, List.take_left' hxm] at this
  have u5 := xorB_cancel (a := z.take m) (b := d) (by omega)
  rw [u4, xorB_self, hzt] at u5
  exact u5.symm

/-- **C114** (the secret of an Ed25519 key, cipher block chaining). In a file encrypted in cipher block chaining mode any bits of some
bytes can be inverted so that the secret of an Ed25519 key is another one: a block in the midst of the secret becomes something else, and the same bits of
the next block are inverted.  Nothing has to be known for it; reading the file neither fails nor warns, and the public key stays as it was. -/
theorem C114_chain (ext : Ext) (inp : Inputs) (passphrase : Option Str) (b : Bytes) (kl : KeyList) (name : Str) (n : Nat)
    (h : ReadsQuietly ext Std.crypto inp passphrase b kl) (hn : HasCipher kl name)
    (hm : (name, n) ∈ chainCiphers) (l1 l2 : List Pair) (p : Pair) (hp : kl.pairs = l1 ++ p :: l2)
    (ht : p.priv.header = [(py! "key_type", .str (py! "ssh-ed25519"))]) :
    ∃ pos m s x, 1 ≤ m ∧ s.length = 32 ∧ dget p.priv.params.data (py! "private_public") = some (.bytes (s ++ x)) ∧
      ∀ d : Bytes, d.length = m → ∃ kl' s', ReadsQuietly ext Std.crypto inp passphrase (changeAt pos d b) kl' ∧
        kl'.pairs = l1 ++ withSecret p (s' ++ x) :: l2 ∧ s'.length = 32 ∧ (s' = s → d = List.replicate m 0) := by
  obtain ⟨post, h⟩ := (file_quiet ext C104_laws.kdf_length inp passphrase b kl).1 h
  obtain ⟨f, w, c, keys, o, block, pad, hb, ⟨front, wb, hf, ⟨l4, hl4, hd4, rfl⟩, rfl⟩, a3, a4, a5, a6, a7, a8, a9, a10, a11, -, a13, -, -, a16, -⟩ :=
    h.parts
  rw [hp, List.map_append, List.map_cons] at a8
  obtain ⟨x0, y0, r0, rfl, hk, hrep⟩ := keysInOrder_replace a8
  obtain ⟨u, v, s, x, hs, rfl, hg, hfree⟩ := secret_free hk ht
  have e1 := hasCipher_file a13 hn
  obtain ⟨z1, z2, z3⟩ := chain_sizes hm
  rw [← e1, z2] at a3
  simp only [Option.some.injEq, Prod.mk.injEq] at a3
  obtain ⟨rfl, htag⟩ := a3
  have htag : f.tag = [] := List.length_eq_zero_iff.1 htag.symm
  have hpl : c ++ c ++ (x0 ++ (u ++ s ++ v)) = (c ++ c ++ x0 ++ u) ++ s ++ v := by simp only [List.append_assoc]
  rw [hpl] at a5 a10
  generalize hplain : (c ++ c ++ x0 ++ u) ++ s ++ v = plain at a5
  cases a5 with
  | none h0 => exact absurd h0 (by rw [← e1]; exact z1)
  | @cipher su r _ h1 h2 h3 =>
  subst hplain
  obtain ⟨alg, q1, q2, q3⟩ := chain_suite hm (by rw [e1]; exact h1)
  have h3' := h3
  rw [q3, htag, List.append_nil] at h3'
  obtain ⟨pos, m, m1, m2, hch⟩ := chain_confined q1 z3 hs h3'
  refine ⟨(front ++ l4).length + pos, m, s, x, m1, hs, hg, fun d hd => ?_⟩
  obtain ⟨s', s1, s2, s3⟩ := hch d hd
  have hbl : (changeAt pos d f.body).length = f.body.length := by
    unfold changeAt
    have : ((f.body.drop pos).take d.length).length = d.length := by rw [List.length_take, List.length_drop]; omega
    simp only [List.length_append, xorB_length this, List.length_take, List.length_drop]
    omega
  have hcb : changeAt ((front ++ l4).length + pos) d b = front ++ (l4 ++ changeAt pos d f.body) ++ f.tag ++ post := by
    have hsplit : f.body = f.body.take pos ++ (f.body.drop pos).take m ++ f.body.drop (pos + m) := by
      rw [← List.drop_drop, List.append_assoc, List.take_append_drop, List.take_append_drop]
    have hl : ((f.body.drop pos).take m).length = m := by rw [List.length_take, List.length_drop]; omega
    have g1 := changeAt_parts (f.body.take pos) ((f.body.drop pos).take m) (f.body.drop (pos + m)) d (by omega)
    have g2 := changeAt_parts (front ++ l4 ++ f.body.take pos) ((f.body.drop pos).take m) (f.body.drop (pos + m) ++ post) d (by omega)
    have hp1 : (f.body.take pos).length = pos := by rw [List.length_take]; omega
    rw [← hsplit, hp1] at g1
    rw [g1, hb, htag]
    rw [List.length_append (as := front ++ l4), hp1] at g2
    have : front ++ (l4 ++ f.body) ++ [] ++ post = front ++ l4 ++ f.body.take pos ++ (f.body.drop pos).take m ++ (f.body.drop (pos + m) ++ post) := by
      conv_lhs => rw [hsplit]
      simp only [List.append_assoc, List.append_nil]
    rw [this, g2]
    simp only [List.append_assoc, List.append_nil]
  have hmem : p ∈ kl.pairs := by rw [hp]; simp
  have hpp : PairInOrder (withSecret p (s' ++ x)) := by
    refine ⟨(a11 p hmem).type, fun n y z hy hz => ?_⟩
    have hz' : dget (dset p.priv.params.data (py! "private_public") (.bytes (s' ++ x))) n = some z := hz
    rw [dget_dset] at hz'
    split at hz'
    · rename_i hn
      subst hn
      obtain ⟨fb, -, t, ⟨fmt, wt, wp, wf, b1, -, b3, -⟩, -, -, -, b7, -⟩ := forall₂_right a7 hmem
      have := (a11 p hmem).type
      rw [b7, ht] at this
      simp only [List.cons.injEq, Prod.mk.injEq, Val.str.injEq, true_and, and_true] at this
      subst this
      rw [ed_public] at b1
      cases b1
      have hk := encodesAll_dkeys b3
      have : (py! "private_public" : Str) ∈ dkeys p.pub.params.data := by rw [← dget_isSome_iff]; rw [show dget p.pub.params.data _ = _ from hy]; rfl
      rw [hk] at this
      exact absurd this (by decide +kernel)
    · exact (a11 p hmem).values n y z hy hz'
  have hpl' : c ++ c ++ (x0 ++ (u ++ s' ++ v)) = (c ++ c ++ x0 ++ u) ++ s' ++ v := by simp only [List.append_assoc]
  rw [hcb]
  refine ⟨⟨l1 ++ withSecret p (s' ++ x) :: l2, some _, _, some _, some o, some _, some _, some _⟩, s',
    (file_quiet ext C104_laws.kdf_length inp passphrase _ _).2 ⟨post,
    ⟨⟨{ f with body := changeAt pos d f.body }, _, c, x0 ++ (u ++ s' ++ v), o, n, pad, rfl,
      ⟨front, _, hf, ⟨l4, hl4, by rw [hd4, hbl], rfl⟩, rfl⟩, by rw [htag, ← e1]; exact z2, ?_, ?_, a6, ?_, ?_, a9, ?_, ?_, rfl,
      rfl, rfl, rfl, rfl, rfl, rfl⟩⟩⟩, rfl, s1, s3⟩
  · cases a4 with
    | none h => exact .none h
    | bcrypt g1 g2 g3 g4 => exact .bcrypt g1 g2 g3 g4
  · rw [hpl']
    refine .cipher h1 h2 ?_
    rw [q3]
    show Std.symCrypt false alg .cbc _ _ (_ ++ f.tag) = _
    rw [htag, List.append_nil]
    exact s2
  · have := (List.forall₂_map_right_iff (f := Pair.pub) (R := fun b k => KeyInOrder ext .pub b k [])).2 a7
    refine (List.forall₂_map_right_iff (f := Pair.pub) (R := fun b k => KeyInOrder ext .pub b k [])).1 ?_
    rw [hp] at this
    simpa [withSecret] using this
  · rw [List.map_append, List.map_cons]
    exact hrep _ _ (hfree _ s1)
  · rw [hpl']
    rw [show ((c ++ c ++ x0 ++ u) ++ s' ++ v).length = ((c ++ c ++ x0 ++ u) ++ s ++ v).length by simp only [List.length_append, hs, s1]]
    exact a10
  · intro q hq
    rcases List.mem_append.1 hq with hq | hq
    · exact a11 q (by rw [hp]; exact List.mem_append_left _ hq)
    · rcases List.mem_cons.1 hq with rfl | hq
      · exact hpp
      · exact a11 q (by rw [hp]; exact List.mem_append_right _ (List.mem_cons_of_mem _ hq))

/-- The key is encrypted with AES in cipher block chaining mode, under any passphrase. -/
theorem exChainTamper_file (ext : Ext) (inp : Inputs) (pass : List Char) (hp : pass ≠ []) : ∃ b kl,
    FileInOrder ext Std.crypto inp (some (strOf pass)) b [] kl ∧ HasCipher kl (py! "aes256-cbc") ∧ kl.pairs = [exTamperPair 1] ∧
      kl.decipherBytes = some (exTamperPlain 1) := by
  have hutf : utf8 pass ≠ [] := by
    intro h0
    exact hp (OSK.utf8_inj (b := []) h0)
  obtain ⟨r, hr⟩ := (C104_kdf (utf8 pass) [1] 48 16).2 ⟨hutf, by simp, by decide, by decide, by decide⟩
  have hlen := C104_laws.kdf_length hr
  obtain ⟨body, hbody⟩ := C104_encrypts (name := py! "aes256-cbc") (su := aesCbc 32) (by simp [suites]) (key := r.take 32) (iv := r.drop 32)
    (plain := exTamperPlain 1) (by rw [List.length_take, hlen]; rfl) (by rw [List.length_drop, hlen]; rfl) (by decide +kernel)
  replace hbody : Std.crypto.symEnc .aes .cbc (r.take 32) (r.drop 32) (exTamperPlain 1) = .ok body := hbody
  have hb : body.length = 144 := by
    have := C104_laws.sym_length hbody
    rw [this]
    decide +kernel
  have hdec := C104_laws.sym_inv hbody
  let pub : Bytes := exSshType ++ ([0, 0, 0, 32] ++ exSshPublic)
  let f : KeyFile := ⟨"aes256-cbc".toList, "bcrypt".toList, [0, 0, 0, 1, 1] ++ [0, 0, 0, 16], [pub], body, []⟩
  let front : Bytes := magic ++ ([0, 0, 0, 10] ++ utf8 "aes256-cbc".toList) ++ ([0, 0, 0, 6] ++ utf8 "bcrypt".toList) ++
    ([0, 0, 0, 9] ++ f.options) ++ [0, 0, 0, 1] ++ ([0, 0, 0, 51] ++ pub ++ [])
  have d1 : digitSum [0, 0, 0, 10] = (utf8 "aes256-cbc".toList).length := by decide +kernel
  have d2 : digitSum [0, 0, 0, 6] = (utf8 "bcrypt".toList).length := by decide +kernel
  have d3 : digitSum [0, 0, 0, 9] = 9 := by decide +kernel
  have d4 : digitSum [0, 0, 0, 1] = 1 := by decide +kernel
  have hf : f.Front front :=
    ⟨_, _, _, [0, 0, 0, 1], _, ⟨[0, 0, 0, 10], rfl, d1, rfl⟩, ⟨[0, 0, 0, 6], rfl, d2, rfl⟩,
      ⟨[0, 0, 0, 9], rfl, d3, rfl⟩, rfl, d4, by show 1 < 2 ^ 31; decide,
      ⟨_, [], ⟨[0, 0, 0, 51], rfl, by decide +kernel, rfl⟩, rfl, rfl⟩, rfl⟩
  have hname : strOf "aes256-cbc".toList = py! "aes256-cbc" := by decide +kernel
  have hkdf : strOf "bcrypt".toList = py! "bcrypt" := by decide +kernel
  refine ⟨front ++ ([0, 0, 0, 144] ++ body) ++ [] ++ [], ⟨[exTamperPair 1], some _, _, some _, some _, some _, some _, some _⟩,
    ⟨⟨f, _, [0, 0, 0, 7], exTamperKeys 1, bcryptOptions [1] (16 : Nat), 16, 11, rfl,
      ⟨front, _, hf, ⟨[0, 0, 0, 144], rfl, by show _ = body.length; rw [hb]; decide +kernel, rfl⟩, rfl⟩, by show cipherSizes (strOf "aes256-cbc".toList) = _; rw [hname]; rfl,
      ?_, ?_, rfl, .cons (exTamper_pub ext 1) .nil, exTamper_keys ext 1, by decide, by decide +kernel, ?_, rfl, rfl, rfl, rfl, rfl, rfl, rfl⟩⟩,
    ⟨_, rfl, ?_⟩, rfl, rfl⟩
  · exact .bcrypt (p := strOf pass) (salt := [1]) (w := [0, 0, 0, 1, 1] ++ [0, 0, 0, 16]) (r := []) hkdf
      ⟨[0, 0, 0, 1, 1], [0, 0, 0, 16], ⟨[0, 0, 0, 1], rfl, by decide +kernel, rfl⟩, rfl, by decide +kernel, rfl⟩ (by simp [f]) (.inl rfl)
  · refine .cipher (su := aesCbc 32) (r := r) ?_ (.bcrypt (pass := pass) (.inl rfl) hr) ?_
    · show (strOf "aes256-cbc".toList, _) ∈ _
      rw [hname]
      simp [suites]
    · show Std.crypto.symDec .aes .cbc _ _ (body ++ []) = _
      rw [List.append_nil]
      exact hdec
  · intro p hp
    rw [List.mem_singleton.1 hp]
    exact exTamper_pair 1
  · show dget [(_, _), (_, Val.str (strOf "aes256-cbc".toList)), _, _, _] _ = _
    rw [hname]
    simp [dget]

/-- Some file is changed in one byte or a few, and read as quietly as before, with another secret. -/
example : ∃ b b' kl kl', ReadsQuietly exExt Std.crypto exInputs (some (strOf ['p', 'w'])) b kl ∧
    ReadsQuietly exExt Std.crypto exInputs (some (strOf ['p', 'w'])) b' kl' ∧ HasCipher kl (py! "aes256-cbc") ∧
    kl.pairs.map Pair.pub = kl'.pairs.map Pair.pub ∧ kl.pairs ≠ kl'.pairs := by
  obtain ⟨b, kl, h1, h2, h3, -⟩ := exChainTamper_file exExt exInputs ['p', 'w'] (by simp)
  have hq := (file_quiet exExt C104_laws.kdf_length _ _ _ _).2 ⟨[], h1⟩
  obtain ⟨pos, m, s, x, m1, s1, s2, hch⟩ := C114_chain exExt exInputs _ b kl _ 16 hq h2 (by unfold chainCiphers; simp) [] [] (exTamperPair 1) h3 rfl
  obtain ⟨kl', s', g1, g2, g3, g4⟩ := hch (List.replicate m 1) List.length_replicate
  refine ⟨b, _, kl, kl', hq, g1, h2, by rw [h3, g2]; rfl, fun e => ?_⟩
  rw [h3, g2] at e
  have e2 : dget (withSecret (exTamperPair 1) (s' ++ x)).priv.params.data (py! "private_public") = some (.bytes (s ++ x)) := by
    rw [← (List.cons.inj e).1]
    exact s2
  have e3 : dget (dset (exTamperPair 1).priv.params.data (py! "private_public") (.bytes (s' ++ x))) (py! "private_public") = some (.bytes (s ++ x)) := e2
  rw [dget_dset, if_pos rfl] at e3
  have e4 := g4 (by simpa using e3)
  cases m with
  | zero => omega
  | succ m =>
    rw [List.replicate_succ, List.replicate_succ] at e4
    exact absurd (List.cons.inj e4).1 (by decide)

end OSK
