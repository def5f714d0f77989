import Verif.Spec.Tamper
import Verif.Lemmas.SshKey
import Verif.Props.StrictFile
import Verif.Props.StdCrypto
/-
C114: key files that somebody has changed.
-/
namespace OSK
open Spec

theorem xorB_length {a b : Bytes} (h : a.length = b.length) : (xorB a b).length = a.length := by
  simp [xorB, h]

theorem xorB_cancel : ∀ {a b : Bytes}, a.length = b.length → xorB a (xorB a b) = b
  | [], [], _ => rfl
  | x :: a, y :: b, h => by
    have ih := xorB_cancel (a := a) (b := b) (by simpa using h)
    show (x ^^^ (x ^^^ y)) :: xorB a (xorB a b) = y :: b
    rw [ih, ← UInt8.xor_assoc, UInt8.xor_self, UInt8.zero_xor]

theorem xorB_append {a b c d : Bytes} (h : a.length = c.length) : xorB (a ++ b) (c ++ d) = xorB a c ++ xorB b d := by
  simp only [xorB]
  exact List.zipWith_append h

theorem xorB_self (a : Bytes) : xorB a a = List.replicate a.length 0 := by
  induction a with
  | nil => rfl
  | cons x t ih =>
    show (x ^^^ x) :: xorB t t = _
    rw [ih, UInt8.xor_self]; rfl

theorem xorB_zero (a : Bytes) : xorB a (List.replicate a.length 0) = a := by
  induction a with
  | nil => rfl
  | cons x t ih =>
    show (x ^^^ 0) :: xorB t (List.replicate t.length 0) = _
    rw [ih, UInt8.xor_zero]

/-! ### What is read twice is the same -/

theorem encodesAll_unique {fmt : FDict} {w w' x y : Bytes} {d d' : VDict} (h : EncodesAll fmt w d) (h' : EncodesAll fmt w' d')
    (e : w ++ x = w' ++ y) : d = d' ∧ w = w' ∧ x = y := by
  induction h generalizing w' d' x y with
  | nil => cases h'; exact ⟨rfl, rfl, e⟩
  | cons h1 _ ih =>
    cases h' with
    | cons g1 g2 =>
    rw [List.append_assoc, List.append_assoc] at e
    obtain ⟨rfl, rfl, e2⟩ := encodes_unique h1 g1 e
    obtain ⟨rfl, rfl, e3⟩ := ih g2 e2
    exact ⟨rfl, rfl, e3⟩

theorem keyInOrder_unique {ext : Ext} {kind : Kind} {b rest rest' : Bytes} {k k' : Key} (h : KeyInOrder ext kind b k rest)
    (h' : KeyInOrder ext kind b k' rest') : k = k' ∧ rest = rest' := by
  obtain ⟨t, ⟨fmt, wt, wp, wf, a1, a2, a3, a4, a5⟩, -, -, a6, a7, a8, a9⟩ := h
  obtain ⟨t', ⟨fmt', wt', wp', wf', b1, b2, b3, b4, b5⟩, -, -, b6, b7, b8, b9⟩ := h'
  rw [a5] at b5
  simp only [List.append_assoc] at b5
  obtain ⟨e1, rfl, e3⟩ := encodes_unique a2 b2 b5
  cases e1
  rw [a1] at b1
  cases b1
  obtain ⟨e1, rfl, e4⟩ := encodesAll_unique a3 b3 e3
  obtain ⟨e2, rfl, e⟩ := encodesAll_unique a4 b4 e4
  rw [a8] at b8
  refine ⟨?_, e⟩
  rcases k with ⟨_, _, ⟨_, _⟩, _, _⟩
  rcases k' with ⟨_, _, ⟨_, _⟩, _, _⟩
  simp only at a6 a7 a8 a9 b6 b7 b8 b9 e1 e2
  cases b8
  subst a6 a7 a9 b6 b7 b9 e1 e2
  rfl

theorem countUp_no_key {ext : Ext} {n : Nat} (hn : n < 1000) {k : Key} {rest : Bytes} (h : KeyInOrder ext .priv (countUp n) k rest) : False := by
  obtain ⟨t, ⟨fmt, wt, wp, wf, a1, a2, a3, a4, a5⟩, -⟩ := h
  cases a2 with
  | @text cs _ h =>
    obtain ⟨p, p1, p2, rfl⟩ := h
    have hl : (countUp n).length = n := by simp [countUp]
    have h1 : n = 4 + (utf8 cs).length + wp.length + wf.length + rest.length := by
      rw [← hl, a5]
      simp only [List.length_append, p1]
    have h2 : p = (countUp n).take 4 := by
      rw [a5]
      simp only [List.append_assoc]
      rw [← p1, List.take_left]
    have h3 : p = [1, 2, 3, 4] := by
      rw [h2, show n = 4 + (n - 4) by omega]
      simp [countUp, ← List.map_take, List.take_range]
      decide
    rw [h3] at p2
    have h4 : digitSum [1, 2, 3, 4] = 16909060 := by decide +kernel
    omega

theorem keysInOrder_unique {ext : Ext} {ks ks' : List Key} {b : Bytes} {n n' : Nat} (hn : n < 1000) (hn' : n' < 1000)
    (h : KeysInOrder ext ks b (countUp n)) (h' : KeysInOrder ext ks' b (countUp n')) : ks = ks' := by
  generalize hp : countUp n = pad at h
  generalize hp' : countUp n' = pad' at h'
  induction h generalizing ks' with
  | nil =>
    subst hp
    cases h' with
    | nil => rfl
    | cons h1 _ => exact (countUp_no_key hn h1).elim
  | cons h1 h2 ih =>
    subst hp
    cases h' with
    | nil => subst hp'; exact (countUp_no_key hn' h1).elim
    | cons g1 g2 =>
      obtain ⟨rfl, rfl⟩ := keyInOrder_unique h1 g1
      rw [ih rfl g2]

theorem encodesAll_dkeys {fmt : FDict} {w : Bytes} {d : VDict} (h : EncodesAll fmt w d) : dkeys d = dkeys fmt := by
  induction h with
  | nil => rfl
  | cons _ _ ih => simp only [dkeys, List.map_cons] at ih ⊢; rw [ih]

theorem encodesAll_same {fmt : FDict} {w w' : Bytes} {d d' : VDict} (hn : (dkeys fmt).Nodup) (h : EncodesAll fmt w d)
    (h' : EncodesAll fmt w' d') (hs : ∀ k v v', dget d k = some v → dget d' k = some v' → v = v') : d = d' := by
  induction h generalizing w' d' with
  | nil => cases h'; rfl
  | @cons k fi t w1 w2 v d h1 h2 ih =>
    cases h' with
    | @cons _ _ _ u1 u2 v' d' g1 g2 =>
    have hv := hs k v v' (dget_cons_self ..) (dget_cons_self ..)
    subst hv
    have hk : k ∉ dkeys t ∧ (dkeys t).Nodup := List.nodup_cons.1 hn
    rw [ih hk.2 g2]
    intro x y y' hy hy'
    have hx : x ∈ dkeys t := by
      rw [← encodesAll_dkeys h2, ← dget_isSome_iff, hy]; rfl
    have hne : k ≠ x := fun h => hk.1 (h ▸ hx)
    exact hs x y y' (by rw [dget_cons_ne hne]; exact hy) (by rw [dget_cons_ne hne]; exact hy')

/-- The public key of a pair in order is determined by the private one. -/
theorem public_unique {ext : Ext} {b b' x x' : Bytes} {p p' : Pair} (h : KeyInOrder ext .pub b p.pub [])
    (h' : KeyInOrder ext .pub b' p'.pub []) (hp : PairInOrder p) (hp' : PairInOrder p')
    (hk : KeyInOrder ext .priv x p.priv x') (e : p.priv = p'.priv) : p = p' := by
  obtain ⟨t, ⟨fmt, wt, wp, wf, a1, a2, a3, a4, a5⟩, -, -, a6, a7, a8, a9⟩ := h
  obtain ⟨t', ⟨fmt', wt', wp', wf', b1, b2, b3, b4, b5⟩, -, -, b6, b7, b8, b9⟩ := h'
  obtain ⟨s, ⟨g, -, ws, -, c1, -, c3, -⟩, -, -, -, c7, -⟩ := hk
  have t1 : p.pub.header = p.priv.header := hp.type
  have t2 : p'.pub.header = p'.priv.header := hp'.type
  rw [a7, c7] at t1
  rw [b7, ← e, c7] at t2
  cases t1
  cases t2
  rw [a1] at b1
  cases b1
  have hd : p.pub.params.data = p'.pub.params.data := by
    refine encodesAll_same (fields_nodup a1) a3 b3 fun k v v' hv hv' => ?_
    have hm : k ∈ dkeys fmt := by rw [← encodesAll_dkeys a3, ← dget_isSome_iff, hv]; rfl
    obtain ⟨fi, hfi⟩ : ∃ fi, (k, fi) ∈ fmt := by
      obtain ⟨y, hy, rfl⟩ := List.mem_map.1 hm
      exact ⟨y.2, hy⟩
    have hg := public_lookup _ (table_row c1 a1) g rfl _ hfi
    obtain ⟨-, y, -, hy⟩ := encodesAll_dget c3 hg
    rw [hp.values k v y hv hy, hp'.values k v' y hv' (by rw [← e]; exact hy)]
  rw [a8] at b8
  rcases p with ⟨⟨_, _, ⟨_, _⟩, _, _⟩, _⟩
  rcases p' with ⟨⟨_, _, ⟨_, _⟩, _, _⟩, _⟩
  cases a4
  cases b4
  simp only at a6 a7 a8 a9 b6 b7 b8 b9 hd e
  cases b8
  subst a6 a7 a9 b6 b7 b9 hd e
  simp_all

theorem derives_unique {cr : Crypto} {inp : Inputs} {passphrase : Option Str} {n : Nat} {o : KdfOptions} {r r' : Bytes}
    (h : Derives cr inp passphrase n o r) (h' : Derives cr inp passphrase n o r') : r = r' := by
  generalize ho : o = o' at h'
  cases h with
  | none => cases h' with
    | none => rfl
    | bcrypt => cases ho
  | bcrypt e1 k1 => cases h' with
    | none => cases ho
    | bcrypt e2 k2 =>
      simp only [bcryptOptions, KdfOptions.mk.injEq, List.cons.injEq, Prod.mk.injEq, Val.bytes.injEq, Val.int.injEq, true_and,
        and_true] at ho
      obtain ⟨rfl, h3⟩ := ho
      rw [Int.ofNat_inj] at h3
      have := OSK.strOf_inj (enters_unique e1 e2)
      subst this h3
      rw [k1] at k2
      cases k2
      rfl

theorem opens_unique {cr : Crypto} {inp : Inputs} {passphrase : Option Str} {f f' : KeyFile} {o : KdfOptions} {x x' : Bytes}
    (hc : strOf f.cipher = strOf f'.cipher) (hb : f.body ++ f.tag = f'.body ++ f'.tag) (h : Opens cr inp passphrase f o x)
    (h' : Opens cr inp passphrase f' o x') : x = x' := by
  cases h with
  | none h1 => cases h' with
    | none => exact hb
    | cipher h2 => rw [← hc] at h2; exact absurd h1 (suites_ne_none h2)
  | cipher h1 h2 h3 => cases h' with
    | none g1 => rw [← hc] at g1; exact absurd g1 (suites_ne_none h1)
    | cipher g1 g2 g3 =>
      rw [← hc] at g1
      have := suites_unique h1 g1
      subst this
      have := derives_unique h2 g2
      subst this
      rw [hb, g3] at h3
      cases h3
      rfl

theorem block_small {name : Str} {block tag : Nat} (h : cipherSizes name = some (block, tag)) : block < 1000 := by
  unfold cipherSizes at h
  split at h
  · cases h; decide
  · obtain ⟨su, hs, h⟩ := Option.map_eq_some_iff.1 h
    have t : ∀ e ∈ suites, e.2.block < 1000 := by
      intro e he
      simp only [suites, List.mem_cons, List.not_mem_nil, or_false] at he
      rcases he with rfl | rfl | rfl | rfl | rfl | rfl | rfl | rfl | rfl | rfl | rfl <;> decide
    have := t _ (dget_mem hs)
    cases h
    exact this

/-- The private keys of files in order with the same encrypted section are the same, and so are the public keys. -/
theorem pairs_unique {ext : Ext} : ∀ {l l' : List Pair} {fs fs' : List Bytes} {keys : Bytes} {pad : Bytes},
    List.Forall₂ (fun b p => KeyInOrder ext .pub b p.pub []) fs l → List.Forall₂ (fun b p => KeyInOrder ext .pub b p.pub []) fs' l' →
    (∀ p ∈ l, PairInOrder p) → (∀ p ∈ l', PairInOrder p) → KeysInOrder ext (l.map Pair.priv) keys pad →
    l.map Pair.priv = l'.map Pair.priv → l = l'
  | [], [], _, _, _, _, _, _, _, _, _, _ => rfl
  | [], _ :: _, _, _, _, _, _, _, _, _, _, e => by cases e
  | _ :: _, [], _, _, _, _, _, _, _, _, _, e => by cases e
  | p :: l, p' :: l', _, _, _, _, h, h', hp, hp', hk, e => by
    cases h with
    | cons a1 a2 =>
    cases h' with
    | cons b1 b2 =>
    cases hk with
    | cons c1 c2 =>
    simp only [List.map_cons, List.cons.injEq] at e
    have e1 := public_unique a1 b1 (hp p (List.mem_cons_self ..)) (hp' p' (List.mem_cons_self ..)) c1 e.1
    have e2 := pairs_unique a2 b2 (fun q hq => hp q (List.mem_cons_of_mem _ hq)) (fun q hq => hp' q (List.mem_cons_of_mem _ hq)) c2 e.2
    rw [e1, e2]

theorem hasCipher_file {kl : KeyList} {f : KeyFile} {name : Str}
    (e : kl.header = some [(py! "auth_magic", .bytes magic), (py! "cipher", .str (strOf f.cipher)),
      (py! "kdf", .str (strOf f.kdf)), (py! "kdf_options", .bytes f.options), (py! "num_keys", .int f.pubs.length)])
    (h : HasCipher kl name) : name = strOf f.cipher := by
  obtain ⟨hd, h1, h2⟩ := h
  rw [e] at h1
  cases h1
  simp [dget] at h2
  exact h2.symm

/-- **C114** (the clear part of a file). Whatever is changed in a file outside of its encrypted section, cipher name and
options of the key derivation function: if reading neither fails nor warns, the keys are the same.
Missing from the full statement: files with another encrypted section, see `C114_counter`, `C114_tag` and `C114_false`. -/
theorem C114_clear_partial (ext : Ext) {cr : Crypto} (hl : ∀ {p s n r k}, cr.bcryptKdf p s n r = .ok k → k.length = n)
    (inp : Inputs) (passphrase : Option Str) (b b' : Bytes) (kl kl' : KeyList) (h : ReadsQuietly ext cr inp passphrase b kl)
    (h' : ReadsQuietly ext cr inp passphrase b' kl') (hs : SameSealed kl kl') : kl.pairs = kl'.pairs := by
  obtain ⟨post, h⟩ := (file_quiet ext hl inp passphrase b kl).1 h
  obtain ⟨post', h'⟩ := (file_quiet ext hl inp passphrase b' kl').1 h'
  obtain ⟨f, w, c, keys, o, block, pad, -, -, a3, -, a5, a6, a7, a8, a9, -, a11, -, a13, a14, a15, -⟩ := h.parts
  obtain ⟨f', w', c', keys', o', block', pad', -, -, b3, -, b5, b6, b7, b8, b9, -, b11, -, b13, b14, b15, -⟩ := h'.parts
  obtain ⟨⟨name, n1, n2⟩, ho, hc⟩ := hs
  have e1 := (hasCipher_file a13 n1).symm.trans (hasCipher_file b13 n2)
  rw [a15, b15] at ho
  cases ho
  rw [a14, b14] at hc
  have e2 := opens_unique e1 (Option.some.inj hc) a5 b5
  simp only [List.append_assoc] at e2
  obtain ⟨rfl, e3⟩ := List.append_inj e2 (by rw [a6, b6])
  have e4 := List.append_cancel_left e3
  subst e4
  have e5 := keysInOrder_unique (lt_of_le_of_lt a9 (block_small a3)) (lt_of_le_of_lt b9 (block_small b3)) a8 b8
  exact pairs_unique a7 b7 a11 b11 a8 e5

/-! ### Counter mode -/

theorem changeAt_parts (x y z d : Bytes) (h : d.length = y.length) : changeAt x.length d (x ++ y ++ z) = x ++ xorB y d ++ z := by
  unfold changeAt
  have h1 : (x ++ y ++ z).drop (x.length + y.length) = z := by rw [← List.length_append, List.drop_left]
  rw [h, h1, List.append_assoc x y z, List.take_left, List.drop_left, List.take_left]

/-- What the ciphers in counter mode are. -/
theorem counter_suite {name : Str} {su : Suite} (h : (name, su) ∈ suites) (hc : name ∈ counterCiphers) :
    su.dec = (fun cr => cr.symDec .aes .ctr) ∧ cipherSizes name = some (16, 0) := by
  simp only [counterCiphers, List.mem_cons, List.not_mem_nil, or_false] at hc
  have e : ∃ n, su = aesCtr n := by
    rcases hc with rfl | rfl | rfl
    · exact ⟨16, suites_unique h (by simp [suites])⟩
    · exact ⟨24, suites_unique h (by simp [suites])⟩
    · exact ⟨32, suites_unique h (by simp [suites])⟩
  obtain ⟨n, rfl⟩ := e
  refine ⟨rfl, ?_⟩
  rcases hc with rfl | rfl | rfl <;> rfl

theorem counter_none {name : Str} (hc : name ∈ counterCiphers) : name ≠ py! "none" := by
  simp only [counterCiphers, List.mem_cons, List.not_mem_nil, or_false] at hc
  rcases hc with rfl | rfl | rfl <;> decide +kernel

/-- **C114** (counter mode). Whoever knows a part of what is encrypted can replace it by something else, without knowing the
passphrase: with `plain` xor `plain'` xor'ed to the encrypted section, the file is read as if `plain'` had been encrypted.
(Where the two are the same nothing needs to be known and nothing is changed.) -/
theorem C114_counter (ext : Ext) {cr : Crypto} (hc : CounterMode cr) (inp : Inputs) (passphrase : Option Str) (b post : Bytes)
    (kl : KeyList) (name : Str) (plain : Bytes) (h : FileInOrder ext cr inp passphrase b post kl) (hn : HasCipher kl name)
    (hm : name ∈ counterCiphers) (hp : kl.decipherBytes = some plain) (pairs' : List Pair) (c' keys' : Bytes) (pad' : Nat)
    (hcl : c'.length = 4) (hlen : (c' ++ c' ++ keys').length = plain.length)
    (hpub : pairs'.map Pair.pub = kl.pairs.map Pair.pub) (hk : KeysInOrder ext (pairs'.map Pair.priv) keys' (countUp pad'))
    (hpad : pad' ≤ 16) (hpi : ∀ p ∈ pairs', PairInOrder p) :
    ∃ kl', kl'.pairs = pairs' ∧ FileInOrder ext cr inp passphrase
      (changeAt (b.length - post.length - plain.length) (xorB plain (c' ++ c' ++ keys')) b) post kl' := by
  obtain ⟨f, w, c, keys, o, block, pad, rfl, ⟨front, wb, hf, ⟨l4, hl4, hd4, rfl⟩, rfl⟩, a3, a4, a5, a6, a7, a8, a9, a10, a11, -, a13, -, -, a16, -, -⟩ :=
    h.parts
  rw [a16] at hp
  cases hp
  have e1 := hasCipher_file a13 hn
  subst e1
  generalize hpl : c ++ c ++ keys = plain at a5 a10 hlen
  cases a5 with
  | none h0 => exact absurd h0 (counter_none hm)
  | @cipher su r _ h1 h2 h3 =>
  obtain ⟨s1, s2⟩ := counter_suite h1 hm
  rw [s2] at a3
  simp only [Option.some.injEq, Prod.mk.injEq] at a3
  obtain ⟨rfl, ht⟩ := a3
  have ht : f.tag = [] := List.length_eq_zero_iff.1 ht.symm
  rw [s1, ht, List.append_nil] at h3
  have hb := hc.length h3
  have hd : (xorB plain (c' ++ c' ++ keys')).length = f.body.length := by rw [xorB_length hlen.symm, hb]
  have h4 := hc.xor h3 hd
  rw [xorB_cancel hlen.symm] at h4
  have hb' : (xorB f.body (xorB plain (c' ++ c' ++ keys'))).length = f.body.length := xorB_length hd.symm
  have e2 : changeAt ((front ++ (l4 ++ f.body) ++ f.tag ++ post).length - post.length - plain.length)
      (xorB plain (c' ++ c' ++ keys')) (front ++ (l4 ++ f.body) ++ f.tag ++ post) =
      front ++ (l4 ++ xorB f.body (xorB plain (c' ++ c' ++ keys'))) ++ f.tag ++ post := by
    have := changeAt_parts (front ++ l4) f.body post _ hd
    rw [ht]
    simp only [List.append_nil]
    rw [show (front ++ (l4 ++ f.body) ++ post).length - post.length - plain.length = (front ++ l4).length by
      rw [← hb]; simp only [List.length_append]; omega]
    rw [← List.append_assoc front, this]
    simp only [List.append_assoc]
  rw [e2]
  refine ⟨⟨pairs', some _, _, some _, some o, some _, some _, some _⟩, rfl,
    ⟨⟨{ f with body := xorB f.body (xorB plain (c' ++ c' ++ keys')) }, _, c', keys', o, 16, pad', rfl,
      ⟨front, _, hf, ⟨l4, hl4, by rw [hd4, hb'], rfl⟩, rfl⟩, by rw [ht]; exact s2, ?_, ?_, hcl, ?_, hk, hpad, by rw [hlen]; exact a10, hpi, rfl,
      rfl, rfl, rfl, rfl, rfl, rfl⟩⟩⟩
  · cases a4 with
    | none h => exact .none h
    | bcrypt g1 g2 g3 g4 => exact .bcrypt g1 g2 g3 g4
  · refine .cipher h1 h2 ?_
    rw [s1]
    show cr.symDec .aes .ctr _ _ (_ ++ f.tag) = _
    rw [ht, List.append_nil]
    exact h4
  · have := (List.forall₂_map_right_iff (f := Pair.pub) (R := fun b k => KeyInOrder ext .pub b k [])).2 a7
    rw [← hpub] at this
    exact List.forall₂_map_right_iff.1 this

theorem xorBytes_xorB : ∀ {x d : Bytes} (s : Bytes), d.length = x.length → Std.xorBytes (xorB x d) s = xorB (Std.xorBytes x s) d
  | [], [], _, _ => rfl
  | x :: xs, y :: ds, [], _ => rfl
  | x :: xs, y :: ds, z :: s, h => by
    have ih := xorBytes_xorB (x := xs) (d := ds) s (by simpa using h)
    show ((x ^^^ y) ^^^ z) :: Std.xorBytes (xorB xs ds) s = ((x ^^^ z) ^^^ y) :: xorB (Std.xorBytes xs s) ds
    rw [ih, UInt8.xor_assoc, UInt8.xor_comm y z, ← UInt8.xor_assoc]

/-- The standard's counter mode. -/
theorem std_counterMode : CounterMode Std.crypto where
  length h := by rw [Std.crypto_symDec] at h; exact Std.symCrypt_length h
  xor := by
    intro key iv x y d h hd
    rw [Std.crypto_symDec] at h ⊢
    unfold Std.symCrypt at h ⊢
    split at h
    · cases h
    · rename_i g1
      split at h
      · cases h
      · rename_i g2
        rw [if_neg g1, if_neg g2]
        simp only [Except.ok.injEq] at h ⊢
        rw [← h]
        unfold Std.ctrCrypt
        rw [xorB_length hd.symm, xorBytes_xorB _ hd]

/-! ### The secret of an Ed25519 key -/

theorem keyInOrder_front {ext : Ext} {kind : Kind} {b rest : Bytes} {k : Key} (h : KeyInOrder ext kind b k rest) :
    ∃ w, b = w ++ rest ∧ ∀ r, KeyInOrder ext kind (w ++ r) k r := by
  obtain ⟨t, ⟨fmt, wt, wp, wf, a1, a2, a3, a4, a5⟩, h⟩ := h
  exact ⟨wt ++ wp ++ wf, a5, fun r => ⟨t, ⟨fmt, wt, wp, wf, a1, a2, a3, a4, rfl⟩, h⟩⟩

theorem keysInOrder_replace {ext : Ext} {k : Key} {l2 : List Key} : ∀ {l1 : List Key} {b pad : Bytes},
    KeysInOrder ext (l1 ++ k :: l2) b pad → ∃ x y r, b = x ++ y ∧ KeyInOrder ext .priv y k r ∧
      ∀ k' y', KeyInOrder ext .priv y' k' r → KeysInOrder ext (l1 ++ k' :: l2) (x ++ y') pad
  | [], b, pad, h => by
    cases h with
    | @cons _ _ _ r _ h1 h2 => exact ⟨[], b, r, rfl, h1, fun k' y' h' => .cons h' h2⟩
  | a :: l1, b, pad, h => by
    cases h with
    | @cons _ _ _ rest _ h1 h2 =>
      obtain ⟨x, y, r, rfl, g1, g2⟩ := keysInOrder_replace h2
      obtain ⟨w, rfl, hw⟩ := keyInOrder_front h1
      exact ⟨w ++ x, y, r, (List.append_assoc ..).symm, g1, fun k' y' h' => by
        rw [List.append_assoc]; exact .cons (hw _) (g2 k' y' h')⟩

theorem ed_private : fieldsOf .priv (py! "ssh-ed25519") = some [(py! "public", .pascal .bytes), (py! "private_public", .pascal .bytes)] := by
  decide +kernel

theorem ed_public : fieldsOf .pub (py! "ssh-ed25519") = some [(py! "public", .pascal .bytes)] := by
  decide +kernel

theorem ed_no_curve {name oid : Str} : (py! "ssh-ed25519", name, oid) ∉ curveTable := by
  have t : ∀ e ∈ curveTable, e.1 ≠ py! "ssh-ed25519" := by decide +kernel
  exact fun h => t _ h rfl

theorem data_two {fi fi' : FI} {n n' : Str} {w : Bytes} {d : VDict} (h : EncodesAll [(n, fi), (n', fi')] w d) :
    ∃ u u' v v', Encodes fi u v ∧ Encodes fi' u' v' ∧ w = u ++ u' ∧ d = [(n, v), (n', v')] := by
  cases h with
  | cons h1 h2 => cases h2 with
    | cons h3 h4 => cases h4; exact ⟨_, _, _, _, h1, h3, by rw [List.append_nil], rfl⟩

theorem encodes_bytes {w : Bytes} {v : Val} (h : Encodes (.pascal .bytes) w v) : ∃ b, v = .bytes b ∧ Prefixed 4 b w := by
  generalize hf : FI.pascal .bytes = fi at h
  cases h <;> cases hf
  exact ⟨_, rfl, by assumption⟩

/-- A private Ed25519 key in order with another secret is in order. -/
theorem secret_free {ext : Ext} {b rest : Bytes} {k : Key} (h : KeyInOrder ext .priv b k rest)
    (ht : k.header = [(py! "key_type", .str (py! "ssh-ed25519"))]) : ∃ u v s x, s.length = 32 ∧ b = u ++ s ++ v ∧
      dget k.params.data (py! "private_public") = some (.bytes (s ++ x)) ∧
      ∀ s' : Bytes, s'.length = 32 → KeyInOrder ext .priv (u ++ s' ++ v)
        { k with params := ⟨k.params.cls, dset k.params.data (py! "private_public") (.bytes (s' ++ x))⟩ } rest := by
  obtain ⟨t, ⟨fmt, wt, wp, wf, a1, a2, a3, a4, a5⟩, hm, -, a6, a7, a8, a9⟩ := h
  rw [a7] at ht
  simp only [List.cons.injEq, Prod.mk.injEq, Val.str.injEq, true_and, and_true] at ht
  subst ht
  rw [ed_private] at a1
  cases a1
  obtain ⟨s, x, s1, s2, s3, s4⟩ := hm.secret rfl rfl
  obtain ⟨u1, u2, v1, v2, e1, e2, rfl, hd⟩ := data_two a3
  obtain ⟨b1, rfl, p1⟩ := encodes_bytes e1
  obtain ⟨b2, rfl, p2⟩ := encodes_bytes e2
  have n1 : (py! "public" : Str) ≠ py! "private_public" := by decide +kernel
  rw [hd] at s3 s4
  rw [dget_cons_ne n1, dget_cons_self] at s3
  rw [dget_cons_self] at s4
  cases s3
  cases s4
  obtain ⟨q, q1, q2, rfl⟩ := p2
  refine ⟨wt ++ u1 ++ q, x ++ wf ++ rest, s, x, s1, ?_, ?_, ?_⟩
  · rw [a5]; simp only [List.append_assoc]
  · rw [hd, dget_cons_ne n1, dget_cons_self]
  · intro s' hs'
    have hset : dset k.params.data (py! "private_public") (.bytes (s' ++ x)) =
        [(py! "public", .bytes x), (py! "private_public", .bytes (s' ++ x))] := by
      rw [hd]
      simp only [dset, if_neg n1, if_true]
    refine ⟨py! "ssh-ed25519", ⟨_, wt, u1 ++ (q ++ (s' ++ x)), wf, ed_private, a2, ?_, a4, ?_⟩, ?_, ?_, a6, a7, a8, a9⟩
    · show EncodesAll _ _ (dset k.params.data _ _)
      rw [hset]
      refine .cons e1 ?_
      have := EncodesAll.cons (k := py! "private_public") (Encodes.bytes (b := s' ++ x) (w := q ++ (s' ++ x))
        ⟨q, q1, by rw [q2, List.length_append, List.length_append, s1, hs'], rfl⟩) .nil
      rw [List.append_nil] at this
      exact this
    · simp only [List.append_assoc]
    · show MaterialInOrder ext .priv _ (dset k.params.data _ _)
      rw [hset]
      refine ⟨fun _ _ h => absurd h ed_no_curve, fun _ => ⟨x, dget_cons_self .., s2⟩, fun _ _ => ⟨s', x, hs', s2, ?_, dget_cons_self ..⟩⟩
      rw [dget_cons_ne n1, dget_cons_self]
    · intro hc
      exact absurd hc (by decide +kernel)

theorem changeAt_same (u s v s' : Bytes) (h : s.length = s'.length) :
    xorB (u ++ s ++ v) (u ++ s' ++ v) = List.replicate u.length 0 ++ xorB s s' ++ List.replicate v.length 0 := by
  rw [xorB_append (by simp [h]), xorB_append rfl, xorB_self, xorB_self]

theorem changeAt_zeros (pos n m : Nat) (d b : Bytes) (h : pos + n + d.length + m ≤ b.length) :
    changeAt pos (List.replicate n 0 ++ d ++ List.replicate m 0) b = changeAt (pos + n) d b := by
  obtain ⟨x, y, z, w, v, rfl, rfl, rfl, hd, rfl⟩ : ∃ x y z w v : Bytes, b = x ++ y ++ z ++ w ++ v ∧ x.length = pos ∧ y.length = n ∧
      z.length = d.length ∧ w.length = m := by
    refine ⟨b.take pos, (b.drop pos).take n, (b.drop (pos + n)).take d.length, (b.drop (pos + n + d.length)).take m,
      b.drop (pos + n + d.length + m), ?_, ?_, ?_, ?_, ?_⟩
    · rw [List.append_assoc _ _ (b.drop (pos + n + d.length + m)), ← List.drop_drop (i := m), List.take_append_drop,
        List.append_assoc _ _ (b.drop (pos + n + d.length)), ← List.drop_drop (i := d.length), List.take_append_drop,
        List.append_assoc, ← List.drop_drop (i := n), List.take_append_drop, List.take_append_drop]
    all_goals simp only [List.length_take, List.length_drop]; omega
  have h1 := changeAt_parts x (y ++ z ++ w) v (List.replicate y.length 0 ++ d ++ List.replicate w.length 0)
    (by simp only [List.length_append, List.length_replicate]; omega)
  have h2 := changeAt_parts (x ++ y) z (w ++ v) d hd.symm
  rw [xorB_append (by simp only [List.length_append, List.length_replicate]; omega), xorB_append (by simp), xorB_zero, xorB_zero] at h1
  simp only [List.append_assoc, List.length_append] at h1 h2 ⊢
  rw [h1, h2]

/-- **C114** (the secret of an Ed25519 key). In a file encrypted in counter mode any bits of the secret of an Ed25519 key can be
inverted by inverting bits of the file.  Nothing has to be known for it; reading the file neither fails nor warns, and the public key stays as
it was. -/
theorem C114_secret (ext : Ext) {cr : Crypto} (hl : CryptoLaws cr) (hc : CounterMode cr) (inp : Inputs) (passphrase : Option Str)
    (b : Bytes) (kl : KeyList) (name : Str) (h : ReadsQuietly ext cr inp passphrase b kl) (hn : HasCipher kl name)
    (hm : name ∈ counterCiphers) (l1 l2 : List Pair) (p : Pair) (hp : kl.pairs = l1 ++ p :: l2)
    (ht : p.priv.header = [(py! "key_type", .str (py! "ssh-ed25519"))]) :
    ∃ pos s x, s.length = 32 ∧ dget p.priv.params.data (py! "private_public") = some (.bytes (s ++ x)) ∧
      ∀ d : Bytes, d.length = 32 → ∃ kl', ReadsQuietly ext cr inp passphrase (changeAt pos d b) kl' ∧
        kl'.pairs = l1 ++ withSecret p (xorB s d ++ x) :: l2 := by
  obtain ⟨post, h⟩ := (file_quiet ext hl.kdf_length inp passphrase b kl).1 h
  have h0 := h
  obtain ⟨f, w, c, keys, o, block, pad, hb, ⟨front, wb, hf, ⟨l4, hl4, hd4, rfl⟩, rfl⟩, a3, a4, a5, a6, a7, a8, a9, a10, a11, -, a13, -, -, a16, -⟩ :=
    h.parts
  rw [hp, List.map_append, List.map_cons] at a8
  obtain ⟨x0, y0, r0, rfl, hk, hrep⟩ := keysInOrder_replace a8
  obtain ⟨u, v, s, x, hs, rfl, hg, hfree⟩ := secret_free hk ht
  have e1 := hasCipher_file a13 hn
  have hblock : block = 16 ∧ f.body.length = (c ++ c ++ (x0 ++ (u ++ s ++ v))).length := by
    generalize c ++ c ++ (x0 ++ (u ++ s ++ v)) = plain at a5
    subst e1
    cases a5 with
    | none h0 => exact absurd h0 (counter_none hm)
    | @cipher su r _ h1 h2 h3 =>
      obtain ⟨s1, s2⟩ := counter_suite h1 hm
      rw [s2] at a3
      simp only [Option.some.injEq, Prod.mk.injEq] at a3
      have ht : f.tag = [] := List.length_eq_zero_iff.1 a3.2.symm
      rw [s1, ht, List.append_nil] at h3
      exact ⟨a3.1.symm, hc.length h3⟩
  refine ⟨b.length - post.length - (c ++ c ++ (x0 ++ (u ++ s ++ v))).length + (c ++ c ++ x0 ++ u).length, s, x, hs, hg, fun d hd => ?_⟩
  have hlen : (xorB s d).length = 32 := by rw [xorB_length (by rw [hs, hd]), hs]
  have hmem : p ∈ kl.pairs := by rw [hp]; simp
  have hpp : PairInOrder (withSecret p (xorB s d ++ x)) := by
    refine ⟨(a11 p hmem).type, fun n y z hy hz => ?_⟩
    have hz' : dget (dset p.priv.params.data (py! "private_public") (.bytes (xorB s d ++ x))) n = some z := hz
    rw [dget_dset] at hz'
    split at hz'
    · rename_i hn
      subst hn
      obtain ⟨fb, -, t, ⟨fmt, wt, wp, wf, b1, -, b3, -⟩, -, -, -, b7, -⟩ := forall₂_right a7 hmem
      have := (a11 p hmem).type
      rw [b7, ht] at this
      simp only [List.cons.injEq, Prod.mk.injEq, Val.str.injEq, true_and, and_true] at this
      subst this
      rw [ed_public] at b1
      cases b1
      have hk := encodesAll_dkeys b3
      have : (py! "private_public" : Str) ∈ dkeys p.pub.params.data := by rw [← dget_isSome_iff]; rw [show dget p.pub.params.data _ = _ from hy]; rfl
      rw [hk] at this
      exact absurd this (by decide +kernel)
    · exact (a11 p hmem).values n y z hy hz'
  obtain ⟨kl', k1, k2⟩ := C114_counter ext hc inp passphrase b post kl name _ h0 hn hm a16 (l1 ++ withSecret p (xorB s d ++ x) :: l2) c
    (x0 ++ (u ++ xorB s d ++ v)) pad a6 (by simp only [List.length_append, hlen, hs])
    (by rw [hp]; simp [withSecret])
    (by rw [List.map_append, List.map_cons]; exact hrep _ _ (hfree _ hlen)) (by rw [← hblock.1]; exact a9)
    (by
      intro q hq
      rcases List.mem_append.1 hq with hq | hq
      · exact a11 q (by rw [hp]; exact List.mem_append_left _ hq)
      · rcases List.mem_cons.1 hq with rfl | hq
        · exact hpp
        · exact a11 q (by rw [hp]; exact List.mem_append_right _ (List.mem_cons_of_mem _ hq)))
  refine ⟨kl', (file_quiet ext hl.kdf_length inp passphrase _ kl').2 ⟨post, ?_⟩, k1⟩
  have e2 : xorB (c ++ c ++ (x0 ++ (u ++ s ++ v))) (c ++ c ++ (x0 ++ (u ++ xorB s d ++ v))) =
      List.replicate (c ++ c ++ x0 ++ u).length 0 ++ d ++ List.replicate v.length 0 := by
    have := changeAt_same (c ++ c ++ x0 ++ u) s v (xorB s d) (by rw [hs, hlen])
    rw [xorB_cancel (by rw [hs, hd])] at this
    rw [← this]
    simp only [List.append_assoc]
  rw [e2, changeAt_zeros] at k2
  · exact k2
  · have := hblock.2
    rw [hb]
    simp only [List.length_append, hs, hd] at this ⊢
    omega

/-! ### Ciphers with a tag -/

theorem split_tag {body tag : Bytes} (h : tag.length = 16) :
    (body ++ tag).take ((body ++ tag).length - 16) = body ∧ (body ++ tag).drop ((body ++ tag).length - 16) = tag := by
  have e : (body ++ tag).length - 16 = body.length := by rw [List.length_append, h]; omega
  rw [e]
  exact ⟨List.take_left .., List.drop_left ..⟩

theorem gcm_tagged {key iv body tag x : Bytes} (ht : tag.length = 16) (h : Std.crypto.gcmDec key iv (body ++ tag) = .ok x) :
    tag = Std.gcmTag (Std.encBlock .aes key) iv body := by
  rw [Std.crypto_gcmDec] at h
  unfold Std.gcmDec at h
  split at h
  · cases h
  · split at h
    · cases h
    · rw [(split_tag ht).1, (split_tag ht).2] at h
      dsimp only at h
      split at h
      · cases h
      · rename_i h1
        exact not_not.1 h1

theorem chacha_tagged {key iv body tag x : Bytes} (ht : tag.length = 16) (h : chachaOpen Std.crypto key iv (body ++ tag) = .ok x) :
    ∃ ks, Std.crypto.chacha (key.take 32) (List.replicate 16 0) = .ok ks ∧ tag = Std.crypto.poly1305 (oneTimeKey ks) body := by
  unfold chachaOpen at h
  rw [(split_tag ht).1, (split_tag ht).2] at h
  split at h
  · cases h
  · rename_i ks hk
    refine ⟨ks, hk, ?_⟩
    split at h
    · rename_i h1
      exact h1.symm
    · cases h

/-- **C114** (ciphers with a tag). A file with one of these ciphers is read only if it has the tag that the standard's algorithms
compute from the encrypted section, under the bytes derived from the passphrase. -/
theorem C114_tag (ext : Ext) (inp : Inputs) (passphrase : Option Str) (b : Bytes) (kl : KeyList) (name : Str) (n : Nat)
    (h : (listFromBytes ext Std.crypto inp b passphrase).res = .ok kl) (hn : HasCipher kl name) (ht : (name, n) ∈ taggedCiphers) :
    ∃ o r body tag, kl.kdfOptions = some o ∧ Derives Std.crypto inp passphrase n o r ∧ kl.cipherBytes = some (body ++ tag) ∧
      tag.length = 16 ∧ Tagged name r body tag := by
  obtain ⟨f, w, post, plain, c1, c2, keys, pad, o, block, -, -, a3, -, a5, -, -, -, -, -, -, a12, a13, a14, -⟩ :=
    ((C75_accepts ext C104_laws.kdf_length inp passphrase b kl).1 h).parts
  have e1 := hasCipher_file a12 hn
  have hne : name ≠ py! "none" := by
    have t : ∀ e ∈ taggedCiphers, e.1 ≠ py! "none" := by decide +kernel
    exact t _ ht
  cases a5 with
  | none h0 => rw [← e1] at h0; exact absurd h0 hne
  | @cipher su r _ h1 h2 h3 =>
    rw [← e1] at h1 a3
    have hsz : cipherSizes name = some (su.block, su.tag) := by
      unfold cipherSizes
      rw [if_neg hne, dget_of_mem suites_nodup h1]
      rfl
    rw [hsz] at a3
    simp only [Option.some.injEq, Prod.mk.injEq] at a3
    have key : su.tag = 16 → su.key + su.iv = n → Tagged name r f.body f.tag → ∃ o r body tag, kl.kdfOptions = some o ∧
        Derives Std.crypto inp passphrase n o r ∧ kl.cipherBytes = some (body ++ tag) ∧ tag.length = 16 ∧ Tagged name r body tag :=
      fun g1 g2 g3 => ⟨o, r, f.body, f.tag, a14, g2 ▸ h2, a13, by rw [← a3.2, g1], g3⟩
    simp only [taggedCiphers, List.mem_cons, Prod.mk.injEq, List.not_mem_nil, or_false] at ht
    rcases ht with ⟨rfl, rfl⟩ | ⟨rfl, rfl⟩ | ⟨rfl, rfl⟩
    · have := suites_unique h1 (su' := aesGcm 16) (by simp [suites])
      subst this
      refine key rfl rfl ?_
      rw [gcm_tagged (by rw [← a3.2]; rfl) h3]
      exact .gcm128
    · have := suites_unique h1 (su' := aesGcm 32) (by simp [suites])
      subst this
      refine key rfl rfl ?_
      rw [gcm_tagged (by rw [← a3.2]; rfl) h3]
      exact .gcm256
    · have := suites_unique h1 (su' := ⟨8, 64, 0, 16, chachaSeal, chachaOpen⟩) (by simp [suites])
      subst this
      obtain ⟨ks, g1, g2⟩ := chacha_tagged (iv := r.drop 64) (by rw [← a3.2]) h3
      refine key rfl rfl ?_
      rw [g2]
      refine .chacha ?_
      rw [List.take_take] at g1
      exact g1

/-! ### A file that is changed -/

/-- The private key in the file below, with a secret of 32 times `z`. -/
def exTamperKeys (z : UInt8) : Bytes :=
  exSshType ++ ([0, 0, 0, 32] ++ exSshPublic ++ ([0, 0, 0, 64] ++ (List.replicate 32 z ++ exSshPublic))) ++ [0, 0, 0, 2, 109, 101] ++ countUp 11

def exTamperPlain (z : UInt8) : Bytes := [0, 0, 0, 7] ++ [0, 0, 0, 7] ++ exTamperKeys z

def exTamperPair (z : UInt8) : Pair :=
  ⟨⟨.pub, [(py! "key_type", .str (py! "ssh-ed25519"))], ⟨.ed25519Pub, [(py! "public", .bytes exSshPublic)]⟩, [], []⟩,
   ⟨.priv, [(py! "key_type", .str (py! "ssh-ed25519"))], ⟨.ed25519Priv, [(py! "public", .bytes exSshPublic),
      (py! "private_public", .bytes (List.replicate 32 z ++ exSshPublic))]⟩, [(py! "comment", .str (py! "me"))], []⟩⟩

theorem exTamper_encodes : Encodes (.pascal .bytes) ([0, 0, 0, 32] ++ exSshPublic) (.bytes exSshPublic) :=
  .bytes ⟨[0, 0, 0, 32], rfl, by decide +kernel, rfl⟩

theorem exTamper_pub (ext : Ext) (z : UInt8) :
    KeyInOrder ext .pub (exSshType ++ ([0, 0, 0, 32] ++ exSshPublic)) (exTamperPair z).pub [] := by
  refine ⟨py! "ssh-ed25519", ⟨_, exSshType, [0, 0, 0, 32] ++ exSshPublic ++ [], [], ed_public, exEd_type, .cons exTamper_encodes .nil, .nil, ?_⟩, ?_, ?_, rfl,
    rfl, by rfl, rfl⟩
  · simp only [List.append_nil]
  · exact ⟨fun _ _ h => absurd h ed_no_curve, fun _ => ⟨exSshPublic, rfl, rfl⟩, fun h => by cases h⟩
  · exact fun hc => absurd hc (by decide +kernel)

theorem exTamper_keys (ext : Ext) (z : UInt8) : KeysInOrder ext [(exTamperPair z).priv] (exTamperKeys z) (countUp 11) := by
  have hs : Encodes (.pascal .bytes) ([0, 0, 0, 64] ++ (List.replicate 32 z ++ exSshPublic)) (.bytes (List.replicate 32 z ++ exSshPublic)) :=
    .bytes ⟨[0, 0, 0, 64], rfl, by rw [List.length_append, List.length_replicate]; decide +kernel, rfl⟩
  have hc : Encodes (.pascal .string) [0, 0, 0, 2, 109, 101] (.str (py! "me")) :=
    .text (cs := ['m', 'e']) ⟨[0, 0, 0, 2], rfl, by decide +kernel, by decide +kernel⟩
  refine .cons ⟨py! "ssh-ed25519", ⟨_, exSshType, [0, 0, 0, 32] ++ exSshPublic ++ ([0, 0, 0, 64] ++ (List.replicate 32 z ++ exSshPublic) ++ []),
    [0, 0, 0, 2, 109, 101] ++ [], ed_private, exEd_type, .cons exTamper_encodes (.cons hs .nil), .cons hc .nil, ?_⟩, ?_, ?_, rfl, rfl, by rfl, rfl⟩ .nil
  · simp only [exTamperKeys, List.append_assoc, List.append_nil]
  · exact ⟨fun _ _ h => absurd h ed_no_curve, fun _ => ⟨exSshPublic, rfl, rfl⟩,
      fun _ _ => ⟨List.replicate 32 z, exSshPublic, List.length_replicate, rfl, rfl, rfl⟩⟩
  · exact fun hc => absurd hc (by decide +kernel)

theorem exTamper_pair (z : UInt8) : PairInOrder (exTamperPair z) := by
  refine ⟨rfl, fun n x y hx hy => ?_⟩
  by_cases hn : (py! "public" : Str) = n
  · subst hn
    cases hx
    cases hy
    rfl
  · simp only [exTamperPair] at hx
    rw [dget_cons_ne hn] at hx
    cases hx

/-- The key is encrypted with AES in counter mode, under any passphrase. -/
theorem exTamper_file (ext : Ext) (inp : Inputs) (pass : List Char) (hp : pass ≠ []) : ∃ b kl,
    FileInOrder ext Std.crypto inp (some (strOf pass)) b [] kl ∧ HasCipher kl (py! "aes256-ctr") ∧ kl.pairs = [exTamperPair 1] ∧
      kl.decipherBytes = some (exTamperPlain 1) := by
  have hutf : utf8 pass ≠ [] := by
    intro h0
    exact hp (OSK.utf8_inj (b := []) h0)
  obtain ⟨r, hr⟩ := (C104_kdf (utf8 pass) [1] 48 16).2 ⟨hutf, by simp, by decide, by decide, by decide⟩
  have hlen := C104_laws.kdf_length hr
  obtain ⟨body, hbody⟩ := C104_encrypts (name := py! "aes256-ctr") (su := aesCtr 32) (by simp [suites]) (key := r.take 32) (iv := r.drop 32)
    (plain := exTamperPlain 1) (by rw [List.length_take, hlen]; rfl) (by rw [List.length_drop, hlen]; rfl) (by decide +kernel)
  replace hbody : Std.crypto.symEnc .aes .ctr (r.take 32) (r.drop 32) (exTamperPlain 1) = .ok body := hbody
  have hb : body.length = 144 := by
    have := C104_laws.sym_length hbody
    rw [this]
    decide +kernel
  have hdec := C104_laws.sym_inv hbody
  let pub : Bytes := exSshType ++ ([0, 0, 0, 32] ++ exSshPublic)
  let f : KeyFile := ⟨"aes256-ctr".toList, "bcrypt".toList, [0, 0, 0, 1, 1] ++ [0, 0, 0, 16], [pub], body, []⟩
  let front : Bytes := magic ++ ([0, 0, 0, 10] ++ utf8 "aes256-ctr".toList) ++ ([0, 0, 0, 6] ++ utf8 "bcrypt".toList) ++
    ([0, 0, 0, 9] ++ f.options) ++ [0, 0, 0, 1] ++ ([0, 0, 0, 51] ++ pub ++ [])
  have d1 : digitSum [0, 0, 0, 10] = (utf8 "aes256-ctr".toList).length := by decide +kernel
  have d2 : digitSum [0, 0, 0, 6] = (utf8 "bcrypt".toList).length := by decide +kernel
  have d3 : digitSum [0, 0, 0, 9] = 9 := by decide +kernel
  have d4 : digitSum [0, 0, 0, 1] = 1 := by decide +kernel
  have hf : f.Front front :=
    ⟨_, _, _, [0, 0, 0, 1], _, ⟨[0, 0, 0, 10], rfl, d1, rfl⟩, ⟨[0, 0, 0, 6], rfl, d2, rfl⟩,
      ⟨[0, 0, 0, 9], rfl, d3, rfl⟩, rfl, d4, by show 1 < 2 ^ 31; decide,
      ⟨_, [], ⟨[0, 0, 0, 51], rfl, by decide +kernel, rfl⟩, rfl, rfl⟩, rfl⟩
  have hname : strOf "aes256-ctr".toList = py! "aes256-ctr" := by decide +kernel
  have hkdf : strOf "bcrypt".toList = py! "bcrypt" := by decide +kernel
  refine ⟨front ++ ([0, 0, 0, 144] ++ body) ++ [] ++ [], ⟨[exTamperPair 1], some _, _, some _, some _, some _, some _, some _⟩,
    ⟨⟨f, _, [0, 0, 0, 7], exTamperKeys 1, bcryptOptions [1] (16 : Nat), 16, 11, rfl,
      ⟨front, _, hf, ⟨[0, 0, 0, 144], rfl, by show _ = body.length; rw [hb]; decide +kernel, rfl⟩, rfl⟩, by show cipherSizes (strOf "aes256-ctr".toList) = _; rw [hname]; rfl,
      ?_, ?_, rfl, .cons (exTamper_pub ext 1) .nil, exTamper_keys ext 1, by decide, by decide +kernel, ?_, rfl, rfl, rfl, rfl, rfl, rfl, rfl⟩⟩,
    ⟨_, rfl, ?_⟩, rfl, rfl⟩
  · exact .bcrypt (p := strOf pass) (salt := [1]) (w := [0, 0, 0, 1, 1] ++ [0, 0, 0, 16]) (r := []) hkdf
      ⟨[0, 0, 0, 1, 1], [0, 0, 0, 16], ⟨[0, 0, 0, 1], rfl, by decide +kernel, rfl⟩, rfl, by decide +kernel, rfl⟩ (by simp [f]) (.inl rfl)
  · refine .cipher (su := aesCtr 32) (r := r) ?_ (.bcrypt (pass := pass) (.inl rfl) hr) ?_
    · show (strOf "aes256-ctr".toList, _) ∈ _
      rw [hname]
      simp [suites]
    · show Std.crypto.symDec .aes .ctr _ _ (body ++ []) = _
      rw [List.append_nil]
      exact hdec
  · intro p hp
    rw [List.mem_singleton.1 hp]
    exact exTamper_pair 1
  · show dget [(_, _), (_, Val.str (strOf "aes256-ctr".toList)), _, _, _] _ = _
    rw [hname]
    simp [dget]

/-- What is xor'ed to the file. -/
def exTamperChange (b : Bytes) : Bytes :=
  changeAt (b.length - 144) (xorB (exTamperPlain 1) (exTamperPlain 2)) b

/-- **C114** is false: somebody changes a file without knowing its passphrase, whatever the passphrase is; the file is read with the
passphrase, nothing fails and there is no warning, but the private key is another one. -/
theorem C114_false : ∃ change : Bytes → Bytes, ∀ (inp : Inputs) (pass : List Char), pass ≠ [] → ∃ b kl kl',
    ReadsQuietly exExt Std.crypto inp (some (strOf pass)) b kl ∧
    ReadsQuietly exExt Std.crypto inp (some (strOf pass)) (change b) kl' ∧
    kl.pairs.map Pair.pub = kl'.pairs.map Pair.pub ∧ kl.pairs.map Pair.priv ≠ kl'.pairs.map Pair.priv := by
  refine ⟨exTamperChange, fun inp pass hp => ?_⟩
  obtain ⟨b, kl, h1, h2, h3, h4⟩ := exTamper_file exExt inp pass hp
  have hlen : (exTamperPlain 1).length = 144 := by decide +kernel
  obtain ⟨kl', k1, k2⟩ := C114_counter exExt std_counterMode inp (some (strOf pass)) b [] kl _ _ h1 h2 (by simp [counterCiphers]) h4
    [exTamperPair 2] [0, 0, 0, 7] (exTamperKeys 2) 11 rfl (by decide +kernel) (by rw [h3]; rfl) (exTamper_keys exExt 2) (by decide)
    (by intro p hp; rw [List.mem_singleton.1 hp]; exact exTamper_pair 2)
  rw [hlen] at k2
  refine ⟨b, kl, kl', (file_quiet exExt C104_laws.kdf_length inp _ _ _).2 ⟨[], h1⟩,
    (file_quiet exExt C104_laws.kdf_length inp _ _ _).2 ⟨[], k2⟩, by rw [h3, k1]; rfl, ?_⟩
  rw [h3, k1]
  decide +kernel

/-- `C114_clear_partial` is not vacuous: a file, and the same with a byte after it. -/
example : ∃ b kl kl', ReadsQuietly exExt Std.crypto exInputs (some (strOf ['p', 'w'])) b kl ∧
    ReadsQuietly exExt Std.crypto exInputs (some (strOf ['p', 'w'])) (b ++ [1]) kl' ∧ SameSealed kl kl' ∧ kl.pairs = [exTamperPair 1] := by
  obtain ⟨b, kl, h1, h2, h3, -⟩ := exTamper_file exExt exInputs ['p', 'w'] (by simp)
  refine ⟨b, kl, { kl with byteString := some (b ++ [1]) }, (file_quiet exExt C104_laws.kdf_length _ _ _ _).2 ⟨[], h1⟩,
    (file_quiet exExt C104_laws.kdf_length _ _ _ _).2 ⟨[1], ?_⟩, ⟨⟨_, h2, h2⟩, rfl, rfl⟩, h3⟩
  obtain ⟨f, w, c, keys, o, block, pad, a1, a2, a3, a4, a5, a6, a7, a8, a9, a10, a11, -, a13⟩ := h1.parts
  exact ⟨⟨f, w, c, keys, o, block, pad, by rw [a1, List.append_nil], a2, a3, a4, a5, a6, a7, a8, a9, a10, a11, rfl, a13⟩⟩

/-- `C114_secret` is not vacuous. -/
example : ∃ b kl l1 p l2, ReadsQuietly exExt Std.crypto exInputs (some (strOf ['p', 'w'])) b kl ∧ HasCipher kl (py! "aes256-ctr") ∧
    kl.pairs = l1 ++ p :: l2 ∧ p.priv.header = [(py! "key_type", .str (py! "ssh-ed25519"))] := by
  obtain ⟨b, kl, h1, h2, h3, -⟩ := exTamper_file exExt exInputs ['p', 'w'] (by simp)
  exact ⟨b, kl, [], exTamperPair 1, [], (file_quiet exExt C104_laws.kdf_length _ _ _ _).2 ⟨[], h1⟩, h2, h3, rfl⟩

/-- `C114_tag` is not vacuous: a list encrypted with ChaCha20-Poly1305. -/
example : ∃ b kl, (listFromBytes exExt Std.crypto exInputs b (some (py! "pw"))).res = .ok kl ∧
    HasCipher kl (py! "chacha20-poly1305@openssh.com") := by
  let self := listFromList [] (py! "chacha20-poly1305@openssh.com") (py! "bcrypt") none
  have hu : Uses exInputs self false (exInputs.tokenBytes 16) 16 := .inr ⟨.inl rfl, rfl, rfl⟩
  have hsu : (py! "chacha20-poly1305@openssh.com", (⟨8, 64, 0, 16, chachaSeal, chachaOpen⟩ : Suite)) ∈ suites := by simp [suites]
  obtain ⟨w, -, h1, -⟩ := C104_file (ext := exExt) exInputs exInputs self
    none (some (py! "pw")) none false false (py! "chacha20-poly1305@openssh.com") _ _ 16 ['p', 'w'] [] []
    (.inl ⟨_, rfl, by decide +kernel, by decide +kernel⟩) hsu hu (by decide +kernel) (by decide +kernel) (by decide) (by decide) (by decide)
    (.inr ⟨rfl, by decide +kernel⟩) (.inl (by decide +kernel)) (by simp [self, listFromList]) rfl (by decide +kernel) (by simp) .nil (by decide) (by decide)
  obtain ⟨k⟩ := packKeyList_pack h1
  obtain ⟨kl, g1, -, g2, -⟩ := k.parsed (ext := exExt) (inp' := exInputs) (passphrase' := some (py! "pw")) C104_laws
    (fun p hp => by have := Selection.mem k.selection p hp; simp [self, listFromList] at this)
    (fun p hp => by
      rcases hp with hp | ⟨-, hp⟩
      · cases hp
      · cases hp; exact .inl rfl) []
  rw [List.append_nil] at g1
  have hn := k.names
  exact ⟨w, kl, g1, _, g2, congrArg some (Prod.mk.inj hn).1.symm⟩

end OSK
