import Verif.Lemmas.ListRead
import Verif.Lemmas.FileUnique
import Verif.Spec.KeyList
import Verif.Props.Key
/-
What a successful `PrivateKeyList.from_bytes` did, with its warnings.
-/
namespace OSK
open Spec

theorem plain_kdf (c : KdfCls) : plainFmt (kdfFmt c) = true := by cases c <;> decide

/-! ### The decrypted section -/

theorem prs_uint_ok {r : Bytes} {v : Val} {n : Nat} (h : prs (readFI (.struct fmtBEI)) r = (.ok v, n)) :
    ∃ w, v = .int (digitSum w) ∧ w.length = 4 ∧ n = 4 ∧ r = w ++ r.drop 4 := by
  unfold readFI at h
  obtain ⟨x, n', m', r6, r7, rfl⟩ := prs_bind_ok (fun _ => Reader.pure _) (Reader.readFixed _) h
  obtain ⟨rfl, rfl, hle, -⟩ := prs_readFixed_ok r6
  rw [prs_pure] at r7
  have e : fmtBEI.calcsize = 4 := rfl
  rw [e] at r7 hle ⊢
  refine ⟨r.take 4, ?_, by simp; omega, ?_, (List.take_append_drop 4 r).symm⟩
  · simp at r7
    rw [← r7.1, digitSum_eq]
    simp [SFmt.unpack, fmtBEI, unpackItems, SCode.unpack, SCode.size, structResult, List.take_take]
  · simp at r7; omega

theorem pack_uint {i : Int} {w : Bytes} : packFI (.struct fmtBEI) (.int i) = .ok w ↔
    w.length = 4 ∧ i = digitSum w := by
  have e : packFI (.struct fmtBEI) (.int i) =
      if SCode.inIntRange 4 false i then .ok (natToBE 4 (i % (256 : Int) ^ 4).toNat) else .error .structError := by
    simp only [packFI, structPack, Val.toSVal, SFmt.pack1, fmtBEI, SCode.pack]
    split <;> rfl
  have e2 : SCode.inIntRange 4 false i ↔ (0 ≤ i ∧ i < 2 ^ 32) := by
    unfold SCode.inIntRange
    simp
  rw [e]
  by_cases h : SCode.inIntRange 4 false i
  · rw [if_pos h]
    have h' := e2.1 h
    have e3 : (i % (256 : Int) ^ 4).toNat = i.toNat := by
      rw [show (256 : Int) ^ 4 = 2 ^ 32 by norm_num]; omega
    rw [e3, Except.ok.injEq]
    constructor
    · rintro rfl
      refine ⟨by simp, ?_⟩
      rw [digitSum_eq, beNat_natToBE_of_lt (by omega)]
      omega
    · rintro ⟨hl, rfl⟩
      have := natToBE_beNat w
      rw [hl, ← digitSum_eq] at this
      simpa using this
  · rw [if_neg h]
    have h' := fun hh => h (e2.2 hh)
    simp only [reduceCtorEq, false_iff]
    rintro ⟨hl, rfl⟩
    apply h'
    have := beNat_lt w
    rw [hl, ← digitSum_eq] at this
    omega

/-- The values of the header of the decrypted section. -/
def checkInts (c1 c2 : Bytes) : VDict :=
  [(py! "check_int_1", .int (digitSum c1)), (py! "check_int_2", .int (digitSum c2))]

theorem pack_decipherHeader {c1 c2 : Bytes} (h1 : c1.length = 4) (h2 : c2.length = 4) :
    packDict decipherHeaderFmt (checkInts c1 c2) = .ok (c1 ++ c2) := by
  have g1 : dget (checkInts c1 c2) (py! "check_int_1") = some (.int (digitSum c1)) := rfl
  have g2 : dget (checkInts c1 c2) (py! "check_int_2") = some (.int (digitSum c2)) := rfl
  exact packDict_cons_ok_iff.2 ⟨_, _, _, g1, pack_uint.2 ⟨h1, rfl⟩,
    packDict_cons_ok_iff.2 ⟨_, _, _, g2, pack_uint.2 ⟨h2, rfl⟩, rfl, rfl⟩, by simp⟩

theorem prs_decipherHeader {c1 c2 : Bytes} (h1 : c1.length = 4) (h2 : c2.length = 4) (post : Bytes) :
    prs (readDict decipherHeaderFmt) (c1 ++ c2 ++ post) = (.ok (checkInts c1 c2), 8) := by
  have := prs_readDict_plain (fmt := decipherHeaderFmt) (by decide) (pack_decipherHeader h1 h2) post
  rw [this]
  simp [h1, h2]
  rfl

theorem prs_decipherHeader_ok {r : Bytes} {d : VDict} {n : Nat}
    (h : prs (readDict decipherHeaderFmt) r = (.ok d, n)) :
    ∃ c1 c2, c1.length = 4 ∧ c2.length = 4 ∧ d = checkInts c1 c2 ∧ n = 8 ∧ r = c1 ++ c2 ++ r.drop 8 := by
  have hb := (Reader.readDict decipherHeaderFmt).bound r
  have hl : 8 ≤ r.length := by
    obtain ⟨v1, vs1, n1, n2, -, h1, h2, rfl⟩ := readDict_cons_ok h
    obtain ⟨v2, vs2, n3, n4, -, h3, -, rfl⟩ := readDict_cons_ok h2
    obtain ⟨w1, -, hw1, rfl, e1⟩ := prs_uint_ok h1
    obtain ⟨w2, -, hw2, rfl, e2⟩ := prs_uint_ok h3
    have := congrArg List.length e1
    have := congrArg List.length e2
    simp at *
    omega
  have e := prs_decipherHeader (c1 := r.take 4) (c2 := (r.drop 4).take 4) (by simp; omega) (by simp; omega)
    (r.drop 8)
  have er : r.take 4 ++ (r.drop 4).take 4 ++ r.drop 8 = r := by
    rw [List.append_assoc, show r.drop 8 = (r.drop 4).drop 4 by rw [List.drop_drop],
      List.take_append_drop, List.take_append_drop]
  rw [er, h] at e
  simp at e
  exact ⟨_, _, by simp; omega, by simp; omega, e.1, e.2, er.symm⟩

theorem digitSum_inj {a b : Bytes} (hl : a.length = b.length) (h : digitSum a = digitSum b) : a = b := by
  rw [digitSum_eq, digitSum_eq] at h
  have := natToBE_beNat a
  rw [h, hl, natToBE_beNat] at this
  exact this.symm

theorem checkCheckInts_eq {c1 c2 : Bytes} (h1 : c1.length = 4) (h2 : c2.length = 4) :
    checkCheckInts (checkInts c1 c2) = ⟨if c1 ≠ c2 then [.warn .checkNumbers] else [], .ok ()⟩ := by
  have g1 : getItem (checkInts c1 c2) (py! "check_int_1") = .ok (.int (digitSum c1)) := rfl
  have g2 : getItem (checkInts c1 c2) (py! "check_int_2") = .ok (.int (digitSum c2)) := rfl
  unfold checkCheckInts
  simp only [g1, g2, Eff.lift_ok_bind]
  by_cases h : c1 = c2
  · subst h; simp; rfl
  · have : Val.int (digitSum c1) ≠ Val.int (digitSum c2) := by
      intro e
      simp only [Val.int.injEq, Int.natCast_inj] at e
      exact h (digitSum_inj (h1.trans h2.symm) e)
    rw [if_pos this, if_pos h]
    rfl

/-- A key read from the middle of a stream is the key that its own bytes contain. -/
theorem fromByteStream_eq (ext : Ext) (s : Stream) {k : Key}
    (h : (fromByteStream ext .priv none s).1.res = .ok k) :
    ∃ w, s.rest = w ++ (fromByteStream ext .priv none s).2.rest ∧
      (fromByteStream ext .priv none s).2 = ⟨s.buf, s.pos + w.length⟩ ∧
      fromBytes ext .priv w none = (fromByteStream ext .priv none s).1 ∧ k.clear = [] := by
  unfold fromByteStream fromByteStreamWith at h ⊢
  rw [(Reader.readKey .priv).shift s] at h ⊢
  rcases hp : prs (readKey .priv) s.rest with ⟨e | ⟨hd, p, f⟩, n⟩
  · rw [hp] at h; simp at h
  · simp only
    have hb := (Reader.readKey .priv).bound s.rest
    rw [hp] at hb
    simp only at hb
    have hl : (s.rest.take n).length = n := by simp; omega
    have ho := (Reader.readKey .priv).okLocal _ _ _ hp []
    rw [List.append_nil] at ho
    rw [hp] at h
    obtain ⟨t, c, -, -, rfl, -⟩ := mkKeyWith_ok h
    refine ⟨s.rest.take n, ?_, by rw [hl], ?_, rfl⟩
    · rw [Stream.rest_advance, List.take_append_drop]
    · unfold fromBytes
      rw [fromBytesWith_eq, ho]
      simp only
      have : ¬ 0 < ((s.rest.take n).drop n).length := by simp
      simp only [if_neg this]
      exact Eff.bind_pure _

theorem commonValuesAgree_iff (a b : VDict) : commonValuesAgree a b = true ↔
    ¬ ∃ n x y, dget a n = some x ∧ dget b n = some y ∧ x ≠ y := by
  unfold commonValuesAgree
  simp only [List.all_eq_true, Bool.or_eq_true, Bool.not_eq_true', decide_eq_true_eq]
  constructor
  · rintro h ⟨n, x, y, hx, hy, hne⟩
    have hm : n ∈ dkeys a := by
      by_contra hc
      rw [dget_eq_none_iff.2 hc] at hx; simp at hx
    rcases h n hm with h | h
    · have : dhas b n = true := by unfold dhas; simp [hy]
      rw [h] at this; simp at this
    · rw [hx, hy] at h; exact hne (by simpa using h)
  · intro h n hn
    rcases ha : dget a n with _ | x
    · exact absurd hn (dget_eq_none_iff.1 ha)
    · rcases hb : dget b n with _ | y
      · left; unfold dhas; simp [hb]
      · right
        by_contra hne
        exact h ⟨n, x, y, ha, hb, fun e => hne (by rw [e])⟩

/-- The warnings about pair `i`. -/
noncomputable def pairWarnings (i : Nat) (p : Pair) : List Event :=
  open Classical in
  (if TypesDiffer p then [.warn (.pairTypeMismatch i)] else []) ++
    (if ValuesDiffer p then [.warn (.pairValueMismatch i)] else [])

theorem checkPair_eq {i : Nat} {pub priv : Key} {t t' : Val}
    (h1 : dget pub.header (py! "key_type") = some t) (h2 : dget priv.header (py! "key_type") = some t') :
    (do checkPairType i pub priv; checkPairValues i pub priv) =
      ⟨pairWarnings i ⟨pub, priv⟩, .ok ()⟩ := by
  have e1 : checkPairType i pub priv = ⟨open Classical in
      if TypesDiffer ⟨pub, priv⟩ then [.warn (.pairTypeMismatch i)] else [], .ok ()⟩ := by
    unfold checkPairType TypesDiffer getItem
    simp only [h1, h2, Eff.lift_ok_bind, ne_eq, Option.some.injEq]
    by_cases h : t = t'
    · simp [h]; rfl
    · simp [h]; rfl
  have e2 : checkPairValues i pub priv = ⟨open Classical in
      if ValuesDiffer ⟨pub, priv⟩ then [.warn (.pairValueMismatch i)] else [], .ok ()⟩ := by
    unfold checkPairValues ValuesDiffer
    by_cases h : commonValuesAgree pub.params.data priv.params.data = true
    · have h' := (commonValuesAgree_iff _ _).1 h
      simp only [h, Bool.not_true, Bool.false_eq_true, if_false, if_neg h']
      rfl
    · have h' := (not_congr (commonValuesAgree_iff _ _)).1 h
      rw [not_not] at h'
      simp only [Bool.not_eq_true] at h
      simp only [h, Bool.not_false, if_true, if_pos h']
      rfl
  rw [e1, e2, Eff.mk_bind_ok]
  rfl

/-- The warnings while reading the pairs. -/
noncomputable def pairsLog (ext : Ext) : Nat → List Pair → List Bytes → List Event
  | _, [], _ => []
  | _, _ :: _, [] => []
  | i, p :: ps, w :: ws => (fromBytes ext .priv w none).log ++ pairWarnings i p ++ pairsLog ext (i + 1) ps ws

theorem fromBytes_type {ext : Ext} {kind : Kind} {b : Bytes} {cl : Option VDict} {k : Key}
    (h : (fromBytes ext kind b cl).res = .ok k) : ∃ t, dget k.header (py! "key_type") = some (.str t) := by
  obtain ⟨t, c, hd, p, f, n, -, rfl, -, -, rfl, -⟩ := fromBytes_ok h
  exact ⟨t, by simp⟩

theorem readPairs_ok {ext : Ext} {ks : List Key} {i : Nat} {s s' : Stream} {ps : List Pair}
    (hks : ∀ k ∈ ks, ∃ t, dget k.header (py! "key_type") = some t)
    (h : (readPairs ext ks i s).res = .ok (ps, s')) :
    ps.map Pair.pub = ks ∧ ∃ ws, KeysAt ext ps ws ∧ s.rest = ws.flatten ++ s'.rest ∧
      s' = ⟨s.buf, s.pos + ws.flatten.length⟩ ∧ (readPairs ext ks i s).log = pairsLog ext i ps ws := by
  induction ks generalizing i s ps with
  | nil =>
    unfold readPairs at h ⊢
    simp at h
    obtain ⟨rfl, rfl⟩ := h
    exact ⟨rfl, [], rfl, rfl, rfl, rfl⟩
  | cons pub pubs ih =>
    have e : readPairs ext (pub :: pubs) i s = (do
        let priv ← (fromByteStream ext .priv none s).1
        (do checkPairType i pub priv; checkPairValues i pub priv)
        let (ps, s) ← readPairs ext pubs (i + 1) (fromByteStream ext .priv none s).2
        pure (Pair.mk pub priv :: ps, s)) := by
      show (do
        let priv ← (fromByteStream ext .priv none s).1
        checkPairType i pub priv
        checkPairValues i pub priv
        let (ps, s) ← readPairs ext pubs (i + 1) (fromByteStream ext .priv none s).2
        pure (Pair.mk pub priv :: ps, s)) = _
      simp only [Eff.bind_assoc]
    rw [e] at h ⊢
    obtain ⟨priv, h1, h⟩ := Eff.bind_res_ok_iff.1 h
    obtain ⟨w, hw, hs2, hfb, hcl⟩ := fromByteStream_eq ext s h1
    obtain ⟨t, ht⟩ := hks pub List.mem_cons_self
    obtain ⟨t', ht'⟩ := fromBytes_type (by rw [hfb]; exact h1)
    rw [Eff.bind_log_ok h1]
    rw [checkPair_eq ht ht'] at h ⊢
    rw [Eff.mk_bind_ok] at h ⊢
    obtain ⟨⟨ps', s2⟩, h2, h⟩ := Eff.bind_res_ok_iff.1 h
    simp only [Eff.pure_res, Except.ok.injEq, Prod.mk.injEq] at h
    obtain ⟨rfl, rfl⟩ := h
    obtain ⟨hp, ws, hk, hr, hs', hlog⟩ := ih (fun k hk => hks k (List.mem_cons_of_mem _ hk)) h2
    refine ⟨by simp [hp], w :: ws, ⟨w, ws, rfl, by rw [hfb]; exact h1, hcl, hk⟩, ?_, ?_, ?_⟩
    · rw [hw, hr]; simp
    · rw [hs', hs2]; simp [Nat.add_assoc]
    · rw [Eff.bind_log_ok h2, hlog, ← hfb]
      simp [pairsLog]

/-- The warning about the padding. -/
noncomputable def padWarnings (block : Nat) (plain pad : Bytes) : List Event :=
  open Classical in if GoodPadding block plain pad then [] else [.warn .padding]

theorem checkPadding_eq (block : Nat) (plain pad : Bytes) :
    checkPadding block plain pad = ⟨padWarnings block plain pad, .ok ()⟩ := by
  unfold checkPadding padWarnings GoodPadding
  have e : paddingBytes block = countUp block := rfl
  have e2 : startsWith (paddingBytes block) pad = true ↔ pad <+: countUp block := by
    unfold startsWith
    rw [e, decide_eq_true_iff, List.prefix_iff_eq_take, eq_comm]
  by_cases h : plain.length % block ≠ 0 || !(startsWith (paddingBytes block) pad)
  · rw [if_pos h]
    simp only [ne_eq, Bool.or_eq_true, decide_eq_true_eq, Bool.not_eq_true', ← Bool.not_eq_true, e2] at h
    rw [if_neg (by rintro ⟨h1, h2⟩; rcases h with h | h <;> contradiction)]
    rfl
  · rw [if_neg h]
    simp only [ne_eq, Bool.or_eq_true, decide_eq_true_eq, Bool.not_eq_true', ← Bool.not_eq_true, e2,
      not_or, not_not] at h
    rw [if_pos h]
    rfl

theorem readPrivateSection_ok {ext : Ext} {c : CipherCls} {ks : List Key} {plain : Bytes} {ps : List Pair}
    {dh : VDict} {pad : Bytes} (hks : ∀ k ∈ ks, ∃ t, dget k.header (py! "key_type") = some t)
    (h : (readPrivateSection ext c ks plain).res = .ok (ps, dh, pad)) :
    ∃ c1 c2 ws, c1.length = 4 ∧ c2.length = 4 ∧ plain = c1 ++ c2 ++ ws.flatten ++ pad ∧
      dh = checkInts c1 c2 ∧ ps.map Pair.pub = ks ∧ KeysAt ext ps ws ∧
      (readPrivateSection ext c ks plain).log =
        (if c1 ≠ c2 then [.warn .checkNumbers] else []) ++ pairsLog ext 0 ps ws ++
          padWarnings c.blockSize plain pad := by
  unfold readPrivateSection at h ⊢
  obtain ⟨⟨dh', s1⟩, h1, h⟩ := Eff.bind_res_ok_iff.1 h
  obtain ⟨n, hn, rfl⟩ := onStream_res_ok (Reader.readDict _) h1
  rw [Stream.rest_of] at hn
  obtain ⟨c1, c2, l1, l2, rfl, rfl, hpl⟩ := prs_decipherHeader_ok hn
  rw [onStream_ok (Reader.readDict _) (by rw [Stream.rest_of]; exact hn)]
  simp only [checkCheckInts_eq l1 l2, Eff.pure_bind, Eff.mk_bind_ok] at h ⊢
  obtain ⟨⟨ps', s2⟩, h2, h⟩ := Eff.bind_res_ok_iff.1 h
  obtain ⟨hp, ws, hk, hr, rfl, hlog⟩ := readPairs_ok hks h2
  rw [Eff.bind_log_ok h2]
  have e3 : ∀ s : Stream, onStream (bytesIORead (-1)) s = pure (s.rest, ⟨s.buf, max s.pos s.buf.length⟩) :=
    fun s => rfl
  simp only [e3, Eff.pure_bind, checkPadding_eq, Eff.mk_bind_ok, Eff.pure_res, Eff.pure_log,
    Except.ok.injEq, Prod.mk.injEq] at h ⊢
  obtain ⟨rfl, rfl, rfl⟩ := h
  refine ⟨c1, c2, ws, l1, l2, ?_, rfl, hp, hk, ?_⟩
  · rw [Stream.rest_advance, Stream.rest_of] at hr
    rw [List.append_assoc (c1 ++ c2), ← hr]
    exact hpl
  · rw [hlog]
    simp [Stream.of]

/-! ### The public keys -/

theorem parsePubs_types {ext : Ext} {bs : List Bytes} {ks : List Key} (h : (parsePubs ext bs).res = .ok ks) :
    ∀ k ∈ ks, ∃ t, dget k.header (py! "key_type") = some t := by
  induction bs generalizing ks with
  | nil =>
    unfold parsePubs at h
    simp at h; subst h; simp
  | cons b t ih =>
    unfold parsePubs at h
    obtain ⟨k, h1, h⟩ := Eff.bind_res_ok_iff.1 h
    obtain ⟨ks', h2, h⟩ := Eff.bind_res_ok_iff.1 h
    simp at h; subst h
    intro k' hk'
    rcases List.mem_cons.1 hk' with rfl | hk'
    · obtain ⟨t, ht⟩ := fromBytes_type h1; exact ⟨_, ht⟩
    · exact ih h2 k' hk'

theorem parsePubs_forall {ext : Ext} {bs : List Bytes} {ks : List Key} (h : (parsePubs ext bs).res = .ok ks) :
    List.Forall₂ (fun b k => (fromBytes ext .pub b none).res = .ok k) bs ks := by
  induction bs generalizing ks with
  | nil =>
    unfold parsePubs at h
    simp at h; subst h; exact .nil
  | cons b t ih =>
    unfold parsePubs at h
    obtain ⟨k, h1, h⟩ := Eff.bind_res_ok_iff.1 h
    obtain ⟨ks', h2, h⟩ := Eff.bind_res_ok_iff.1 h
    simp at h; subst h
    exact .cons h1 (ih h2)

theorem parsePubs_log {ext : Ext} {bs : List Bytes} {ks : List Key} (h : (parsePubs ext bs).res = .ok ks) :
    (parsePubs ext bs).log = bs.flatMap (fun b => (fromBytes ext .pub b none).log) := by
  induction bs generalizing ks with
  | nil => rfl
  | cons b t ih =>
    unfold parsePubs at h ⊢
    obtain ⟨k, h1, h⟩ := Eff.bind_res_ok_iff.1 h
    obtain ⟨ks', h2, h⟩ := Eff.bind_res_ok_iff.1 h
    rw [Eff.bind_log_ok h1, Eff.bind_log_ok h2, ih h2]
    simp

/-! ### The whole file -/

/-- What a successful parse did. -/
structure ListParse (ext : Ext) (cr : Crypto) (inp : Inputs) (passphrase : Option Str) (b : Bytes)
    (kl : KeyList) where
  f : KeyFile
  w : Bytes
  post : Bytes
  kc : KdfCls
  cc : CipherCls
  ks : List Key
  od : VDict
  m : Nat
  p : Str
  plain : Bytes
  c1 : Bytes
  c2 : Bytes
  ws : List Bytes
  pad : Bytes
  input : b = w ++ post
  lays : f.Lays w
  kdf : getKdfClass (.str (strOf f.kdf)) = .ok kc
  cipher : getCipherClass (.str (strOf f.cipher)) = .ok cc
  tag : TagFits cc f.tag
  pubs : List.Forall₂ (fun b k => (fromBytes ext .pub b none).res = .ok k) f.pubs ks
  options : prs (readDict (kdfFmt kc)) f.options = (.ok od, m)
  pass : (choosePassphrase inp (kc = .none) passphrase).res = .ok p
  dec : decrypt cr cc ⟨kc, od⟩ p (f.body ++ f.tag) = .ok plain
  len1 : c1.length = 4
  len2 : c2.length = 4
  split : plain = c1 ++ c2 ++ ws.flatten ++ pad
  pairs : kl.pairs.map Pair.pub = ks
  keys : KeysAt ext kl.pairs ws
  list : kl = ⟨kl.pairs, some b, some (fileHeader f), some (f.body ++ f.tag), some ⟨kc, od⟩, some plain,
    some (checkInts c1 c2), some pad⟩
  log : (listFromBytes ext cr inp b passphrase).log =
    f.pubs.flatMap (fun b => (fromBytes ext .pub b none).log) ++
    (choosePassphrase inp (kc = .none) passphrase).log ++
    ((if c1 ≠ c2 then [.warn .checkNumbers] else []) ++ pairsLog ext 0 kl.pairs ws ++
      padWarnings cc.blockSize plain pad)

theorem listFromBytes_body {ext : Ext} {cr : Crypto} {inp : Inputs} {passphrase : Option Str} {b : Bytes}
    {kl : KeyList} : (listFromBytes ext cr inp b passphrase).res = .ok kl ↔
      (listFromBytesBody ext cr inp b passphrase).res = .ok kl := by
  unfold listFromBytes Eff.tryCatch
  rcases h : (listFromBytesBody ext cr inp b passphrase).res with e | a
  · simp
  · simp [h]

theorem listFromBytes_of_ok {ext : Ext} {cr : Crypto} {inp : Inputs} {passphrase : Option Str} {b : Bytes}
    {kl : KeyList} (h : (listFromBytesBody ext cr inp b passphrase).res = .ok kl) :
    listFromBytes ext cr inp b passphrase = listFromBytesBody ext cr inp b passphrase := by
  unfold listFromBytes Eff.tryCatch
  rw [h]

theorem newKdf_read {c : KdfCls} {r : Bytes} {d : VDict} {n : Nat}
    (h : prs (readDict (kdfFmt c)) r = (.ok d, n)) : newKdf c d = pure ⟨c, d⟩ := by
  unfold newKdf
  rw [checkDict_read (plain_kdf c) h]
  rfl

theorem listFromBytes_parse {ext : Ext} {cr : Crypto} {inp : Inputs} {passphrase : Option Str} {b : Bytes}
    {kl : KeyList} (h : (listFromBytes ext cr inp b passphrase).res = .ok kl) :
    Nonempty (ListParse ext cr inp passphrase b kl) := by
  rw [listFromBytes_body] at h
  obtain ⟨f, w, post, kc, cc, rfl, hf, hk, hc, ht⟩ := listFromBytesBody_ok h
  have hlb := listFromBytes_of_ok h
  rw [listFromBytesBody_eq ext cr inp passphrase hf hk hc ht post] at h hlb
  unfold parseFields at h
  obtain ⟨ks, h1, h⟩ := Eff.bind_res_ok_iff.1 h
  obtain ⟨⟨od, s1⟩, h2, h⟩ := Eff.bind_res_ok_iff.1 h
  obtain ⟨m, hm, -⟩ := onStream_res_ok (Reader.readDict _) h2
  rw [Stream.rest_of] at hm
  simp only [newKdf_read hm, Eff.pure_bind] at h
  obtain ⟨p, h3, h⟩ := Eff.bind_res_ok_iff.1 h
  obtain ⟨plain, h4, h⟩ := Eff.bind_res_ok_iff.1 h
  obtain ⟨⟨ps, dh, pad⟩, h5, h⟩ := Eff.bind_res_ok_iff.1 h
  simp only [Eff.pure_res, Except.ok.injEq] at h
  subst h
  obtain ⟨c1, c2, ws, l1, l2, hsp, rfl, hps, hka, hlog⟩ := readPrivateSection_ok (parsePubs_types h1) h5
  refine ⟨⟨f, w, post, kc, cc, ks, od, m, p, plain, c1, c2, ws, pad, rfl, hf, hk, hc, ht, parsePubs_forall h1,
    hm, h3, by simpa using h4, l1, l2, hsp, hps, hka, rfl, ?_⟩⟩
  rw [hlb]
  unfold parseFields
  rw [Eff.bind_log_ok h1, onStream_ok (Reader.readDict _) (by rw [Stream.rest_of]; exact hm)]
  simp only [newKdf_read hm, Eff.pure_bind]
  rw [Eff.bind_log_ok h3, Eff.bind_log_ok h4, Eff.bind_log_ok h5, hlog, parsePubs_log h1]
  simp

end OSK
