import Verif.Std.Crypto
/-
Decryption undoes encryption, for the standard algorithms.
-/
namespace OSK.Std

/-! ### AES -/

theorem forall_byte {p : UInt8 → Prop} (h : ∀ n, n < 256 → p (UInt8.ofNat n)) (x : UInt8) : p x := by
  have := h x.toNat x.toNat_lt
  rwa [UInt8.ofNat_toNat] at this

theorem invSbox_sbox (x : UInt8) : invSbox (sbox x) = x := by
  revert x
  exact forall_byte (by decide +kernel)

theorem xtime_eq (x : UInt8) : xtime x = (x <<< 1) ^^^ ((x >>> 7) * 0x1b) := by
  revert x
  exact forall_byte (by decide +kernel)

theorem shiftRight_seven (x : UInt8) : x >>> 7 = 0 ∨ x >>> 7 = 1 := by
  revert x
  exact forall_byte (by decide +kernel)

theorem xtime_xor (x y : UInt8) : xtime (x ^^^ y) = xtime x ^^^ xtime y := by
  have h1 : (x ^^^ y) <<< 1 = (x <<< 1) ^^^ (y <<< 1) := by
    apply UInt8.toBitVec_inj.1
    simp [BitVec.shiftLeft_xor_distrib]
  have h2 : (x ^^^ y) >>> 7 = (x >>> 7) ^^^ (y >>> 7) := by
    apply UInt8.toBitVec_inj.1
    simp [BitVec.ushiftRight_xor_distrib]
  have h3 : ((x >>> 7) ^^^ (y >>> 7)) * (0x1b : UInt8) = ((x >>> 7) * (0x1b : UInt8)) ^^^ ((y >>> 7) * (0x1b : UInt8)) := by
    rcases shiftRight_seven x with h | h <;> rcases shiftRight_seven y with h' | h' <;> rw [h, h'] <;> rfl
  rw [xtime_eq, xtime_eq x, xtime_eq y, h1, h2, h3]
  ac_rfl

theorem mul9_xor (x y : UInt8) : mul9 (x ^^^ y) = mul9 x ^^^ mul9 y := by
  unfold mul9; simp only [xtime_xor]; ac_rfl
theorem mul11_xor (x y : UInt8) : mul11 (x ^^^ y) = mul11 x ^^^ mul11 y := by
  unfold mul11; simp only [xtime_xor]; ac_rfl
theorem mul13_xor (x y : UInt8) : mul13 (x ^^^ y) = mul13 x ^^^ mul13 y := by
  unfold mul13; simp only [xtime_xor]; ac_rfl
theorem mul14_xor (x y : UInt8) : mul14 (x ^^^ y) = mul14 x ^^^ mul14 y := by
  unfold mul14; simp only [xtime_xor]; ac_rfl

/-- The product of a row of the inverse matrix with a column of the matrix. -/
theorem mix_one (x : UInt8) : mul14 (xtime x) ^^^ mul11 x ^^^ mul13 x ^^^ mul9 (xtime x ^^^ x) = x := by
  revert x
  exact forall_byte (by decide +kernel)
theorem mix_two (x : UInt8) : mul14 (xtime x ^^^ x) ^^^ mul11 (xtime x) ^^^ mul13 x ^^^ mul9 x = 0 := by
  revert x
  exact forall_byte (by decide +kernel)
theorem mix_three (x : UInt8) : mul14 x ^^^ mul11 (xtime x ^^^ x) ^^^ mul13 (xtime x) ^^^ mul9 x = 0 := by
  revert x
  exact forall_byte (by decide +kernel)
theorem mix_four (x : UInt8) : mul14 x ^^^ mul11 x ^^^ mul13 (xtime x ^^^ x) ^^^ mul9 (xtime x) = 0 := by
  revert x
  exact forall_byte (by decide +kernel)

theorem mix_row (a b c d : UInt8) :
    mul14 (xtime a ^^^ (xtime b ^^^ b) ^^^ c ^^^ d) ^^^ mul11 (a ^^^ xtime b ^^^ (xtime c ^^^ c) ^^^ d) ^^^
    mul13 (a ^^^ b ^^^ xtime c ^^^ (xtime d ^^^ d)) ^^^ mul9 ((xtime a ^^^ a) ^^^ b ^^^ c ^^^ xtime d) = a := by
  calc _ = (mul14 (xtime a) ^^^ mul11 a ^^^ mul13 a ^^^ mul9 (xtime a ^^^ a)) ^^^
        (mul14 (xtime b ^^^ b) ^^^ mul11 (xtime b) ^^^ mul13 b ^^^ mul9 b) ^^^
        (mul14 c ^^^ mul11 (xtime c ^^^ c) ^^^ mul13 (xtime c) ^^^ mul9 c) ^^^
        (mul14 d ^^^ mul11 d ^^^ mul13 (xtime d ^^^ d) ^^^ mul9 (xtime d)) := by
        simp only [mul9_xor, mul11_xor, mul13_xor, mul14_xor]
        ac_rfl
    _ = a := by rw [mix_one, mix_two, mix_three, mix_four]; simp

theorem invMix_mix (s : Bytes) : invMixColumns (mixColumns s) = s := by
  induction s using mixColumns.induct with
  | case1 a b c d t ih =>
    rw [mixColumns, invMixColumns, ih, mix_row]
    have h2 := mix_row b c d a
    have h3 := mix_row c d a b
    have h4 := mix_row d a b c
    refine congrArg (a :: ·) ?_
    congr 1
    · refine Eq.trans ?_ h2
      ac_rfl
    · congr 1
      · refine Eq.trans ?_ h3
        ac_rfl
      · congr 1
        refine Eq.trans ?_ h4
        ac_rfl
  | case2 s h =>
    match s, h with
    | [], _ => rfl
    | [_], _ => rfl
    | [_, _], _ => rfl
    | [_, _, _], _ => rfl
    | a :: b :: c :: d :: t, h => exact absurd rfl (h a b c d t)

theorem invShift_shift (s : Bytes) : invShiftRows (shiftRows s) = s := by
  unfold shiftRows
  split
  · rfl
  · rename_i h
    unfold invShiftRows
    split
    · exact absurd rfl (h _ _ _ _ _ _ _ _ _ _ _ _ _ _ _ _)
    · rfl

theorem xorBytes_self (s k : Bytes) : xorBytes (xorBytes s k) k = s := by
  induction s generalizing k with
  | nil => simp [xorBytes]
  | cons x s ih =>
    cases k with
    | nil => rfl
    | cons y k => simp only [xorBytes, ih, UInt8.xor_assoc, UInt8.xor_self, UInt8.xor_zero]

theorem map_invSbox (s : Bytes) : (s.map sbox).map invSbox = s := by
  induction s with
  | nil => rfl
  | cons x s ih => rw [List.map_cons, List.map_cons, ih, invSbox_sbox]

theorem aesInvRounds_rounds (ks : List Bytes) (s : Bytes) : aesInvRounds ks (aesRounds ks s) = s := by
  induction ks generalizing s with
  | nil => rfl
  | cons k t ih =>
    cases t with
    | nil => rw [aesRounds, aesInvRounds, xorBytes_self, invShift_shift, map_invSbox]
    | cons k' t =>
      rw [aesRounds, aesInvRounds, ih, xorBytes_self, invMix_mix, invShift_shift, map_invSbox]
      all_goals simp

theorem aesDec_enc (ks : List Bytes) (s : Bytes) : aesDecBlock ks (aesEncBlock ks s) = s := by
  cases ks with
  | nil => rfl
  | cons k t => rw [aesEncBlock, aesDecBlock, aesInvRounds_rounds, xorBytes_self]

theorem xorBytes_length (s k : Bytes) : (xorBytes s k).length = s.length := by
  induction s generalizing k with
  | nil => simp [xorBytes]
  | cons x s ih =>
    cases k with
    | nil => rfl
    | cons y k => simp only [xorBytes, List.length_cons, ih]

theorem shiftRows_length (s : Bytes) : (shiftRows s).length = s.length := by
  unfold shiftRows
  split <;> rfl

theorem mixColumns_length (s : Bytes) : (mixColumns s).length = s.length := by
  induction s using mixColumns.induct with
  | case1 a b c d t ih => simp only [mixColumns, List.length_cons, ih]
  | case2 s h => rw [mixColumns.eq_2 s h]

theorem aesRounds_length (ks : List Bytes) (s : Bytes) : (aesRounds ks s).length = s.length := by
  induction ks generalizing s with
  | nil => rfl
  | cons k t ih =>
    cases t with
    | nil => rw [aesRounds, xorBytes_length, shiftRows_length, List.length_map]
    | cons k' t =>
      rw [aesRounds, ih, xorBytes_length, mixColumns_length, shiftRows_length, List.length_map]
      simp

theorem aesEnc_length (ks : List Bytes) (s : Bytes) : (aesEncBlock ks s).length = s.length := by
  cases ks with
  | nil => rfl
  | cons k t => rw [aesEncBlock, aesRounds_length, xorBytes_length]

/-! ### Triple DES -/

theorem choose_length (t : List Nat) (b : List Bool) : (choose t b).length = t.length := List.length_map _

theorem choose_choose (t t' : List Nat) (b : List Bool) (h : ∀ i ∈ t', 1 ≤ i ∧ i ≤ t.length) :
    choose t' (choose t b) = choose (t'.map (fun i => t.getD (i - 1) 0)) b := by
  unfold choose
  rw [List.map_map]
  refine List.map_congr_left (fun i hi => ?_)
  have := h i hi
  have hl : i - 1 < t.length := by omega
  simp only [Function.comp, List.getD_eq_getElem?_getD, List.getElem?_map, List.getElem?_eq_getElem hl, Option.map_some,
    Option.getD_some]

theorem choose_range (b : List Bool) : choose (List.range' 1 b.length) b = b := by
  unfold choose
  apply List.ext_getElem?
  intro i
  rw [List.getElem?_map]
  by_cases hi : i < b.length
  · rw [List.getElem?_range' (by omega)]
    simp only [Option.map_some, List.getD_eq_getElem?_getD]
    rw [show 1 + 1 * i - 1 = i by omega, List.getElem?_eq_getElem hi]
    rfl
  · rw [List.getElem?_eq_none (by simp; omega), List.getElem?_eq_none (by omega)]
    rfl

theorem desFP_IP {b : List Bool} (h : b.length = 64) : choose desFP (choose desIP b) = b := by
  rw [choose_choose _ _ _ (by decide), show desFP.map (fun i => desIP.getD (i - 1) 0) = List.range' 1 64 by decide, ← h, choose_range]

theorem desIP_FP {b : List Bool} (h : b.length = 64) : choose desIP (choose desFP b) = b := by
  rw [choose_choose _ _ _ (by decide), show desIP.map (fun i => desFP.getD (i - 1) 0) = List.range' 1 64 by decide, ← h, choose_range]

theorem xorBits_self (s k : List Bool) : xorBits (xorBits s k) k = s := by
  induction s generalizing k with
  | nil => simp [xorBits]
  | cons x s ih =>
    cases k with
    | nil => rfl
    | cons y k => simp only [xorBits, ih, Bool.xor_assoc, Bool.xor_self, Bool.xor_false]

theorem xorBits_length (s k : List Bool) : (xorBits s k).length = s.length := by
  induction s generalizing k with
  | nil => simp [xorBits]
  | cons x s ih =>
    cases k with
    | nil => rfl
    | cons y k => simp only [xorBits, List.length_cons, ih]

theorem desRounds_append (ks ks' : List (List Bool)) (s : List Bool × List Bool) :
    desRounds (ks ++ ks') s = desRounds ks' (desRounds ks s) := by
  induction ks generalizing s with
  | nil => rfl
  | cons k t ih => exact ih _

theorem desRounds_reverse (ks : List (List Bool)) (s : List Bool × List Bool) :
    desRounds ks.reverse (desRounds ks s).swap = s.swap := by
  induction ks generalizing s with
  | nil => rfl
  | cons k t ih =>
    obtain ⟨l, r⟩ := s
    rw [List.reverse_cons, desRounds_append]
    show desRounds [k] (desRounds t.reverse (desRounds t (r, xorBits l (desF k r))).swap) = _
    rw [ih]
    simp only [Prod.swap, desRounds, xorBits_self]

theorem desRounds_length (ks : List (List Bool)) (s : List Bool × List Bool) (h : s.1.length = 32 ∧ s.2.length = 32) :
    (desRounds ks s).1.length = 32 ∧ (desRounds ks s).2.length = 32 := by
  induction ks generalizing s with
  | nil => exact h
  | cons k t ih =>
    obtain ⟨l, r⟩ := s
    exact ih _ ⟨h.2, by rw [xorBits_length]; exact h.1⟩

theorem desCrypt_length (ks : List (List Bool)) (b : List Bool) : (desCrypt ks b).length = 64 := choose_length _ _

theorem desCrypt_reverse (ks : List (List Bool)) {b : List Bool} (h : b.length = 64) : desCrypt ks.reverse (desCrypt ks b) = b := by
  have hl : (choose desIP b).length = 64 := choose_length _ _
  have hs := desRounds_length ks ((choose desIP b).take 32, (choose desIP b).drop 32) ⟨by simp [hl], by simp [hl]⟩
  have hr := desRounds_reverse ks ((choose desIP b).take 32, (choose desIP b).drop 32)
  unfold desCrypt
  generalize hq : desRounds ks ((choose desIP b).take 32, (choose desIP b).drop 32) = q at hs hr
  obtain ⟨l, r⟩ := q
  simp only [Prod.swap] at hs hr
  dsimp only
  rw [hq]
  dsimp only
  rw [desIP_FP (by simp [hs.1, hs.2])]
  have e1 : (r ++ l).take 32 = r := by rw [← hs.2, List.take_left]
  have e2 : (r ++ l).drop 32 = l := by rw [← hs.2, List.drop_left]
  rw [e1, e2, hr]
  dsimp only
  rw [List.take_append_drop, desFP_IP h]

theorem desCrypt_reverse' (ks : List (List Bool)) {b : List Bool} (h : b.length = 64) : desCrypt ks (desCrypt ks.reverse b) = b := by
  have := desCrypt_reverse ks.reverse h
  rwa [List.reverse_reverse] at this

theorem natToBits_length (n v : Nat) : (natToBits n v).length = n := by
  induction n with
  | zero => rfl
  | succ n ih => simp [natToBits, ih]

theorem byteBits_length (b : Bytes) : (byteBits b).length = 8 * b.length := by
  induction b with
  | nil => rfl
  | cons x b ih =>
    unfold byteBits at ih ⊢
    rw [List.flatMap_cons, List.length_append, ih, natToBits_length, List.length_cons]
    omega

theorem bitBytes_natToBits (x : UInt8) (t : List Bool) : bitBytes (natToBits 8 x.toNat ++ t) = x :: bitBytes t := by
  show UInt8.ofNat (bitsToNat (natToBits 8 x.toNat)) :: bitBytes t = _
  congr 1
  revert x
  exact forall_byte (by decide +kernel)

theorem bitBytes_byteBits (b : Bytes) : bitBytes (byteBits b) = b := by
  induction b with
  | nil => rfl
  | cons x b ih =>
    unfold byteBits at ih ⊢
    rw [List.flatMap_cons, bitBytes_natToBits, ih]

theorem natToBits_bitsToNat : ∀ a b c d e f g h : Bool,
    natToBits 8 (UInt8.ofNat (bitsToNat [a, b, c, d, e, f, g, h])).toNat = [a, b, c, d, e, f, g, h] := by
  decide +kernel

theorem byteBits_bitBytes (b : List Bool) (h : b.length % 8 = 0) : byteBits (bitBytes b) = b := by
  induction b using bitBytes.induct with
  | case1 a b c d e f g x t ih =>
    rw [bitBytes]
    unfold byteBits at ih ⊢
    rw [List.flatMap_cons, natToBits_bitsToNat, ih (by simp only [List.length_cons] at h; omega)]
    rfl
  | case2 s hs =>
    match s, hs with
    | [], _ => rfl
    | [_], _ => simp at h
    | [_, _], _ => simp at h
    | [_, _, _], _ => simp at h
    | [_, _, _, _], _ => simp at h
    | [_, _, _, _, _], _ => simp at h
    | [_, _, _, _, _, _], _ => simp at h
    | [_, _, _, _, _, _, _], _ => simp at h
    | a :: b :: c :: d :: e :: f :: g :: x :: t, hs => exact absurd rfl (hs a b c d e f g x t)

theorem tdesDec_enc (k1 k2 k3 : List (List Bool)) {b : Bytes} (h : b.length = 8) :
    tdesDecBlock k1 k2 k3 (tdesEncBlock k1 k2 k3 b) = b := by
  unfold tdesDecBlock tdesEncBlock
  rw [byteBits_bitBytes _ (by rw [desCrypt_length]), desCrypt_reverse _ (desCrypt_length _ _),
    desCrypt_reverse' _ (desCrypt_length _ _), desCrypt_reverse _ (by rw [byteBits_length, h]), bitBytes_byteBits]

theorem tdesEnc_length (k1 k2 k3 : List (List Bool)) (b : Bytes) : (tdesEncBlock k1 k2 k3 b).length = 8 := by
  unfold tdesEncBlock
  have h := congrArg List.length (byteBits_bitBytes (desCrypt k3 (desCrypt k2.reverse (desCrypt k1 (byteBits b)))) (by rw [desCrypt_length]))
  rw [byteBits_length, desCrypt_length] at h
  omega

/-! ### Modes -/

theorem decBlock_enc (alg : SymAlg) (key : Bytes) {b : Bytes} (h : b.length = blockLength alg) : decBlock alg key (encBlock alg key b) = b := by
  cases alg with
  | aes => unfold decBlock encBlock; exact aesDec_enc _ _
  | tripleDes => unfold decBlock encBlock; exact tdesDec_enc _ _ _ h

theorem encBlock_length (alg : SymAlg) (key : Bytes) {b : Bytes} (h : b.length = blockLength alg) :
    (encBlock alg key b).length = blockLength alg := by
  cases alg with
  | aes => unfold encBlock; dsimp only; exact (aesEnc_length _ _).trans h
  | tripleDes => unfold encBlock; exact tdesEnc_length _ _ _ _

theorem cbcEnc_length {n : Nat} {E : Bytes → Bytes} (hE : ∀ b, b.length = n → (E b).length = n) (m : Nat) (prev b : Bytes)
    (h : b.length = n * m) : (cbcEnc n E m prev b).length = n * m := by
  induction m generalizing prev b with
  | zero => simp [cbcEnc]
  | succ m ih =>
    have h1 : (b.take n).length = n := by
      rw [List.length_take, h, Nat.mul_succ]
      omega
    rw [cbcEnc, List.length_append, ih _ _ (by rw [List.length_drop, h, Nat.mul_succ]; omega), hE _ (by rw [xorBytes_length, h1]),
      Nat.mul_succ]
    omega

theorem cbcDec_enc {n : Nat} {E D : Bytes → Bytes} (hE : ∀ b, b.length = n → (E b).length = n) (hD : ∀ b, b.length = n → D (E b) = b)
    (m : Nat) (prev b : Bytes) (h : b.length = n * m) : cbcDec n D m prev (cbcEnc n E m prev b) = b := by
  induction m generalizing prev b with
  | zero =>
    rw [Nat.mul_zero] at h
    rw [List.length_eq_zero_iff.1 h]
    rfl
  | succ m ih =>
    have h1 : (b.take n).length = n := by
      rw [List.length_take, h, Nat.mul_succ]
      omega
    have hl := hE (xorBytes (b.take n) prev) (by rw [xorBytes_length, h1])
    rw [cbcEnc, cbcDec, List.take_left' hl, List.drop_left' hl, ih _ _ (by rw [List.length_drop, h, Nat.mul_succ]; omega),
      hD _ (by rw [xorBytes_length, h1]), xorBytes_self, List.take_append_drop]

theorem invShiftRows_length (s : Bytes) : (invShiftRows s).length = s.length := by
  unfold invShiftRows
  split <;> rfl

theorem invMixColumns_length (s : Bytes) : (invMixColumns s).length = s.length := by
  induction s using invMixColumns.induct with
  | case1 a b c d t ih => simp only [invMixColumns, List.length_cons, ih]
  | case2 s h => rw [invMixColumns.eq_2 s h]

theorem aesInvRounds_length (ks : List Bytes) (s : Bytes) : (aesInvRounds ks s).length = s.length := by
  induction ks generalizing s with
  | nil => rfl
  | cons k t ih =>
    cases t with
    | nil => rw [aesInvRounds, List.length_map, invShiftRows_length, xorBytes_length]
    | cons k' t =>
      rw [aesInvRounds, List.length_map, invShiftRows_length, invMixColumns_length, xorBytes_length, ih]
      simp

theorem decBlock_length (alg : SymAlg) (key : Bytes) {b : Bytes} (h : b.length = blockLength alg) :
    (decBlock alg key b).length = blockLength alg := by
  cases alg with
  | aes =>
    unfold decBlock aesDecBlock
    dsimp only
    split
    · exact h
    · rw [xorBytes_length, aesInvRounds_length, h]
  | tripleDes =>
    unfold decBlock
    dsimp only
    generalize hk : tdesKeys key = ks
    unfold tdesDecBlock
    have h := congrArg List.length (byteBits_bitBytes (desCrypt ks.1.reverse (desCrypt ks.2.1 (desCrypt ks.2.2.reverse (byteBits b))))
      (by rw [desCrypt_length]))
    rw [byteBits_length, desCrypt_length] at h
    show _ = 8
    omega

theorem cbcDec_length {n : Nat} {D : Bytes → Bytes} (hD : ∀ b, b.length = n → (D b).length = n) (m : Nat) (prev b : Bytes)
    (h : b.length = n * m) : (cbcDec n D m prev b).length = n * m := by
  induction m generalizing prev b with
  | zero => simp [cbcDec]
  | succ m ih =>
    have h1 : (b.take n).length = n := by
      rw [List.length_take, h, Nat.mul_succ]
      omega
    rw [cbcDec, List.length_append, ih _ _ (by rw [List.length_drop, h, Nat.mul_succ]; omega), xorBytes_length, hD _ h1, Nat.mul_succ]
    omega

theorem gcmCrypt_length (E : Bytes → Bytes) (iv b : Bytes) : (gcmCrypt E iv b).length = b.length := xorBytes_length _ _

theorem gcmCrypt_self (E : Bytes → Bytes) (iv b : Bytes) : gcmCrypt E iv (gcmCrypt E iv b) = b := by
  have h := gcmCrypt_length E iv b
  unfold gcmCrypt at h ⊢
  rw [h]
  exact xorBytes_self _ _

theorem ctrCrypt_length (E : Bytes → Bytes) (iv b : Bytes) : (ctrCrypt E iv b).length = b.length := xorBytes_length _ _

theorem ctrCrypt_self (E : Bytes → Bytes) (iv b : Bytes) : ctrCrypt E iv (ctrCrypt E iv b) = b := by
  have h := ctrCrypt_length E iv b
  unfold ctrCrypt at h ⊢
  rw [h]
  exact xorBytes_self _ _

theorem length_natToBE' (n v : Nat) : (natToBE n v).length = n := by
  induction n generalizing v with
  | zero => rfl
  | succ n ih => simp [natToBE, ih]

theorem gcmTag_length (E : Bytes → Bytes) (iv c : Bytes) : (gcmTag E iv c).length = 16 := by
  unfold gcmTag
  rw [xorBytes_length, length_natToBE']

theorem polyTag_length (n : Nat) : (polyTag n).length = 16 := by
  unfold polyTag
  generalize n % 2 ^ 128 = m
  rw [List.length_reverse, length_natToBE']

theorem poly1305_length (key b : Bytes) : (poly1305 key b).length = 16 := polyTag_length _

theorem bcryptKdf_length {p s : Bytes} {n : Nat} {r : Int} {k : Bytes} (h : bcryptKdf p s n r = .ok k) : k.length = n := by
  unfold bcryptKdf at h
  split at h
  · cases h
  · split at h
    · cases h
    · split at h
      · cases h
      · cases h
        unfold bcryptPbkdf
        rw [List.length_map, List.length_range]

end OSK.Std
