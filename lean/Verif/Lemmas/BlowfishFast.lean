import Mathlib.Data.Nat.Bitwise
import Mathlib.Tactic.Ring
import Mathlib.Tactic.Positivity
import Verif.Std.Bcrypt
/-
Blowfish on a state that is one large number, which the kernel computes quickly, and that it is the one of Std/Bcrypt.lean.
The number has 1044 words of 32 bits, the first one in front; the last two have no meaning (they only make the numbers different in
the last digits, by which the kernel files what it has computed).
-/
namespace OSK.Std

/-- The function applied to the number; computing it takes the value first. -/
noncomputable def force {α : Type} (n : Nat) (f : Nat → α) : α := Nat.rec (f n) (fun m _ => f m) (Nat.succ n)

theorem force_eq {α : Type} (n : Nat) (f : Nat → α) : force n f = f n := rfl

/-- The word with `i` words after it. -/
def wordBefore (S i : Nat) : Nat := S >>> (32 * i) % 2 ^ 32

/-- The same with this word replaced. -/
def setWord (S i w : Nat) : Nat := S % 2 ^ (32 * i) + (w + 2 ^ 32 * S >>> (32 * (i + 1))) <<< (32 * i)

theorem wordBefore_lt (S i : Nat) : wordBefore S i < 2 ^ 32 := Nat.mod_lt _ (by norm_num)

theorem wordBefore_set (S i j : Nat) {w : Nat} (hw : w < 2 ^ 32) :
    wordBefore (setWord S i w) j = if j = i then w else wordBefore S j := by
  unfold wordBefore setWord
  simp only [Nat.shiftRight_eq_div_pow, Nat.shiftLeft_eq]
  have hlt : S % 2 ^ (32 * i) < 2 ^ (32 * i) := Nat.mod_lt _ (by positivity)
  have hpos : 0 < 2 ^ (32 * i) := by positivity
  rcases lt_trichotomy j i with h | rfl | h
  · rw [if_neg (by omega)]
    obtain ⟨d, rfl⟩ : ∃ d, i = j + 1 + d := ⟨i - j - 1, by omega⟩
    have e : 2 ^ (32 * (j + 1 + d)) = 2 ^ (32 * j) * (2 ^ 32 * 2 ^ (32 * d)) := by
      rw [← pow_add, ← pow_add]; congr 1; ring
    have h1 : ∀ q : Nat, (S % 2 ^ (32 * (j + 1 + d)) + q * 2 ^ (32 * (j + 1 + d))) / 2 ^ (32 * j) % 2 ^ 32 = S / 2 ^ (32 * j) % 2 ^ 32 := by
      intro q
      rw [e, show q * (2 ^ (32 * j) * (2 ^ 32 * 2 ^ (32 * d))) = 2 ^ (32 * j) * (q * 2 ^ (32 * d) * 2 ^ 32) by ring,
        Nat.add_mul_div_left _ _ (by positivity), Nat.add_mul_mod_self_right, Nat.mod_mul_right_div_self,
        Nat.mod_mul_right_mod]
    exact h1 _
  · rw [if_pos rfl, Nat.add_mul_div_right _ _ hpos, Nat.div_eq_of_lt hlt, Nat.zero_add, Nat.add_mul_mod_self_left,
      Nat.mod_eq_of_lt hw]
  · rw [if_neg (by omega)]
    obtain ⟨d, rfl⟩ : ∃ d, j = i + 1 + d := ⟨j - i - 1, by omega⟩
    have e : 2 ^ (32 * (i + 1 + d)) = 2 ^ (32 * i) * (2 ^ 32 * 2 ^ (32 * d)) := by
      rw [← pow_add, ← pow_add]; congr 1; ring
    have e' : 2 ^ (32 * (i + 1)) = 2 ^ (32 * i) * 2 ^ 32 := by
      rw [← pow_add]; congr 1
    rw [e, e', ← Nat.div_div_eq_div_mul, ← Nat.div_div_eq_div_mul, Nat.add_mul_div_right _ _ hpos, Nat.div_eq_of_lt hlt, Nat.zero_add,
      Nat.add_mul_div_left _ _ (by positivity), Nat.div_eq_of_lt hw, Nat.zero_add, ← Nat.div_div_eq_div_mul, ← Nat.div_div_eq_div_mul,
      ← Nat.div_div_eq_div_mul]

/-- Other words at the end. -/
def stamp (S l r : Nat) : Nat := (S >>> 64) <<< 64 + (l * 2 ^ 32 + r)

theorem wordBefore_stamp (S j : Nat) {l r : Nat} (hl : l < 2 ^ 32) (hr : r < 2 ^ 32) :
    wordBefore (stamp S l r) (j + 2) = wordBefore S (j + 2) := by
  unfold wordBefore stamp
  simp only [Nat.shiftRight_eq_div_pow, Nat.shiftLeft_eq]
  have e : 2 ^ (32 * (j + 2)) = 2 ^ 64 * 2 ^ (32 * j) := by rw [← pow_add]; congr 1; ring
  have h : l * 2 ^ 32 + r < 2 ^ 64 := by norm_num at *; omega
  rw [e, ← Nat.div_div_eq_div_mul, ← Nat.div_div_eq_div_mul, Nat.add_comm, Nat.add_mul_div_right _ _ (by positivity),
    Nat.div_eq_of_lt h, Nat.zero_add]

/-- Word `i` of the state. -/
def stateWord (S i : Nat) : Nat := wordBefore S (1043 - i)

/-- Word `i` of a key of sixteen words. -/
def keyWord (K i : Nat) : Nat := wordBefore K (15 - i)

/-! The definitions below have the functions of `Nat` in place of the notation, which the kernel would have to unfold every time. -/

/-- A round: the new left half from the boxes `A`, `B`, `C` and `D`, the word of the `P` array and the halves, of which the left one
is inverted: the boxes have their first words in front. -/
def fastRound (A B C D p y r : Nat) : Nat :=
  Nat.mod (Nat.xor (Nat.xor r
    (Nat.add (Nat.xor (Nat.add (Nat.shiftRight A (Nat.land (Nat.shiftRight y 19) 8160)) (Nat.shiftRight B (Nat.land (Nat.shiftRight y 11) 8160)))
      (Nat.shiftRight C (Nat.land (Nat.shiftRight y 3) 8160))) (Nat.shiftRight D (Nat.land (Nat.shiftLeft y 5) 8160)))) p) 4294967296

/-- The rounds, with the words of the `P` array at the places `i`, `i - 32` and so on of `P`. -/
noncomputable def fastRounds {α : Type} (P A B C D : Nat) (k : Nat → Nat → α) (m : Nat) : Nat → Nat → Nat → α :=
  Nat.rec (fun _ l r => k l r) (fun _ next i l r =>
    force (fastRound A B C D (Nat.shiftRight P i) (Nat.sub 4294967295 l) r) (fun l' => next (Nat.sub i 32) l' l)) m

/-- The encryption of two words, with the boxes cut out of the state: a box is less than `N`, and the places are given. -/
noncomputable def fastEncAt {α : Type} (N p a b c d q i S l r : Nat) (k : Nat → Nat → α) : α :=
  force (Nat.shiftRight S p) (fun P =>
  force (Nat.mod (Nat.shiftRight S a) N) (fun A =>
  force (Nat.mod (Nat.shiftRight S b) N) (fun B =>
  force (Nat.mod (Nat.shiftRight S c) N) (fun C =>
  force (Nat.mod (Nat.shiftRight S d) N) (fun D =>
  force (Nat.xor l (Nat.mod (Nat.shiftRight P q) 4294967296)) (fun l =>
  fastRounds P A B C D (fun l r => force (Nat.xor r (Nat.mod P 4294967296)) (fun r' => k r' l)) 16 i l r))))))

noncomputable def fastEnc {α : Type} (S l r : Nat) (k : Nat → Nat → α) : α :=
  fastEncAt (Nat.pow 2 8192) 32832 24640 16448 8256 64 544 512 S l r k

noncomputable def fastMixKey (K : Nat) : Nat → Nat → Nat → Nat
  | 0, _, S => S
  | m + 1, i, S => force (setWord S (1043 - i) (stateWord S i ^^^ keyWord K (i % 16))) (fun S' => fastMixKey K m (i + 1) S')

/-- The state with `w`, of `c` bits, in place of what is `i` bits before its end; and at its end. -/
noncomputable def fastPutAt {α : Type} (c S i w : Nat) (k : Nat → α) : α :=
  force (Nat.add (Nat.mod S (Nat.pow 2 i)) (Nat.shiftLeft (Nat.add w (Nat.shiftLeft (Nat.shiftRight S (Nat.add i c)) c)) i)) (fun S =>
  force (Nat.add (Nat.shiftLeft (Nat.shiftRight S c) c) w) k)

noncomputable def fastPut {α : Type} (S i l r : Nat) (k : Nat → α) : α :=
  force (Nat.add (Nat.mul l 4294967296) r) (fun w => fastPutAt 64 S i w k)

noncomputable def fastFill {α : Type} (T : Nat) (k : Nat → α) (m : Nat) : Nat → Nat → Nat → Nat → α :=
  Nat.rec (fun _ _ _ S => k S) (fun _ next i l r S =>
    fastEnc S (Nat.xor l (Nat.mod (Nat.shiftRight T (Nat.sub 480 (Nat.mul 32 (Nat.mod i 16)))) 4294967296))
      (Nat.xor r (Nat.mod (Nat.shiftRight T (Nat.sub 480 (Nat.mul 32 (Nat.mod (Nat.add i 1) 16)))) 4294967296)) (fun l r =>
      fastPut S (Nat.sub 33344 (Nat.mul 32 i)) l r (fun S' => force (Nat.add i 2) (fun i' => next i' l r S')))) m

noncomputable def fastExpand {α : Type} (S T K : Nat) (k : Nat → α) : α :=
  force (fastMixKey K 18 0 S) (fun S => fastFill T k 521 0 0 0 S)

noncomputable def fastLoop {α : Type} (T K : Nat) (k : Nat → α) (m : Nat) : Nat → α :=
  Nat.rec (fun S => k S) (fun _ next S => fastExpand S 0 T (fun S => fastExpand S 0 K (fun S => next S))) m

noncomputable def fastTimes {α : Type} (S : Nat) (k : Nat → Nat → α) (m : Nat) : Nat → Nat → α :=
  Nat.rec (fun l r => k l r) (fun _ next l r => fastEnc S l r next) m

/-! ### It is the same -/

/-- The number has the words of the state. -/
structure Packs (S : Nat) (s : Array UInt32) : Prop where
  size : s.size = 1042
  word : ∀ i < 1042, (s.getD i 0).toNat = stateWord S i

/-- The number has the words of the key. -/
def KeyPacks (K : Nat) (k : Array UInt32) : Prop := ∀ i < 16, (k.getD i 0).toNat = keyWord K i

theorem natAdd (a b : Nat) : Nat.add a b = a + b := rfl
theorem natMul (a b : Nat) : Nat.mul a b = a * b := rfl

theorem wordBefore_shift (S a i : Nat) : wordBefore (S >>> (32 * a)) i = wordBefore S (a + i) := by
  unfold wordBefore
  rw [← Nat.shiftRight_add, Nat.mul_add]

theorem wordBefore_mod (S : Nat) {n i : Nat} (h : i < n) : wordBefore (S % 2 ^ (32 * n)) i = wordBefore S i := by
  obtain ⟨d, rfl⟩ : ∃ d, n = i + 1 + d := ⟨n - i - 1, by omega⟩
  unfold wordBefore
  simp only [Nat.shiftRight_eq_div_pow]
  rw [show 2 ^ (32 * (i + 1 + d)) = 2 ^ (32 * i) * (2 ^ 32 * 2 ^ (32 * d)) by rw [← pow_add, ← pow_add]; congr 1; ring,
    Nat.mod_mul_right_div_self, Nat.mod_mul_right_mod]

theorem land_8160 (x : Nat) : x &&& 8160 = 32 * (x / 32 % 256) := by
  have h : x &&& 8160 = ((x >>> 5) &&& (2 ^ 8 - 1)) <<< 5 := by
    rw [show (8160 : Nat) = (2 ^ 8 - 1) <<< 5 from rfl]
    refine Nat.eq_of_testBit_eq fun i => ?_
    simp only [Nat.testBit_and, Nat.testBit_shiftLeft, Nat.testBit_shiftRight]
    by_cases hi : 5 ≤ i
    · simp [hi, Nat.add_sub_cancel' hi]
    · simp [hi]
  rw [h, Nat.and_two_pow_sub_one_eq_mod, Nat.shiftLeft_eq, Nat.shiftRight_eq_div_pow]
  ring

theorem fastRound_eq {s : Array UInt32} {A B C D : Nat} (hA : ∀ i < 256, (s.getD (18 + i) 0).toNat = wordBefore A (255 - i))
    (hB : ∀ i < 256, (s.getD (274 + i) 0).toNat = wordBefore B (255 - i)) (hC : ∀ i < 256, (s.getD (530 + i) 0).toNat = wordBefore C (255 - i))
    (hD : ∀ i < 256, (s.getD (786 + i) 0).toNat = wordBefore D (255 - i)) {p : Nat} {w : UInt32} (hp : w.toNat = p % 2 ^ 32)
    (x r : UInt32) : fastRound A B C D p (4294967295 - x.toNat) r.toNat = (r ^^^ blowfishF s x ^^^ w).toNat := by
  have hx := x.toNat_lt
  have hr := r.toNat_lt
  have e2 : ∀ y : UInt32, (y &&& 255).toNat = y.toNat % 256 := by
    intro y
    rw [UInt32.toNat_and]
    exact Nat.and_two_pow_sub_one_eq_mod _ 8
  have e1 : (x >>> 24).toNat = x.toNat / 2 ^ 24 := Nat.shiftRight_eq_div_pow _ _
  have e3 : (x >>> 16).toNat = x.toNat / 2 ^ 16 := Nat.shiftRight_eq_div_pow _ _
  have e4 : (x >>> 8).toNat = x.toNat / 2 ^ 8 := Nat.shiftRight_eq_div_pow _ _
  have t1 : (4294967295 - x.toNat) >>> 19 &&& 8160 = 32 * (255 - x.toNat / 2 ^ 24) := by
    rw [land_8160, Nat.shiftRight_eq_div_pow]; omega
  have t2 : (4294967295 - x.toNat) >>> 11 &&& 8160 = 32 * (255 - x.toNat / 2 ^ 16 % 256) := by
    rw [land_8160, Nat.shiftRight_eq_div_pow]; omega
  have t3 : (4294967295 - x.toNat) >>> 3 &&& 8160 = 32 * (255 - x.toNat / 2 ^ 8 % 256) := by
    rw [land_8160, Nat.shiftRight_eq_div_pow]; omega
  have t4 : (4294967295 - x.toNat) <<< 5 &&& 8160 = 32 * (255 - x.toNat % 256) := by
    rw [land_8160, Nat.shiftLeft_eq]; omega
  have h : fastRound A B C D p (4294967295 - x.toNat) r.toNat =
      (r.toNat ^^^ (((A >>> (32 * (255 - x.toNat / 2 ^ 24)) + B >>> (32 * (255 - x.toNat / 2 ^ 16 % 256))) ^^^
        C >>> (32 * (255 - x.toNat / 2 ^ 8 % 256))) + D >>> (32 * (255 - x.toNat % 256))) ^^^ p) % 2 ^ 32 := by
    rw [← t1, ← t2, ← t3, ← t4]
    rfl
  rw [h]
  unfold blowfishF
  simp only [UInt32.toNat_add, UInt32.toNat_xor]
  rw [e1, e2, e2, e2, e3, e4, hA _ (by omega), hB _ (by omega), hC _ (by omega), hD _ (by omega), Nat.xor_mod_two_pow, Nat.xor_mod_two_pow,
    Nat.mod_eq_of_lt hr, hp]
  congr 2
  unfold wordBefore
  rw [Nat.add_mod, Nat.xor_mod_two_pow, Nat.add_mod (A >>> _)]

theorem fastRounds_eq {α : Type} {s : Array UInt32} {P A B C D : Nat} (hA : ∀ i < 256, (s.getD (18 + i) 0).toNat = wordBefore A (255 - i))
    (hB : ∀ i < 256, (s.getD (274 + i) 0).toNat = wordBefore B (255 - i)) (hC : ∀ i < 256, (s.getD (530 + i) 0).toNat = wordBefore C (255 - i))
    (hD : ∀ i < 256, (s.getD (786 + i) 0).toNat = wordBefore D (255 - i)) (hP : ∀ i < 18, (s.getD i 0).toNat = wordBefore P (17 - i))
    (k : Nat → Nat → α) (m : Nat) : ∀ i l r, i + m ≤ 18 →
    fastRounds P A B C D k m (32 * (17 - i)) l.toNat r.toNat = k (blowfishRounds s m i l r).1.toNat (blowfishRounds s m i l r).2.toNat := by
  induction m with
  | zero => intro i l r _; rfl
  | succ m ih =>
    intro i l r hi
    rw [blowfishRounds, ← ih (i + 1) _ _ (by omega), ← fastRound_eq hA hB hC hD (hP i (by omega)),
      show 32 * (17 - (i + 1)) = 32 * (17 - i) - 32 by omega]
    rfl

theorem fastEncAt_eq {α : Type} {S : Nat} {s : Array UInt32} (h : Packs S s) (l r : UInt32) (k : Nat → Nat → α) {N p a b c d q i : Nat}
    (hN : N = 2 ^ (32 * 256)) (hp : p = 32 * 1026) (ha : a = 32 * 770) (hb : b = 32 * 514) (hc : c = 32 * 258) (hd : d = 32 * 2)
    (hq : q = 32 * (17 - 0)) (hi : i = 32 * (17 - 1)) :
    fastEncAt N p a b c d q i S l.toNat r.toNat k = k (blowfishEnc s l r).1.toNat (blowfishEnc s l r).2.toNat := by
  have cut : ∀ a n b, a = 32 * n → b + 255 < 1042 → n = 788 - b → ∀ i < 256,
      (s.getD (b + i) 0).toNat = wordBefore (S >>> a % N) (255 - i) := by
    intro a n b ha hb hn i hi
    rw [hN, ha, wordBefore_mod _ (by omega), wordBefore_shift, h.word _ (by omega)]
    unfold stateWord
    congr 1
    omega
  have hP : ∀ i < 18, (s.getD i 0).toNat = wordBefore (S >>> p) (17 - i) := by
    intro i hi
    rw [hp, wordBefore_shift, h.word _ (by omega)]
    unfold stateWord
    congr 1
    omega
  have key := fastRounds_eq (cut a 770 18 ha (by omega) (by omega)) (cut b 514 274 hb (by omega) (by omega))
    (cut c 258 530 hc (by omega) (by omega)) (cut d 2 786 hd (by omega) (by omega)) hP
    (fun l r => k (r ^^^ S >>> p % 4294967296) l) 16 1 (l ^^^ s.getD 0 0) r (by omega)
  have h17 : wordBefore (S >>> p) (17 - 17) = S >>> p % 4294967296 := by
    unfold wordBefore
    rw [Nat.sub_self, Nat.mul_zero, Nat.shiftRight_zero]
    norm_num
  have h0 : wordBefore (S >>> p) (17 - 0) = S >>> p >>> q % 4294967296 := by
    unfold wordBefore
    rw [← hq]
    norm_num
  unfold blowfishEnc
  dsimp only
  rw [UInt32.toNat_xor (a := (blowfishRounds s 16 1 (l ^^^ s.getD 0 0) r).2), hP 17 (by omega), h17]
  rw [UInt32.toNat_xor, hP 0 (by omega), h0, ← hi] at key
  unfold fastEncAt
  rw [force_eq, force_eq, force_eq, force_eq, force_eq, force_eq]
  exact key

theorem fastEnc_eq {α : Type} {S : Nat} {s : Array UInt32} (h : Packs S s) (l r : UInt32) (k : Nat → Nat → α) :
    fastEnc S l.toNat r.toNat k = k (blowfishEnc s l r).1.toNat (blowfishEnc s l r).2.toNat := by
  have hN : ∀ n, n = 32 * 256 → Nat.pow 2 n = 2 ^ (32 * 256) := fun n h => h ▸ rfl
  exact fastEncAt_eq h l r k (hN 8192 (by norm_num)) (by norm_num) (by norm_num) (by norm_num) (by norm_num) (by norm_num) (by norm_num) (by norm_num)

theorem packs_set {S : Nat} {s : Array UInt32} (h : Packs S s) {i : Nat} (hi : i < 1042) (w : UInt32) :
    Packs (setWord S (1043 - i) w.toNat) (s.setIfInBounds i w) := by
  refine ⟨by rw [Array.size_setIfInBounds, h.size], fun j hj => ?_⟩
  unfold stateWord
  rw [wordBefore_set _ _ _ w.toNat_lt]
  have hs := h.size
  by_cases e : j = i
  · subst e
    rw [if_pos rfl]
    simp [Array.getD, hs, hj]
  · rw [if_neg (by omega)]
    have := h.word j hj
    unfold stateWord at this
    rw [← this]
    simp [Array.getD, hs, hj, Ne.symm e]

theorem packs_stamp {S : Nat} {s : Array UInt32} (h : Packs S s) (l r : UInt32) : Packs (stamp S l.toNat r.toNat) s := by
  refine ⟨h.size, fun i hi => ?_⟩
  rw [h.word i hi]
  unfold stateWord
  rw [show 1043 - i = 1041 - i + 2 by omega, wordBefore_stamp _ _ l.toNat_lt r.toNat_lt]

theorem set_two_aux (S l r : Nat) {M W : Nat} (hM : 0 < M) (hW : 0 < W) :
    (S % (M * W) + (l + W * (S / (M * (W * W)))) * (M * W)) % M +
      (r + W * ((S % (M * W) + (l + W * (S / (M * (W * W)))) * (M * W)) / (M * W))) * M =
    S % M + (l * W + r + S / (M * (W * W)) * (W * W)) * M := by
  generalize S / (M * (W * W)) = Q
  have h1 : (S % (M * W) + (l + W * Q) * (M * W)) % M = S % M := by
    rw [show (l + W * Q) * (M * W) = M * ((l + W * Q) * W) by ring, Nat.add_mul_mod_self_left, Nat.mod_mul_right_mod]
  have h2 : (S % (M * W) + (l + W * Q) * (M * W)) / (M * W) = l + W * Q := by
    rw [Nat.add_mul_div_right _ _ (Nat.mul_pos hM hW), Nat.div_eq_of_lt (Nat.mod_lt _ (Nat.mul_pos hM hW)), Nat.zero_add]
  rw [h1, h2]
  ring

/-- Two words at a time. -/
theorem set_two (S n l r : Nat) :
    setWord (setWord S (n + 1) l) n r = S % 2 ^ (32 * n) + (l * 2 ^ 32 + r + (S >>> (32 * n + 64)) <<< 64) <<< (32 * n) := by
  have h := set_two_aux S l r (M := 2 ^ (32 * n)) (W := 2 ^ 32) (by positivity) (by positivity)
  unfold setWord
  simp only [Nat.shiftRight_eq_div_pow, Nat.shiftLeft_eq]
  have e1 : 2 ^ (32 * (n + 1)) = 2 ^ (32 * n) * 2 ^ 32 := by rw [← pow_add, Nat.mul_add]
  have e2 : 2 ^ (32 * (n + 1 + 1)) = 2 ^ (32 * n) * (2 ^ 32 * 2 ^ 32) := by rw [← pow_add, ← pow_add, Nat.mul_add, Nat.mul_add, Nat.add_assoc]
  have e3 : 2 ^ (32 * n + 64) = 2 ^ (32 * n) * (2 ^ 32 * 2 ^ 32) := by rw [← pow_add, ← pow_add]
  have e4 : 2 ^ 64 = 2 ^ 32 * 2 ^ 32 := by norm_num
  rw [e1, e2, e3, e4]
  exact h

theorem fastPutAt_eq {α : Type} (c S i w : Nat) (k : Nat → α) : fastPutAt c S i w k =
    k ((S % 2 ^ i + (w + (S >>> (i + c)) <<< c) <<< i) >>> c <<< c + w) := rfl

theorem packs_put {α : Type} {S : Nat} {s : Array UInt32} (h : Packs S s) {i : Nat} (hi : i + 1 < 1042) (l r : UInt32) (k : Nat → α) :
    ∃ S', Packs S' ((s.setIfInBounds i l).setIfInBounds (i + 1) r) ∧ fastPut S (33344 - 32 * i) l.toNat r.toNat k = k S' := by
  refine ⟨_, packs_stamp (packs_set (packs_set h (i := i) (by omega) l) hi r) l r, ?_⟩
  rw [show 1043 - i = 1043 - (i + 1) + 1 by omega, set_two]
  obtain ⟨n, hn⟩ : ∃ n, n = 1043 - (i + 1) := ⟨_, rfl⟩
  rw [show 33344 - 32 * i = 32 * n by omega, ← hn]
  have e : l.toNat * 2 ^ 32 + r.toNat = Nat.add (Nat.mul l.toNat 4294967296) r.toNat := by norm_num [natAdd, natMul]
  unfold fastPut stamp
  rw [force_eq, fastPutAt_eq, e]

theorem packs_mixKey {K : Nat} {k : Array UInt32} (hk : KeyPacks K k) (m : Nat) : ∀ i S s, i + m ≤ 1042 → Packs S s →
    Packs (fastMixKey K m i S) (blowfishMixKey k m i s) := by
  induction m with
  | zero => intro i S s _ h; exact h
  | succ m ih =>
    intro i S s hi h
    rw [fastMixKey, force_eq, blowfishMixKey]
    refine ih _ _ _ (by omega) ?_
    have := packs_set h (i := i) (by omega) (s.getD i 0 ^^^ k.getD (i % 16) 0)
    rwa [UInt32.toNat_xor, h.word i (by omega), hk _ (Nat.mod_lt _ (by norm_num))] at this

theorem keyWord_shift (T i : Nat) :
    Nat.mod (Nat.shiftRight T (Nat.sub 480 (Nat.mul 32 (Nat.mod i 16)))) 4294967296 = keyWord T (i % 16) := by
  have : 480 - 32 * (i % 16) = 32 * (15 - i % 16) := by omega
  unfold keyWord wordBefore
  rw [← this]
  rfl

theorem packs_fill {α : Type} {T : Nat} {t : Array UInt32} (ht : KeyPacks T t) (k : Nat → α) (m : Nat) : ∀ i l r S s, i + 2 * m ≤ 1042 →
    Packs S s → ∃ S', Packs S' (blowfishFill t m i l r s) ∧ fastFill T k m i l.toNat r.toNat S = k S' := by
  induction m with
  | zero => intro i l r S s _ h; exact ⟨S, h, rfl⟩
  | succ m ih =>
    intro i l r S s hi h
    have e : fastFill T k (m + 1) i l.toNat r.toNat S =
      fastEnc S (Nat.xor l.toNat (Nat.mod (Nat.shiftRight T (Nat.sub 480 (Nat.mul 32 (Nat.mod i 16)))) 4294967296))
        (Nat.xor r.toNat (Nat.mod (Nat.shiftRight T (Nat.sub 480 (Nat.mul 32 (Nat.mod (Nat.add i 1) 16)))) 4294967296)) (fun l r =>
        fastPut S (33344 - 32 * i) l r (fun S' => fastFill T k m (i + 2) l r S')) := rfl
    rw [e, keyWord_shift, keyWord_shift, ← ht _ (Nat.mod_lt _ (by norm_num)), ← ht _ (Nat.mod_lt _ (by norm_num))]
    rw [show Nat.xor l.toNat (t.getD (i % 16) 0).toNat = (l ^^^ t.getD (i % 16) 0).toNat from (UInt32.toNat_xor ..).symm,
      show Nat.xor r.toNat (t.getD (Nat.add i 1 % 16) 0).toNat = (r ^^^ t.getD ((i + 1) % 16) 0).toNat from (UInt32.toNat_xor ..).symm,
      fastEnc_eq h, blowfishFill]
    dsimp only
    obtain ⟨S', h', e'⟩ := packs_put h (i := i) (by omega) (blowfishEnc s (l ^^^ t.getD (i % 16) 0) (r ^^^ t.getD ((i + 1) % 16) 0)).1
      (blowfishEnc s (l ^^^ t.getD (i % 16) 0) (r ^^^ t.getD ((i + 1) % 16) 0)).2
      (fun S' => fastFill T k m (i + 2) (blowfishEnc s (l ^^^ t.getD (i % 16) 0) (r ^^^ t.getD ((i + 1) % 16) 0)).1.toNat
        (blowfishEnc s (l ^^^ t.getD (i % 16) 0) (r ^^^ t.getD ((i + 1) % 16) 0)).2.toNat S')
    rw [e']
    exact ih _ _ _ _ _ (by omega) h'

theorem packs_expand {α : Type} {S T K : Nat} {s t k : Array UInt32} (h : Packs S s) (ht : KeyPacks T t) (hk : KeyPacks K k) (f : Nat → α) :
    ∃ S', Packs S' (blowfishExpand s t k) ∧ fastExpand S T K f = f S' := by
  have h1 := packs_fill ht f 521 0 0 0 _ _ (by omega) (packs_mixKey hk 18 0 _ _ (by omega) h)
  have h0 : (0 : UInt32).toNat = 0 := rfl
  rw [h0] at h1
  unfold fastExpand
  rw [force_eq]
  exact h1

theorem keyPacks_zero : KeyPacks 0 #[] := by unfold KeyPacks; decide +kernel

theorem packs_loop {α : Type} {T K : Nat} {t k : Array UInt32} (ht : KeyPacks T t) (hk : KeyPacks K k) (f : Nat → α) (m : Nat) :
    ∀ S s, Packs S s → ∃ S', Packs S' (blowfishLoop t k m s) ∧ fastLoop T K f m S = f S' := by
  induction m with
  | zero => intro S s h; exact ⟨S, h, rfl⟩
  | succ m ih =>
    intro S s h
    have e : fastLoop T K f (m + 1) S = fastExpand S 0 T (fun S => fastExpand S 0 K (fun S => fastLoop T K f m S)) := rfl
    obtain ⟨S1, h1, e1⟩ := packs_expand h keyPacks_zero ht (fun S => fastExpand S 0 K (fun S => fastLoop T K f m S))
    obtain ⟨S2, h2, e2⟩ := packs_expand h1 keyPacks_zero hk (fun S => fastLoop T K f m S)
    obtain ⟨S3, h3, e3⟩ := ih S2 _ h2
    refine ⟨S3, ?_, ?_⟩
    · rw [blowfishLoop]
      exact h3
    · rw [e, e1, e2, e3]

theorem fastTimes_eq {α : Type} {S : Nat} {s : Array UInt32} (h : Packs S s) (k : Nat → Nat → α) (m : Nat) : ∀ l r,
    fastTimes S k m l.toNat r.toNat = k (blowfishTimes s m l r).1.toNat (blowfishTimes s m l r).2.toNat := by
  induction m with
  | zero => intro l r; rfl
  | succ m ih =>
    intro l r
    rw [blowfishTimes, ← ih, ← fastEnc_eq h l r (fun l r => fastTimes S k m l r)]
    rfl

/-- `fastExpand` and `fastEnc` give what the algorithms give. -/
theorem blowfish_fast {S T K : Nat} {s t k : Array UInt32} (h : Packs S s) (ht : KeyPacks T t) (hk : KeyPacks K k) (l r : UInt32) {v : Nat}
    (hv : force S (fun S => fastExpand S T K (fun S => fastEnc S l.toNat r.toNat (fun l r => l * 2 ^ 32 + r))) = v) :
    blowfishEnc (blowfishExpand s t k) l r = (UInt32.ofNat (v >>> 32), UInt32.ofNat v) := by
  obtain ⟨S', h', e⟩ := packs_expand h ht hk (fun S => fastEnc S l.toNat r.toNat (fun l r => l * 2 ^ 32 + r))
  rw [force_eq, e, fastEnc_eq h'] at hv
  generalize blowfishEnc (blowfishExpand s t k) l r = p at *
  obtain ⟨a, b⟩ := p
  have ha := a.toNat_lt
  have hb := b.toNat_lt
  subst hv
  dsimp only
  rw [Nat.shiftRight_eq_div_pow]
  refine Prod.ext (UInt32.toNat_inj.1 ?_) (UInt32.toNat_inj.1 ?_) <;> dsimp only <;> rw [UInt32.toNat_ofNat'] <;> omega

theorem loop_add (t k : Array UInt32) (a b : Nat) : ∀ s, blowfishLoop t k (a + b) s = blowfishLoop t k b (blowfishLoop t k a s) := by
  induction a with
  | zero => intro s; rw [Nat.zero_add, blowfishLoop]
  | succ a ih => intro s; rw [Nat.succ_add, blowfishLoop, ih, blowfishLoop]

theorem packs_expand_to {S T K S' : Nat} {s t k : Array UInt32} (h : Packs S s) (ht : KeyPacks T t) (hk : KeyPacks K k)
    (e : force S (fun S => fastExpand S T K (fun S => Nat.beq S S')) = true) : Packs S' (blowfishExpand s t k) := by
  obtain ⟨S1, h1, e1⟩ := packs_expand h ht hk (fun S => Nat.beq S S')
  rw [force_eq, e1] at e
  exact Nat.eq_of_beq_eq_true e ▸ h1

theorem packs_loop_to {S T K S' n a : Nat} {s t k : Array UInt32} (h : Packs S (blowfishLoop t k a s)) (ht : KeyPacks T t) (hk : KeyPacks K k)
    (e : force S (fun S => fastLoop T K (fun S => Nat.beq S S') n S) = true) : Packs S' (blowfishLoop t k (a + n) s) := by
  obtain ⟨S1, h1, e1⟩ := packs_loop ht hk (fun S => Nat.beq S S') n S _ h
  rw [force_eq, e1] at e
  rw [loop_add]
  exact Nat.eq_of_beq_eq_true e ▸ h1

theorem times_flat {S : Nat} {s : Array UInt32} (h : Packs S s) (n : Nat) (l : List Bytes) :
    l.flatMap (fun b =>
      (natToBE 4 (blowfishTimes s n (UInt32.ofNat (beNat (b.take 4))) (UInt32.ofNat (beNat (b.drop 4)))).1.toNat).reverse ++
      (natToBE 4 (blowfishTimes s n (UInt32.ofNat (beNat (b.take 4))) (UInt32.ofNat (beNat (b.drop 4)))).2.toNat).reverse) =
    l.flatMap (fun b => fastTimes S (fun l r => (natToBE 4 l).reverse ++ (natToBE 4 r).reverse) n
        (UInt32.ofNat (beNat (b.take 4))).toNat (UInt32.ofNat (beNat (b.drop 4))).toNat) := by
  refine congrArg (fun f => List.flatMap f l) (funext fun b => ?_)
  rw [fastTimes_eq h]

/-- The 32 bytes of a hash, from the four pairs of words that are encrypted 64 times. -/
theorem bcryptHash_fast {S : Nat} {pass salt : Bytes} (h : Packs S (blowfishLoop (words16 salt) (words16 pass) 64
      (blowfishExpand blowfishInit (words16 salt) (words16 pass)))) {v : Bytes}
    (e : (pieces 8 4 (pb! "OxychromaticBlowfishSwatDynamite")).flatMap (fun b =>
      fastTimes S (fun l r => (natToBE 4 l).reverse ++ (natToBE 4 r).reverse) 64
        (UInt32.ofNat (beNat (b.take 4))).toNat (UInt32.ofNat (beNat (b.drop 4))).toNat) = v) : bcryptHash pass salt = v := by
  rw [← times_flat h] at e
  exact e

end OSK.Std
