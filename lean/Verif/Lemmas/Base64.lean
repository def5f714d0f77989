import Verif.Py.Base64
import Verif.Spec.Base64
/-
Facts about base64.
-/
namespace OSK
open Spec

theorem b64_table : ∀ n : Fin 64, b64Char n = base64Symbol n ∧ b64Val (b64Char n) = some n ∧ b64Char n ≠ 61 ∧
    base64Symbol n ∈ base64Symbols ∧ (b64Char n).toNat < 128 ∧ (b64Char n).toNat ≠ 32 := by decide +kernel

theorem b64Char_eq {n : Nat} (h : n < 64) : b64Char n = base64Symbol n := (b64_table ⟨n, h⟩).1
theorem b64Val_char {n : Nat} (h : n < 64) : b64Val (b64Char n) = some n := (b64_table ⟨n, h⟩).2.1
theorem b64Char_ne {n : Nat} (h : n < 64) : b64Char n ≠ 61 := (b64_table ⟨n, h⟩).2.2.1
theorem b64Symbol_mem {n : Nat} (h : n < 64) : base64Symbol n ∈ base64Symbols := (b64_table ⟨n, h⟩).2.2.2.1

theorem b64Alphabet_iff : ∀ c : UInt8, c ∈ base64Alphabet ↔ c = 61 ∨ (b64Val c).isSome = true := by
  have : ∀ n : Fin 256, UInt8.ofNat n ∈ base64Alphabet ↔
      UInt8.ofNat n = 61 ∨ (b64Val (UInt8.ofNat n)).isSome = true := by decide +kernel
  intro c
  have h := this ⟨c.toNat, c.toNat_lt⟩
  simpa using h

theorem b64_alphabet_ascii : ∀ c ∈ base64Alphabet, c.toNat < 128 ∧ c.toNat ≠ 32 ∧ c.toNat ≠ 10 := by decide +kernel

theorem b64encode_eq (b : Bytes) : b64encode b = base64 b := by
  induction b using b64encode.induct with
  | case1 => rfl
  | case2 a =>
    have := a.toNat_lt
    simp only [b64encode, base64]
    rw [b64Char_eq (by omega), b64Char_eq (by omega)]
    have e1 : a.toNat * 2 ^ 16 / 2 ^ 18 = a.toNat / 4 := by omega
    have e2 : a.toNat * 2 ^ 16 / 2 ^ 12 % 64 = a.toNat % 4 * 16 := by omega
    rw [e1, e2]; rfl
  | case3 a b =>
    have := a.toNat_lt
    have := b.toNat_lt
    simp only [b64encode, base64]
    rw [b64Char_eq (by omega), b64Char_eq (by omega), b64Char_eq (by omega)]
    have e1 : (a.toNat * 2 ^ 16 + b.toNat * 2 ^ 8) / 2 ^ 18 = a.toNat / 4 := by omega
    have e2 : (a.toNat * 2 ^ 16 + b.toNat * 2 ^ 8) / 2 ^ 12 % 64 = a.toNat % 4 * 16 + b.toNat / 16 := by omega
    have e3 : (a.toNat * 2 ^ 16 + b.toNat * 2 ^ 8) / 2 ^ 6 % 64 = b.toNat % 16 * 4 := by omega
    rw [e1, e2, e3]; rfl
  | case4 a b c t ih =>
    have := a.toNat_lt
    have := b.toNat_lt
    have := c.toNat_lt
    simp only [b64encode, base64]
    rw [b64Char_eq (by omega), b64Char_eq (by omega), b64Char_eq (by omega), b64Char_eq (by omega), ih]
    have e1 : (a.toNat * 2 ^ 16 + b.toNat * 2 ^ 8 + c.toNat) / 2 ^ 18 = a.toNat / 4 := by omega
    have e2 : (a.toNat * 2 ^ 16 + b.toNat * 2 ^ 8 + c.toNat) / 2 ^ 12 % 64 =
      a.toNat % 4 * 16 + b.toNat / 16 := by omega
    have e3 : (a.toNat * 2 ^ 16 + b.toNat * 2 ^ 8 + c.toNat) / 2 ^ 6 % 64 =
      b.toNat % 16 * 4 + c.toNat / 64 := by omega
    have e4 : (a.toNat * 2 ^ 16 + b.toNat * 2 ^ 8 + c.toNat) % 64 = c.toNat % 64 := by omega
    rw [e1, e2, e3, e4]; rfl

theorem a2bLoop_filter (y : Bytes) : ∀ (quad left pads : Nat) (out : Bytes),
    a2bLoop (y.filter (fun c => decide (c ∈ base64Alphabet))) quad left pads out =
      a2bLoop y quad left pads out := by
  induction y with
  | nil => intros; rfl
  | cons c t ih =>
    intro quad left pads out
    by_cases hc : c ∈ base64Alphabet
    · rw [List.filter_cons_of_pos (by simpa using hc), a2bLoop, a2bLoop]
      simp only [ih]
    · rw [List.filter_cons_of_neg (by simpa using hc), ih]
      rw [b64Alphabet_iff] at hc
      conv => rhs; rw [a2bLoop]
      rw [if_neg (fun h => hc (Or.inl h))]
      rcases hv : b64Val c with _ | v
      · rfl
      · rw [hv] at hc; simp at hc

theorem a2b_q0 {n : Nat} (h : n < 64) (t : Bytes) (left pads : Nat) (out : Bytes) :
    a2bLoop (b64Char n :: t) 0 left pads out = a2bLoop t 1 n 0 out := by
  rw [a2bLoop, if_neg (b64Char_ne h), b64Val_char h]; rfl
theorem a2b_q1 {n : Nat} (h : n < 64) (t : Bytes) (left pads : Nat) (out : Bytes) :
    a2bLoop (b64Char n :: t) 1 left pads out =
      a2bLoop t 2 (n % 16) 0 (out ++ [UInt8.ofNat (left * 4 + n / 16)]) := by
  rw [a2bLoop, if_neg (b64Char_ne h), b64Val_char h]; rfl
theorem a2b_q2 {n : Nat} (h : n < 64) (t : Bytes) (left pads : Nat) (out : Bytes) :
    a2bLoop (b64Char n :: t) 2 left pads out =
      a2bLoop t 3 (n % 4) 0 (out ++ [UInt8.ofNat (left * 16 + n / 4)]) := by
  rw [a2bLoop, if_neg (b64Char_ne h), b64Val_char h]; rfl
theorem a2b_q3 {n : Nat} (h : n < 64) (t : Bytes) (left pads : Nat) (out : Bytes) :
    a2bLoop (b64Char n :: t) 3 left pads out =
      a2bLoop t 0 0 0 (out ++ [UInt8.ofNat (left * 64 + n)]) := by
  rw [a2bLoop, if_neg (b64Char_ne h), b64Val_char h]; rfl

theorem ofNat_eq {n : Nat} {a : UInt8} (h : n = a.toNat) : UInt8.ofNat n = a := by
  subst h; simp

theorem a2bLoop_encode (b : Bytes) : ∀ (left pads : Nat) (out : Bytes),
    a2bLoop (b64encode b) 0 left pads out = .ok (out ++ b) := by
  induction b using b64encode.induct with
  | case1 => intros; simp [b64encode, a2bLoop]
  | case2 a =>
    intro left pads out
    have := a.toNat_lt
    rw [b64encode, a2b_q0 (by omega), a2b_q1 (by omega)]
    have e : UInt8.ofNat (a.toNat / 4 * 4 + a.toNat % 4 * 16 / 16) = a := ofNat_eq (by omega)
    rw [e]
    rfl
  | case3 a b =>
    intro left pads out
    have := a.toNat_lt
    have := b.toNat_lt
    rw [b64encode, a2b_q0 (by omega), a2b_q1 (by omega), a2b_q2 (by omega)]
    have e : UInt8.ofNat (a.toNat / 4 * 4 + (a.toNat % 4 * 16 + b.toNat / 16) / 16) = a := ofNat_eq (by omega)
    have e2 : UInt8.ofNat ((a.toNat % 4 * 16 + b.toNat / 16) % 16 * 16 + b.toNat % 16 * 4 / 4) = b :=
      ofNat_eq (by omega)
    rw [e, e2, List.append_assoc]
    rfl
  | case4 a b c t ih =>
    intro left pads out
    have := a.toNat_lt
    have := b.toNat_lt
    have := c.toNat_lt
    rw [b64encode, a2b_q0 (by omega), a2b_q1 (by omega), a2b_q2 (by omega), a2b_q3 (by omega)]
    have e : UInt8.ofNat (a.toNat / 4 * 4 + (a.toNat % 4 * 16 + b.toNat / 16) / 16) = a := ofNat_eq (by omega)
    have e2 : UInt8.ofNat ((a.toNat % 4 * 16 + b.toNat / 16) % 16 * 16 +
      (b.toNat % 16 * 4 + c.toNat / 64) / 4) = b := ofNat_eq (by omega)
    have e3 : UInt8.ofNat ((b.toNat % 16 * 4 + c.toNat / 64) % 4 * 64 + c.toNat % 64) = c := ofNat_eq (by omega)
    rw [e, e2, e3, ih]
    simp

theorem b64decode_encode (b : Bytes) : b64decode (b64encode b) = .ok b := by
  unfold b64decode
  rw [a2bLoop_encode]; rfl

theorem b64decode_of_filter {y b : Bytes}
    (h : y.filter (fun c => decide (c ∈ base64Alphabet)) = b64encode b) : b64decode y = .ok b := by
  unfold b64decode
  rw [← a2bLoop_filter, h]
  exact b64decode_encode b

theorem base64_mem (b : Bytes) : ∀ c ∈ base64 b, c ∈ base64Alphabet := by
  have hs : ∀ n, n < 64 → base64Symbol n ∈ base64Alphabet := fun n h =>
    List.mem_append_left _ (b64Symbol_mem h)
  have h61 : (61 : UInt8) ∈ base64Alphabet := by decide
  rw [← b64encode_eq]
  induction b using b64encode.induct with
  | case1 => simp [b64encode]
  | case2 a =>
    have := a.toNat_lt
    rw [b64encode, b64Char_eq (by omega), b64Char_eq (by omega)]
    intro c hc
    simp only [List.mem_cons, List.not_mem_nil, or_false] at hc
    rcases hc with rfl | rfl | rfl | rfl
    · exact hs _ (by omega)
    · exact hs _ (by omega)
    · exact h61
    · exact h61
  | case3 a b =>
    have := a.toNat_lt
    have := b.toNat_lt
    rw [b64encode, b64Char_eq (by omega), b64Char_eq (by omega), b64Char_eq (by omega)]
    intro c hc
    simp only [List.mem_cons, List.not_mem_nil, or_false] at hc
    rcases hc with rfl | rfl | rfl | rfl
    · exact hs _ (by omega)
    · exact hs _ (by omega)
    · exact hs _ (by omega)
    · exact h61
  | case4 a b d t ih =>
    have := a.toNat_lt
    have := b.toNat_lt
    have := d.toNat_lt
    rw [b64encode, b64Char_eq (by omega), b64Char_eq (by omega), b64Char_eq (by omega),
      b64Char_eq (by omega)]
    intro c hc
    simp only [List.mem_cons] at hc
    rcases hc with rfl | rfl | rfl | rfl | hc
    · exact hs _ (by omega)
    · exact hs _ (by omega)
    · exact hs _ (by omega)
    · exact hs _ (by omega)
    · exact ih c hc

theorem b64encode_mem (b : Bytes) : ∀ c ∈ b64encode b, c ∈ base64Alphabet := by
  rw [b64encode_eq]; exact base64_mem b

theorem b64encode_filter (b : Bytes) :
    (b64encode b).filter (fun c => decide (c ∈ base64Alphabet)) = b64encode b := by
  rw [List.filter_eq_self]
  intro c hc
  simpa using b64encode_mem b c hc

theorem b64encode_length (b : Bytes) : (b64encode b).length = 4 * ((b.length + 2) / 3) := by
  induction b using b64encode.induct with
  | case1 => rfl
  | case2 a => simp [b64encode]
  | case3 a b => simp [b64encode]
  | case4 a b c t ih => simp only [b64encode, List.length_cons, ih]; omega

theorem b64encodeStr_no_space (b : Bytes) : ∀ c ∈ b64encodeStr b, c < 128 ∧ c ≠ 32 ∧ c ≠ 10 := by
  intro c hc
  unfold b64encodeStr at hc
  rw [List.mem_map] at hc
  obtain ⟨x, hx, rfl⟩ := hc
  exact b64_alphabet_ascii x (b64encode_mem b x hx)

theorem b64decodeStr_of_filter {y : Str} {b : Bytes} (ha : ∀ c ∈ y, c < 128)
    (h : y.filter (fun c => decide (c ∈ base64Alphabet.map UInt8.toNat)) = (b64encode b).map UInt8.toNat) :
    b64decodeStr y = .ok b := by
  unfold b64decodeStr
  rw [if_pos (by rw [List.all_eq_true]; simpa using ha)]
  apply b64decode_of_filter
  have hmap : ((b64encode b).map UInt8.toNat).map UInt8.ofNat = b64encode b := by
    rw [List.map_map]
    conv => rhs; rw [← List.map_id (b64encode b)]
    apply List.map_congr_left
    intro x _; simp
  rw [← hmap, ← h, List.filter_map]
  congr 1
  apply List.filter_congr
  intro c hc
  have := ha c hc
  simp only [Function.comp, decide_eq_decide, List.mem_map]
  constructor
  · intro hm
    exact ⟨_, hm, by simp; omega⟩
  · rintro ⟨x, hx, rfl⟩
    simpa using hx

end OSK
