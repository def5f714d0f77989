import Verif.Py.Utf8
import Verif.Spec.Text
/-
UTF-8: decoding inverts encoding and vice versa.
-/
namespace OSK

theorem u8_toNat {n : Nat} (h : n < 256) : (UInt8.ofNat n).toNat = n := by simp; omega

theorem u8_eq {x : UInt8} {n : Nat} (h : x.toNat = n) : UInt8.ofNat n = x := by subst h; simp

theorem inRange_ofNat {n lo hi : Nat} (h : n < 256) (h1 : lo ≤ n) (h2 : n ≤ hi) :
    inRange (UInt8.ofNat n) lo hi = true := by
  unfold inRange; rw [u8_toNat h]; simp [h1, h2]

theorem utf8Next_encodeCp {c : Nat} {b : Bytes} (h : utf8EncodeCp c = some b) (r : Bytes) :
    utf8Next (b ++ r) = some (c, r) := by
  unfold utf8EncodeCp at h
  split at h
  · simp at h; subst h
    simp only [List.cons_append, List.nil_append, utf8Next]
    rw [u8_toNat (by omega), if_pos (by omega)]
  · split at h
    · simp only [Option.some.injEq] at h; subst h
      simp only [List.cons_append, List.nil_append, utf8Next]
      rw [u8_toNat (by omega : 0xC0 + c / 64 < 256), if_neg (by omega), if_neg (by omega),
        if_pos (by omega), if_pos (inRange_ofNat (by omega) (by omega) (by omega)),
        u8_toNat (by omega)]
      simp only [Option.some.injEq, Prod.mk.injEq, and_true]; omega
    · split at h
      · simp at h
      · split at h
        · simp only [Option.some.injEq] at h; subst h
          simp only [List.cons_append, List.nil_append, utf8Next]
          rw [u8_toNat (by omega : 0xE0 + c / 4096 < 256), if_neg (by omega),
            if_neg (by omega), if_neg (by omega), if_pos (by omega), if_pos]
          · rw [u8_toNat (by omega : 0x80 + c / 64 % 64 < 256),
              u8_toNat (by omega : 0x80 + c % 64 < 256)]
            simp only [Option.some.injEq, Prod.mk.injEq, and_true]; omega
          · rw [inRange_ofNat (by omega) (by split <;> omega) (by split <;> omega),
              inRange_ofNat (by omega) (by omega) (by omega)]
            rfl
        · split at h
          · simp only [Option.some.injEq] at h; subst h
            simp only [List.cons_append, List.nil_append, utf8Next]
            rw [u8_toNat (by omega : 0xF0 + c / 262144 < 256),
              if_neg (by omega), if_neg (by omega), if_neg (by omega), if_neg (by omega),
              if_pos (by omega), if_pos]
            · rw [u8_toNat (by omega : 0x80 + c / 4096 % 64 < 256),
                u8_toNat (by omega : 0x80 + c / 64 % 64 < 256),
                u8_toNat (by omega : 0x80 + c % 64 < 256)]
              simp only [Option.some.injEq, Prod.mk.injEq, and_true]; omega
            · rw [inRange_ofNat (by omega) (by split <;> omega) (by split <;> omega),
                inRange_ofNat (by omega) (by omega) (by omega),
                inRange_ofNat (by omega) (by omega) (by omega)]
              rfl
          · simp at h

theorem utf8EncodeCp_next {b r : Bytes} {c : Nat} (h : utf8Next b = some (c, r)) :
    ∃ e, utf8EncodeCp c = some e ∧ b = e ++ r := by
  cases b with
  | nil => simp [utf8Next] at h
  | cons b0 rest =>
    have h0 := b0.toNat_lt
    simp only [utf8Next] at h
    split at h
    · simp at h
      obtain ⟨rfl, rfl⟩ := h
      refine ⟨[b0], ?_, rfl⟩
      unfold utf8EncodeCp
      rw [if_pos (by omega)]; simp
    · split at h
      · simp at h
      · split at h
        · cases rest with
          | nil => simp at h
          | cons b1 rest =>
            have h1 := b1.toNat_lt
            simp only [Option.ite_none_right_eq_some] at h
            obtain ⟨hr, h⟩ := h
            · simp [inRange] at h hr
              obtain ⟨rfl, rfl⟩ := h
              refine ⟨[b0, b1], ?_, rfl⟩
              unfold utf8EncodeCp
              rw [if_neg (by omega), if_pos (by omega)]
              rw [u8_eq (x := b0) (by omega), u8_eq (x := b1) (by omega)]
        · split at h
          · match rest, h with
            | [], h => simp at h
            | [_], h => simp at h
            | b1 :: b2 :: rest, h =>
              have h1 := b1.toNat_lt
              have h2 := b2.toNat_lt
              simp only [Option.ite_none_right_eq_some] at h
              obtain ⟨hr, h⟩ := h
              · simp only [inRange, Bool.and_eq_true, decide_eq_true_eq] at hr
                simp only [Option.some.injEq, Prod.mk.injEq] at h
                obtain ⟨rfl, rfl⟩ := h
                obtain ⟨⟨hr1, hr2⟩, hr3, hr4⟩ := hr
                refine ⟨[b0, b1, b2], ?_, rfl⟩
                unfold utf8EncodeCp
                have k1 : b0.toNat = 0xE0 → 0xA0 ≤ b1.toNat := by intro h; rw [if_pos h] at hr1; exact hr1
                have k2 : 0x80 ≤ b1.toNat := by split at hr1 <;> omega
                have k3 : b0.toNat = 0xED → b1.toNat ≤ 0x9F := by intro h; rw [if_pos h] at hr2; exact hr2
                have k4 : b1.toNat ≤ 0xBF := by split at hr2 <;> omega
                rw [if_neg (by omega), if_neg (by omega), if_neg (by omega), if_pos (by omega)]
                rw [u8_eq (x := b0) (by omega), u8_eq (x := b1) (by omega), u8_eq (x := b2) (by omega)]
          · split at h
            · match rest, h with
              | [], h => simp at h
              | [_], h => simp at h
              | [_, _], h => simp at h
              | b1 :: b2 :: b3 :: rest, h =>
                have h1 := b1.toNat_lt
                have h2 := b2.toNat_lt
                have h3 := b3.toNat_lt
                simp only [Option.ite_none_right_eq_some] at h
                obtain ⟨hr, h⟩ := h
                · simp only [inRange, Bool.and_eq_true, decide_eq_true_eq] at hr
                  simp only [Option.some.injEq, Prod.mk.injEq] at h
                  obtain ⟨rfl, rfl⟩ := h
                  obtain ⟨⟨⟨hr1, hr2⟩, hr3, hr4⟩, hr5, hr6⟩ := hr
                  refine ⟨[b0, b1, b2, b3], ?_, rfl⟩
                  unfold utf8EncodeCp
                  have k1 : b0.toNat = 0xF0 → 0x90 ≤ b1.toNat := by intro h; rw [if_pos h] at hr1; exact hr1
                  have k2 : 0x80 ≤ b1.toNat := by split at hr1 <;> omega
                  have k3 : b0.toNat = 0xF4 → b1.toNat ≤ 0x8F := by intro h; rw [if_pos h] at hr2; exact hr2
                  have k4 : b1.toNat ≤ 0xBF := by split at hr2 <;> omega
                  rw [if_neg (by omega), if_neg (by omega), if_neg (by omega), if_neg (by omega),
                    if_pos (by omega)]
                  rw [u8_eq (x := b0) (by omega), u8_eq (x := b1) (by omega), u8_eq (x := b2) (by omega),
                    u8_eq (x := b3) (by omega)]
            · simp at h

theorem utf8EncodeCp_ne_nil {c : Nat} {b : Bytes} (h : utf8EncodeCp c = some b) : b ≠ [] := by
  unfold utf8EncodeCp at h
  repeat' split at h
  all_goals simp at h <;> subst h <;> simp

theorem utf8Encode?_cons {c : Nat} {s : Str} {b : Bytes} (h : utf8Encode? (c :: s) = some b) :
    ∃ e r, utf8EncodeCp c = some e ∧ utf8Encode? s = some r ∧ b = e ++ r := by
  rw [utf8Encode?] at h
  split at h
  · rename_i e r h1 h2; simp at h; exact ⟨e, r, h1, h2, h.symm⟩
  · simp at h

theorem utf8DecodeAux_encode (s : Str) : ∀ (b : Bytes) (fuel : Nat), utf8Encode? s = some b →
    b.length ≤ fuel → utf8DecodeAux fuel b = some s := by
  induction s with
  | nil => intro b fuel h _; simp [utf8Encode?] at h; subst h; simp [utf8DecodeAux]
  | cons c s ih =>
    intro b fuel h hf
    obtain ⟨e, r, h1, h2, rfl⟩ := utf8Encode?_cons h
    have hne := utf8EncodeCp_ne_nil h1
    obtain ⟨x, e', rfl⟩ : ∃ x e', e = x :: e' := by
      cases e with
      | nil => exact absurd rfl hne
      | cons x e' => exact ⟨x, e', rfl⟩
    cases fuel with
    | zero => simp at hf
    | succ fuel =>
      simp at hf
      rw [List.cons_append, utf8DecodeAux, ← List.cons_append, utf8Next_encodeCp h1]
      simp only []
      rw [ih r fuel h2 (by omega)]
      rfl

theorem utf8Decode_encode {s : Str} {b : Bytes} (h : utf8Encode? s = some b) :
    utf8Decode? b = some s := utf8DecodeAux_encode s b _ h (Nat.le_refl _)

theorem utf8Encode_decodeAux : ∀ (fuel : Nat) (b : Bytes) (s : Str), utf8DecodeAux fuel b = some s →
    utf8Encode? s = some b := by
  intro fuel
  induction fuel with
  | zero =>
    intro b s h
    cases b with
    | nil => simp [utf8DecodeAux] at h; subst h; rfl
    | cons x b => simp [utf8DecodeAux] at h
  | succ fuel ih =>
    intro b s h
    cases b with
    | nil => simp [utf8DecodeAux] at h; subst h; rfl
    | cons x b =>
      rw [utf8DecodeAux] at h
      split at h
      · simp at h
      · rename_i c r hn
        obtain ⟨e, he, heq⟩ := utf8EncodeCp_next hn
        rcases hr : utf8DecodeAux fuel r with _ | t
        · simp [hr] at h
        · simp [hr] at h
          subst h
          rw [heq, utf8Encode?, he, ih r t hr]

theorem utf8Encode_decode {s : Str} {b : Bytes} (h : utf8Decode? b = some s) :
    utf8Encode? s = some b := utf8Encode_decodeAux _ b s h

theorem utf8_iff {s : Str} {b : Bytes} : utf8Encode? s = some b ↔ utf8Decode? b = some s :=
  ⟨utf8Decode_encode, utf8Encode_decode⟩

/-! ### Agreement with Lean's own UTF-8 encoder -/

theorem utf8EncodeCp_char (c : Char) : utf8EncodeCp c.toNat = some (String.utf8EncodeChar c) := by
  have hv : c.toNat.isValidChar := c.valid
  have hv' : c.toNat < 0xD800 ∨ (0xDFFF < c.toNat ∧ c.toNat < 0x110000) := hv
  have e : c.val.toNat = c.toNat := rfl
  unfold utf8EncodeCp String.utf8EncodeChar
  simp only [e]
  generalize c.toNat = n at hv'
  by_cases h1 : n < 0x80
  · rw [if_pos h1, if_pos (by omega : n ≤ 127)]
  · rw [if_neg h1, if_neg (by omega : ¬ n ≤ 127)]
    by_cases h2 : n < 0x800
    · rw [if_pos h2, if_pos (by omega : n ≤ 2047), (by omega : n / 64 % 32 + 192 = 192 + n / 64),
        (by omega : n % 64 + 128 = 128 + n % 64)]
    · rw [if_neg h2, if_neg (by omega : ¬ (0xD800 ≤ n ∧ n < 0xE000)), if_neg (by omega : ¬ n ≤ 2047)]
      by_cases h3 : n < 0x10000
      · rw [if_pos h3, if_pos (by omega : n ≤ 65535), (by omega : n / 4096 % 16 + 224 = 224 + n / 4096),
          (by omega : n / 64 % 64 + 128 = 128 + n / 64 % 64),
          (by omega : n % 64 + 128 = 128 + n % 64)]
      · rw [if_neg h3, if_neg (by omega : ¬ n ≤ 65535), if_pos (by omega : n < 0x110000),
          (by omega : n / 262144 % 8 + 240 = 240 + n / 262144),
          (by omega : n / 4096 % 64 + 128 = 128 + n / 4096 % 64),
          (by omega : n / 64 % 64 + 128 = 128 + n / 64 % 64),
          (by omega : n % 64 + 128 = 128 + n % 64)]

theorem utf8EncodeCp_some {n : Nat} {b : Bytes} (h : utf8EncodeCp n = some b) :
    ∃ c : Char, c.toNat = n := by
  have hv : n.isValidChar := by
    unfold utf8EncodeCp at h
    show n < 0xD800 ∨ (0xDFFF < n ∧ n < 0x110000)
    repeat' split at h
    all_goals first | omega | simp at h
  exact ⟨Char.ofNatAux n hv, rfl⟩

theorem utf8Encode?_chars (cs : List Char) : utf8Encode? (Spec.strOf cs) = some (Spec.utf8 cs) := by
  induction cs with
  | nil => rfl
  | cons c cs ih =>
    simp only [Spec.strOf, Spec.utf8, List.map_cons, List.flatMap_cons] at ih ⊢
    rw [utf8Encode?, utf8EncodeCp_char, ih]

theorem utf8Encode?_some {s : Str} {b : Bytes} (h : utf8Encode? s = some b) :
    ∃ cs, s = Spec.strOf cs ∧ b = Spec.utf8 cs := by
  induction s generalizing b with
  | nil => simp [utf8Encode?] at h; exact ⟨[], rfl, h⟩
  | cons n s ih =>
    obtain ⟨e, r, h1, h2, rfl⟩ := utf8Encode?_cons h
    obtain ⟨c, rfl⟩ := utf8EncodeCp_some h1
    rw [utf8EncodeCp_char] at h1
    simp at h1; subst h1
    obtain ⟨cs, rfl, rfl⟩ := ih h2
    exact ⟨c :: cs, rfl, rfl⟩

theorem utf8Decode?_utf8 (cs : List Char) : utf8Decode? (Spec.utf8 cs) = some (Spec.strOf cs) :=
  utf8Decode_encode (utf8Encode?_chars cs)

end OSK
