import Verif.Lemmas.Base64
import Verif.Spec.Base64
import Mathlib.Data.List.Basic
/-
Which texts Python's base64 decoder accepts.
-/
namespace OSK
open Spec

theorem digit_iff (c : UInt8) (v : Nat) : Digit c v ↔ b64Val c = some v := by
  have t : ∀ n : Fin 256, ∀ v : Fin 64, base64Symbols[v.val]? = some (UInt8.ofNat n) ↔ b64Val (UInt8.ofNat n) = some v.val := by
    decide +kernel
  have tb : ∀ n : Fin 256, ∀ w ∈ b64Val (UInt8.ofNat n), w < 64 := by decide +kernel
  have e : UInt8.ofNat c.toNat = c := by simp
  have hlen : base64Symbols.length = 64 := by decide +kernel
  unfold Digit
  by_cases hv : v < 64
  · have := t ⟨c.toNat, c.toNat_lt⟩ ⟨v, hv⟩
    simpa [e] using this
  · constructor
    · intro h
      have := (List.getElem?_eq_some_iff.1 h).1
      omega
    · intro h
      have := tb ⟨c.toNat, c.toNat_lt⟩ v (by simp only [e]; exact h)
      omega

theorem digit_lt {c : UInt8} {v : Nat} (h : Digit c v) : v < 64 := by
  have := (List.getElem?_eq_some_iff.1 h).1
  have hlen : base64Symbols.length = 64 := by decide +kernel
  omega

theorem digit_ne {c : UInt8} {v : Nat} (h : Digit c v) : c ≠ 61 := by
  rintro rfl
  rw [digit_iff] at h
  have : b64Val 61 = none := by decide
  rw [this] at h
  simp at h

theorem not_symbol_iff (c : UInt8) : c ∉ base64Symbols ↔ b64Val c = none := by
  constructor
  · intro h
    rcases hv : b64Val c with _ | v
    · rfl
    · exact absurd (List.mem_of_getElem? ((digit_iff c v).2 hv)) h
  · intro h hc
    obtain ⟨v, hv⟩ := List.mem_iff_getElem?.1 hc
    rw [(digit_iff c v).1 hv] at h
    simp at h

/-- Anything but digits, before the first or second digit. -/
theorem a2b_gap {g : Bytes} (h : ∀ c ∈ g, c ∉ base64Symbols) (t : Bytes) {q : Nat} (hq : q < 2) (l p : Nat) (o : Bytes) :
    a2bLoop (g ++ t) q l p o = a2bLoop t q l p o := by
  induction g with
  | nil => rfl
  | cons c g ih =>
    have hc := (not_symbol_iff c).1 (h c (by simp))
    rw [List.cons_append, a2bLoop, hc, if_neg (show ¬ 2 ≤ q by omega)]
    simp only [ih fun c hc => h c (by simp [hc])]
    split <;> rfl

/-- Anything but digits, with fewer padding characters than end the text. -/
theorem a2b_gap_pads {g : Bytes} (h : ∀ c ∈ g, c ∉ base64Symbols) (t : Bytes) {q : Nat} (hq : 2 ≤ q) (l : Nat) (o : Bytes) :
    ∀ p, q + p + g.count 61 < 4 → a2bLoop (g ++ t) q l p o = a2bLoop t q l (p + g.count 61) o := by
  induction g with
  | nil => intros; rfl
  | cons c g ih =>
    intro p hp
    have hc := (not_symbol_iff c).1 (h c (by simp))
    rw [List.cons_append, a2bLoop, hc, if_pos hq]
    rw [List.count_cons] at hp ⊢
    by_cases h61 : c = 61
    · rw [if_pos (by simpa using h61)] at hp
      rw [if_pos h61, if_neg (by omega), ih (fun c hc => h c (by simp [hc])) _ (by omega), if_pos (by simpa using h61)]
      congr 1
      omega
    · have hcc : (if (c == 61) = true then 1 else 0) = 0 := if_neg (by simpa using h61)
      rw [hcc] at hp ⊢
      rw [if_neg h61, Nat.add_zero]
      exact ih (fun c hc => h c (by simp [hc])) _ (by omega)

theorem a2b_stop (t : Bytes) {q p : Nat} (hq : 2 ≤ q) (hp : 4 ≤ q + (p + 1)) (l : Nat) (o : Bytes) :
    a2bLoop (61 :: t) q l p o = .ok o := by
  rw [a2bLoop, if_pos rfl, if_pos hq, if_pos hp]

theorem a2b_digit {c : UInt8} {v : Nat} (h : Digit c v) (t : Bytes) (q l p : Nat) (o : Bytes) :
    a2bLoop (c :: t) q l p o =
      if q = 0 then a2bLoop t 1 v 0 o
      else if q = 1 then a2bLoop t 2 (v % 16) 0 (o ++ [UInt8.ofNat (l * 4 + v / 16)])
      else if q = 2 then a2bLoop t 3 (v % 4) 0 (o ++ [UInt8.ofNat (l * 16 + v / 4)])
      else a2bLoop t 0 0 0 (o ++ [UInt8.ofNat (l * 64 + v)]) := by
  rw [a2bLoop, if_neg (digit_ne h), (digit_iff c v).1 h]

theorem a2b_out (s : Bytes) : ∀ (q l p : Nat) (o : Bytes),
    a2bLoop s q l p o = (a2bLoop s q l p []).map (o ++ ·) := by
  induction s with
  | nil =>
    intro q l p o
    simp only [a2bLoop]
    split <;> simp [Except.map]
  | cons c t ih =>
    intro q l p o
    rw [a2bLoop, a2bLoop]
    split
    · split
      · split
        · simp [Except.map]
        · exact ih _ _ _ _
      · exact ih _ _ _ _
    · split
      · exact ih _ _ _ _
      · split
        · exact ih _ _ _ _
        · have key : ∀ q l p x, a2bLoop t q l p (o ++ [x]) = (a2bLoop t q l p ([] ++ [x])).map (o ++ ·) := by
            intro q l p x
            rw [ih _ _ _ (o ++ [x]), ih _ _ _ ([] ++ [x])]
            cases a2bLoop t q l p [] <;> simp [Except.map]
          split
          · exact key _ _ _ _
          · split <;> exact key _ _ _ _

/-- A text up to its first digit. -/
theorem gap_split (s : Bytes) : (∀ c ∈ s, c ∉ base64Symbols) ∨
    ∃ g c v t, s = g ++ c :: t ∧ (∀ c ∈ g, c ∉ base64Symbols) ∧ Digit c v := by
  induction s with
  | nil => exact .inl (by simp)
  | cons a s ih =>
    rcases hv : b64Val a with _ | v
    · have ha := (not_symbol_iff a).2 hv
      rcases ih with h | ⟨g, c, v, t, rfl, hg, hd⟩
      · refine .inl fun c hc => ?_
        rcases List.mem_cons.1 hc with rfl | hc
        · exact ha
        · exact h c hc
      · refine .inr ⟨a :: g, c, v, t, rfl, fun c hc => ?_, hd⟩
        rcases List.mem_cons.1 hc with rfl | hc
        · exact ha
        · exact hg c hc
    · exact .inr ⟨[], a, v, s, rfl, by simp, (digit_iff a v).2 hv⟩

/-- A text with more than `n` padding characters, up to padding character `n + 1`. -/
theorem pad_split {n : Nat} {g : Bytes} (h : n < g.count 61) : ∃ x y, g = x ++ 61 :: y ∧ x.count 61 = n := by
  induction g generalizing n with
  | nil => simp at h
  | cons a g ih =>
    by_cases ha : a = 61
    · subst ha
      cases n with
      | zero => exact ⟨[], g, rfl, by simp⟩
      | succ n =>
        obtain ⟨x, y, rfl, hx⟩ := ih (n := n) (by simpa using h)
        exact ⟨61 :: x, y, rfl, by simpa using hx⟩
    · rw [List.count_cons, if_neg (by simpa using ha)] at h
      obtain ⟨x, y, rfl, hx⟩ := ih (n := n) (by simpa using h)
      exact ⟨a :: x, y, rfl, by rw [List.count_cons, if_neg (by simpa using ha), hx]; rfl⟩

/-- A text after two or three digits of a group: it ends, or there is another digit, or nothing. -/
theorem group_cases (q : Nat) (hq : 2 ≤ q) (hq4 : q < 4) (s : Bytes) (l : Nat) (o : Bytes) :
    (∃ g t, s = g ++ 61 :: t ∧ (∀ c ∈ g, c ∉ base64Symbols) ∧ q + g.count 61 = 3 ∧ a2bLoop s q l 0 o = .ok o) ∨
    (∃ g c v t, s = g ++ c :: t ∧ (∀ c ∈ g, c ∉ base64Symbols) ∧ q + g.count 61 ≤ 3 ∧ Digit c v ∧
      a2bLoop s q l 0 o = a2bLoop (c :: t) q l (g.count 61) o) ∨
    a2bLoop s q l 0 o = .error .binasciiError := by
  have stop : ∀ {x y : Bytes}, (∀ c ∈ x, c ∉ base64Symbols) → x.count 61 = 3 - q →
      a2bLoop (x ++ 61 :: y) q l 0 o = .ok o := by
    intro x y hx hn
    rw [a2b_gap_pads hx _ hq _ _ 0 (by omega), a2b_stop _ hq (by omega)]
  rcases gap_split s with h | ⟨g, c, v, t, rfl, hg, hd⟩
  · by_cases hp : 3 - q < s.count 61
    · obtain ⟨x, y, rfl, hx⟩ := pad_split hp
      have hx' : ∀ c ∈ x, c ∉ base64Symbols := fun c hc => h c (by simp [hc])
      exact .inl ⟨x, y, rfl, hx', by omega, stop hx' hx⟩
    · refine .inr (.inr ?_)
      have := a2b_gap_pads h [] hq l o 0 (by omega)
      rw [List.append_nil] at this
      rw [this, a2bLoop, if_neg (by omega)]
  · by_cases hp : 3 - q < g.count 61
    · obtain ⟨x, y, rfl, hx⟩ := pad_split hp
      have hx' : ∀ c ∈ x, c ∉ base64Symbols := fun c hc => hg c (by simp [hc])
      refine .inl ⟨x, y ++ c :: t, by simp, hx', by omega, ?_⟩
      rw [List.append_assoc]
      exact stop hx' hx
    · refine .inr (.inl ⟨g, c, v, t, rfl, hg, by omega, hd, ?_⟩)
      rw [a2b_gap_pads hg _ hq _ _ 0 (by omega), Nat.zero_add]

theorem toNat_ofNat_lt {n : Nat} (h : n < 256) : (UInt8.ofNat n).toNat = n := by
  simp; omega

/-- Python's decoder accepts exactly the texts that the grammar describes, with the bytes it says. -/
theorem base64Reads_of {s b : Bytes} (h : b64decode s = .ok b) : Base64Reads s b := by
  unfold b64decode at h
  induction hn : s.length using Nat.strongRecOn generalizing s b with
  | _ n ih =>
    subst hn
    rcases gap_split s with hg | ⟨g0, c0, v0, t0, rfl, hg0, hd0⟩
    · have e := a2b_gap hg [] (q := 0) (by decide) 0 0 []
      rw [List.append_nil] at e
      rw [e, a2bLoop, if_pos rfl] at h
      simp at h
      subst h
      exact .done hg
    · rw [a2b_gap hg0 _ (by decide), a2b_digit hd0, if_pos rfl] at h
      have l0 := digit_lt hd0
      rcases gap_split t0 with hg | ⟨g1, c1, v1, t1, rfl, hg1, hd1⟩
      · have e := a2b_gap hg [] (q := 1) (by decide) v0 0 []
        rw [List.append_nil] at e
        rw [e, a2bLoop, if_neg (by decide)] at h
        simp at h
      · rw [a2b_gap hg1 _ (by decide), a2b_digit hd1, if_neg (by decide), if_pos rfl, List.nil_append] at h
        have l1 := digit_lt hd1
        have n1 := toNat_ofNat_lt (n := v0 * 4 + v1 / 16) (by omega)
        rcases group_cases 2 (by decide) (by decide) t1 (v1 % 16) [UInt8.ofNat (v0 * 4 + v1 / 16)] with
          ⟨g2, t2, rfl, hg2, hc2, e⟩ | ⟨g2, c2, v2, t2, rfl, hg2, hc2, hd2, e⟩ | e
        · rw [e] at h
          simp only [Except.ok.injEq] at h
          subst h
          exact .one hg0 hd0 hg1 hd1 ⟨hg2, by omega⟩ (by omega) (by rw [n1]; omega)
        · rw [e, a2b_digit hd2, if_neg (by decide), if_neg (by decide), if_pos rfl] at h
          have l2 := digit_lt hd2
          have n2 := toNat_ofNat_lt (n := v1 % 16 * 16 + v2 / 4) (by omega)
          rcases group_cases 3 (by decide) (by decide) t2 (v2 % 4)
            ([UInt8.ofNat (v0 * 4 + v1 / 16)] ++ [UInt8.ofNat (v1 % 16 * 16 + v2 / 4)]) with
            ⟨g3, t3, rfl, hg3, hc3, e⟩ | ⟨g3, c3, v3, t3, rfl, hg3, hc3, hd3, e⟩ | e
          · rw [e] at h
            simp only [Except.ok.injEq] at h
            subst h
            exact .two hg0 hd0 hg1 hd1 ⟨hg2, by omega⟩ hd2 ⟨hg3, by omega⟩ (by rw [n1, n2]; omega)
          · rw [e, a2b_digit hd3, if_neg (by decide), if_neg (by decide), if_neg (by decide), a2b_out] at h
            have l3 := digit_lt hd3
            have n3 := toNat_ofNat_lt (n := v2 % 4 * 64 + v3) (by omega)
            rcases e' : a2bLoop t3 0 0 0 [] with x | b'
            · rw [e'] at h; simp [Except.map] at h
            · rw [e'] at h
              simp only [Except.map, Except.ok.injEq] at h
              subst h
              exact .three hg0 hd0 hg1 hd1 ⟨hg2, by omega⟩ hd2 ⟨hg3, by omega⟩ hd3 (by rw [n1, n2, n3]; omega)
                (ih t3.length (by simp; omega) e' rfl)
          · rw [e] at h; simp at h
        · rw [e] at h; simp at h

theorem b64decode_of {s b : Bytes} (h : Base64Reads s b) : b64decode s = .ok b := by
  unfold b64decode
  induction h with
  | @done g hg =>
    have e := a2b_gap hg [] (q := 0) (by decide) 0 0 []
    rw [List.append_nil] at e
    rw [e, a2bLoop, if_pos rfl]
  | @one g0 g1 g2 t c0 c1 x v0 v1 hg0 hd0 hg1 hd1 hg2 hc2 hx =>
    have l0 := digit_lt hd0
    have l1 := digit_lt hd1
    rw [a2b_gap hg0 _ (by decide), a2b_digit hd0, if_pos rfl, a2b_gap hg1 _ (by decide), a2b_digit hd1,
      if_neg (by decide), if_pos rfl, List.nil_append, a2b_gap_pads hg2.1 _ (by decide) _ _ 0 (by omega),
      a2b_stop _ (by decide) (by omega), ofNat_eq (a := x) (by omega)]
  | @two g0 g1 g2 g3 t c0 c1 c2 x y v0 v1 v2 hg0 hd0 hg1 hd1 hg2 hd2 hg3 hx =>
    have l0 := digit_lt hd0
    have l1 := digit_lt hd1
    have l2 := digit_lt hd2
    have := x.toNat_lt
    have := y.toNat_lt
    have := hg2.2
    have := hg3.2
    rw [a2b_gap hg0 _ (by decide), a2b_digit hd0, if_pos rfl, a2b_gap hg1 _ (by decide), a2b_digit hd1,
      if_neg (by decide), if_pos rfl, List.nil_append, a2b_gap_pads hg2.1 _ (by decide) _ _ 0 (by omega),
      a2b_digit hd2, if_neg (by decide), if_neg (by decide), if_pos rfl,
      a2b_gap_pads hg3.1 _ (by decide) _ _ 0 (by omega),
      a2b_stop _ (by decide) (by omega), ofNat_eq (a := x) (by omega), ofNat_eq (a := y) (by omega)]
    rfl
  | @three g0 g1 g2 g3 t b c0 c1 c2 c3 x y z v0 v1 v2 v3 hg0 hd0 hg1 hd1 hg2 hd2 hg3 hd3 hx _ ih =>
    have l0 := digit_lt hd0
    have l1 := digit_lt hd1
    have l2 := digit_lt hd2
    have l3 := digit_lt hd3
    have := x.toNat_lt
    have := y.toNat_lt
    have := z.toNat_lt
    have := hg2.2
    have := hg3.2
    rw [a2b_gap hg0 _ (by decide), a2b_digit hd0, if_pos rfl, a2b_gap hg1 _ (by decide), a2b_digit hd1,
      if_neg (by decide), if_pos rfl, List.nil_append, a2b_gap_pads hg2.1 _ (by decide) _ _ 0 (by omega),
      a2b_digit hd2, if_neg (by decide), if_neg (by decide), if_pos rfl,
      a2b_gap_pads hg3.1 _ (by decide) _ _ 0 (by omega),
      a2b_digit hd3, if_neg (by decide), if_neg (by decide), if_neg (by decide),
      ofNat_eq (a := x) (by omega), ofNat_eq (a := y) (by omega), ofNat_eq (a := z) (by omega), a2b_out, ih]
    rfl

theorem base64Reads_iff {s b : Bytes} : b64decode s = .ok b ↔ Base64Reads s b := ⟨base64Reads_of, b64decode_of⟩

theorem textReads_iff {s : Str} {b : Bytes} : b64decodeStr s = .ok b ↔ TextReads s b := by
  unfold b64decodeStr TextReads
  by_cases h : ∀ c ∈ s, c < 128
  · rw [if_pos (by simpa using h), base64Reads_iff]
    exact ⟨fun g => ⟨h, g⟩, fun g => g.2⟩
  · rw [if_neg (by simpa using h)]
    simp [h]

end OSK
