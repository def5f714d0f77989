import Verif.Spec.Json
import Verif.Lemmas.Utf8
/-
JSON texts are unambiguous.
-/
namespace OSK
open Spec

theorem smallHexDigit_inj {a b h : Nat} (x : SmallHexDigit a h) (y : SmallHexDigit b h) : a = b := by
  unfold SmallHexDigit at x y; omega

theorem hexDigit_inj {a b h : Nat} (x : HexDigit a h) (y : HexDigit b h) : a = b := by
  unfold HexDigit at x y; omega

theorem hex4_length {n : Nat} {s : Str} (h : Hex4 n s) : s.length = 4 := by
  obtain ⟨_, _, _, _, _, _, _, _, _, _, _, _, rfl, _⟩ := h
  rfl

theorem hex4_inj {n m : Nat} {s : Str} (h : Hex4 n s) (h' : Hex4 m s) : n = m := by
  obtain ⟨a, b, c, d, x, y, z, t, h1, h2, h3, h4, rfl, rfl⟩ := h
  obtain ⟨a', b', c', d', x', y', z', t', h1', h2', h3', h4', e, rfl⟩ := h'
  simp at e
  obtain ⟨rfl, rfl, rfl, rfl⟩ := e
  rw [hexDigit_inj h1 h1', hexDigit_inj h2 h2', hexDigit_inj h3 h3', hexDigit_inj h4 h4']

theorem char_scalar (c : Char) : c.toNat < 0xd800 ∨ (0xe000 ≤ c.toNat ∧ c.toNat < 0x110000) := by
  have := c.valid
  unfold UInt32.isValidChar Nat.isValidChar at this
  unfold Char.toNat
  omega

theorem char_toNat_inj {c d : Char} (h : c.toNat = d.toNat) : c = d :=
  Char.ext (UInt32.toNat_inj.1 h)

theorem short_inj {n n' e : Nat} (h : (n, e) ∈ shortEscapes) (h' : (n', e) ∈ shortEscapes) : n = n' := by
  simp [shortEscapes] at h h'; omega

theorem short_ne_u {n e : Nat} (h : (n, e) ∈ shortEscapes) : e ≠ 0x75 := by
  simp [shortEscapes] at h; omega

/-- A character's text does not begin with a quote. -/
theorem charText_head {c : Char} {s : Str} (h : CharText c s) : ∃ x t, s = x :: t ∧ x ≠ 0x22 := by
  cases h with
  | plain _ h _ => exact ⟨_, _, rfl, h⟩
  | short h => exact ⟨_, _, rfl, by decide⟩
  | hex h => exact ⟨_, _, rfl, by decide⟩
  | surrogates => exact ⟨_, _, rfl, by decide⟩

theorem append_inj4 {a b r r' : Str} (ha : a.length = 4) (hb : b.length = 4) (h : a ++ r = b ++ r') : a = b ∧ r = r' :=
  List.append_inj h (by omega)

theorem hex_vs_surrogates {c d : Char} {hi : Nat} {s t r r' : Str} (h : Hex4 c.toNat s) (h' : Hex4 (0xd800 + hi) t)
    (hh : hi < 1024) (e : s ++ r = t ++ r') : c = d := by
  obtain ⟨rfl, -⟩ := append_inj4 (hex4_length h) (hex4_length h') e
  have := hex4_inj h h'
  have := char_scalar c
  omega

theorem charText_unique {c c' : Char} {s s' r r' : Str} (h : CharText c s) (h' : CharText c' s') (e : s ++ r = s' ++ r') :
    c = c' ∧ s = s' ∧ r = r' := by
  cases h with
  | plain h1 h2 h3 =>
    cases h' with
    | plain h1' h2' h3' =>
      simp at e
      have := char_toNat_inj e.1
      subst this
      exact ⟨rfl, rfl, e.2⟩
    | short h => simp at e; omega
    | hex h => simp at e; omega
    | surrogates => simp at e; omega
  | short h =>
    cases h' with
    | plain h1' h2' h3' => simp at e; omega
    | short h' =>
      simp at e
      obtain ⟨rfl, rfl⟩ := e
      exact ⟨char_toNat_inj (short_inj h h'), rfl, rfl⟩
    | hex _ => simp at e; exact absurd e.1 (short_ne_u h)
    | surrogates => simp at e; exact absurd e.1 (short_ne_u h)
  | hex h =>
    cases h' with
    | plain h1' h2' h3' => simp at e; omega
    | short h' => simp at e; exact absurd e.1.symm (short_ne_u h')
    | hex h' =>
      simp at e
      obtain ⟨rfl, rfl⟩ := append_inj4 (hex4_length h) (hex4_length h') e
      exact ⟨char_toNat_inj (hex4_inj h h'), rfl, rfl⟩
    | surrogates h1 h2 h3 h4 h5 =>
      simp at e
      obtain ⟨rfl, -⟩ := append_inj4 (hex4_length h) (hex4_length h1) e
      have := hex4_inj h h1
      have := char_scalar c
      omega
  | surrogates h1 h2 h3 h4 h5 =>
    cases h' with
    | plain h1' h2' h3' => simp at e; omega
    | short h' => simp at e; exact absurd e.1.symm (short_ne_u h')
    | hex h =>
      simp at e
      obtain ⟨rfl, -⟩ := append_inj4 (hex4_length h1) (hex4_length h) e
      have := hex4_inj h h1
      have := char_scalar c'
      omega
    | surrogates g1 g2 g3 g4 g5 =>
      simp at e
      obtain ⟨rfl, e⟩ := append_inj4 (hex4_length h1) (hex4_length g1) e
      simp at e
      obtain ⟨rfl, rfl⟩ := append_inj4 (hex4_length h2) (hex4_length g2) e
      have a := hex4_inj h1 g1
      have b := hex4_inj h2 g2
      exact ⟨char_toNat_inj (by omega), rfl, rfl⟩

theorem charsText_unique {cs : List Char} {s : Str} (h : CharsText cs s) : ∀ {cs' : List Char} {s' r r' : Str},
    CharsText cs' s' → s ++ 0x22 :: r = s' ++ 0x22 :: r' → cs = cs' ∧ s = s' ∧ r = r' := by
  induction h with
  | nil =>
    intro cs' s' r r' h' e
    cases h' with
    | nil => simpa using e
    | cons h1 h2 =>
      obtain ⟨x, t, rfl, hx⟩ := charText_head h1
      simp at e; exact absurd e.1.symm hx
  | cons h1 h2 ih =>
    intro cs' s' r r' h' e
    cases h' with
    | nil =>
      obtain ⟨x, t, rfl, hx⟩ := charText_head h1
      simp at e; exact absurd e.1 hx
    | cons h1' h2' =>
      rw [List.append_assoc, List.append_assoc] at e
      obtain ⟨rfl, rfl, e2⟩ := charText_unique h1 h1' e
      obtain ⟨rfl, rfl, rfl⟩ := ih h2' e2
      exact ⟨rfl, rfl, rfl⟩

theorem stringText_unique {cs cs' : List Char} {s s' r r' : Str} (h : StringText cs s) (h' : StringText cs' s')
    (e : s ++ r = s' ++ r') : cs = cs' ∧ s = s' ∧ r = r' := by
  obtain ⟨h⟩ := h
  obtain ⟨h'⟩ := h'
  simp at e
  obtain ⟨rfl, rfl, rfl⟩ := charsText_unique h h' e
  exact ⟨rfl, rfl, rfl⟩

/-! ### Numbers -/

/-- The text does not begin with a digit. -/
def NoDigit (r : Str) : Prop := ∀ c ∈ r.head?, ¬ (48 ≤ c ∧ c ≤ 57)

theorem digits_unique {ds ds' r r' : Str} (h : ∀ d ∈ ds, 48 ≤ d ∧ d ≤ 57) (h' : ∀ d ∈ ds', 48 ≤ d ∧ d ≤ 57)
    (hr : NoDigit r) (hr' : NoDigit r') (e : ds ++ r = ds' ++ r') : ds = ds' ∧ r = r' := by
  induction ds generalizing ds' with
  | nil =>
    cases ds' with
    | nil => exact ⟨rfl, e⟩
    | cons d t => simp at e; subst e; exact absurd (h' d (by simp)) (hr d (by simp))
  | cons d t ih =>
    cases ds' with
    | nil => simp at e; subst e; exact absurd (h d (by simp)) (hr' d (by simp))
    | cons d' t' =>
      simp at e
      obtain ⟨rfl, e⟩ := e
      obtain ⟨rfl, rfl⟩ := ih (fun x hx => h x (by simp [hx])) (fun x hx => h' x (by simp [hx])) e
      exact ⟨rfl, rfl⟩

theorem intText_unique {i i' : Int} {s s' r r' : Str} (h : IntText i s) (h' : IntText i' s') (hr : NoDigit r)
    (hr' : NoDigit r') (e : s ++ r = s' ++ r') : i = i' ∧ s = s' ∧ r = r' := by
  cases h with
  | pos h =>
    cases h' with
    | pos h' =>
      obtain ⟨rfl, rfl⟩ := digits_unique h.2.1 h'.2.1 hr hr' e
      exact ⟨rfl, rfl, rfl⟩
    | neg h' =>
      cases s with
      | nil => exact absurd rfl h.1
      | cons d t => simp at e; have := h.2.1 d (by simp); omega
  | neg h =>
    cases h' with
    | pos h' =>
      cases s' with
      | nil => exact absurd rfl h'.1
      | cons d t => simp at e; have := h'.2.1 d (by simp); omega
    | neg h' =>
      simp at e
      obtain ⟨rfl, rfl⟩ := digits_unique h.2.1 h'.2.1 hr hr' e
      exact ⟨rfl, rfl, rfl⟩

/-! ### White space -/

theorem ws_nil : Ws [] := by simp [Ws]

theorem ws_unique {w w' : Str} {c c' : Nat} {t t' : Str} (h : Ws w) (h' : Ws w') (hc : ¬ Ws [c]) (hc' : ¬ Ws [c'])
    (e : w ++ c :: t = w' ++ c' :: t') : w = w' ∧ c = c' ∧ t = t' := by
  induction w generalizing w' with
  | nil =>
    cases w' with
    | nil => simpa using e
    | cons x y => simp at e; exact absurd (fun z hz => by simp at hz; subst hz; exact e.1 ▸ h' x (by simp)) hc
  | cons x y ih =>
    cases w' with
    | nil => simp at e; exact absurd (fun z hz => by simp at hz; subst hz; exact e.1 ▸ h x (by simp)) hc'
    | cons x' y' =>
      simp at e
      obtain ⟨rfl, e⟩ := e
      obtain ⟨rfl, rfl, rfl⟩ := ih (fun z hz => h z (by simp [hz])) (fun z hz => h' z (by simp [hz])) e
      exact ⟨rfl, rfl, rfl⟩

theorem ws_noDigit {w : Str} {c : Nat} {t : Str} (h : Ws w) (hc : ¬ (48 ≤ c ∧ c ≤ 57)) : NoDigit (w ++ c :: t) := by
  intro d hd
  cases w with
  | nil => simp at hd; subst hd; exact hc
  | cons x y => simp at hd; subst hd; have := h x (by simp); omega

theorem ws_head {c : Nat} : Ws [c] ↔ c = 0x20 ∨ c = 0x09 ∨ c = 0x0a ∨ c = 0x0d := by simp [Ws]

/-! ### Values -/

/-- What kind of value begins with this character. -/
def Heads (c : Nat) : Json → Prop
  | .null => c = 0x6e
  | .int _ => c = 45 ∨ (48 ≤ c ∧ c ≤ 57)
  | .text _ => c = 0x22
  | .list _ => c = 0x5b
  | .object _ => c = 0x7b

def PieceHeads (c : Nat) : Piece → Prop
  | .value j => Heads c j
  | .items l => ∃ x t, l = x :: t ∧ Heads c x
  | .members _ => c = 0x22

theorem pieceText_head {p : Piece} {s : Str} (h : PieceText p s) : ∃ c t, s = c :: t ∧ PieceHeads c p := by
  induction h with
  | null => exact ⟨_, _, rfl, rfl⟩
  | @int _ ds h =>
    cases h with
    | pos h =>
      cases ds with
      | nil => exact absurd rfl h.1
      | cons d t => exact ⟨d, t, rfl, Or.inr (h.2.1 d (by simp))⟩
    | neg h => exact ⟨_, _, rfl, Or.inl rfl⟩
  | text h => obtain ⟨h⟩ := h; exact ⟨_, _, rfl, rfl⟩
  | emptyList | list | emptyObject | object => exact ⟨_, _, rfl, rfl⟩
  | item _ ih => obtain ⟨c, t, rfl, h⟩ := ih; exact ⟨c, t, rfl, _, _, rfl, h⟩
  | items _ _ _ _ ih _ => obtain ⟨c, t, rfl, h⟩ := ih; exact ⟨c, _, rfl, _, _, rfl, h⟩
  | member h => obtain ⟨h⟩ := h; exact ⟨_, _, rfl, rfl⟩
  | members h => obtain ⟨h⟩ := h; exact ⟨_, _, rfl, rfl⟩

theorem heads_not_ws {c : Nat} {p : Piece} (h : PieceHeads c p) : ¬ Ws [c] ∧ c ≠ 0x5d ∧ c ≠ 0x7d := by
  rw [ws_head]
  have key : ∀ j, Heads c j → ¬ (c = 0x20 ∨ c = 0x09 ∨ c = 0x0a ∨ c = 0x0d) ∧ c ≠ 0x5d ∧ c ≠ 0x7d := by
    intro j h
    cases j <;> simp only [Heads] at h <;> omega
  cases p with
  | value j => exact key j h
  | items l => obtain ⟨x, t, -, h⟩ := h; exact key x h
  | members m => simp only [PieceHeads] at h; omega

/-- What may come after a piece for it to be clear where it ends. -/
def Ends : Piece → Str → Prop
  | .value _, r => NoDigit r
  | .items _, r => ∃ w t, Ws w ∧ r = w ++ 0x5d :: t
  | .members _, r => ∃ w t, Ws w ∧ r = w ++ 0x7d :: t

/-- The two pieces are of the same sort. -/
def SameSort : Piece → Piece → Prop
  | .value _, .value _ => True
  | .items _, .items _ => True
  | .members _, .members _ => True
  | _, _ => False

/-- White space before a piece is determined. -/
theorem ws_piece {w w' s s' r r' : Str} {p p' : Piece} (hw : Ws w) (hw' : Ws w') (h : PieceText p s) (h' : PieceText p' s')
    (e : w ++ (s ++ r) = w' ++ (s' ++ r')) : w = w' ∧ s ++ r = s' ++ r' := by
  obtain ⟨c, t, rfl, hc⟩ := pieceText_head h
  obtain ⟨c', t', rfl, hc'⟩ := pieceText_head h'
  obtain ⟨rfl, rfl, e2⟩ := ws_unique hw hw' (heads_not_ws hc).1 (heads_not_ws hc').1 (by simpa using e)
  exact ⟨rfl, by simp at e2 ⊢; exact e2⟩

/-- A closing bracket does not begin a piece. -/
theorem ws_close {w w' s r t : Str} {p : Piece} {c : Nat} (hw : Ws w) (hw' : Ws w') (h : PieceText p s)
    (hc : c = 0x5d ∨ c = 0x7d) (e : w ++ c :: t = w' ++ (s ++ r)) : False := by
  obtain ⟨d, t', rfl, hd⟩ := pieceText_head h
  obtain ⟨h1, h2, h3⟩ := heads_not_ws hd
  obtain ⟨-, rfl, -⟩ := ws_unique (c := c) (c' := d) hw hw' (by rw [ws_head]; omega) h1 (by simpa using e)
  omega

theorem noDigit_of {c : Nat} {t : Str} (h : ¬ (48 ≤ c ∧ c ≤ 57)) : NoDigit (c :: t) := ws_noDigit ws_nil h

theorem heads_sort {j j' : Json} {c : Nat} (h : Heads c j) (h' : Heads c j') :
    (∃ i i', j = .int i ∧ j' = .int i') ∨ (∃ i i', j = .text i ∧ j' = .text i') ∨ (∃ i i', j = .list i ∧ j' = .list i') ∨
    (∃ i i', j = .object i ∧ j' = .object i') ∨ (j = .null ∧ j' = .null) := by
  cases j <;> cases j' <;> simp only [Heads] at h h' <;> first | omega | simp

theorem pieceText_unique {p : Piece} {s : Str} (h : PieceText p s) : ∀ {p' : Piece} {s' r r' : Str}, PieceText p' s' →
    SameSort p p' → Ends p r → Ends p' r' → s ++ r = s' ++ r' → p = p' ∧ s = s' ∧ r = r' := by
  have sort : ∀ {j : Json} {s s' r r' : Str} {p' : Piece}, PieceText (.value j) s → PieceText p' s' →
      SameSort (.value j) p' → s ++ r = s' ++ r' → ∃ j' c, p' = .value j' ∧ Heads c j ∧ Heads c j' := by
    intro j s s' r r' p' h h' hs e
    obtain ⟨c, t, rfl, hc⟩ := pieceText_head h
    obtain ⟨c', t', rfl, hc'⟩ := pieceText_head h'
    cases p' with
    | value j' => simp at e; obtain ⟨rfl, -⟩ := e; exact ⟨j', c, rfl, hc, hc'⟩
    | items _ => exact hs.elim
    | members _ => exact hs.elim
  have hclose : ∀ {c : Nat}, c = 0x5d ∨ c = 0x7d ∨ c = 0x2c ∨ c = 0x3a → ¬ Ws [c] := by
    intro c h; rw [ws_head]; omega
  induction h with
  | null =>
    intro p' s' r r' h' hs hr hr' e
    obtain ⟨j', c, rfl, hc, hc'⟩ := sort .null h' hs e
    cases h' <;> simp only [Heads] at hc hc' <;> try omega
    simp at e; exact ⟨rfl, rfl, e⟩
  | int h =>
    intro p' s' r r' h' hs hr hr' e
    obtain ⟨j', c, rfl, hc, hc'⟩ := sort (.int h) h' hs e
    cases h' with
    | int h' =>
      obtain ⟨rfl, rfl, rfl⟩ := intText_unique h h' hr hr' e
      exact ⟨rfl, rfl, rfl⟩
    | _ => simp only [Heads] at hc hc'; omega
  | text h =>
    intro p' s' r r' h' hs hr hr' e
    obtain ⟨j', c, rfl, hc, hc'⟩ := sort (.text h) h' hs e
    cases h' with
    | text h' =>
      obtain ⟨rfl, rfl, rfl⟩ := stringText_unique h h' e
      exact ⟨rfl, rfl, rfl⟩
    | _ => simp only [Heads] at hc hc'; omega
  | emptyList hw =>
    intro p' s' r r' h' hs hr hr' e
    obtain ⟨j', c, rfl, hc, hc'⟩ := sort (.emptyList hw) h' hs e
    cases h' with
    | emptyList hw' =>
      simp at e
      obtain ⟨rfl, -, rfl⟩ := ws_unique hw hw' (hclose (by simp)) (hclose (by simp)) e
      exact ⟨rfl, rfl, rfl⟩
    | list hw' h' hv' =>
      simp at e
      exact (ws_close hw hw' h' (by simp) e).elim
    | _ => simp only [Heads] at hc hc'; omega
  | list hw h hv ih =>
    intro p' s' r r' h' hs hr hr' e
    obtain ⟨j', c, rfl, hc, hc'⟩ := sort (.list hw h hv) h' hs e
    cases h' with
    | emptyList hw' =>
      simp at e
      exact (ws_close hw' hw h (by simp) e.symm).elim
    | list hw' h' hv' =>
      simp at e
      obtain ⟨rfl, e2⟩ := ws_piece hw hw' h h' e
      obtain ⟨e3, rfl, e4⟩ := ih h' trivial ⟨_, _, hv, rfl⟩ ⟨_, _, hv', rfl⟩ e2
      obtain ⟨rfl, -, rfl⟩ := ws_unique hv hv' (hclose (by simp)) (hclose (by simp)) e4
      simp at e3
      subst e3
      exact ⟨rfl, rfl, rfl⟩
    | _ => simp only [Heads] at hc hc'; omega
  | emptyObject hw =>
    intro p' s' r r' h' hs hr hr' e
    obtain ⟨j', c, rfl, hc, hc'⟩ := sort (.emptyObject hw) h' hs e
    cases h' with
    | emptyObject hw' =>
      simp at e
      obtain ⟨rfl, -, rfl⟩ := ws_unique hw hw' (hclose (by simp)) (hclose (by simp)) e
      exact ⟨rfl, rfl, rfl⟩
    | object hw' h' hv' =>
      simp at e
      exact (ws_close hw hw' h' (by simp) e).elim
    | _ => simp only [Heads] at hc hc'; omega
  | object hw h hv ih =>
    intro p' s' r r' h' hs hr hr' e
    obtain ⟨j', c, rfl, hc, hc'⟩ := sort (.object hw h hv) h' hs e
    cases h' with
    | emptyObject hw' =>
      simp at e
      exact (ws_close hw' hw h (by simp) e.symm).elim
    | object hw' h' hv' =>
      simp at e
      obtain ⟨rfl, e2⟩ := ws_piece hw hw' h h' e
      obtain ⟨e3, rfl, e4⟩ := ih h' trivial ⟨_, _, hv, rfl⟩ ⟨_, _, hv', rfl⟩ e2
      obtain ⟨rfl, -, rfl⟩ := ws_unique hv hv' (hclose (by simp)) (hclose (by simp)) e4
      simp at e3
      subst e3
      exact ⟨rfl, rfl, rfl⟩
    | _ => simp only [Heads] at hc hc'; omega
  | item h ih =>
    intro p' s' r r' h' hs hr hr' e
    obtain ⟨w, t, hw, rfl⟩ := hr
    cases h' with
    | item h' =>
      obtain ⟨w', t', hw', rfl⟩ := hr'
      obtain ⟨e1, rfl, e2⟩ := ih h' trivial (ws_noDigit hw (by omega)) (ws_noDigit hw' (by omega)) e
      simp at e1
      exact ⟨by rw [e1], rfl, e2⟩
    | items h' hv hv' _ =>
      simp at e
      obtain ⟨-, -, e2⟩ := ih h' trivial (ws_noDigit hw (by omega)) (ws_noDigit hv (by omega)) e
      obtain ⟨-, h0, -⟩ := ws_unique hw hv (hclose (by simp)) (hclose (by simp)) e2
      omega
    | _ => exact hs.elim
  | items h hv hu h2 ih ih2 =>
    intro p' s' r r' h' hs hr hr' e
    cases h' with
    | item h' =>
      obtain ⟨w', t', hw', rfl⟩ := hr'
      simp at e
      obtain ⟨-, -, e2⟩ := ih h' trivial (ws_noDigit hv (by omega)) (ws_noDigit hw' (by omega)) e
      obtain ⟨-, h0, -⟩ := ws_unique hv hw' (hclose (by simp)) (hclose (by simp)) e2
      omega
    | items h' hv' hu' h2' =>
      simp at e
      obtain ⟨e1, rfl, e2⟩ := ih h' trivial (ws_noDigit hv (by omega)) (ws_noDigit hv' (by omega)) e
      obtain ⟨rfl, -, e3⟩ := ws_unique hv hv' (hclose (by simp)) (hclose (by simp)) e2
      obtain ⟨rfl, e4⟩ := ws_piece hu hu' h2 h2' e3
      obtain ⟨e5, rfl, rfl⟩ := ih2 h2' trivial hr hr' e4
      simp at e1 e5
      exact ⟨by rw [e1, e5], rfl, rfl⟩
    | _ => exact hs.elim
  | member hn hv hu h ih =>
    intro p' s' r r' h' hs hr hr' e
    obtain ⟨w, t, hw, rfl⟩ := hr
    cases h' with
    | member hn' hv' hu' h' =>
      obtain ⟨w', t', hw', rfl⟩ := hr'
      simp at e
      obtain ⟨rfl, rfl, e1⟩ := stringText_unique hn hn' e
      obtain ⟨rfl, -, e2⟩ := ws_unique hv hv' (hclose (by simp)) (hclose (by simp)) e1
      obtain ⟨rfl, e3⟩ := ws_piece hu hu' h h' e2
      obtain ⟨e4, rfl, e5⟩ := ih h' trivial (ws_noDigit hw (by omega)) (ws_noDigit hw' (by omega)) e3
      simp at e4
      exact ⟨by rw [e4], rfl, e5⟩
    | members hn' hv' hu' h' hx' hy' _ =>
      simp at e
      obtain ⟨rfl, rfl, e1⟩ := stringText_unique hn hn' e
      obtain ⟨rfl, -, e2⟩ := ws_unique hv hv' (hclose (by simp)) (hclose (by simp)) e1
      obtain ⟨rfl, e3⟩ := ws_piece hu hu' h h' e2
      obtain ⟨-, -, e4⟩ := ih h' trivial (ws_noDigit hw (by omega)) (ws_noDigit hx' (by omega)) e3
      obtain ⟨-, h0, -⟩ := ws_unique hw hx' (hclose (by simp)) (hclose (by simp)) e4
      omega
    | _ => exact hs.elim
  | members hn hv hu h hx hy h2 ih ih2 =>
    intro p' s' r r' h' hs hr hr' e
    cases h' with
    | member hn' hv' hu' h' =>
      obtain ⟨w', t', hw', rfl⟩ := hr'
      simp at e
      obtain ⟨rfl, rfl, e1⟩ := stringText_unique hn hn' e
      obtain ⟨rfl, -, e2⟩ := ws_unique hv hv' (hclose (by simp)) (hclose (by simp)) e1
      obtain ⟨rfl, e3⟩ := ws_piece hu hu' h h' e2
      obtain ⟨-, -, e4⟩ := ih h' trivial (ws_noDigit hx (by omega)) (ws_noDigit hw' (by omega)) e3
      obtain ⟨-, h0, -⟩ := ws_unique hx hw' (hclose (by simp)) (hclose (by simp)) e4
      omega
    | members hn' hv' hu' h' hx' hy' h2' =>
      simp at e
      obtain ⟨rfl, rfl, e1⟩ := stringText_unique hn hn' e
      obtain ⟨rfl, -, e2⟩ := ws_unique hv hv' (hclose (by simp)) (hclose (by simp)) e1
      obtain ⟨rfl, e3⟩ := ws_piece hu hu' h h' e2
      obtain ⟨e4, rfl, e5⟩ := ih h' trivial (ws_noDigit hx (by omega)) (ws_noDigit hx' (by omega)) e3
      obtain ⟨rfl, -, e6⟩ := ws_unique hx hx' (hclose (by simp)) (hclose (by simp)) e5
      obtain ⟨rfl, e7⟩ := ws_piece hy hy' h2 h2' e6
      obtain ⟨e8, rfl, rfl⟩ := ih2 h2' trivial hr hr' e7
      simp at e4 e8
      exact ⟨by rw [e4, e8], rfl, rfl⟩
    | _ => exact hs.elim

theorem ws_noDigit' {w : Str} (h : Ws w) : NoDigit w := by
  intro d hd
  cases w with
  | nil => simp at hd
  | cons x y => simp at hd; subst hd; have := h x (by simp); omega

/-- A JSON document denotes one value. -/
theorem document_unique {j j' : Json} {s s' : Str} (h : Document j s) (h' : Document j' s') (e : s = s') : j = j' := by
  obtain ⟨h1, h2, h3⟩ := h
  obtain ⟨g1, g2, g3⟩ := h'
  simp only [List.append_assoc] at e
  obtain ⟨-, e1⟩ := ws_piece h1 g1 h2 g2 e
  have := (pieceText_unique h2 g2 trivial (ws_noDigit' h3) (ws_noDigit' g3) e1).1
  simpa using this

/-! ### Bytes literals -/

theorem byteText_unique {q : Nat} {x x' : UInt8} {s s' r r' : Str} (h : ByteText q x s)
    (h' : ByteText q x' s') (e : s ++ r = s' ++ r') : x = x' ∧ s = s' ∧ r = r' := by
  cases h with
  | plain h1 h2 h3 h4 =>
    cases h' with
    | plain => simp at e; exact ⟨UInt8.toNat_inj.1 e.1, by simp [e.1], e.2⟩
    | escape => simp at e; omega
    | hex => simp at e; omega
  | escape h =>
    cases h' with
    | plain => simp at e; omega
    | escape h' =>
      simp at e
      obtain ⟨rfl, rfl⟩ := e
      refine ⟨UInt8.toNat_inj.1 ?_, rfl, rfl⟩
      simp at h h'; omega
    | hex => simp at e h; omega
  | hex h1 h2 h3 =>
    cases h' with
    | plain => simp at e; omega
    | escape h' => simp at e h'; omega
    | hex g1 g2 g3 =>
      simp at e
      obtain ⟨rfl, rfl, rfl⟩ := e
      refine ⟨UInt8.toNat_inj.1 ?_, rfl, rfl⟩
      rw [h3, g3, smallHexDigit_inj h1 g1, smallHexDigit_inj h2 g2]

theorem byteText_head {q : Nat} (hq : q = 0x27 ∨ q = 0x22) {x : UInt8} {s : Str} (h : ByteText q x s) :
    ∃ c t, s = c :: t ∧ c ≠ q := by
  cases h with
  | plain _ _ h => exact ⟨_, _, rfl, h⟩
  | escape | hex => exact ⟨_, _, rfl, by omega⟩

theorem bytesText_unique {q : Nat} (hq : q = 0x27 ∨ q = 0x22) {b : Bytes} {s : Str} (h : BytesText q b s) :
    ∀ {b' : Bytes} {s' : Str}, BytesText q b' s' → s ++ [q] = s' ++ [q] → b = b' := by
  induction h with
  | nil =>
    intro b' s' h' e
    cases h' with
    | nil => rfl
    | cons h1 h2 =>
      obtain ⟨c, t, rfl, hx⟩ := byteText_head hq h1
      simp at e
  | cons h1 h2 ih =>
    intro b' s' h' e
    cases h' with
    | nil =>
      obtain ⟨c, t, rfl, hx⟩ := byteText_head hq h1
      simp at e
    | cons h1' h2' =>
      rw [List.append_assoc, List.append_assoc] at e
      obtain ⟨rfl, rfl, e2⟩ := byteText_unique h1 h1' e
      rw [ih h2' e2]

/-- A bytes literal denotes one byte string. -/
theorem bytesLiteral_unique {b b' : Bytes} {s s' : Str} (h : BytesLiteral b s) (h' : BytesLiteral b' s') (e : s = s') :
    b = b' := by
  obtain ⟨hq, h⟩ := h
  obtain ⟨hq', h'⟩ := h'
  simp at e
  obtain ⟨rfl, e⟩ := e
  exact bytesText_unique hq h h' (by rw [e.1])

end OSK
