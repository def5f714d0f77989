import Verif.Model.KeyList
import Verif.Spec.PemText
import Verif.Lemmas.Base64
import Verif.Lemmas.Slice
/-
`splitlines`, `join` and the wrapping of the base64 text.
-/
namespace OSK
open Spec

theorem isLineBreak_iff (c : Nat) : isLineBreak c = true ↔ c ∈ lineBoundaries := by
  simp only [isLineBreak, lineBoundaries, List.contains_iff_mem, List.mem_cons, List.not_mem_nil, or_false]
  omega

theorem not_lineBreak {c : Nat} (h : c ∉ lineBoundaries) : isLineBreak c = false := by
  rw [← Bool.not_eq_true, isLineBreak_iff]; exact h

theorem splitLines_line {l : Str} (h : ∀ c ∈ l, c ∉ lineBoundaries) (t : Str) : ∀ cur : Str,
    splitLinesLoop cur false (l ++ t) = splitLinesLoop (cur ++ l) false t := by
  induction l with
  | nil => simp
  | cons a l ih =>
    intro cur
    rw [List.cons_append]
    rw [splitLinesLoop, if_neg (by simp), if_neg (by rw [not_lineBreak (h a (by simp))]; simp),
      ih (fun c hc => h c (by simp [hc]))]
    simp

/-- A carriage return before a line does not matter: the line does not start with a line feed. -/
theorem splitLines_afterCR {ls : List Str} {s : Str} (h : TextOf ls s) (b : Bool) :
    splitLinesLoop [] b s = splitLinesLoop [] false s := by
  cases b with
  | false => rfl
  | true =>
    have key : ∀ l : Str, Line l → ∀ t, splitLinesLoop [] true (l ++ t) = splitLinesLoop [] false (l ++ t) := by
      rintro l ⟨h1, h2⟩ t
      cases l with
      | nil => exact absurd rfl h1
      | cons a l =>
        have ha : a ≠ 10 := by
          rintro rfl; exact h2 10 (by simp) (by decide)
        simp only [List.cons_append, splitLinesLoop, Bool.true_and, Bool.false_and, ha, decide_false]
    cases h with
    | nil => rfl
    | last h1 => simpa using key _ h1 []
    | cons h1 he h2 => rw [List.append_assoc]; exact key _ h1 _

theorem splitLines_text {ls : List Str} {s : Str} (h : TextOf ls s) : splitLines s = ls := by
  unfold splitLines
  induction h with
  | nil => rfl
  | last h =>
    rename_i l
    have := splitLines_line h.2 [] []
    rw [List.append_nil, List.nil_append] at this
    rw [this, splitLinesLoop, if_neg h.1]
  | cons h he hs ih =>
    rename_i l e s ls
    rw [List.append_assoc, splitLines_line h.2, List.nil_append]
    simp only [lineEndings, List.mem_cons, List.not_mem_nil, or_false] at he
    rcases he with rfl | rfl | rfl
    · rw [show ([10] ++ s : Str) = 10 :: s from rfl, splitLinesLoop, if_neg (by simp), if_pos (by decide)]
      rw [show (decide ((10 : Nat) = 13)) = false from rfl, ih]
    · rw [show ([13, 10] ++ s : Str) = 13 :: 10 :: s from rfl, splitLinesLoop, if_neg (by simp), if_pos (by decide)]
      rw [show (decide ((13 : Nat) = 13)) = true from rfl, splitLinesLoop, if_pos (by decide), ih]
    · rw [show ([13] ++ s : Str) = 13 :: s from rfl, splitLinesLoop, if_neg (by simp), if_pos (by decide)]
      rw [splitLines_afterCR hs, ih]

theorem splitLines_ne_nil {s : Str} (h : s ≠ []) : splitLines s ≠ [] := by
  have key : ∀ (s cur : Str), cur ≠ [] → ∀ b, splitLinesLoop cur b s ≠ [] := by
    intro s
    induction s with
    | nil => intro cur hc b; simp [splitLinesLoop, hc]
    | cons a s ih =>
      intro cur hc b
      rw [splitLinesLoop]
      split
      · exact ih _ hc _
      · split
        · simp
        · exact ih _ (by simp) _
  cases s with
  | nil => exact absurd rfl h
  | cons a s =>
    unfold splitLines
    rw [splitLinesLoop, if_neg (by simp)]
    split
    · simp
    · exact key _ _ (by simp) _

theorem strJoin_nil (ls : List Str) : strJoin [] ls = ls.flatten := by
  induction ls with
  | nil => rfl
  | cons a t ih =>
    cases t with
    | nil => simp [strJoin]
    | cons b t => rw [strJoin, ih]; simp

theorem strJoin_flatMap (sep : Str) (ls : List Str) (h : ls ≠ []) :
    strJoin sep ls ++ sep = ls.flatMap (· ++ sep) := by
  induction ls with
  | nil => exact absurd rfl h
  | cons a t ih =>
    cases t with
    | nil => simp [strJoin]
    | cons b t => rw [strJoin, List.append_assoc, List.append_assoc, ih (by simp)]; simp

theorem slice_middle {α : Type} (a b : α) (l : List α) : slice (a :: (l ++ [b])) 1 (-1) = l := by
  have : sliceBound (a :: (l ++ [b])).length (-1) = l.length + 1 := by
    simp [sliceBound]
    omega
  have h1 : sliceBound (a :: (l ++ [b])).length 1 = 1 := by
    simp [sliceBound]
  rw [slice, this, h1]
  simp

/-! ### wrapping -/

theorem wrap_prefix {α : Type} (l : List α) (n m : Nat) :
    ((List.range m).map (fun j => (l.drop (j * n)).take n)).flatten = l.take (m * n) := by
  induction m with
  | zero => simp
  | succ m ih =>
    rw [List.range_succ, List.map_append, List.flatten_append, ih, Nat.succ_mul, List.take_add]
    simp

theorem wrapText_eq (text : Str) :
    wrapText text = (List.range ((text.length + 69) / 70)).map (fun j => (text.drop (j * 70)).take 70) := by
  unfold wrapText wrapCol
  apply List.map_congr_left
  intro j hj
  rw [List.mem_range] at hj
  rw [slice_nat, List.drop_take]
  rcases Nat.le_total (j * 70 + 70) text.length with h | h
  · rw [Nat.min_eq_left h]; congr 1; omega
  · rw [Nat.min_eq_right h, List.take_of_length_le (by simp), List.take_of_length_le (by simp; omega)]

theorem wrapText_pieces (text : Str) : (wrapText text).flatten = text ∧
    (∀ l ∈ (wrapText text).dropLast, l.length = 70) ∧ ∀ l ∈ wrapText text, 1 ≤ l.length ∧ l.length ≤ 70 := by
  rw [wrapText_eq]
  refine ⟨?_, ?_, ?_⟩
  · rw [wrap_prefix, List.take_of_length_le (by omega)]
  · rcases hm : (text.length + 69) / 70 with _ | m
    · simp
    · rw [List.range_succ, List.map_append, List.map_singleton, List.dropLast_concat]
      intro l hl
      obtain ⟨j, hj, rfl⟩ := List.mem_map.1 hl
      rw [List.mem_range] at hj
      simp only [List.length_take, List.length_drop]
      omega
  · intro l hl
    obtain ⟨j, hj, rfl⟩ := List.mem_map.1 hl
    rw [List.mem_range] at hj
    simp only [List.length_take, List.length_drop]
    omega

theorem b64encodeStr_text (w : Bytes) : b64encodeStr w = base64Text w := by
  rw [b64encodeStr, b64encode_eq]; rfl

theorem wrapText_wrapped (w : Bytes) : Wrapped 70 w (wrapText (b64encodeStr w)) := by
  rw [b64encodeStr_text]
  exact wrapText_pieces _

theorem b64_line (w : Bytes) : ∀ c ∈ base64Text w, c ∉ lineBoundaries := by
  have key : ∀ c ∈ base64Alphabet, c.toNat ∉ lineBoundaries := by decide +kernel
  intro c hc
  obtain ⟨x, hx, rfl⟩ := List.mem_map.1 hc
  exact key x (base64_mem w x hx)

end OSK
