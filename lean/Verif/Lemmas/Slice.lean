import Verif.Py.Text
/-
Python slices with the bounds that the code uses.
-/
namespace OSK

variable {α : Type}

theorem sliceTo_nat (l : List α) (n : Nat) : sliceTo l (n : Int) = l.take n := by
  unfold sliceTo sliceBound
  rw [if_neg (by omega), Int.toNat_natCast]
  rcases Nat.le_total n l.length with h | h
  · rw [Nat.min_eq_left h]
  · rw [Nat.min_eq_right h, List.take_of_length_le (Nat.le_refl _), List.take_of_length_le h]

theorem sliceTo_neg (l : List α) {n : Nat} (h : 0 < n) : sliceTo l (-(n : Int)) = l.take (l.length - n) := by
  unfold sliceTo sliceBound
  rw [if_pos (by omega), show ((l.length : Int) + -(n : Int)).toNat = l.length - n by omega]

theorem sliceFrom_nat (l : List α) (n : Nat) : sliceFrom l (n : Int) = l.drop n := by
  unfold sliceFrom sliceBound
  rw [if_neg (by omega), Int.toNat_natCast]
  rcases Nat.le_total n l.length with h | h
  · rw [Nat.min_eq_left h]
  · rw [Nat.min_eq_right h, List.drop_of_length_le (Nat.le_refl _), List.drop_of_length_le h]

theorem sliceFrom_neg (l : List α) {n : Nat} (h : 0 < n) :
    sliceFrom l (-(n : Int)) = l.drop (l.length - n) := by
  unfold sliceFrom sliceBound
  rw [if_pos (by omega), show ((l.length : Int) + -(n : Int)).toNat = l.length - n by omega]

theorem sliceTo_neg_append (a b : List α) {n : Nat} (h : 0 < n) (hb : b.length = n) :
    sliceTo (a ++ b) (-(n : Int)) = a := by
  rw [sliceTo_neg _ h, List.length_append, hb, Nat.add_sub_cancel, List.take_left']
  rfl

theorem sliceFrom_neg_append (a b : List α) {n : Nat} (h : 0 < n) (hb : b.length = n) :
    sliceFrom (a ++ b) (-(n : Int)) = b := by
  rw [sliceFrom_neg _ h, List.length_append, hb, Nat.add_sub_cancel, List.drop_left']
  rfl

theorem slice_nat (l : List α) (i j : Nat) :
    slice l (i : Int) (j : Int) = (l.take j).drop i := by
  have e : slice l (i : Int) (j : Int) = (sliceTo l (j : Int)).drop (sliceBound l.length (i : Int)) := rfl
  rw [e, sliceTo_nat]
  unfold sliceBound
  rw [if_neg (by omega), Int.toNat_natCast]
  rcases Nat.le_total i l.length with h | h
  · rw [Nat.min_eq_left h]
  · rw [Nat.min_eq_right h, List.drop_of_length_le (by simp; omega), List.drop_of_length_le (by simp; omega)]

theorem slice_one_neg_one (a b : α) (m : List α) : slice (a :: (m ++ [b])) 1 (-1) = m := by
  have e : sliceBound (a :: (m ++ [b])).length (-1) = m.length + 1 := by
    unfold sliceBound
    simp
    omega
  have e1 : sliceBound (a :: (m ++ [b])).length 1 = 1 := by
    unfold sliceBound
    simp
  unfold slice
  rw [e, e1]
  simp

end OSK
