import Verif.Model.UserList
/-
What list operations do to the sequence of pairs, in terms of parts of lists only.
-/
namespace OSK
namespace Spec

/-- `i` counts `front` items from the start, or `back + 1` from the end. -/
def Counts (i : Int) (front back : Nat) : Prop := i = front ∨ i = -(back + 1)

/-- `new` is what the operation makes of `old`; `same` is equality of pairs. -/
def Changes (same : Pair → Pair → Prop) (old new : List Pair) : InOp → Prop
  | .append p => new = old ++ [p]
  | .insert i p => ∃ a b, old = a ++ b ∧ new = a ++ p :: b ∧
      -- `i` counts the items before the new one, or, if negative, those after it, and is cut off at the ends
      (0 ≤ i → (a.length : Int) = i ∨ (b = [] ∧ a.length < i)) ∧ (i < 0 → (b.length : Int) = -i ∨ (a = [] ∧ b.length < -i))
  | .pop i | .delItem i => ∃ a x b, old = a ++ x :: b ∧ new = a ++ b ∧ Counts i a.length b.length
  | .setItem i p => ∃ a x b, old = a ++ x :: b ∧ new = a ++ p :: b ∧ Counts i a.length b.length
  | .extend other => new = old ++ other
  | .imul n => (n ≤ 0 ∧ new = []) ∨ ∃ k : Nat, n = k ∧ new.length = k * old.length ∧ ∀ i, ∀ x, new[i]? = some x → old[i % old.length]? = some x
  | .remove p => ∃ a x b, old = a ++ x :: b ∧ new = a ++ b ∧ same x p ∧ ∀ y ∈ a, ¬ same y p
  | .reverse => new.length = old.length ∧ ∀ i j, i + j + 1 = old.length → new[i]? = old[j]?
  | .clear => new = []

/-- `i` as a bound of a slice of `n` items: before the `k`-th.  A negative one counts from the end; cut off at the ends. -/
def Bound (n : Nat) (i : Int) (k : Nat) : Prop :=
  k ≤ n ∧ (0 ≤ i → (k : Int) = i ∨ (k = n ∧ n < i)) ∧ (i < 0 → (k : Int) - n = i ∨ (k = 0 ∧ i < -n))

/-- The pairs of the list that an operation makes. -/
def Makes (old new : List Pair) : NewOp → Prop
  | .slice i j => ∃ lo hi, (∀ i', i = some i' → Bound old.length i' lo) ∧ (i = none → lo = 0) ∧
      (∀ j', j = some j' → Bound old.length j' hi) ∧ (j = none → hi = old.length) ∧ new.length = hi - lo ∧
      ∀ m < hi - lo, new[m]? = old[lo + m]?
  | .add other => new = old ++ other
  | .radd other => new = other ++ old
  | .mul n => (n ≤ 0 ∧ new = []) ∨ ∃ k : Nat, n = k ∧ new.length = k * old.length ∧ ∀ i, ∀ x, new[i]? = some x → old[i % old.length]? = some x
  | .copy => new = old

/-- Everything about a key list except for its pairs. -/
structure SameSetting (l l' : KeyList) : Prop where
  byteString : l'.byteString = l.byteString
  header : l'.header = l.header
  cipherBytes : l'.cipherBytes = l.cipherBytes
  kdfOptions : l'.kdfOptions = l.kdfOptions
  decipherBytes : l'.decipherBytes = l.decipherBytes
  decipherHeader : l'.decipherHeader = l.decipherHeader
  decipherPadding : l'.decipherPadding = l.decipherPadding

/-- The exception of an operation that fails: `ValueError` of `remove`, `IndexError` of all others. -/
def Refusal : InOp → Exn → Prop
  | .remove _, e => e.isValueError = true
  | _, e => e = .indexError

end Spec
end OSK
