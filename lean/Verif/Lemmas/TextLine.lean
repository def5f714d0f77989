import Verif.Lemmas.Base64
import Verif.Lemmas.KeyExn
import Verif.Py.Text
/-
Splitting lines.
-/
namespace OSK
open Spec

theorem split_word {a rest : Str} (n : Nat) (h : ∀ c ∈ a, c ≠ 32) :
    splitSpaceMax (n + 1) (a ++ 32 :: rest) = a :: splitSpaceMax n rest := by
  have e1 : (a ++ 32 :: rest).dropWhile (fun c => decide (c ≠ 32)) = 32 :: rest := by
    rw [List.dropWhile_append_of_pos (by simpa using h)]
    simp
  have e2 : (a ++ 32 :: rest).takeWhile (fun c => decide (c ≠ 32)) = a := by
    rw [List.takeWhile_append_of_pos (by simpa using h)]
    simp
  rw [splitSpaceMax, e1]
  simp only
  rw [e2]

theorem split_last {a : Str} (n : Nat) (h : ∀ c ∈ a, c ≠ 32) : splitSpaceMax n a = [a] := by
  cases n with
  | zero => rfl
  | succ n =>
    have e1 : a.dropWhile (fun c => decide (c ≠ 32)) = [] := by
      have := List.dropWhile_append_of_pos (p := fun c => decide (c ≠ 32)) (l₁ := a) (l₂ := []) (by simpa using h)
      simpa using this
    rw [splitSpaceMax, e1]

theorem split_three {a b : Str} (ha : ∀ c ∈ a, c ≠ 32) (hb : ∀ c ∈ b, c ≠ 32) (rest : Str) :
    splitSpaceMax 2 (a ++ 32 :: (b ++ 32 :: rest)) = [a, b, rest] := by
  rw [split_word 1 ha, split_word 0 hb]; rfl

theorem split_two {a b : Str} (ha : ∀ c ∈ a, c ≠ 32) (hb : ∀ c ∈ b, c ≠ 32) :
    splitSpaceMax 2 (a ++ 32 :: b) = [a, b] := by
  rw [split_word 1 ha, split_last 1 hb]

/-- `from_string` after the split. -/
def fromStringTail (ext : Ext) (kind : Kind) (typeClear b64 comment : Str) : Eff Key := do
  let b ← Eff.lift (b64decodeStr b64)
  let k ← fromBytes ext kind b
    (some [(py! "key_type", .str typeClear), (py! "comment", .str comment)])
  let t ← Eff.lift (getItem k.header (py! "key_type"))
  if t ≠ .str typeClear then Eff.warn .clearTypeMismatch
  pure k

theorem fromString_three (ext : Ext) (kind : Kind) {s a b c : Str} (h : splitSpaceMax 2 s = [a, b, c]) :
    fromString ext kind s = fromStringTail ext kind a b c := by
  unfold fromString fromStringTail
  simp only [h, listGet]
  rfl

theorem fromString_two (ext : Ext) (kind : Kind) {s a b : Str} (h : splitSpaceMax 2 s = [a, b]) :
    fromString ext kind s = fromStringTail ext kind a b [] := by
  unfold fromString fromStringTail
  simp only [h, listGet]
  rfl

theorem fromString_one (ext : Ext) (kind : Kind) {s a : Str} (h : splitSpaceMax 2 s = [a]) :
    fromString ext kind s = Eff.throw .indexError := by
  unfold fromString
  simp only [h, listGet]
  rfl

/-- How a string splits. -/
theorem split_cases (s : Str) :
    ((∀ c ∈ s, c ≠ 32) ∧ splitSpaceMax 2 s = [s]) ∨
    (∃ a b, s = a ++ 32 :: b ∧ (∀ c ∈ a, c ≠ 32) ∧ (∀ c ∈ b, c ≠ 32) ∧ splitSpaceMax 2 s = [a, b]) ∨
    (∃ a b c, s = a ++ 32 :: (b ++ 32 :: c) ∧ (∀ c ∈ a, c ≠ 32) ∧ (∀ c ∈ b, c ≠ 32) ∧
      splitSpaceMax 2 s = [a, b, c]) := by
  have key : ∀ s : Str, (∀ c ∈ s, c ≠ 32) ∨ ∃ a b, s = a ++ 32 :: b ∧ ∀ c ∈ a, c ≠ 32 := by
    intro s
    induction s with
    | nil => left; simp
    | cons x t ih =>
      by_cases hx : x = 32
      · right; exact ⟨[], t, by simp [hx], by simp⟩
      · rcases ih with h | ⟨a, b, rfl, h⟩
        · left
          intro c hc
          rcases List.mem_cons.1 hc with rfl | hc
          · exact hx
          · exact h c hc
        · right
          refine ⟨x :: a, b, by simp, ?_⟩
          intro c hc
          rcases List.mem_cons.1 hc with rfl | hc
          · exact hx
          · exact h c hc
  rcases key s with h | ⟨a, r, rfl, ha⟩
  · exact Or.inl ⟨h, split_last 2 h⟩
  · rcases key r with h | ⟨b, c, rfl, hb⟩
    · exact Or.inr (Or.inl ⟨a, r, rfl, ha, h, split_two ha h⟩)
    · exact Or.inr (Or.inr ⟨a, b, c, rfl, ha, hb, split_three ha hb c⟩)

theorem fromString_cases (ext : Ext) (kind : Kind) (s : Str) :
    fromString ext kind s = Eff.throw .indexError ∨
    ∃ a b c, (∃ r, s = a ++ 32 :: r) ∧ (∀ x ∈ a, x ≠ 32) ∧
      fromString ext kind s = fromStringTail ext kind a b c := by
  rcases split_cases s with ⟨-, h⟩ | ⟨a, b, hs, ha, -, h⟩ | ⟨a, b, c, hs, ha, -, h⟩
  · exact Or.inl (fromString_one ext kind h)
  · exact Or.inr ⟨a, b, [], ⟨_, hs⟩, ha, fromString_two ext kind h⟩
  · exact Or.inr ⟨a, b, c, ⟨_, hs⟩, ha, fromString_three ext kind h⟩

/-- No key type has a space in it. -/
theorem keyType_no_space {kind : Kind} {t : Str} {c : Cls} (h : paramsClass kind (.str t) = .ok c) :
    ∀ x ∈ t, x ≠ 32 := by
  have key : ∀ e ∈ keyTypeMapping, ∀ x ∈ e.1, x ≠ 32 := by decide +kernel
  cases kind
  · simp only [paramsClass, getPublicClass] at h
    split at h
    · simp at h
    · rename_i r hr
      obtain ⟨s, hs, hm⟩ := lookupType_mem hr
      simp at hs; subst hs
      exact key _ hm
  · simp only [paramsClass, getPrivateClass] at h
    split at h
    · simp at h
    · rename_i r hr
      obtain ⟨s, hs, hm⟩ := lookupType_mem hr
      simp at hs; subst hs
      exact key _ hm

end OSK
