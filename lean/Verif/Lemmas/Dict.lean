import Verif.Py.Dict
import Mathlib.Data.List.Nodup
import Mathlib.Data.List.Perm.Subperm
/-
Facts about dicts.
-/
namespace OSK
variable {α β : Type} [DecidableEq α]

@[simp] theorem dget_nil (k : α) : dget ([] : List (α × β)) k = none := rfl
theorem dget_cons (k x : α) (v : β) (t : List (α × β)) :
    dget ((k, v) :: t) x = if k = x then some v else dget t x := rfl
@[simp] theorem dget_cons_self (k : α) (v : β) (t : List (α × β)) : dget ((k, v) :: t) k = some v := by
  simp [dget]
theorem dget_cons_ne {k x : α} (h : k ≠ x) (v : β) (t : List (α × β)) :
    dget ((k, v) :: t) x = dget t x := by simp [dget, h]

omit [DecidableEq α] in
theorem dkeys_cons (k : α) (v : β) (t : List (α × β)) : dkeys ((k, v) :: t) = k :: dkeys t := rfl

theorem dget_eq_none_iff {d : List (α × β)} {k : α} : dget d k = none ↔ k ∉ dkeys d := by
  induction d with
  | nil => simp [dkeys]
  | cons kv t ih =>
    obtain ⟨k', v⟩ := kv
    rw [dget_cons]
    by_cases h : k' = k
    · simp [h, dkeys]
    · rw [if_neg h, ih]; simp [dkeys, Ne.symm h]

theorem dget_isSome_iff {d : List (α × β)} {k : α} : (dget d k).isSome ↔ k ∈ dkeys d := by
  rw [← not_iff_not, ← dget_eq_none_iff]; cases dget d k <;> simp

theorem dget_mem {d : List (α × β)} {k : α} {v : β} (h : dget d k = some v) : (k, v) ∈ d := by
  induction d with
  | nil => simp at h
  | cons kv t ih =>
    obtain ⟨k', v'⟩ := kv
    rw [dget_cons] at h
    by_cases hk : k' = k
    · rw [if_pos hk] at h; simp at h; subst h; subst hk; simp
    · rw [if_neg hk] at h; simp [ih h]

theorem dget_of_mem {d : List (α × β)} (hn : (dkeys d).Nodup) {k : α} {v : β} (h : (k, v) ∈ d) :
    dget d k = some v := by
  induction d with
  | nil => simp at h
  | cons kv t ih =>
    obtain ⟨k', v'⟩ := kv
    simp [dkeys] at hn h
    rcases h with ⟨rfl, rfl⟩ | h
    · simp
    · rw [dget_cons_ne, ih hn.2 h]
      rintro rfl
      exact hn.1 _ h

theorem dget_dset (d : List (α × β)) (k x : α) (v : β) :
    dget (dset d k v) x = if k = x then some v else dget d x := by
  induction d with
  | nil => rw [dset, dget_cons]
  | cons kv t ih =>
    obtain ⟨k', v'⟩ := kv
    rw [dset]
    by_cases hk : k' = k
    · subst hk
      rw [if_pos rfl, dget_cons, dget_cons]
      by_cases hx : k' = x <;> simp [hx]
    · rw [if_neg hk, dget_cons, dget_cons, ih]
      by_cases hx : k' = x
      · subst hx; rw [if_pos rfl, if_pos rfl, if_neg (Ne.symm hk)]
      · simp [hx]

@[simp] theorem dget_dset_self (d : List (α × β)) (k : α) (v : β) : dget (dset d k v) k = some v := by
  simp [dget_dset]
theorem dget_dset_ne {k x : α} (h : k ≠ x) (d : List (α × β)) (v : β) :
    dget (dset d k v) x = dget d x := by simp [dget_dset, h]

theorem dkeys_dset (d : List (α × β)) (k : α) (v : β) :
    dkeys (dset d k v) = if k ∈ dkeys d then dkeys d else dkeys d ++ [k] := by
  induction d with
  | nil => simp [dset, dkeys]
  | cons kv t ih =>
    obtain ⟨k', v'⟩ := kv
    rw [dset]
    by_cases hk : k' = k
    · subst hk; simp [dkeys]
    · rw [if_neg hk]
      simp only [dkeys, List.map_cons] at ih ⊢
      rw [ih]
      by_cases hm : k ∈ List.map Prod.fst t
      · simp [hm]
      · simp [hm, Ne.symm hk]

theorem nodup_dset {d : List (α × β)} (h : (dkeys d).Nodup) (k : α) (v : β) :
    (dkeys (dset d k v)).Nodup := by
  rw [dkeys_dset]
  split
  · exact h
  · rename_i hk
    rw [List.nodup_append]
    refine ⟨h, by simp, ?_⟩
    intro a ha b hb
    simp at hb; subst hb
    rintro rfl; exact hk ha

theorem mem_dkeys_dset {d : List (α × β)} {k x : α} {v : β} :
    x ∈ dkeys (dset d k v) ↔ x = k ∨ x ∈ dkeys d := by
  rw [dkeys_dset]
  split
  · rename_i h
    constructor
    · exact Or.inr
    · rintro (rfl | h') <;> assumption
  · simp [or_comm]

theorem dhas_iff {d : List (α × β)} {k : α} : dhas d k = true ↔ k ∈ dkeys d := dget_isSome_iff

/-- Dict equality means: same lookups (for dicts proper). -/
theorem deq_iff [DecidableEq β] {a b : List (α × β)} (ha : (dkeys a).Nodup) (hb : (dkeys b).Nodup) :
    deq a b = true ↔ ∀ k, dget a k = dget b k := by
  unfold deq
  simp only [Bool.and_eq_true, beq_iff_eq, List.all_eq_true, Prod.forall]
  constructor
  · rintro ⟨hl, h⟩ k
    have hsub : dkeys a ⊆ dkeys b := by
      intro x hx
      obtain ⟨⟨x', v⟩, hm, rfl⟩ := List.mem_map.1 hx
      rw [← dget_isSome_iff, h _ _ hm]; rfl
    have hperm : ∀ x, x ∈ dkeys b → x ∈ dkeys a := by
      have := List.Subperm.perm_of_length_le ((List.subperm_of_subset ha hsub)) (by simp [dkeys, hl])
      intro x hx; exact this.mem_iff.2 hx
    rcases hk : dget a k with _ | v
    · have : k ∉ dkeys b := fun hx => (dget_eq_none_iff.1 hk) (hperm k hx)
      rw [dget_eq_none_iff.2 this]
    · exact (h k v (dget_mem hk)).symm
  · intro h
    have hk : ∀ x, x ∈ dkeys a ↔ x ∈ dkeys b := by
      intro x; rw [← dget_isSome_iff, ← dget_isSome_iff, h]
    refine ⟨?_, ?_⟩
    · have := ((List.perm_ext_iff_of_nodup ha hb).2 hk).length_eq
      simpa [dkeys] using this
    · intro k v hm
      rw [← h, dget_of_mem ha hm]

end OSK
