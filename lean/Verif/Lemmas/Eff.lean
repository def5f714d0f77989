import Verif.Py.Basic
/-
Monad laws and log facts of `Eff`.
-/
namespace OSK.Eff
variable {α β γ : Type}

theorem bind_assoc (x : Eff α) (f : α → Eff β) (g : β → Eff γ) :
    ((x >>= f) >>= g) = (x >>= fun a => f a >>= g) := by
  rcases h : x.res with e | a
  · rw [bind_error h, bind_error h]; rfl
  · rw [bind_ok h, bind_ok h]
    rcases h2 : (f a).res with e | b
    · rw [bind_error h2, mk_bind_error]
    · rw [bind_ok h2, mk_bind_ok]
      simp

theorem bind_pure (x : Eff α) : (x >>= pure) = x := by
  rcases h : x.res with e | a
  · rw [bind_error h]; cases x; simp_all
  · rw [bind_ok h]; cases x; simp_all

theorem mem_bind_log {x : Eff α} {f : α → Eff β} {v : Event} (h : v ∈ (x >>= f).log) :
    v ∈ x.log ∨ ∃ a, x.res = .ok a ∧ v ∈ (f a).log := by
  rcases hx : x.res with e | a
  · rw [bind_error hx] at h; exact Or.inl h
  · rw [bind_ok hx] at h
    simp at h
    rcases h with h | h
    · exact Or.inl h
    · exact Or.inr ⟨a, rfl, h⟩

/-- Log of a successful sequence. -/
theorem bind_log_ok {x : Eff α} {a : α} (h : x.res = .ok a) (f : α → Eff β) :
    (x >>= f).log = x.log ++ (f a).log := by rw [bind_ok h]

theorem bind_res_of_ok {x : Eff α} {a : α} (h : x.res = .ok a) (f : α → Eff β) :
    (x >>= f).res = (f a).res := by rw [bind_ok h]

end OSK.Eff
