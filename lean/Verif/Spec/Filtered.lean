import Verif.Model.Filtered
/-
What a warning filter may change about an operation, stated on the operation's events and result under
the default filter.
-/
namespace OSK.Spec

/-- `run` is what `usual` becomes when the warnings selected by `raises` are raised, the exception that
reaches the caller being `exn`: nothing changes if none of them is emitted, and otherwise the
operation ends at the first one of them, after the same events as before. -/
structure Raises {α : Type} (raises : Warning → Bool) (exn : Warning → Exn) (usual run : Eff α) : Prop where
  /-- no selected warning is emitted -/
  none : (∀ w, .warn w ∈ usual.log → raises w = false) → run = usual
  /-- `w` is the first selected warning that is emitted -/
  first : ∀ before w after, usual.log = before ++ .warn w :: after → raises w = true →
    (∀ v, .warn v ∈ before → raises v = false) → run = ⟨before, .error (exn w)⟩

end OSK.Spec
