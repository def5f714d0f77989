import Verif.Model.UserDict
/-
What the dictionary operations do, in terms of the list of entries.
-/
namespace OSK.Spec

/-- `d'` is `d` with the value `v` for `k`: in the place of the old one, or at the end. -/
def Put (d : VDict) (k : Str) (v : Val) (d' : VDict) : Prop :=
  (∃ a u b, d = a ++ (k, u) :: b ∧ d' = a ++ (k, v) :: b) ∨ (k ∉ d.map Prod.fst ∧ d' = d ++ [(k, v)])

/-- `d'` is `d` without the entry for `k`, which was `v`. -/
def Take (d : VDict) (k : Str) (v : Val) (d' : VDict) : Prop := ∃ a b, d = a ++ (k, v) :: b ∧ d' = a ++ b

/-- `d'` is `d` with all these values, one after the other. -/
inductive Puts : VDict → VDict → VDict → Prop
  | nil {d : VDict} : Puts d [] d
  | cons {d e f t : VDict} {k : Str} {v : Val} : Put d k v e → Puts e t f → Puts d ((k, v) :: t) f

/-- What the operation does to a dictionary, and what it returns. -/
inductive Does : VDict → DictOp → DictOut → VDict → Prop
  | setItem {d d' : VDict} {k : Str} {v : Val} : Put d k v d' → Does d (.setItem k v) .nothing d'
  | delItem {d d' : VDict} {k : Str} {v : Val} : Take d k v d' → Does d (.delItem k) .nothing d'
  | pop {d d' : VDict} {k : Str} {v : Val} {w : Option Val} : Take d k v d' → Does d (.pop k w) (.value v) d'
  | popDefault {d : VDict} {k : Str} {w : Val} : k ∉ d.map Prod.fst → Does d (.pop k (some w)) (.value w) d
  | popItem {d : VDict} {k : Str} {v : Val} : Does ((k, v) :: d) .popItem (.item k v) d
  | clear {d : VDict} : Does d .clear .nothing []
  | update {d d' other : VDict} : Puts d other d' → Does d (.update other) .nothing d'
  | present {d : VDict} {k : Str} {u v : Val} : (k, u) ∈ d → Does d (.setDefault k v) (.value u) d
  | absent {d : VDict} {k : Str} {v : Val} : k ∉ d.map Prod.fst → Does d (.setDefault k v) (.value v) (d ++ [(k, v)])

/-- When it fails: the key is not there. -/
inductive Fails (d : VDict) : DictOp → Exn → Prop
  | delItem {k : Str} : k ∉ d.map Prod.fst → Fails d (.delItem k) (.keyError (some k))
  | pop {k : Str} : k ∉ d.map Prod.fst → Fails d (.pop k none) (.keyError (some k))
  | popItem : d = [] → Fails d .popItem (.keyError none)

end OSK.Spec
