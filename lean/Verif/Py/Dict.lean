import Verif.Py.Basic
/-
Python `dict` as an insertion-ordered association list.
-/
namespace OSK

section
variable {α β : Type} [DecidableEq α]

/-- `d.get(k)` -/
def dget : List (α × β) → α → Option β
  | [], _ => none
  | (k, v) :: t, x => if k = x then some v else dget t x

/-- `d[k] = v` (an existing key keeps its position). -/
def dset : List (α × β) → α → β → List (α × β)
  | [], x, v => [(x, v)]
  | (k, w) :: t, x, v => if k = x then (k, v) :: t else (k, w) :: dset t x v

/-- `k in d` -/
def dhas (d : List (α × β)) (k : α) : Bool := (dget d k).isSome

/-- `{**a, **b}` / `a.update(b)` -/
def dupdate (a b : List (α × β)) : List (α × β) := b.foldl (fun d kv => dset d kv.1 kv.2) a

/-- `d.keys()` -/
def dkeys (d : List (α × β)) : List α := d.map Prod.fst

/-- `a == b` for dicts: same number of entries and every entry of `a` is in `b`. -/
def deq [DecidableEq β] (a b : List (α × β)) : Bool :=
  a.length == b.length && a.all (fun kv => dget b kv.1 == some kv.2)

end
end OSK
