import Verif.Model.Key
/-
Model of the dictionary operations that parameter objects (`PascalStyleDict`, pascal_style_byte_stream.py:462-465) inherit from
`collections.UserDict` (utils.py:58-65; CPython 3.11.10, Lib/collections/__init__.py:1108-1191) and from `MutableMapping`
(Lib/_collections_abc.py:907-965).
-/
namespace OSK

/-- `del d[k]`, of a key that is there. -/
def ddel (d : VDict) (k : Str) : VDict := d.filter (fun e => e.1 ≠ k)

/-- What an operation returns. -/
inductive DictOut where
  | nothing
  | value (v : Val)
  | item (k : Str) (v : Val)
  deriving DecidableEq, Repr

/-- The operations that change the object.  Simplification: the keys are strings. -/
inductive DictOp where
  /-- `p[k] = v` -/
  | setItem (k : Str) (v : Val)
  /-- `del p[k]` -/
  | delItem (k : Str)
  /-- `p.pop(k)`, or `p.pop(k, default)` -/
  | pop (k : Str) (default : Option Val)
  | popItem
  | clear
  /-- `p.update(other)`, `p |= other` -/
  | update (other : VDict)
  | setDefault (k : Str) (v : Val)
  deriving DecidableEq, Repr

/-- `popitem` (_collections_abc.py:921-931): the first item. -/
def dpopItem : VDict → Option ((Str × Val) × VDict)
  | [] => none
  | (k, v) :: t => some ((k, v), ddel ((k, v) :: t) k)

theorem ddel_length (d : VDict) (k : Str) : (ddel d k).length ≤ d.length := List.length_filter_le _ _

/-- `clear` (_collections_abc.py:933-939): `popitem` until there is nothing left. -/
def dclear (d : VDict) : VDict :=
  match _h : dpopItem d with
  | none => d
  | some r => dclear r.2
termination_by d.length
decreasing_by
  cases d with
  | nil => cases _h
  | cons e t =>
    simp only [dpopItem, Option.some.injEq] at _h
    subst _h
    have := ddel_length t e.1
    simp only [ddel, List.filter_cons, ne_eq, not_true_eq_false, decide_false, Bool.false_eq_true, if_false, List.length_cons] at this ⊢
    omega

/-- The result, and the entries afterwards. -/
def DictOp.run (d : VDict) : DictOp → Except Exn DictOut × VDict
  | .setItem k v => (.ok .nothing, dset d k v)
  | .delItem k => if dhas d k then (.ok .nothing, ddel d k) else (.error (.keyError (some k)), d)
  | .pop k default =>
    match dget d k with
    | some v => (.ok (.value v), ddel d k)
    | none =>
      match default with
      | some v => (.ok (.value v), d)
      | none => (.error (.keyError (some k)), d)
  | .popItem =>
    match dpopItem d with
    | some ((k, v), d') => (.ok (.item k v), d')
    | none => (.error (.keyError none), d)
  | .clear => (.ok .nothing, dclear d)
  | .update other => (.ok .nothing, dupdate d other)
  | .setDefault k v =>
    match dget d k with
    | some u => (.ok (.value u), d)
    | none => (.ok (.value v), dset d k v)

/-- The same on a parameters object: its class stays, and nothing is checked. -/
def DictOp.onParams (p : Params) (op : DictOp) : Except Exn DictOut × Params :=
  ((op.run p.data).1, ⟨p.cls, (op.run p.data).2⟩)

/-- The operations that make a new object. -/
inductive DictNew where
  /-- `p | other` -/
  | or (other : VDict)
  /-- `other | p` -/
  | ror (other : VDict)
  /-- `p.copy()` -/
  | copy
  /-- `copy.copy(p)` -/
  | shallow
  /-- `type(p).fromkeys(keys, v)` -/
  | fromKeys (keys : List Str) (v : Val)

/-- `__or__` and `__ror__` call the constructor (pascal_style_byte_stream.py:463-465), `copy` and `__copy__` do not; `fromkeys` calls
it without its argument. -/
def DictNew.run (ext : Ext) (p : Params) : DictNew → Eff Params
  | .or other => newParams ext p.cls (dupdate p.data other)
  | .ror other => newParams ext p.cls (dupdate other p.data)
  | .copy => pure ⟨p.cls, dupdate [] p.data⟩
  | .shallow => pure ⟨p.cls, p.data⟩
  | .fromKeys _ _ => Eff.throw .typeError

end OSK
