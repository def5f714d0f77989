import Verif.Model.KeyList
/-
Model of the list operations that `PrivateKeyList` inherits from `collections.UserList`
(private_key_list.py:96-101), of the equality of pairs and lists, and of the check of items in `from_list`.
-/
namespace OSK

/-! ### Equality -/

/-- `PublicPrivateKeyPair.__eq__` (private_key_list.py:41-46) -/
def Pair.eq (a b : Pair) : Bool := a.pub.eq b.pub && a.priv.eq b.priv

/-- `==` of two `list`s of pairs -/
def pairsEq : List Pair → List Pair → Bool
  | [], [] => true
  | a :: s, b :: t => a.eq b && pairsEq s t
  | _, _ => false

/-- `==` of two key lists: `UserList.__eq__` compares `data` only. -/
def KeyList.eq (a b : KeyList) : Bool := pairsEq a.pairs b.pairs

/-! ### Operations that make a new list -/

/-- `PrivateKeyList(initlist)` (private_key_list.py:185-202): all other arguments have the default `None`. -/
def newKeyList (pairs : List Pair) : KeyList := ⟨pairs, none, none, none, none, none, none, none⟩

/-- The operations of `UserList` that return `self.__class__(…)`. -/
inductive NewOp where
  /-- `l[i:j]`, with `none` for a bound that is left out (simplification: the step is 1) -/
  | slice (i j : Option Int)
  /-- `l + other` -/
  | add (other : List Pair)
  /-- `other + l` -/
  | radd (other : List Pair)
  /-- `l * n`, `n * l` -/
  | mul (n : Int)
  /-- `l.copy()` -/
  | copy

/-- `data[i:j]` -/
def sliceOpt {α : Type} (l : List α) (i j : Option Int) : List α := slice l (i.getD 0) (j.getD l.length)

/-- `data * n` -/
def listMul {α : Type} (l : List α) (n : Int) : List α := (List.replicate n.toNat l).flatten

/-- `UserList.__getitem__` for a slice, `__add__`, `__radd__`, `__mul__`, `copy` -/
def NewOp.run (l : KeyList) : NewOp → KeyList
  | .slice i j => newKeyList (sliceOpt l.pairs i j)
  | .add other => newKeyList (l.pairs ++ other)
  | .radd other => newKeyList (other ++ l.pairs)
  | .mul n => newKeyList (listMul l.pairs n)
  | .copy => newKeyList l.pairs

/-! ### Operations that change the list -/

/-- The operations of `UserList` that change `self.data`.  Simplification: the items that are put into the list
are pairs, which none of these methods checks.  `sort` is left out: keys cannot be compared with `<`. -/
inductive InOp where
  | append (p : Pair)
  | insert (i : Int) (p : Pair)
  | pop (i : Int)
  /-- `l[i] = p` -/
  | setItem (i : Int) (p : Pair)
  /-- `del l[i]` -/
  | delItem (i : Int)
  /-- `l.extend(other)`, `l += other` -/
  | extend (other : List Pair)
  /-- `l *= n` -/
  | imul (n : Int)
  | remove (p : Pair)
  | reverse
  | clear

/-- The position of the item with index `i`. -/
def pyPosition (n : Nat) (i : Int) : Except Exn Nat :=
  if 0 ≤ i ∧ i < n then .ok i.toNat
  else if i < 0 ∧ 0 ≤ n + i then .ok (n + i).toNat
  else .error .indexError

/-- `list.remove`: the first item that is equal. -/
def listRemove (p : Pair) : List Pair → Except Exn (List Pair)
  | [] => .error (.valueError "list.remove(x): x not in list")
  | q :: t =>
    if q.eq p then .ok t
    else
      match listRemove p t with
      | .ok t' => .ok (q :: t')
      | .error e => .error e

/-- The `data` afterwards. -/
def InOp.data (d : List Pair) : InOp → Except Exn (List Pair)
  | .append p => .ok (d ++ [p])
  | .insert i p => .ok (d.take (sliceBound d.length i) ++ p :: d.drop (sliceBound d.length i))
  | .pop i | .delItem i => do
    let k ← pyPosition d.length i
    pure (d.eraseIdx k)
  | .setItem i p => do
    let k ← pyPosition d.length i
    pure (d.set k p)
  | .extend other => .ok (d ++ other)
  | .imul n => .ok (listMul d n)
  | .remove p => listRemove p d
  | .reverse => .ok d.reverse
  | .clear => .ok []

/-- The list afterwards; nothing but `data` is touched. -/
def InOp.run (l : KeyList) (op : InOp) : Except Exn KeyList :=
  match op.data l.pairs with
  | .ok d => .ok { l with pairs := d }
  | .error e => .error e

/-- `copy.copy(l)`: `UserList.__copy__` copies all attributes. -/
def shallowCopy (l : KeyList) : KeyList := { l with pairs := l.pairs }

/-! ### `from_list` on any items -/

/-- A component of a pair: a key (which of the two classes is `kind`), or something else. -/
inductive ItemPart where
  | key (k : Key)
  | other

/-- An item of the argument of `from_list`: a `PublicPrivateKeyPair` with any components, or something else. -/
inductive Item where
  | pair (public_ private_ : ItemPart)
  | other

/-- The loop over the items (private_key_list.py:452-458). -/
def checkItems : List Item → Except Exn (List Pair)
  | [] => .ok []
  | .pair (.key a) (.key b) :: t =>
    if a.kind = .pub ∧ b.kind = .priv then
      match checkItems t with
      | .ok ps => .ok (⟨a, b⟩ :: ps)
      | .error e => .error e
    else .error (.valueError "Not a key pair")
  | _ :: _ => .error (.valueError "Not a key pair")

/-- `PrivateKeyList.from_list` (private_key_list.py:418-468) -/
def listFromItems (items : List Item) (cipher kdf : Str) (kdfOptions : Option KdfOptions) : Except Exn KeyList :=
  match checkItems items with
  | .ok pairs => .ok (listFromList pairs cipher kdf kdfOptions)
  | .error e => .error e

end OSK
