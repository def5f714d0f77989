import Verif.Model.UserDict
import Verif.Model.UserList
/-
Model of the identity of objects.  In the other files dictionaries and keys are values; in Python they are objects that can be shared and
changed.  Here the dictionaries that exist are cells of a store, and a key has references to its dictionaries.  The functions are those
of Model/Key.lean, with the copies that the code makes.
-/
namespace OSK

/-- The dictionaries that exist; a reference is a position. -/
abbrev Store := List VDict

/-- A key object: the references of `header`, of the `data` of `params`, of `footer` and `clear` (key.py:125-147). -/
structure KeyRef where
  kind : Kind
  cls : Cls
  header : Nat
  data : Nat
  footer : Nat
  clear : Nat
  deriving DecidableEq, Repr

/-- Computations that use the store; what they did to it stays when they fail. -/
def StoreM (α : Type) := Store → Eff α × Store

namespace StoreM

def pure {α : Type} (a : α) : StoreM α := fun s => (⟨[], .ok a⟩, s)

def bind {α β : Type} (x : StoreM α) (f : α → StoreM β) : StoreM β := fun s =>
  match x s with
  | (⟨log, .ok a⟩, s') => (⟨log ++ (f a s').1.log, (f a s').1.res⟩, (f a s').2)
  | (⟨log, .error e⟩, s') => (⟨log, .error e⟩, s')

instance : Monad StoreM where
  pure := StoreM.pure
  bind := StoreM.bind

/-- Something that does not touch the store. -/
def lift {α : Type} (x : Eff α) : StoreM α := fun s => (x, s)

/-- A new dictionary. -/
def alloc (d : VDict) : StoreM Nat := fun s => (⟨[], .ok s.length⟩, s ++ [d])

def read (r : Nat) : StoreM VDict := fun s => (⟨[], .ok (s.getD r [])⟩, s)

def write (r : Nat) (d : VDict) : StoreM Unit := fun s => (⟨[], .ok ()⟩, s.set r d)

/-- `dict(d)`: a new dictionary with the same entries. -/
def copy (r : Nat) : StoreM Nat := StoreM.bind (read r) alloc

end StoreM

/-- `Key.__init__` (key.py:125-147).  The parameters object copies its argument into a new `data`
(pascal_style_byte_stream.py:463-465).  Simplification: the checks are those of Model/Key.lean; the objects they make are not reachable
afterwards. -/
def newKeyRef (ext : Ext) (kind : Kind) (header params footer : Nat) (clear : Option Nat) : StoreM KeyRef := do
  let h ← StoreM.copy header
  let hd ← StoreM.read h
  StoreM.lift (checkDict hd (headerFmt kind))
  let arg ← StoreM.read header
  let t ← StoreM.lift (Eff.lift (getItem arg (py! "key_type")))
  let c ← StoreM.lift (Eff.lift (paramsClass kind t))
  let d ← StoreM.copy params
  let pd ← StoreM.read d
  let _ ← StoreM.lift (newParams ext c pd)
  let f ← StoreM.copy footer
  let fd ← StoreM.read f
  StoreM.lift (checkDict fd (footerFmt kind))
  let cl ← match clear with
    | some r => StoreM.copy r
    | none => StoreM.alloc []
  pure ⟨kind, c, h, d, f, cl⟩

/-- `from_bytes` (key.py:183-215) with `from_byte_stream` (key.py:149-181): the dictionaries read are new ones, which the constructor copies;
the remainder is put into the key's own `clear`. -/
def fromBytesRef (ext : Ext) (kind : Kind) (b : Bytes) (clear : Option Nat) : StoreM KeyRef :=
  match readKey kind (Stream.of b) with
  | (.error e, _) => StoreM.lift (Eff.throw e)
  | (.ok (header, params, footer), s) => do
    let h ← StoreM.alloc header
    let p ← StoreM.alloc params
    let f ← StoreM.alloc footer
    let k ← newKeyRef ext kind h p f clear
    if 0 < s.rest.length then
      StoreM.lift (Eff.warn .excessBytes)
      let c ← StoreM.read k.clear
      StoreM.write k.clear (dset c (py! "remainder") (.bytes s.rest))
      pure k
    else pure k

/-- `from_string` (key.py:217-254) -/
def fromStringRef (ext : Ext) (kind : Kind) (s : Str) : StoreM KeyRef := do
  let keySplit := splitSpaceMax 2 s
  let typeClear ← StoreM.lift (Eff.lift (listGet keySplit 0))
  let b64 ← StoreM.lift (Eff.lift (listGet keySplit 1))
  let comment := if keySplit.length = 3 then keySplit.getD 2 [] else []
  let b ← StoreM.lift (Eff.lift (b64decodeStr b64))
  let c ← StoreM.alloc [(py! "key_type", .str typeClear), (py! "comment", .str comment)]
  let k ← fromBytesRef ext kind b (some c)
  let hd ← StoreM.read k.header
  let t ← StoreM.lift (Eff.lift (getItem hd (py! "key_type")))
  StoreM.lift (if t ≠ .str typeClear then Eff.warn .clearTypeMismatch else pure ())
  pure k

/-- The key as a value, at some moment. -/
def KeyRef.value (s : Store) (k : KeyRef) : Key :=
  ⟨k.kind, s.getD k.header [], ⟨k.cls, s.getD k.data []⟩, s.getD k.footer [], s.getD k.clear []⟩

/-- The dictionaries of a key. -/
inductive KeyPart where
  | header
  | params
  | footer
  | clear
  deriving DecidableEq, Repr

def KeyRef.part (k : KeyRef) : KeyPart → Nat
  | .header => k.header
  | .params => k.data
  | .footer => k.footer
  | .clear => k.clear

def Key.part (k : Key) : KeyPart → VDict
  | .header => k.header
  | .params => k.params.data
  | .footer => k.footer
  | .clear => k.clear

def Key.withPart (k : Key) (d : VDict) : KeyPart → Key
  | .header => { k with header := d }
  | .params => { k with params := ⟨k.params.cls, d⟩ }
  | .footer => { k with footer := d }
  | .clear => { k with clear := d }

/-- An operation on a `dict`: `popitem` takes the last item; all else is as in `UserDict`. -/
def DictOp.runDict (d : VDict) : DictOp → Except Exn DictOut × VDict
  | .popItem =>
    match d.getLast? with
    | some (k, v) => (.ok (.item k v), d.dropLast)
    | none => (.error (.keyError none), d)
  | op => op.run d

/-- The operation on a part of a key: `params` is a `UserDict`, the others are dictionaries. -/
def DictOp.runPart (d : VDict) (op : DictOp) : KeyPart → Except Exn DictOut × VDict
  | .params => op.run d
  | _ => op.runDict d

/-! ### Programs that use the package -/

/-- A dictionary that a program can name: its own, or a part of a key. -/
inductive DictName where
  | own (i : Nat)
  | part (key : Nat) (p : KeyPart)
  deriving DecidableEq, Repr

/-- How a list is derived from others (`UserList`, see Model/UserList.lean). -/
inductive Derive where
  | slice (i j : Option Int)
  | add (other : Nat)
  | mul (n : Int)
  | copy

/-- What a program does next.  Its dictionaries, keys and lists are numbered in the order in which they are made. -/
inductive Cmd where
  /-- make a dictionary -/
  | dict (d : VDict)
  /-- `PublicKey(header, params, footer, clear)`, `PrivateKey(…)` -/
  | key (kind : Kind) (header params footer : DictName) (clear : Option DictName)
  /-- `from_bytes(b, clear)` -/
  | parse (kind : Kind) (b : Bytes) (clear : Option DictName)
  /-- `from_string(s)` -/
  | line (kind : Kind) (s : Str)
  /-- change a dictionary -/
  | change (x : DictName) (op : DictOp)
  /-- `k.pack_public_bytes()` -/
  | packPublic (key : Nat)
  /-- `k.pack_private_bytes()` -/
  | packPrivate (key : Nat)
  /-- `k == k'` -/
  | equal (key key' : Nat)
  /-- `PrivateKeyList.from_list(pairs)`: a list of the keys themselves (private_key_list.py:452-468) -/
  | list (pairs : List (Nat × Nat))
  /-- a list derived from another one -/
  | derive (list : Nat) (how : Derive)

/-- What the program gets to see. -/
inductive Seen where
  | made (log : List Event) (err : Option Exn)
  | changed (r : Except Exn DictOut)
  | packed (r : Except Exn Bytes)
  | answer (b : Bool)
  /-- there is no such object -/
  | nothing

/-- The objects of a program. -/
structure Objects where
  store : Store := []
  dicts : List Nat := []
  keys : List KeyRef := []
  lists : List (List (Nat × Nat)) := []

/-- The reference of a dictionary. -/
def Objects.find (o : Objects) : DictName → Option Nat
  | .own i => o.dicts[i]?
  | .part k p => o.keys[k]?.map (·.part p)

/-- A key is made, or not. -/
def Objects.make (o : Objects) (m : StoreM KeyRef) : Seen × Objects :=
  match m o.store with
  | (⟨log, .ok k⟩, s) => (.made log none, { o with store := s, keys := o.keys ++ [k] })
  | (⟨log, .error e⟩, s) => (.made log (some e), { o with store := s })

/-- An optional name: `none` if it names nothing. -/
def findOpt {α : Type} (f : DictName → Option α) : Option DictName → Option (Option α)
  | none => some none
  | some x => (f x).map some

/-- The list that is derived. -/
def deriveList (lists : List (List (Nat × Nat))) (l : List (Nat × Nat)) : Derive → Option (List (Nat × Nat))
  | .slice i j => some (sliceOpt l i j)
  | .add n => lists[n]?.map (l ++ ·)
  | .mul n => some (listMul l n)
  | .copy => some l

/-- A list is made, or not. -/
def addList (lists : List (List (Nat × Nat))) : Option (List (Nat × Nat)) → Seen × List (List (Nat × Nat))
  | some l => (.made [] none, lists ++ [l])
  | none => (.nothing, lists)

/-- The next step of a program, as in Python. -/
def Objects.step (ext : Ext) (o : Objects) : Cmd → Seen × Objects
  | .dict d => (.made [] none, { o with store := o.store ++ [d], dicts := o.dicts ++ [o.store.length] })
  | .key kind h p f c =>
    match o.find h, o.find p, o.find f, findOpt o.find c with
    | some h, some p, some f, some c => o.make (newKeyRef ext kind h p f c)
    | _, _, _, _ => (.nothing, o)
  | .parse kind b c =>
    match findOpt o.find c with
    | some c => o.make (fromBytesRef ext kind b c)
    | none => (.nothing, o)
  | .line kind s => o.make (fromStringRef ext kind s)
  | .change x op =>
    match o.find x with
    | some r =>
      let res := match x with
        | .own _ => op.runDict (o.store.getD r [])
        | .part _ p => op.runPart (o.store.getD r []) p
      (.changed res.1, { o with store := o.store.set r res.2 })
    | none => (.nothing, o)
  | .packPublic k =>
    match o.keys[k]? with
    | some k => (.packed (packPublicBytes (k.value o.store)), o)
    | none => (.nothing, o)
  | .packPrivate k =>
    match o.keys[k]? with
    | some k => (.packed (packPrivateBytes (k.value o.store)), o)
    | none => (.nothing, o)
  | .equal k k' =>
    match o.keys[k]?, o.keys[k']? with
    | some k, some k' => (.answer ((k.value o.store).eq (k'.value o.store)), o)
    | _, _ => (.nothing, o)
  | .list l => ((addList o.lists (some l)).1, { o with lists := (addList o.lists (some l)).2 })
  | .derive i how =>
    let r := addList o.lists (o.lists[i]?.bind (fun l => deriveList o.lists l how))
    (r.1, { o with lists := r.2 })

/-- A program. -/
def Objects.run (ext : Ext) (o : Objects) : List Cmd → List Seen × Objects
  | [] => ([], o)
  | c :: t => (((o.step ext c).1 :: ((o.step ext c).2.run ext t).1), ((o.step ext c).2.run ext t).2)

/-- The pairs of keys in a list, as values. -/
def Objects.listValue (o : Objects) (i : Nat) : Option (List (Option Key × Option Key)) :=
  o.lists[i]?.map (·.map (fun p => (o.keys[p.1]?.map (·.value o.store), o.keys[p.2]?.map (·.value o.store))))

end OSK
