import Verif.Model.Convert
/-
utils.py: abstract classes and static properties, over Python's classes in general.  The rest of the model has the class graph
of the package as a table (`Cls`); here class statements are executed, and `C118_package` compares.

Simplifications: attributes of `object`, of the metaclass and those that Python adds to a class (names with double
underscores, and `mro`) are left out; results of methods are values that cannot be called.
-/
namespace OSK
namespace Utils

/-- The exceptions of this part. -/
inductive Err where
  | attributeError | typeError | recursionError | nameError
  deriving DecidableEq, Repr

/-- What a class body binds a name to. -/
inductive Attr where
  /-- a static method or class method, whether it is marked as abstract, and what it returns -/
  | method (abstract : Bool) (result : Val)
  /-- `readonly_static_property(f)` (utils.py:37-44), of which `f.__name__` is used only (utils.py:53-59) -/
  | prop (getter : Str)
  /-- anything else -/
  | value (v : Val)
  deriving DecidableEq, Repr

/-- A class object.  Classes are numbered in the order in which they are defined. -/
structure ClassObj where
  bases : List Nat
  mro : List Nat
  dict : List (Str × Attr)
  /-- whether the metaclass is `abc.ABCMeta` (otherwise `type`) -/
  abcMeta : Bool
  /-- `__abstractmethods__`, which `ABCMeta` sets -/
  abstracts : Option (List Str)
  deriving DecidableEq, Repr

abbrev World := List ClassObj

/-- Only `object`. -/
def start : World := [⟨[], [0], [], false, none⟩]

/-- The namespace of a class. -/
def dictOf (w : World) (c : Nat) : List (Str × Attr) := ((w[c]?).map ClassObj.dict).getD []

/-- Lookup of a name along a method resolution order (`_PyType_Lookup`). -/
def lookup (w : World) (mro : List Nat) (name : Str) : Option Attr := mro.findSome? (fun c => dget (dictOf w c) name)

/-- What an attribute evaluates to: something that can be called, or a value. -/
inductive Got where
  | callable (abstract : Bool) (result : Val)
  | value (v : Val)
  deriving DecidableEq, Repr

/-- `x()` -/
def call : Got → Except Err Val
  | .callable _ v => .ok v
  | .value _ => .error .typeError

/-- `getattr(cls, name)` where `mro` is the order of `cls`; a static property evaluates `getattr(cls, f.__name__)()`
(utils.py:46-60).  The first argument is how deep Python may go. -/
def getAttrAlong (w : World) (mro : List Nat) : Nat → Str → Except Err Got
  | 0, _ => .error .recursionError
  | n + 1, name =>
    match lookup w mro name with
    | none => .error .attributeError
    | some (.method a v) => .ok (.callable a v)
    | some (.value v) => .ok (.value v)
    | some (.prop g) => ((getAttrAlong w mro n g).bind call).map .value

/-- The default of `sys.getrecursionlimit()`.  Simplification: the frames that are in use already are not counted. -/
def limit : Nat := 1000

/-- `cls.mro()` of a class. -/
def mroOf (w : World) (c : Nat) : List Nat := ((w[c]?).map ClassObj.mro).getD []

/-- `getattr(cls, name)` -/
def getClassAttr (w : World) (c : Nat) (name : Str) : Except Err Got := getAttrAlong w (mroOf w c) limit name

/-! ### Class statements -/

/-- The next class in the order: the first head that is in no tail (`pmerge` in CPython's typeobject.c). -/
def pick (seqs : List (List Nat)) : Option Nat :=
  (seqs.filterMap List.head?).find? (fun c => seqs.all (fun s => !(s.tail.contains c)))

/-- `pmerge`; `none` if there is no consistent order.  Each step takes a class away, so that the sum of the lengths is fuel enough. -/
def merge : Nat → List (List Nat) → Option (List Nat)
  | 0, _ => none
  | n + 1, seqs =>
    if seqs.all List.isEmpty then some []
    else match pick seqs with
      | none => none
      | some c => (merge n (seqs.map (fun s => if s.head? = some c then s.tail else s))).map (c :: ·)

/-- `mro_implementation` in CPython's typeobject.c, without the class itself. -/
def mroOfBases (w : World) (bases : List Nat) : Except Err (List Nat) :=
  match bases with
  | [b] => .ok (mroOf w b)
  | _ =>
    if bases.Nodup then
      let seqs := bases.map (mroOf w) ++ [bases]
      match merge (seqs.flatten.length + 1) seqs with
      | none => .error .typeError
      | some l => .ok l
    else .error .typeError

/-- `class C(bases, metaclass=ABCMeta or type): dict` -/
structure Stmt where
  bases : List Nat
  metaclass : Bool
  dict : List (Str × Attr)
  deriving DecidableEq, Repr

/-- Whether a value of a class body says that it is abstract (`__isabstractmethod__`). -/
def Attr.isAbstract : Attr → Bool
  | .method a _ => a
  | _ => false

/-- Which of the abstract names of the bases stay abstract (`compute_abstract_methods` in CPython's _abc.c): those that evaluate to
something abstract in the new class.  `AttributeError` counts as not abstract, other exceptions pass. -/
def stillAbstract (w : World) (mro : List Nat) : List Str → Except Err (List Str)
  | [] => .ok []
  | name :: t =>
    match getAttrAlong w mro limit name with
    | .ok (.callable true _) => (stillAbstract w mro t).map (name :: ·)
    | .ok _ => stillAbstract w mro t
    | .error .attributeError => stillAbstract w mro t
    | .error e => .error e

/-- `__abstractmethods__` of a class -/
def abstractsOf (w : World) (c : Nat) : List Str := (((w[c]?).bind ClassObj.abstracts)).getD []

/-- The metaclass of a class. -/
def metaOf (w : World) (c : Nat) : Bool := ((w[c]?).map ClassObj.abcMeta).getD false

/-- Executes a class statement. -/
def define (w : World) (s : Stmt) : Except Err World :=
  let bases := if s.bases.isEmpty then [0] else s.bases
  if bases.any (fun b => decide (w.length ≤ b)) then .error .nameError else
  match mroOfBases w bases with
  | .error e => .error e
  | .ok l =>
    let mro := w.length :: l
    let abcMeta := s.metaclass || bases.any (metaOf w)
    if abcMeta then
      let own := (s.dict.filter (fun e => e.2.isAbstract)).map Prod.fst
      match stillAbstract (w ++ [⟨bases, mro, s.dict, true, none⟩]) mro (bases.flatMap (abstractsOf w)) with
      | .error e => .error e
      | .ok names => .ok (w ++ [⟨bases, mro, s.dict, true, some (own ++ names)⟩])
    else .ok (w ++ [⟨bases, mro, s.dict, false, none⟩])

/-- Executes class statements one after the other. -/
def run : World → List Stmt → Except Err World
  | w, [] => .ok w
  | w, s :: t =>
    match define w s with
    | .error e => .error e
    | .ok w' => run w' t

/-! ### utils.py -/

/-- `is_abstract` (utils.py:9-14): `hasattr(cls, '__abstractmethods__')` is true where `ABCMeta` has set it. -/
def isAbstract (w : World) (c : Nat) : Bool :=
  match (w[c]?).bind ClassObj.abstracts with
  | none => false
  | some l => decide (l.length ≠ 0)

/-- An object with its own attributes. -/
structure Obj where
  cls : Nat
  dict : List (Str × Val)
  deriving DecidableEq, Repr

/-- `readonly_static_property.__get__` (utils.py:46-60) of a property of the method named `g`.  Simplification: `type(None)` has no
attribute of the name. -/
def propGet (w : World) (g : Str) (obj : Option Obj) (cls : Option Nat) : Except Err Val :=
  match cls, obj with
  | some c, _ => (getClassAttr w c g).bind call
  | none, some o => (getClassAttr w o.cls g).bind call
  | none, none => .error .attributeError

/-- `getattr(obj, name)`: what is found in the class comes after the object's own attributes, unless it has `__set__` or `__delete__`;
`readonly_static_property` has neither. -/
def getObjAttr (w : World) (o : Obj) (name : Str) : Except Err Got :=
  match dget o.dict name with
  | some v => .ok (.value v)
  | none =>
    match lookup w (mroOf w o.cls) name with
    | some (.prop g) => (propGet w g (some o) (some o.cls)).map .value
    | _ => getClassAttr w o.cls name

/-- `obj.name = v`: no class has an attribute with `__set__` -/
def setObjAttr (o : Obj) (name : Str) (v : Val) : Obj := { o with dict := dset o.dict name v }

/-- `cls.name = v` -/
def setClassAttr (w : World) (c : Nat) (name : Str) (v : Val) : World :=
  w.modify c (fun x => { x with dict := dset x.dict name (.value v) })

end Utils
end OSK
