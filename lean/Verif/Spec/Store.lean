import Verif.Model.Store
/-
Specification of C103: programs whose dictionaries and keys are values.  Nothing is shared here, since there is nothing that could be
shared: a change of one dictionary or of one part of one key is a change of that alone.
-/
namespace OSK
namespace Spec

/-- The dictionaries, the keys and the lists of a program, as values; a list names its keys. -/
structure Values where
  dicts : List VDict := []
  keys : List Key := []
  lists : List (List (Nat × Nat)) := []

def Values.find (v : Values) : DictName → Option VDict
  | .own i => v.dicts[i]?
  | .part k p => v.keys[k]?.map (·.part p)

/-- A key is made, or not. -/
def Values.make (v : Values) (x : Eff Key) : Seen × Values :=
  match x.res with
  | .ok k => (.made x.log none, { v with keys := v.keys ++ [k] })
  | .error e => (.made x.log (some e), v)

/-- Replace what a name names. -/
def Values.put (v : Values) (d : VDict) : DictName → Values
  | .own i => { v with dicts := v.dicts.set i d }
  | .part k p => { v with keys := v.keys.modify k (·.withPart d p) }

/-- The next step of a program. -/
def Values.step (ext : Ext) (v : Values) : Cmd → Seen × Values
  | .dict d => (.made [] none, { v with dicts := v.dicts ++ [d] })
  | .key kind h p f c =>
    match v.find h, v.find p, v.find f, findOpt v.find c with
    | some h, some p, some f, some c => v.make (mkKey ext kind h p f c)
    | _, _, _, _ => (.nothing, v)
  | .parse kind b c =>
    match findOpt v.find c with
    | some c => v.make (fromBytes ext kind b c)
    | none => (.nothing, v)
  | .line kind s => v.make (fromString ext kind s)
  | .change x op =>
    match v.find x with
    | some d =>
      let res := match x with
        | .own _ => op.runDict d
        | .part _ p => op.runPart d p
      (.changed res.1, v.put res.2 x)
    | none => (.nothing, v)
  | .packPublic k =>
    match v.keys[k]? with
    | some k => (.packed (packPublicBytes k), v)
    | none => (.nothing, v)
  | .packPrivate k =>
    match v.keys[k]? with
    | some k => (.packed (packPrivateBytes k), v)
    | none => (.nothing, v)
  | .equal k k' =>
    match v.keys[k]?, v.keys[k']? with
    | some k, some k' => (.answer (k.eq k'), v)
    | _, _ => (.nothing, v)
  | .list l => ((addList v.lists (some l)).1, { v with lists := (addList v.lists (some l)).2 })
  | .derive i how =>
    let r := addList v.lists (v.lists[i]?.bind (fun l => deriveList v.lists l how))
    (r.1, { v with lists := r.2 })

/-- A program. -/
def Values.run (ext : Ext) (v : Values) : List Cmd → List Seen × Values
  | [] => ([], v)
  | c :: t => (((v.step ext c).1 :: ((v.step ext c).2.run ext t).1), ((v.step ext c).2.run ext t).2)

/-- What the program would find in its objects now. -/
def Values.of (o : Objects) : Values := ⟨o.dicts.map (o.store.getD · []), o.keys.map (·.value o.store), o.lists⟩

end Spec
/-- Where a bound of a slice is in a list of length `len`: `d` if it is absent, counted from the front, or from the end if it is negative;
what would be in front of the list is at its beginning. -/
inductive BoundAt (len : Nat) : Option Int → (d at' : Nat) → Prop
  | absent {d : Nat} : BoundAt len none d d
  | front (n : Nat) {d : Nat} : BoundAt len (some n) d n
  | back {i : Int} {d n : Nat} : i < 0 ∧ i + len = n → BoundAt len (some i) d n
  | before {i : Int} {d : Nat} : i + len < 0 → BoundAt len (some i) d 0

end OSK
