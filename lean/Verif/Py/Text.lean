import Verif.Py.Basic
/-
`str` and `list` operations used by the code.
-/
namespace OSK

/-- `s.split(' ', maxsplit=n)` -/
def splitSpaceMax : Nat → Str → List Str
  | 0, s => [s]
  | n + 1, s =>
    match s.dropWhile (fun c => c ≠ 32) with
    | [] => [s]
    | _ :: rest => s.takeWhile (fun c => c ≠ 32) :: splitSpaceMax n rest

/-- `l[i]` for a non-negative index. -/
def listGet {α : Type} (l : List α) (i : Nat) : Except Exn α :=
  match l[i]? with
  | some x => .ok x
  | none => .error .indexError

/-- `l[i]` for any index: negative indices count from the end. -/
def pyIndex {α : Type} (l : List α) (i : Int) : Except Exn α :=
  if 0 ≤ i then listGet l i.toNat
  else if 0 ≤ (l.length : Int) + i then listGet l ((l.length : Int) + i).toNat
  else .error .indexError

/-- A slice bound `i` of a sequence of length `n`, as a position: negative bounds count from the end, and
bounds beyond an end are moved to it. -/
def sliceBound (n : Nat) (i : Int) : Nat :=
  if i < 0 then ((n : Int) + i).toNat else min i.toNat n

/-- `l[:i]` -/
def sliceTo {α : Type} (l : List α) (i : Int) : List α := l.take (sliceBound l.length i)
/-- `l[i:]` -/
def sliceFrom {α : Type} (l : List α) (i : Int) : List α := l.drop (sliceBound l.length i)
/-- `l[i:j]` -/
def slice {α : Type} (l : List α) (i j : Int) : List α :=
  (l.take (sliceBound l.length j)).drop (sliceBound l.length i)

/-- The characters at which `str.splitlines` splits. -/
def isLineBreak (c : Nat) : Bool := [10, 11, 12, 13, 28, 29, 30, 133, 8232, 8233].contains c

/-- `str.splitlines`, with the current line so far, and whether the previous character was `'\r'`. -/
def splitLinesLoop : Str → Bool → Str → List Str
  | cur, _, [] => if cur = [] then [] else [cur]
  | cur, afterCR, c :: t =>
    if afterCR && c = 10 then splitLinesLoop cur false t
    else if isLineBreak c then cur :: splitLinesLoop [] (c = 13) t
    else splitLinesLoop (cur ++ [c]) false t

/-- `s.splitlines()` -/
def splitLines (s : Str) : List Str := splitLinesLoop [] false s

/-- `sep.join(l)` -/
def strJoin (sep : Str) : List Str → Str
  | [] => []
  | [a] => a
  | a :: b :: t => a ++ sep ++ strJoin sep (b :: t)

/-- `l.startswith(p)` -/
def startsWith {α : Type} [DecidableEq α] (l p : List α) : Bool := l.take p.length = p

end OSK
