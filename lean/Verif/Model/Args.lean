import Verif.Model.Json
/-
Model of __main__.py:14-20: the command line.  `parser.parse_args()` is Python's `argparse` (CPython 3.11.10, Lib/argparse.py),
for the parser made in __main__.py:14-16: an argument `filename`, an option `--passphrase` with one value, and `-h`, `--help`,
which `ArgumentParser` adds.  Other versions differ in a few corner cases (`--` after an option, ambiguous options).
-/
namespace OSK

/-- How the program ends without parsing a file: after printing the help (exit status 0), or with an error about the
arguments (exit status 2).  Simplification: the messages are left out. -/
inductive ArgsExit where
  | help
  | usage
  deriving DecidableEq, Repr

/-- What the options do. -/
inductive OptAct where
  | help
  | passphrase
  deriving DecidableEq, Repr

/-- `_option_string_actions` of the parser (__main__.py:14-16) -/
def optionStrings : List (Str × OptAct) :=
  [(py! "-h", .help), (py! "--help", .help), (py! "--passphrase", .passphrase)]

/-- An argument, classified (argparse.py:1935-1961): `A`, `O` and `-`.  An option has its action (none if it is unknown), its
name, whether there is a separator `=`, and the value given with it. -/
inductive Tok where
  | arg (s : Str)
  | opt (act : Option OptAct) (name : Str) (sep : Bool) (value : Option Str)
  | dashes
  deriving DecidableEq, Repr

/-- Whether the token is `O`. -/
def Tok.isOpt : Tok → Bool
  | .opt .. => true
  | _ => false

/-- `s.partition('=')`: what is before the first `=`, and what is after it, if there is one. -/
def partitionEq : Str → Str × Option Str
  | [] => ([], none)
  | c :: t => if c = 0x3d then ([], some t) else ((c :: (partitionEq t).1), (partitionEq t).2)

/-- A character that `\d` matches; beyond ASCII this is what `digit` says (decimal digits of Unicode). -/
def isDigitChar (digit : Nat → Bool) (c : Nat) : Bool :=
  if c < 128 then decide (48 ≤ c ∧ c ≤ 57) else digit c

/-- The regular expression `^-\d+$|^-\d*\.\d+$` on a string without a line feed at the end (argparse.py:1386). -/
def negativeBody (digit : Nat → Bool) : Str → Bool
  | 0x2d :: r =>
    ((r.dropWhile (isDigitChar digit)).isEmpty && !r.isEmpty) ||
      (match r.dropWhile (isDigitChar digit) with
       | 0x2e :: b => !b.isEmpty && b.all (isDigitChar digit)
       | _ => false)
  | _ => false

/-- The same regular expression: `$` also matches in front of a line feed at the end. -/
def looksNegative (digit : Nat → Bool) (s : Str) : Bool :=
  negativeBody digit (if s.getLast? = some 0x0a then s.dropLast else s)

/-- `_get_option_tuples` (argparse.py:2300-2340): the options that the argument, which starts with a dash and has at least two
characters, may be short for. -/
def optionTuples (s : Str) : List Tok :=
  if startsWith s (py! "--") then
    (optionStrings.filter (fun o => startsWith o.1 (partitionEq s).1)).map
      (fun o => .opt (some o.2) o.1 (partitionEq s).2.isSome (partitionEq s).2)
  else
    optionStrings.filterMap (fun o =>
      if o.1 = s.take 2 then some (.opt (some o.2) o.1 false (some (s.drop 2)))
      else if startsWith o.1 s then some (.opt (some o.2) o.1 false none)
      else none)

/-- `_parse_optional` (argparse.py:2243-2298) -/
def parseOptional (digit : Nat → Bool) (s : Str) : Except ArgsExit Tok :=
  if s = [] then .ok (.arg s)
  else if s.head? ≠ some 0x2d then .ok (.arg s)
  else match dget optionStrings s with
  | some a => .ok (.opt (some a) s false none)
  | none =>
    if s.length = 1 then .ok (.arg s)
    else match (partitionEq s).2.bind (fun x => (dget optionStrings (partitionEq s).1).map (fun a => (a, x))) with
    | some (a, x) => .ok (.opt (some a) (partitionEq s).1 true (some x))
    | none =>
      match optionTuples s with
      | _ :: _ :: _ => .error .usage
      | [t] => .ok t
      | [] =>
        if looksNegative digit s then .ok (.arg s)
        else if 0x20 ∈ s then .ok (.arg s)
        else .ok (.opt none s false none)

/-- The arguments classified (argparse.py:1935-1961): everything after `--` is an argument. -/
def tokens (digit : Nat → Bool) : List Str → Except ArgsExit (List Tok)
  | [] => .ok []
  | s :: t =>
    if s = py! "--" then .ok (.dashes :: t.map .arg)
    else do
      let k ← parseOptional digit s
      let ks ← tokens digit t
      .ok (k :: ks)

/-- `-h` with more characters after it (argparse.py:2010-2036): they would be further options of one character.  Returns whether
the help is shown; otherwise an explicit argument is refused. -/
def helpCluster : Str → Bool
  | [] => false
  | c :: r =>
    if c = 0x2d then false
    else if c ≠ 0x68 then true
    else match r with
      | [] => true
      | 0x3d :: _ => false
      | _ :: _ => helpCluster r

/-- The namespace, and whether there are arguments that are not recognized. -/
structure ArgState where
  filename : Option Str := none
  passphrase : Option Str := none
  extras : Bool := false
  deriving DecidableEq, Repr

/-- `consume_positionals` after the last option (argparse.py:2106-2110, with the pattern `-*A-*` of 2342-2352 and the removal of
`--` in 2475-2481), and the checks for missing and for unrecognized arguments (argparse.py:2114-2135, 1873-1878). -/
def parseRest (toks : List Tok) (st : ArgState) : Except ArgsExit (Str × Option Str) :=
  let after : ArgState × List Tok :=
    match st.filename, toks.dropWhile (· = .dashes) with
    | none, .arg s :: t => ({ st with filename := some s }, t.dropWhile (· = .dashes))
    | _, _ => (st, toks)
  match after.1.filename with
  | none => .error .usage
  | some f => if after.1.extras || !after.2.isEmpty then .error .usage else .ok (f, after.1.passphrase)

/-- The loop of `_parse_known_args` (argparse.py:2075-2103): as long as there are options left, arguments and options are
consumed (`consume_positionals`, `consume_optional`: argparse.py:1984-2072).  Simplification: the remaining arguments are a list, in
the code an index. -/
def parseToks : List Tok → ArgState → Except ArgsExit (Str × Option Str)
  | [], st => parseRest [] st
  | tok :: t, st =>
    if !(tok :: t).any Tok.isOpt then parseRest (tok :: t) st
    else match tok with
    | .arg s =>
      match st.filename with
      | none => parseToks t { st with filename := some s }
      | some _ => parseToks t { st with extras := true }
    | .dashes => parseToks t { st with extras := true }
    | .opt none _ _ _ => parseToks t { st with extras := true }
    | .opt (some .help) _ _ none => .error .help
    | .opt (some .help) name sep (some x) =>
      if name = py! "-h" && x ≠ [] && !sep && helpCluster x then .error .help else .error .usage
    | .opt (some .passphrase) _ _ (some x) => parseToks t { st with passphrase := some x }
    | .opt (some .passphrase) _ _ none =>
      match t with
      | .arg s :: t' => parseToks t' { st with passphrase := some s }
      | _ => .error .usage

/-- `parser.parse_args()` (__main__.py:17): the values of `args.filename` and `args.passphrase`. -/
def parseArgs (digit : Nat → Bool) (args : List Str) : Except ArgsExit (Str × Option Str) := do
  let toks ← tokens digit args
  parseToks toks {}

/-- The whole program (__main__.py:14-45): `files` is what the files contain, or the exception that opening or reading them raises. -/
def cliProgram (digit : Nat → Bool) (files : Str → Except Exn Bytes) (ext : Ext) (cr : Crypto) (inp : Inputs) (maxDigits : Nat)
    (args : List Str) : Except ArgsExit (Eff Str) := do
  let a ← parseArgs digit args
  .ok (do
    let b ← Eff.lift (files a.1)
    cliMain ext cr inp maxDigits b a.2)

end OSK
