import Verif.Model.KeyList
/-
Model of __main__.py:22-35.  Decoding the file and the output are in Model/Json.lean; argument parsing is in
Model/Args.lean.
-/
namespace OSK

/-- What the command line program obtains from the file contents. -/
inductive CliResult where
  | keyList (l : KeyList)
  | publicKeys (ks : List Key)
  deriving DecidableEq, Repr

/-- One line of a public key file (__main__.py:31-34), with its number. -/
def cliLine (ext : Ext) (i : Nat) (line : Str) : Eff (Option Key) :=
  Eff.tryCatch (do let k ← fromString ext .pub line; pure (some k))
    (fun e => if e.isValueError || e = .notImplementedError || e.isEOFError then
        some (do Eff.warn (.couldNotParseLine i); pure none)
      else none)

/-- The loop over the lines (__main__.py:30-34), from line `i` on. -/
def cliLines (ext : Ext) : Nat → List Str → Eff (List Key)
  | _, [] => pure []
  | i, l :: t => do
    let k ← cliLine ext i l
    let ks ← cliLines ext (i + 1) t
    pure (k.toList ++ ks)

/-- __main__.py:23-34 -/
def cliParse (ext : Ext) (cr : Crypto) (inp : Inputs) (contents : Str) (passphrase : Option Str) :
    Eff CliResult :=
  if startsWith contents pemHeader then do
    let l ← listFromString ext cr inp contents passphrase
    pure (.keyList l)
  else do
    let ks ← cliLines ext 0 (splitLines contents)
    pure (.publicKeys ks)

end OSK
