import Verif.Model.Args
/-
What a command line of the program says, independently of how it is parsed.
-/
namespace OSK.Spec

/-- `o` is `--passphrase`, or short for it. -/
def PassphraseOption (o : Str) : Prop := 3 ≤ o.length ∧ o <+: py! "--passphrase"

/-- A decimal digit: in ASCII 0 to 9; `digit` says which other characters are. -/
def DecimalDigit (digit : Nat → Bool) (c : Nat) : Prop := (0x30 ≤ c ∧ c ≤ 0x39) ∨ (128 ≤ c ∧ digit c = true)

/-- A negative number, written with digits and perhaps a point; perhaps a line feed after it. -/
inductive NegativeNumber (digit : Nat → Bool) : Str → Prop
  | whole {ds e : Str} : ds ≠ [] → (∀ c ∈ ds, DecimalDigit digit c) → e = [] ∨ e = [0x0a] → NegativeNumber digit (0x2d :: (ds ++ e))
  | point {ds fs e : Str} : (∀ c ∈ ds, DecimalDigit digit c) → fs ≠ [] → (∀ c ∈ fs, DecimalDigit digit c) → e = [] ∨ e = [0x0a] →
      NegativeNumber digit (0x2d :: (ds ++ 0x2e :: (fs ++ e)))

/-- The argument may be an option that there is: it starts with `-h`, or what is in front of `=`, or all of it, is the beginning of
`--passphrase` or `--help`. -/
def OptionLike (s : Str) : Prop :=
  py! "-h" <+: s ∨ ∃ o, 2 ≤ o.length ∧ (s = o ∨ ∃ x, s = o ++ 0x3d :: x) ∧ (o <+: py! "--passphrase" ∨ o <+: py! "--help")

/-- An argument that is no option, wherever it is: it does not start with `-`; or it is `-`; or it is a negative number; or it has a
space in it and is not like any option that there is. -/
inductive Word (digit : Nat → Bool) : Str → Prop
  | plain {s : Str} : s.head? ≠ some 0x2d → Word digit s
  | dash : Word digit [0x2d]
  | number {s : Str} : NegativeNumber digit s → Word digit s
  | spaced {s : Str} : 0x20 ∈ s → ¬ OptionLike s → Word digit s

/-- Words and passphrase options in any order: the words, and the last passphrase, if there is one. -/
inductive Parts (digit : Nat → Bool) : List Str → List Str → Option Str → Prop
  | nil : Parts digit [] [] none
  | word {w : Str} {t ws : List Str} {p : Option Str} : Word digit w → Parts digit t ws p → Parts digit (w :: t) (w :: ws) p
  | equals {o x : Str} {t ws : List Str} {p : Option Str} : PassphraseOption o → Parts digit t ws p →
      Parts digit ((o ++ 0x3d :: x) :: t) ws (p.or (some x))
  | next {o w : Str} {t ws : List Str} {p : Option Str} : PassphraseOption o → Word digit w → Parts digit t ws p →
      Parts digit (o :: w :: t) ws (p.or (some w))

/-- The command line names the file `f` and the passphrase `p`: one word, which is the file name, and passphrase options; or
only passphrase options, and at the end the file name after `--`, which may then be anything, or a word before `--`. -/
inductive CommandLine (digit : Nat → Bool) : List Str → Str → Option Str → Prop
  | plain {args : List Str} {f : Str} {p : Option Str} : Parts digit args [f] p → CommandLine digit args f p
  | after {a : List Str} {f : Str} {p : Option Str} : Parts digit a [] p → CommandLine digit (a ++ [py! "--", f]) f p
  | before {a : List Str} {f : Str} {p : Option Str} : Parts digit a [] p → Word digit f →
      CommandLine digit (a ++ [f, py! "--"]) f p

/-- An argument that asks for the help: `--help` or what is short for it; or `-h`, perhaps with more of the letter, and perhaps with
something else after them that starts neither with `-` nor with `=`. -/
inductive HelpOption : Str → Prop
  | long {s : Str} : 3 ≤ s.length → s <+: py! "--help" → HelpOption s
  | short (k : Nat) : HelpOption (0x2d :: 0x68 :: List.replicate k 0x68)
  | more (k : Nat) {c : Nat} (r : Str) : c ∉ py! "h-=" → HelpOption (0x2d :: 0x68 :: (List.replicate k 0x68 ++ c :: r))

/-- Arguments that are read without an error: words, passphrase options with their values, and options that there are not. -/
inductive Readable (digit : Nat → Bool) : List Str → Prop
  | nil : Readable digit []
  | word {w : Str} {t : List Str} : Word digit w → Readable digit t → Readable digit (w :: t)
  | equals {o x : Str} {t : List Str} : PassphraseOption o → Readable digit t → Readable digit ((o ++ 0x3d :: x) :: t)
  | next {o w : Str} {t : List Str} : PassphraseOption o → Word digit w → Readable digit t → Readable digit (o :: w :: t)
  | unknown {u : Str} {t : List Str} : ¬ Word digit u → ¬ OptionLike u → Readable digit t → Readable digit (u :: t)

/-- The command line asks for the help: the help is the first thing in it that is not read as something else, and no argument
after it, up to `--`, is ambiguous. -/
def AsksHelp (digit : Nat → Bool) (args : List Str) : Prop :=
  ∃ a s t, args = a ++ s :: t ∧ Readable digit a ∧ HelpOption s ∧ ∀ x ∈ t.takeWhile (· ≠ py! "--"), ¬ py! "--=" <+: x

end OSK.Spec
