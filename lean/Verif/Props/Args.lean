import Verif.Lemmas.Args
import Verif.Props.Json
/-
Property C101: the command line.
-/
namespace OSK
open Spec

/-- C101: the arguments are accepted, with this file name and this passphrase, exactly if they are a command line that names them. -/
theorem C101_exact (digit : Nat → Bool) (args : List Str) (f : Str) (p : Option Str) :
    parseArgs digit args = .ok (f, p) ↔ CommandLine digit args f p := parseArgs_iff

/-- The program reads the file that the command line names, with its passphrase, and does what `cliMain` does; for any other
command line it ends without opening a file, with the help or with an error about the arguments. -/
theorem C101_program (digit : Nat → Bool) (files : Str → Except Exn Bytes) (ext : Ext) (cr : Crypto) (inp : Inputs) (maxDigits : Nat)
    (args : List Str) :
    (∃ f p, CommandLine digit args f p ∧ cliProgram digit files ext cr inp maxDigits args = .ok (match files f with
      | .ok b => cliMain ext cr inp maxDigits b p
      | .error e => ⟨[], .error e⟩)) ∨
    ((∀ f p, ¬ CommandLine digit args f p) ∧ ∃ e, cliProgram digit files ext cr inp maxDigits args = .error e) := by
  unfold cliProgram
  cases h : parseArgs digit args with
  | error e =>
    refine .inr ⟨fun f p hc => ?_, e, rfl⟩
    rw [parseArgs_iff.2 hc] at h; cases h
  | ok a =>
    obtain ⟨f, p⟩ := a
    refine .inl ⟨f, p, parseArgs_iff.1 h, ?_⟩
    show Except.ok (Eff.bind (Eff.lift (files f)) _) = _
    cases files f <;> rfl

/-- The program shows the help, and ends without an error, exactly if the command line asks for it; then it opens no file. -/
theorem C101_help (digit : Nat → Bool) (files : Str → Except Exn Bytes) (ext : Ext) (cr : Crypto) (inp : Inputs) (maxDigits : Nat)
    (args : List Str) : cliProgram digit files ext cr inp maxDigits args = .error .help ↔ AsksHelp digit args := by
  rw [← parseArgs_help]
  unfold cliProgram
  cases h : parseArgs digit args with
  | error e =>
    show (Except.error e : Except ArgsExit (Eff Str)) = .error .help ↔ _
    simp
  | ok a => exact ⟨nofun, nofun⟩

/-- Any file name and any passphrase can be given: the passphrase after `=` and the file name after `--`. -/
theorem C101_always (digit : Nat → Bool) (f p : Str) :
    parseArgs digit [py! "--passphrase=" ++ p, py! "--", f] = .ok (f, some p) ∧ parseArgs digit [py! "--", f] = .ok (f, none) := by
  refine ⟨parseArgs_iff.2 (.after (a := [py! "--passphrase=" ++ p]) ?_), parseArgs_iff.2 (.after (a := []) .nil)⟩
  exact .equals (o := py! "--passphrase") (p := none) ⟨by decide, List.prefix_refl _⟩ .nil

theorem passphrase_no_word {digit : Nat → Bool} : ¬ Word digit (py! "--passphrase") := by
  intro h
  obtain ⟨n, hn⟩ := parseOptional_pass (digit := digit) (s := py! "--passphrase") ⟨by decide, List.prefix_refl _⟩
  rw [parseOptional_word h h.ne_dashes] at hn
  cases hn

/-- C101 for the usual command line, where the two come after each other.  Full statement: every file name and every passphrase
can be given like this.  Missing: those that start with `-` and are taken for options; exactly the others can be given. -/
theorem C101_usual_partial (digit : Nat → Bool) (f p : Str) :
    parseArgs digit [f, py! "--passphrase", p] = .ok (f, some p) ↔ Word digit f ∧ Word digit p := by
  rw [parseArgs_iff]
  have hpo : PassphraseOption (py! "--passphrase") := ⟨by decide, List.prefix_refl _⟩
  constructor
  · intro h
    generalize ha : [f, py! "--passphrase", p] = args at h
    generalize hq : some p = q at h
    cases h with
    | plain h =>
      generalize hw : [f] = ws at h
      cases h with
      | nil => cases ha
      | word hwf ht =>
        cases hw
        simp only [List.cons.injEq] at ha
        obtain ⟨_, rfl⟩ := ha
        refine ⟨hwf, ?_⟩
        generalize ha : [py! "--passphrase", p] = args at ht
        generalize hw : ([] : List Str) = ws at ht
        cases ht with
        | nil => cases ha
        | word => cases hw
        | @equals o x t _ _ ho _ =>
          simp only [List.cons.injEq] at ha
          exact absurd (ha.1 ▸ (by simp : 0x3d ∈ o ++ 0x3d :: x)) (by decide)
        | next ho hwp _ => simp only [List.cons.injEq] at ha; rw [ha.2.1]; exact hwp
      | @equals o x t _ p' ho ht =>
        subst hw
        simp only [List.cons.injEq] at ha
        obtain ⟨_, rfl⟩ := ha
        generalize ha : [py! "--passphrase", p] = args at ht
        generalize hw : [f] = ws at ht
        cases ht with
        | nil => cases ha
        | word h => simp only [List.cons.injEq] at ha; rw [← ha.1] at h; exact absurd h passphrase_no_word
        | @equals o x t _ _ ho _ =>
          simp only [List.cons.injEq] at ha
          exact absurd (ha.1 ▸ (by simp : 0x3d ∈ o ++ 0x3d :: x)) (by decide)
        | next _ _ h =>
          subst hw
          simp only [List.cons.injEq] at ha
          rw [← ha.2.2] at h
          cases h
      | next _ h _ =>
        simp only [List.cons.injEq] at ha
        rw [← ha.2.1] at h
        exact absurd h passphrase_no_word
    | @after a _ _ h =>
      rcases a with _ | ⟨x, _ | ⟨y, a⟩⟩
      · simp at ha
      · simp at ha
      · have := congrArg List.length ha; simp at this
    | @before a _ _ h hw =>
      rcases a with _ | ⟨x, _ | ⟨y, a⟩⟩
      · simp at ha
      · simp at ha
        rw [← ha.2.1] at hw
        exact absurd hw passphrase_no_word
      · have := congrArg List.length ha; simp at this
  · rintro ⟨hf, hp⟩
    exact .plain (.word hf (.next (p := none) hpo hp .nil))

/-- What C101 says in full of the usual command line. -/
def C101_claim : Prop := ∀ (digit : Nat → Bool) (f p : Str), parseArgs digit [f, py! "--passphrase", p] = .ok (f, some p)

/-- The program does not take the passphrase `-secret` after `--passphrase`. -/
theorem C101_false : ¬ C101_claim := by
  intro h
  have := h (fun _ => false) (py! "id_rsa") (py! "-secret")
  exact absurd (congrArg Except.toOption this) (by decide +kernel)

/-- The name of a key file is a word, and so is a passphrase that does not start with a dash; the file name then comes in front or
after the passphrase, which may be given twice. -/
example : CommandLine (fun _ => false) [py! "--pass", py! "first", py! "id_rsa", py! "--passphrase=-second"] (py! "id_rsa")
    (some (py! "-second")) := by
  have h1 : PassphraseOption (py! "--pass") := ⟨by decide, by decide⟩
  have h2 : PassphraseOption (py! "--passphrase") := ⟨by decide, by decide⟩
  exact .plain (.next (p := some _) h1 (.plain (by decide)) (.word (.plain (by decide)) (.equals (p := none) h2 .nil)))

/-- The help is asked for after a file name, with an unknown option in front of it, and by `-hvv`; not after an ambiguous option, with a
value, after `--`, or as a passphrase. -/
example : AsksHelp (fun _ => false) [py! "id_rsa", py! "-x", py! "--he", py! "--", py! "--=x"] ∧ AsksHelp (fun _ => false) [py! "-hvv"] ∧
    ([[py! "--=x", py! "-h"], [py! "--help=x"], [py! "-h=x"], [py! "-h-"], [py! "-hh=x"], [py! "--", py! "-h"], [py! "-h", py! "--="],
      [py! "--passphrase", py! "-h"]].map
      (fun a => match parseArgs (fun _ => false) a with | .error e => e == .help | _ => false)) = List.replicate 8 false := by
  refine ⟨parseArgs_help.1 ?_, ⟨[], _, [], rfl, .nil, .more 0 (py! "v") (by decide), by simp⟩, by decide +kernel⟩
  have h : (match parseArgs (fun _ => false) [py! "id_rsa", py! "-x", py! "--he", py! "--", py! "--=x"] with
    | .error e => e == .help | _ => false) = true := by decide +kernel
  revert h
  cases parseArgs (fun _ => false) [py! "id_rsa", py! "-x", py! "--he", py! "--", py! "--=x"] with
  | error e => intro h; rw [eq_of_beq h]
  | ok a => nofun

/-- Arguments that are no command line: no file, two files, an ambiguous option, an unknown one; and the help. -/
example : ([[], [py! "a", py! "b"], [py! "--=x", py! "a"], [py! "-x", py! "a"], [py! "a", py! "--passphrase"],
      [py! "a", py! "--help"], [py! "-hx"]].map (parseArgs (fun _ => false))).map (fun r => r.toOption) = List.replicate 7 none ∧
    (match parseArgs (fun _ => false) [py! "a", py! "--help"] with | .error e => e == .help | _ => false) = true := by decide +kernel

/-- A negative number, and an argument with a space in it, can be a file name or a passphrase. -/
example : parseArgs (fun _ => false) [py! "-1", py! "--passphrase", py! "-a b"] = .ok (py! "-1", some (py! "-a b")) := by
  refine (C101_usual_partial _ _ _).2 ⟨.number ?_, .spaced (by decide) ?_⟩
  · exact .whole (ds := py! "1") (e := []) (by decide) (by intro c hc; simp at hc; subst hc; exact .inl (by decide)) (.inl rfl)
  · rintro (h | ⟨o, h1, h2 | ⟨x, h2⟩, h3⟩)
    · revert h; decide
    · subst h2; rcases h3 with h | h <;> revert h <;> decide
    · have h3d := congrArg (0x3d ∈ ·) h2
      simp at h3d

end OSK
