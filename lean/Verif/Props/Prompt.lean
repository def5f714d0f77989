import Verif.Props.ListWire
import Verif.Props.Cli
/-
Failures of the passphrase prompt (C106): no input left (`EOFError`), Ctrl-C (`KeyboardInterrupt`), input that cannot be decoded.
-/
namespace OSK
open Spec

/-- If there is a prompt and it fails, the failure `g` makes of it is the outcome, and nothing is done after the prompt. -/
def Spec.EndsAt (g : Exn → Exn) (inp : Inputs) {α : Type} (x : Eff α) : Prop :=
  ∀ e, inp.answer = .error e → .prompt ∈ x.log → x.res = .error (g e) ∧ ∃ l, x.log = l ++ [.prompt] ∧ .prompt ∉ l

theorem Prompts.not_mem {α : Type} {x : Eff α} (h : Prompts 0 x) : Event.prompt ∉ x.log :=
  List.count_eq_zero.1 (Nat.le_zero.1 h)

theorem Spec.EndsAt.none {g : Exn → Exn} {inp : Inputs} {α : Type} {x : Eff α} (h : Prompts 0 x) : EndsAt g inp x :=
  fun _ _ hm => absurd hm h.not_mem

theorem Spec.EndsAt.before {g : Exn → Exn} {inp : Inputs} {α β : Type} {x : Eff α} {f : α → Eff β} (hx : Prompts 0 x)
    (hf : ∀ a, EndsAt g inp (f a)) : EndsAt g inp (x >>= f) := by
  intro e he hm
  rcases h : x.res with e' | a
  · rw [Eff.bind_error h] at hm
    exact absurd hm hx.not_mem
  · rw [Eff.bind_ok h] at hm ⊢
    obtain ⟨h1, l, h2, h3⟩ := hf a e he ((List.mem_append.1 hm).resolve_left hx.not_mem)
    refine ⟨h1, x.log ++ l, ?_, fun h => (List.mem_append.1 h).elim hx.not_mem h3⟩
    show x.log ++ (f a).log = _
    rw [h2, List.append_assoc]

theorem Spec.EndsAt.after {inp : Inputs} {α β : Type} {x : Eff α} {f : α → Eff β} (hx : EndsAt id inp x) (hf : ∀ a, Prompts 0 (f a)) :
    EndsAt id inp (x >>= f) := by
  intro e he hm
  rcases h : x.res with e' | a
  · rw [Eff.bind_error h] at hm ⊢
    obtain ⟨h1, h2⟩ := hx e he hm
    rw [h] at h1
    cases h1
    exact ⟨rfl, h2⟩
  · rw [Eff.bind_ok h] at hm
    have := (hx e he ((List.mem_append.1 hm).resolve_right (hf a).not_mem)).1
    rw [h] at this
    cases this

theorem Spec.EndsAt.choose (inp : Inputs) (isNone : Bool) (passphrase : Option Str) : EndsAt id inp (choosePassphrase inp isNone passphrase) := by
  intro e he hm
  unfold choosePassphrase at hm ⊢
  cases isNone
  · cases passphrase
    · exact ⟨he, [], rfl, by simp⟩
    · exact absurd hm (by simp)
  · exact absurd hm (by simp)

theorem Spec.EndsAt.body (ext : Ext) (cr : Crypto) (inp : Inputs) (b : Bytes) (passphrase : Option Str) :
    EndsAt id inp (listFromBytesBody ext cr inp b passphrase) := by
  unfold listFromBytesBody
  refine .before (Prompts.onStream _ _) fun _ => .before (Prompts.lift _) fun _ => ?_
  split
  · exact .none (Prompts.throw _)
  refine .before (Prompts.lift _) fun _ => .before (Prompts.lift _) fun _ => ?_
  split
  · exact .none (Prompts.throw _)
  refine .before (Prompts.readPublicKeys _ _ _) fun _ => .before (Prompts.onStream _ _) fun _ => .before (Prompts.lift _) fun _ =>
    .before (Prompts.lift _) fun _ => .before (Prompts.lift _) fun _ => .before (Prompts.lift _) fun _ => .before (Prompts.lift _) fun _ =>
    .before (Prompts.onStream _ _) fun _ => .before (newKdf_prompts _ _) fun _ => .before (Prompts.lift _) fun _ =>
    .before (Prompts.lift _) fun _ => .after (.choose _ _ _) fun _ => Prompts.bind0 ?_ fun _ => (newKdf_prompts _ _).bind0 fun _ =>
    (Prompts.lift _).bind0 fun _ => (Prompts.readPrivateSection _ _ _ _).bind0 fun _ => Prompts.pure _
  unfold readTag
  split
  · exact (Prompts.onStream _ _).bind0 fun _ => Prompts.pure _
  · exact Prompts.pure _

/-- **C106.** Packing: whatever the prompt raises is raised, and the prompt is the last thing that happens. -/
theorem C106_pack (cr : Crypto) (inp : Inputs) (self : KeyList) (passphrase : Option Str) (indices : Option (List Int))
    (override retain : Bool) : EndsAt id inp (packKeyList cr inp self passphrase indices override retain) := by
  rw [packKeyList_eq cr inp self passphrase indices override retain (Prod.mk.eta).symm rfl]
  exact .before (chooseKdfOptions_prompts _ _ _ _) fun _ => .before (Prompts.lift _) fun _ => .before (Prompts.lift _) fun _ =>
    .before (Prompts.lift _) fun _ => .after (.choose _ _ _) fun _ => (Prompts.lift _).bind0 fun _ => (newKdf_prompts _ _).bind0 fun _ =>
    (Prompts.lift _).bind0 fun _ => (Prompts.lift _).bind0 fun _ => Prompts.pure _

/-- What `from_bytes` makes of an exception raised at the prompt: a `ValueError` stays, `EOFError` and any other, `KeyboardInterrupt`
included, become a `ValueError` that says something else. -/
def Spec.fromPrompt (e : Exn) : Exn :=
  match e with
  | .valueError _ | .unicodeDecodeError | .unicodeEncodeError | .binasciiError => e
  | .eofError _ _ => .valueError "Premature EOF detected while parsing key."
  | _ => .valueError "Unexpected error condition reached."

/-- **C106 (partial).** Parsing: the prompt is the last thing that happens, and the outcome is `fromPrompt` of what it raises, which is the
same exception exactly if that is a `ValueError`. -/
theorem C106_parse_partial (ext : Ext) (cr : Crypto) (inp : Inputs) (b : Bytes) (passphrase : Option Str) :
    EndsAt fromPrompt inp (listFromBytes ext cr inp b passphrase) ∧ ∀ e, fromPrompt e = e ↔ e.isValueError = true := by
  constructor
  · intro e he hm
    have hb := EndsAt.body ext cr inp b passphrase e he
    unfold listFromBytes Eff.tryCatch at hm ⊢
    rcases h : (listFromBytesBody ext cr inp b passphrase).res with e' | a
    · simp only [h] at hm ⊢
      have hm' : Event.prompt ∈ (listFromBytesBody ext cr inp b passphrase).log := by simpa using hm
      obtain ⟨h1, l, h2, h3⟩ := hb hm'
      rw [h] at h1
      cases h1
      refine ⟨?_, l, ?_, h3⟩
      · show Except.error (listExcept e) = _
        congr 1
        cases e <;> rfl
      · rw [← h2]
        exact List.append_nil _
    · simp only [h] at hm
      have := (hb hm).1
      rw [h] at this
      cases this
  · intro e
    cases e <;> simp [fromPrompt, Exn.isValueError]

/-- **C106 (partial).** The key list of the text form: as for bytes. -/
theorem C106_text_partial (ext : Ext) (cr : Crypto) (inp : Inputs) (s : Str) (passphrase : Option Str) :
    EndsAt fromPrompt inp (listFromString ext cr inp s passphrase) := by
  unfold listFromString
  refine .before (Prompts.lift _) fun _ => ?_
  split
  · exact .none (Prompts.throw _)
  refine .before (Prompts.lift _) fun _ => ?_
  split
  · exact .none (Prompts.throw _)
  exact .before (Prompts.lift _) fun _ => (C106_parse_partial ext cr inp _ passphrase).1

theorem fromString_prompts (ext : Ext) (s : Str) : Prompts 0 (fromString ext .pub s) := by
  unfold fromString
  refine (Prompts.lift _).bind0 fun _ => (Prompts.lift _).bind0 fun _ => (Prompts.lift _).bind0 fun _ =>
    (Prompts.within (fromBytes_within ext .pub _ _)).bind0 fun _ => (Prompts.lift _).bind0 fun _ => ?_
  split
  · exact (Prompts.warn _).bind0 fun _ => Prompts.pure _
  · exact Prompts.pure _

theorem cliLines_prompts (ext : Ext) (i : Nat) (ls : List Str) : Prompts 0 (cliLines ext i ls) := by
  induction ls generalizing i with
  | nil => exact Prompts.pure _
  | cons l t ih =>
    refine Prompts.bind0 ?_ fun _ => (ih _).bind0 fun _ => Prompts.pure _
    have h : Prompts 0 (do let k ← fromString ext .pub l; pure (some k)) :=
      (fromString_prompts ext l).bind0 fun _ => Prompts.pure _
    unfold cliLine Eff.tryCatch
    split
    · exact h
    · split
      · rename_i e he y hy
        dsimp only at hy
        split at hy
        · cases hy
          have h2 : Prompts 0 (do Eff.warn (.couldNotParseLine i); pure none : Eff (Option Key)) :=
            (Prompts.warn _).bind0 fun _ => Prompts.pure _
          unfold Prompts at h h2 ⊢
          rw [List.count_append]
          omega
        · cases hy
      · exact h

/-- **C106 (partial).** The program: as for the text form; files of public keys never ask. -/
theorem C106_program_partial (ext : Ext) (cr : Crypto) (inp : Inputs) (contents : Str) (passphrase : Option Str) :
    EndsAt fromPrompt inp (cliParse ext cr inp contents passphrase) := by
  unfold cliParse
  split
  · have := C106_text_partial ext cr inp contents passphrase
    intro e he hm
    rcases h : (listFromString ext cr inp contents passphrase).res with e' | a
    · rw [Eff.bind_error h] at hm ⊢
      obtain ⟨h1, h2⟩ := this e he hm
      rw [h] at h1
      cases h1
      exact ⟨rfl, h2⟩
    · rw [Eff.bind_ok h] at hm
      have := (this e he (by simpa using hm)).1
      rw [h] at this
      cases this
  · exact .none ((cliLines_prompts ext 0 _).bind0 fun _ => Prompts.pure _)

/-- **C106.** An interruption at the prompt is turned into a `ValueError`, and the end of the input is reported as a file that ends too
early, although the file is whole. -/
theorem C106_false : ∃ (b : Bytes), (∃ kl, (listFromBytes exExt toyCrypto exInputs b none).res = .ok kl) ∧
    (listFromBytes exExt toyCrypto { exInputs with answer := .error .keyboardInterrupt } b none).res =
      .error (.valueError "Unexpected error condition reached.") ∧
    (listFromBytes exExt toyCrypto { exInputs with answer := .error (.eofError false []) } b none).res =
      .error (.valueError "Premature EOF detected while parsing key.") := by
  have hp : ∀ a, Event.prompt ∈ (listFromBytes exExt toyCrypto { exInputs with answer := .error a } exFile none).log →
      (listFromBytes exExt toyCrypto { exInputs with answer := .error a } exFile none).res = .error (fromPrompt a) :=
    fun a h => ((C106_parse_partial exExt toyCrypto { exInputs with answer := .error a } exFile none).1 a rfl h).1
  refine ⟨exFile, ?_, hp .keyboardInterrupt (by decide +kernel), hp (.eofError false []) (by decide +kernel)⟩
  have : (listFromBytes exExt toyCrypto exInputs exFile none).res.toOption.isSome = true := by decide +kernel
  cases h : (listFromBytes exExt toyCrypto exInputs exFile none).res with
  | ok kl => exact ⟨kl, rfl⟩
  | error e => rw [h] at this; cases this

/-- Packing the example asks, and raises what the prompt raises. -/
example : (packKeyList toyCrypto { exInputs with answer := .error .keyboardInterrupt } exList none none false true) =
    ⟨[.prompt], .error .keyboardInterrupt⟩ := by
  have h : (packKeyList toyCrypto { exInputs with answer := .error .keyboardInterrupt } exList none none false true).log = [.prompt] := by
    decide +kernel
  have := (C106_pack toyCrypto { exInputs with answer := .error .keyboardInterrupt } exList none none false true _ rfl (by rw [h]; simp)).1
  exact Eff.ext h this

end OSK
