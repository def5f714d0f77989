import Verif.Lemmas.Filtered
import Verif.Props.ListWarnings
/-
Property C97: warnings that the warning filter turns into exceptions.
-/
namespace OSK
open Spec

section
variable [F : Filter]

/-- The first raised warning of a list of events, if there is one. -/
theorem first_raised (l : List Event) : (∀ w, .warn w ∈ l → F.raises w = false) ∨
    ∃ a u b, l = a ++ .warn u :: b ∧ F.raises u = true ∧ ∀ u, .warn u ∈ a → F.raises u = false := by
  induction l with
  | nil => exact .inl (by simp)
  | cons e t ih =>
    by_cases he : ∃ u, e = .warn u ∧ F.raises u = true
    · obtain ⟨u, rfl, hu⟩ := he
      exact .inr ⟨[], u, t, rfl, hu, by simp⟩
    · have he' : ∀ u, e = .warn u → F.raises u = false := fun u hu => by
        cases hh : F.raises u
        · rfl
        · exact absurd ⟨u, hu, hh⟩ he
      rcases ih with ih | ⟨a, u, b, rfl, h1, h2⟩
      · refine .inl fun w hw => ?_
        rcases List.mem_cons.1 hw with hw | hw
        · exact he' w hw.symm
        · exact ih w hw
      · refine .inr ⟨e :: a, u, b, rfl, h1, fun w hw => ?_⟩
        rcases List.mem_cons.1 hw with hw | hw
        · exact he' w hw.symm
        · exact h2 w hw

/-- **C97** (keys).  Whichever warnings the filter turns into exceptions: constructing a key, reading one from bytes or
text, making parameters, converting and generating keys, and reading the options or the authority's key of a certificate do
what they do under the default filter up to the first such warning, which reaches the caller.  (Missing: `PrivateKeyList.from_bytes`
and `from_string`, for which this is false: `C97_lists`, `C97_false`.) -/
theorem C97_keys_partial (ext : Ext) (lib : Lib) (gen : Gen) :
    (∀ kind h p f clear, Raises F.raises .userWarning (mkKey ext kind h p f clear) (Filtered.mkKey ext kind h p f clear)) ∧
    (∀ kind b clear, Raises F.raises .userWarning (fromBytes ext kind b clear) (Filtered.fromBytes ext kind b clear)) ∧
    (∀ kind s, Raises F.raises .userWarning (fromString ext kind s) (Filtered.fromString ext kind s)) ∧
    (∀ c d, Raises F.raises .userWarning (newParams ext c d) (Filtered.newParams ext c d)) ∧
    (∀ c o, Raises F.raises .userWarning (convertFrom lib ext c o) (Filtered.convertFrom lib ext c o)) ∧
    (∀ t c kw, Raises F.raises .userWarning (generate ext lib gen t c kw) (Filtered.generate ext lib gen t c kw)) ∧
    (∀ d param o, Raises F.raises .userWarning (getOption d param o) (Filtered.getOption d param o)) ∧
    (∀ d, Raises F.raises .userWarning (getSignatureKey ext d) (Filtered.getSignatureKey ext d)) := by
  refine ⟨fun kind h p f clear => ?_, fun kind b clear => ?_, fun kind s => ?_, fun c d => ?_, fun c o => ?_,
    fun t c kw => ?_, fun d param o => ?_, fun d => ?_⟩
  · rw [Filtered.mkKey_cut]; exact cut_raises _ _ _
  · rw [Filtered.fromBytes_cut]; exact cut_raises _ _ _
  · rw [Filtered.fromString_cut]; exact cut_raises _ _ _
  · rw [Filtered.newParams_cut]; exact cut_raises _ _ _
  · rw [Filtered.convertFrom_cut]; exact cut_raises _ _ _
  · rw [Filtered.generate_cut]; exact cut_raises _ _ _
  · rw [Filtered.getOption_cut]; exact cut_raises _ _ _
  · rw [Filtered.getSignatureKey_cut]; exact cut_raises _ _ _

/-- **C97** (streams).  Reading a key from a stream: the same, and the stream is left at the same place, whether or not a
warning is raised. -/
theorem C97_stream (ext : Ext) (kind : Kind) (clear : Option VDict) (s : Stream) :
    Raises F.raises .userWarning (fromByteStream ext kind clear s).1 (Filtered.fromByteStream ext kind clear s).1 ∧
    (Filtered.fromByteStream ext kind clear s).2 = (fromByteStream ext kind clear s).2 := by
  rw [Filtered.fromByteStream_cut]
  exact ⟨cut_raises _ _ _, rfl⟩

/-- **C97** (setting an option).  The same; and a certificate on which a warning is raised is left as it was. -/
theorem C97_set_option (d : VDict) (param : Str) (o : OptArg) (v : Val) :
    Raises F.raises .userWarning (setOption d param o v).1 (Filtered.setOption d param o v).1 ∧
    ((∃ w, .warn w ∈ (setOption d param o v).1.log ∧ F.raises w = true) → (Filtered.setOption d param o v).2 = d) ∧
    ((∀ w, .warn w ∈ (setOption d param o v).1.log → F.raises w = false) →
      (Filtered.setOption d param o v).2 = (setOption d param o v).2) := by
  let x : Eff Bytes := do
    Eff.lift (optionGuard d o)
    let m ← getOptionValues d param
    Eff.lift (packOptions (dset m o.key v) .bytes)
  let y : Eff Bytes := do
    Eff.lift (optionGuard d o)
    let m ← Filtered.getOptionValues d param
    Eff.lift (packOptions (dset m o.key v) .bytes)
  have hy : y = Filtered.cutAt x := by
    simp only [y, x, cut_bind, cut_lift, Filtered.getOptionValues_cut]
  have h1 : setOption d param o v = match x.res with
      | .ok b => (⟨x.log, .ok ()⟩, dset d param (.bytes b))
      | .error e => (⟨x.log, .error e⟩, d) := rfl
  have h2 : Filtered.setOption d param o v = match y.res with
      | .ok b => (⟨y.log, .ok ()⟩, dset d param (.bytes b))
      | .error e => (⟨y.log, .error e⟩, d) := rfl
  have hl : (setOption d param o v).1.log = x.log := by rw [h1]; split <;> rfl
  have hr := cut_raises F.raises .userWarning x
  rw [show x.cut F.raises .userWarning = y from hy.symm] at hr
  have hn : (∀ w, .warn w ∈ x.log → F.raises w = false) → Filtered.setOption d param o v = setOption d param o v := by
    intro h
    rw [h1, h2, hr.none h]
  have hf : ∀ a w b, x.log = a ++ .warn w :: b → F.raises w = true → (∀ u, .warn u ∈ a → F.raises u = false) →
      Filtered.setOption d param o v = (⟨a, .error (.userWarning w)⟩, d) := by
    intro a w b h h' h''
    rw [h2, hr.first a w b h h' h'']
  refine ⟨⟨fun h => by rw [hn (hl ▸ h)], fun a w b h h' h'' => by rw [hf a w b (hl ▸ h) h' h'']⟩, ?_, fun h => by rw [hn (hl ▸ h)]⟩
  rw [hl]
  rintro ⟨w, hw, hb⟩
  rcases first_raised x.log with hn' | ⟨a, u, b, h, h', h''⟩
  · rw [hn' w hw] at hb; cases hb
  · rw [hf a u b h h' h'']

/-- **C97** (packing).  Packing a key list, and making key derivation options: the same. -/
theorem C97_pack (cr : Crypto) (inp : Inputs) :
    (∀ kl p is override retain, Raises F.raises .userWarning (packKeyList cr inp kl p is override retain)
      (Filtered.packKeyList cr inp kl p is override retain)) ∧
    (∀ kl p is override retain, Raises F.raises .userWarning (packListString cr inp kl p is override retain)
      (Filtered.packListString cr inp kl p is override retain)) ∧
    (∀ c d, Raises F.raises .userWarning (newKdf c d) (Filtered.newKdf c d)) ∧
    (∀ t kw c, Raises F.raises .userWarning (generateKdfWith t kw c) (Filtered.generateKdfWith t kw c)) := by
  refine ⟨fun kl p is o r => ?_, fun kl p is o r => ?_, fun c d => ?_, fun t kw c => ?_⟩
  · rw [Filtered.packKeyList_cut]; exact cut_raises _ _ _
  · rw [Filtered.packListString_cut]; exact cut_raises _ _ _
  · rw [Filtered.newKdf_cut]; exact cut_raises _ _ _
  · rw [Filtered.generateKdfWith_cut]; exact cut_raises _ _ _

/-- **C97** (key lists).  `PrivateKeyList.from_bytes` and `from_string` also do what they do under the default filter up to the
first warning that is raised; but the caller gets a `ValueError` about an unexpected error condition instead of the
`UserWarning`. -/
theorem C97_lists (ext : Ext) (cr : Crypto) (inp : Inputs) :
    (∀ b p, Raises F.raises (fun _ => .valueError "Unexpected error condition reached.")
      (listFromBytes ext cr inp b p) (Filtered.listFromBytes ext cr inp b p)) ∧
    (∀ s p, Raises F.raises (fun _ => .valueError "Unexpected error condition reached.")
      (listFromString ext cr inp s p) (Filtered.listFromString ext cr inp s p)) := by
  refine ⟨fun b p => ?_, fun s p => ?_⟩
  · rw [Filtered.listFromBytes_cut]; exact cut_raises _ _ _
  · rw [Filtered.listFromString_cut]; exact cut_raises _ _ _

theorem cliMain_list {ext : Ext} {cr : Crypto} {inp : Inputs} {n : Nat} {file : Bytes} {p : Option Str} {t : Str}
    (hr : readText file = .ok t) (hs : startsWith t pemHeader = true) :
    Filtered.cliMain ext cr inp n file p = Filtered.cutList (cliMain ext cr inp n file p) := by
  unfold Filtered.cliMain cliMain
  rw [hr, Eff.lift_ok_bind, Eff.lift_ok_bind, Filtered.cliParse_list _ _ _ _ _ hs]
  refine Eq.trans ?_ (cut_bind _ _).symm
  refine congrArg _ (funext fun r => ?_)
  rw [cut_bind, cut_lift]
  rfl

theorem cliMain_lines {ext : Ext} {cr : Crypto} {inp : Inputs} {n : Nat} {file : Bytes} {p : Option Str} {t : Str}
    (hr : readText file = .ok t) (hs : ¬ startsWith t pemHeader = true) :
    Filtered.cliMain ext cr inp n file p = Filtered.cutAt (cliMain ext cr inp n file p) := by
  unfold Filtered.cliMain cliMain
  rw [hr, Eff.lift_ok_bind, Eff.lift_ok_bind, Filtered.cliParse_lines _ _ _ _ _ hs]
  exact Filtered.bind_cut rfl (fun _ => Filtered.bind_cut rfl (fun _ => rfl))

/-- **C97** (program).  The command line program: as `from_string` for the text of a private key file, and as the other
operations for everything else. -/
theorem C97_program (ext : Ext) (cr : Crypto) (inp : Inputs) (maxDigits : Nat) (file : Bytes) (p : Option Str) :
    ((∃ t, readText file = .ok t ∧ startsWith t pemHeader = true) →
      Raises F.raises (fun _ => .valueError "Unexpected error condition reached.")
        (cliMain ext cr inp maxDigits file p) (Filtered.cliMain ext cr inp maxDigits file p)) ∧
    (¬ (∃ t, readText file = .ok t ∧ startsWith t pemHeader = true) →
      Raises F.raises .userWarning
        (cliMain ext cr inp maxDigits file p) (Filtered.cliMain ext cr inp maxDigits file p)) := by
  constructor
  · rintro ⟨t, hr, hs⟩
    rw [cliMain_list hr hs]; exact cut_raises _ _ _
  · intro hn
    cases hr : readText file with
    | error e =>
      have h1 : cliMain ext cr inp maxDigits file p = Eff.throw e := by
        unfold cliMain; rw [hr, Eff.lift_error_bind]
      have h2 : Filtered.cliMain ext cr inp maxDigits file p = Eff.throw e := by
        unfold Filtered.cliMain; rw [hr, Eff.lift_error_bind]
      rw [h1, h2]
      exact cut_raises _ _ (Eff.throw e)
    | ok t =>
      rw [cliMain_lines hr (fun hs => hn ⟨t, hr, hs⟩)]; exact cut_raises _ _ _

/-- **C97** (success).  An operation that behaves as in the theorems above returns a value exactly if it returns this value under
the default filter and emits no warning that is raised; its events are then the same. -/
theorem C97_success {α : Type} {exn : Warning → Exn} {usual run : Eff α} (h : Raises F.raises exn usual run) (r : α) :
    (run.res = .ok r ↔ usual.res = .ok r ∧ ∀ w, .warn w ∈ usual.log → F.raises w = false) ∧
    (run.res = .ok r → run.log = usual.log) := by
  rcases first_raised usual.log with hn | ⟨a, u, b, h1, h2, h3⟩
  · rw [h.none hn]
    exact ⟨⟨fun hr => ⟨hr, hn⟩, And.left⟩, fun _ => rfl⟩
  · rw [h.first a u b h1 h2 h3]
    refine ⟨⟨fun hr => (by cases hr), fun ⟨_, hr⟩ => ?_⟩, fun hr => (by cases hr)⟩
    rw [hr u (h1 ▸ List.mem_append_right _ List.mem_cons_self)] at h2
    cases h2

end

/-- `python -W error` -/
@[instance_reducible] def exStrict : Filter := ⟨fun _ => true⟩
/-- `python -W "error:Public key does not match"` -/
@[instance_reducible] def exMismatch : Filter := ⟨fun w => decide (w = .ed25519PublicMismatch)⟩

/-- The example file has a warning before the passphrase is asked for, and others after that. -/
theorem exFile_log : (listFromBytes exExt toyCrypto exInputs exFile none).log =
    [.warn .ed25519PublicLength, .prompt, .warn .ed25519PublicLength, .warn .ed25519PublicMismatch,
      .warn .ed25519PrivateLength] := by decide +kernel

/-- If all warnings are raised, nobody is asked for the passphrase. -/
example : @Filtered.listFromBytes exStrict exExt toyCrypto exInputs exFile none =
    ⟨[], .error (.valueError "Unexpected error condition reached.")⟩ :=
  ((@C97_lists exStrict exExt toyCrypto exInputs).1 _ _).first [] .ed25519PublicLength _ exFile_log rfl (by simp)
/-- If only the third one is, the others are still emitted before it. -/
example : @Filtered.listFromBytes exMismatch exExt toyCrypto exInputs exFile none =
    ⟨[.warn .ed25519PublicLength, .prompt, .warn .ed25519PublicLength],
      .error (.valueError "Unexpected error condition reached.")⟩ :=
  ((@C97_lists exMismatch exExt toyCrypto exInputs).1 _ _).first _ .ed25519PublicMismatch _ exFile_log rfl
    (by simp; rfl)
/-- A key with a short public key. -/
example : @Filtered.fromBytes exStrict exExt .pub (pb! "\x00\x00\x00\x0bssh-ed25519\x00\x00\x00\x02\x01\x02") none =
    ⟨[], .error (.userWarning .ed25519PublicLength)⟩ ∧
    @Filtered.fromBytes exMismatch exExt .pub (pb! "\x00\x00\x00\x0bssh-ed25519\x00\x00\x00\x02\x01\x02") none =
    fromBytes exExt .pub (pb! "\x00\x00\x00\x0bssh-ed25519\x00\x00\x00\x02\x01\x02") none := by
  have h : (fromBytes exExt .pub (pb! "\x00\x00\x00\x0bssh-ed25519\x00\x00\x00\x02\x01\x02") none).log =
      [.warn .ed25519PublicLength] := by decide +kernel
  refine ⟨((@C97_keys_partial exStrict exExt exLib exGen).2.1 _ _ _).first [] _ [] h rfl (by simp),
    ((@C97_keys_partial exMismatch exExt exLib exGen).2.1 _ _ _).none ?_⟩
  rw [h]
  simp
  rfl

/-- **C97** is false of `PrivateKeyList.from_bytes`: the warning does not reach the caller as a `UserWarning`, although the
documentation says that one is raised. -/
theorem C97_false : ¬ ∀ (F : Filter) (ext : Ext) (cr : Crypto) (inp : Inputs) (b : Bytes) (p : Option Str),
    Raises F.raises .userWarning (listFromBytes ext cr inp b p) (@Filtered.listFromBytes F ext cr inp b p) := by
  intro h
  have h1 := (h exStrict exExt toyCrypto exInputs exFile none).first [] .ed25519PublicLength _ exFile_log rfl (by simp)
  have h2 := ((@C97_lists exStrict exExt toyCrypto exInputs).1 exFile none).first [] .ed25519PublicLength _ exFile_log rfl
    (by simp)
  rw [h2] at h1
  cases h1

end OSK
