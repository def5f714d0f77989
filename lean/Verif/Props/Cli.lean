import Verif.Model.Cli
import Verif.Lemmas.TextLine
import Verif.Props.ListText
/-
Properties C57 and C58: generated pairs, and the command line program on public key files.
-/
namespace OSK
open Spec

/-! ### C57 -/

/-- **C57** is false: the public key of a generated pair is made from the private parameters, and keeps all
of them, here the RSA private exponent `d`. -/
theorem C57_false : ∃ (p : Pair) (v : Val),
    (generatePair exExt (py! "ssh-rsa") [] exRsaPrivParams).res = .ok p ∧
    p.pub.kind = .pub ∧ dget p.pub.params.data (py! "d") = some v ∧
    publicFields (py! "ssh-rsa") = some rsaFields ∧ py! "d" ∉ dkeys rsaFields :=
  ⟨⟨⟨.pub, [(py! "key_type", .str (py! "ssh-rsa"))], ⟨.rsaPub, exRsaPrivParams⟩, [], []⟩,
    ⟨.priv, [(py! "key_type", .str (py! "ssh-rsa"))], ⟨.rsaPriv, exRsaPrivParams⟩,
      [(py! "comment", .str [])], []⟩⟩, (dget exRsaPrivParams (py! "d")).getD (.int 0),
    by decide +kernel, rfl, by decide +kernel, by decide +kernel, by decide +kernel⟩

/-- The parts of a generated pair. -/
theorem generatePair_ok {ext : Ext} {t comment : Str} {params : VDict} {p : Pair}
    (h : (generatePair ext t comment params).res = .ok p) :
    (mkKey ext .priv [(py! "key_type", .str t)] params [(py! "comment", .str comment)] none).res = .ok p.priv ∧
    (mkKey ext .pub [(py! "key_type", .str t)] params [] none).res = .ok p.pub := by
  unfold generatePair at h
  obtain ⟨c, hc, h⟩ := Eff.bind_res_ok_iff.1 h
  obtain ⟨a, ha, h⟩ := Eff.bind_res_ok_iff.1 h
  obtain ⟨b, hb, h⟩ := Eff.bind_res_ok_iff.1 h
  simp at h
  subst h
  exact ⟨ha, hb⟩

/-- **C57** for what is written: the packed form of the generated public key depends only on the documented
public parameters, so no private parameter gets into it, and it is the packed public form of the private
key.  Missing from the full statement: the public key object in memory does keep the private parameters,
see `C57_false`. -/
theorem C57_packed_partial (ext : Ext) (t comment comment' : Str) (params params' : VDict) (p p' : Pair)
    (fields : FDict) (h : (generatePair ext t comment params).res = .ok p)
    (h' : (generatePair ext t comment' params').res = .ok p') (hf : publicFields t = some fields)
    (hag : ∀ n ∈ dkeys fields, dget params n = dget params' n) :
    packPublicBytes p.pub = packPublicBytes p'.pub ∧ packPublicBytes p.pub = packPublicBytes p.priv ∧
      packPublicString ext p.pub false false = packPublicString ext p'.pub false false := by
  have key : ∀ {t comment params p}, (generatePair ext t comment params).res = .ok p →
      Constructed ext p.pub ∧ Constructed ext p.priv ∧
      dget p.pub.header (py! "key_type") = some (.str t) ∧ dget p.priv.header (py! "key_type") = some (.str t) ∧
      p.pub.params.data = params ∧ p.priv.params.data = params := by
    intro t comment params p h
    obtain ⟨h1, h2⟩ := generatePair_ok h
    obtain ⟨pub, priv⟩ := p
    obtain ⟨pk, ph, pp, pf, pc⟩ := pub
    obtain ⟨sk, sh, sp, sf, sc⟩ := priv
    simp only at h1 h2
    obtain ⟨k1, c1⟩ : sk = .priv ∧ pk = .pub := by
      obtain ⟨_, _, _, _, he, _⟩ := mkKeyWith_ok h1
      obtain ⟨_, _, _, _, he', _⟩ := mkKeyWith_ok h2
      simp at he he'
      exact ⟨he.1, he'.1⟩
    subst k1 c1
    refine ⟨⟨_, _, _, _, h2⟩, ⟨_, _, _, _, h1⟩, ?_⟩
    obtain ⟨_, _, _, _, he, _⟩ := mkKeyWith_ok h1
    obtain ⟨_, _, _, _, he', _⟩ := mkKeyWith_ok h2
    simp at he he'
    obtain ⟨rfl, rfl, -⟩ := he
    obtain ⟨rfl, rfl, -⟩ := he'
    refine ⟨?_, ?_, rfl, rfl⟩ <;> simp [dget]
  obtain ⟨a1, a2, a3, a4, a5, a6⟩ := key h
  obtain ⟨b1, b2, b3, b4, b5, b6⟩ := key h'
  refine ⟨?_, ?_, ?_⟩
  · exact C21_public_bytes_noninterference ext _ _ t fields a1 b1 a3 b3 hf (by rw [a5, b5]; exact hag)
  · exact C21_public_bytes_noninterference ext _ _ t fields a1 a2 a3 a4 hf (by rw [a5, a6]; simp)
  · exact C21_public_string_noninterference ext _ _ t fields false false a1 b1 a3 b3 hf
      (by rw [a5, b5]; exact hag) (by simp) (by simp)

/-- Non-vacuous: two sets of RSA parameters with the same public values and different `d`. -/
example : ((generatePair exExt (py! "ssh-rsa") [] exRsaPrivParams).res.toOption).isSome = true ∧
    ((generatePair exExt (py! "ssh-rsa") [] (dset exRsaPrivParams (py! "d") (.int 5))).res.toOption).isSome = true ∧
    (∀ n ∈ dkeys rsaFields, dget exRsaPrivParams n = dget (dset exRsaPrivParams (py! "d") (.int 5)) n) ∧
    exRsaPrivParams ≠ dset exRsaPrivParams (py! "d") (.int 5) := by decide +kernel

/-! ### C58 -/

/-- **C58** is false: a blank line, or any line without a space, aborts the program with `IndexError`, and
so does, with `KeyError`, a well-formed line with a key of an unsupported type. -/
theorem C58_false :
    (cliParse exExt toyCrypto exInputs (exRsaLine ++ py! "\n" ++ exRsaLine) none).res = .error .indexError ∧
    (cliParse exExt toyCrypto exInputs (exRsaLine ++ py! "#comment\n") none).res = .error .indexError ∧
    (cliParse exExt toyCrypto exInputs (exRsaLine ++ py! "x AAAAAXg=\n") none).res =
      .error (.keyError (some (py! "x"))) := by decide +kernel

/-- What `PublicKey.from_string` can raise. -/
theorem fromString_exn {ext : Ext} {kind : Kind} {s : Str} {e : Exn} (h : (fromString ext kind s).res = .error e) :
    (e = .indexError ∧ 32 ∉ s) ∨ (∃ k, e = .keyError k) ∨ e.isValueError = true ∨ e.isEOFError = true := by
  rcases split_cases s with ⟨h0, hs⟩ | h1
  · rw [fromString_one ext kind hs] at h
    simp at h; subst h
    exact Or.inl ⟨rfl, fun hm => h0 32 hm rfl⟩
  · right
    have : ∃ a b c, fromString ext kind s = fromStringTail ext kind a b c := by
      rcases h1 with ⟨a, b, -, -, -, hs⟩ | ⟨a, b, c, -, -, -, hs⟩
      · exact ⟨a, b, [], fromString_two ext kind hs⟩
      · exact ⟨a, b, c, fromString_three ext kind hs⟩
    obtain ⟨a, b, c, hs⟩ := this
    rw [hs] at h
    unfold fromStringTail at h
    rcases Eff.bind_res_error_iff.1 h with h | ⟨x, -, h⟩
    · exact Or.inr (Or.inl (b64decodeStr_exn (by simpa using h)))
    · rcases Eff.bind_res_error_iff.1 h with h | ⟨k, -, h⟩
      · rcases (fromBytes_within ext kind x _).exn e h with h | rfl | h
        · exact Or.inl h
        · exact Or.inr (Or.inl rfl)
        · exact Or.inr (Or.inr h)
      · rcases Eff.bind_res_error_iff.1 h with h | ⟨t, -, h⟩
        · unfold getItem at h
          split at h <;> simp at h
          exact Or.inl ⟨_, h.symm⟩
        · split at h <;> (simp only [Eff.bind_res_error_iff] at h; simp at h)

/-- The exceptions of a line that abort the program. -/
def Spec.Aborts (e : Exn) : Prop := e = .indexError ∨ ∃ k, e = .keyError k

theorem not_aborts {e : Exn} (h : e.isValueError = true ∨ e.isEOFError = true) :
    ¬ Aborts e ∧ (e.isValueError || e = .notImplementedError || e.isEOFError) = true := by
  refine ⟨?_, ?_⟩
  · rintro (rfl | ⟨k, rfl⟩) <;> simp [Exn.isValueError, Exn.isEOFError] at h
  · rcases h with h | h <;> simp [h]

theorem aborts_uncaught {e : Exn} (h : Aborts e) :
    (e.isValueError || e = .notImplementedError || e.isEOFError) = false := by
  rcases h with rfl | ⟨k, rfl⟩ <;> rfl

/-- One line: it aborts, gives a key, or gives a warning. -/
theorem cliLine_cases (ext : Ext) (i : Nat) (l : Str) :
    (∃ e, Aborts e ∧ (fromString ext .pub l).res = .error e ∧
      cliLine ext i l = ⟨(fromString ext .pub l).log, .error e⟩) ∨
    (∃ k, (fromString ext .pub l).res = .ok k ∧
      cliLine ext i l = ⟨(fromString ext .pub l).log, .ok (some k)⟩) ∨
    (∃ e, ¬ Aborts e ∧ (fromString ext .pub l).res = .error e ∧
      cliLine ext i l = ⟨(fromString ext .pub l).log ++ [.warn (.couldNotParseLine i)], .ok none⟩) := by
  unfold cliLine Eff.tryCatch
  rcases h : (fromString ext .pub l).res with e | k
  · rw [Eff.bind_error h]
    have hx : Aborts e ∨ (e.isValueError = true ∨ e.isEOFError = true) := by
      rcases fromString_exn h with h | h | h
      · exact Or.inl (Or.inl h.1)
      · exact Or.inl (Or.inr h)
      · exact Or.inr h
    rcases hx with hx | hx
    · left
      refine ⟨e, hx, rfl, ?_⟩
      simp only [aborts_uncaught hx]
      rfl
    · right; right
      obtain ⟨h1, h2⟩ := not_aborts hx
      refine ⟨e, h1, rfl, ?_⟩
      simp only [h2]
      rfl
  · right; left
    refine ⟨k, rfl, ?_⟩
    rw [Eff.bind_ok h]
    simp

/-- The numbers of the lines for which there is a warning, in order. -/
def Spec.warnedLines (log : List Event) : List Nat :=
  log.filterMap (fun v => match v with | .warn (.couldNotParseLine i) => some i | _ => none)

theorem fromString_no_line (ext : Ext) (l : Str) : warnedLines (fromString ext .pub l).log = [] := by
  have key : Within (fun _ => True) (fun v => ∀ i, v ≠ .warn (.couldNotParseLine i)) (fromString ext .pub l) := by
    rcases fromString_cases ext .pub l with h | ⟨a, b, c, -, -, h⟩
    · rw [h]; exact Within.throw trivial
    · rw [h]
      unfold fromStringTail
      refine (Within.lift fun _ _ => trivial).bind fun x _ => ?_
      refine ((fromBytes_within ext .pub x _).mono (fun _ _ => trivial) ?_).bind fun k _ => ?_
      · rintro v hv i rfl; exact hv
      · refine (Within.lift fun _ _ => trivial).bind fun t _ => ?_
        exact Within.warnIf (by intro i; simp) (Within.pure _)
  unfold warnedLines
  rw [List.filterMap_eq_nil_iff]
  intro v hv
  have := key.ev v hv
  split
  · exact absurd rfl (this _)
  · rfl

theorem warnedLines_append (a b : List Event) : warnedLines (a ++ b) = warnedLines a ++ warnedLines b :=
  List.filterMap_append

theorem cliLines_ok (ext : Ext) : ∀ (ls : List Str) (i : Nat),
    (∀ l ∈ ls, ∀ e, (fromString ext .pub l).res = .error e → ¬ Aborts e) →
    (cliLines ext i ls).res = .ok (ls.filterMap (fun l => (fromString ext .pub l).res.toOption)) ∧
    (warnedLines (cliLines ext i ls).log).Pairwise (· < ·) ∧
    ∀ j, j ∈ warnedLines (cliLines ext i ls).log ↔
      ∃ n l e, j = i + n ∧ ls[n]? = some l ∧ (fromString ext .pub l).res = .error e := by
  intro ls
  induction ls with
  | nil => intro i _; simp [cliLines, warnedLines]
  | cons l ls ih =>
    intro i h
    obtain ⟨h1, h2, h3⟩ := ih (i + 1) fun x hx => h x (by simp [hx])
    have h0 := h l (by simp)
    rw [cliLines]
    rcases cliLine_cases ext i l with ⟨e, ha, he, -⟩ | ⟨k, hk, hl⟩ | ⟨e, -, he, hl⟩
    · exact absurd ha (h0 e he)
    · rw [hl, Eff.mk_bind_ok, Eff.bind_ok h1]
      simp only [Eff.pure_res, Eff.pure_log, List.append_nil, warnedLines_append, fromString_no_line,
        List.nil_append, List.filterMap_cons, hk]
      refine ⟨rfl, h2, fun j => ?_⟩
      rw [h3]
      constructor
      · rintro ⟨n, x, e, rfl, hx, he⟩
        exact ⟨n + 1, x, e, by omega, by simpa using hx, he⟩
      · rintro ⟨n, x, e, rfl, hx, he⟩
        cases n with
        | zero => simp at hx; subst hx; rw [hk] at he; cases he
        | succ n => exact ⟨n, x, e, by omega, by simpa using hx, he⟩
    · rw [hl, Eff.mk_bind_ok, Eff.bind_ok h1]
      simp only [Eff.pure_res, Eff.pure_log, List.append_nil, warnedLines_append, fromString_no_line,
        List.nil_append, List.filterMap_cons, he]
      have hw : warnedLines [Event.warn (Warning.couldNotParseLine i)] = [i] := rfl
      rw [hw]
      refine ⟨rfl, ?_, fun j => ?_⟩
      · rw [List.singleton_append, List.pairwise_cons]
        refine ⟨fun j hj => ?_, h2⟩
        obtain ⟨n, _, _, rfl, -⟩ := (h3 j).1 hj
        omega
      · rw [List.singleton_append, List.mem_cons, h3]
        constructor
        · rintro (rfl | ⟨n, x, e', rfl, hx, he'⟩)
          · exact ⟨0, l, e, rfl, rfl, he⟩
          · exact ⟨n + 1, x, e', by omega, by simpa using hx, he'⟩
        · rintro ⟨n, x, e', rfl, hx, he'⟩
          cases n with
          | zero => left; rfl
          | succ n => right; exact ⟨n, x, e', by omega, by simpa using hx, he'⟩

theorem cliLines_error (ext : Ext) {e : Exn} : ∀ (ls : List Str) (i : Nat),
    (cliLines ext i ls).res = .error e ↔
    ∃ a l b, ls = a ++ l :: b ∧ (∀ x ∈ a, ∀ e, (fromString ext .pub x).res = .error e → ¬ Aborts e) ∧
      (fromString ext .pub l).res = .error e ∧ Aborts e := by
  intro ls
  induction ls with
  | nil => intro i; simp [cliLines]
  | cons l ls ih =>
    intro i
    rw [cliLines]
    have step : ∀ (ev : List Event) (o : Option Key), cliLine ext i l = ⟨ev, .ok o⟩ →
        ((do
          let k ← cliLine ext i l
          let ks ← cliLines ext (i + 1) ls
          pure (k.toList ++ ks) : Eff (List Key)).res = .error e ↔ (cliLines ext (i + 1) ls).res = .error e) := by
      intro ev o ho
      rw [ho, Eff.mk_bind_ok]
      simp [Eff.bind_res_error_iff]
    rcases cliLine_cases ext i l with ⟨e', ha, he, hl⟩ | ⟨k, hk, hl⟩ | ⟨e', hna, he, hl⟩
    · rw [hl, Eff.mk_bind_error]
      simp only [Except.error.injEq]
      constructor
      · rintro rfl
        exact ⟨[], l, ls, rfl, by simp, he, ha⟩
      · rintro ⟨a, l', b, h1, h2, h3, h4⟩
        cases a with
        | nil =>
          simp at h1
          rw [← h1.1, he] at h3
          simpa using h3
        | cons x a =>
          simp at h1
          exact absurd ha (h2 x (by simp) e' (by rw [← h1.1]; exact he))
    all_goals
      rw [step _ _ hl, ih]
      constructor
      · rintro ⟨a, l', b, rfl, h2, h3, h4⟩
        refine ⟨l :: a, l', b, rfl, ?_, h3, h4⟩
        intro x hx e'' he''
        rcases List.mem_cons.1 hx with rfl | hx
        · simp_all
        · exact h2 x hx e'' he''
      · rintro ⟨a, l', b, h1, h2, h3, h4⟩
        cases a with
        | nil => simp at h1; simp_all
        | cons x a =>
          simp at h1
          exact ⟨a, l', b, h1.2, fun y hy => h2 y (by simp [hy]), h3, h4⟩

/-- **C58**, for files in which every line either has a key or fails with a handled exception: the program
goes through all lines; the keys are those of the lines that parse, in order, and there is a warning with
the number of the line for exactly the others, in order.  Missing from the full statement: lines that make
`from_string` raise `IndexError` or `KeyError`, see `C58_false` and `C58_aborts`. -/
theorem C58_lines_partial (ext : Ext) (cr : Crypto) (inp : Inputs) (contents : Str) (passphrase : Option Str)
    (h0 : ¬ beginMarker <+: contents)
    (h : ∀ l ∈ splitLines contents, ∀ e, (fromString ext .pub l).res = .error e → ¬ Aborts e) :
    (cliParse ext cr inp contents passphrase).res =
      .ok (.publicKeys ((splitLines contents).filterMap (fun l => (fromString ext .pub l).res.toOption))) ∧
    (warnedLines (cliParse ext cr inp contents passphrase).log).Pairwise (· < ·) ∧
    ∀ i, i ∈ warnedLines (cliParse ext cr inp contents passphrase).log ↔
      ∃ l e, (splitLines contents)[i]? = some l ∧ (fromString ext .pub l).res = .error e := by
  have hp : startsWith contents pemHeader = false := by
    rw [← Bool.not_eq_true, startsWith, decide_eq_true_eq, ← List.prefix_iff_eq_take.trans eq_comm]
    exact h0
  obtain ⟨h1, h2, h3⟩ := cliLines_ok ext (splitLines contents) 0 h
  unfold cliParse
  rw [hp]
  simp only [Bool.false_eq_true, if_false, Eff.bind_res_of_ok h1, Eff.bind_log_ok h1, Eff.pure_res, Eff.pure_log,
    List.append_nil]
  refine ⟨trivial, h2, fun i => ?_⟩
  rw [h3]
  simp

/-- **C58** (what is missing, exactly). The program is aborted by `e` exactly when some line makes
`from_string` raise `e`, `e` is an `IndexError` or `KeyError`, and no earlier line does so; and a line
makes `from_string` raise `IndexError` exactly when there is no space in it. -/
theorem C58_aborts (ext : Ext) (cr : Crypto) (inp : Inputs) (contents : Str) (passphrase : Option Str) (e : Exn)
    (h0 : ¬ beginMarker <+: contents) :
    ((cliParse ext cr inp contents passphrase).res = .error e ↔
      ∃ a l b, splitLines contents = a ++ l :: b ∧
        (∀ x ∈ a, ∀ e, (fromString ext .pub x).res = .error e → ¬ Aborts e) ∧
        (fromString ext .pub l).res = .error e ∧ Aborts e) ∧
    ∀ l, (fromString ext .pub l).res = .error .indexError ↔ 32 ∉ l := by
  have hp : startsWith contents pemHeader = false := by
    rw [← Bool.not_eq_true, startsWith, decide_eq_true_eq, ← List.prefix_iff_eq_take.trans eq_comm]
    exact h0
  constructor
  · rw [← cliLines_error ext (splitLines contents) 0]
    unfold cliParse
    rw [hp]
    simp [Eff.bind_res_error_iff]
  · intro l
    constructor
    · intro h
      rcases fromString_exn h with h | ⟨k, h⟩ | h | h
      · exact h.2
      · cases h
      · cases h
      · cases h
    · intro h
      rw [fromString_one ext .pub (split_last 2 fun c hc h' => h (h' ▸ hc))]
      rfl

/-- Non-vacuous: three lines, of which the second (an end of file inside the key) and the third (not
base64) do not parse. -/
def exPublicFile : Str := exRsaLine ++ py! "ssh-rsa AAAA\nssh-rsa A\n"
example : ¬ beginMarker <+: exPublicFile := by decide +kernel
example : (cliParse exExt toyCrypto exInputs exPublicFile none).log =
    [.warn (.couldNotParseLine 1), .warn (.couldNotParseLine 2)] := by decide +kernel
example : (splitLines exPublicFile).map (fun l => (fromString exExt .pub l).res.toOption.isSome) =
    [true, false, false] := by decide +kernel

end OSK
