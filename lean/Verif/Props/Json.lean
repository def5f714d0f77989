import Verif.Lemmas.JsonEncode
import Verif.Props.FileGrammar
import Verif.Props.Cli
/-
Properties C81 to C84: what the command line program prints, for which files it prints anything, that what it prints
determines the result, and that the form of line ends does not matter.
-/
namespace OSK
open Spec

/-! ### Texts without surrogates -/

def ScalarStr (s : Str) : Prop := ∀ c ∈ s, c.isValidChar

theorem scalarStr_strOf (cs : List Char) : ScalarStr (strOf cs) := by
  intro c hc
  obtain ⟨d, -, rfl⟩ := List.mem_map.1 hc
  have := char_scalar d
  unfold Nat.isValidChar
  omega

theorem strOf_of_scalar {s : Str} (h : ScalarStr s) : ∃ cs : List Char, s = strOf cs := by
  induction s with
  | nil => exact ⟨[], rfl⟩
  | cons c t ih =>
    obtain ⟨cs, rfl⟩ := ih (fun d hd => h d (by simp [hd]))
    exact ⟨Char.ofNatAux c (h c (by simp)) :: cs, rfl⟩

theorem words_scalar {s a w c : Str} (h : Words s a w c) (hs : ScalarStr s) : ScalarStr a ∧ ScalarStr c := by
  cases h with
  | two => exact ⟨fun x hx => hs x (by simp [hx]), by simp [ScalarStr]⟩
  | three => exact ⟨fun x hx => hs x (by simp [hx]), fun x hx => hs x (by simp [hx])⟩

theorem linesOf_scalar {ls : List Str} {s : Str} (h : LinesOf ls s) (hs : ScalarStr s) : ∀ l ∈ ls, ScalarStr l := by
  induction h with
  | nil => simp
  | last => simpa using hs
  | crlf _ _ ih =>
    intro l hl
    rcases List.mem_cons.1 hl with rfl | hl
    · exact fun x hx => hs x (by simp [hx])
    · exact ih (fun x hx => hs x (by simp [hx])) l hl
  | cons _ _ _ _ ih =>
    intro l hl
    rcases List.mem_cons.1 hl with rfl | hl
    · exact fun x hx => hs x (by simp [hx])
    · exact ih (fun x hx => hs x (by simp [hx])) l hl

/-! ### Results of parsing have only such texts -/

theorem plainVal_encodes {fi : FI} {w : Bytes} {v : Val} (h : Encodes fi w v) : PlainVal v := by
  cases h with
  | bytes => exact .inr (.inl ⟨_, rfl⟩)
  | text => exact .inr (.inr ⟨_, rfl⟩)
  | mpint => exact .inl ⟨_, rfl⟩
  | uint => exact .inl ⟨_, rfl⟩

theorem plainDict_encodesAll {fmt : FDict} {w : Bytes} {d : VDict} (h : EncodesAll fmt w d)
    (hf : ∀ n ∈ dkeys fmt, ScalarStr n) : PlainDict d := by
  induction h with
  | nil => simp [PlainDict]
  | @cons k fi t w w' v d h1 h2 ih =>
    have := ih (fun n hn => hf n (by simp [dkeys] at hn ⊢; exact Or.inr hn))
    intro kv hkv
    rcases List.mem_cons.1 hkv with rfl | hkv
    · exact ⟨strOf_of_scalar (hf _ (by simp [dkeys])), plainVal_encodes h1⟩
    · exact this kv hkv

theorem tables_ascii : (∀ e ∈ keyTable, (∀ n ∈ dkeys e.2.1, ∀ c ∈ n, c < 128) ∧
    ∀ f ∈ e.2.2, ∀ n ∈ dkeys f, ∀ c ∈ n, c < 128) := by decide +kernel

theorem fieldsOf_scalar {kind : Kind} {t : Str} {fmt : FDict} (h : fieldsOf kind t = some fmt) :
    ∀ n ∈ dkeys fmt, ScalarStr n := by
  intro n hn c hc
  have : c < 128 := by
    cases kind
    · simp only [fieldsOf, publicFields, Option.map_eq_some_iff] at h
      obtain ⟨r, hr, rfl⟩ := h
      exact (tables_ascii _ (dget_mem hr)).1 n hn c hc
    · simp only [fieldsOf, privateFields, Option.bind_eq_some_iff] at h
      obtain ⟨r, hr, hf⟩ := h
      exact (tables_ascii _ (dget_mem hr)).2 _ hf n hn c hc
  exact Or.inl (by omega)

theorem plainDict_one {n : Str} {v : Val} (hn : ∀ c ∈ n, c < 128) (hv : PlainVal v) (d : VDict) (hd : PlainDict d) :
    PlainDict ((n, v) :: d) := by
  intro kv hkv
  rcases List.mem_cons.1 hkv with rfl | hkv
  · exact ⟨strOf_of_scalar (fun c hc => Or.inl (by have := hn c hc; omega)), hv⟩
  · exact hd kv hkv

theorem plainDict_nil : PlainDict [] := by simp [PlainDict]

theorem plainDict_remainder (rest : Bytes) :
    PlainDict (if rest = [] then [] else [(py! "remainder", .bytes rest)]) := by
  split
  · exact plainDict_nil
  · exact plainDict_one (by decide) (.inr (.inl ⟨_, rfl⟩)) _ plainDict_nil

/-- The type, the values and the comment of a key that was read. -/
theorem keyReads_plain {kind : Kind} {b : Bytes} {k : Key} {rest : Bytes} (h : KeyReads kind b k rest)
    (hc : PlainDict k.clear) : PlainKey k := by
  obtain ⟨t, ⟨fmt, wt, wp, wf, h1, h2, h3, h4, -⟩, -, -, h5, -⟩ := h
  refine ⟨?_, plainDict_encodesAll h3 (fieldsOf_scalar h1), plainDict_encodesAll h4 ?_, hc⟩
  · rw [h5]
    exact plainDict_one (by decide) (plainVal_encodes h2) _ plainDict_nil
  · intro n hn
    cases kind
    · simp [afterFields, dkeys] at hn
    · simp [afterFields, dkeys] at hn
      subst hn
      intro c hc
      exact Or.inl (by have : ∀ c ∈ py! "comment", c < 128 := by decide
                       have := this c hc; omega)

theorem fromBytes_plain {ext : Ext} {kind : Kind} {b : Bytes} {k : Key} (h : (fromBytes ext kind b none).res = .ok k) :
    PlainKey k := by
  obtain ⟨rest, h1, h2⟩ := keyReads_iff.1 h
  exact keyReads_plain h1 (by rw [h2]; exact plainDict_remainder rest)

theorem fromString_plain {ext : Ext} {kind : Kind} {s : Str} {k : Key} (hs : ScalarStr s)
    (h : (fromString ext kind s).res = .ok k) : PlainKey k := by
  obtain ⟨a, w, c, b, rest, hw, -, h1, h2⟩ := (C76_accepts ext kind s k).1 h
  obtain ⟨ha, hc⟩ := words_scalar hw hs
  refine keyReads_plain h1 ?_
  rw [h2]
  exact plainDict_one (by decide) (.inr (.inr (by obtain ⟨cs, rfl⟩ := strOf_of_scalar ha; exact ⟨cs, rfl⟩))) _
    (plainDict_one (by decide) (.inr (.inr (by obtain ⟨cs, rfl⟩ := strOf_of_scalar hc; exact ⟨cs, rfl⟩))) _
      (plainDict_remainder rest))

theorem keysAt_priv {ext : Ext} {ps : List Pair} {ws : List Bytes} (h : KeysAt ext ps ws) :
    ∀ p ∈ ps, ∃ w, (fromBytes ext .priv w none).res = .ok p.priv ∧ p.priv.clear = [] := by
  induction ps generalizing ws with
  | nil => simp
  | cons p ps ih =>
    obtain ⟨w, t, rfl, h1, h2, h3⟩ := h
    intro q hq
    rcases List.mem_cons.1 hq with rfl | hq
    · exact ⟨w, h1, h2⟩
    · exact ih h3 q hq

theorem listFromBytes_plain {ext : Ext} {cr : Crypto} {inp : Inputs} {passphrase : Option Str} {b : Bytes} {kl : KeyList}
    (h : (listFromBytes ext cr inp b passphrase).res = .ok kl) : PlainList kl := by
  obtain ⟨P⟩ := listFromBytes_parse h
  have ho : KdfGiven inp passphrase P.f ⟨P.kc, P.od⟩ := kdf_given_iff.1 ⟨P.m, P.p, P.kdf, P.options, P.pass⟩
  have e := P.list
  refine ⟨fun p hp => ⟨?_, ?_⟩, ?_, ?_, ?_⟩
  · have hm : p.pub ∈ P.ks := by rw [← P.pairs]; exact List.mem_map.2 ⟨p, hp, rfl⟩
    obtain ⟨b, -, hb⟩ := forall₂_right P.pubs hm
    exact fromBytes_plain hb
  · obtain ⟨w, hw, -⟩ := keysAt_priv P.keys p hp
    exact fromBytes_plain hw
  · intro d hd
    rw [e] at hd
    simp at hd
    subst hd
    refine plainDict_one (by decide) (.inr (.inl ⟨_, rfl⟩)) _ (plainDict_one (by decide) (.inr (.inr ⟨_, rfl⟩)) _
      (plainDict_one (by decide) (.inr (.inr ⟨_, rfl⟩)) _ (plainDict_one (by decide) (.inr (.inl ⟨_, rfl⟩)) _
        (plainDict_one (by decide) (.inl ⟨_, rfl⟩) _ plainDict_nil))))
  · intro o hd
    rw [e] at hd
    simp at hd
    subst hd
    generalize (⟨P.kc, P.od⟩ : KdfOptions) = o at ho
    cases ho with
    | none => exact plainDict_nil
    | bcrypt => exact plainDict_one (by decide) (.inr (.inl ⟨_, rfl⟩)) _ (plainDict_one (by decide) (.inl ⟨_, rfl⟩) _
        plainDict_nil)
  · intro d hd
    rw [e] at hd
    simp at hd
    subst hd
    exact plainDict_one (by decide) (.inl ⟨_, rfl⟩) _ (plainDict_one (by decide) (.inl ⟨_, rfl⟩) _ plainDict_nil)

theorem listFromString_bytes {ext : Ext} {cr : Crypto} {inp : Inputs} {s : Str} {passphrase : Option Str} {kl : KeyList}
    (h : (listFromString ext cr inp s passphrase).res = .ok kl) : ∃ b, (listFromBytes ext cr inp b passphrase).res = .ok kl := by
  unfold listFromString at h
  simp only at h
  obtain ⟨a, -, h⟩ := Eff.bind_res_ok_iff.1 h
  split at h
  · simp at h
  · obtain ⟨z, -, h⟩ := Eff.bind_res_ok_iff.1 h
    split at h
    · simp at h
    · obtain ⟨b, -, h⟩ := Eff.bind_res_ok_iff.1 h
      exact ⟨b, h⟩

theorem cliLines_mem {ext : Ext} {ls : List Str} {i : Nat} {ks : List Key} (h : (cliLines ext i ls).res = .ok ks) :
    ∀ k ∈ ks, ∃ l ∈ ls, (fromString ext .pub l).res = .ok k := by
  induction ls generalizing i ks with
  | nil => simp [cliLines] at h; subst h; simp
  | cons l ls ih =>
    rw [cliLines] at h
    obtain ⟨o, ho, h⟩ := Eff.bind_res_ok_iff.1 h
    obtain ⟨t, ht, h⟩ := Eff.bind_res_ok_iff.1 h
    simp at h
    subst h
    intro k hk
    rcases List.mem_append.1 hk with hk | hk
    · rcases cliLine_cases ext i l with ⟨e, -, -, hl⟩ | ⟨k', hk', hl⟩ | ⟨e, -, -, hl⟩
      · rw [hl] at ho; simp at ho
      · rw [hl] at ho; simp at ho; subst ho; simp at hk; subst hk
        exact ⟨l, by simp, hk'⟩
      · rw [hl] at ho; simp at ho; subst ho; simp at hk
    · obtain ⟨l', hl', h'⟩ := ih ht k hk
      exact ⟨l', by simp [hl'], h'⟩

theorem cliParse_plain {ext : Ext} {cr : Crypto} {inp : Inputs} {s : Str} {passphrase : Option Str} {r : CliResult}
    (hs : ScalarStr s) (h : (cliParse ext cr inp s passphrase).res = .ok r) : PlainResult r := by
  unfold cliParse at h
  split at h
  · obtain ⟨kl, hk, h⟩ := Eff.bind_res_ok_iff.1 h
    simp at h
    subst h
    obtain ⟨b, hb⟩ := listFromString_bytes hk
    exact listFromBytes_plain hb
  · obtain ⟨ks, hk, h⟩ := Eff.bind_res_ok_iff.1 h
    simp at h
    subst h
    intro k hkm
    obtain ⟨l, hl, hk'⟩ := cliLines_mem hk k hkm
    exact fromString_plain (linesOf_scalar (linesOf_iff.1 rfl) hs l hl) hk'

/-! ### C84: line ends -/

theorem prefix_line {p l t : Str} {e : Nat} (he : e ∉ p) : p <+: l ++ e :: t ↔ p <+: l := by
  constructor
  · rintro ⟨u, hu⟩
    rcases List.append_eq_append_iff.1 hu with ⟨a, h1, -⟩ | ⟨c, h1, h2⟩
    · exact ⟨a, h1.symm⟩
    · cases c with
      | nil => simp at h1; subst h1; exact List.prefix_refl _
      | cons x y =>
        simp at h2
        exact absurd (by rw [h1, h2.1]; simp) he
  · exact fun h => h.trans (List.prefix_append _ _)

/-- Whether a text starts with a line's beginning depends on the first line only. -/
theorem linesOf_prefix {ls : List Str} {s p : Str} (h : LinesOf ls s) (hp : ∀ c ∈ lineBoundaries, c ∉ p) (h0 : p ≠ []) :
    p <+: s ↔ ∃ l t, ls = l :: t ∧ p <+: l := by
  cases h with
  | nil => simp [h0]
  | last h1 h2 => simp
  | crlf h1 h2 =>
    rw [List.append_assoc]
    exact (prefix_line (hp 13 (by decide))).trans (by simp)
  | cons h1 he hn h2 =>
    rw [List.append_assoc]
    exact (prefix_line (hp _ he)).trans (by simp)

theorem startsWith_iff {s p : Str} : startsWith s p = true ↔ p <+: s := by
  unfold startsWith
  rw [decide_eq_true_iff, List.prefix_iff_eq_take, eq_comm]

/-- **C84**. How the lines of a file end (line feed, carriage return, both, or another character that ends lines), and
whether the last one ends at all, does not matter to the program: texts with the same lines give the same result,
the same warnings and the same prompts. -/
theorem C84_line_ends (ext : Ext) (cr : Crypto) (inp : Inputs) (passphrase : Option Str) (ls : List Str) (s s' : Str)
    (h : LinesOf ls s) (h' : LinesOf ls s') : cliParse ext cr inp s passphrase = cliParse ext cr inp s' passphrase := by
  have hp : ∀ c ∈ lineBoundaries, c ∉ pemHeader := by decide
  have e : startsWith s pemHeader = startsWith s' pemHeader := by
    rw [Bool.eq_iff_iff, startsWith_iff, startsWith_iff, linesOf_prefix h hp (by decide), linesOf_prefix h' hp (by decide)]
  have e2 : splitLines s = splitLines s' := by rw [linesOf_iff.2 h, linesOf_iff.2 h']
  unfold cliParse listFromString
  rw [e, e2]

theorem universalNewlines_loop (s : Str) : ∀ cur, splitLinesLoop cur false (universalNewlines s) = splitLinesLoop cur false s := by
  fun_induction universalNewlines s with
  | case1 => intro cur; rfl
  | case2 t ih =>
    intro cur
    simp only [splitLinesLoop, isLineBreak]
    simp [ih]
  | case3 t hn ih =>
    intro cur
    have : splitLinesLoop [] true t = splitLinesLoop [] false t := loop_afterCR (by rintro ⟨u, rfl⟩; exact hn u rfl) _ _
    simp only [splitLinesLoop, isLineBreak]
    simp [ih, this]
  | case4 c t h1 h2 ih =>
    intro cur
    have hc : c ≠ 13 := h2
    simp only [splitLinesLoop, Bool.false_and, Bool.false_eq_true, if_false, decide_eq_false hc, ih]

/-- The translation of line ends when the file is read leaves the lines as they are. -/
theorem universalNewlines_lines (s : Str) : ∃ ls, LinesOf ls s ∧ LinesOf ls (universalNewlines s) :=
  ⟨splitLines s, linesOf_iff.1 rfl, linesOf_iff.1 (universalNewlines_loop s [])⟩

theorem cliParse_newlines (ext : Ext) (cr : Crypto) (inp : Inputs) (passphrase : Option Str) (s : Str) :
    cliParse ext cr inp (universalNewlines s) passphrase = cliParse ext cr inp s passphrase := by
  obtain ⟨ls, h1, h2⟩ := universalNewlines_lines s
  exact C84_line_ends ext cr inp passphrase ls _ _ h2 h1

theorem readText_utf8 (cs : List Char) : readText (utf8 cs) = .ok (universalNewlines (strOf cs)) := by
  unfold readText
  rw [utf8Decode?_utf8]

theorem cliMain_utf8 (ext : Ext) (cr : Crypto) (inp : Inputs) (m : Nat) (cs : List Char) (passphrase : Option Str) :
    cliMain ext cr inp m (utf8 cs) passphrase = (do
      let r ← cliParse ext cr inp (strOf cs) passphrase
      let out ← Eff.lift (render ext m r)
      pure (out ++ py! "\n")) := by
  unfold cliMain
  rw [readText_utf8, Eff.lift_ok_bind, cliParse_newlines]

/-- **C84** for the whole program. -/
theorem C84_files (ext : Ext) (cr : Crypto) (inp : Inputs) (maxDigits : Nat) (passphrase : Option Str) (ls : List Str)
    (cs cs' : List Char) (h : LinesOf ls (strOf cs)) (h' : LinesOf ls (strOf cs')) :
    cliMain ext cr inp maxDigits (utf8 cs) passphrase = cliMain ext cr inp maxDigits (utf8 cs') passphrase := by
  rw [cliMain_utf8, cliMain_utf8, C84_line_ends ext cr inp passphrase ls _ _ h h']

/-! ### C82: when something is printed -/

/-- The text is encoded in UTF-8, or the file cannot be decoded. -/
theorem readText_cases (file : Bytes) :
    (∃ cs, file = utf8 cs) ∨ ((¬ ∃ cs, file = utf8 cs) ∧ readText file = .error .unicodeDecodeError) := by
  by_cases h : ∃ cs, file = utf8 cs
  · exact .inl h
  · refine .inr ⟨h, ?_⟩
    unfold readText
    split
    · next s hs => 
      obtain ⟨cs, -, hb⟩ := utf8Encode?_some (utf8Encode_decode hs)
      exact absurd ⟨cs, hb⟩ h
    · rfl

theorem render_cases (ext : Ext) {r : CliResult} (h : PlainResult r) (m : Nat) :
    ∃ j, ResultShows r j ∧
      ((∀ i, Number r i → FewDigits m i) → ∃ s, render ext m r = .ok s ∧ LaidOut 0 (.value j) s ∧ Plain7 s) ∧
      ((∃ i, Number r i ∧ ¬ FewDigits m i) → ∃ msg, render ext m r = .error (.valueError msg)) := by
  obtain ⟨j, h1, h2⟩ := enc_result ext h
  exact ⟨j, h1, h2.ok m 0, h2.error m 0⟩

/-- **C82**. The complete list of outcomes.  Missing from the full statement: a file that can be parsed is not printed
if a number in it has too many digits, see `C82_false`. -/
theorem C82_outcome_partial (ext : Ext) (cr : Crypto) (inp : Inputs) (maxDigits : Nat) (file : Bytes)
    (passphrase : Option Str) :
    ((¬ ∃ cs, file = utf8 cs) → cliMain ext cr inp maxDigits file passphrase = ⟨[], .error .unicodeDecodeError⟩) ∧
    ∀ cs, file = utf8 cs →
      (∀ e, (cliParse ext cr inp (strOf cs) passphrase).res = .error e →
        cliMain ext cr inp maxDigits file passphrase = ⟨(cliParse ext cr inp (strOf cs) passphrase).log, .error e⟩) ∧
      ∀ r, (cliParse ext cr inp (strOf cs) passphrase).res = .ok r →
        ((∀ i, Number r i → FewDigits maxDigits i) → ∃ out, cliMain ext cr inp maxDigits file passphrase =
          ⟨(cliParse ext cr inp (strOf cs) passphrase).log, .ok out⟩) ∧
        ((∃ i, Number r i ∧ ¬ FewDigits maxDigits i) → ∃ msg, cliMain ext cr inp maxDigits file passphrase =
          ⟨(cliParse ext cr inp (strOf cs) passphrase).log, .error (.valueError msg)⟩) := by
  refine ⟨fun h => ?_, ?_⟩
  · rcases readText_cases file with h' | ⟨-, h'⟩
    · exact absurd h' h
    · unfold cliMain
      rw [h']
      rfl
  · rintro cs rfl
    rw [cliMain_utf8]
    refine ⟨fun e he => ?_, fun r hr => ?_⟩
    · rw [Eff.bind_error he]
    · obtain ⟨j, -, h1, h2⟩ := render_cases ext (cliParse_plain (scalarStr_strOf cs) hr) maxDigits
      constructor
      · intro h
        obtain ⟨s, hs, -⟩ := h1 h
        refine ⟨s ++ py! "\n", ?_⟩
        rw [Eff.bind_ok hr, hs]
        simp [Eff.lift]
      · intro h
        obtain ⟨msg, hs⟩ := h2 h
        refine ⟨msg, ?_⟩
        rw [Eff.bind_ok hr, hs]
        simp [Eff.lift]

/-! ### C81: what is printed -/

/-- **C81** (layout). Whatever the program prints shows exactly the result of parsing the text of the file, in lines with four blanks for
each level of nesting, and a line feed at the end. -/
theorem C81_layout (ext : Ext) (cr : Crypto) (inp : Inputs) (maxDigits : Nat) (file : Bytes) (passphrase : Option Str)
    (out : Str) (h : (cliMain ext cr inp maxDigits file passphrase).res = .ok out) :
    ∃ cs r j, file = utf8 cs ∧ (cliParse ext cr inp (strOf cs) passphrase).res = .ok r ∧ ResultShows r j ∧
      (∃ s, LaidOut 0 (.value j) s ∧ out = s ++ py! "\n") ∧ ∀ c ∈ out, c = 10 ∨ (32 ≤ c ∧ c ≤ 126) := by
  rcases readText_cases file with ⟨cs, rfl⟩ | ⟨-, hx⟩
  · rw [cliMain_utf8] at h
    obtain ⟨r, hr, h⟩ := Eff.bind_res_ok_iff.1 h
    obtain ⟨s, hs, h⟩ := Eff.bind_res_ok_iff.1 h
    simp at h hs
    subst h
    obtain ⟨j, hj, h1, h2⟩ := render_cases ext (cliParse_plain (scalarStr_strOf cs) hr) maxDigits
    have hf : ∀ i, Number r i → FewDigits maxDigits i := by
      intro i hi
      by_contra hn
      obtain ⟨msg, he⟩ := h2 ⟨i, hi, hn⟩
      rw [he] at hs
      cases hs
    obtain ⟨s', hs', h3, h4⟩ := h1 hf
    rw [hs] at hs'
    simp at hs'
    subst hs'
    refine ⟨cs, r, j, rfl, hr, hj, ⟨s, h3, rfl⟩, ?_⟩
    exact plain7_append.2 ⟨h4, by simp [Plain7]⟩
  · unfold cliMain at h
    rw [hx] at h
    simp [Eff.lift] at h

/-- **C81**. Whatever the program prints is a JSON document (RFC 8259) in printable ASCII, that shows exactly the
result of parsing the text of the file. -/
theorem C81_output (ext : Ext) (cr : Crypto) (inp : Inputs) (maxDigits : Nat) (file : Bytes) (passphrase : Option Str)
    (out : Str) (h : (cliMain ext cr inp maxDigits file passphrase).res = .ok out) :
    ∃ cs r j, file = utf8 cs ∧ (cliParse ext cr inp (strOf cs) passphrase).res = .ok r ∧ ResultShows r j ∧
      Document j out ∧ ∀ c ∈ out, c = 10 ∨ (32 ≤ c ∧ c ≤ 126) := by
  obtain ⟨cs, r, j, h1, h2, h3, ⟨s, h4, rfl⟩, h5⟩ := C81_layout ext cr inp maxDigits file passphrase out h
  exact ⟨cs, r, j, h1, h2, h3, .mk (w := []) ws_nil h4.text_of (by simp [Ws]), h5⟩

/-- **C81** (unambiguous). A text is a JSON document for at most one value. -/
theorem C81_unambiguous (j j' : Json) (s : Str) (h : Document j s) (h' : Document j' s) : j = j' :=
  document_unique h h' rfl

/-! ### C83: nothing is lost -/

/-- The sort of a value: number, bytes, text. -/
def valSort : Val → Nat
  | .int _ => 0
  | .bytes _ => 1
  | .str _ => 2
  | _ => 3

theorem valShows_inj {v v' : Val} {j : Json} (h : ValShows v j) (h' : ValShows v' j) (e : valSort v = valSort v') : v = v' := by
  cases h with
  | int => cases h'; rfl
  | str =>
    cases h' with
    | str => rfl
    | bytes => simp [valSort] at e
  | bytes h =>
    cases h' with
    | str => simp [valSort] at e
    | bytes h' => rw [bytesLiteral_unique h h' rfl]

theorem dictShows_inj {d d' : VDict} {j : Json} (h : DictShows d j) (h' : DictShows d' j)
    (e : d.length = d'.length → d.map (fun kv => valSort kv.2) = d'.map (fun kv => valSort kv.2)) : d = d' := by
  obtain ⟨m, rfl, h⟩ := h
  obtain ⟨m', e', h'⟩ := h'
  simp at e'
  subst e'
  have e := e (by rw [h.length_eq, h'.length_eq])
  induction h generalizing d' with
  | nil => cases h'; rfl
  | @cons a b l l' h1 h2 ih =>
    cases h' with
    | @cons a' _ l1 _ h1' h2' =>
      simp at e
      have e1 : a = a' := Prod.ext (by rw [h1.1, h1'.1]) (valShows_inj h1.2 h1'.2 e.1)
      subst e1
      congr 1
      exact ih (fun _ => e.2) h2' e.2

def fiSort : FI → Nat
  | .pascal .bytes => 1
  | .pascal .string => 2
  | _ => 0

theorem encodesAll_sorts {fmt : FDict} {w : Bytes} {d : VDict} (h : EncodesAll fmt w d) :
    d.map (fun kv => valSort kv.2) = fmt.map (fun kf => fiSort kf.2) := by
  induction h with
  | nil => rfl
  | cons h1 h2 ih =>
    simp only [List.map_cons, ih]
    congr 1
    cases h1 <;> rfl

/-- The keys are the same except perhaps for what they have in the clear. -/
theorem keyShows_inj {kind : Kind} {b b' : Bytes} {k k' : Key} {rest rest' : Bytes} {j : Json} (h : KeyReads kind b k rest)
    (h' : KeyReads kind b' k' rest') (hj : KeyShows k j) (hj' : KeyShows k' j)
    (hc : k.clear.length = k'.clear.length →
      k.clear.map (fun kv => valSort kv.2) = k'.clear.map (fun kv => valSort kv.2)) : k = k' := by
  obtain ⟨t, ⟨fmt, wt, wp, wf, h1, h2, h3, h4, -⟩, -, hk, h5, h6⟩ := h
  obtain ⟨t', ⟨fmt', wt', wp', wf', h1', h2', h3', h4', -⟩, -, hk', h5', h6'⟩ := h'
  obtain ⟨ja, jb, jc, jd, rfl, s1, ⟨x, rfl, s2⟩, s3, s4⟩ := hj
  obtain ⟨ja', jb', jc', jd', e, s1', ⟨x', rfl, s2'⟩, s3', s4'⟩ := hj'
  simp at e
  obtain ⟨rfl, rfl, rfl, rfl⟩ := e
  have e1 := dictShows_inj s1 s1' (by rw [h5, h5']; simp [valSort])
  have et : t = t' := by
    rw [h5, h5'] at e1
    simpa using e1
  subst et
  rw [h1] at h1'
  simp at h1'
  subst h1'
  have e2 := dictShows_inj s2 s2' (fun _ => by rw [encodesAll_sorts h3, encodesAll_sorts h3'])
  have e3 := dictShows_inj s3 s3' (fun _ => by rw [encodesAll_sorts h4, encodesAll_sorts h4'])
  have e4 := dictShows_inj s4 s4' hc
  have e5 : k.params.cls = k'.params.cls := by
    rw [h6] at h6'
    simpa using h6'
  obtain ⟨kd, hd, ⟨c, d⟩, f, cl⟩ := k
  obtain ⟨kd', hd', ⟨c', d'⟩, f', cl'⟩ := k'
  simp only at *
  subst hk hk' e1 e2 e3 e4 e5
  rfl

/-- What a parsed result consists of. -/
def ReadResult : CliResult → Prop
  | .publicKeys ks => ∀ k ∈ ks, ∃ b a c rest, KeyReads .pub b k rest ∧ k.clear = lineClear a c rest
  | .keyList kl =>
    (∀ p ∈ kl.pairs, (∃ b rest, KeyReads .pub b p.pub rest ∧
        p.pub.clear = if rest = [] then [] else [(py! "remainder", .bytes rest)]) ∧
      ∃ b rest, KeyReads .priv b p.priv rest ∧ p.priv.clear = []) ∧
    (∃ c k : List Char, ∃ o n, kl.header = some (listHeader (.str (strOf c)) (.str (strOf k)) o n)) ∧
    (kl.kdfOptions = some ⟨.none, []⟩ ∨ ∃ salt rounds, kl.kdfOptions = some (bcryptOptions salt rounds)) ∧
    (∃ c1 c2, kl.decipherHeader = some (checkInts c1 c2))

theorem cliParse_read {ext : Ext} {cr : Crypto} {inp : Inputs} {s : Str} {passphrase : Option Str} {r : CliResult}
    (h : (cliParse ext cr inp s passphrase).res = .ok r) : ReadResult r := by
  unfold cliParse at h
  split at h
  · obtain ⟨kl, hk, h⟩ := Eff.bind_res_ok_iff.1 h
    simp at h
    subst h
    obtain ⟨b, hb⟩ := listFromString_bytes hk
    obtain ⟨P⟩ := listFromBytes_parse hb
    have ho : KdfGiven inp passphrase P.f ⟨P.kc, P.od⟩ := kdf_given_iff.1 ⟨P.m, P.p, P.kdf, P.options, P.pass⟩
    have e := P.list
    refine ⟨fun p hp => ⟨?_, ?_⟩, ?_, ?_, ?_⟩
    · have hm : p.pub ∈ P.ks := by rw [← P.pairs]; exact List.mem_map.2 ⟨p, hp, rfl⟩
      obtain ⟨b, -, hb⟩ := forall₂_right P.pubs hm
      obtain ⟨rest, h1, h2⟩ := keyReads_iff.1 hb
      exact ⟨b, rest, h1, h2⟩
    · obtain ⟨w, hw, hc⟩ := keysAt_priv P.keys p hp
      obtain ⟨rest, h1, -⟩ := keyReads_iff.1 hw
      exact ⟨w, rest, h1, hc⟩
    · rw [e]; exact ⟨_, _, _, _, rfl⟩
    · rw [e]
      generalize (⟨P.kc, P.od⟩ : KdfOptions) = o at ho
      cases ho with
      | none => exact .inl rfl
      | bcrypt => exact .inr ⟨_, _, rfl⟩
    · rw [e]; exact ⟨_, _, rfl⟩
  · obtain ⟨ks, hk, h⟩ := Eff.bind_res_ok_iff.1 h
    simp at h
    subst h
    intro k hkm
    obtain ⟨l, hl, hk'⟩ := cliLines_mem hk k hkm
    obtain ⟨a, w, c, b, rest, -, -, h1, h2⟩ := (C76_accepts ext .pub l k).1 hk'
    exact ⟨b, a, c, rest, h1, h2⟩

theorem forall₂_inj {α β : Type} {R : α → β → Prop} {l l' : List α} {m : List β} (h : List.Forall₂ R l m)
    (h' : List.Forall₂ R l' m) (hR : ∀ x ∈ l, ∀ y ∈ l', ∀ z, R x z → R y z → x = y) : l = l' := by
  induction h generalizing l' with
  | nil => cases h'; rfl
  | cons h1 h2 ih =>
    cases h' with
    | cons h1' h2' =>
      rw [hR _ (by simp) _ (by simp) _ h1 h1', ih h2' fun x hx y hy => hR x (by simp [hx]) y (by simp [hy])]

theorem optShows_inj {α : Type} {P : α → Json → Prop} {o o' : Option α} {j : Json} (h : OptShows P o j)
    (h' : OptShows P o' j) (hn : ∀ x, ¬ P x .null) (hP : ∀ x ∈ o, ∀ y ∈ o', P x j → P y j → x = y) : o = o' := by
  cases h with
  | none =>
    cases h' with
    | none => rfl
    | some h' => exact absurd h' (hn _)
  | some h =>
    cases h' with
    | none => exact absurd h (hn _)
    | some h' => rw [hP _ rfl _ rfl h h']

theorem bytesShows_inj {o o' : Option Bytes} {j : Json} (h : OptShows BytesShows o j) (h' : OptShows BytesShows o' j) :
    o = o' :=
  optShows_inj h h' (fun x hx => by cases hx) (fun x _ y _ hx hy => by
    have := valShows_inj hx hy rfl
    simpa using this)

theorem dictShows_null {d : VDict} : ¬ DictShows d .null := by rintro ⟨m, h, -⟩; cases h
theorem dataShows_null {d : VDict} : ¬ DataShows d .null := by rintro ⟨m, h, -⟩; cases h

theorem resultShows_inj {r r' : CliResult} {j : Json} (hr : ReadResult r) (hr' : ReadResult r') (h : ResultShows r j)
    (h' : ResultShows r' j) : r = r' := by
  cases h with
  | keys h =>
    cases h' with
    | keys h' =>
      congr 1
      refine forall₂_inj h h' fun x hx y hy z hz hz' => ?_
      obtain ⟨b, a, c, rest, h1, h2⟩ := hr x hx
      obtain ⟨b', a', c', rest', h1', h2'⟩ := hr' y hy
      refine keyShows_inj h1 h1' hz hz' fun hl => ?_
      rw [h2, h2'] at hl ⊢
      unfold lineClear at hl ⊢
      by_cases e : rest = [] <;> by_cases e' : rest' = [] <;> simp [e, e', valSort] at hl ⊢
  | @list kl l b hd c o d dh dp g1 g2 g3 g4 g5 g6 g7 g8 =>
    obtain ⟨a1, ⟨ac, ak, ao, an, a2⟩, a3, ⟨x1, x2, a4⟩⟩ := hr
    cases h' with
    | @list kl' _ _ _ _ _ _ _ _ f1 f2 f3 f4 f5 f6 f7 f8 =>
      obtain ⟨b1, ⟨bc, bk, bo, bn, b2⟩, b3, ⟨y1, y2, b4⟩⟩ := hr'
      have e1 : kl.pairs = kl'.pairs := by
        refine forall₂_inj g1 f1 fun x hx y hy z hz hz' => ?_
        obtain ⟨p1, q1, rfl, u1, v1⟩ := hz
        obtain ⟨p2, q2, e, u2, v2⟩ := hz'
        simp at e
        obtain ⟨rfl, rfl⟩ := e
        obtain ⟨⟨w1, s1, t1, z1⟩, w2, s2, t2, z2⟩ := a1 x hx
        obtain ⟨⟨w1', s1', t1', z1'⟩, w2', s2', t2', z2'⟩ := b1 y hy
        have e1 := keyShows_inj t1 t1' u1 u2 (fun hl => by
          rw [z1, z1'] at hl ⊢
          by_cases e : s1 = [] <;> by_cases e' : s1' = [] <;> simp [e, e', valSort] at hl ⊢)
        have e2 := keyShows_inj t2 t2' v1 v2 (fun hl => by rw [z2, z2'])
        obtain ⟨xp, xs⟩ := x
        obtain ⟨yp, ys⟩ := y
        simp only at e1 e2
        rw [e1, e2]
      have e2 := bytesShows_inj g2 f2
      have e3 : kl.header = kl'.header := by
        refine optShows_inj g3 f3 (fun _ => dictShows_null) fun x hx y hy hx' hy' => dictShows_inj hx' hy' fun _ => ?_
        rw [a2] at hx
        rw [b2] at hy
        simp at hx hy
        subst hx hy
        rfl
      have e4 := bytesShows_inj g4 f4
      have e5 : kl.kdfOptions = kl'.kdfOptions := by
        refine optShows_inj g5 f5 (fun _ => dataShows_null) fun x hx y hy hx' hy' => ?_
        obtain ⟨j1, rfl, hx'⟩ := hx'
        obtain ⟨j2, e, hy'⟩ := hy'
        simp at e
        subst e
        have sx : x = ⟨.none, []⟩ ∨ ∃ s r, x = bcryptOptions s r := by
          rcases a3 with a3 | ⟨s, r, a3⟩ <;> rw [a3] at hx <;> simp at hx <;> subst hx
          · exact .inl rfl
          · exact .inr ⟨s, r, rfl⟩
        have sy : y = ⟨.none, []⟩ ∨ ∃ s r, y = bcryptOptions s r := by
          rcases b3 with b3 | ⟨s, r, b3⟩ <;> rw [b3] at hy <;> simp at hy <;> subst hy
          · exact .inl rfl
          · exact .inr ⟨s, r, rfl⟩
        have e : x.data = y.data := by
          refine dictShows_inj hx' hy' fun hl => ?_
          rcases sx with rfl | ⟨s, r, rfl⟩ <;> rcases sy with rfl | ⟨s', r', rfl⟩ <;>
            simp [bcryptOptions, valSort] at hl ⊢
        rcases sx with rfl | ⟨s, r, rfl⟩ <;> rcases sy with rfl | ⟨s', r', rfl⟩ <;>
          simp [bcryptOptions] at e ⊢
        exact e
      have e6 := bytesShows_inj g6 f6
      have e7 : kl.decipherHeader = kl'.decipherHeader := by
        refine optShows_inj g7 f7 (fun _ => dictShows_null) fun x hx y hy hx' hy' => dictShows_inj hx' hy' fun _ => ?_
        rw [a4] at hx
        rw [b4] at hy
        simp at hx hy
        subst hx hy
        rfl
      have e8 := bytesShows_inj g8 f8
      obtain ⟨k1, k2, k3, k4, k5, k6, k7, k8⟩ := kl
      obtain ⟨l1, l2, l3, l4, l5, l6, l7, l8⟩ := kl'
      simp only at e1 e2 e3 e4 e5 e6 e7 e8
      rw [e1, e2, e3, e4, e5, e6, e7, e8]

/-- **C83**. What is printed determines the result: two files, with whatever passphrases and on whatever systems, for
which the program prints the same have been parsed to the same keys. -/
theorem C83_determined (ext ext' : Ext) (cr cr' : Crypto) (inp inp' : Inputs) (m m' : Nat) (file file' : Bytes)
    (passphrase passphrase' : Option Str) (out : Str) (h : (cliMain ext cr inp m file passphrase).res = .ok out)
    (h' : (cliMain ext' cr' inp' m' file' passphrase').res = .ok out) :
    ∃ cs cs' r, file = utf8 cs ∧ file' = utf8 cs' ∧ (cliParse ext cr inp (strOf cs) passphrase).res = .ok r ∧
      (cliParse ext' cr' inp' (strOf cs') passphrase').res = .ok r := by
  obtain ⟨cs, r, j, h1, h2, h3, h4, -⟩ := C81_output ext cr inp m file passphrase out h
  obtain ⟨cs', r', j', h1', h2', h3', h4', -⟩ := C81_output ext' cr' inp' m' file' passphrase' out h'
  obtain rfl := C81_unambiguous j j' out h4 h4'
  obtain rfl := resultShows_inj (cliParse_read h2) (cliParse_read h2') h3 h3'
  exact ⟨cs, cs', r, h1, h1', h2, h2'⟩

/-! ### C82: witness and usual sizes -/

/-- A line with an RSA key with the modulus `256 ^ m`. -/
def longWire (wn : Bytes) (m : Nat) : Bytes :=
  ([0, 0, 0, 7, 115, 115, 104, 45, 114, 115, 97] : Bytes) ++ ([0, 0, 0, 1, 17] ++ (wn ++ 1 :: List.replicate m 0))

def longLine (wn : Bytes) (m : Nat) : Str := py! "ssh-rsa " ++ base64Text (longWire wn m)

def longKey (m : Nat) : Key := ⟨.pub, [(py! "key_type", .str (py! "ssh-rsa"))],
  ⟨.rsaPub, [(py! "e", .int 17), (py! "n", .int (256 ^ m))]⟩, [],
  [(py! "key_type", .str (py! "ssh-rsa")), (py! "comment", .str [])]⟩

theorem digitSum_zeros (m : Nat) : digitSum (List.replicate m 0) = 0 := by
  induction m with
  | zero => rfl
  | succ m ih => rw [List.replicate_succ, digitSum, ih]; simp

theorem longKey_reads {wn : Bytes} {m : Nat} (h1 : wn.length = 4) (h2 : digitSum wn = m + 1) :
    KeyReads .pub (longWire wn m) (longKey m) [] := by
  refine ⟨py! "ssh-rsa", ⟨rsaFields, [0, 0, 0, 7, 115, 115, 104, 45, 114, 115, 97], [0, 0, 0, 1, 17] ++
    (wn ++ 1 :: List.replicate m 0), [], by decide +kernel, ?_, ?_, .nil, ?_⟩, ?_, rfl, rfl, by simp only [longKey]; decide +kernel⟩
  · exact .text (cs := "ssh-rsa".toList) ⟨[0, 0, 0, 7], rfl, by decide, by decide⟩
  · refine .cons (.mpint (b := [17]) ⟨[0, 0, 0, 1], rfl, by decide, rfl⟩) ?_
    have hv : (256 ^ m : Int) = tcVal (1 :: List.replicate m 0) := by
      rw [tcVal, digitSum_zeros]; simp
    have := EncodesAll.cons (k := py! "n") (.mpint (b := 1 :: List.replicate m 0) ⟨wn, h1, by rw [h2]; simp, rfl⟩) .nil
    rw [← hv, List.append_nil] at this
    exact this
  · unfold longWire; simp
  · intro h; exact absurd h (by decide +kernel)

theorem longLine_words (wn : Bytes) (m : Nat) : Words (longLine wn m) (py! "ssh-rsa") (base64Text (longWire wn m)) [] := by
  have hb : 0x20 ∉ base64Text (longWire wn m) := by
    rw [← b64encodeStr_text]
    exact fun h => (b64encodeStr_no_space _ _ h).2.1 rfl
  have := Words.two (a := py! "ssh-rsa") (by decide) hb
  exact this

theorem fromString_longLine (ext : Ext) {wn : Bytes} {m : Nat} (h1 : wn.length = 4) (h2 : digitSum wn = m + 1) :
    fromString ext .pub (longLine wn m) = ⟨[], .ok (longKey m)⟩ := by
  have hb : b64decodeStr (base64Text (longWire wn m)) = .ok (longWire wn m) := by
    rw [← b64encodeStr_text]; exact C23_roundtrip_str _
  have hr : (fromBytes ext .pub (longWire wn m) (some [(py! "key_type", .str (py! "ssh-rsa")), (py! "comment", .str [])])).res =
      .ok (longKey m) := accepts_clear.2 ⟨[], longKey_reads h1 h2, rfl⟩
  have hl : (fromBytes ext .pub (longWire wn m) (some [(py! "key_type", .str (py! "ssh-rsa")), (py! "comment", .str [])])).log = [] := by
    obtain ⟨t, ht, hw⟩ := C72_parse_warnings ext .pub _ _ _ hr (by decide)
    have ht : t = py! "ssh-rsa" := by
      have : dget (longKey m).header (py! "key_type") = some (.str (py! "ssh-rsa")) := rfl
      rw [this] at ht
      simpa using ht.symm
    subst ht
    refine List.eq_nil_iff_forall_not_mem.2 fun v hv => ?_
    have hcurve : ∀ name oid, (py! "ssh-rsa", name, oid) ∉ curveTable := by
      have : ∀ e ∈ curveTable, e.1 ≠ py! "ssh-rsa" := by decide +kernel
      exact fun name oid h => this _ h rfl
    rcases (hw v).1 hv with ⟨w, -, hw⟩ | ⟨hc, -⟩ | ⟨-, hx⟩
    · cases hw with
      | curve h => exact hcurve _ _ h
      | point h => exact hcurve _ _ h
      | edLength h => exact absurd h (by decide +kernel)
      | edMismatch h => cases h
      | edPrivate h => cases h
    · exact absurd hc (by decide +kernel)
    · simp [longKey, dget] at hx
  have he : fromBytes ext .pub (longWire wn m) (some [(py! "key_type", .str (py! "ssh-rsa")), (py! "comment", .str [])]) =
      ⟨[], .ok (longKey m)⟩ := Eff.ext hl hr
  rw [words_tail (longLine_words wn m)]
  unfold fromStringTail
  rw [hb, Eff.lift_ok_bind, he]
  rfl

theorem cliParse_longLine (ext : Ext) (cr : Crypto) (inp : Inputs) (passphrase : Option Str) {wn : Bytes} {m : Nat}
    (h1 : wn.length = 4) (h2 : digitSum wn = m + 1) :
    cliParse ext cr inp (longLine wn m) passphrase = ⟨[], .ok (.publicKeys [longKey m])⟩ := by
  have hs : splitLines (longLine wn m) = [longLine wn m] := by
    refine linesOf_iff.2 (.last (by simp [longLine]) fun c hc => ?_)
    rcases List.mem_append.1 hc with hc | hc
    · have : ∀ c ∈ py! "ssh-rsa ", c ∉ lineBoundaries := by decide
      exact this c hc
    · exact b64_line _ c hc
  have hp : startsWith (longLine wn m) pemHeader = false := by
    have : ¬ pemHeader <+: longLine wn m := by
      rintro ⟨t, ht⟩
      have := congrArg List.head? ht
      simp [pemHeader, longLine] at this
    rw [← startsWith_iff] at this
    simpa using this
  unfold cliParse
  rw [hp, hs]
  simp only [cliLines, cliLine, fromString_longLine ext h1 h2]
  rfl

/-- **C82** is false: whatever the limit for the number of digits (Python's default is 4300), there is a public key
file with one key, with nothing wrong with it, for which the program fails with `ValueError` instead of printing
anything. -/
theorem C82_false (ext : Ext) (cr : Crypto) (inp : Inputs) (maxDigits : Nat) (passphrase : Option Str)
    (h0 : 0 < maxDigits) (h1 : maxDigits < 2 ^ 32 - 1) :
    ∃ cs k msg, cliParse ext cr inp (strOf cs) passphrase = ⟨[], .ok (.publicKeys [k])⟩ ∧
      cliMain ext cr inp maxDigits (utf8 cs) passphrase = ⟨[], .error (.valueError msg)⟩ := by
  obtain ⟨wn, hw1, hw2⟩ := uint_exists (n := maxDigits + 1) (by omega)
  have hsc : ScalarStr (longLine wn maxDigits) := by
    intro c hc
    rcases List.mem_append.1 hc with hc | hc
    · have : ∀ c ∈ py! "ssh-rsa ", c < 128 := by decide
      exact Or.inl (by have := this c hc; omega)
    · rw [← b64encodeStr_text] at hc
      exact Or.inl (by have := (b64encodeStr_no_space _ c hc).1; omega)
  obtain ⟨cs, hcs⟩ := strOf_of_scalar hsc
  have hp := cliParse_longLine ext cr inp passphrase hw1 hw2
  rw [hcs] at hp
  have hn : ∃ i, Number (.publicKeys [longKey maxDigits]) i ∧ ¬ FewDigits maxDigits i := by
    refine ⟨256 ^ maxDigits, .key (k := longKey maxDigits) (by simp) ⟨py! "n", .inr (.inl (by simp [longKey]))⟩, ?_⟩
    rintro (h | h)
    · omega
    · have : (10 : Nat) ^ maxDigits ≤ 256 ^ maxDigits := Nat.pow_le_pow_left (by omega) _
      rw [Int.natAbs_pow] at h
      simp at h
      omega
  obtain ⟨msg, hm⟩ := ((C82_outcome_partial ext cr inp maxDigits (utf8 cs) passphrase).2 cs rfl).2 _ (by rw [hp]) |>.2 hn
  exact ⟨cs, _, msg, hp, by rw [hm, hp]⟩

set_option exponentiation.threshold 20000 in
/-- **C82** for numbers of at most 14284 bits, and Python's default limit of 4300 digits.  Missing from the full
statement: longer numbers (OpenSSH allows RSA moduli of up to 16384 bits), see `C82_false`. -/
theorem C82_usual_partial (ext : Ext) (cr : Crypto) (inp : Inputs) (cs : List Char) (passphrase : Option Str)
    (r : CliResult) (h : (cliParse ext cr inp (strOf cs) passphrase).res = .ok r)
    (hn : ∀ i, Number r i → i.natAbs < 2 ^ 14284) :
    ∃ out, cliMain ext cr inp 4300 (utf8 cs) passphrase = ⟨(cliParse ext cr inp (strOf cs) passphrase).log, .ok out⟩ := by
  refine (((C82_outcome_partial ext cr inp 4300 (utf8 cs) passphrase).2 cs rfl).2 r h).1 fun i hi => .inr ?_
  have h1 := hn i hi
  have h2 : 2 ^ 14284 < 10 ^ 4300 := by decide +kernel
  exact Nat.lt_trans h1 h2

/-! ### Examples -/

/-- A file with two lines that end with CR LF; the second is not a key. -/
def exCliFile : List Char := "ssh-rsa AAAAB3NzaC1yc2EAAAABEQAAAAIMoQ== my \"key\"é\r\nx AAAA\r\n".toList

/-- What is printed. -/
def exCliOut : Str :=
  py! "[\n    {\n        \"header\": {\n            \"key_type\": \"ssh-rsa\"\n        },\n        \"params\": {\n            \"data\": {\n                \"e\": 17,\n                \"n\": 3233\n            }\n        },\n        \"footer\": {},\n        \"clear\": {\n            \"key_type\": \"ssh-rsa\",\n            \"comment\": \"my \\\"key\\\"\\u00e9\"\n        }\n    }\n]\n"

/-- Non-vacuous (C81, C82): a file for which something is printed, with a warning about the second line. -/
example : (cliMain exExt toyCrypto exInputs 4300 (utf8 exCliFile) none).res = .ok exCliOut ∧
    (cliMain exExt toyCrypto exInputs 4300 (utf8 exCliFile) none).log = [.warn (.couldNotParseLine 1)] := by decide +kernel

/-- Non-vacuous (C82): with a limit of three digits, the number 3233 is too long; a file that is not UTF-8. -/
example : (cliMain exExt toyCrypto exInputs 3 (utf8 exCliFile) none).res.toOption = none ∧
    (cliMain exExt toyCrypto exInputs 4 (utf8 exCliFile) none).res = .ok exCliOut ∧
    (cliMain exExt toyCrypto exInputs 4300 [0xff] none).res = .error .unicodeDecodeError := by decide +kernel

/-- Non-vacuous (C83): the same is printed for another file. -/
example : (cliMain exExt toyCrypto exInputs 0 (utf8 (exCliFile.take 51 ++ ['\n'])) none).res = .ok exCliOut ∧
    exCliFile ≠ exCliFile.take 51 ++ ['\n'] := by decide +kernel

/-- Non-vacuous (C84): the same lines with other ends. -/
example : LinesOf [py! "a b", py! "c"] (py! "a b\r\nc") ∧ LinesOf [py! "a b", py! "c"] (py! "a b\nc\r") := by
  rw [← linesOf_iff, ← linesOf_iff]
  decide

/-- Bytes with quotes of both kinds, and text outside of the basic plane. -/
example : jsonEncode 4300 0 (.seq [.bytes (pb! "a'\"\n"), .str (py! "😀")]) =
    .ok (py! "[\n    \"b'a\\\\'\\\"\\\\n'\",\n    \"\\ud83d\\ude00\"\n]") := by decide +kernel

end OSK
