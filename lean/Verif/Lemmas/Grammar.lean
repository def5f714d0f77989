import Verif.Spec.Grammar
import Verif.Lemmas.Checks
/-
The reading functions against the grammar.
-/
namespace OSK
open Spec

/-- Fields that the grammar describes. -/
def FI.wire : FI → Bool
  | .pascal _ => true
  | .struct ⟨true, [.int n false]⟩ => decide (n ≤ 8)
  | _ => false

def wireFmt (fmt : FDict) : Bool := fmt.all (fun kf => kf.2.wire)

theorem FI.wire_cases {fi : FI} (h : fi.wire = true) :
    (∃ p, fi = .pascal p) ∨ ∃ n, fi = .struct ⟨true, [.int n false]⟩ ∧ n ≤ 8 := by
  unfold FI.wire at h
  split at h
  · exact Or.inl ⟨_, rfl⟩
  · simp at h; exact Or.inr ⟨_, rfl, h⟩
  · simp at h

theorem wireFmt_cons {k : Str} {fi : FI} {t : FDict} :
    wireFmt ((k, fi) :: t) = true ↔ fi.wire = true ∧ wireFmt t = true := by
  simp [wireFmt]

theorem wireFmt_append {a b : FDict} : wireFmt (a ++ b) = true ↔ wireFmt a = true ∧ wireFmt b = true := by
  simp [wireFmt]

theorem wire_pub : ∀ e ∈ keyTable, wireFmt e.2.1 = true := by decide +kernel
theorem wire_priv : ∀ e ∈ keyTable, ∀ f ∈ e.2.2, wireFmt f = true := by decide +kernel

theorem fieldsOf_wire {kind : Kind} {t : Str} {fmt : FDict} (h : fieldsOf kind t = some fmt) :
    wireFmt fmt = true := by
  cases kind
  · simp only [fieldsOf, publicFields, Option.map_eq_some_iff] at h
    obtain ⟨r, hr, rfl⟩ := h
    exact wire_pub _ (dget_mem hr)
  · simp only [fieldsOf, privateFields, Option.bind_eq_some_iff] at h
    obtain ⟨r, hr, hf⟩ := h
    exact wire_priv _ (dget_mem hr) _ hf

theorem afterFields_wire (kind : Kind) : wireFmt (afterFields kind) = true := by cases kind <;> rfl

/-! ### One field -/

/-- The exception raised at the end of the data. -/
def eofExn (clean : Bool) : Exn := .eofError clean (if clean then eofEmptyText else eofShortText)

theorem eofExn_eq (n : Nat) : (if n = 0 then Exn.eofError true eofEmptyText else .eofError false eofShortText) =
    eofExn (decide (n = 0)) := by
  by_cases h : n = 0 <;> simp [h, eofExn]

theorem isEmpty_eq (r : Bytes) : r.isEmpty = decide (r.length = 0) := by
  cases r <;> simp

theorem prefixed_take {b w r : Bytes} (h : Prefixed 4 b w) :
    (w ++ r).take 4 = natToBE 4 b.length ∧ digitSum ((w ++ r).take 4) = b.length ∧ (w ++ r).length = 4 + b.length + r.length ∧
      ((w ++ r).drop 4).take b.length = b ∧ w.length = 4 + b.length := by
  rw [prefixed_iff] at h
  obtain ⟨hl, rfl⟩ := h
  have e : (natToBE 4 b.length).length = 4 := by simp
  have e1 : (natToBE 4 b.length ++ b ++ r).take 4 = natToBE 4 b.length := by
    rw [List.append_assoc, List.take_append_of_le_length (by omega), List.take_of_length_le (by omega)]
  have hp : Prefixed 4 b (natToBE 4 b.length ++ b) := prefixed_natToBE hl
  refine ⟨e1, ?_, by simp; omega, ?_, by simp⟩
  · rw [e1, digitSum_eq, beNat_natToBE_of_lt hl]
  · rw [List.append_assoc, List.drop_left' e]; simp

theorem prs_readPascal4_of {b w : Bytes} (h : Prefixed 4 b w) (r : Bytes) :
    prs (readPascalBytes defaultLengthSize) (w ++ r) = (.ok b, w.length) := by
  obtain ⟨-, h2, h3, h4, h5⟩ := prefixed_take (r := r) h
  rw [prs_readPascal4, h2, h3, if_neg (by omega), if_neg (by omega), h4, h5]

theorem prs_readFI_pascal (p : Prim) (r : Bytes) :
    prs (readFI (.pascal p)) r =
      match prs (readPascalBytes defaultLengthSize) r with
      | (.ok b, n) => (decodePrim p b, n)
      | (.error e, n) => (.error e, n) := by
  simp only [readFI]
  rw [prs_bind (fun _ => Reader.lift _) (Reader.readPascalBytes _)]
  rcases prs (readPascalBytes defaultLengthSize) r with ⟨e | b, n⟩ <;> simp [prs_lift]

theorem prs_readFI_uint {n : Nat} (hn : n ≤ 8) (r : Bytes) :
    prs (readFI (.struct ⟨true, [.int n false]⟩)) r =
      if r.length < n then (.error (eofExn r.isEmpty), r.length) else (.ok (.int (digitSum (r.take n))), n) := by
  simp only [readFI]
  have e : SFmt.calcsize ⟨true, [.int n false]⟩ = n := by simp [SFmt.calcsize, SCode.size]
  have e3 : pyMaxSize = 9223372036854775807 := by decide
  rw [e, prs_bind (fun _ => Reader.pure _) (Reader.readFixed _), prs_readFixed, if_neg (by omega)]
  by_cases h : r.length < n
  · rw [if_pos h, if_pos h]
    simp only [eofExn_eq, isEmpty_eq]
  · rw [if_neg h, if_neg h]
    simp only [prs_pure, SFmt.unpack, unpackItems, SCode.unpack, SCode.size, structResult, digitSum_eq, List.take_take, Nat.min_self]
    simp

theorem readFI_encodes {fi : FI} (hf : fi.wire = true) {w : Bytes} {v : Val} (h : Encodes fi w v) (r : Bytes) :
    prs (readFI fi) (w ++ r) = (.ok v, w.length) := by
  cases h with
  | bytes h => rw [prs_readFI_pascal, prs_readPascal4_of h]; rfl
  | text h =>
    rw [prs_readFI_pascal, prs_readPascal4_of h]
    simp [decodePrim, bytesDecode, utf8Decode?_utf8, Except.map]
  | mpint h => rw [prs_readFI_pascal, prs_readPascal4_of h, tcVal_eq]; rfl
  | uint =>
    rcases FI.wire_cases hf with ⟨p, hp⟩ | ⟨n, hn, h8⟩
    · simp at hp
    · simp at hn
      rw [prs_readFI_uint (by omega), if_neg (by simp)]
      simp

theorem readFI_cutOff {fi : FI} (hf : fi.wire = true) {c : Bool} {r : Bytes} (h : CutOff c fi r) :
    ∃ n, prs (readFI fi) r = (.error (eofExn c), n) := by
  cases h with
  | length h =>
    rw [prs_readFI_pascal, prs_readPascal4, if_pos h]
    simp only [eofExn_eq, isEmpty_eq]
    exact ⟨_, rfl⟩
  | @contents p l r hl h =>
    have e1 : (l ++ r).take 4 = l := by rw [← hl]; simp
    rw [prs_readFI_pascal, prs_readPascal4, e1, if_neg (by simp; omega), if_pos (by simp; omega)]
    have e2 : (l ++ r).length = 4 ↔ r.length = 0 := by simp [hl]
    simp only [e2, eofExn_eq, isEmpty_eq]
    exact ⟨_, rfl⟩
  | uint h =>
    rcases FI.wire_cases hf with ⟨p, hp⟩ | ⟨n, hn, h8⟩
    · simp at hp
    · simp at hn; subst hn
      rw [prs_readFI_uint h8, if_pos h]
      exact ⟨_, rfl⟩

theorem bytesDecode_not {b : Bytes} (h : ∀ cs, b ≠ utf8 cs) : bytesDecode b = .error .unicodeDecodeError := by
  unfold bytesDecode
  rcases hd : utf8Decode? b with _ | s
  · rfl
  · obtain ⟨cs, -, hb⟩ := utf8Encode?_some (utf8Encode_decode hd)
    exact absurd hb (h cs)

theorem readFI_notText {fi : FI} {r : Bytes} (h : NotText fi r) :
    ∃ n, prs (readFI fi) r = (.error .unicodeDecodeError, n) := by
  cases h with
  | mk h hn =>
    rw [prs_readFI_pascal, prs_readPascal4_of h]
    simp only [decodePrim, bytesDecode_not hn, Except.map]
    exact ⟨_, rfl⟩

/-- One of the three cases always applies. -/
theorem field_cases {fi : FI} (hf : fi.wire = true) (r : Bytes) :
    (∃ w v r', Encodes fi w v ∧ r = w ++ r') ∨ (∃ c, CutOff c fi r) ∨ NotText fi r := by
  rcases FI.wire_cases hf with ⟨p, rfl⟩ | ⟨n, rfl, h8⟩
  · by_cases h4 : r.length < 4
    · exact Or.inr (Or.inl ⟨_, .length h4⟩)
    · have e : r = r.take 4 ++ r.drop 4 := by simp
      have hl : (r.take 4).length = 4 := by simp; omega
      by_cases hc : (r.drop 4).length < digitSum (r.take 4)
      · right; left
        rw [e]
        exact ⟨_, .contents hl hc⟩
      · have hp : Prefixed 4 ((r.drop 4).take (digitSum (r.take 4)))
            (r.take 4 ++ (r.drop 4).take (digitSum (r.take 4))) := by
          refine ⟨_, hl, ?_, rfl⟩
          rw [List.length_take]; omega
        have e2 : r = (r.take 4 ++ (r.drop 4).take (digitSum (r.take 4))) ++ (r.drop 4).drop (digitSum (r.take 4)) := by
          rw [List.append_assoc, List.take_append_drop, List.take_append_drop]
        cases p with
        | bytes => exact Or.inl ⟨_, _, _, .bytes hp, e2⟩
        | mpint => exact Or.inl ⟨_, _, _, .mpint hp, e2⟩
        | string =>
          by_cases hu : ∃ cs, (r.drop 4).take (digitSum (r.take 4)) = utf8 cs
          · obtain ⟨cs, hcs⟩ := hu
            rw [hcs] at hp e2
            exact Or.inl ⟨_, _, _, .text hp, e2⟩
          · right; right
            rw [e2]
            exact .mk hp (fun cs hcs => hu ⟨cs, hcs⟩)
  · by_cases h : r.length < n
    · exact Or.inr (Or.inl ⟨_, .uint h⟩)
    · left
      have hl : (r.take n).length = n := by simp; omega
      have := Encodes.uint (w := r.take n)
      rw [hl] at this
      exact ⟨_, _, r.drop n, this, by simp⟩

/-! ### A list of fields -/

theorem readDict_encodes {fmt : FDict} (hf : wireFmt fmt = true) {w : Bytes} {d : VDict} (h : EncodesAll fmt w d)
    (r : Bytes) : prs (readDict fmt) (w ++ r) = (.ok d, w.length) := by
  induction h with
  | nil => simp [readDict, prs_pure]
  | cons h1 h2 ih =>
    rw [wireFmt_cons] at hf
    unfold readDict
    rw [prs_bind (fun _ => (Reader.readDict _).bind fun _ => Reader.pure _) (Reader.readFI _), List.append_assoc,
      readFI_encodes hf.1 h1]
    simp only [List.drop_left]
    rw [prs_bind (fun _ => Reader.pure _) (Reader.readDict _), ih hf.2]
    simp [prs_pure]

theorem readDict_fails {P : FI → Bytes → Prop} {e : Exn}
    (hP : ∀ fi r, fi.wire = true → P fi r → ∃ n, prs (readFI fi) r = (.error e, n))
    {fmt : FDict} (hf : wireFmt fmt = true) {r : Bytes} (h : FailsAt P fmt r) :
    ∃ n, prs (readDict fmt) r = (.error e, n) := by
  induction h with
  | here h =>
    rw [wireFmt_cons] at hf
    obtain ⟨n, hn⟩ := hP _ _ hf.1 h
    unfold readDict
    rw [prs_bind (fun _ => (Reader.readDict _).bind fun _ => Reader.pure _) (Reader.readFI _), hn]
    exact ⟨_, rfl⟩
  | later h1 h2 ih =>
    rw [wireFmt_cons] at hf
    obtain ⟨n, hn⟩ := ih hf.2
    unfold readDict
    rw [prs_bind (fun _ => (Reader.readDict _).bind fun _ => Reader.pure _) (Reader.readFI _),
      readFI_encodes hf.1 h1]
    simp only [List.drop_left]
    rw [prs_bind (fun _ => Reader.pure _) (Reader.readDict _), hn]
    exact ⟨_, rfl⟩

theorem readDict_cutOff {fmt : FDict} (hf : wireFmt fmt = true) {c : Bool} {r : Bytes} (h : FailsAt (CutOff c) fmt r) :
    ∃ n, prs (readDict fmt) r = (.error (eofExn c), n) :=
  readDict_fails (fun _ _ hw h => readFI_cutOff hw h) hf h

theorem readDict_notText {fmt : FDict} (hf : wireFmt fmt = true) {r : Bytes} (h : FailsAt NotText fmt r) :
    ∃ n, prs (readDict fmt) r = (.error .unicodeDecodeError, n) :=
  readDict_fails (fun _ _ _ h => readFI_notText h) hf h

theorem dict_cases {fmt : FDict} (hf : wireFmt fmt = true) (r : Bytes) :
    (∃ w d r', EncodesAll fmt w d ∧ r = w ++ r') ∨ (∃ c, FailsAt (CutOff c) fmt r) ∨ FailsAt NotText fmt r := by
  induction fmt generalizing r with
  | nil => exact Or.inl ⟨[], [], r, .nil, by simp⟩
  | cons kf t ih =>
    obtain ⟨k, fi⟩ := kf
    rw [wireFmt_cons] at hf
    rcases field_cases hf.1 r with ⟨w, v, r', h, rfl⟩ | ⟨c, h⟩ | h
    · rcases ih hf.2 r' with ⟨w', d, r2, h2, rfl⟩ | ⟨c, h2⟩ | h2
      · exact Or.inl ⟨_, _, r2, .cons h h2, by simp⟩
      · exact Or.inr (Or.inl ⟨c, .later h h2⟩)
      · exact Or.inr (Or.inr (.later h h2))
    · exact Or.inr (Or.inl ⟨c, .here h⟩)
    · exact Or.inr (Or.inr (.here h))

/-- Reading a list of fields succeeds exactly on what the grammar says. -/
theorem readDict_ok_iff {fmt : FDict} (hf : wireFmt fmt = true) {r : Bytes} {d : VDict} {n : Nat} :
    prs (readDict fmt) r = (.ok d, n) ↔ ∃ w r', EncodesAll fmt w d ∧ r = w ++ r' ∧ n = w.length := by
  constructor
  · intro h
    rcases dict_cases hf r with ⟨w, d', r', h2, rfl⟩ | ⟨c, h2⟩ | h2
    · rw [readDict_encodes hf h2] at h
      simp at h
      obtain ⟨rfl, rfl⟩ := h
      exact ⟨w, r', h2, rfl, rfl⟩
    · obtain ⟨m, hm⟩ := readDict_cutOff hf h2
      rw [hm] at h; simp at h
    · obtain ⟨m, hm⟩ := readDict_notText hf h2
      rw [hm] at h; simp at h
  · rintro ⟨w, r', h, rfl, rfl⟩
    exact readDict_encodes hf h r'

theorem eofExn_inj {c c' : Bool} (h : eofExn c = eofExn c') : c = c' := by
  cases c <;> cases c' <;> simp [eofExn] at h ⊢

theorem readDict_eof_iff {fmt : FDict} (hf : wireFmt fmt = true) {r : Bytes} {c : Bool} :
    (∃ n, prs (readDict fmt) r = (.error (eofExn c), n)) ↔ FailsAt (CutOff c) fmt r := by
  constructor
  · rintro ⟨n, h⟩
    rcases dict_cases hf r with ⟨w, d', r', h2, rfl⟩ | ⟨c', h2⟩ | h2
    · rw [readDict_encodes hf h2] at h
      simp at h
    · obtain ⟨m, hm⟩ := readDict_cutOff hf h2
      rw [hm] at h; simp at h
      rw [← eofExn_inj h.1]; exact h2
    · obtain ⟨m, hm⟩ := readDict_notText hf h2
      rw [hm] at h; simp [eofExn] at h
  · exact readDict_cutOff hf

theorem readDict_unicode_iff {fmt : FDict} (hf : wireFmt fmt = true) {r : Bytes} :
    (∃ n, prs (readDict fmt) r = (.error .unicodeDecodeError, n)) ↔ FailsAt NotText fmt r := by
  constructor
  · rintro ⟨n, h⟩
    rcases dict_cases hf r with ⟨w, d', r', h2, rfl⟩ | ⟨c', h2⟩ | h2
    · rw [readDict_encodes hf h2] at h
      simp at h
    · obtain ⟨m, hm⟩ := readDict_cutOff hf h2
      rw [hm] at h; simp [eofExn] at h
    · exact h2
  · exact readDict_notText hf

/-! ### Repeated records -/

theorem readDict_stream {fmt : FDict} (s : Stream) :
    readDict fmt s = ((prs (readDict fmt) s.rest).1, ⟨s.buf, s.pos + (prs (readDict fmt) s.rest).2⟩) :=
  (Reader.readDict fmt).shift s

theorem repeated_records {fmt : FDict} (hf : wireFmt fmt = true) (hne : NonEmptyRecord fmt) {b : Bytes}
    {l : List VDict} {r : Bytes} (h : Records fmt b l r) : ∀ s : Stream, s.rest = b →
    ∃ s', s'.rest = r ∧ (readRepeatedly fmt s).1 = (readRepeatedly fmt s').1.map (l ++ ·) := by
  induction h with
  | done =>
    intro s hs
    refine ⟨s, hs, ?_⟩
    cases (readRepeatedly fmt s).1 <;> simp [Except.map]
  | more h1 h2 ih =>
    intro s hs
    have hr := readDict_stream (fmt := fmt) s
    rw [hs, readDict_encodes hf h1] at hr
    obtain ⟨s', hs', he⟩ := ih (readDict fmt s).2 (by
      rw [hr]
      simp only [Stream.rest, ← List.drop_drop]
      rw [show s.buf.drop s.pos = s.rest from rfl, hs]; simp)
    rw [hr] at he
    refine ⟨s', hs', ?_⟩
    rw [readRepeatedly_eq hne, hr]
    simp only []
    rw [he]
    cases (readRepeatedly fmt s').1 <;> simp [Except.map]

theorem repeated_cutOff {fmt : FDict} (hf : wireFmt fmt = true) (hne : NonEmptyRecord fmt) {c : Bool} (s : Stream)
    (h : FailsAt (CutOff c) fmt s.rest) :
    (readRepeatedly fmt s).1 = if c then .ok [] else .error (eofExn false) := by
  obtain ⟨n, hn⟩ := readDict_cutOff hf h
  have hr := readDict_stream (fmt := fmt) s
  rw [hn] at hr
  rw [readRepeatedly_eq hne, hr]
  cases c <;> simp [eofExn]

theorem repeated_notText {fmt : FDict} (hf : wireFmt fmt = true) (hne : NonEmptyRecord fmt) (s : Stream)
    (h : FailsAt NotText fmt s.rest) : (readRepeatedly fmt s).1 = .error .unicodeDecodeError := by
  obtain ⟨n, hn⟩ := readDict_notText hf h
  have hr := readDict_stream (fmt := fmt) s
  rw [hn] at hr
  rw [readRepeatedly_eq hne, hr]

theorem encodesAll_nonempty {fmt : FDict} (hf : wireFmt fmt = true) (hne : NonEmptyRecord fmt) {w : Bytes} {d : VDict}
    (h : EncodesAll fmt w d) : 0 < w.length := by
  have := readDict_encodes hf h []
  exact readDict_consumes hne this

theorem records_cases {fmt : FDict} (hf : wireFmt fmt = true) (hne : NonEmptyRecord fmt) (b : Bytes) :
    ∃ l r, Records fmt b l r ∧ ((∃ c, FailsAt (CutOff c) fmt r) ∨ FailsAt NotText fmt r) := by
  induction hn : b.length using Nat.strong_induction_on generalizing b with
  | _ n ih =>
    rcases dict_cases hf b with ⟨w, d, r', h, rfl⟩ | h | h
    · have := encodesAll_nonempty hf hne h
      obtain ⟨l, r, h1, h2⟩ := ih r'.length (by subst hn; simp; omega) r' rfl
      exact ⟨_, _, .more h h1, h2⟩
    · exact ⟨[], b, .done, Or.inl h⟩
    · exact ⟨[], b, .done, Or.inr h⟩

/-- The outcome of reading records, by the grammar. -/
theorem repeated_iff {fmt : FDict} (hf : wireFmt fmt = true) (hne : NonEmptyRecord fmt) (b : Bytes) :
    (∀ l, (readRepeatedly fmt (Stream.of b)).1 = .ok l ↔
      ∃ r, Records fmt b l r ∧ FailsAt (CutOff true) fmt r) ∧
    ((readRepeatedly fmt (Stream.of b)).1 = .error (eofExn false) ↔
      ∃ l r, Records fmt b l r ∧ FailsAt (CutOff false) fmt r) ∧
    ((readRepeatedly fmt (Stream.of b)).1 = .error .unicodeDecodeError ↔
      ∃ l r, Records fmt b l r ∧ FailsAt NotText fmt r) ∧
    (∀ e, (readRepeatedly fmt (Stream.of b)).1 = .error e → e = eofExn false ∨ e = .unicodeDecodeError) := by
  have key : ∀ l r, Records fmt b l r →
      (FailsAt (CutOff true) fmt r → (readRepeatedly fmt (Stream.of b)).1 = .ok l) ∧
      (FailsAt (CutOff false) fmt r → (readRepeatedly fmt (Stream.of b)).1 = .error (eofExn false)) ∧
      (FailsAt NotText fmt r → (readRepeatedly fmt (Stream.of b)).1 = .error .unicodeDecodeError) := by
    intro l r h
    obtain ⟨s', hs', he⟩ := repeated_records hf hne h (Stream.of b) (Stream.of_rest b)
    refine ⟨fun hc => ?_, fun hc => ?_, fun hc => ?_⟩
    · rw [he, repeated_cutOff hf hne s' (hs' ▸ hc)]; simp [Except.map]
    · rw [he, repeated_cutOff hf hne s' (hs' ▸ hc)]; simp [Except.map]
    · rw [he, repeated_notText hf hne s' (hs' ▸ hc)]; simp [Except.map]
  obtain ⟨l0, r0, hrec, hcase⟩ := records_cases hf hne b
  have hk := key l0 r0 hrec
  refine ⟨fun l => ⟨fun h => ?_, fun ⟨r, h1, h2⟩ => (key l r h1).1 h2⟩, ⟨fun h => ?_, fun ⟨l, r, h1, h2⟩ => (key l r h1).2.1 h2⟩,
    ⟨fun h => ?_, fun ⟨l, r, h1, h2⟩ => (key l r h1).2.2 h2⟩, fun e h => ?_⟩
  all_goals rcases hcase with ⟨c, hc⟩ | hc
  all_goals try cases c
  · rw [hk.2.1 hc] at h; simp at h
  · rw [hk.1 hc] at h; simp at h; subst h; exact ⟨r0, hrec, hc⟩
  · rw [hk.2.2 hc] at h; simp at h
  · exact ⟨_, _, hrec, hc⟩
  · rw [hk.1 hc] at h; simp at h
  · rw [hk.2.2 hc] at h; simp [eofExn] at h
  · rw [hk.2.1 hc] at h; simp [eofExn] at h
  · rw [hk.1 hc] at h; simp at h
  · exact ⟨_, _, hrec, hc⟩
  · rw [hk.2.1 hc] at h; simp at h; exact Or.inl h.symm
  · rw [hk.1 hc] at h; simp at h
  · rw [hk.2.2 hc] at h; simp at h; exact Or.inr h.symm

end OSK
