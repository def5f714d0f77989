import Verif.Props.Codec
import Verif.Lemmas.Repeat
/-
Properties C07-C14: records and lists of records in a `PascalStyleByteStream`.
-/
namespace OSK
open Spec

/-- A format and a record used in the examples: an int, a text, an MPINT with a 2-byte prefix. -/
def exFmt : FDict :=
  [(py! "a", .struct fmtBEI), (py! "b", .pascal .string), (py! "c", .pascalSized .mpint 2)]
def exRec : VDict :=
  [(py! "c", .int 200), (py! "a", .int 7), (py! "x", .other 0), (py! "b", .str [0xE9])]
/-- The wire form of `exRec`. -/
def exWire : Bytes := [0, 0, 0, 7, 0, 0, 0, 2, 0xC3, 0xA9, 0, 2, 0, 200]

/-- **C07** (round trip). A record written anywhere in a stream reads back, at that place, as exactly
the values named by the format, in format order, ending where the write ended. -/
theorem C07_record_roundtrip (fmt : FDict) (d : VDict) (s s' : Stream) (hx : ExactRecord fmt d)
    (h : writeDict fmt d s = (.ok (), s')) (hl : s'.buf.length ≤ pyMaxSize) :
    readDict fmt (s'.at s.pos) = (.ok (named fmt d), s') ∧
      ∀ k fi, (k, fi) ∈ fmt → ∃ v, dget d k = some v := by
  obtain ⟨w, hw, rfl⟩ := (Writes.dict fmt d).of_ok h
  constructor
  · have hr : ((s.wr w).at s.pos).rest = w ++ s.buf.drop (s.pos + w.length) := s.wr_drop w
    have hlw : w.length ≤ pyMaxSize := by
      have := congrArg List.length (s.wr_drop w)
      simp at this
      omega
    rw [(Reader.readDict fmt).shift, hr, prs_readDict hw hx hlw]
    have := s.wr_pos w
    cases hs : s.wr w
    rw [hs] at this
    simp [Stream.at] at this ⊢
    exact this.symm
  · clear h hl hx
    induction fmt generalizing w with
    | nil => intro k fi hm; simp at hm
    | cons kf t ih =>
      obtain ⟨k0, fi0⟩ := kf
      unfold packDict getItem at hw
      rcases hk : dget d k0 with _ | v
      · simp [hk] at hw
      · simp [hk] at hw
        obtain ⟨a, b, ha, hb, rfl⟩ := catE_ok hw
        intro k fi hm
        simp at hm
        rcases hm with ⟨rfl, rfl⟩ | hm
        · exact ⟨v, hk⟩
        · exact ih b hb k fi hm

example : ExactRecord exFmt exRec := by
  intro k fi v hm hv
  simp [exFmt] at hm
  rcases hm with ⟨rfl, rfl⟩ | ⟨rfl, rfl⟩ | ⟨rfl, rfl⟩ <;>
    simp [exRec, dget] at hv <;> subst hv <;> simp [Exact]
example : writeDict exFmt exRec ⟨[1, 2], 2⟩ = (.ok (), ⟨[1, 2] ++ exWire, 16⟩) := by decide
example : named exFmt exRec = [(py! "a", .int 7), (py! "b", .str [0xE9]), (py! "c", .int 200)] := by decide

/-- **C07** (extra keys). Values that the format does not name do not affect the outcome at all. -/
theorem C07_extra_keys_ignored (fmt : FDict) (d d' : VDict) (s : Stream)
    (h : ∀ kf ∈ fmt, dget d kf.1 = dget d' kf.1) : writeDict fmt d s = writeDict fmt d' s := by
  induction fmt generalizing s with
  | nil => rfl
  | cons kf t ih =>
    obtain ⟨k, fi⟩ := kf
    unfold writeDict
    have e : getItem d k = getItem d' k := by
      unfold getItem; rw [h (k, fi) (by simp)]
    rw [e]
    cases getItem d' k with
    | error e => rfl
    | ok v =>
      show (writeFI fi v >>= fun _ => writeDict t d) s = (writeFI fi v >>= fun _ => writeDict t d') s
      rw [SM.bind_apply, SM.bind_apply]
      rcases writeFI fi v s with ⟨_ | _, s'⟩
      · rfl
      · exact ih s' (fun kf hm => h kf (by simp [hm]))

/-- **C08.** Reading a record leaves the contents alone, never moves backwards, depends only on the
bytes after the position, and, when it succeeds, only on the bytes it consumed. -/
theorem C08_reads_local (fmt : FDict) (s : Stream) :
    (readDict fmt s).2.buf = s.buf ∧
    s.pos ≤ (readDict fmt s).2.pos ∧
    (∀ t : Stream, t.rest = s.rest → (readDict fmt t).1 = (readDict fmt s).1 ∧
      (readDict fmt t).2.pos - t.pos = (readDict fmt s).2.pos - s.pos) ∧
    (∀ d s', readDict fmt s = (.ok d, s') →
      ∀ t : Stream, s.rest.take (s'.pos - s.pos) <+: t.rest →
        readDict fmt t = (.ok d, ⟨t.buf, t.pos + (s'.pos - s.pos)⟩)) := by
  have R := Reader.readDict fmt
  refine ⟨by rw [R.shift], by rw [R.shift]; simp, ?_, ?_⟩
  · intro t ht
    rw [R.shift t, R.shift s, ht]
    simp
  · intro d s' h t ht
    obtain ⟨n, hp, rfl, _, _⟩ := readDict_ok_stream h
    simp only [Nat.add_sub_cancel_left] at ht ⊢
    obtain ⟨post, hpost⟩ := ht
    rw [R.shift t, ← hpost, R.okLocal _ _ _ hp post]

/-- C08 for a single instruction. -/
theorem C08_reads_local_single (fi : FI) (s : Stream) :
    (readFI fi s).2.buf = s.buf ∧
    s.pos ≤ (readFI fi s).2.pos ∧
    (∀ t : Stream, t.rest = s.rest → (readFI fi t).1 = (readFI fi s).1 ∧
      (readFI fi t).2.pos - t.pos = (readFI fi s).2.pos - s.pos) ∧
    (∀ v s', readFI fi s = (.ok v, s') →
      ∀ t : Stream, s.rest.take (s'.pos - s.pos) <+: t.rest →
        readFI fi t = (.ok v, ⟨t.buf, t.pos + (s'.pos - s.pos)⟩)) := by
  have R := Reader.readFI fi
  refine ⟨by rw [R.shift], by rw [R.shift]; simp, ?_, ?_⟩
  · intro t ht
    rw [R.shift t, R.shift s, ht]
    simp
  · intro v s' h t ht
    have hs := R.shift s
    rw [h] at hs
    rcases hp : prs (readFI fi) s.rest with ⟨x, n⟩
    rw [hp] at hs
    simp at hs
    obtain ⟨rfl, rfl⟩ := hs
    simp only [Nat.add_sub_cancel_left] at ht ⊢
    obtain ⟨post, hpost⟩ := ht
    rw [R.shift t, ← hpost, R.okLocal _ _ _ hp post]

example : readDict exFmt ⟨9 :: exWire ++ [1, 2, 3], 1⟩
    = (.ok (named exFmt exRec), ⟨9 :: exWire ++ [1, 2, 3], 15⟩) := by decide

/-- **C09.** If a record is readable from a stream, then from a stream in which only a proper prefix
of the bytes it occupied is left, reading raises `EOFError`. -/
theorem C09_truncated_record (fmt : FDict) (d : VDict) (s s' : Stream)
    (h : readDict fmt s = (.ok d, s')) (t : Stream) (m : Nat) (hm : m < s'.pos - s.pos)
    (ht : t.rest = (s.rest.take (s'.pos - s.pos)).take m) :
    ∃ b msg, (readDict fmt t).1 = .error (.eofError b msg) := by
  have R := Reader.readDict fmt
  obtain ⟨n, hp, rfl, _, _⟩ := readDict_ok_stream h
  simp only [Nat.add_sub_cancel_left] at hm ht
  obtain ⟨b, msg, hb⟩ := R.trunc _ _ _ hp m hm
  refine ⟨b, msg, ?_⟩
  rw [R.shift, ht, List.take_take, Nat.min_eq_left (by omega)]
  exact hb

/-- C09 for what was written: every proper prefix of the bytes written is rejected. -/
theorem C09_truncated_written_record (fmt : FDict) (d : VDict) (w : Stream) (hx : ExactRecord fmt d)
    (h : writeDict fmt d Stream.new = (.ok (), w)) (hl : w.buf.length ≤ pyMaxSize)
    (m : Nat) (hm : m < w.buf.length) :
    ∃ b msg, (readDict fmt (Stream.of (w.buf.take m))).1 = .error (.eofError b msg) := by
  have h7 := (C07_record_roundtrip fmt d _ _ hx h hl).1
  obtain ⟨b, hb, rfl⟩ := (Writes.dict fmt d).of_ok h
  have e : Stream.new.wr b = ⟨b, b.length⟩ := by
    rw [Stream.wr_end _ _ rfl]; simp [Stream.new]
  rw [e] at h7 hm ⊢
  refine C09_truncated_record fmt _ _ _ h7 _ m ?_ ?_
  · simpa [Stream.at, Stream.new] using hm
  · simp [Stream.at, Stream.new, Stream.of, Stream.rest]

example : ∀ m, m < 14 → (readDict exFmt (Stream.of (exWire.take m))).1
    = .error (.eofError true eofEmptyText) ∨ (readDict exFmt (Stream.of (exWire.take m))).1
    = .error (.eofError false eofShortText) := by decide

/-- **C10** (fixed reads). If a fixed-size read fails, it fails in the same way, with the same
exception argument texts, on every stream with equally many bytes left. -/
theorem C10_no_leak_fixed (n : Int) (s t : Stream) (hlen : s.rest.length = t.rest.length) (e : Exn)
    (h : (readFixed n s).1 = .error e) : (readFixed n t).1 = .error e := by
  by_cases hn : n < 0
  · unfold readFixed at h ⊢
    rw [SM.bind_apply] at h ⊢
    unfold bytesIORead at h ⊢
    rw [if_pos hn] at h ⊢
    by_cases h2 : n < -(pyMaxSize : Int) - 1
    · rw [if_pos h2] at h ⊢
      exact h
    rw [if_neg h2] at h
    exfalso
    simp only [] at h
    rw [if_neg (by omega)] at h
    simp at h
  · obtain ⟨k, rfl⟩ := Int.eq_ofNat_of_zero_le (by omega : 0 ≤ n)
    rw [readFixed_apply] at h ⊢
    rw [hlen] at h
    by_cases h1 : pyMaxSize < k
    · simp only [if_pos h1] at h ⊢; exact h
    · simp only [if_neg h1] at h ⊢
      by_cases h2 : t.rest.length < k
      · simp only [if_pos h2] at h ⊢; exact h
      · simp only [if_neg h2] at h; simp at h

/-- **C10** (everything). An `EOFError` raised while reading a record carries one of two constant
argument pairs, whatever the contents of the stream. -/
theorem C10_no_leak_record (fmt : FDict) (s : Stream) (b : Bool) (msg : Str)
    (h : (readDict fmt s).1 = .error (.eofError b msg)) :
    (b, msg) = (true, py! "Underlying bytestream is empty") ∨
    (b, msg) = (false,
      py! "Fewer than 'num_bytes' bytes remaining in the underlying bytestream") := by
  rcases EofConst.readDict fmt s b msg h with h | h
  · simp at h; left; rw [h.1, h.2]; rfl
  · simp at h; right; rw [h.1, h.2]; rfl

example : (readDict exFmt (Stream.of [0, 0, 0, 7, 0, 0, 0, 2, 0xC3])).1
    = .error (.eofError false eofShortText) := by decide

/-- **C11.** A list of records written at the end of a stream reads back as the same list. -/
theorem C11_repeated_roundtrip (fmt : FDict) (ds : List VDict) (s s' : Stream)
    (hwf : WellFormed fmt) (hne : NonEmptyRecord fmt) (hx : ∀ d ∈ ds, ExactRecord fmt d)
    (hend : s.pos = s.buf.length)
    (h : writeRepeatedly fmt ds s = (.ok (), s')) (hl : s'.buf.length ≤ pyMaxSize) :
    readRepeatedly fmt (s'.at s.pos) = (.ok (ds.map (named fmt)), s') := by
  obtain ⟨w, hw, rfl⟩ := (Writes.repeatedly fmt ds).of_ok h
  rw [s.wr_end w hend] at hl ⊢
  simp at hl
  rw [readRepeatedly_packed hne ds hx hw (by omega) _ [] (by simp [Stream.at, Stream.rest, hend])]
  rw [readRepeatedly_end hwf hne _ (by simp [Stream.at, Stream.rest, hend])]
  simp [Except.map, Stream.at]

example : WellFormed exFmt ∧ NonEmptyRecord exFmt := by
  refine ⟨?_, (py! "b", .pascal .string), by simp [exFmt], by simp⟩
  intro kf hm
  simp [exFmt] at hm
  rcases hm with rfl | rfl | rfl <;> simp [fmtBEI, SFmt.calcsize, SCode.size, pyMaxSize]
example : readRepeatedly exFmt (Stream.of (exWire ++ exWire ++ exWire))
    = (.ok [named exFmt exRec, named exFmt exRec, named exFmt exRec],
        ⟨exWire ++ exWire ++ exWire, 42⟩) := by decide +kernel

/-- **C12** (termination). If a record occupies at least one byte, the loop ends after at most
`remaining bytes + 1` iterations: with that much fuel an outcome is reached, and more fuel does not
change it. -/
theorem C12_repeated_terminates (fmt : FDict) (hne : NonEmptyRecord fmt) (s : Stream) :
    ∃ r, ∀ fuel, s.rest.length + 1 ≤ fuel → readRepeatedlyFuel fmt fuel s = some r := by
  obtain ⟨r, hr, hk⟩ := loop_some hne (s.rest.length + 1) [] s (by omega)
  refine ⟨r, fun fuel hf => ?_⟩
  unfold readRepeatedlyFuel
  rw [if_neg (nonEmptyRecord_length_ne hne)]
  have := hk (fuel - (s.rest.length + 1))
  rwa [Nat.add_sub_cancel' hf] at this

/-- **C12** (empty format). An empty format dict raises `ValueError` at once. -/
theorem C12_empty_format (s : Stream) (fuel : Nat) :
    ∃ msg, readRepeatedlyFuel [] fuel s = some (.error (.valueError msg), s) := ⟨_, rfl⟩

/-- The hypothesis of `C12_repeated_terminates` is needed: with a format of zero-size records (such
as `{'a': '0s'}`) the loop never ends, on any stream. -/
theorem C12_zero_size_diverges (s : Stream) (fuel : Nat) :
    readRepeatedlyFuel [(py! "a", .struct ⟨false, [.str 0]⟩)] fuel s = none := by
  have h : ∀ (fuel : Nat) (acc : List VDict),
      readRepeatedlyLoop [(py! "a", .struct ⟨false, [.str 0]⟩)] fuel acc s = none := by
    intro fuel
    induction fuel with
    | zero => intro acc; rfl
    | succ fuel ih =>
      intro acc
      have : readDict [(py! "a", .struct ⟨false, [.str 0]⟩)] s = (.ok [(py! "a", .bytes [])], s) := by
        rw [(Reader.readDict _).shift]
        have : prs (readDict [(py! "a", .struct ⟨false, [.str 0]⟩)]) s.rest
            = (.ok [(py! "a", .bytes [])], 0) := by
          unfold readDict readFI
          rw [prs_bind (fun _ => (Reader.readDict []).bind (fun _ => Reader.pure _))
            ((Reader.readFixed _).bind (fun _ => Reader.pure _)),
            prs_bind (fun _ => Reader.pure _) (Reader.readFixed _), prs_readFixed]
          simp only [SFmt.calcsize, List.map_cons, List.map_nil, SCode.size, List.sum_cons,
            List.sum_nil]
          rw [if_neg (by decide), if_neg (by simp)]
          simp [prs_pure, SFmt.unpack, unpackItems, SCode.unpack, SCode.size, structResult, readDict]
        rw [this]
        simp
      rw [readRepeatedlyLoop, this]
      exact ih _
  unfold readRepeatedlyFuel
  rw [if_neg (by simp)]
  exact h fuel []

/-- **C13** (partial). Full claim: *if the stream ends inside a record, `read_repeatedly` raises
`EOFError`.*  It is false (`C13_false`).  Proved: when the stream holds complete records followed by
a proper prefix of one more record, the outcome is either `EOFError` or exactly the complete records;
so an incomplete record is never turned into a wrong record, but it may be dropped silently. -/
theorem C13_repeated_incomplete_partial (fmt : FDict) (ds : List VDict) (hne : NonEmptyRecord fmt)
    (hx : ∀ d ∈ ds, ExactRecord fmt d) (w : Stream) (hw : writeRepeatedly fmt ds Stream.new = (.ok (), w))
    (hl : w.buf.length ≤ pyMaxSize)
    (d : VDict) (r r' : Stream) (hr : readDict fmt r = (.ok d, r'))
    (m : Nat) (hm : m < r'.pos - r.pos) :
    (∃ b msg, (readRepeatedly fmt (Stream.of (w.buf ++ r.rest.take m))).1 = .error (.eofError b msg)) ∨
    (readRepeatedly fmt (Stream.of (w.buf ++ r.rest.take m))).1 = .ok (ds.map (named fmt)) := by
  obtain ⟨b, hb, rfl⟩ := (Writes.repeatedly fmt ds).of_ok hw
  rw [Stream.new_wr_buf] at hl ⊢
  rw [readRepeatedly_packed hne ds hx hb hl _ (r.rest.take m) (by simp [Stream.of])]
  obtain ⟨n, hp, rfl, _, _⟩ := readDict_ok_stream hr
  simp at hm
  obtain ⟨e, msg, he⟩ := (Reader.readDict fmt).trunc _ _ _ hp m hm
  rw [readRepeatedly_eq hne, (Reader.readDict fmt).shift]
  have hrest : Stream.rest ⟨(Stream.of (b ++ r.rest.take m)).buf, (Stream.of (b ++ r.rest.take m)).pos + b.length⟩
      = r.rest.take m := by simp [Stream.rest, Stream.of]
  rw [hrest, he]
  cases e
  · left; exact ⟨false, msg, by simp [Except.map]⟩
  · right; simp [Except.map]

/-- **C13** (partial). For a format with a single fixed-size field the full claim holds: success means
that the records read account for every remaining byte. -/
theorem C13_repeated_single_struct_partial (k : Str) (f : SFmt) (h0 : 0 < f.calcsize)
    (hmax : f.calcsize ≤ pyMaxSize) (s : Stream) :
    (∃ ds, (readRepeatedly [(k, .struct f)] s).1 = .ok ds ∧ ds.length * f.calcsize = s.rest.length) ∨
    (∃ msg, (readRepeatedly [(k, .struct f)] s).1 = .error (.eofError false msg) ∧
      s.rest.length % f.calcsize ≠ 0) := by
  have hne : NonEmptyRecord [(k, FI.struct f)] := ⟨(k, .struct f), by simp, by simp; exact h0⟩
  have hd : ∀ r : Bytes, prs (readDict [(k, .struct f)]) r =
      if r.length < f.calcsize then
        (.error (if r.length = 0 then .eofError true eofEmptyText else .eofError false eofShortText),
          r.length)
      else (.ok [(k, structResult (f.unpack (r.take f.calcsize)))], f.calcsize) := by
    intro r
    unfold readDict readFI
    rw [prs_bind (fun _ => (Reader.readDict []).bind (fun _ => Reader.pure _))
      ((Reader.readFixed _).bind (fun _ => Reader.pure _)),
      prs_bind (fun _ => Reader.pure _) (Reader.readFixed _), prs_readFixed, if_neg (by omega)]
    by_cases h : r.length < f.calcsize
    · simp [h]
    · simp [h, prs_pure, readDict]
  generalize hn : s.rest.length = n
  induction n using Nat.strongRecOn generalizing s with
  | ind n ih =>
    rw [readRepeatedly_eq hne, (Reader.readDict _).shift, hd]
    by_cases h : s.rest.length < f.calcsize
    · rw [if_pos h]
      by_cases h1 : s.rest.length = 0
      · rw [if_pos h1]
        exact Or.inl ⟨[], rfl, by simp; omega⟩
      · rw [if_neg h1]
        refine Or.inr ⟨eofShortText, rfl, ?_⟩
        rw [← hn, Nat.mod_eq_of_lt h]; exact h1
    · rw [if_neg h]
      simp only []
      have hr : (Stream.rest ⟨s.buf, s.pos + f.calcsize⟩).length = n - f.calcsize := by
        have : Stream.rest ⟨s.buf, s.pos + f.calcsize⟩ = s.rest.drop f.calcsize := by simp [Stream.rest]
        rw [this]; simp; omega
      rcases ih (n - f.calcsize) (by omega) _ hr with ⟨ds, h1, h2⟩ | ⟨msg, h1, h2⟩
      · refine Or.inl ⟨_ :: ds, by rw [h1]; rfl, ?_⟩
        rw [List.length_cons, Nat.succ_mul]; omega
      · refine Or.inr ⟨msg, by rw [h1]; rfl, ?_⟩
        rwa [Nat.mod_eq_sub_mod (by omega)]

example : (readRepeatedly [(py! "a", .struct fmtBEI)] (Stream.of [0, 0, 0, 1, 0, 0])).1
    = .error (.eofError false eofShortText) := by decide

/-- The full claim C13 is refuted: a length prefix without its contents, or a record cut at a field
boundary, is silently dropped. -/
theorem C13_false :
    -- a complete record is readable from `00 00 00 01 FF` ...
    (readDict [(py! "name", .pascal .bytes)] (Stream.of [0, 0, 0, 1, 0xFF])).1
      = .ok [(py! "name", .bytes [0xFF])] ∧
    -- ... but its proper prefix `00 00 00 01` reads as "no records", without an exception
    (readRepeatedly [(py! "name", .pascal .bytes)] (Stream.of [0, 0, 0, 1])).1 = .ok [] ∧
    -- and so does a two-field record of which only the first field is there
    (readRepeatedly [(py! "a", .pascal .bytes), (py! "b", .pascal .bytes)]
      (Stream.of [0, 0, 0, 1, 0xFF])).1 = .ok [] := by decide

/-! ### C14 -/

theorem structPack_hasClass (f : SFmt) (v : Val) :
    (HasClass (.struct f) v → ∃ b, structPack f v = .ok b) ∧
    (¬ HasClass (.struct f) v → structPack f v = .error .structError) := by
  obtain ⟨big, items⟩ := f
  unfold structPack SFmt.pack1
  match items with
  | [] => cases v <;> simp [HasClass, Val.toSVal]
  | [.str n] => cases v <;> simp [HasClass, Val.toSVal, SCode.pack]
  | [.int size signed] =>
    cases v <;> simp [HasClass, Val.toSVal, SCode.pack]
    rename_i i
    constructor
    · intro h
      have : SCode.inIntRange size signed i := by
        unfold SCode.inIntRange; cases signed <;> simpa using h
      simp [this]
    · intro h h'
      exfalso
      unfold SCode.inIntRange at h'
      cases signed <;> simp at h h' <;> omega
  | _ :: _ :: _ => cases v <;> simp [HasClass, Val.toSVal]

theorem matchesVal_iff (p : Prim) (v : Val) : p.matchesVal v = true ↔ HasClass (.pascal p) v := by
  cases p <;> cases v <;> simp [Prim.matchesVal, HasClass]

theorem hasClass_sized (p : Prim) (n : Int) (v : Val) :
    HasClass (.pascalSized p n) v ↔ HasClass (.pascal p) v := by
  cases p <;> simp [HasClass]

/-- A field is fine: present and of the right class. -/
def FieldFine (d : VDict) (kf : Str × FI) : Prop := ∃ v, dget d kf.1 = some v ∧ HasClass kf.2 v

theorem checkField_spec (d : VDict) (k : Str) (fi : FI) (hr : fi ≠ .unrecognised) :
    (checkField d k fi).res = .ok () ∧
    (FieldFine d (k, fi) → (checkField d k fi).log = []) ∧
    (¬ FieldFine d (k, fi) → ∃ w, (checkField d k fi).log = [.warn w]) := by
  unfold checkField
  rcases hk : dget d k with _ | v
  · simp [FieldFine, hk]
  · have hff : FieldFine d (k, fi) ↔ HasClass fi v := by simp [FieldFine, hk]
    rw [hff]
    cases fi with
    | unrecognised => exact absurd rfl hr
    | struct f =>
      have := structPack_hasClass f v
      by_cases hc : HasClass (.struct f) v
      · obtain ⟨b, hb⟩ := this.1 hc
        simp [hb, hc]
      · simp [this.2 hc, hc]
    | pascal p =>
      simp only [← matchesVal_iff]
      cases p.matchesVal v <;> simp
    | pascalSized p n =>
      rw [hasClass_sized]
      simp only [← matchesVal_iff]
      cases p.matchesVal v <;> simp

/-- **C14** (silence). For recognised instructions checking never raises, and it is silent exactly
when every named field is present with the right class. -/
theorem C14_check_silent_iff (fmt : FDict) (d : VDict) (hr : ∀ kf ∈ fmt, kf.2 ≠ .unrecognised) :
    (checkDict d fmt).res = .ok () ∧
    ((checkDict d fmt).log = [] ↔ ∀ kf ∈ fmt, ∃ v, dget d kf.1 = some v ∧ HasClass kf.2 v) := by
  induction fmt with
  | nil => simp [checkDict]
  | cons kf t ih =>
    obtain ⟨k, fi⟩ := kf
    have h1 := checkField_spec d k fi (hr (k, fi) (by simp))
    have h2 := ih (fun kf hm => hr kf (by simp [hm]))
    unfold checkDict
    rw [Eff.bind_ok h1.1]
    refine ⟨h2.1, ?_⟩
    simp only [List.append_eq_nil_iff, h2.2, List.mem_cons, forall_eq_or_imp]
    by_cases hf : FieldFine d (k, fi)
    · simp only [h1.2.1 hf, true_and]
      exact ⟨fun h => ⟨hf, h⟩, fun h => h.2⟩
    · obtain ⟨w, hw⟩ := h1.2.2 hf
      simp only [hw]
      constructor
      · intro h; simp at h
      · intro h; exact absurd h.1 hf

/-- Exceptions of values that have the right class but no encoding. -/
def Unencodable (e : Exn) : Prop := e = .overflowError ∨ e = .unicodeEncodeError

theorem packFI_not_hasClass {fi : FI} {v : Val} (h : ¬ HasClass fi v) : ∃ e, packFI fi v = .error e := by
  cases fi with
  | struct f => exact ⟨_, (structPack_hasClass f v).2 h⟩
  | unrecognised => exact ⟨_, rfl⟩
  | pascal p => cases p <;> cases v <;> simp [HasClass, packFI, packPascal, encodePrim] at h ⊢
  | pascalSized p n => cases p <;> cases v <;> simp [HasClass, packFI, packPascal, encodePrim] at h ⊢

theorem packPascal_hasClass {p : Prim} {size : Int} (hs : 0 ≤ size) {v : Val} {e : Exn}
    (h : HasClass (.pascal p) v) (he : packPascal p size v = .error e) : Unencodable e := by
  have hlen : ∀ (b : Bytes), toBytesUnsigned size b.length = .error e → Unencodable e := by
    intro b hb
    unfold toBytesUnsigned at hb
    rw [if_neg (by omega)] at hb
    split at hb
    · simp at hb
    · simp at hb; exact Or.inl hb.symm
  have hcase : encodePrim p v = .error e ∨ ∃ b : Bytes, toBytesUnsigned size b.length = .error e := by
    unfold packPascal at he
    split at he
    · rename_i e' h'; simp at he; subst he; exact Or.inl h'
    · rename_i b hb
      split at he
      · rename_i e' h'; simp at he; subst he; exact Or.inr ⟨b, h'⟩
      · simp at he
  rcases hcase with h' | ⟨b, hb⟩
  · cases p with
    | bytes => obtain ⟨b, rfl⟩ := h; simp [encodePrim] at h'
    | string =>
      obtain ⟨s, rfl⟩ := h
      simp only [encodePrim, strEncode] at h'
      split at h'
      · simp at h'
      · simp at h'; exact Or.inr h'.symm
    | mpint =>
      obtain ⟨i, rfl⟩ := h
      exact Or.inl (toBytesSigned_error h')
  · exact hlen b hb

theorem packFI_hasClass {fi : FI} {v : Val} {e : Exn} (hs : ∀ p n, fi = .pascalSized p n → 0 ≤ n)
    (h : HasClass fi v) (he : packFI fi v = .error e) : Unencodable e := by
  cases fi with
  | struct f =>
    obtain ⟨b, hb⟩ := (structPack_hasClass f v).1 h
    simp [packFI, hb] at he
  | unrecognised => exact absurd h id
  | pascal p => exact packPascal_hasClass (by decide) h he
  | pascalSized p n =>
    exact packPascal_hasClass (hs p n rfl) ((hasClass_sized p n v).1 h) he

/-- **C14** (a warning means that writing raises). -/
theorem C14_warning_write_raises (fmt : FDict) (d : VDict) (hr : ∀ kf ∈ fmt, kf.2 ≠ .unrecognised)
    (hw : (checkDict d fmt).log ≠ []) (s : Stream) : ∃ e, (writeDict fmt d s).1 = .error e := by
  rw [(Writes.dict fmt d).result]
  have hnf : ¬ ∀ kf ∈ fmt, FieldFine d kf := fun h => hw ((C14_check_silent_iff fmt d hr).2.2 h)
  clear hw hr
  suffices ∃ e, packDict fmt d = .error e by
    obtain ⟨e, he⟩ := this; exact ⟨e, by rw [he]; rfl⟩
  induction fmt with
  | nil => exact absurd (by simp) hnf
  | cons kf t ih =>
    obtain ⟨k, fi⟩ := kf
    unfold packDict getItem
    rcases hk : dget d k with _ | v
    · exact ⟨_, rfl⟩
    · simp only []
      by_cases hc : HasClass fi v
      · have : ¬ ∀ kf ∈ t, FieldFine d kf := by
          intro h
          apply hnf
          intro kf hm
          simp at hm
          rcases hm with rfl | hm
          · exact ⟨v, hk, hc⟩
          · exact h kf hm
        obtain ⟨e, he⟩ := ih this
        rw [he]
        cases packFI fi v <;> exact ⟨_, rfl⟩
      · obtain ⟨e, he⟩ := packFI_not_hasClass hc
        rw [he]; exact ⟨e, rfl⟩

/-- **C14** (silence means that writing can only fail for lack of an encoding). -/
theorem C14_silent_write_fails_only_unencodable (fmt : FDict) (d : VDict)
    (hr : ∀ kf ∈ fmt, kf.2 ≠ .unrecognised) (hs : ∀ kf ∈ fmt, ∀ p n, kf.2 = .pascalSized p n → 0 ≤ n)
    (hw : (checkDict d fmt).log = []) (s : Stream) (e : Exn) (he : (writeDict fmt d s).1 = .error e) :
    e = .overflowError ∨ e = .unicodeEncodeError := by
  rw [(Writes.dict fmt d).result] at he
  have hf := (C14_check_silent_iff fmt d hr).2.1 hw
  clear hw hr
  have he' : packDict fmt d = .error e := by
    cases hp : packDict fmt d with
    | error e' => rw [hp] at he; simpa [Except.map] using he
    | ok b => rw [hp] at he; simp [Except.map] at he
  clear he
  induction fmt with
  | nil => simp [packDict] at he'
  | cons kf t ih =>
    obtain ⟨k, fi⟩ := kf
    obtain ⟨v, hk, hc⟩ := hf (k, fi) (by simp)
    unfold packDict getItem at he'
    simp only [] at hk hc
    rw [hk] at he'
    simp only [] at he'
    rcases hp : packFI fi v with e' | b
    · rw [hp] at he'
      simp [catE] at he'
      subst he'
      exact packFI_hasClass (fun p n h => hs (k, fi) (by simp) p n h) hc hp
    · rw [hp] at he'
      rcases hq : packDict t d with e' | b'
      · rw [hq] at he'
        simp [catE] at he'
        subst he'
        exact ih (fun kf hm => hs kf (by simp [hm])) (fun kf hm => hf kf (by simp [hm])) hq
      · rw [hq] at he'; simp [catE] at he'

-- a complete record; a record with a missing field, an out-of-range int and a wrong class
example : (checkDict exRec exFmt).log = [] := by decide
example : (checkDict [(py! "a", .int (-1)), (py! "b", .bytes [])] exFmt).log
    = [.warn (.shouldBeFormatted (py! "a")), .warn (.shouldBeOfClass (py! "b")),
       .warn (.missing (py! "c"))] := by decide
-- silent, yet unencodable
example : (checkDict [(py! "c", .int (-129)), (py! "a", .int 7), (py! "b", .str [])] exFmt).log = []
    ∧ (writeDict exFmt [(py! "c", .int (-129)), (py! "a", .int 7), (py! "b", .str [])] Stream.new).1
      = .error .overflowError := by decide

end OSK
