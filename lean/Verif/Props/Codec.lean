import Verif.Lemmas.ReadInv
import Verif.Spec.Text
/-
Properties C01-C06: single values in a `PascalStyleByteStream`.

`pyMaxSize` is `sys.maxsize`; no Python byte string is longer, so hypotheses of the form
`s'.buf.length ≤ pyMaxSize` hold of every stream that can exist.
-/
namespace OSK
open Spec

/-- Reposition a stream (`seek`). -/
def Stream.at (s : Stream) (p : Nat) : Stream := ⟨s.buf, p⟩

theorem prefixed_natToBE {n : Nat} {b : Bytes} (h : b.length < 256 ^ n) :
    Prefixed n b (natToBE n b.length ++ b) :=
  ⟨natToBE n b.length, by simp, by rw [digitSum_eq, beNat_natToBE_of_lt h], rfl⟩

theorem writeFI_pascal_iff (p : Prim) (n : Nat) (v : Val) (b : Bytes) (hb : encodePrim p v = .ok b)
    (s : Stream) :
    ((∃ s', writeFI (.pascalSized p n) v s = (.ok (), s')) ↔ b.length < 256 ^ n) ∧
    ∀ s', writeFI (.pascalSized p n) v s = (.ok (), s') →
      s' = s.wr (natToBE n b.length ++ b) ∧ packFI (.pascalSized p n) v = .ok (natToBE n b.length ++ b) := by
  have hp : packFI (.pascalSized p n) v
      = if b.length < 256 ^ n then .ok (natToBE n b.length ++ b) else .error .overflowError := by
    simp only [packFI, packPascal, hb, toBytesUnsigned]
    rw [if_neg (by omega)]
    simp only [Int.toNat_natCast]
    by_cases hl : b.length < 256 ^ n
    · simp [hl]
    · simp [hl]
  have hw := Writes.fi (.pascalSized p n) v
  constructor
  · constructor
    · rintro ⟨s', h⟩
      obtain ⟨w, hw', _⟩ := hw.of_ok h
      rw [hp] at hw'
      split at hw'
      · assumption
      · simp at hw'
    · intro hl
      rw [if_pos hl] at hp
      exact ⟨_, hw.ok _ hp s⟩
  · intro s' h
    obtain ⟨w, hw', rfl⟩ := hw.of_ok h
    rw [hp] at hw'
    split at hw'
    · rename_i hl
      simp at hw'
      subst hw'
      rw [if_pos hl] at hp
      exact ⟨rfl, hp⟩
    · simp at hw'

/-- Reading at the place where something was written with `wr`. -/
theorem readFI_at_wr {fi : FI} {v : Val} {w : Bytes} (h : packFI fi v = .ok w) (hx : Exact fi v)
    (s : Stream) (hw : (s.wr w).buf.length ≤ pyMaxSize) :
    readFI fi ((s.wr w).at s.pos) = (.ok v, s.wr w) := by
  have hr : ((s.wr w).at s.pos).rest = w ++ s.buf.drop (s.pos + w.length) := s.wr_drop w
  rw [(Reader.readFI fi).shift, hr]
  have hl : w.length ≤ pyMaxSize := by
    have := congrArg List.length (s.wr_drop w)
    simp at this
    omega
  rw [prs_readFI h hx hl]
  simp only [Stream.at]
  congr 1
  have := s.wr_pos w
  cases hs : s.wr w
  rw [hs] at this
  simp at this ⊢
  exact this.symm

/-- What `wr` leaves alone. -/
theorem Stream.wr_take (s : Stream) (w : Bytes) (h : s.pos ≤ s.buf.length) :
    (s.wr w).buf.take s.pos = s.buf.take s.pos := by
  by_cases hw : w = []
  · subst hw; simp
  · rw [Stream.wr_eq s hw]
    simp only [List.append_assoc]
    rw [List.take_append_of_le_length (by simp; omega), List.take_take]
    simp
    rw [List.take_append_of_le_length h]

/-- **C01.** Length-prefixed byte strings: writable iff the length fits the prefix; the bytes put in
the stream are exactly prefix and contents, everything else in the stream stays; reading at that
place returns the value and stops right after it. -/
theorem C01_bytes_roundtrip (n : Nat) (hn : 1 ≤ n) (b : Bytes) (s : Stream) :
    ((∃ s', writeFI (.pascalSized .bytes n) (.bytes b) s = (.ok (), s')) ↔ b.length < 256 ^ n) ∧
    ∀ s', writeFI (.pascalSized .bytes n) (.bytes b) s = (.ok (), s') →
      (∃ w, Prefixed n b w ∧ s'.buf.drop s.pos = w ++ s.buf.drop (s.pos + w.length) ∧
        s'.pos = s.pos + w.length ∧ (s.pos ≤ s.buf.length → s'.buf.take s.pos = s.buf.take s.pos)) ∧
      (s'.buf.length ≤ pyMaxSize →
        readFI (.pascalSized .bytes n) (s'.at s.pos) = (.ok (.bytes b), s')) := by
  have h := writeFI_pascal_iff .bytes n (.bytes b) b rfl s
  refine ⟨h.1, fun s' hs => ?_⟩
  obtain ⟨rfl, hp⟩ := h.2 s' hs
  refine ⟨⟨_, prefixed_natToBE (h.1.1 ⟨_, hs⟩), s.wr_drop _, s.wr_pos _, s.wr_take _⟩, fun hl => ?_⟩
  exact readFI_at_wr (fi := .pascalSized .bytes n) hp (by simp [Exact]; omega) s hl

-- a 300-byte string does not fit a 1-byte prefix but does fit a 2-byte prefix
example : (∃ s', writeFI (.pascalSized .bytes 2) (.bytes (List.replicate 300 7)) ⟨[1, 2, 3], 1⟩
    = (.ok (), s')) := (C01_bytes_roundtrip 2 (by decide) _ _).1.2 (by rw [List.length_replicate]; decide)
example : ¬ (∃ s', writeFI (.pascalSized .bytes 1) (.bytes (List.replicate 300 7)) ⟨[1, 2, 3], 1⟩
    = (.ok (), s')) := fun h => absurd ((C01_bytes_roundtrip 1 (by decide) _ _).1.1 h) (by rw [List.length_replicate]; decide)
example : writeFI (.pascalSized .bytes 1) (.bytes [9, 8]) ⟨[1, 2, 3, 4, 5], 1⟩
    = (.ok (), ⟨[1, 2, 9, 8, 5], 4⟩) := by decide

/-- C01 for the default prefix size (4): `PascalStyleFormatInstruction.BYTES` itself. -/
theorem C01_bytes_roundtrip_default (b : Bytes) (s : Stream) :
    writeFI (.pascal .bytes) (.bytes b) s = writeFI (.pascalSized .bytes 4) (.bytes b) s ∧
    readFI (.pascal .bytes) s = readFI (.pascalSized .bytes 4) s := ⟨rfl, rfl⟩

theorem encodePrim_string_utf8 (cs : List Char) :
    encodePrim .string (.str (strOf cs)) = .ok (utf8 cs) := by
  simp [encodePrim, strEncode, utf8Encode?_chars]

/-- **C02** (writing and reading back). A `str` made of Unicode scalar values `cs` is stored as the
length-prefixed UTF-8 form of `cs` and reads back as the identical `str`. -/
theorem C02_text_roundtrip (n : Nat) (hn : 1 ≤ n) (cs : List Char) (s s' : Stream)
    (h : writeFI (.pascalSized .string n) (.str (strOf cs)) s = (.ok (), s')) :
    (∃ w, Prefixed n (utf8 cs) w ∧ s'.buf.drop s.pos = w ++ s.buf.drop (s.pos + w.length) ∧
        s'.pos = s.pos + w.length) ∧
      (s'.buf.length ≤ pyMaxSize →
        readFI (.pascalSized .string n) (s'.at s.pos) = (.ok (.str (strOf cs)), s')) := by
  have h1 := writeFI_pascal_iff .string n (.str (strOf cs)) _ (encodePrim_string_utf8 cs) s
  obtain ⟨rfl, hp⟩ := h1.2 s' h
  refine ⟨⟨_, prefixed_natToBE (h1.1.1 ⟨_, h⟩), s.wr_drop _, s.wr_pos _⟩, fun hl => ?_⟩
  exact readFI_at_wr (fi := .pascalSized .string n) hp (by simp [Exact]; omega) s hl

-- "é€𝄞" (2-, 3- and 4-byte forms) written at the end of a stream
example : writeFI (.pascal .string) (.str (strOf ['é', '€', '𝄞'])) ⟨[7], 1⟩
    = (.ok (), ⟨[7, 0, 0, 0, 9, 0xC3, 0xA9, 0xE2, 0x82, 0xAC, 0xF0, 0x9D, 0x84, 0x9E], 14⟩) := by decide

/-- **C02** (unencodable text). A `str` is a list of code points; it is writable (given room in the
prefix) exactly when all of them are Unicode scalar values; otherwise `UnicodeEncodeError` is raised
and the stream is unchanged. -/
theorem C02_text_unencodable (n : Nat) (t : Str) (s : Stream) (h : ¬ ∃ cs, t = strOf cs) :
    writeFI (.pascalSized .string n) (.str t) s = (.error .unicodeEncodeError, s) := by
  have : utf8Encode? t = none := by
    rcases ht : utf8Encode? t with _ | b
    · rfl
    · obtain ⟨cs, hcs, _⟩ := utf8Encode?_some ht
      exact absurd ⟨cs, hcs⟩ h
  simp [writeFI, packFI, packPascal, encodePrim, strEncode, this]

-- a lone surrogate
example : writeFI (.pascal .string) (.str [0x61, 0xD800]) ⟨[7], 1⟩
    = (.error .unicodeEncodeError, ⟨[7], 1⟩) := by decide
example : ¬ ∃ cs, [0x61, 0xD800] = strOf cs := by
  rintro ⟨cs, h⟩
  have : 0xD800 ∈ strOf cs := by rw [← h]; simp
  simp only [strOf, List.mem_map] at this
  obtain ⟨c, _, hc⟩ := this
  have hv : c.toNat < 0xD800 ∨ (0xDFFF < c.toNat ∧ c.toNat < 0x110000) := c.valid
  omega

/-- **C02** (reading arbitrary bytes). If the stored bytes are the UTF-8 form of characters `cs` the
read returns `cs`; if they are not the UTF-8 form of anything, `UnicodeDecodeError` is raised. -/
theorem C02_text_read (n : Nat) (hn : 1 ≤ n) (b w post : Bytes) (s : Stream) (hw : Prefixed n b w)
    (hs : s.rest = w ++ post) (hl : w.length ≤ pyMaxSize) :
    (∀ cs, b = utf8 cs → (readFI (.pascalSized .string n) s).1 = .ok (.str (strOf cs))) ∧
    ((¬ ∃ cs, b = utf8 cs) → (readFI (.pascalSized .string n) s).1 = .error .unicodeDecodeError) := by
  have key : (readFI (.pascalSized .string n) s).1 = decodePrim .string b := by
    obtain ⟨p, hp1, hp2, rfl⟩ := hw
    rw [digitSum_eq] at hp2
    have hb : b.length < 256 ^ n := by rw [← hp2, ← hp1]; exact beNat_lt p
    have hpe : p = natToBE n b.length := by rw [← hp2, ← hp1, natToBE_beNat]
    subst hpe
    simp at hl
    rw [(Reader.readFI _).shift, hs]
    simp only [readFI]
    rw [prs_bind (fun _ => Reader.lift _) (Reader.readPascalBytes _),
      prs_readPascalBytes (by omega) (by omega) hb (by omega)]
    simp [prs_lift]
  rw [key]
  constructor
  · rintro cs rfl
    simp [decodePrim, bytesDecode, utf8Decode?_utf8, Except.map]
  · intro h
    have : utf8Decode? b = none := by
      rcases hb : utf8Decode? b with _ | t
      · rfl
      · obtain ⟨cs, _, hcs⟩ := utf8Encode?_some (utf8Encode_decode hb)
        exact absurd ⟨cs, hcs⟩ h
    simp [decodePrim, bytesDecode, this, Except.map]

-- overlong '/', surrogate, beyond U+10FFFF, truncated
example : (readFI (.pascal .string) ⟨[0, 0, 0, 2, 0xC0, 0xAF], 0⟩).1 = .error .unicodeDecodeError := by decide
example : (readFI (.pascal .string) ⟨[0, 0, 0, 3, 0xED, 0xA0, 0x80], 0⟩).1 = .error .unicodeDecodeError := by decide
example : (readFI (.pascal .string) ⟨[0, 0, 0, 4, 0xF4, 0x90, 0x80, 0x80], 0⟩).1 = .error .unicodeDecodeError := by decide
example : (readFI (.pascal .string) ⟨[0, 0, 0, 2, 0xE2, 0x82], 0⟩).1 = .error .unicodeDecodeError := by decide

/-- **C02** (decode then encode). Writing back a `str` that was read reproduces the bytes read. -/
theorem C02_text_reencode (n : Nat) (t : Str) (s s' out : Stream)
    (h : readFI (.pascalSized .string n) s = (.ok (.str t), s')) :
    writeFI (.pascalSized .string n) (.str t) out
      = (.ok (), out.wr (s.rest.take (s'.pos - s.pos))) := by
  have hr := (Reader.readFI (.pascalSized .string n)).shift s
  rw [h] at hr
  rcases hp : prs (readFI (.pascalSized .string n)) s.rest with ⟨x, N⟩
  rw [hp] at hr
  simp at hr
  obtain ⟨rfl, rfl⟩ := hr
  have := (packFI_of_read (fi := .pascalSized .string n) (by trivial) hp
    (by intro size i b hb; simp [FI.prim?] at hb)).1
  simp only [Nat.add_sub_cancel_left]
  exact (Writes.fi _ _).ok _ this out

-- reading "é" in the middle of a stream and writing it elsewhere
example : readFI (.pascal .string) ⟨[1, 0, 0, 0, 2, 0xC3, 0xA9, 5], 1⟩
    = (.ok (.str [0xE9]), ⟨[1, 0, 0, 0, 2, 0xC3, 0xA9, 5], 7⟩) := by decide

/-- **C03** (round trip). Whatever int is written as MPINT reads back as itself. -/
theorem C03_mpint_roundtrip (n : Nat) (hn : 1 ≤ n) (v : Int) (s s' : Stream)
    (h : writeFI (.pascalSized .mpint n) (.int v) s = (.ok (), s')) (hl : s'.buf.length ≤ pyMaxSize) :
    readFI (.pascalSized .mpint n) (s'.at s.pos) = (.ok (.int v), s') := by
  obtain ⟨w, hw, rfl⟩ := (Writes.fi _ _).of_ok h
  exact readFI_at_wr hw (by simp [Exact]; omega) s hl

example : writeFI (.pascal .mpint) (.int 128) ⟨[], 0⟩ = (.ok (), ⟨[0, 0, 0, 2, 0, 128], 6⟩) := by decide
example : writeFI (.pascal .mpint) (.int (-32768)) ⟨[], 0⟩ = (.ok (), ⟨[0, 0, 0, 2, 128, 0], 6⟩) := by decide

/-- **C03** (writability of non-negative ints). Every non-negative int whose magnitude needs fewer
than `256^n` bytes can be written. -/
theorem C03_mpint_nonneg_writable (n : Nat) (v : Int) (s : Stream) (h0 : 0 ≤ v)
    (h : ∃ m : Nat, m < 256 ^ n ∧ 2 * v < (256 : Int) ^ m) :
    ∃ s', writeFI (.pascalSized .mpint n) (.int v) s = (.ok (), s') := by
  obtain ⟨m, hm, hv⟩ := h
  obtain ⟨b, hb⟩ := (mpint_writable_iff v).2 (by
    rintro ⟨k, h1, _⟩
    have : (0 : Int) < 2 ^ (8 * k + 7) := by positivity
    omega)
  refine ((writeFI_pascal_iff .mpint n (.int v) b hb s).1).2 ?_
  obtain ⟨hb1, hb2⟩ := toBytesSigned_ok hb
  rw [hb1]
  refine Nat.lt_of_le_of_lt ?_ hm
  by_cases hm0 : m = 0
  · subst hm0
    have : v = 0 := by simp at hv; omega
    subst this; decide
  · have := beInt_natToBE (len := m) hm0 (v := v) ⟨by
      have : (0 : Int) ≤ 256 ^ m := by positivity
      omega, hv⟩
    have := mpintLength_le this
    simpa using this

example : ∃ s', writeFI (.pascalSized .mpint 1) (.int (2 ^ 200)) ⟨[], 0⟩ = (.ok (), s') :=
  C03_mpint_nonneg_writable 1 _ _ (by positivity) ⟨26, by decide, by norm_num⟩

/-- **C04.** The stored bytes are the shortest two's complement form of the int, and there is only
one such form. -/
theorem C04_mpint_canonical (n : Nat) (v : Int) (s s' : Stream)
    (h : writeFI (.pascalSized .mpint n) (.int v) s = (.ok (), s')) :
    ∃ b w, Prefixed n b w ∧ s'.buf.drop s.pos = w ++ s.buf.drop (s.pos + w.length) ∧
      IsShortestTC b v ∧ ∀ b', IsShortestTC b' v → b' = b := by
  obtain ⟨w, hw, rfl⟩ := (Writes.fi _ _).of_ok h
  obtain ⟨b, hb, h0, hl, rfl⟩ := packPascal_ok (by simpa [packFI] using hw)
  simp only [Int.toNat_natCast] at hl ⊢
  exact ⟨b, _, prefixed_natToBE hl, s.wr_drop _, mpint_shortest hb,
    fun b' hb' => shortest_unique hb' (mpint_shortest hb)⟩

/-- C04, spelled out: zero is the empty string; a first byte `00` is followed by a byte `≥ 0x80`; a
first byte `FF` is followed by a byte `< 0x80`. -/
theorem C04_mpint_canonical_leading (v : Int) (b : Bytes) (h : IsShortestTC b v) :
    (v = 0 ↔ b = []) ∧
    (∀ t, b = 0 :: t → ∃ x u, t = x :: u ∧ 0x80 ≤ x.toNat) ∧
    (∀ t, b = 0xFF :: t → t = [] ∨ ∃ x u, t = x :: u ∧ x.toNat < 0x80) := by
  obtain ⟨h1, h2⟩ := h
  refine ⟨⟨?_, ?_⟩, ?_, ?_⟩
  · rintro rfl
    have := h2 [] rfl
    simpa using this
  · rintro rfl; exact h1.symm
  · rintro t rfl
    cases t with
    | nil => have := h2 [] (by rw [← h1]; decide); simp at this
    | cons x u =>
      refine ⟨x, u, rfl, ?_⟩
      by_contra hx
      have : tcVal (x :: u) = v := by
        rw [← h1]
        simp only [tcVal, digitSum]
        rw [if_pos (by omega)]
        simp
      have := h2 _ this
      simp at this
  · rintro t rfl
    cases t with
    | nil => exact Or.inl rfl
    | cons x u =>
      refine Or.inr ⟨x, u, rfl, ?_⟩
      by_contra hx
      have : tcVal (x :: u) = v := by
        rw [← h1]
        simp only [tcVal, digitSum, List.length_cons]
        rw [if_neg (by omega), if_neg (by decide)]
        have : ((0xFF : UInt8).toNat : Int) = 255 := rfl
        rw [this]
        push_cast
        ring
      have := h2 _ this
      simp at this

example : IsShortestTC [0xFF, 0x7F] (-129) := by
  refine ⟨by decide, fun b' hb' => ?_⟩
  match b' with
  | [] => simp [tcVal] at hb'
  | [x] =>
    have := x.toNat_lt
    simp only [tcVal, digitSum, List.length_nil] at hb'
    split at hb' <;> simp at hb'
    omega
  | _ :: _ :: _ => simp

/-- **C05** (partial). Full claim: *every* int whose encoding fits the prefix can be written.  It is
false (`C05_false`).  Proved instead: exactly which ints can be written (with room in the prefix):
all except those with `2^(8k+7) < -v < 2^(8k+8)` for some `k`, i.e. all but the negative ints that
need a sign byte; for those `OverflowError` is raised and nothing is written. -/
theorem C05_every_int_writable_partial (n : Nat) (v : Int) (s : Stream)
    (hfit : ∃ b, tcVal b = v ∧ b.length < 256 ^ n) :
    ((∃ s', writeFI (.pascalSized .mpint n) (.int v) s = (.ok (), s')) ↔
      ¬ ∃ k : Nat, (2 : Int) ^ (8 * k + 7) < -v ∧ -v < (2 : Int) ^ (8 * k + 8)) ∧
    ((∃ k : Nat, (2 : Int) ^ (8 * k + 7) < -v ∧ -v < (2 : Int) ^ (8 * k + 8)) →
      writeFI (.pascalSized .mpint n) (.int v) s = (.error .overflowError, s)) := by
  have hw := mpint_writable_iff v
  constructor
  · rw [← hw]
    constructor
    · rintro ⟨s', h⟩
      obtain ⟨w, hw', rfl⟩ := (Writes.fi _ _).of_ok h
      obtain ⟨b, hb, _⟩ := packPascal_ok (by simpa [packFI] using hw')
      exact ⟨b, hb⟩
    · rintro ⟨b, hb⟩
      refine ((writeFI_pascal_iff .mpint n (.int v) b hb s).1).2 ?_
      rw [(toBytesSigned_ok hb).1]
      obtain ⟨b', h1, h2⟩ := hfit
      rw [tcVal_eq] at h1
      exact Nat.lt_of_le_of_lt (mpintLength_le h1) h2
  · intro hk
    have : ¬ ∃ b, toBytesSigned (mpintLength v) v = .ok b := by rw [hw]; exact not_not.2 hk
    rcases he : toBytesSigned (mpintLength v) v with e | b
    · have := toBytesSigned_error he
      subst this
      simp [writeFI, packFI, packPascal, encodePrim, he]
    · exact absurd ⟨b, he⟩ this

/-- The full claim C05 is refuted by -129 (whose two's complement form is `FF 7F`). -/
theorem C05_false : ¬ ∀ (v : Int) (s : Stream), (∃ b, tcVal b = v ∧ b.length < 256 ^ 4) →
    ∃ s', writeFI (.pascal .mpint) (.int v) s = (.ok (), s') := by
  intro h
  obtain ⟨s', hs⟩ := h (-129) Stream.new ⟨[0xFF, 0x7F], by decide, by decide⟩
  have : (writeFI (.pascal .mpint) (.int (-129)) Stream.new).1 = .error .overflowError := by decide
  rw [hs] at this
  simp at this

example : writeFI (.pascal .mpint) (.int (-128)) Stream.new = (.ok (), ⟨[0, 0, 0, 1, 128], 5⟩) := by decide
example : (readFI (.pascal .mpint) ⟨[0, 0, 0, 2, 0xFF, 0x7F], 0⟩).1 = .ok (.int (-129)) := by decide

/-- Ints representable in `size` bytes, stated with powers of two. -/
def Fits (size : Nat) (signed : Bool) (v : Int) : Prop :=
  if signed then -(2 : Int) ^ (8 * size - 1) ≤ v ∧ v < (2 : Int) ^ (8 * size - 1)
  else 0 ≤ v ∧ v < (2 : Int) ^ (8 * size)

theorem inIntRange_iff {size : Nat} (h : 1 ≤ size) (signed : Bool) (v : Int) :
    SCode.inIntRange size signed v ↔ Fits size signed v := by
  have e : (256 : Int) ^ size = 2 ^ (8 * size) := by
    rw [pow_mul]; norm_num
  have e2 : (2 : Int) ^ (8 * size) = 2 * 2 ^ (8 * size - 1) := by
    rw [← pow_succ', Nat.sub_add_cancel (by omega)]
  unfold SCode.inIntRange Fits
  cases signed
  · simp [e]
  · simp only [if_true]
    rw [e, e2]
    constructor <;> rintro ⟨h1, h2⟩ <;> constructor <;> linarith

/-- **C06** (ints). A one-integer struct field of width `size ≥ 1` accepts exactly the ints of its
width and signedness, occupies `size` bytes and reads back identically; any other int (or non-int)
raises `struct.error` and leaves the stream unchanged. -/
theorem C06_struct_int (big : Bool) (size : Nat) (h1 : 1 ≤ size) (hsz : size ≤ pyMaxSize)
    (signed : Bool) (s : Stream) :
    (∀ v : Int, Fits size signed v →
      ∃ w s', w.length = size ∧ writeFI (.struct ⟨big, [.int size signed]⟩) (.int v) s = (.ok (), s') ∧
        s'.buf.drop s.pos = w ++ s.buf.drop (s.pos + size) ∧ s'.pos = s.pos + size ∧
        readFI (.struct ⟨big, [.int size signed]⟩) (s'.at s.pos) = (.ok (.int v), s')) ∧
    (∀ v : Val, (∀ i, v = .int i → ¬ Fits size signed i) →
      writeFI (.struct ⟨big, [.int size signed]⟩) v s = (.error .structError, s)) := by
  constructor
  · intro v hv
    have hr := (inIntRange_iff h1 signed v).2 hv
    obtain ⟨w, hw⟩ : ∃ w, packFI (.struct ⟨big, [.int size signed]⟩) (.int v) = .ok w := by
      simp [packFI, structPack, Val.toSVal, SFmt.pack1, SCode.pack, hr]
    have hlen : w.length = size := by
      obtain ⟨c, sv, hc, hsv, hp⟩ := structPack_ok (by simpa [packFI] using hw)
      simp at hc; subst hc
      simp [Val.toSVal] at hsv; subst hsv
      exact (SCode.unpack_pack hp (by simp)).1
    refine ⟨w, s.wr w, hlen, (Writes.fi _ _).ok w hw s, ?_, by simp [hlen], ?_⟩
    · rw [s.wr_drop, hlen]
    · have hrest : ((s.wr w).at s.pos).rest = w ++ s.buf.drop (s.pos + w.length) := s.wr_drop w
      rw [(Reader.readFI _).shift, hrest, prs_readFI hw (by simp [Exact]) (by omega)]
      have := s.wr_pos w
      cases hs : s.wr w
      rw [hs] at this
      simp [Stream.at] at this ⊢
      exact this.symm
  · intro v hv
    have : structPack ⟨big, [.int size signed]⟩ v = .error .structError := by
      unfold structPack
      cases v with
      | int i =>
        have := hv i rfl
        rw [← inIntRange_iff h1] at this
        simp [Val.toSVal, SFmt.pack1, SCode.pack, this]
      | bytes b => simp [Val.toSVal, SFmt.pack1, SCode.pack]
      | str _ => simp [Val.toSVal]
      | tuple _ => simp [Val.toSVal]
      | other _ => simp [Val.toSVal]
    simp [writeFI, packFI, this]

example : Fits 4 true (-2147483648) ∧ ¬ Fits 4 true 2147483648 ∧ Fits 8 false (2 ^ 64 - 1) ∧
    ¬ Fits 8 false (2 ^ 64) ∧ ¬ Fits 1 false (-1) := by
  simp only [Fits]; norm_num
example : writeFI (.struct fmtBEi) (.int (-2)) Stream.new = (.ok (), ⟨[255, 255, 255, 254], 4⟩) := by decide

/-- **C06** (bytes). `'{n}s'` given exactly `n` bytes stores them and reads them back. -/
theorem C06_struct_bytes (big : Bool) (b : Bytes) (hsz : b.length ≤ pyMaxSize) (s : Stream) :
    ∃ s', writeFI (.struct ⟨big, [.str b.length]⟩) (.bytes b) s = (.ok (), s') ∧
      s'.buf.drop s.pos = b ++ s.buf.drop (s.pos + b.length) ∧
      readFI (.struct ⟨big, [.str b.length]⟩) (s'.at s.pos) = (.ok (.bytes b), s') := by
  have hp : packFI (.struct ⟨big, [.str b.length]⟩) (.bytes b) = .ok b := by
    simp [packFI, structPack, Val.toSVal, SFmt.pack1, SCode.pack]
  refine ⟨s.wr b, (Writes.fi _ _).ok b hp s, s.wr_drop b, ?_⟩
  have hrest : ((s.wr b).at s.pos).rest = b ++ s.buf.drop (s.pos + b.length) := s.wr_drop b
  rw [(Reader.readFI _).shift, hrest,
    prs_readFI hp (by simp [Exact, SFmt.calcsize, SCode.size]) (by omega)]
  have := s.wr_pos b
  cases hs : s.wr b
  rw [hs] at this
  simp [Stream.at] at this ⊢
  exact this.symm

example : writeFI (.struct fmt15s) (.bytes (pb! "openssh-key-v1" ++ [0])) Stream.new
    = (.ok (), ⟨pb! "openssh-key-v1" ++ [0], 15⟩) := by decide

end OSK
