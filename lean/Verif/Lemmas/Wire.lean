import Verif.Lemmas.Cert
import Verif.Props.Codec
/-
Packed fields in terms of the independent wire descriptions.
-/
namespace OSK
open Spec

theorem prefixed_iff {n : Nat} {b w : Bytes} :
    Prefixed n b w ↔ b.length < 256 ^ n ∧ w = natToBE n b.length ++ b := by
  constructor
  · rintro ⟨p, hp1, hp2, rfl⟩
    rw [digitSum_eq] at hp2
    have hb : b.length < 256 ^ n := by rw [← hp2, ← hp1]; exact beNat_lt p
    exact ⟨hb, by rw [← hp2, ← hp1, natToBE_beNat]⟩
  · rintro ⟨h, rfl⟩
    exact prefixed_natToBE h

theorem prefixed_fun {n : Nat} {b w w' : Bytes} (h : Prefixed n b w) (h' : Prefixed n b w') : w = w' := by
  rw [prefixed_iff] at h h'; rw [h.2, h'.2]

theorem packFI_bytes_iff {v : Val} {w : Bytes} :
    packFI (.pascal .bytes) v = .ok w ↔ ∃ b, v = .bytes b ∧ Prefixed 4 b w := by
  constructor
  · intro h
    obtain ⟨b, hb, -, hl, rfl⟩ := packPascal_ok h
    cases v <;> simp [encodePrim] at hb
    subst hb
    exact ⟨_, rfl, prefixed_natToBE hl⟩
  · rintro ⟨b, rfl, h⟩
    rw [prefixed_iff] at h
    obtain ⟨h, rfl⟩ := h
    exact packPascal_eq (p := .bytes) (size := defaultLengthSize) (v := .bytes b) (by decide) rfl h

theorem packFI_string_iff {v : Val} {w : Bytes} :
    packFI (.pascal .string) v = .ok w ↔ ∃ cs, v = .str (strOf cs) ∧ Prefixed 4 (utf8 cs) w := by
  constructor
  · intro h
    obtain ⟨b, hb, -, hl, rfl⟩ := packPascal_ok h
    cases v with
    | str s =>
      simp [encodePrim, strEncode] at hb
      split at hb
      · rename_i b' hb'
        simp at hb; subst hb
        obtain ⟨cs, rfl, rfl⟩ := utf8Encode?_some hb'
        exact ⟨cs, rfl, prefixed_natToBE hl⟩
      · simp at hb
    | _ => simp [encodePrim] at hb
  · rintro ⟨cs, rfl, h⟩
    rw [prefixed_iff] at h
    obtain ⟨h, rfl⟩ := h
    exact packPascal_eq (p := .string) (size := defaultLengthSize) (by decide)
      (by simp [encodePrim, strEncode, utf8Encode?_chars]) h

theorem packDict_cons_ok_iff {k : Str} {fi : FI} {t : FDict} {d : VDict} {w : Bytes} :
    packDict ((k, fi) :: t) d = .ok w ↔
      ∃ v a b, dget d k = some v ∧ packFI fi v = .ok a ∧ packDict t d = .ok b ∧ w = a ++ b := by
  constructor
  · intro h
    unfold packDict getItem at h
    rcases hk : dget d k with _ | v
    · simp [hk] at h
    · simp [hk] at h
      obtain ⟨a, b, ha, hb, rfl⟩ := catE_ok h
      exact ⟨v, a, b, rfl, ha, hb, rfl⟩
  · rintro ⟨v, a, b, hk, ha, hb, rfl⟩
    unfold packDict getItem
    simp [hk, ha, hb]

theorem packDict_nil_iff {d : VDict} {w : Bytes} : packDict [] d = .ok w ↔ w = [] := by
  simp [packDict, eq_comm]

theorem packDict_optRec_iff {o : Str} {v : Val} {w : Bytes} :
    packDict optionFmt (optRec (o, v)) = .ok w ↔
      ∃ cs b x y, o = strOf cs ∧ v = .bytes b ∧ Prefixed 4 (utf8 cs) x ∧ Prefixed 4 b y ∧ w = x ++ y := by
  unfold optionFmt
  simp only [packDict_cons_ok_iff, packDict_nil_iff, packFI_string_iff, packFI_bytes_iff]
  constructor
  · rintro ⟨v1, a, b, h1, ⟨cs, rfl, hx⟩, ⟨v2, a2, b2, h2, ⟨y, rfl, hy⟩, rfl, rfl⟩, rfl⟩
    simp [optRec, dget_cons] at h1 h2
    exact ⟨cs, y, a, a2, h1, h2, hx, hy, by simp⟩
  · rintro ⟨cs, b, x, y, rfl, rfl, hx, hy, rfl⟩
    exact ⟨_, x, y, by simp [optRec], ⟨cs, rfl, hx⟩, ⟨_, y, [], by simp [optRec, dget_cons], ⟨b, rfl, hy⟩, rfl,
      by simp⟩, rfl⟩

/-- Reading a 4-byte length-prefixed byte string, in full. -/
theorem prs_readPascal4 (r : Bytes) :
    prs (readPascalBytes defaultLengthSize) r =
      if r.length < 4 then
        (.error (if r.length = 0 then .eofError true eofEmptyText else .eofError false eofShortText), r.length)
      else if r.length - 4 < digitSum (r.take 4) then
        (.error (if r.length = 4 then .eofError true eofEmptyText else .eofError false eofShortText), r.length)
      else (.ok ((r.drop 4).take (digitSum (r.take 4))), 4 + digitSum (r.take 4)) := by
  unfold readPascalBytes defaultLengthSize
  rw [if_neg (by decide), show (4 : Int) = ((4 : Nat) : Int) from rfl,
    prs_bind (fun _ => Reader.readFixed _) (Reader.readFixed _), prs_readFixed, if_neg (by decide)]
  by_cases h4 : r.length < 4
  · rw [if_pos h4, if_pos h4]
  · rw [if_neg h4, if_neg h4]
    simp only []
    have hb := beNat_lt (r.take 4)
    have hl : (r.take 4).length = 4 := by simp; omega
    have e3 : pyMaxSize = 9223372036854775807 := by decide
    rw [hl] at hb
    rw [prs_readFixed, digitSum_eq, if_neg (by omega)]
    simp only [List.length_drop]
    by_cases h5 : r.length - 4 < beNat (r.take 4)
    · rw [if_pos h5, if_pos h5]
      by_cases h6 : r.length = 4
      · simp [h6]
      · rw [if_neg (by omega), if_neg h6]
        simp; omega
    · rw [if_neg h5, if_neg h5]

end OSK
