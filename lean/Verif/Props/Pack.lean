import Verif.Spec.Pack
import Verif.Props.Inject
import Verif.Lemmas.Grammar
import Verif.Lemmas.ListSucceed
/-
Property C90: exactly what is packed, and how packing fails.
-/
namespace OSK
open Spec

theorem needsSign_iff {i : Int} : (∃ b, toBytesSigned (mpintLength i) i = .ok b) ↔ ¬ NeedsSignByte i := mpint_writable_iff i

theorem packPascal_long {p : Prim} {v : Val} {b : Bytes} (h : encodePrim p v = .ok b) (hb : 2 ^ 32 ≤ b.length) :
    packFI (.pascal p) v = .error .overflowError := by
  have : ¬ b.length < 256 ^ (defaultLengthSize : Int).toNat := by
    have : (256 : Nat) ^ (defaultLengthSize : Int).toNat = 2 ^ 32 := by decide
    omega
  simp only [packFI, packPascal, h, toBytesUnsigned]
  rw [if_neg (by decide), if_neg this]

theorem pack_uint' {n : Nat} {w : Bytes} (hn : w.length = n) :
    packFI (.struct ⟨true, [.int n false]⟩) (.int (digitSum w)) = .ok w := by
  have hlt : beNat w < 256 ^ n := by rw [← hn]; exact beNat_lt w
  have hr : SCode.inIntRange n false (digitSum w : Int) := by
    unfold SCode.inIntRange
    rw [digitSum_eq]
    simp only [Bool.false_eq_true, if_false]
    exact ⟨by omega, by exact_mod_cast hlt⟩
  have e3 : ((digitSum w : Int) % (256 : Int) ^ n).toNat = beNat w := by
    rw [digitSum_eq]
    have : ((beNat w : Int) % (256 : Int) ^ n) = (beNat w : Int) := Int.emod_eq_of_lt (by omega) (by exact_mod_cast hlt)
    rw [this]; simp
  simp only [packFI, structPack, Val.toSVal, SFmt.pack1, SCode.pack]
  rw [if_pos hr, e3, ← hn, natToBE_beNat]
  rfl

theorem stores_pack {fi : FI} {v : Val} {w : Bytes} (h : Stores fi v w) : packFI fi v = .ok w := by
  cases h with
  | bytes h => exact packFI_bytes_iff.2 ⟨_, rfl, h⟩
  | text h => exact packFI_string_iff.2 ⟨_, rfl, h⟩
  | mpint h1 h2 h3 =>
    obtain ⟨b', hb'⟩ := needsSign_iff.2 h1
    have := shortest_unique h2 (mpint_shortest hb')
    subst this
    rw [prefixed_iff] at h3
    obtain ⟨h3, rfl⟩ := h3
    exact packPascal_eq (p := .mpint) (size := defaultLengthSize) (by decide) hb' h3
  | uint => exact pack_uint' rfl

theorem refuses_pack {fi : FI} {v : Val} {e : Exn} (h : Refuses fi v e) : packFI fi v = .error e := by
  cases h with
  | notBytes h => cases v <;> first | rfl | exact absurd rfl (h _)
  | notText h => cases v <;> first | rfl | exact absurd rfl (h _)
  | notInt h => cases v <;> first | rfl | exact absurd rfl (h _)
  | surrogate h =>
    rename_i s
    have : strEncode s = .error .unicodeEncodeError := by
      unfold strEncode
      split
      · rename_i b hb
        obtain ⟨cs, rfl, -⟩ := utf8Encode?_some hb
        exact absurd rfl (h cs)
      · rfl
    simp [packFI, packPascal, encodePrim, this]
  | longBytes h => exact packPascal_long rfl h
  | longText h => exact packPascal_long (by simp [encodePrim, strEncode, utf8Encode?_chars]) h
  | longInt h1 h2 =>
    rename_i i b
    rcases he : toBytesSigned (mpintLength i) i with e | b'
    · rw [show e = .overflowError from toBytesSigned_error he] at he
      simp [packFI, packPascal, encodePrim, he]
    · have := shortest_unique h1 (mpint_shortest he)
      subst this
      exact packPascal_long (by simpa [encodePrim] using he) h2
  | signByte h =>
    rename_i i
    rcases he : toBytesSigned (mpintLength i) i with e | b'
    · rw [show e = .overflowError from toBytesSigned_error he] at he
      simp [packFI, packPascal, encodePrim, he]
    · exact absurd h (needsSign_iff.1 ⟨_, he⟩)
  | range h =>
    rename_i n
    refine (structPack_hasClass _ v).2 ?_
    intro hc
    cases v <;> simp [HasClass] at hc
    rename_i i
    obtain ⟨k, rfl⟩ := Int.eq_ofNat_of_zero_le hc.1
    have := h k rfl
    have h2 : (k : Int) < ((256 ^ n : Nat) : Int) := by exact_mod_cast hc.2
    omega

theorem field_total {fi : FI} (hf : fi.wire = true) (v : Val) : (∃ w, Stores fi v w) ∨ ∃ e, Refuses fi v e := by
  rcases FI.wire_cases hf with ⟨p, rfl⟩ | ⟨n, rfl, -⟩
  · cases p with
    | bytes =>
      by_cases h : ∃ b, v = .bytes b
      · obtain ⟨b, rfl⟩ := h
        by_cases hl : b.length < 2 ^ 32
        · obtain ⟨w, hw, -⟩ := prefixed_exists (b := b) hl
          exact .inl ⟨w, .bytes hw⟩
        · exact .inr ⟨_, .longBytes (by omega)⟩
      · exact .inr ⟨_, .notBytes (fun b hb => h ⟨b, hb⟩)⟩
    | string =>
      by_cases h : ∃ s, v = .str s
      · obtain ⟨s, rfl⟩ := h
        by_cases hs : ∃ cs, s = strOf cs
        · obtain ⟨cs, rfl⟩ := hs
          by_cases hl : (utf8 cs).length < 2 ^ 32
          · obtain ⟨w, hw, -⟩ := prefixed_exists (b := utf8 cs) hl
            exact .inl ⟨w, .text hw⟩
          · exact .inr ⟨_, .longText (by omega)⟩
        · exact .inr ⟨_, .surrogate (fun cs hc => hs ⟨cs, hc⟩)⟩
      · exact .inr ⟨_, .notText (fun b hb => h ⟨b, hb⟩)⟩
    | mpint =>
      by_cases h : ∃ i, v = .int i
      · obtain ⟨i, rfl⟩ := h
        by_cases hs : NeedsSignByte i
        · exact .inr ⟨_, .signByte hs⟩
        · obtain ⟨b, hb⟩ := needsSign_iff.2 hs
          by_cases hl : b.length < 2 ^ 32
          · obtain ⟨w, hw, -⟩ := prefixed_exists (b := b) hl
            exact .inl ⟨w, .mpint hs (mpint_shortest hb) hw⟩
          · exact .inr ⟨_, .longInt (mpint_shortest hb) (by omega)⟩
      · exact .inr ⟨_, .notInt (fun b hb => h ⟨b, hb⟩)⟩
  · by_cases h : ∃ i : Nat, v = .int i ∧ i < 256 ^ n
    · obtain ⟨i, rfl, hi⟩ := h
      left
      refine ⟨natToBE n i, ?_⟩
      have e1 : (natToBE n i).length = n := by simp
      have e2 : digitSum (natToBE n i) = i := by rw [digitSum_eq, beNat_natToBE_of_lt hi]
      have := Stores.uint (w := natToBE n i)
      rw [e1, e2] at this
      exact this
    · exact .inr ⟨_, .range (fun i hi => by
        by_contra hlt
        exact h ⟨i, hi, by omega⟩)⟩

/-- **C90** (fields). What is written for a value, and why it is refused. -/
theorem C90_field (fi : FI) (v : Val) (hf : fi.wire = true) :
    (∀ w, packFI fi v = .ok w ↔ Stores fi v w) ∧ ∀ e, packFI fi v = .error e ↔ Refuses fi v e := by
  refine ⟨fun w => ⟨fun h => ?_, stores_pack⟩, fun e => ⟨fun h => ?_, refuses_pack⟩⟩
  · rcases field_total hf v with ⟨w', hw⟩ | ⟨e, he⟩
    · rw [stores_pack hw] at h
      cases h
      exact hw
    · rw [refuses_pack he] at h
      cases h
  · rcases field_total hf v with ⟨w', hw⟩ | ⟨e', he⟩
    · rw [stores_pack hw] at h
      cases h
    · rw [refuses_pack he] at h
      cases h
      exact he

theorem storesAll_pack {d : VDict} {fmt : FDict} {w : Bytes} (h : StoresAll d fmt w) : packDict fmt d = .ok w := by
  induction h with
  | nil => rfl
  | cons h1 h2 _ ih => exact packDict_cons_ok_iff.2 ⟨_, _, _, h1, stores_pack h2, ih, rfl⟩

theorem refusesAt_pack {d : VDict} {fmt : FDict} {e : Exn} (h : RefusesAt d fmt e) : packDict fmt d = .error e := by
  induction h with
  | missing h => simp [packDict, getItem, h]
  | here h1 h2 => simp [packDict, getItem, h1, refuses_pack h2, catE]
  | later h1 h2 _ ih => simp [packDict, getItem, h1, stores_pack h2, ih, catE]

theorem record_total {fmt : FDict} (hf : wireFmt fmt = true) (d : VDict) :
    (∃ w, StoresAll d fmt w) ∨ ∃ e, RefusesAt d fmt e := by
  induction fmt with
  | nil => exact .inl ⟨_, .nil⟩
  | cons kf t ih =>
    obtain ⟨k, fi⟩ := kf
    obtain ⟨h1, h2⟩ := wireFmt_cons.1 hf
    rcases hk : dget d k with _ | v
    · exact .inr ⟨_, .missing hk⟩
    · rcases field_total h1 v with ⟨w, hw⟩ | ⟨e, he⟩
      · rcases ih h2 with ⟨w', hw'⟩ | ⟨e, he⟩
        · exact .inl ⟨_, .cons hk hw hw'⟩
        · exact .inr ⟨_, .later hk hw he⟩
      · exact .inr ⟨_, .here hk he⟩

theorem record_iff {fmt : FDict} (hf : wireFmt fmt = true) (d : VDict) :
    (∀ w, packDict fmt d = .ok w ↔ StoresAll d fmt w) ∧ ∀ e, packDict fmt d = .error e ↔ RefusesAt d fmt e := by
  refine ⟨fun w => ⟨fun h => ?_, storesAll_pack⟩, fun e => ⟨fun h => ?_, refusesAt_pack⟩⟩
  · rcases record_total hf d with ⟨w', hw⟩ | ⟨e, he⟩
    · rw [storesAll_pack hw] at h
      cases h
      exact hw
    · rw [refusesAt_pack he] at h
      cases h
  · rcases record_total hf d with ⟨w', hw⟩ | ⟨e', he⟩
    · rw [storesAll_pack hw] at h
      cases h
    · rw [refusesAt_pack he] at h
      cases h
      exact he

/-- The names of key types can be written. -/
theorem packed_type_names : ∀ e ∈ keyTypeMapping, (packFI (.pascal .string) (.str e.1)).toOption.isSome = true := by
  decide +kernel

theorem type_stores {t : Str} {c : Cls} {kind : Kind} (h : paramsClass kind (.str t) = .ok c) :
    ∃ wt, Stores (.pascal .string) (.str t) wt := by
  have hm : ∃ e ∈ keyTypeMapping, e.1 = t := by
    cases kind
    · simp only [paramsClass, getPublicClass] at h
      split at h
      · simp at h
      · rename_i r hr
        obtain ⟨s, hs, hm⟩ := lookupType_mem hr
        simp at hs; subst hs
        exact ⟨_, hm, rfl⟩
    · simp only [paramsClass, getPrivateClass] at h
      split at h
      · simp at h
      · rename_i r hr
        obtain ⟨s, hs, hm⟩ := lookupType_mem hr
        simp at hs; subst hs
        exact ⟨_, hm, rfl⟩
  obtain ⟨e, he, rfl⟩ := hm
  have := packed_type_names e he
  rcases hp : packFI (.pascal .string) (.str e.1) with x | w
  · rw [hp] at this; cases this
  · exact ⟨w, ((C90_field _ _ rfl).1 w).1 hp⟩

theorem headerFmt_eq (kind : Kind) : headerFmt kind = [(py! "key_type", .pascal .string)] := by cases kind <;> rfl

theorem pack_header {kind : Kind} {d : VDict} {t : Str} {wt : Bytes} (h : dget d (py! "key_type") = some (.str t))
    (hw : Stores (.pascal .string) (.str t) wt) : packDict (headerFmt kind) d = .ok wt := by
  rw [headerFmt_eq]
  exact packDict_cons_ok_iff.2 ⟨_, wt, [], h, stores_pack hw, rfl, by simp⟩

theorem catE_ok_left {x : Bytes} {q : Except Exn Bytes} :
    (∀ w, catE (.ok x) q = .ok w ↔ ∃ y, q = .ok y ∧ w = x ++ y) ∧ ∀ e, catE (.ok x) q = .error e ↔ q = .error e := by
  cases q <;> simp [catE, eq_comm]

/-- **C90** (public). The public bytes of a key are its type and the values of the public fields, in this order, each in
its one form; packing fails with the exception for the first field that is missing or refused. -/
theorem C90_public (ext : Ext) (k : Key) (hk : Constructed ext k) :
    ∃ t fmt, dget k.header (py! "key_type") = some (.str t) ∧ publicFields t = some fmt ∧
      (∀ w, packPublicBytes k = .ok w ↔
        ∃ wt wp, Stores (.pascal .string) (.str t) wt ∧ StoresAll k.params.data fmt wp ∧ w = wt ++ wp) ∧
      ∀ e, packPublicBytes k = .error e ↔ RefusesAt k.params.data fmt e := by
  obtain ⟨t, a1, b1⟩ := public_class hk
  have hf := publicFields_eq b1
  have hw := fieldsOf_wire (kind := .pub) hf
  obtain ⟨wt, hwt⟩ := type_stores b1
  obtain ⟨r1, r2⟩ := record_iff hw k.params.data
  refine ⟨t, _, a1, hf, fun w => ?_, fun e => ?_⟩
  · rw [packPublicBytes_eq, pack_header a1 hwt, catE_ok_left.1]
    constructor
    · rintro ⟨y, hy, rfl⟩
      exact ⟨wt, y, hwt, (r1 _).1 hy, rfl⟩
    · rintro ⟨wt', y, h1, h2, rfl⟩
      have : wt' = wt := by
        have e1 := stores_pack h1
        rw [stores_pack hwt] at e1
        cases e1; rfl
      subst this
      exact ⟨y, (r1 _).2 h2, rfl⟩
  · rw [packPublicBytes_eq, pack_header a1 hwt, catE_ok_left.2]
    exact r2 e

/-- **C90** (private). The same for the private bytes: type, private fields, comment. -/
theorem C90_private (ext : Ext) (k : Key) (hk : Constructed ext k) (hkind : k.kind = .priv) :
    ∃ t fmt, dget k.header (py! "key_type") = some (.str t) ∧ privateFields t = some fmt ∧
      (∀ w, packPrivateBytes k = .ok w ↔ ∃ wt wp wc, Stores (.pascal .string) (.str t) wt ∧
        StoresAll k.params.data fmt wp ∧ StoresAll k.footer (afterFields .priv) wc ∧ w = wt ++ wp ++ wc) ∧
      ∀ e, packPrivateBytes k = .error e ↔ RefusesAt k.params.data fmt e ∨
        ((∃ wp, StoresAll k.params.data fmt wp) ∧ RefusesAt k.footer (afterFields .priv) e) := by
  obtain ⟨t, a1, b1⟩ := constructed_ok hk
  rw [hkind] at b1
  have hf := privateFields_eq b1
  have hw := fieldsOf_wire (kind := .priv) hf
  obtain ⟨wt, hwt⟩ := type_stores b1
  obtain ⟨r1, r2⟩ := record_iff hw k.params.data
  obtain ⟨s1, s2⟩ := record_iff (afterFields_wire .priv) k.footer
  have hff : footerFmt .priv = afterFields .priv := rfl
  refine ⟨t, _, a1, hf, fun w => ?_, fun e => ?_⟩
  · rw [packPrivateBytes_eq, pack_header a1 hwt, catE_ok_left.1]
    constructor
    · rintro ⟨y, hy, rfl⟩
      obtain ⟨x, z, h1, h2, rfl⟩ := catE_ok hy
      exact ⟨wt, x, z, hwt, (r1 _).1 h1, (s1 _).1 h2, by simp⟩
    · rintro ⟨wt', y, z, h1, h2, h3, rfl⟩
      have : wt' = wt := by
        have e1 := stores_pack h1
        rw [stores_pack hwt] at e1
        cases e1; rfl
      subst this
      refine ⟨y ++ z, ?_, by simp⟩
      rw [(r1 _).2 h2, hff, (s1 _).2 h3]
      rfl
  · rw [packPrivateBytes_eq, pack_header a1 hwt, catE_ok_left.2]
    rcases hp : packDict (formatOf k.params.cls) k.params.data with e' | x
    · have h1 := (r2 e').1 hp
      constructor
      · intro h
        cases h
        exact .inl h1
      · rintro (h | ⟨⟨wp, h⟩, -⟩)
        · rw [(r2 e).2 h] at hp
          cases hp
          rfl
        · rw [(r1 wp).2 h] at hp
          cases hp
    · rw [catE_ok_left.2, hff, s2]
      constructor
      · intro h
        exact .inr ⟨⟨x, (r1 x).1 hp⟩, h⟩
      · rintro (h | ⟨-, h⟩)
        · rw [(r2 e).2 h] at hp
          cases hp
        · exact h

/-- Non-vacuous: fields that are written and refused. -/
example : Stores (.pascal .mpint) (.int 128) [0, 0, 0, 2, 0, 128] :=
  ((C90_field _ _ rfl).1 _).1 (by decide)
example : Refuses (.pascal .mpint) (.int (-129)) .overflowError := .signByte ⟨0, by decide, by decide⟩
example : Refuses (.struct ⟨true, [.int 8 false]⟩) (.int (2 ^ 64)) .structError :=
  .range (fun i h => by
    have : (i : Int) = 2 ^ 64 := by simpa using (Val.int.inj h).symm
    norm_num
    omega)
example : Refuses (.pascal .string) (.str [0xD800]) .unicodeEncodeError := by
  refine .surrogate fun cs h => ?_
  have : utf8Encode? [0xD800] = some (utf8 cs) := by rw [h, utf8Encode?_chars]
  exact absurd this (by
    have : utf8Encode? [0xD800] = none := by decide
    rw [this]; simp)
example : (packPublicBytes exPub).toOption.isSome = true ∧ (packPrivateBytes exRsaPriv).toOption.isSome = true := by
  decide +kernel

end OSK
