import Verif.Spec.Generate
import Verif.Lemmas.Convert
import Verif.Lemmas.ListSucceed
import Verif.Props.Codec
/-
Lemmas about key generation.
-/
namespace OSK
open Spec

theorem asked_curve {gen : Gen} {kwargs : VDict} {t : PlainType} {name ident oid : Str}
    (h : t.curve = some (name, ident, oid)) :
    asked gen kwargs t = match gen.ec name with
      | .ok (x, y, d) => .ok (.ecPrivate name x y d)
      | .error e => .error e := by
  cases t <;> simp [PlainType.curve] at h <;> obtain ⟨rfl, rfl, rfl⟩ := h <;> rfl

/-- The checks that run and the fields, per class. -/
theorem plain_tables (kind : Kind) (t : PlainType) :
    (checkPlan (plainClass kind t), formatOf (plainClass kind t)) =
      match kind, t with
      | .pub, .rsa => ([.pascalStyleDict], [(py! "e", .pascal .mpint), (py! "n", .pascal .mpint)])
      | .priv, .rsa => ([.pascalStyleDict], [(py! "n", .pascal .mpint), (py! "e", .pascal .mpint),
          (py! "d", .pascal .mpint), (py! "iqmp", .pascal .mpint), (py! "p", .pascal .mpint),
          (py! "q", .pascal .mpint)])
      | .pub, .dss => ([.pascalStyleDict], [(py! "p", .pascal .mpint), (py! "q", .pascal .mpint),
          (py! "g", .pascal .mpint), (py! "y", .pascal .mpint)])
      | .priv, .dss => ([.pascalStyleDict], [(py! "p", .pascal .mpint), (py! "q", .pascal .mpint),
          (py! "g", .pascal .mpint), (py! "y", .pascal .mpint), (py! "x", .pascal .mpint)])
      | .pub, .ed25519 => ([.pascalStyleDict, .ed25519Pub], [(py! "public", .pascal .bytes)])
      | .priv, .ed25519 => ([.pascalStyleDict, .ed25519Pub, .pascalStyleDict, .ed25519Priv],
          [(py! "public", .pascal .bytes), (py! "private_public", .pascal .bytes)])
      | .pub, _ => ([.pascalStyleDict, .ecdsaPub],
          [(py! "identifier", .pascal .string), (py! "q", .pascal .bytes)])
      | .priv, _ => ([.pascalStyleDict, .ecdsaPub],
          [(py! "identifier", .pascal .string), (py! "q", .pascal .bytes), (py! "d", .pascal .mpint)]) := by
  cases kind <;> cases t <;> decide +kernel

theorem plain_curve (kind : Kind) (t : PlainType) {name ident oid : Str} (h : t.curve = some (name, ident, oid)) :
    curveOf (plainClass kind t) = (ident, oid) := by
  cases t <;> simp [PlainType.curve] at h <;> obtain ⟨rfl, rfl, rfl⟩ := h <;> cases kind <;> decide +kernel

/-- The checks of the elliptic curve classes accept a generated key. -/
theorem ec_quiet {ext : Ext} {ca : Bytes → Eff Key} (kind : Kind) {t : PlainType} {name ident oid : Str} {q : Bytes}
    {d : Int} (hc : t.curve = some (name, ident, oid)) (hq : ext.validPoint oid q = true) :
    runChecks (localCheck ext ca (plainClass kind t)
      [(py! "identifier", .str ident), (py! "q", .bytes q), (py! "d", .int d)]) (checkPlan (plainClass kind t)) =
      pure () := by
  have h1 := plain_tables kind t
  have h2 := plain_curve kind t hc
  rw [Prod.ext_iff] at h1
  simp only at h1
  have h3 : ecdsaLocalCheck ext (plainClass kind t)
      [(py! "identifier", .str ident), (py! "q", .bytes q), (py! "d", .int d)] = pure () := by
    simp [ecdsaLocalCheck, h2, dget, bytesOf?, hq]
  cases t <;> simp [PlainType.curve] at hc <;> cases kind <;>
    simp only at h1 <;> rw [h1.1] <;>
    simp only [runChecks, localCheck, h1.2, h3, checkDict, checkField] <;> rfl

/-- The values of a generated key pass all checks of the private and of the public class. -/
theorem generated_quiet {ext : Ext} {lib : Lib} {gen : Gen} (hl : GenLaws ext lib gen) {ca : Bytes → Eff Key}
    (kind : Kind) {t : PlainType} {kwargs : VDict} {o : KeyObj} (ho : asked gen kwargs t = .ok o) :
    ∃ v, privateValues lib t o = some v ∧
      runChecks (localCheck ext ca (plainClass kind t) v) (checkPlan (plainClass kind t)) = pure () := by
  rcases hcv : t.curve with _ | ⟨name, ident, oid⟩
  · have h1 := plain_tables kind t
    rw [Prod.ext_iff] at h1
    simp only at h1
    cases t <;> simp [PlainType.curve] at hcv
    · simp only [asked] at ho
      split at ho <;> cases ho
      refine ⟨_, rfl, ?_⟩
      cases kind <;> simp only at h1 <;> rw [h1.1] <;>
        simp only [runChecks, localCheck, h1.2, checkDict, checkField] <;> rfl
    · simp only [asked] at ho
      split at ho <;> cases ho
      refine ⟨_, rfl, ?_⟩
      cases kind <;> simp only at h1 <;> rw [h1.1] <;>
        simp only [runChecks, localCheck, h1.2, checkDict, checkField] <;> rfl
    · simp only [asked] at ho
      split at ho <;> cases ho
      rename_i b hb
      obtain ⟨l1, l2⟩ := hl.ed hb
      refine ⟨_, rfl, ?_⟩
      have e : (b ++ lib.edPublicOf b).drop 32 = lib.edPublicOf b := List.drop_left' l1
      cases kind <;> simp only at h1 <;> rw [h1.1] <;>
        simp [runChecks, localCheck, h1.2, checkDict, checkField, ed25519PubLocalCheck, ed25519PrivLocalCheck,
          bytesOf?, dget, ed25519KeySize, l2, e, Prim.matchesVal]
  · rw [asked_curve hcv] at ho
    split at ho <;> cases ho
    rename_i x y d hx
    refine ⟨[(py! "identifier", .str ident), (py! "q", .bytes (lib.encodePoint name x y)), (py! "d", .int d)], ?_,
      ec_quiet kind hcv (hl.point hcv hx)⟩
    cases t <;> simp [PlainType.curve] at hcv <;> obtain ⟨rfl, rfl, rfl⟩ := hcv <;> simp [privateValues, PlainType.curve]

/-- `generate_private_params` of the plain key types. -/
theorem generateParams_plain {ext : Ext} {lib : Lib} {gen : Gen} (hl : GenLaws ext lib gen) (t : PlainType)
    (kwargs : VDict) :
    (∃ e, asked gen kwargs t = .error e ∧
      generateParams ext lib gen (plainClass .priv t) kwargs = Eff.throw e) ∨
    ∃ o v, asked gen kwargs t = .ok o ∧ privateValues lib t o = some v ∧
      generateParams ext lib gen (plainClass .priv t) kwargs = pure ⟨plainClass .priv t, v⟩ := by
  have habs : (plainClass .priv t).isAbstract = false := by cases t <;> decide +kernel
  have hkw : ∀ k d, kwarg kwargs k d = (dget kwargs k).getD d := by
    intro k d; unfold kwarg; cases dget kwargs k <;> rfl
  have fin : ∀ o v, asked gen kwargs t = .ok o → privateValues lib t o = some v →
      instantiate ext (plainClass .priv t) v = pure ⟨plainClass .priv t, v⟩ := by
    intro o v ho hv
    obtain ⟨v', hv', hq⟩ := generated_quiet hl (ca := caFromBytes ext) .priv ho
    rw [hv] at hv'; cases hv'
    simp only [instantiate, habs, Bool.false_eq_true, if_false, newParams, newParamsWith, hq]
    rfl
  rcases hcv : t.curve with _ | ⟨name, ident, oid⟩
  · cases t <;> simp [PlainType.curve] at hcv
    · have hr : (plainClass .priv .rsa).resolve generateDef = some .rsaPriv := by decide +kernel
      unfold generateParams
      rw [hr]
      simp only [generateRsa, hkw, rsaPublicExponent, rsaKeySize]
      rcases hg : gen.rsa ((dget kwargs (py! "e")).getD (.int 65537))
        ((dget kwargs (py! "key_size")).getD (.int 4096)) with e | k
      · exact .inl ⟨e, by simp only [asked, hg], by rw [Eff.lift_error_bind]⟩
      · have ha : asked gen kwargs .rsa = .ok (.rsaPrivate k.p k.q k.d k.dmp1 k.dmq1 k.iqmp k.e k.n) := by simp only [asked, hg]
        refine .inr ⟨_, _, ha, rfl, ?_⟩
        rw [Eff.lift_ok_bind]
        exact fin _ _ ha rfl
    · have hr : (plainClass .priv .dss).resolve generateDef = some .dssPriv := by decide +kernel
      unfold generateParams
      rw [hr]
      simp only [generateDss, dssKeySize]
      rcases hg : gen.dsa 1024 with e | k
      · exact .inl ⟨e, by simp only [asked, hg], by rw [Eff.lift_error_bind]⟩
      · have ha : asked gen kwargs .dss = .ok (.dsaPrivate k.p k.q k.g k.y k.x) := by simp only [asked, hg]
        refine .inr ⟨_, _, ha, rfl, ?_⟩
        rw [Eff.lift_ok_bind]
        exact fin _ _ ha rfl
    · have hr : (plainClass .priv .ed25519).resolve generateDef = some .ed25519Priv := by decide +kernel
      unfold generateParams
      rw [hr]
      simp only [generateEd25519]
      rcases hg : gen.ed25519 with e | k
      · exact .inl ⟨e, by simp only [asked, hg], by rw [Eff.lift_error_bind]⟩
      · have ha : asked gen kwargs .ed25519 = .ok (.edPrivate k) := by simp only [asked, hg]
        refine .inr ⟨_, _, ha, rfl, ?_⟩
        rw [Eff.lift_ok_bind]
        exact fin _ _ ha rfl
  · have hr : (plainClass .priv t).resolve generateDef = some .ecdsaPriv := by
      cases t <;> simp [PlainType.curve] at hcv <;> decide +kernel
    have hne : plainClass .priv t ≠ .ecdsaPriv := by cases t <;> simp [plainClass]
    unfold generateParams
    rw [hr]
    simp only [generateEcdsa, if_neg hne, plain_curve .priv t hcv, hl.curve hcv]
    rcases hg : gen.ec name with e | ⟨x, y, d⟩
    · exact .inl ⟨e, by simp only [asked_curve hcv, hg], by rw [Eff.lift_error_bind]⟩
    · have hv : privateValues lib t (.ecPrivate name x y d) =
          some [(py! "identifier", .str ident), (py! "q", .bytes (lib.encodePoint name x y)), (py! "d", .int d)] := by
        cases t <;> simp [PlainType.curve] at hcv <;> obtain ⟨rfl, rfl, rfl⟩ := hcv <;>
          simp [privateValues, PlainType.curve]
      have ha : asked gen kwargs t = .ok (.ecPrivate name x y d) := by simp only [asked_curve hcv, hg]
      refine .inr ⟨_, _, ha, hv, ?_⟩
      rw [Eff.lift_ok_bind]
      exact fin _ _ ha hv

/-- `generate` for the plain key types. -/
theorem generate_plain {ext : Ext} {lib : Lib} {gen : Gen} (hl : GenLaws ext lib gen) (t : PlainType)
    (comment : Str) (kwargs : VDict) :
    (∃ e, asked gen kwargs t = .error e ∧ generate ext lib gen t.name comment kwargs = ⟨[], .error e⟩) ∨
    ∃ o v, asked gen kwargs t = .ok o ∧ privateValues lib t o = some v ∧
      generate ext lib gen t.name comment kwargs = ⟨[], .ok
        ⟨⟨.pub, [(py! "key_type", .str t.name)], ⟨plainClass .pub t, v⟩, [], []⟩,
          ⟨.priv, [(py! "key_type", .str t.name)], ⟨plainClass .priv t, v⟩, [(py! "comment", .str comment)], []⟩⟩⟩ := by
  have hc : getPrivateClass (.str t.name) = .ok (plainClass .priv t) := paramsClass_plain .priv t
  unfold generate
  rw [hc, Eff.lift_ok_bind]
  rcases generateParams_plain hl t kwargs with ⟨e, h1, h2⟩ | ⟨o, v, h1, h2, h3⟩
  · exact .inl ⟨e, h1, by rw [h2]; rfl⟩
  · refine .inr ⟨o, v, h1, h2, ?_⟩
    rw [h3, Eff.pure_bind]
    unfold generatePair mkKey
    rw [hc, Eff.lift_ok_bind, mkKeyWith_eq (by simp [dget]) (paramsClass_plain .priv t),
      mkKeyWith_eq (by simp [dget]) (paramsClass_plain .pub t)]
    obtain ⟨v1, e1, q1⟩ := generated_quiet hl (ca := caFromBytes ext) .priv h1
    obtain ⟨v2, e2, q2⟩ := generated_quiet hl (ca := caFromBytes ext) .pub h1
    rw [h2] at e1 e2
    cases e1; cases e2
    rw [q1, q2]
    rfl

/-! ### Packing generated keys -/

/-- The field is of the kind of the value. -/
def FI.takes : FI → Val → Prop
  | .pascal .bytes, .bytes _ => True
  | .pascal .mpint, .int _ => True
  | .pascal .string, .str _ => True
  | _, _ => False

theorem fits_packs {n : Nat} {fi : FI} {v : Val} (hn : n < 2 ^ 32) (hf : FitsIn n v) (ht : fi.takes v) :
    ∃ w, packFI fi v = .ok w ∧ w.length ≤ n + 4 := by
  cases v with
  | bytes b =>
    have hb : b.length ≤ n := hf
    have : fi = .pascal .bytes := by
      unfold FI.takes at ht
      split at ht <;> simp_all
    subst this
    obtain ⟨w, hw, hl⟩ := prefixed_exists (b := b) (by omega)
    exact ⟨w, packFI_bytes_iff.2 ⟨b, rfl, hw⟩, by omega⟩
  | str s =>
    obtain ⟨cs, rfl, hb⟩ := hf
    have : fi = .pascal .string := by
      unfold FI.takes at ht
      split at ht <;> simp_all
    subst this
    obtain ⟨w, hw, hl⟩ := prefixed_exists (b := utf8 cs) (by omega)
    exact ⟨w, packFI_string_iff.2 ⟨cs, rfl, hw⟩, by omega⟩
  | int i =>
    obtain ⟨h0, h1⟩ := hf
    have : fi = .pascal .mpint := by
      unfold FI.takes at ht
      split at ht <;> simp_all
    subst this
    obtain ⟨b, hb⟩ := (mpint_writable_iff i).2 (by
      rintro ⟨k, h1, _⟩
      have : (0 : Int) < 2 ^ (8 * k + 7) := by positivity
      omega)
    have hbl : b.length ≤ n := by
      obtain ⟨hb1, hb2⟩ := toBytesSigned_ok hb
      rw [hb1]
      by_cases hm0 : n = 0
      · subst hm0
        have : i = 0 := by simp at h1; omega
        subst this; decide
      · have := beInt_natToBE (len := n) hm0 (v := i) ⟨by
          have : (0 : Int) ≤ 256 ^ n := by positivity
          omega, h1⟩
        have := mpintLength_le this
        simpa using this
    obtain ⟨s', hs'⟩ := ((writeFI_pascal_iff .mpint 4 (.int i) b hb Stream.new).1).2 (by omega)
    obtain ⟨w, hw, -⟩ := (Writes.fi _ _).of_ok hs'
    refine ⟨w, hw, ?_⟩
    obtain ⟨b', hb', -, -, rfl⟩ := packPascal_ok (show packPascal .mpint 4 (.int i) = .ok w from hw)
    rw [show encodePrim .mpint (.int i) = .ok b from hb] at hb'
    cases hb'
    simp only [List.length_append, natToBE_length]
    simp
    omega
  | tuple l => exact absurd hf (by simp [FitsIn])
  | other x => exact absurd hf (by simp [FitsIn])

theorem packDict_fits {n : Nat} (hn : n < 2 ^ 32) {fmt : FDict} {d : VDict}
    (h : ∀ e ∈ fmt, ∃ v, dget d e.1 = some v ∧ FitsIn n v ∧ e.2.takes v) :
    ∃ w, packDict fmt d = .ok w ∧ w.length ≤ fmt.length * (n + 4) := by
  induction fmt with
  | nil => exact ⟨[], rfl, by simp⟩
  | cons e t ih =>
    obtain ⟨v, h1, h2, h3⟩ := h e List.mem_cons_self
    obtain ⟨w1, p1, l1⟩ := fits_packs hn h2 h3
    obtain ⟨w2, p2, l2⟩ := ih (fun x hx => h x (List.mem_cons_of_mem _ hx))
    refine ⟨w1 ++ w2, packDict_cons_ok_iff.2 ⟨v, w1, w2, h1, p1, p2, rfl⟩, ?_⟩
    rw [List.length_append, List.length_cons, Nat.succ_mul]
    omega

/-- Public and private fields of the plain classes are there, with values of the right kind. -/
theorem generated_fields {lib : Lib} (kind : Kind) {t : PlainType} {o : KeyObj} {v : VDict}
    (h : privateValues lib t o = some v) :
    (formatOf (plainClass kind t)).length ≤ 6 ∧
    ∀ e ∈ formatOf (plainClass kind t), ∃ x, dget v e.1 = some x ∧ e.2.takes x := by
  have h1 := plain_tables kind t
  rw [Prod.ext_iff] at h1
  simp only at h1
  cases t <;> cases kind <;> simp only at h1 <;> rw [h1.2] <;> cases o <;> simp [privateValues, PlainType.curve] at h
  all_goals obtain ⟨-, rfl⟩ := h
  all_goals simp [dget, FI.takes]

end OSK
