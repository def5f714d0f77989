import Verif.Lemmas.Convert
import Verif.Props.Key
/-
Properties C59 to C64: conversions between parameter objects and key objects of other packages.
-/
namespace OSK
open Spec

/-- A library that accepts everything and encodes points in unary, for examples. -/
def exLib : Lib where
  nacl := true
  rsaPublic _ _ := .ok ()
  rsaPrivate _ _ _ _ _ _ _ _ := .ok ()
  rsaCrtDmp1 d p := .ok (d % (p - 1))
  dsaPublic _ _ _ _ := .ok ()
  dsaPrivate _ _ _ _ _ := .ok ()
  edPublicOf b := b.map (255 - ·)
  edPublic _ := .ok ()
  edPrivate b := if b.length = 32 then .ok () else .error (.valueError "An Ed25519 private key is 32 bytes long")
  verifyKey _ := .ok ()
  signingKey _ := .ok ()
  curveName oid :=
    if oid = py! "1.2.840.10045.3.1.7" then py! "secp256r1"
    else if oid = py! "1.3.132.0.34" then py! "secp384r1" else py! "secp521r1"
  decodePoint _ b := .ok ((b.takeWhile (· == 1)).length, (b.dropWhile (· == 1)).length - 1)
  encodePoint _ x y := List.replicate x 1 ++ 0 :: List.replicate y 1
  ecPrivate _ _ _ _ := .ok ()

/-! ### C59 -/

/-- **C59.** What `convert_from` of the class of a plain key type does, for every object: the parameters
object with exactly the values of that key and no others, `ValueError` if the object is not a key of this
type, or the library's own exception for a byte string that is not an Ed25519 private key. -/
theorem C59_convert_from (lib : Lib) (ext : Ext) (kind : Kind) (t : PlainType) (c : Cls) (o : KeyObj)
    (hc : paramsClass kind (.str t.name) = .ok c) :
    match refusal lib kind t o, values lib kind t o with
    | some e, _ => (convertFrom lib ext c o).res = .error e
    | none, some d => (convertFrom lib ext c o).res = .ok ⟨c, d⟩
    | none, none => ∃ m, (convertFrom lib ext c o).res = .error (.valueError m) := by
  rw [paramsClass_plain] at hc
  cases hc
  cases kind
  · have h := convert_pub lib ext 3 t o
    rw [show refusal lib .pub t o = none from rfl]
    simp only [values]
    cases hd : publicValues lib t o with
    | some d => rw [hd] at h; exact h
    | none => rw [hd] at h; exact ⟨_, h⟩
  · have h := convert_priv lib ext 5 t o
    simp only [values]
    cases hb : refusal lib .priv t o with
    | some e => rw [hb] at h; exact h
    | none =>
      cases hd : privateValues lib t o with
      | some d => rw [hb, hd] at h; exact h
      | none => rw [hb, hd] at h; exact ⟨_, h⟩

/-- **C59**: converting a private key object with a public class gives the same parameters as converting
its public key, so no private value is taken over. -/
theorem C59_public_of_private (lib : Lib) (ext : Ext) (t : PlainType) (c : Cls) (o : KeyObj)
    (hc : paramsClass .pub (.str t.name) = .ok c) :
    (convertFrom lib ext c o).res = (convertFrom lib ext c (publicObject lib o)).res := by
  rw [paramsClass_plain] at hc
  cases hc
  rw [convertFrom, convertFrom, convert_pub, convert_pub]
  have h : publicObject lib (publicObject lib o) = publicObject lib o := by cases o <;> rfl
  simp only [publicValues, h]

/-- Non-vacuous: an RSA private key object, converted with both classes; an elliptic curve key of another
curve; and a byte string that is too short. -/
example :
    (convertFrom exLib exExt .rsaPriv (.rsaPrivate 3 11 7 1 7 2 3 33)).res
      = .ok ⟨.rsaPriv, [(py! "n", .int 33), (py! "e", .int 3), (py! "d", .int 7), (py! "iqmp", .int 2),
          (py! "p", .int 3), (py! "q", .int 11)]⟩
    ∧ (convertFrom exLib exExt .rsaPub (.rsaPrivate 3 11 7 1 7 2 3 33)).res
      = .ok ⟨.rsaPub, [(py! "e", .int 3), (py! "n", .int 33)]⟩
    ∧ paramsClass .pub (.str (py! "ssh-rsa")) = .ok .rsaPub
    ∧ paramsClass .priv (.str (py! "ssh-rsa")) = .ok .rsaPriv
    ∧ values exLib .pub .ec256 (.ecPublic (py! "secp384r1") 1 2) = none
    ∧ (refusal exLib .priv .ed25519 (.bytes [1, 2])).isSome = true
    ∧ (refusal exLib .pub .ed25519 (.bytes [1, 2])).isSome = false := by
  decide +kernel

/-! ### C60 -/

/-- **C60**, private classes: converting the values of a key to any object that `convert_to` makes from
them, and back, gives the same values: all of them if the object is of a private class, the public ones if
it is of a public class. -/
theorem C60_private_round_trip (lib : Lib) (ext : Ext) (t : PlainType) (c cp : Cls) (o o' : KeyObj) (d : VDict)
    (dst : Dest) (hc : paramsClass .priv (.str t.name) = .ok c) (hcp : paramsClass .pub (.str t.name) = .ok cp)
    (hv : values lib .priv t o = some d) (hg : Genuine lib o)
    (hto : convertTo lib ⟨c, d⟩ (some dst) = .ok o') (hr : refusal lib .priv t o' = none) :
    (isPublicCls o'.cls = false → (convertFrom lib ext c o').res = .ok ⟨c, d⟩)
    ∧ (isPublicCls o'.cls = true →
        ∃ d', (convertFrom lib ext cp o').res = .ok ⟨cp, d'⟩ ∧ dkeys d' = dkeys (formatOf cp)
          ∧ ∀ k v, (k, v) ∈ d' → dget d k = some v) := by
  rw [paramsClass_plain] at hc hcp
  cases hc
  cases hcp
  simp only [values] at hv
  rw [convertTo_plain] at hto
  cases hf : (picks lib .priv t).find? (fun sk => dst sk.2) with
  | none => rw [hf] at hto; cases hto
  | some sk =>
    rw [hf] at hto
    obtain ⟨s, k⟩ := sk
    simp only at hto
    have hcls := mapping_cls hto
    rw [hcls]
    rcases pick_priv hf with ⟨hk, rfl, hm⟩ | ⟨hk, rfl, hm⟩ <;> rw [hk]
    · refine ⟨fun _ => ?_, by simp⟩
      have := mapping_priv hv hg hm hto
      rw [convertFrom, convert_priv, hr, this]
    · refine ⟨by simp, fun _ => ?_⟩
      obtain ⟨po, d', h1, h2, h3, h4⟩ := private_public hv hg
      have := mapping_pub h1 h2 h3 hm hto
      refine ⟨d', ?_, h4, fun n v hn => ?_⟩
      · rw [convertFrom, convert_pub, this]
      · have := h3 n v hn
        unfold getItem at this
        cases hd : dget d n with
        | none => rw [hd] at this; cases this
        | some v' => rw [hd] at this; cases this; rfl

/-- **C60**, public classes: converting the values of a key to any object that `convert_to` makes from
them, and back, gives the same values. -/
theorem C60_public_round_trip (lib : Lib) (ext : Ext) (t : PlainType) (c : Cls) (o o' : KeyObj) (d : VDict)
    (dst : Dest) (hc : paramsClass .pub (.str t.name) = .ok c)
    (hv : values lib .pub t o = some d) (hg : Genuine lib (publicObject lib o))
    (hto : convertTo lib ⟨c, d⟩ (some dst) = .ok o') :
    (convertFrom lib ext c o').res = .ok ⟨c, d⟩ := by
  rw [paramsClass_plain] at hc
  cases hc
  simp only [values] at hv
  rw [convertTo_plain] at hto
  cases hf : (picks lib .pub t).find? (fun sk => dst sk.2) with
  | none => rw [hf] at hto; cases hto
  | some sk =>
    rw [hf] at hto
    obtain ⟨s, k⟩ := sk
    simp only at hto
    obtain ⟨k', hk', he⟩ := List.mem_map.1 (List.mem_of_find?_eq_some hf)
    cases he
    have := mapping_pub hv (fun c x y h => by rw [h] at hg; exact hg) (public_items hv) hk' hto
    rw [convertFrom, convert_pub, this]

/-- Example key objects. -/
def exEcObj : KeyObj := .ecPrivate (py! "secp384r1") 2 1 9
def exEdObj : KeyObj := .edPrivate (List.replicate 32 7)

theorem exEcObj_genuine : Genuine exLib exEcObj := by
  refine ⟨?_, rfl⟩
  intro t ident oid h
  cases t <;> simp [PlainType.curve] at h
  obtain ⟨-, -, rfl⟩ := h
  decide +kernel

/-- Non-vacuous: an elliptic curve key converted to a private and to a public object; an Ed25519 key
converted to `bytes` and to a `VerifyKey`. -/
example : Genuine exLib exEcObj ∧ Genuine exLib exEdObj
    ∧ (∃ d, values exLib .priv .ec384 exEcObj = some d
        ∧ convertTo exLib ⟨.ec384Priv, d⟩ (some (· == .ecPrivateKey)) = .ok exEcObj
        ∧ convertTo exLib ⟨.ec384Priv, d⟩ (some (· == .ecPublicKey)) = .ok (.ecPublic (py! "secp384r1") 2 1))
    ∧ (∃ d, values exLib .priv .ed25519 exEdObj = some d
        ∧ convertTo exLib ⟨.ed25519Priv, d⟩ (some (· == .bytes)) = .ok (.bytes (List.replicate 32 7))
        ∧ convertTo exLib ⟨.ed25519Priv, d⟩ (some (· == .verifyKey)) = .ok (.verifyKey (List.replicate 32 248))) :=
  ⟨exEcObj_genuine, ⟨rfl, rfl⟩,
    ⟨(values exLib .priv .ec384 exEcObj).getD [], by decide +kernel, by decide +kernel, by decide +kernel⟩,
    ⟨(values exLib .priv .ed25519 exEdObj).getD [], by decide +kernel, by decide +kernel, by decide +kernel⟩⟩

/-! ### C61 -/

/-- **C61.** A private key object converted to parameters and back to its own class is the same object, and
converted to the class of its public key is its public key. -/
theorem C61_private_object (lib : Lib) (ext : Ext) (t : PlainType) (c : Cls) (o : KeyObj) (p : Params)
    (hc : paramsClass .priv (.str t.name) = .ok c) (hp : (convertFrom lib ext c o).res = .ok p)
    (hg : Genuine lib o) :
    convertTo lib p (some (· == o.cls)) = .ok o
    ∧ (Genuine lib (publicObject lib o) →
        convertTo lib p (some (· == (publicObject lib o).cls)) = .ok (publicObject lib o)) := by
  rw [paramsClass_plain] at hc
  cases hc
  rw [convertFrom, convert_priv] at hp
  cases hb : refusal lib .priv t o with
  | some e => rw [hb] at hp; cases hp
  | none =>
  cases hv : privateValues lib t o with
  | none => rw [hb, hv] at hp; cases hp
  | some d =>
    rw [hb, hv] at hp
    cases hp
    have hself := mapping_priv_self hv hg
    have hfind : (picks lib .priv t).find? (fun sk => sk.2 == o.cls) = some (plainClass .priv t, o.cls) := by
      cases t <;> cases o <;> simp [privateValues, PlainType.curve] at hv <;>
        simp [picks, objClasses, KeyObj.cls, plainClass]
      simp [hv.1]
    constructor
    · rw [convertTo_plain, hfind]
      exact hself
    · intro hgp
      by_cases hcls : (publicObject lib o).cls = o.cls
      · have : publicObject lib o = o := by
          cases o <;> simp [publicObject, KeyObj.cls] at hcls ⊢
        rw [convertTo_plain, this, hfind]
        exact hself
      · have hpriv : isPrivateObj o = true := by
          cases o <;> simp [isPrivateObj, publicObject, KeyObj.cls] at hcls ⊢
        have hfind' : (picks lib .priv t).find? (fun sk => sk.2 == (publicObject lib o).cls)
            = some (plainClass .pub t, (publicObject lib o).cls) := by
          cases t <;> cases o <;> simp [privateValues, PlainType.curve, isPrivateObj] at hv hpriv <;>
            simp [picks, objClasses, KeyObj.cls, plainClass, publicObject]
          all_goals cases hn : lib.nacl <;> simp [hn] at hv ⊢
        rw [convertTo_plain, hfind']
        rcases select_priv_pub lib t o hpriv with ⟨h1, -⟩ | ⟨d', sel, h1, h2, h3⟩
        · rw [h1] at hv; cases hv
        · rw [hv] at h1
          cases h1
          exact mapping_pub_self h2 hgp (selectFields_items h3)

/-- **C61**, public classes: what is converted to parameters of a public class and back is the public key of
the object. -/
theorem C61_public_object (lib : Lib) (ext : Ext) (t : PlainType) (c : Cls) (o : KeyObj) (p : Params)
    (hc : paramsClass .pub (.str t.name) = .ok c) (hp : (convertFrom lib ext c o).res = .ok p)
    (hg : Genuine lib (publicObject lib o)) :
    convertTo lib p (some (· == (publicObject lib o).cls)) = .ok (publicObject lib o) := by
  rw [paramsClass_plain] at hc
  cases hc
  rw [convertFrom, convert_pub] at hp
  cases hv : publicValues lib t o with
  | none => rw [hv] at hp; cases hp
  | some d =>
    rw [hv] at hp
    cases hp
    have hfind : (picks lib .pub t).find? (fun sk => sk.2 == (publicObject lib o).cls)
        = some (plainClass .pub t, (publicObject lib o).cls) := by
      have hv' := hv
      simp only [publicValues] at hv'
      generalize publicObject lib o = po at hv'
      cases t <;> cases po <;> simp [PlainType.curve] at hv' <;> simp [picks, objClasses, KeyObj.cls, plainClass]
      simp [hv'.1]
    rw [convertTo_plain, hfind]
    exact mapping_pub_self hv hg (public_items hv)

/-- Non-vacuous: an RSA private key with consistent numbers, and its public key. -/
example : Genuine exLib (.rsaPrivate 3 11 7 1 7 2 3 33) ∧ Genuine exLib (.rsaPublic 3 33)
    ∧ convertTo exLib ⟨.rsaPriv, [(py! "n", .int 33), (py! "e", .int 3), (py! "d", .int 7), (py! "iqmp", .int 2),
          (py! "p", .int 3), (py! "q", .int 11)]⟩ (some (· == .rsaPrivateKey))
        = .ok (.rsaPrivate 3 11 7 1 7 2 3 33)
    ∧ (convertFrom exLib exExt .ed25519Pub exEdObj).res = .ok ⟨.ed25519Pub, [(py! "public", .bytes (List.replicate 32 248))]⟩ :=
  ⟨⟨rfl, rfl, rfl⟩, rfl, by decide +kernel, by decide +kernel⟩

/-! ### C62 -/

/-- **C62** is false: the certificate classes inherit the conversions of their base class, and raise
`KeyError` for the fields that a certificate has in addition. -/
theorem C62_false : ∃ c o k, paramsClass .pub (.str (py! "ssh-rsa-cert-v01@openssh.com")) = .ok c
    ∧ (convertFrom exLib exExt c o).res = .error (.keyError (some k)) :=
  ⟨.certRsa, .rsaPublic 3 33, py! "nonce", by decide +kernel, by decide +kernel⟩

/-- A second counterexample to **C62**: `PublicKeyParams.convert_from` finds the values in a subclass and
then instantiates the abstract class, which raises `TypeError`. -/
theorem C62_false_abstract : (convertFrom exLib exExt .publicKeyParams (.rsaPublic 3 33)).res = .error .typeError := by
  decide +kernel

/-- **C62** for the plain key types: `convert_from` raises `ValueError`, or the exception with which the
library refuses a byte string.  Missing from the full statement: security keys, certificates and abstract
classes, see `C62_false`, `C62_false_abstract` and `C62_derived`. -/
theorem C62_plain_partial (lib : Lib) (ext : Ext) (kind : Kind) (t : PlainType) (c : Cls) (o : KeyObj) (e : Exn)
    (hc : paramsClass kind (.str t.name) = .ok c) (h : (convertFrom lib ext c o).res = .error e) :
    (∃ m, e = .valueError m) ∨ refusal lib kind t o = some e := by
  have := C59_convert_from lib ext kind t c o hc
  cases hr : refusal lib kind t o with
  | some e' =>
    rw [hr] at this
    simp only at this
    rw [this] at h
    cases h
    exact .inr rfl
  | none =>
    rw [hr] at this
    cases hv : values lib kind t o with
    | some d => rw [hv] at this; simp only at this; rw [this] at h; cases h
    | none =>
      rw [hv] at this
      obtain ⟨m, hm⟩ := this
      rw [hm] at h
      cases h
      exact .inl ⟨m, rfl⟩

/-- **C62** for security keys and certificates: `convert_from` never succeeds; it raises `KeyError` exactly for
the public keys that the class of the base type would convert, and otherwise `ValueError`. -/
theorem C62_derived (lib : Lib) (ext : Ext) (kind : Kind) (name : Str) (t : PlainType) (c : Cls) (o : KeyObj)
    (ht : (kind, name, t) ∈ derivedTypes) (hc : paramsClass kind (.str name) = .ok c) :
    if isPrivateObj o = false ∧ (publicValues lib t o).isSome then
      ∃ k, (convertFrom lib ext c o).res = .error (.keyError k)
    else ∃ m, (convertFrom lib ext c o).res = .error (.valueError m) := by
  have key : ∀ x ∈ derivedTypes, ∃ c ∈ inheritors.map Prod.fst, paramsClass x.1 (.str x.2.1) = .ok c
      ∧ (c, x.2.2) ∈ inheritors := by decide +kernel
  obtain ⟨c', _, h1, h2⟩ := key _ ht
  rw [h1] at hc
  cases hc
  have := convert_inheritor (lib := lib) (ext := ext) (n := 4) (o := o) h2
  simp only at this
  split
  · next h => rw [if_pos h] at this; exact this
  · next h => rw [if_neg h] at this; exact ⟨_, this⟩

/-- The bound on the depth of the search through subclasses in the model does not matter: every larger bound
gives the same result. -/
theorem C62_depth (lib : Lib) (ext : Ext) (c : Cls) (o : KeyObj) (n : Nat) (hc : c ∈ Cls.definitionOrder) :
    convertFromFuel lib ext (6 + n) c o = convertFrom lib ext c o :=
  fuel_enough lib ext o (6 + n) 6 c hc (by have := (height_lt c hc).1; omega) (height_lt c hc).1

/-- Non-vacuous: a class three levels above the class that converts the object; a security key type. -/
example : Cls.publicKeyParams ∈ Cls.definitionOrder
    ∧ (Kind.priv, py! "sk-ssh-ed25519@openssh.com", PlainType.ed25519) ∈ derivedTypes
    ∧ (publicValues exLib .ed25519 (.edPublic [1])).isSome = true
    ∧ (convertFrom exLib exExt .skEd25519Priv (.edPublic [1])).res = .error (.keyError (some (py! "application")))
    ∧ (convertFrom exLib exExt .rsaPub (.dsaPublic 1 2 3 4)).res = .error unsupported := by
  decide +kernel

/-! ### C63 -/

/-- **C63.** What `convert_to` returns is an instance of the destination class, for every parameters object. -/
theorem C63_instance (lib : Lib) (p : Params) (dst : Dest) (o : KeyObj)
    (h : convertTo lib p (some dst) = .ok o) : dst o.cls = true := by
  unfold convertTo at h
  simp only at h
  cases hf : (convertCandidates lib p.cls).find? (fun sk => dst sk.2) with
  | none => rw [hf] at h; cases h
  | some sk =>
    rw [hf] at h
    rw [mapping_cls h]
    simpa using List.find?_some hf

/-- **C63**: a destination that is not a class, or that is not a superclass of one of the key object classes
of the key type, raises `ValueError`. -/
theorem C63_unsupported (lib : Lib) (kind : Kind) (t : PlainType) (c : Cls) (d : VDict) (dst : Dest)
    (hc : paramsClass kind (.str t.name) = .ok c)
    (hd : ∀ k, k ∈ objClasses lib .pub t ∨ (kind = .priv ∧ k ∈ objClasses lib .priv t) → dst k = false) :
    (∃ m, convertTo lib ⟨c, d⟩ (some dst) = .error (.valueError m))
    ∧ ∃ m, convertTo lib ⟨c, d⟩ none = .error (.valueError m) := by
  rw [paramsClass_plain] at hc
  cases hc
  refine ⟨?_, _, rfl⟩
  rw [convertTo_plain]
  have : (picks lib kind t).find? (fun sk => dst sk.2) = none := by
    rw [List.find?_eq_none]
    intro sk hsk
    have : sk.2 ∈ objClasses lib .pub t ∨ (kind = .priv ∧ sk.2 ∈ objClasses lib .priv t) := by
      cases kind
      · obtain ⟨k, hk, rfl⟩ := List.mem_map.1 hsk
        exact .inl hk
      · rcases List.mem_append.1 hsk with hsk | hsk
        · obtain ⟨k, hk, rfl⟩ := List.mem_map.1 hsk
          exact .inr ⟨rfl, hk⟩
        · obtain ⟨k, hk, rfl⟩ := List.mem_map.1 hsk
          exact .inl hk
    simp [hd _ this]
  rw [this]
  exact ⟨_, rfl⟩

/-- **C63**: converting private parameters to a public class uses only the public values: the result is the
same whatever the private values are. -/
theorem C63_public_destination (lib : Lib) (t : PlainType) (c cp : Cls) (d d' : VDict) (dst : Dest)
    (hc : paramsClass .priv (.str t.name) = .ok c) (hcp : paramsClass .pub (.str t.name) = .ok cp)
    (hag : ∀ n ∈ dkeys (formatOf cp), dget d n = dget d' n)
    (hpub : ∀ k ∈ objClasses lib .priv t, dst k = false) :
    convertTo lib ⟨c, d⟩ (some dst) = convertTo lib ⟨c, d'⟩ (some dst)
    ∧ convertTo lib ⟨c, d⟩ (some dst) = convertTo lib ⟨cp, d⟩ (some dst) := by
  rw [paramsClass_plain] at hc hcp
  cases hc
  cases hcp
  have hf : (picks lib .priv t).find? (fun sk => dst sk.2) = (picks lib .pub t).find? (fun sk => dst sk.2) := by
    simp only [picks]
    rw [List.find?_append]
    have : ((objClasses lib .priv t).map fun k => (plainClass .priv t, k)).find? (fun sk => dst sk.2) = none := by
      rw [List.find?_eq_none]
      intro sk hsk
      obtain ⟨k, hk, rfl⟩ := List.mem_map.1 hsk
      simp [hpub k hk]
    rw [this]
    rfl
  rw [convertTo_plain, convertTo_plain, convertTo_plain, hf]
  refine ⟨?_, rfl⟩
  cases h : (picks lib .pub t).find? (fun sk => dst sk.2) with
  | none => rfl
  | some sk =>
    obtain ⟨k, hk, rfl⟩ := List.mem_map.1 (List.mem_of_find?_eq_some h)
    exact mapping_pub_congr hk hag

/-- Non-vacuous: DSA private values that differ in `x` only, converted to a public key; the destination
`object`, of which everything is an instance, gives the private key. -/
example :
    let d (x : Int) : VDict := [(py! "p", .int 7), (py! "q", .int 3), (py! "g", .int 2), (py! "y", .int 4), (py! "x", .int x)]
    (∀ n ∈ dkeys (formatOf .dssPub), dget (d 1) n = dget (d 2) n)
    ∧ convertTo exLib ⟨.dssPriv, d 1⟩ (some (· == .dsaPublicKey)) = .ok (.dsaPublic 7 3 2 4)
    ∧ convertTo exLib ⟨.dssPriv, d 1⟩ (some fun _ => true) = .ok (.dsaPrivate 7 3 2 4 1)
    ∧ (∀ k ∈ objClasses exLib .pub .dss ++ objClasses exLib .priv .dss, (k == .rsaPublicKey) = false) := by
  decide +kernel

/-! ### C64 -/

/-- **C64.** `ECDSAPublicKeyParams.convert_from` and `ECDSAPrivateKeyParams.convert_from` return an object of
the class of the curve of the key, with the values that this class itself would extract. -/
theorem C64_curve_class (lib : Lib) (ext : Ext) (t : PlainType) (c cp : Cls) (o : KeyObj) (d : VDict)
    (ht : t.curve.isSome) (hc : paramsClass .priv (.str t.name) = .ok c)
    (hcp : paramsClass .pub (.str t.name) = .ok cp) :
    (values lib .pub t o = some d → (convertFrom lib ext .ecdsaPub o).res = .ok ⟨cp, d⟩)
    ∧ (values lib .priv t o = some d → (convertFrom lib ext .ecdsaPriv o).res = .ok ⟨c, d⟩) := by
  rw [paramsClass_plain] at hc hcp
  cases hc
  cases hcp
  exact ⟨convert_ecdsa lib ext t o d ht, convert_ecdsa_priv lib ext t o d ht⟩

/-- Non-vacuous: a private key on the curve P-384. -/
example : (convertFrom exLib exExt .ecdsaPub exEcObj).res
      = .ok ⟨.ec384Pub, [(py! "identifier", .str (py! "nistp384")), (py! "q", .bytes [1, 1, 0, 1])]⟩
    ∧ (values exLib .priv .ec384 exEcObj).isSome = true ∧ (PlainType.curve .ec384).isSome = true := by
  decide +kernel

end OSK
