import Verif.Model.Stream
/-
The key parameter classes: class graph, method resolution order, format tables, factory.
-/
namespace OSK

/-- The classes in the graph.  Simplification: `userDict` stands for `collections.UserDict` together
with its bases `MutableMapping … Container`, which define none of the methods resolved here. -/
inductive Cls where
  | object | abc | userDict
  | pascalStyleDict                                  -- pascal_style_byte_stream.py:462
  | publicKeyParams                                  -- key_params/common.py:37
  | privateKeyParams                                 -- key_params/common.py:165
  | rsaPub | rsaPriv                                 -- key_params/rsa.py:18, 103
  | dssPub | dssPriv                                 -- key_params/dss.py:17, 110
  | ed25519Pub | ed25519Priv                         -- key_params/ed25519.py:19, 170
  | ecdsaPub | ecdsaPriv                             -- key_params/ecdsa.py:21, 203
  | ec256Pub | ec256Priv                             -- key_params/ecdsa.py:327, 351
  | ec384Pub | ec384Priv                             -- key_params/ecdsa.py:357, 381
  | ec521Pub | ec521Priv                             -- key_params/ecdsa.py:387, 411
  | skPub | skPriv                                   -- key_params/sk.py:45, 99
  | skEc256Pub | skEc256Priv                         -- key_params/sk.py:164, 178
  | skEd25519Pub | skEd25519Priv                     -- key_params/sk.py:188, 202
  | certPub                                          -- key_params/cert.py:154
  | certRsa | certEd25519 | certDss                  -- key_params/cert.py:608, 618, 628
  | certEc256 | certEc384 | certEc521                -- key_params/cert.py:638, 649, 660
  | certSkEd25519 | certSkEc256                      -- key_params/cert.py:671, 682
  deriving DecidableEq, Repr

namespace Cls

/-- Base classes in the order written in the `class` statements (lines as in `Cls`). -/
def bases : Cls → List Cls
  | object => []
  | abc => [object]
  | userDict => [object]
  | pascalStyleDict => [userDict, abc]
  | publicKeyParams => [pascalStyleDict]
  | privateKeyParams => [publicKeyParams]
  | rsaPub => [publicKeyParams]
  | rsaPriv => [privateKeyParams, rsaPub]
  | dssPub => [publicKeyParams]
  | dssPriv => [privateKeyParams, dssPub]
  | ed25519Pub => [publicKeyParams]
  | ed25519Priv => [privateKeyParams, ed25519Pub]
  | ecdsaPub => [publicKeyParams, abc]
  | ecdsaPriv => [privateKeyParams, ecdsaPub]
  | ec256Pub => [ecdsaPub]
  | ec256Priv => [ec256Pub, ecdsaPriv]
  | ec384Pub => [ecdsaPub]
  | ec384Priv => [ec384Pub, ecdsaPriv]
  | ec521Pub => [ecdsaPub]
  | ec521Priv => [ec521Pub, ecdsaPriv]
  | skPub => [publicKeyParams, abc]
  | skPriv => [privateKeyParams, skPub]
  | skEc256Pub => [skPub, ec256Pub]
  | skEc256Priv => [skPriv, skEc256Pub]
  | skEd25519Pub => [skPub, ed25519Pub]
  | skEd25519Priv => [skPriv, skEd25519Pub]
  | certPub => [publicKeyParams, abc]
  | certRsa => [certPub, rsaPub]
  | certEd25519 => [certPub, ed25519Pub]
  | certDss => [certPub, dssPub]
  | certEc256 => [certPub, ec256Pub]
  | certEc384 => [certPub, ec384Pub]
  | certEc521 => [certPub, ec521Pub]
  | certSkEd25519 => [certPub, skEd25519Pub]
  | certSkEc256 => [certPub, skEc256Pub]

/-- C3: the next class is the first head that is in no tail. -/
def c3Pick (seqs : List (List Cls)) : Option Cls :=
  (seqs.filterMap List.head?).find? (fun c => seqs.all (fun s => !(s.tail.contains c)))

/-- C3 merge (Python's linearisation); `none` is the `TypeError` of an inconsistent hierarchy. -/
def c3Merge : Nat → List (List Cls) → Option (List Cls)
  | 0, _ => none
  | n + 1, seqs =>
    let seqs := seqs.filter (fun s => !s.isEmpty)
    if seqs.isEmpty then some []
    else match c3Pick seqs with
      | none => none
      | some c =>
        (c3Merge n (seqs.map (fun s => if s.head? = some c then s.tail else s))).map (c :: ·)

/-- Linearisation with bounded inheritance depth. -/
def mroFuel : Nat → Cls → Option (List Cls)
  | 0, _ => none
  | n + 1, c =>
    match (c.bases.map (mroFuel n)).foldr
        (fun x acc => match x, acc with | some l, some ls => some (l :: ls) | _, _ => none) (some []) with
    | none => none
    | some ls => (c3Merge 64 (ls ++ [c.bases])).map (c :: ·)

/-- `cls.mro()`.  The `getD` default is never used: `C56_mro_defined`. -/
def mro (c : Cls) : List Cls := (mroFuel 12 c).getD []

/-- `issubclass(c, d)` (no virtual subclasses are registered). -/
def isSubclass (c d : Cls) : Bool := c.mro.contains d

/-- First class in the MRO for which `f` is defined: attribute lookup on the class. -/
def resolve {α : Type} (f : Cls → Option α) (c : Cls) : Option α := c.mro.findSome? f

end Cls

/-! ### Format tables -/

/-- `__FORMAT_INSTRUCTIONS_DICT_SUFFIX` of `SecurityKeyPublicKeyParams` (sk.py:77-79) -/
def skPubSuffix : FDict := [(py! "application", .pascal .string)]

/-- `__FORMAT_INSTRUCTIONS_DICT_SUFFIX` of `SecurityKeyPrivateKeyParams` (sk.py:126-131) -/
def skPrivSuffix : FDict :=
  [(py! "application", .pascal .string), (py! "flags", .struct fmtBEB),
   (py! "key_handle", .pascal .bytes), (py! "reserved", .pascal .bytes)]

/-- `__FORMAT_INSTRUCTIONS_DICT_SIGNED_BYTES_PREFIX` (cert.py:228-230) -/
def certPrefix : FDict := [(py! "nonce", .pascal .bytes)]

/-- `__FORMAT_INSTRUCTIONS_DICT_SIGNED_BYTES_SUFFIX` (cert.py:232-243) -/
def certSuffix : FDict :=
  [(py! "serial", .struct fmtBEQ), (py! "type", .struct fmtBEI), (py! "key_id", .pascal .string),
   (py! "valid_principals", .pascal .bytes), (py! "valid_after", .struct fmtBEQ),
   (py! "valid_before", .struct fmtBEQ), (py! "critical_options", .pascal .bytes),
   (py! "extensions", .pascal .bytes), (py! "reserved", .pascal .bytes),
   (py! "signature_key", .pascal .bytes)]

/-- `__FORMAT_INSTRUCTIONS_DICT_SIGNATURE` (cert.py:245-247) -/
def certSignature : FDict := [(py! "signature", .pascal .bytes)]

/-- `get_sk_base_public_key_class` as defined per class (sk.py:72-75, 173-175, 197-199). -/
def skBaseDef : Cls → Option Cls
  | .skPub => some .publicKeyParams
  | .skEc256Pub => some .ec256Pub
  | .skEd25519Pub => some .ed25519Pub
  | _ => none

/-- `cls.get_sk_base_public_key_class()` -/
def skBase (c : Cls) : Cls := (c.resolve skBaseDef).getD .publicKeyParams

/-- `get_cert_base_public_key_class` as defined per class (cert.py:220-226, 613-615, 623-625, 633-635,
644-646, 655-657, 666-668, 677-679, 688-690). -/
def certBaseDef : Cls → Option Cls
  | .certPub => some .publicKeyParams
  | .certRsa => some .rsaPub
  | .certEd25519 => some .ed25519Pub
  | .certDss => some .dssPub
  | .certEc256 => some .ec256Pub
  | .certEc384 => some .ec384Pub
  | .certEc521 => some .ec521Pub
  | .certSkEd25519 => some .skEd25519Pub
  | .certSkEc256 => some .skEc256Pub
  | _ => none

/-- `cls.get_cert_base_public_key_class()` -/
def certBase (c : Cls) : Cls := (c.resolve certBaseDef).getD .publicKeyParams

/-- The body of `get_format_instructions_dict` in the class `D` that defines it, for the calling class
`c`; `rec` is `get_format_instructions_dict` of another class. -/
def formatDef (rec : Cls → FDict) (c : Cls) : Cls → Option FDict
  -- pascal_style_byte_stream.py:467-474
  | .pascalStyleDict => some []
  -- rsa.py:45-54
  | .rsaPub => some [(py! "e", .pascal .mpint), (py! "n", .pascal .mpint)]
  -- rsa.py:127-140
  | .rsaPriv => some [(py! "n", .pascal .mpint), (py! "e", .pascal .mpint), (py! "d", .pascal .mpint),
      (py! "iqmp", .pascal .mpint), (py! "p", .pascal .mpint), (py! "q", .pascal .mpint)]
  -- dss.py:43-54
  | .dssPub => some [(py! "p", .pascal .mpint), (py! "q", .pascal .mpint), (py! "g", .pascal .mpint),
      (py! "y", .pascal .mpint)]
  -- dss.py:138-150
  | .dssPriv => some [(py! "p", .pascal .mpint), (py! "q", .pascal .mpint), (py! "g", .pascal .mpint),
      (py! "y", .pascal .mpint), (py! "x", .pascal .mpint)]
  -- ed25519.py:38-46
  | .ed25519Pub => some [(py! "public", .pascal .bytes)]
  -- ed25519.py:194-203
  | .ed25519Priv => some [(py! "public", .pascal .bytes), (py! "private_public", .pascal .bytes)]
  -- ecdsa.py:44-53
  | .ecdsaPub => some [(py! "identifier", .pascal .string), (py! "q", .pascal .bytes)]
  -- ecdsa.py:228-238
  | .ecdsaPriv => some [(py! "identifier", .pascal .string), (py! "q", .pascal .bytes),
      (py! "d", .pascal .mpint)]
  -- sk.py:81-86
  | .skPub => some (dupdate (rec (skBase c)) skPubSuffix)
  -- sk.py:133-138
  | .skPriv => some (dupdate (rec (skBase c)) skPrivSuffix)
  -- cert.py:249-256
  | .certPub => some (dupdate (dupdate (dupdate certPrefix (rec (certBase c))) certSuffix) certSignature)
  | _ => none

/-- `cls.get_format_instructions_dict()` with bounded nesting (certificate → security key → base). -/
def formatFuel : Nat → Cls → FDict
  | 0, _ => []
  | n + 1, c => (c.resolve (formatDef (formatFuel n) c)).getD []

/-- `cls.FORMAT_INSTRUCTIONS_DICT` (pascal_style_byte_stream.py:469-478, utils.py:22-56): the getter
is looked up on the class, hence through its MRO. -/
def formatOf (c : Cls) : FDict := formatFuel 4 c

/-! ### Factory -/

/-- `_KEY_TYPE_MAPPING` (key_params/factory.py:46-105). -/
def keyTypeMapping : List (Str × Cls × Option Cls) :=
  [(py! "ssh-rsa", .rsaPub, some .rsaPriv),
   (py! "ssh-ed25519", .ed25519Pub, some .ed25519Priv),
   (py! "ssh-dss", .dssPub, some .dssPriv),
   (py! "ecdsa-sha2-nistp256", .ec256Pub, some .ec256Priv),
   (py! "ecdsa-sha2-nistp384", .ec384Pub, some .ec384Priv),
   (py! "ecdsa-sha2-nistp521", .ec521Pub, some .ec521Priv),
   (py! "sk-ecdsa-sha2-nistp256@openssh.com", .skEc256Pub, some .skEc256Priv),
   (py! "sk-ssh-ed25519@openssh.com", .skEd25519Pub, some .skEd25519Priv),
   (py! "ssh-rsa-cert-v01@openssh.com", .certRsa, none),
   (py! "ssh-ed25519-cert-v01@openssh.com", .certEd25519, none),
   (py! "ssh-dss-cert-v01@openssh.com", .certDss, none),
   (py! "ecdsa-sha2-nistp256-cert-v01@openssh.com", .certEc256, none),
   (py! "ecdsa-sha2-nistp384-cert-v01@openssh.com", .certEc384, none),
   (py! "ecdsa-sha2-nistp521-cert-v01@openssh.com", .certEc521, none),
   (py! "sk-ssh-ed25519-cert-v01@openssh.com", .certSkEd25519, none),
   (py! "sk-ecdsa-sha2-nistp256-cert-v01@openssh.com", .certSkEc256, none)]

/-- `_KEY_TYPE_MAPPING[key_type]`.  Simplification: keys that are not `str` raise `KeyError` (an
unhashable object would raise `TypeError`). -/
def lookupType (t : Val) : Except Exn (Cls × Option Cls) :=
  match t with
  | .str s =>
    match dget keyTypeMapping s with
    | some r => .ok r
    | none => .error (.keyError (some s))
  | _ => .error (.keyError none)

/-- `get_public_key_params_class` (key_params/factory.py:108-124) -/
def getPublicClass (t : Val) : Except Exn Cls :=
  match lookupType t with
  | .error e => .error e
  | .ok r => .ok r.1

/-- `get_private_key_params_class` (key_params/factory.py:127-148) -/
def getPrivateClass (t : Val) : Except Exn Cls :=
  match lookupType t with
  | .error e => .error e
  | .ok r =>
    match r.2 with
    | none => .error (.keyError (some (py! "No subclass of PrivateKeyParams corresponds to the given key type name")))
    | some c => .ok c

end OSK
