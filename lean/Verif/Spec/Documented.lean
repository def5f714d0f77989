import Verif.Model.UserList
import Verif.Model.Cipher
import Verif.Props.PackList
/-
What the documentation says that the methods raise.
-/
namespace OSK.Spec

/-- Exceptions by the built-in class they belong to (`UnicodeDecodeError`, `UnicodeEncodeError` and `binascii.Error` are
`ValueError`s). -/
inductive ExcClass where
  | eof | value | key | index | type | overflow | struct | other
  deriving DecidableEq, Repr

def excClass : Exn → ExcClass
  | .eofError _ _ => .eof
  | .valueError _ | .unicodeDecodeError | .unicodeEncodeError | .binasciiError => .value
  | .keyError _ => .key
  | .indexError => .index
  | .typeError => .type
  | .overflowError => .overflow
  | .structError => .struct
  | _ => .other

/-- The functions whose documentation has a section `Raises` and that are modelled, apart from conversions (C62) and
classes of parameters (their section only has warnings). -/
inductive Documented where
  | readFixedBytes | readPascalBytes | readInstruction | readFields | readRecords
  | writeInstruction | writeFields | writeRecords | checkFields
  | publicClass | privateClass | cipherClass | kdfClass
  | keyFromBytes | keyFromString | listFromBytes | listFromString | listFromList | packBytes | packString
  | getOption | setOption | getSignatureKey | setSignatureKey | deriveKey
  deriving DecidableEq, Repr

/-- The section `Raises` of the documentation, without the warnings. -/
def Documented.says : Documented → List ExcClass
  -- pascal_style_byte_stream.py:238-240, 262-266, 123-127, 172-175, 208-211
  | .readFixedBytes => [.eof]
  | .readPascalBytes => [.eof, .value]
  | .readInstruction => [.eof, .value]
  | .readFields => [.eof]
  | .readRecords => [.eof]
  -- pascal_style_byte_stream.py:299-301, 364-366, 400-402, 427-431
  | .writeInstruction => [.value]
  | .writeFields => [.key]
  | .writeRecords => [.key]
  | .checkFields => []
  -- key_params/factory.py:120-122, 139-141, cipher/factory.py:43-45, kdf_options/factory.py:30-32
  | .publicClass => [.key]
  | .privateClass => [.key]
  | .cipherClass => [.key]
  | .kdfClass => [.key]
  -- key.py:202-204, 234-237
  | .keyFromBytes => []
  | .keyFromString => []
  -- private_key_list.py:222-232, 398-407, 445-446, 500-502, 631-633
  | .listFromBytes => [.value]
  | .listFromString => [.value]
  | .listFromList => [.value]
  | .packBytes => [.index]
  | .packString => [.index]
  -- key_params/cert.py:394-396 and 412-414, 486-488 and 506-508, 540-542, 560-562
  | .getOption => [.value]
  | .setOption => [.value]
  | .getSignatureKey => []
  | .setSignatureKey => [.value]
  -- kdf_options/bcrypt_options.py:59-62
  | .deriveKey => [.value]

/-- What they do raise. -/
def Documented.raises : Documented → List ExcClass
  | .readFixedBytes => [.eof, .overflow]
  | .readPascalBytes => [.eof, .value, .overflow]
  | .readInstruction => [.eof, .value, .overflow]
  | .readFields => [.eof, .value, .overflow]
  | .readRecords => [.eof, .value, .overflow]
  | .writeInstruction => [.value, .overflow, .struct]
  | .writeFields => [.key, .value, .overflow, .struct]
  | .writeRecords => [.key, .value, .overflow, .struct]
  | .checkFields => [.value]
  | .publicClass => [.key]
  | .privateClass => [.key]
  | .cipherClass => [.key]
  | .kdfClass => [.key]
  | .keyFromBytes => [.eof, .value, .key]
  | .keyFromString => [.eof, .value, .key, .index]
  | .listFromBytes => [.value]
  | .listFromString => [.value, .index]
  | .listFromList => [.value]
  | .packBytes => [.index, .key, .value, .overflow, .struct]
  | .packString => [.index, .key, .value, .overflow, .struct]
  | .getOption => [.value, .key, .eof, .type]
  | .setOption => [.value, .key, .eof, .type, .overflow]
  | .getSignatureKey => [.eof, .value, .key, .type]
  | .setSignatureKey => [.value, .key, .overflow]
  | .deriveKey => [.value, .key, .type]

/-- A call fails with this exception.  The keys that are packed are such that their constructor returned them; a passphrase
is given to those methods that pack lists. -/
inductive RaisedBy (ext : Ext) (cr : Crypto) : Documented → Exn → Prop
  | readFixedBytes {n : Int} {s : Stream} {e : Exn} : (readFixed n s).1 = .error e → RaisedBy ext cr .readFixedBytes e
  | readPascalBytes {n : Int} {s : Stream} {e : Exn} :
      (OSK.readPascalBytes n s).1 = .error e → RaisedBy ext cr .readPascalBytes e
  | readInstruction {fi : FI} {s : Stream} {e : Exn} : (readFI fi s).1 = .error e → RaisedBy ext cr .readInstruction e
  | readFields {fmt : FDict} {s : Stream} {e : Exn} : (readDict fmt s).1 = .error e → RaisedBy ext cr .readFields e
  | readRecords {fmt : FDict} {fuel : Nat} {s s' : Stream} {e : Exn} :
      readRepeatedlyFuel fmt fuel s = some (.error e, s') → RaisedBy ext cr .readRecords e
  | writeInstruction {fi : FI} {v : Val} {s : Stream} {e : Exn} :
      (writeFI fi v s).1 = .error e → RaisedBy ext cr .writeInstruction e
  | writeFields {fmt : FDict} {d : VDict} {s : Stream} {e : Exn} :
      (writeDict fmt d s).1 = .error e → RaisedBy ext cr .writeFields e
  | writeRecords {fmt : FDict} {l : List VDict} {s : Stream} {e : Exn} :
      (writeRepeatedly fmt l s).1 = .error e → RaisedBy ext cr .writeRecords e
  | checkFields {fmt : FDict} {d : VDict} {e : Exn} : (checkDict d fmt).res = .error e → RaisedBy ext cr .checkFields e
  | publicClass {t : Val} {e : Exn} : getPublicClass t = .error e → RaisedBy ext cr .publicClass e
  | privateClass {t : Val} {e : Exn} : getPrivateClass t = .error e → RaisedBy ext cr .privateClass e
  | cipherClass {t : Val} {e : Exn} : getCipherClass t = .error e → RaisedBy ext cr .cipherClass e
  | kdfClass {t : Val} {e : Exn} : getKdfClass t = .error e → RaisedBy ext cr .kdfClass e
  | keyFromBytes {kind : Kind} {b : Bytes} {clear : Option VDict} {e : Exn} :
      (fromBytes ext kind b clear).res = .error e → RaisedBy ext cr .keyFromBytes e
  | keyFromString {kind : Kind} {s : Str} {e : Exn} : (fromString ext kind s).res = .error e → RaisedBy ext cr .keyFromString e
  | listFromBytes {inp : Inputs} {b : Bytes} {p : Option Str} {e : Exn} :
      (OSK.listFromBytes ext cr inp b p).res = .error e → RaisedBy ext cr .listFromBytes e
  | listFromString {inp : Inputs} {s : Str} {p : Option Str} {e : Exn} :
      (OSK.listFromString ext cr inp s p).res = .error e → RaisedBy ext cr .listFromString e
  | listFromList {items : List Item} {cipher kdf : Str} {o : Option KdfOptions} {e : Exn} :
      listFromItems items cipher kdf o = .error e → RaisedBy ext cr .listFromList e
  | packBytes {inp : Inputs} {l : KeyList} {p : Str} {indices : Option (List Int)} {override retain : Bool} {e : Exn} :
      AllConstructed ext l.pairs → inp.checkInt < 2 ^ 32 →
      (packKeyList cr inp l (some p) indices override retain).res = .error e → RaisedBy ext cr .packBytes e
  | packString {inp : Inputs} {l : KeyList} {p : Str} {indices : Option (List Int)} {override retain : Bool} {e : Exn} :
      AllConstructed ext l.pairs → inp.checkInt < 2 ^ 32 →
      (packListString cr inp l (some p) indices override retain).res = .error e → RaisedBy ext cr .packString e
  | getOption {d : VDict} {param : Str} {o : OptArg} {e : Exn} :
      (OSK.getOption d param o).res = .error e → RaisedBy ext cr .getOption e
  | setOption {d : VDict} {param : Str} {o : OptArg} {v : Val} {e : Exn} :
      (OSK.setOption d param o v).1.res = .error e → RaisedBy ext cr .setOption e
  | getSignatureKey {d : VDict} {e : Exn} : (OSK.getSignatureKey ext d).res = .error e → RaisedBy ext cr .getSignatureKey e
  | setSignatureKey {d : VDict} {k : Key} {e : Exn} : Constructed ext k →
      (OSK.setSignatureKey d k).1 = .error e → RaisedBy ext cr .setSignatureKey e
  | deriveKey {o : KdfOptions} {p : Str} {n : Nat} {e : Exn} :
      OSK.deriveKey cr o p n = .error e → RaisedBy ext cr .deriveKey e

/-- Bad arguments of cryptographic functions are `ValueError`s. -/
structure ValueErrors (cr : Crypto) : Prop where
  kdf : ∀ {p s n r e}, cr.bcryptKdf p s n r = .error e → e.isValueError = true
  enc : ∀ {name su key iv x e}, (name, su) ∈ suites → su.enc cr key iv x = .error e → e.isValueError = true

end OSK.Spec
