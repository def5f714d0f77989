import Verif.Lemmas.Documented
import Verif.Props.StdCrypto
import Verif.Lemmas.KernelRfl
/-
C113: which exceptions the documentation mentions.
-/
namespace OSK
open Spec OSK.Std

/-! ### Soundness -/

theorem raisedBy_among {ext : Ext} {cr : Crypto} (hl : CryptoLaws cr) (hv : ValueErrors cr) {m : Documented} {e : Exn}
    (h : RaisedBy ext cr m e) : excClass e ∈ m.raises := by
  cases h with
  | readFixedBytes h => exact (readFixed_among _).fst h
  | readPascalBytes h => exact (readPascalBytes_among _).fst h
  | readInstruction h => exact (readFI_among _).fst h
  | readFields h => exact (readDict_among _).fst h
  | readRecords h => exact readRepeatedlyFuel_among h
  | writeInstruction h => exact (writeFI_among _ _).fst h
  | writeFields h => exact (writeDict_among _ _).fst h
  | writeRecords h => exact (writeRepeatedly_among _ _).fst h
  | checkFields h => exact checkDict_among h
  | publicClass h => simp [Documented.raises, getPublicClass_among h]
  | privateClass h => simp [Documented.raises, getPrivateClass_among h]
  | cipherClass h => simp [Documented.raises, getCipherClass_among h]
  | kdfClass h => simp [Documented.raises, getKdfClass_among h]
  | keyFromBytes h => exact parseExn_among ((fromBytes_within ext _ _ _).exn e h)
  | keyFromString h => exact fromString_among h
  | listFromBytes h => simp [Documented.raises, excClass_value.2 (C27_only_value_error ext cr _ _ _ e h)]
  | listFromString h => exact listFromString_among h
  | listFromList h =>
    unfold listFromItems at h
    split at h
    · simp at h
    · rename_i he
      simp at h; subst h
      simp [Documented.raises, checkItems_among he]
  | packBytes hc hi h => exact packKeyList_among hl hv hc hi h
  | packString hc hi h => exact packKeyList_among hl hv hc hi (packListString_error.1 h)
  | getOption h => exact getOption_among h
  | setOption h => exact setOption_among h
  | getSignatureKey h => exact getSignatureKey_among h
  | setSignatureKey hk h => exact setSignatureKey_among hk h
  | deriveKey h => exact deriveKey_among hv h

/-! ### Completeness -/

/-- An instruction with a length of nine bytes. -/
def exWide : FI := .pascalSized .bytes 9
/-- `2 ** 64` in nine bytes. -/
def exHuge : Stream := Stream.of [1, 0, 0, 0, 0, 0, 0, 0, 0]
/-- One byte that is no text. -/
def exNoText : Stream := Stream.of [0, 0, 0, 1, 255]

theorem raised_reading (ext : Ext) (cr : Crypto) :
    RaisedBy ext cr .readFixedBytes (.eofError true eofEmptyText) ∧
    RaisedBy ext cr .readFixedBytes .overflowError ∧
    RaisedBy ext cr .readPascalBytes (.eofError true eofEmptyText) ∧
    RaisedBy ext cr .readPascalBytes (.valueError "string_length_size must be positive") ∧
    RaisedBy ext cr .readPascalBytes .overflowError ∧
    RaisedBy ext cr .readInstruction (.eofError true eofEmptyText) ∧
    RaisedBy ext cr .readInstruction .unicodeDecodeError ∧
    RaisedBy ext cr .readInstruction .overflowError ∧
    RaisedBy ext cr .readFields (.eofError true eofEmptyText) ∧
    RaisedBy ext cr .readFields .unicodeDecodeError ∧
    RaisedBy ext cr .readFields .overflowError ∧
    RaisedBy ext cr .readRecords (.eofError false eofShortText) ∧
    RaisedBy ext cr .readRecords .unicodeDecodeError ∧
    RaisedBy ext cr .readRecords .overflowError :=
  ⟨.readFixedBytes (n := 1) (s := Stream.of []) (by decide +kernel),
   .readFixedBytes (n := 2 ^ 63) (s := Stream.of []) (by decide +kernel),
   .readPascalBytes (n := 1) (s := Stream.of []) (by decide +kernel),
   .readPascalBytes (n := 0) (s := Stream.of []) (by decide +kernel),
   .readPascalBytes (n := 9) (s := exHuge) (by decide +kernel),
   .readInstruction (fi := .pascal .bytes) (s := Stream.of []) (by decide +kernel),
   .readInstruction (fi := .pascal .string) (s := exNoText) (by decide +kernel),
   .readInstruction (fi := exWide) (s := exHuge) (by decide +kernel),
   .readFields (fmt := [(py! "a", .pascal .bytes)]) (s := Stream.of []) (by decide +kernel),
   .readFields (fmt := [(py! "a", .pascal .string)]) (s := exNoText) (by decide +kernel),
   .readFields (fmt := [(py! "a", exWide)]) (s := exHuge) (by decide +kernel),
   .readRecords (fmt := [(py! "a", .pascal .bytes)]) (fuel := 1) (s := Stream.of [0]) (s' := ⟨[0], 1⟩) (by kernel_rfl),
   .readRecords (fmt := [(py! "a", .pascal .string)]) (fuel := 1) (s := exNoText) (s' := ⟨[0, 0, 0, 1, 255], 5⟩)
     (by kernel_rfl),
   .readRecords (fmt := [(py! "a", exWide)]) (fuel := 1) (s := exHuge) (s' := ⟨[1, 0, 0, 0, 0, 0, 0, 0, 0], 9⟩)
     (by kernel_rfl)⟩

theorem raised_writing (ext : Ext) (cr : Crypto) :
    RaisedBy ext cr .writeInstruction .unicodeEncodeError ∧
    RaisedBy ext cr .writeInstruction .overflowError ∧
    RaisedBy ext cr .writeInstruction .structError ∧
    RaisedBy ext cr .writeFields (.keyError (some (py! "a"))) ∧
    RaisedBy ext cr .writeFields .unicodeEncodeError ∧
    RaisedBy ext cr .writeFields .overflowError ∧
    RaisedBy ext cr .writeFields .structError ∧
    RaisedBy ext cr .writeRecords (.keyError (some (py! "a"))) ∧
    RaisedBy ext cr .writeRecords .unicodeEncodeError ∧
    RaisedBy ext cr .writeRecords .overflowError ∧
    RaisedBy ext cr .writeRecords .structError ∧
    RaisedBy ext cr .checkFields (.valueError "format instruction is not recognised") :=
  ⟨.writeInstruction (fi := .pascal .string) (v := .str [0xD800]) (s := Stream.new) (by decide +kernel),
   .writeInstruction (fi := .pascal .mpint) (v := .int (-129)) (s := Stream.new) (by decide +kernel),
   .writeInstruction (fi := .struct fmtBEI) (v := .int (-1)) (s := Stream.new) (by decide +kernel),
   .writeFields (fmt := [(py! "a", .pascal .bytes)]) (d := []) (s := Stream.new) (by decide +kernel),
   .writeFields (fmt := [(py! "a", .pascal .string)]) (d := [(py! "a", .str [0xD800])]) (s := Stream.new) (by decide +kernel),
   .writeFields (fmt := [(py! "a", .pascal .mpint)]) (d := [(py! "a", .int (-129))]) (s := Stream.new) (by decide +kernel),
   .writeFields (fmt := [(py! "a", .struct fmtBEI)]) (d := [(py! "a", .int (-1))]) (s := Stream.new) (by decide +kernel),
   .writeRecords (fmt := [(py! "a", .pascal .bytes)]) (l := [[]]) (s := Stream.new) (by decide +kernel),
   .writeRecords (fmt := [(py! "a", .pascal .string)]) (l := [[(py! "a", .str [0xD800])]]) (s := Stream.new) (by decide +kernel),
   .writeRecords (fmt := [(py! "a", .pascal .mpint)]) (l := [[(py! "a", .int (-129))]]) (s := Stream.new) (by decide +kernel),
   .writeRecords (fmt := [(py! "a", .struct fmtBEI)]) (l := [[(py! "a", .int (-1))]]) (s := Stream.new) (by decide +kernel),
   .checkFields (fmt := [(py! "a", .unrecognised)]) (d := [(py! "a", .int 0)]) (by decide +kernel)⟩

theorem raised_lookups (ext : Ext) (cr : Crypto) :
    RaisedBy ext cr .publicClass (.keyError (some (py! "x"))) ∧
    RaisedBy ext cr .privateClass (.keyError (some (py! "x"))) ∧
    RaisedBy ext cr .cipherClass (.keyError (some (py! "x"))) ∧
    RaisedBy ext cr .kdfClass (.keyError (some (py! "x"))) :=
  ⟨.publicClass (t := .str (py! "x")) (by decide +kernel), .privateClass (t := .str (py! "x")) (by decide +kernel),
   .cipherClass (t := .str (py! "x")) (by decide +kernel), .kdfClass (t := .str (py! "x")) (by decide +kernel)⟩

theorem raised_keys (ext : Ext) (cr : Crypto) :
    RaisedBy ext cr .keyFromBytes (.eofError true eofEmptyText) ∧
    RaisedBy ext cr .keyFromBytes .unicodeDecodeError ∧
    RaisedBy ext cr .keyFromBytes (.keyError (some (py! "x"))) ∧
    RaisedBy ext cr .keyFromString (.eofError true eofEmptyText) ∧
    RaisedBy ext cr .keyFromString .binasciiError ∧
    RaisedBy ext cr .keyFromString (.keyError (some (py! "x"))) ∧
    RaisedBy ext cr .keyFromString .indexError ∧
    RaisedBy ext cr .getSignatureKey (.eofError true eofEmptyText) ∧
    RaisedBy ext cr .getSignatureKey .unicodeDecodeError ∧
    RaisedBy ext cr .getSignatureKey (.keyError (some (py! "signature_key"))) ∧
    RaisedBy ext cr .getSignatureKey .typeError :=
  ⟨.keyFromBytes (kind := .pub) (b := []) (clear := none) (by kernel_rfl),
   .keyFromBytes (kind := .pub) (b := [0, 0, 0, 1, 255]) (clear := none) (by kernel_rfl),
   .keyFromBytes (kind := .pub) (b := [0, 0, 0, 1, 120]) (clear := none) (by kernel_rfl),
   .keyFromString (kind := .pub) (s := py! "x ") (by kernel_rfl),
   .keyFromString (kind := .pub) (s := py! "x A") (by kernel_rfl),
   .keyFromString (kind := .pub) (s := py! "x AAAAAXg=") (by kernel_rfl),
   .keyFromString (kind := .pub) (s := py! "x") (by kernel_rfl),
   .getSignatureKey (d := [(py! "signature_key", .bytes [])]) (by kernel_rfl),
   .getSignatureKey (d := [(py! "signature_key", .bytes [0, 0, 0, 1, 255])]) (by kernel_rfl),
   .getSignatureKey (d := []) (by kernel_rfl),
   .getSignatureKey (d := [(py! "signature_key", .int 0)]) (by kernel_rfl)⟩

/-- DSA keys with bad values; the constructor only warns about the missing ones. -/
def exDss (p : VDict) : Key := ⟨.pub, [(py! "key_type", .str (py! "ssh-dss"))], ⟨.dssPub, p⟩, [], []⟩

theorem raised_set_signature_key (ext : Ext) (cr : Crypto) :
    RaisedBy ext cr .setSignatureKey (.keyError (some (py! "p"))) ∧
    RaisedBy ext cr .setSignatureKey (.valueError "value must be an int instance for mpint format instruction") ∧
    RaisedBy ext cr .setSignatureKey .overflowError :=
  ⟨.setSignatureKey (k := exDss []) (d := []) ⟨[(py! "key_type", .str (py! "ssh-dss"))], [], [], none, by kernel_rfl⟩
     (by decide +kernel),
   .setSignatureKey (k := exDss [(py! "p", .bytes [])]) (d := [])
     ⟨[(py! "key_type", .str (py! "ssh-dss"))], [(py! "p", .bytes [])], [], none, by kernel_rfl⟩ (by decide +kernel),
   .setSignatureKey (k := exDss [(py! "p", .int (-129))]) (d := [])
     ⟨[(py! "key_type", .str (py! "ssh-dss"))], [(py! "p", .int (-129))], [], none, by kernel_rfl⟩ (by decide +kernel)⟩

theorem raised_lists (ext : Ext) (cr : Crypto) :
    RaisedBy ext cr .listFromBytes (.valueError "Premature EOF detected while parsing key.") ∧
    RaisedBy ext cr .listFromString (.valueError "Not an openssh private key") ∧
    RaisedBy ext cr .listFromString .indexError ∧
    RaisedBy ext cr .listFromList (.valueError "Not a key pair") :=
  ⟨.listFromBytes (inp := exInputs) (b := []) (p := none) (by kernel_rfl),
   .listFromString (inp := exInputs) (s := py! "x") (p := none) (by kernel_rfl),
   .listFromString (inp := exInputs) (s := []) (p := none) (by kernel_rfl),
   .listFromList (items := [.other]) (cipher := []) (kdf := []) (o := none) (by kernel_rfl)⟩

/-- An empty list with these names and options. -/
def exBareList (cipher : Val) (kdf : Str) (o : VDict) : KeyList :=
  ⟨[], none, some [(py! "cipher", cipher), (py! "kdf", .str kdf)], none, some ⟨.bcrypt, o⟩, none, none, none⟩

theorem unprepared_exEmpty {kdf : Str} {cipher : Val} {o : VDict} {fmt : FDict} {e : Exn}
    (hk : (kdf, fmt) ∈ kdfFields) (hr : RefusesAt o fmt e) :
    Unprepared exInputs (exBareList cipher kdf o) none false true e :=
  .options (cipher := cipher) (.inl ⟨_, rfl, rfl, by simp [dget_cons]⟩) (.inl ⟨_, rfl, rfl, rfl⟩) hk hr

theorem raised_packing {ext : Ext} {cr : Crypto} (m : Documented) (hm : m = .packBytes ∨ m = .packString) :
    RaisedBy ext cr m .indexError ∧ RaisedBy ext cr m (.keyError (some (py! "x"))) ∧
    RaisedBy ext cr m (.valueError "value must be a str instance for string format instruction") ∧
    RaisedBy ext cr m .overflowError ∧ RaisedBy ext cr m .structError := by
  have key : ∀ {l : KeyList} {indices : Option (List Int)} {e : Exn}, l.pairs = [] →
      Unprepared exInputs l indices false true e → RaisedBy ext cr m e := by
    intro l indices e hp hu
    have hc : AllConstructed ext l.pairs := by rw [hp]; intro p hp; cases hp
    have hi : exInputs.checkInt < 2 ^ 32 := by decide
    have he := congrArg Eff.res (C91_unprepared ext cr exInputs l (some []) indices false true e hc hi hu)
    rcases hm with rfl | rfl
    · exact .packBytes hc hi he
    · exact .packString hc hi (packListString_error.2 he)
  have hn : ∀ o, Optioned exInputs (exBareList (.str (py! "none")) (py! "none") o) true (.str (py! "none")) (py! "none") o [] := fun o =>
    ⟨.inl ⟨_, rfl, rfl, by simp [dget_cons]⟩, .inl ⟨_, rfl, rfl, rfl⟩, [],
      by simp [kdfFields], .nil⟩
  refine ⟨?_, ?_, ?_, ?_, ?_⟩
  · refine key (l := exBareList (.str (py! "none")) (py! "none") []) (indices := some [0]) rfl
      (.publics (cipher := ['n', 'o', 'n', 'e']) (ob := []) (kdf := py! "none") (opts := [])
        ⟨hn [], by decide +kernel, by decide +kernel, by decide +kernel⟩ (.index ?_))
    rintro p ⟨n, h, -⟩
    simp [exBareList] at h
  · exact key (l := exBareList (.str (py! "none")) (py! "x") []) (indices := none) rfl
      (.kdf (cipher := .str (py! "none")) (kdf := .str (py! "x"))
        (.inl ⟨_, rfl, rfl, by simp [dget_cons]⟩) (by simp [kdfFields]))
  · refine key (l := exBareList (.int 0) (py! "none") []) (indices := none) rfl
      (.cipher (cipher := .int 0) (kdf := py! "none") (opts := []) (ob := []) ⟨.inl ⟨_, rfl, rfl, by simp [dget_cons]⟩,
        .inl ⟨_, rfl, rfl, rfl⟩, [], by simp [kdfFields], .nil⟩ (.notText (by simp)))
  · have h : ∀ b : Bytes, 2 ^ 32 ≤ b.length → RaisedBy ext cr m .overflowError := fun b hb =>
      key rfl (unprepared_exEmpty (kdf := py! "bcrypt") (cipher := .int 0) (o := [(py! "salt", .bytes b)])
        (List.mem_cons_of_mem _ List.mem_cons_self) (.here (dget_cons_self ..) (.longBytes hb)))
    exact h (List.replicate (2 ^ 32) 0) (by rw [List.length_replicate])
  · have h0 : Stores (.pascal .bytes) (.bytes []) [0, 0, 0, 0] := .bytes ⟨[0, 0, 0, 0], rfl, rfl, rfl⟩
    exact key rfl (unprepared_exEmpty (kdf := py! "bcrypt") (cipher := .int 0)
      (o := [(py! "salt", .bytes []), (py! "rounds", .int (-1))]) (List.mem_cons_of_mem _ List.mem_cons_self)
      (.later (dget_cons_self ..) h0
        (.here (v := .int (-1)) rfl (.range (by intro i hi; simp at hi)))))

theorem raised_options (ext : Ext) (cr : Crypto) :
    RaisedBy ext cr .getOption (.valueError "Not a valid certificate principal type") ∧
    RaisedBy ext cr .getOption (.keyError (some (py! "extensions"))) ∧
    RaisedBy ext cr .getOption (.eofError false eofShortText) ∧
    RaisedBy ext cr .getOption .typeError ∧
    RaisedBy ext cr .setOption (.valueError "Not a valid certificate principal type") ∧
    RaisedBy ext cr .setOption (.keyError (some (py! "extensions"))) ∧
    RaisedBy ext cr .setOption (.eofError false eofShortText) ∧
    RaisedBy ext cr .setOption .typeError :=
  ⟨.getOption (d := [(py! "type", .int 3)]) (param := py! "extensions") (o := .opt .permitPty) (by decide +kernel),
   .getOption (d := []) (param := py! "extensions") (o := .name (py! "a")) (by decide +kernel),
   .getOption (d := [(py! "extensions", .bytes [0])]) (param := py! "extensions") (o := .name (py! "a")) (by decide +kernel),
   .getOption (d := [(py! "extensions", .int 0)]) (param := py! "extensions") (o := .name (py! "a")) (by decide +kernel),
   .setOption (d := [(py! "type", .int 3)]) (param := py! "extensions") (o := .opt .permitPty) (v := .bytes []) (by decide +kernel),
   .setOption (d := []) (param := py! "extensions") (o := .name (py! "a")) (v := .bytes []) (by decide +kernel),
   .setOption (d := [(py! "extensions", .bytes [0])]) (param := py! "extensions") (o := .name (py! "a")) (v := .bytes [])
     (by decide +kernel),
   .setOption (d := [(py! "extensions", .int 0)]) (param := py! "extensions") (o := .name (py! "a")) (v := .bytes [])
     (by decide +kernel)⟩

theorem raised_long_option (ext : Ext) (cr : Crypto) : RaisedBy ext cr .setOption .overflowError := by
  have hp : ∀ b : Bytes, 2 ^ 32 ≤ b.length → (setOption [(py! "extensions", .bytes [])] (py! "extensions") (.name (py! "a")) (.bytes b)).1.res =
      .error .overflowError := by
    intro b hb
    have e : packOptions [(py! "a", .bytes b)] .bytes = .error .overflowError := by
      rw [packOptions_eq]
      have : sortedDict [(py! "a", Val.bytes b)] = [(py! "a", Val.bytes b)] := by
        simp [sortedDict, dkeys, sortedStrs, insertSorted, dget_cons]
      rw [this]
      have hr : packDict optionFmt (optRec (py! "a", .bytes b)) = .error .overflowError :=
        refusesAt_pack (.later (by rfl)
          (.text (cs := ['a']) (w := [0, 0, 0, 1, 97]) ⟨[0, 0, 0, 1], rfl, rfl, rfl⟩)
          (.here (by rfl) (.longBytes hb)))
      simp [packDicts, hr, catE]
    unfold setOption
    have hx : (do
        Eff.lift (optionGuard [(py! "extensions", .bytes [])] (.name (py! "a")))
        let m ← getOptionValues [(py! "extensions", .bytes [])] (py! "extensions")
        Eff.lift (packOptions (dset m (OptArg.key (.name (py! "a"))) (.bytes b)) .bytes) : Eff Bytes) = ⟨[], .error .overflowError⟩ := by
      have h1 : optionGuard [(py! "extensions", .bytes [])] (.name (py! "a")) = .ok () := rfl
      have h2 : getOptionValues [(py! "extensions", .bytes [])] (py! "extensions") = ⟨[], .ok []⟩ := by kernel_rfl
      rw [h1, Eff.lift_ok_bind, h2, Eff.mk_bind_ok]
      have h3 : dset ([] : VDict) (OptArg.key (.name (py! "a"))) (.bytes b) = [(py! "a", .bytes b)] := rfl
      rw [h3, e]
      rfl
    simp only [hx]
  exact .setOption (hp (List.replicate (2 ^ 32) 0) (by rw [List.length_replicate]))

theorem raised_deriving (ext : Ext) (cr : Crypto) :
    RaisedBy ext cr .deriveKey .unicodeEncodeError ∧ RaisedBy ext cr .deriveKey (.keyError (some (py! "salt"))) ∧
    RaisedBy ext cr .deriveKey .typeError :=
  ⟨.deriveKey (o := ⟨.bcrypt, []⟩) (p := [0xD800]) (n := 1) (by kernel_rfl),
   .deriveKey (o := ⟨.bcrypt, []⟩) (p := []) (n := 1) (by kernel_rfl),
   .deriveKey (o := ⟨.bcrypt, [(py! "salt", .int 0), (py! "rounds", .int 1)]⟩) (p := []) (n := 1) (by kernel_rfl)⟩

/-! ### C113 -/

/-- **C113** (what is raised). For each documented function, exactly the exceptions of the classes in the table
`Documented.raises` are raised: no call raises another one, and each is raised by some call. -/
theorem C113_raises (ext : Ext) (cr : Crypto) (hl : CryptoLaws cr) (hv : ValueErrors cr) (m : Documented) (c : ExcClass) :
    (∃ e, RaisedBy ext cr m e ∧ excClass e = c) ↔ c ∈ m.raises := by
  constructor
  · rintro ⟨e, h, rfl⟩
    exact raisedBy_among hl hv h
  · intro hc
    obtain ⟨r1, r2, r3, r4, r5, r6, r7, r8, r9, r10, r11, r12, r13, r14⟩ := raised_reading ext cr
    obtain ⟨w1, w2, w3, w4, w5, w6, w7, w8, w9, w10, w11, w12⟩ := raised_writing ext cr
    obtain ⟨l1, l2, l3, l4⟩ := raised_lookups ext cr
    obtain ⟨k1, k2, k3, k4, k5, k6, k7, k8, k9, k10, k11⟩ := raised_keys ext cr
    obtain ⟨s1, s2, s3⟩ := raised_set_signature_key ext cr
    obtain ⟨f1, f2, f3, f4⟩ := raised_lists ext cr
    obtain ⟨p1, p2, p3, p4, p5⟩ := raised_packing (ext := ext) (cr := cr) .packBytes (.inl rfl)
    obtain ⟨q1, q2, q3, q4, q5⟩ := raised_packing (ext := ext) (cr := cr) .packString (.inr rfl)
    obtain ⟨o1, o2, o3, o4, o5, o6, o7, o8⟩ := raised_options ext cr
    have o9 := raised_long_option ext cr
    obtain ⟨d1, d2, d3⟩ := raised_deriving ext cr
    cases m <;> simp [Documented.raises] at hc
    · rcases hc with rfl | rfl
      · exact ⟨_, r1, rfl⟩
      · exact ⟨_, r2, rfl⟩
    · rcases hc with rfl | rfl | rfl
      · exact ⟨_, r3, rfl⟩
      · exact ⟨_, r4, rfl⟩
      · exact ⟨_, r5, rfl⟩
    · rcases hc with rfl | rfl | rfl
      · exact ⟨_, r6, rfl⟩
      · exact ⟨_, r7, rfl⟩
      · exact ⟨_, r8, rfl⟩
    · rcases hc with rfl | rfl | rfl
      · exact ⟨_, r9, rfl⟩
      · exact ⟨_, r10, rfl⟩
      · exact ⟨_, r11, rfl⟩
    · rcases hc with rfl | rfl | rfl
      · exact ⟨_, r12, rfl⟩
      · exact ⟨_, r13, rfl⟩
      · exact ⟨_, r14, rfl⟩
    · rcases hc with rfl | rfl | rfl
      · exact ⟨_, w1, rfl⟩
      · exact ⟨_, w2, rfl⟩
      · exact ⟨_, w3, rfl⟩
    · rcases hc with rfl | rfl | rfl | rfl
      · exact ⟨_, w4, rfl⟩
      · exact ⟨_, w5, rfl⟩
      · exact ⟨_, w6, rfl⟩
      · exact ⟨_, w7, rfl⟩
    · rcases hc with rfl | rfl | rfl | rfl
      · exact ⟨_, w8, rfl⟩
      · exact ⟨_, w9, rfl⟩
      · exact ⟨_, w10, rfl⟩
      · exact ⟨_, w11, rfl⟩
    · subst hc; exact ⟨_, w12, rfl⟩
    · subst hc; exact ⟨_, l1, rfl⟩
    · subst hc; exact ⟨_, l2, rfl⟩
    · subst hc; exact ⟨_, l3, rfl⟩
    · subst hc; exact ⟨_, l4, rfl⟩
    · rcases hc with rfl | rfl | rfl
      · exact ⟨_, k1, rfl⟩
      · exact ⟨_, k2, rfl⟩
      · exact ⟨_, k3, rfl⟩
    · rcases hc with rfl | rfl | rfl | rfl
      · exact ⟨_, k4, rfl⟩
      · exact ⟨_, k5, rfl⟩
      · exact ⟨_, k6, rfl⟩
      · exact ⟨_, k7, rfl⟩
    · subst hc; exact ⟨_, f1, rfl⟩
    · rcases hc with rfl | rfl
      · exact ⟨_, f2, rfl⟩
      · exact ⟨_, f3, rfl⟩
    · subst hc; exact ⟨_, f4, rfl⟩
    · rcases hc with rfl | rfl | rfl | rfl | rfl
      · exact ⟨_, p1, rfl⟩
      · exact ⟨_, p2, rfl⟩
      · exact ⟨_, p3, rfl⟩
      · exact ⟨_, p4, rfl⟩
      · exact ⟨_, p5, rfl⟩
    · rcases hc with rfl | rfl | rfl | rfl | rfl
      · exact ⟨_, q1, rfl⟩
      · exact ⟨_, q2, rfl⟩
      · exact ⟨_, q3, rfl⟩
      · exact ⟨_, q4, rfl⟩
      · exact ⟨_, q5, rfl⟩
    · rcases hc with rfl | rfl | rfl | rfl
      · exact ⟨_, o1, rfl⟩
      · exact ⟨_, o2, rfl⟩
      · exact ⟨_, o3, rfl⟩
      · exact ⟨_, o4, rfl⟩
    · rcases hc with rfl | rfl | rfl | rfl | rfl
      · exact ⟨_, o5, rfl⟩
      · exact ⟨_, o6, rfl⟩
      · exact ⟨_, o7, rfl⟩
      · exact ⟨_, o8, rfl⟩
      · exact ⟨_, o9, rfl⟩
    · rcases hc with rfl | rfl | rfl | rfl
      · exact ⟨_, k8, rfl⟩
      · exact ⟨_, k9, rfl⟩
      · exact ⟨_, k10, rfl⟩
      · exact ⟨_, k11, rfl⟩
    · rcases hc with rfl | rfl | rfl
      · exact ⟨_, s2, rfl⟩
      · exact ⟨_, s1, rfl⟩
      · exact ⟨_, s3, rfl⟩
    · rcases hc with rfl | rfl | rfl
      · exact ⟨_, d1, rfl⟩
      · exact ⟨_, d2, rfl⟩
      · exact ⟨_, d3, rfl⟩

/-- The functions that the documentation describes rightly. -/
def Spec.wellDocumented : List Documented :=
  [.publicClass, .privateClass, .cipherClass, .kdfClass, .listFromBytes, .listFromList]

/-- **C113** (full statement, false for most functions). The functions that raise only what their documentation says are
the four lookups of classes and two constructors of lists of private keys.
Missing from the full statement: all others, see `C113_false`. -/
theorem C113_documented_partial (ext : Ext) (cr : Crypto) (hl : CryptoLaws cr) (hv : ValueErrors cr) (m : Documented) :
    (∀ e, RaisedBy ext cr m e → excClass e ∈ m.says) ↔ m ∈ wellDocumented := by
  have h1 : (∀ e, RaisedBy ext cr m e → excClass e ∈ m.says) ↔ ∀ c ∈ m.raises, c ∈ m.says := by
    constructor
    · intro h c hc
      obtain ⟨e, he, rfl⟩ := (C113_raises ext cr hl hv m c).2 hc
      exact h e he
    · intro h e he
      exact h _ (raisedBy_among hl hv he)
  rw [h1]
  cases m <;> decide

/-- **C113** (nothing is documented in vain). What the documentation says is raised by some call. -/
theorem C113_says (ext : Ext) (cr : Crypto) (hl : CryptoLaws cr) (hv : ValueErrors cr) (m : Documented) (c : ExcClass)
    (hc : c ∈ m.says) : ∃ e, RaisedBy ext cr m e ∧ excClass e = c := by
  refine (C113_raises ext cr hl hv m c).2 ?_
  revert c
  cases m <;> decide

/-- The real functions only raise `ValueError`s. -/
theorem std_valueErrors : ValueErrors Std.crypto where
  kdf := by
    intro p s n r e h
    simp only [Std.crypto, Std.bcryptKdf] at h
    split at h
    · simp at h; subst h; rfl
    · split at h
      · simp at h; subst h; rfl
      · split at h <;> simp at h
        subst h; rfl
  enc := by
    have sym : ∀ {alg mode key iv x e}, (alg = .aes ∨ mode = .cbc) → Std.symCrypt true alg mode key iv x = .error e → e.isValueError = true := by
      intro alg mode key iv x e ha h
      unfold Std.symCrypt at h
      split at h
      · simp at h; subst h; rfl
      · split at h
        · simp at h; subst h; rfl
        · split at h
          · split at h
            · simp at h; subst h; rfl
            · simp at h
          · simp at h
          · simp at ha
    have gcm : ∀ {key iv x e}, Std.gcmEnc key iv x = .error e → e.isValueError = true := by
      intro key iv x e h
      unfold Std.gcmEnc at h
      split at h
      · simp at h; subst h; rfl
      · simp at h
    intro name su key iv x e hs h
    simp [suites] at hs
    rcases hs with ⟨-, rfl⟩ | ⟨-, rfl⟩ | ⟨-, rfl⟩ | ⟨-, rfl⟩ | ⟨-, rfl⟩ | ⟨-, rfl⟩ | ⟨-, rfl⟩ | ⟨-, rfl⟩ | ⟨-, rfl⟩ | ⟨-, rfl⟩ | ⟨-, rfl⟩
    · exact sym (.inr rfl) h
    · exact sym (alg := .aes) (mode := .ctr) (key := key) (iv := iv) (x := x) (.inl rfl) h
    · exact sym (alg := .aes) (mode := .ctr) (key := key) (iv := iv) (x := x) (.inl rfl) h
    · exact sym (alg := .aes) (mode := .ctr) (key := key) (iv := iv) (x := x) (.inl rfl) h
    · exact sym (alg := .aes) (mode := .cbc) (key := key) (iv := iv) (x := x) (.inl rfl) h
    · exact sym (alg := .aes) (mode := .cbc) (key := key) (iv := iv) (x := x) (.inl rfl) h
    · exact sym (alg := .aes) (mode := .cbc) (key := key) (iv := iv) (x := x) (.inl rfl) h
    · exact sym (alg := .aes) (mode := .cbc) (key := key) (iv := iv) (x := x) (.inl rfl) h
    · exact gcm h
    · exact gcm h
    · simp only [chachaSeal] at h
      split at h
      · rename_i e' he
        simp at h; subst h
        simp only [Std.crypto, Std.chacha] at he
        split at he
        · simp at he; subst he; rfl
        · split at he <;> simp at he
          try (subst he; rfl)
      · simp at h

/-- **C113** is false: for example, reading fields raises `ValueError` for bytes that are not text, parsing a line without a
space raises `IndexError`, the empty string is refused with `IndexError` by the list, and packing an empty list whose
options have a negative number of rounds raises `struct.error`; none of them is in the documentation. -/
theorem C113_false :
    (∃ e, RaisedBy exExt Std.crypto .readFields e ∧ excClass e = .value ∧ ExcClass.value ∉ Documented.says .readFields) ∧
    (∃ e, RaisedBy exExt Std.crypto .keyFromString e ∧ excClass e = .index ∧ ExcClass.index ∉ Documented.says .keyFromString) ∧
    (∃ e, RaisedBy exExt Std.crypto .listFromString e ∧ excClass e = .index ∧
      ExcClass.index ∉ Documented.says .listFromString) ∧
    (∃ e, RaisedBy exExt Std.crypto .packBytes e ∧ excClass e = .struct ∧ ExcClass.struct ∉ Documented.says .packBytes) :=
  ⟨⟨_, (raised_reading exExt Std.crypto).2.2.2.2.2.2.2.2.2.1, rfl, by decide⟩,
   ⟨_, (raised_keys exExt Std.crypto).2.2.2.2.2.2.1, rfl, by decide⟩,
   ⟨_, (raised_lists exExt Std.crypto).2.2.1, rfl, by decide⟩,
   ⟨_, (raised_packing .packBytes (.inl rfl)).2.2.2.2, rfl, by decide⟩⟩

/-- **C113** (sizes of the usual range). `OverflowError` is out of the way when numbers of bytes are index-sized and
lengths have at most seven bytes: then `read_fixed_bytes`, `read_pascal_bytes` and `read_from_format_instruction` raise
only what their documentation says.
Missing from the full statement: other sizes, see `C113_raises`. -/
theorem C113_reading_partial (s : Stream) (e : Exn) :
    (∀ n : Int, -(2 : Int) ^ 63 ≤ n → n < 2 ^ 63 → (readFixed n s).1 = .error e → excClass e ∈ Documented.says .readFixedBytes) ∧
    (∀ n : Int, n ≤ 7 → (readPascalBytes n s).1 = .error e → excClass e ∈ Documented.says .readPascalBytes) ∧
    (∀ fi : FI, (∀ f, fi = .struct f → f.calcsize < 2 ^ 63) → (∀ p n, fi = .pascalSized p n → n ≤ 7) →
      (readFI fi s).1 = .error e → excClass e ∈ Documented.says .readInstruction) := by
  have fixed : ∀ n : Int, -(2 : Int) ^ 63 ≤ n → n < 2 ^ 63 → SMExn (Among [.eof]) (readFixed n) := by
    intro n h1 h2 s e s' he
    have hm := readFixed_among n s e s' he
    have hx : e ≠ .overflowError := by
      rintro rfl
      unfold readFixed at he
      rw [SM.bind_apply] at he
      unfold bytesIORead at he
      have hp : (pyMaxSize : Int) = 2 ^ 63 - 1 := by decide
      have hp' : pyMaxSize = 2 ^ 63 - 1 := rfl
      by_cases hn : n < 0
      · rw [if_pos hn, if_neg (by omega)] at he
        simp only [] at he
        rw [if_neg (by omega)] at he
        simp at he
      · rw [if_neg hn, if_neg (by omega)] at he
        simp only [] at he
        split at he
        · split at he <;> simp at he
        · simp at he
    simp [Among] at hm ⊢
    rcases hm with hm | hm
    · exact hm
    · cases e <;> simp [excClass] at hm
      exact absurd rfl hx
  have pascal : ∀ n : Int, n ≤ 7 → SMExn (Among [.eof, .value]) (readPascalBytes n) := by
    intro n hn
    have up : ∀ e, Among [.eof] e → Among [.eof, .value] e := by
      intro e h; simp [Among] at h ⊢; exact .inl h
    unfold readPascalBytes
    split
    · exact SMExn.throw (by simp [Among, excClass])
    · rename_i h0
      refine SMExn.bind' ((fixed n (by omega) (by omega)).mono up) ?_
      rintro b ⟨s, s', hb⟩
      refine (fixed _ (by omega) ?_).mono up
      obtain ⟨k, rfl⟩ := Int.eq_ofNat_of_zero_le (by omega : 0 ≤ n)
      rw [readFixed_apply] at hb
      have hk : b.length ≤ 7 := by
        split at hb
        · simp at hb
        · split at hb
          · simp at hb
          · simp at hb
            rw [← hb.1]; simp; omega
      have h3 := beNat_lt b
      have h4 : 256 ^ b.length ≤ 256 ^ 7 := Nat.pow_le_pow_right (by decide) hk
      have : (256 : Nat) ^ 7 < 2 ^ 63 := by decide
      omega
  have decode : ∀ p b, SMExn (Among [.eof, .value]) (SM.lift (decodePrim p b)) := by
    intro p b
    apply SMExn.lift
    intro e he
    cases p <;> simp [decodePrim] at he
    unfold bytesDecode at he
    split at he <;> simp [Except.map] at he
    rw [← he]
    simp [Among, excClass]
  refine ⟨fun n h1 h2 h => (fixed n h1 h2).fst h, fun n hn h => (pascal n hn).fst h, fun fi h1 h2 h => ?_⟩
  cases fi with
  | struct f =>
    have hf := h1 f rfl
    have hx : SMExn (Among [.eof]) (readFI (.struct f)) := (fixed _ (by omega) (by omega)).bind fun b => SMExn.pure _
    have := hx.fst h
    simp [Among] at this
    simp [Documented.says, this]
  | pascal p => exact SMExn.fst ((pascal 4 (by decide)).bind fun b => decode p b) h
  | pascalSized p n => exact SMExn.fst ((pascal n (h2 p n rfl)).bind fun b => decode p b) h
  | unrecognised => simp [readFI] at h; subst h; simp [Documented.says, excClass]

/-- Non-vacuous: a read of four bytes, a length of one byte and one of four bytes, all failing. -/
example : (readFixed 4 (Stream.of [1])).1 = .error (.eofError false eofShortText) ∧
    (readPascalBytes 1 (Stream.of [2, 0])).1 = .error (.eofError false eofShortText) ∧
    (readFI (.pascal .string) exNoText).1 = .error .unicodeDecodeError := by decide +kernel

/-- Non-vacuous: the real functions have the laws. -/
example : CryptoLaws Std.crypto ∧ ValueErrors Std.crypto := ⟨C104_laws, std_valueErrors⟩

end OSK
