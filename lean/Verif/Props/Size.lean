import Verif.Props.Reuse
import Verif.Spec.Size
/-
C123: the size of a packed key file.
-/
namespace OSK
open Spec

theorem prefixed_size {b w : Bytes} (h : Prefixed 4 b w) : w.length = 4 + b.length := by
  obtain ⟨p, h1, -, rfl⟩ := h
  rw [List.length_append, h1]

theorem fieldsIn_size : ∀ {l : List Bytes} {w : Bytes}, FieldsIn l w → w.length = ((l.map List.length).map (4 + ·)).sum
  | [], w, h => by
    have h : w = [] := h
    rw [h]; rfl
  | b :: t, w, h => by
    obtain ⟨x, y, h1, h2, rfl⟩ := h
    rw [List.length_append, prefixed_size h1, fieldsIn_size h2]
    rfl

theorem lays_size {f : KeyFile} {w : Bytes} (h : f.Lays w) :
    w.length = fileSize (utf8 f.cipher).length (utf8 f.kdf).length f.options.length (f.pubs.map List.length) f.body.length f.tag.length := by
  obtain ⟨front, wb, ⟨wc, wk, wo, wn, wp, h1, h2, h3, h4, -, -, h5, rfl⟩, h6, rfl⟩ := h
  simp only [List.length_append, prefixed_size h1, prefixed_size h2, prefixed_size h3, h4, fieldsIn_size h5, prefixed_size h6]
  unfold fileSize
  rw [show magic.length = 15 from rfl]

theorem utf8_ascii_size : ∀ {cs : List Char}, (∀ c ∈ strOf cs, c < 128) → (utf8 cs).length = (strOf cs).length
  | [], _ => rfl
  | c :: t, h => by
    have ih := utf8_ascii_size (cs := t) fun d hd => h d (List.mem_cons_of_mem _ hd)
    have hc : c.toNat < 128 := h _ (List.mem_cons_self ..)
    have h1 : (String.utf8EncodeChar c).length = 1 := by
      rw [String.length_utf8EncodeChar, Char.utf8Size_eq_one_iff]
      rw [UInt32.le_iff_toNat_le]
      exact Nat.le_of_lt_succ hc
    change (String.utf8EncodeChar c ++ utf8 t).length = (strOf t).length + 1
    rw [List.length_append, h1, ih, Nat.add_comm]

theorem cipher_ascii {s : Str} {z : Nat × Nat} (h : cipherSizes s = some z) : ∀ c ∈ s, c < 128 := by
  unfold cipherSizes at h
  split at h
  · rename_i h0
    rw [h0]
    decide
  · rw [Option.map_eq_some_iff] at h
    obtain ⟨su, h, -⟩ := h
    have hm : s ∈ suites.map Prod.fst := List.mem_map.2 ⟨_, dget_mem h, rfl⟩
    have key : ∀ t ∈ suites.map Prod.fst, ∀ c ∈ t, c < 128 := by decide +kernel
    exact key s hm

theorem sel_sizes {sel : List Pair} {override : Bool} {a b : List Bytes}
    (h : List.Forall₂ (fun (p : Pair) b => packPublicBytes (if override then p.priv else p.pub) = .ok b) sel a)
    (h' : List.Forall₂ (fun (p : Pair) b => packPublicBytes (if override then p.priv else p.pub) = .ok b) sel b) : a = b := by
  induction h generalizing b with
  | nil => cases h'; rfl
  | cons h1 _ ih => cases h' with
    | cons g1 g2 =>
      rw [h1] at g1
      injection g1 with g1
      rw [g1, ih g2]

theorem lays_options {f f' : KeyFile} {w : Bytes} (h : f.Lays w) (h' : f'.Lays w) : f.options = f'.options := by
  obtain ⟨x, y, h1, -, rfl⟩ := h
  obtain ⟨x', y', h1', -, e⟩ := h'
  rw [List.append_assoc, List.append_assoc] at e
  exact (front_unique h1 h1' e).2.2.1

theorem uses_unique {inp : Inputs} {self : KeyList} {retain : Bool} {salt salt' : Bytes} {rounds rounds' : Nat}
    (h : Uses inp self retain salt rounds) (h' : Uses inp self retain salt' rounds') : salt = salt' := by
  rcases h with ⟨o, h1, h2, h3, -⟩ | ⟨h1, h2, -⟩ <;> rcases h' with ⟨o', g1, g2, g3, -⟩ | ⟨g1, g2, -⟩
  · rw [h2] at g2
    injection g2 with g2
    subst g2
    rw [h3] at g3
    injection g3 with g3
    injection g3
  · rcases g1 with g1 | g1
    · rw [h1] at g1; cases g1
    · rw [h2] at g1; cases g1
  · rcases h1 with h1 | h1
    · rw [g1] at h1; cases h1
    · rw [g2] at h1; cases h1
  · rw [h2, g2]

/-- **C123** (bytes). The size of a packed file: it depends on the names of cipher and key derivation function, the size of the salt, the
sizes of the packed public keys, and the total size of the packed private keys, rounded up to whole blocks.  In particular it does not
depend on the passphrase. -/
theorem C123_bytes {cr : Crypto} (hl : CryptoLaws cr) (inp : Inputs) (self : KeyList) (passphrase : Option Str) (indices : Option (List Int))
    (override retain : Bool) (w : Bytes) (cipher kdf : Str) (opts : Nat) (sel : List Pair) (pubs privs : List Bytes)
    (hn : Names self cipher kdf) (ho : OptionSize inp self retain kdf opts) (hsel : Selection self.pairs indices sel)
    (hpub : List.Forall₂ (fun (p : Pair) b => packPublicBytes (if override then p.priv else p.pub) = .ok b) sel pubs)
    (hpriv : List.Forall₂ (fun (p : Pair) b => packPrivateBytes p.priv = .ok b) sel privs)
    (h : (packKeyList cr inp self passphrase indices override retain).res = .ok w) :
    ∃ block tag plain, cipherSizes cipher = some (block, tag) ∧ IsRoundUp block (4 + 4 + (privs.map List.length).sum) plain ∧
      w.length = fileSize cipher.length kdf.length opts (pubs.map List.length) plain tag := by
  obtain ⟨k⟩ := packKeyList_pack h
  obtain ⟨n1, n2⟩ := packs_named k hn
  have hs : k.sel = sel := selection_unique k.selection hsel
  have hpr : k.privs = privs := packed_unique (by rw [← hs]; exact k.privKeys) hpriv
  have hpu : k.f.pubs = pubs := sel_sizes (by rw [← hs]; exact k.pubs) hpub
  have hc := cipher_sizes k.cipher
  obtain ⟨c, n, e1, -, e2, e3, e4⟩ := k.section_
  have hlen : k.plain.length = 4 + 4 + (privs.map List.length).sum + n := by
    rw [e4, hpr]
    simp only [List.length_append, e1, List.length_flatten]
    congr 1
    simp [countUp]
  refine ⟨_, _, k.plain.length, n1 ▸ hc, ⟨e3, by omega, by omega⟩, ?_⟩
  have hopt : k.f.options.length = opts ∧ (utf8 k.f.kdf).length = kdf.length := by
    rw [← n2]
    cases ho with
    | none =>
      refine ⟨?_, utf8_ascii_size (by rw [n2]; decide)⟩
      have hkc := k.kdf
      rw [n2] at hkc
      have : k.kc = .none := (Except.ok.inj ((show getKdfClass (.str (py! "none")) = .ok .none from rfl).symm.trans hkc)).symm
      have hp := k.options
      rw [this] at hp
      rw [show k.f.options = [] from (Except.ok.inj hp).symm]
      rfl
    | bcrypt hu =>
      refine ⟨?_, utf8_ascii_size (by rw [n2]; decide)⟩
      have size : ∀ {salt r b}, BcryptField salt r b → b.length = 4 + salt.length + 4 := by
        rintro salt r b ⟨x, y, g1, g2, -, rfl⟩
        rw [List.length_append, prefixed_size g1, g2]
      rcases hu with ⟨o, rfl, g1, g2, g3⟩ | ⟨g1, rfl, rfl⟩
      · obtain ⟨f, salt', rounds', a1, a2, a3, a4⟩ := C39_retained cr inp self passphrase indices override w o cipher g1 hn h
        rw [lays_options k.lays a1, size a4]
        rw [g2] at a2
        injection a2 with a2
        injection a2 with a2
        rw [a2]
      · obtain ⟨f, a1, a2⟩ := C39_fresh cr inp self passphrase indices override retain w cipher g1 hn h
        rw [lays_options k.lays a1, size a2]
  rw [lays_size k.lays, hopt.1, hopt.2, utf8_ascii_size (cipher_ascii hc), n1, (k.tagFits hl).1, (k.tagFits hl).2, hpu]

theorem roundUp_unique {block n m m' : Nat} (h : IsRoundUp block n m) (h' : IsRoundUp block n m') : m = m' := by
  obtain ⟨h1, h2, h3⟩ := h
  obtain ⟨g1, g2, g3⟩ := h'
  obtain ⟨a, rfl⟩ := Nat.dvd_of_mod_eq_zero h1
  obtain ⟨b, rfl⟩ := Nat.dvd_of_mod_eq_zero g1
  rcases Nat.lt_trichotomy a b with h | h | h
  · have := Nat.mul_le_mul_left block h
    rw [Nat.mul_succ] at this
    omega
  · rw [h]
  · have := Nat.mul_le_mul_left block h
    rw [Nat.mul_succ] at this
    omega

/-- **C123** (nothing else). Two lists packed with the same cipher and key derivation function, salts of the same size, public keys of the
same sizes, and private keys of the same total size when rounded up, give files of the same size, whatever the keys, passphrases and
cryptographic functions are. -/
theorem C123_same {cr cr' : Crypto} (hl : CryptoLaws cr) (hl' : CryptoLaws cr') (inp inp' : Inputs) (self self' : KeyList)
    (passphrase passphrase' : Option Str) (indices indices' : Option (List Int)) (override override' retain retain' : Bool) (w w' : Bytes)
    (cipher kdf : Str) (opts block tag plain : Nat) (sel sel' : List Pair) (pubs pubs' privs privs' : List Bytes)
    (hn : Names self cipher kdf) (hn' : Names self' cipher kdf) (hz : cipherSizes cipher = some (block, tag))
    (ho : OptionSize inp self retain kdf opts) (ho' : OptionSize inp' self' retain' kdf opts)
    (hsel : Selection self.pairs indices sel) (hsel' : Selection self'.pairs indices' sel')
    (hpub : List.Forall₂ (fun (p : Pair) b => packPublicBytes (if override then p.priv else p.pub) = .ok b) sel pubs)
    (hpub' : List.Forall₂ (fun (p : Pair) b => packPublicBytes (if override' then p.priv else p.pub) = .ok b) sel' pubs')
    (hpriv : List.Forall₂ (fun (p : Pair) b => packPrivateBytes p.priv = .ok b) sel privs)
    (hpriv' : List.Forall₂ (fun (p : Pair) b => packPrivateBytes p.priv = .ok b) sel' privs')
    (hp : pubs.map List.length = pubs'.map List.length)
    (hr : IsRoundUp block (4 + 4 + (privs.map List.length).sum) plain) (hr' : IsRoundUp block (4 + 4 + (privs'.map List.length).sum) plain)
    (h : (packKeyList cr inp self passphrase indices override retain).res = .ok w)
    (h' : (packKeyList cr' inp' self' passphrase' indices' override' retain').res = .ok w') : w.length = w'.length := by
  obtain ⟨b, t, x, a1, a2, a3⟩ := C123_bytes hl inp self passphrase indices override retain w cipher kdf opts sel pubs privs hn ho hsel hpub
    hpriv h
  obtain ⟨b', t', x', b1, b2, b3⟩ := C123_bytes hl' inp' self' passphrase' indices' override' retain' w' cipher kdf opts sel' pubs' privs' hn'
    ho' hsel' hpub' hpriv' h'
  rw [hz] at a1 b1
  cases a1
  cases b1
  rw [a3, b3, hp, roundUp_unique a2 hr, roundUp_unique b2 hr']

/-! ### The text -/

theorem base64_size : ∀ w : Bytes, (base64 w).length = (w.length + 2) / 3 * 4
  | [] => rfl
  | [_] => by simp [base64]
  | [_, _] => by simp [base64]
  | a :: b :: c :: t => by
    rw [base64]
    simp only [List.length_append, List.length_cons, List.length_nil, base64_size t]
    omega

/-- Lines of `n` characters, the last one 1 to `n`: how many there are. -/
theorem lines_count {n : Nat} (hn : 0 < n) : ∀ {ls : List Str}, (∀ l ∈ ls.dropLast, l.length = n) → (∀ l ∈ ls, 1 ≤ l.length ∧ l.length ≤ n) →
    ls.length = (ls.flatten.length + (n - 1)) / n
  | [], _, _ => by simp [Nat.div_eq_of_lt (show n - 1 < n by omega)]
  | [l], _, h => by
    obtain ⟨h1, h2⟩ := h l (List.mem_singleton_self l)
    simp only [List.flatten_cons, List.flatten_nil, List.append_nil, List.length_singleton]
    symm
    rw [Nat.div_eq_iff hn]
    omega
  | l :: m :: t, hd, h => by
    have ih := lines_count hn (ls := m :: t) (fun x hx => hd x (by rw [List.dropLast_cons_cons]; exact List.mem_cons_of_mem _ hx))
      (fun x hx => h x (List.mem_cons_of_mem _ hx))
    have hl : l.length = n := hd l (by rw [List.dropLast_cons_cons]; exact List.mem_cons_self ..)
    have e : (l :: m :: t).flatten.length = n + (m :: t).flatten.length := by rw [List.flatten_cons, List.length_append, hl]
    rw [List.length_cons, ih, e,
      show n + (m :: t).flatten.length + (n - 1) = (m :: t).flatten.length + (n - 1) + n by omega, Nat.add_div_right _ hn]

theorem ended_size : ∀ ls : List Str, (ls.flatMap (· ++ py! "\n")).length = ls.flatten.length + ls.length
  | [] => rfl
  | l :: t => by
    rw [List.flatMap_cons, List.length_append, ended_size t, List.flatten_cons]
    simp only [List.length_append, List.length_cons]
    simp
    omega

/-- **C123** (text). The number of characters of a packed text depends on the number of packed bytes only. -/
theorem C123_text (cr : Crypto) (inp : Inputs) (self : KeyList) (passphrase : Option Str) (indices : Option (List Int))
    (override retain : Bool) (s : Str) (h : (packListString cr inp self passphrase indices override retain).res = .ok s) :
    ∃ w, (packKeyList cr inp self passphrase indices override retain).res = .ok w ∧ s.length = textSize w.length := by
  rcases hw : (packKeyList cr inp self passphrase indices override retain).res with e | w
  · rw [(C36_failure cr inp self passphrase indices override retain e).2 hw] at h
    cases h
  · obtain ⟨ls, ⟨h1, h2, h3⟩, -, h4, -⟩ := C36_layout cr inp self passphrase indices override retain w hw
    rw [h] at h4
    have h4 := Except.ok.inj h4
    refine ⟨w, rfl, ?_⟩
    have hcount := lines_count (n := 70) (by decide) h2 h3
    have hflat : ls.flatten.length = (w.length + 2) / 3 * 4 := by
      rw [h1, base64Text, List.length_map, base64_size]
    rw [h4, ended_size, List.flatten_cons, List.flatten_append, List.length_append, List.length_append, List.length_cons, List.length_append,
      hcount, hflat]
    unfold textSize
    rw [show beginMarker.length = 35 by decide, show [endMarker].flatten.length = 33 by decide, List.length_singleton]
    omega

/-! ### Examples: a comment of two bytes and one of nine -/

def exLongComment : Key := ⟨.priv, exEd.header, exEd.params, [(py! "comment", .str (py! "nine more"))], []⟩
def exLongList : KeyList := { exList with pairs := [⟨exEdPub, exLongComment⟩, ⟨exPub, exRsaPriv⟩] }

example : ∃ w w', (packKeyList toyCrypto exInputs exList none none false true).res = .ok w ∧
    (packKeyList toyCrypto exInputs exLongList (some (py! "a long passphrase")) none false true).res = .ok w' ∧ w.length = 209 ∧
    w.length = w'.length := by
  have h : (packKeyList toyCrypto exInputs exList none none false true).res = .ok exFile := exFile_packed
  have h' : (packKeyList toyCrypto exInputs exLongList (some (py! "a long passphrase")) none false true).res =
      .ok (((packKeyList toyCrypto exInputs exLongList (some (py! "a long passphrase")) none false true).res.toOption).getD []) := by
    decide +kernel
  have hn : Names exList (py! "aes256-ctr") (py! "bcrypt") := .inl ⟨_, rfl, by decide +kernel, by decide +kernel⟩
  have hn' : Names exLongList (py! "aes256-ctr") (py! "bcrypt") := .inl ⟨_, rfl, by decide +kernel, by decide +kernel⟩
  have ho : OptionSize exInputs exList true (py! "bcrypt") 11 :=
    .bcrypt (salt := [1, 2, 3]) (rounds := 16) (.inl ⟨_, rfl, rfl, by decide +kernel, by decide +kernel⟩)
  have ho' : OptionSize exInputs exLongList true (py! "bcrypt") 11 :=
    .bcrypt (salt := [1, 2, 3]) (rounds := 16) (.inl ⟨_, rfl, rfl, by decide +kernel, by decide +kernel⟩)
  refine ⟨_, _, h, h', by decide +kernel, ?_⟩
  exact C123_same toyCrypto_laws toyCrypto_laws exInputs exInputs exList exLongList none (some (py! "a long passphrase")) none none false false
    true true _ _ (py! "aes256-ctr") (py! "bcrypt") 11 16 0 96 exList.pairs exLongList.pairs
    [(packPublicBytes exEdPub).toOption.getD [], (packPublicBytes exPub).toOption.getD []]
    [(packPublicBytes exEdPub).toOption.getD [], (packPublicBytes exPub).toOption.getD []]
    [(packPrivateBytes exEd).toOption.getD [], (packPrivateBytes exRsaPriv).toOption.getD []]
    [(packPrivateBytes exLongComment).toOption.getD [], (packPrivateBytes exRsaPriv).toOption.getD []] hn hn' (by decide +kernel) ho ho' rfl rfl
    (.cons (by decide +kernel) (.cons (by decide +kernel) .nil)) (.cons (by decide +kernel) (.cons (by decide +kernel) .nil))
    (.cons (by decide +kernel) (.cons (by decide +kernel) .nil)) (.cons (by decide +kernel) (.cons (by decide +kernel) .nil)) rfl
    (by unfold IsRoundUp; decide +kernel) (by unfold IsRoundUp; decide +kernel) h h'
example : fileSize 10 6 11 [21, 22] 96 0 = 209 ∧ textSize 209 = 354 := by decide
example : (packListString toyCrypto exInputs exList none none false true).res.toOption.map List.length = some 354 := by decide +kernel

end OSK
