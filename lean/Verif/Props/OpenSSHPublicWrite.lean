import Verif.Props.OpenSSHPublic
import Verif.Props.OpenSSHWrite
/-
Property C96: OpenSSH reads the public keys, certificates and lines that the package writes.
-/
namespace OSK
open Spec

theorem cert_has : ∀ e ∈ keyTable, isCertType e.1 = true → ∀ n ∈ [py! "type", py! "valid_principals",
    py! "critical_options", py! "extensions", py! "signature_key"], n ∈ dkeys e.2.1 := by decide +kernel

/-- **C96** (keys).  If the public part of a key has no negative numbers, no zero character in its texts and sound key
material, then OpenSSH reads what the package packs of it as a key of the same type with the same values; if it is a
certificate, its fields must be such as OpenSSH asks for.  What is missing: the cases that are excluded (`C96_false`). -/
theorem C96_keys_partial {ext : Ext} (limits : Bytes → Prop) {k : Key} (hk : Constructed ext k) {w : Bytes}
    (h : packPublicBytes k = .ok w) {t : Str} (ht : dget k.header (py! "key_type") = some (.str t))
    (hneg : Unsigned k.params.data) (htext : ∀ n s, dget k.params.data n = some (.str s) → 0 ∉ s)
    (hm : ∀ m, ¬ MaterialFault ext .pub t k.params.data m)
    (au : Option SshAuthority) (hcert : if isCertType t = true then ∃ a, au = some a ∧ SshCert ext k.params.data a else au = none)
    (hlim : limits w) :
    ∃ fmt r, publicFields t = some fmt ∧ Texts fmt r (named fmt k.params.data) ∧ SshPublic ext limits w ⟨t, t, r, au⟩ := by
  obtain ⟨t', fmt, e1, e2, e3, -⟩ := C90_public ext k hk
  rw [ht] at e1
  cases e1
  obtain ⟨wt, wp, h1, h2, rfl⟩ := (e3 w).1 h
  have hsub : ∀ {n v}, dget (named fmt k.params.data) n = some v → dget k.params.data n = some v := by
    intro n v hv
    rw [dget_named] at hv
    split at hv
    · exact hv
    · cases hv
  obtain ⟨r, hr, hv⟩ := ssh_values_of (ext := ext) (kind := .pub) e2 e2 (stores_encodes h1) h2 (fun n i hi => hneg n i (hsub hi))
    (fun n s hs => htext n s (hsub hs)) (fun m hx => absurd hx (hm m))
  refine ⟨fmt, r, e2, hr, hlim, hv, ?_⟩
  show if isCertType t = true then _ else _
  split at hcert
  · rename_i hc
    rw [if_pos hc]
    obtain ⟨a, ha, hcert⟩ := hcert
    have hget : ∀ {n v}, n ∈ [py! "type", py! "valid_principals", py! "critical_options", py! "extensions", py! "signature_key"] →
        dget k.params.data n = some v → dget r n = some v := by
      intro n v hn hx
      rw [← texts_same e2 hr hn, dget_named, if_pos, hx]
      obtain ⟨g, hrow⟩ := public_row e2
      exact cert_has _ hrow hc n hn
    refine ⟨a, ha, ⟨hcert.type.imp (hget (by decide)) (hget (by decide)), ?_, ?_, ?_⟩⟩
    · obtain ⟨b, l, g1, g2⟩ := hcert.principals
      exact ⟨b, l, hget (by decide) g1, g2⟩
    · intro n hn
      obtain ⟨b, l, g1, g2⟩ := hcert.options n hn
      refine ⟨b, l, hget ?_ g1, g2⟩
      simp only [List.mem_cons, List.not_mem_nil, or_false] at hn ⊢
      tauto
    · obtain ⟨g0, b, g1, g2⟩ := hcert.authority
      exact ⟨g0, b, hget (by decide) g1, g2⟩
  · rename_i hc
    rw [if_neg hc]
    exact hcert

/-! ### The fields of a certificate -/

/-- **C96** (principals).  At most 256 principals without zero characters that are set with `set_valid_principals` are such as
OpenSSH asks for. -/
theorem C96_principals (d : VDict) (cs : List (List Char)) (hl : ∀ c ∈ cs, (utf8 c).length < 256 ^ 4) (hn : cs.length ≤ 256)
    (hz : ∀ c ∈ cs, 0 ∉ strOf c) :
    ∃ d' b l, setValidPrincipals d (cs.map (fun c => .str (strOf c))) = (.ok (), d') ∧
      dget d' (py! "valid_principals") = some (.bytes b) ∧ Records [(py! "principal", .pascal .bytes)] b l [] ∧
      l.length ≤ 256 ∧ ∀ r ∈ l, ∃ x s, r = [(py! "principal", .bytes x)] ∧ CText s x := by
  obtain ⟨w, d', h1, h2, h3, -⟩ := C47_principals_roundtrip d cs hl
  have key : ∀ {cs w}, PrincipalsWire cs w →
      Records [(py! "principal", .pascal .bytes)] w (cs.map (fun c => [(py! "principal", .bytes (utf8 c))])) [] := by
    intro cs w h
    induction h with
    | nil => exact .done
    | @cons p t x w hx _ ih =>
      have := Records.more (EncodesAll.cons (k := py! "principal") (Encodes.bytes hx) .nil) ih
      simpa using this
  refine ⟨d', w, _, h1, h2, key h3, by simpa using hn, ?_⟩
  intro r hr
  obtain ⟨c, hc, rfl⟩ := List.mem_map.1 hr
  exact ⟨_, _, rfl, utf8_zero (hz c hc), .inl rfl⟩

/-- **C96** (options).  After any option is set, the options are whole, as OpenSSH asks for. -/
theorem C96_options (d d' : VDict) (param : Str) (o : OptArg) (v : Val) (lg : List Event)
    (h : setOption d param o v = (⟨lg, .ok ()⟩, d')) :
    ∃ b l, dget d' param = some (.bytes b) ∧ Records [(py! "option", .pascal .bytes), (py! "value", .pascal .bytes)] b l [] := by
  obtain ⟨l, w, h1, h2, -⟩ := C46_sorted_unique d d' param o v lg h
  refine ⟨w, l.map (fun e => [(py! "option", .bytes (utf8 e.1)), (py! "value", .bytes e.2)]), h1, ?_⟩
  clear h h1
  induction h2 with
  | nil => exact .done
  | @cons n v t x y w hx hy _ ih =>
    have := Records.more (EncodesAll.cons (k := py! "option") (Encodes.bytes hx)
      (EncodesAll.cons (k := py! "value") (Encodes.bytes hy) .nil)) ih
    simpa using this

/-- **C96** (authority).  A key that is no certificate and meets the conditions of `C96_keys_partial` is an authority such as
OpenSSH asks for, if it is set with `set_signature_key`. -/
theorem C96_authority {ext : Ext} {k : Key} (hk : Constructed ext k) {t : Str} (ht : dget k.header (py! "key_type") = some (.str t))
    (hc : isCertType t = false) (hneg : Unsigned k.params.data) (htext : ∀ n s, dget k.params.data n = some (.str s) → 0 ∉ s)
    (hm : ∀ m, ¬ MaterialFault ext .pub t k.params.data m) (d d' : VDict) (h : setSignatureKey d k = (.ok (), d')) :
    ∃ a fmt r, dget d' (py! "signature_key") = some (.bytes a) ∧ publicFields t = some fmt ∧
      Texts fmt r (named fmt k.params.data) ∧ SshValues ext .pub t t r a := by
  unfold setSignatureKey at h
  split at h
  · cases h
  · rcases hb : packPublicBytes k with e | b
    · rw [hb] at h; cases h
    · rw [hb] at h
      simp only [Prod.mk.injEq, true_and] at h
      subst h
      obtain ⟨fmt, r, h1, h2, h3⟩ := C96_keys_partial (fun _ => True) hk hb ht hneg htext hm none (by rw [if_neg (by simp [hc])]) trivial
      exact ⟨b, fmt, r, dget_dset_self _ _ _, h1, h2, h3.values⟩

/-! ### Lines -/

theorem names_plain : ∀ e ∈ keyTable, ∀ c ∈ e.1, c ≠ 0 ∧ c ≠ 0x0a := by decide +kernel

theorem alphabet_plain : ∀ c ∈ base64Alphabet.map UInt8.toNat, c ∉ blanks ∧ c ≠ 0 ∧ c ≠ 0x0a ∧ c ∉ cSpaces := by decide +kernel

/-- **C96** (lines).  If the comments, as far as they are used, are text without line feeds and zero characters, then the line
that the package writes is one that OpenSSH reads as the bytes that the package packs, with the comments after it. -/
theorem C96_lines_partial {ext : Ext} {k : Key} (hk : Constructed ext k) {uf uc : Bool} {s : Str}
    (h : packPublicString ext k uf uc = .ok s) (hf : TextComment k.footer) (hcl : TextComment k.clear)
    (hcom : ∀ c ∈ (if uf then commentsIn k.footer else []) ++ (if uc then commentsIn k.clear else []), 0 ∉ c ∧ 0x0a ∉ c) :
    ∃ t b w tail, dget k.header (py! "key_type") = some (.str t) ∧ packPublicBytes k = .ok b ∧
      SshLine s t b [] t [0x20] w tail ∧
      (((if uf then commentsIn k.footer else []) ++ (if uc then commentsIn k.clear else []) = [] ∧ tail = []) ∨
       tail = ((if uf then commentsIn k.footer else []) ++ (if uc then commentsIn k.clear else [])).flatMap (fun c => 0x20 :: c) ++
         [0x0a]) := by
  obtain ⟨t, fmt, ht, hfm, -⟩ := C90_public ext k hk
  obtain ⟨b, hb, rfl⟩ := packPublicString_ok hf hcl ht h
  obtain ⟨g, hrow⟩ := public_row hfm
  generalize hcs : ((if uf then commentsIn k.footer else []) ++ (if uc then commentsIn k.clear else [])) = cs at *
  have e1 : (py! " " : Str) = [0x20] := by decide +kernel
  have e2 : (py! "\n" : Str) = [0x0a] := by decide +kernel
  have e3 : b64encodeStr b = base64Text b := by
    unfold b64encodeStr base64Text
    rw [b64encode_eq]
  rw [e1, e2, e3]
  have hbt : ∀ c ∈ base64Text b, c ∉ blanks ∧ c ≠ 0 ∧ c ≠ 0x0a ∧ c ∉ cSpaces := by
    intro c hc
    obtain ⟨y, hy, rfl⟩ := List.mem_map.1 hc
    exact alphabet_plain _ (List.mem_map_of_mem (f := UInt8.toNat) (base64_mem b y hy))
  have hkeep : (base64Text b).filter (fun c => decide (c ∉ cSpaces)) = base64Text b :=
    List.filter_eq_self.2 fun c hc => decide_eq_true (hbt c hc).2.2.2
  have hcomm : ∀ c ∈ cs.flatMap (fun c => [0x20] ++ c), c ≠ 0 ∧ c ≠ 0x0a := by
    intro c hc
    obtain ⟨l, hl, hc⟩ := List.mem_flatMap.1 hc
    rcases List.mem_append.1 hc with hc | hc
    · rw [List.mem_singleton.1 hc]; decide
    · exact ⟨fun e => (hcom l hl).1 (e ▸ hc), fun e => (hcom l hl).2 (e ▸ hc)⟩
  have hall : ∀ c ∈ t ++ [0x20] ++ base64Text b ++ cs.flatMap (fun c => [0x20] ++ c), c ≠ 0 ∧ c ≠ 0x0a := by
    intro c hc
    simp only [List.mem_append] at hc
    rcases hc with ((hc | hc) | hc) | hc
    · exact names_plain _ hrow c hc
    · rw [List.mem_singleton.1 hc]; decide
    · exact ⟨(hbt c hc).2.1, (hbt c hc).2.2.1⟩
    · exact hcomm c hc
  have hline : 0 ∉ t ++ [0x20] ++ base64Text b ++ cs.flatMap (fun c => [0x20] ++ c) ++ [0x0a] ∧
      0x0a ∉ (t ++ [0x20] ++ base64Text b ++ cs.flatMap (fun c => [0x20] ++ c) ++ [0x0a]).dropLast := by
    rw [List.dropLast_concat]
    refine ⟨fun h => ?_, fun h => (hall _ h).2 rfl⟩
    rcases List.mem_append.1 h with h | h
    · exact (hall _ h).1 rfl
    · simp at h
  have hsep : ([0x20] : Str) ≠ [] ∧ ∀ c ∈ ([0x20] : Str), c ∈ blanks := by decide
  cases cs with
  | nil =>
    refine ⟨t, b, base64Text b ++ [0x0a], [], ht, hb, ⟨by simp, by simp, .inl rfl, hsep, ⟨?_, ?_⟩, .inl rfl, hline⟩, .inl ⟨rfl, rfl⟩⟩
    · intro c hc
      rcases List.mem_append.1 hc with hc | hc
      · exact (hbt c hc).1
      · rw [List.mem_singleton.1 hc]; decide
    · rw [List.filter_append, hkeep]
      simp [cSpaces]
  | cons c0 cs =>
    refine ⟨t, b, base64Text b, _, ht, hb, ⟨?_, by simp, .inl rfl, hsep, ⟨fun c hc => (hbt c hc).1, hkeep⟩, .inr ?_, hline⟩, .inr rfl⟩
    · simp
    · exact ⟨0x20, c0 ++ (cs.flatMap (fun c => 0x20 :: c) ++ [0x0a]), by decide, by simp⟩

/-! ### Examples and counterexamples -/

theorem no_fault {ext : Ext} {t : Str} {d : VDict} (h1 : ∀ e ∈ curveTable, e.1 ≠ t) (h2 : t ∉ ed25519Table) (m : Warning) :
    ¬ MaterialFault ext .pub t d m := by
  intro h
  cases h with
  | curve h => exact h1 _ h rfl
  | point h => exact h1 _ h rfl
  | edLength h => exact h2 h
  | edMismatch h => cases h
  | edPrivate h => cases h

/-- The principals of the example. -/
def exSshPrincipals : Bytes := [0, 0, 0, 2, 109, 101] ++ ([0, 0, 0, 3, 121, 111, 117] ++ [])
/-- The extensions of the example; the same one is there twice. -/
def exSshOptions : Bytes := [0, 0, 0, 1, 97] ++ ([0, 0, 0, 0] ++ []) ++ ([0, 0, 0, 1, 97] ++ ([0, 0, 0, 1, 98] ++ []) ++ [])
/-- The values of an RSA certificate. -/
def exSshCertParams : VDict := dset (dset (exCertParams exRsaWire) (py! "valid_principals") (.bytes exSshPrincipals))
  (py! "extensions") (.bytes exSshOptions)
def exSshCertKey : Key := ⟨.pub, exCertHeader, ⟨.certRsa, exSshCertParams⟩, [], []⟩
def exSshCertWire : Bytes := (packPublicBytes exSshCertKey).toOption.getD []

theorem exSshCert_constructed : Constructed exExt exSshCertKey :=
  ⟨exCertHeader, exSshCertParams, [], none, by decide +kernel⟩

theorem exRsa_values : ∃ r, SshValues exExt .pub (py! "ssh-rsa") (py! "ssh-rsa") r exRsaWire := by
  have hc : Constructed exExt exRsaKey := ⟨exRsaHeader, exRsaParams, [], none, by decide +kernel⟩
  obtain ⟨fmt, r, -, -, h⟩ := C96_keys_partial (fun _ => True) hc (show packPublicBytes exRsaKey = .ok exRsaWire by decide +kernel)
    (t := py! "ssh-rsa") rfl
    (by
      intro n i h
      have := dget_mem h
      simp [exRsaKey, exRsaParams] at this
      omega)
    (by
      intro n s h
      have := dget_mem h
      simp [exRsaKey, exRsaParams] at this)
    (no_fault (by decide +kernel) (by decide +kernel)) none (by rw [if_neg (by decide +kernel)]) trivial
  exact ⟨r, h.values⟩

/-- The certificate's fields are such as OpenSSH asks for. -/
theorem exSshCert_fields : ∃ au, au.type = py! "ssh-rsa" ∧ au.name = py! "ssh-rsa" ∧ SshCert exExt exSshCertParams au := by
  obtain ⟨r, hr⟩ := exRsa_values
  have pre : ∀ (x : Bytes) (n : UInt8), digitSum [0, 0, 0, n] = x.length → Prefixed 4 x ([0, 0, 0, n] ++ x) :=
    fun x n hn => ⟨[0, 0, 0, n], rfl, hn, rfl⟩
  refine ⟨⟨_, _, r⟩, rfl, rfl, ⟨.inr (by decide +kernel), ⟨exSshPrincipals, _, by decide +kernel,
    .more (.cons (.bytes (pre (pb! "me") 2 (by decide +kernel))) .nil)
      (.more (.cons (.bytes (pre (pb! "you") 3 (by decide +kernel))) .nil) .done), by decide, ?_⟩, ?_, ?_⟩⟩
  · intro r hr
    simp only [List.mem_cons, List.not_mem_nil, or_false] at hr
    rcases hr with rfl | rfl
    · exact ⟨pb! "me", pb! "me", rfl, by decide, .inl rfl⟩
    · exact ⟨pb! "you", pb! "you", rfl, by decide, .inl rfl⟩
  · intro n hn
    simp only [List.mem_cons, List.not_mem_nil, or_false] at hn
    rcases hn with rfl | rfl
    · exact ⟨[], [], by decide +kernel, .done⟩
    · exact ⟨exSshOptions, _, by decide +kernel,
        .more (.cons (.bytes (pre (pb! "a") 1 (by decide +kernel))) (.cons (.bytes (pre [] 0 (by decide +kernel))) .nil))
          (.more (.cons (.bytes (pre (pb! "a") 1 (by decide +kernel))) (.cons (.bytes (pre (pb! "b") 1 (by decide +kernel))) .nil)) .done)⟩
  · exact ⟨(by decide +kernel : isCertType (py! "ssh-rsa") = false), exRsaWire, by decide +kernel, hr⟩

/-- OpenSSH reads the certificate (apart from its limits: the signature is not one). -/
theorem exSshCert_public : ∃ key, key.type = py! "ssh-rsa-cert-v01@openssh.com" ∧
    SshPublic exExt (fun _ => True) exSshCertWire key := by
  obtain ⟨au, -, -, h⟩ := exSshCert_fields
  obtain ⟨fmt, r, -, -, h⟩ := C96_keys_partial (fun _ => True) exSshCert_constructed
    (show packPublicBytes exSshCertKey = .ok exSshCertWire by decide +kernel)
    (t := py! "ssh-rsa-cert-v01@openssh.com") rfl
    (by
      intro n i h
      have := dget_mem h
      simp [exSshCertKey, exSshCertParams, exCertParams, dset] at this
      omega)
    (by
      intro n s h
      have := dget_mem h
      simp [exSshCertKey, exSshCertParams, exCertParams, dset] at this
      obtain ⟨-, rfl⟩ := this
      decide +kernel)
    (no_fault (by decide +kernel) (by decide +kernel)) (some au) (by rw [if_pos (by decide +kernel)]; exact ⟨au, rfl, h⟩) trivial
  exact ⟨_, rfl, h⟩

/-- The package reads it too, with a warning for the option that is there twice. -/
example : (fromBytes exExt .pub exSshCertWire none).log = [.warn (.duplicateOption (py! "a") (py! "extensions"))] := by decide +kernel
example : ∃ key, SshPublic exExt (fun _ => True) exSshCertWire key ∧ PublicPlain key := by
  obtain ⟨key, -, h⟩ := exSshCert_public
  refine ⟨key, h, (C95_keys_partial h none rfl).1.1 ⟨exSshCertKey, by decide +kernel⟩⟩

/-- Its line, with a comment. -/
example : ∃ w tail, SshLine (exRsaLine) (py! "ssh-rsa") exRsaWire [] (py! "ssh-rsa") [0x20] w tail := by
  have hc : Constructed exExt exRsaCommented := ⟨exRsaHeader, exRsaParams, [], some [(py! "comment", .str (py! "my key"))], by decide +kernel⟩
  obtain ⟨t, b, w, tail, h1, h2, h3, -⟩ := C96_lines_partial hc (show packPublicString exExt exRsaCommented true true = .ok exRsaLine by
    decide +kernel) (fun v h => by cases h) (fun v h => ⟨_, (Option.some.inj h).symm⟩) (by decide +kernel)
  have e1 : (some (.str (py! "ssh-rsa")) : Option Val) = some (.str t) := h1
  cases e1
  have e2 : packPublicBytes exRsaCommented = .ok exRsaWire := by decide +kernel
  rw [e2] at h2
  cases h2
  exact ⟨w, tail, h3⟩

/-- A key with a negative number. -/
def exNegative : Key := ⟨.pub, exRsaHeader, ⟨.rsaPub, [(py! "e", .int (-1)), (py! "n", .int 3233)]⟩, [], []⟩
def exNegativeWire : Bytes := (packPublicBytes exNegative).toOption.getD []

/-- **C96** is false: a key with a negative number is packed, but OpenSSH does not read it; and a line with a line feed in its
comment is no line that OpenSSH reads. -/
theorem C96_false : (∃ k w, Constructed exExt k ∧ packPublicBytes k = .ok w ∧ ∀ limits key, ¬ SshPublic exExt limits w key) ∧
    ∃ k s, Constructed exExt k ∧ packPublicString exExt k true true = .ok s ∧ ∀ t b lead a sep w tail, ¬ SshLine s t b lead a sep w tail := by
  refine ⟨⟨exNegative, exNegativeWire, ⟨exRsaHeader, [(py! "e", .int (-1)), (py! "n", .int 3233)], [], none, by decide +kernel⟩,
    by decide +kernel, fun limits key h => ?_⟩,
    ⟨⟨.pub, exRsaHeader, ⟨.rsaPub, exRsaParams⟩, [], [(py! "comment", .str (py! "a\nb"))]⟩,
      py! "ssh-rsa AAAAB3NzaC1yc2EAAAABEQAAAAIMoQ== a\nb\n",
      ⟨exRsaHeader, exRsaParams, [], some [(py! "comment", .str (py! "a\nb"))], by decide +kernel⟩, by decide +kernel, ?_⟩⟩
  · have hr : (fromBytes exExt .pub exNegativeWire none).res = .ok exNegative := by decide +kernel
    obtain ⟨t, p, f, rest, h1, h2, -, -, -, e, -⟩ := (C74_accepts exExt .pub exNegativeWire none exNegative).1 hr
    obtain ⟨-, rfl, -, -, fmt, hf, ht⟩ := ssh_keyOf h.values h1
    have hp : dget p (py! "e") = some (.int (-1)) := by rw [← e]; rfl
    rcases texts_get ht (py! "e") with ⟨-, a⟩ | ⟨cs, -, -, a⟩ | ⟨fi, v, -, -, a, b⟩
    · rw [hp] at a; cases a
    · rw [hp] at a; cases a
    · rw [hp] at b
      cases b
      exact absurd (h.values.unsigned _ _ a) (by decide)
  · intro t b lead a sep w tail h
    exact h.line.2 (by decide +kernel)

end OSK
