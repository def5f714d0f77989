import Verif.Props.Cert
import Verif.Lemmas.ListSucceed
import Verif.Lemmas.Grammar
/-
How deep certificates may be nested (C92).
-/
namespace OSK
open Spec

/-- The bytes `b` are read as a key whose authority field holds `x`, with readable principals and options, so that `x`
is looked at. -/
def Spec.LooksInto (b x : Bytes) : Prop :=
  ∃ h p f s, readKey .pub (Stream.of b) = (.ok (h, p, f), s) ∧ dget p (py! "signature_key") = some (.bytes x) ∧
    getValidPrincipals p ≠ .error .unicodeDecodeError ∧
    (getOptionValues p (py! "critical_options")).res ≠ .error .unicodeDecodeError ∧
    (getOptionValues p (py! "extensions")).res ≠ .error .unicodeDecodeError

/-- At least `n` authorities are looked at, each inside the one before. -/
inductive Spec.NestedChain : Bytes → Nat → Prop
  | here (b : Bytes) : NestedChain b 0
  | nested {b x : Bytes} {n : Nat} : LooksInto b x → NestedChain x n → NestedChain b (n + 1)

/-! ### The checks before the authority -/

theorem eofWarns_bad {α : Type} {x : Eff α} (w : Warning) (h : x.res = .error .unicodeDecodeError) :
    (eofWarns x w).res = .error .unicodeDecodeError := by
  unfold eofWarns Eff.tryCatch
  rw [Eff.bind_error h]
  simp [Exn.isEOFError]

theorem principals_bytes {d : VDict} (h : getValidPrincipals d = .error .unicodeDecodeError) :
    (bytesOf? d (py! "valid_principals")).isSome = true := by
  unfold getValidPrincipals getItem at h
  unfold bytesOf?
  rcases hv : dget d (py! "valid_principals") with _ | v
  · rw [hv] at h; cases h
  · rw [hv] at h
    cases v <;> first | rfl | cases h

theorem options_bytes {d : VDict} {param : Str} (h : (getOptionValues d param).res = .error .unicodeDecodeError) :
    (bytesOf? d param).isSome = true := by
  unfold getOptionValues getItem at h
  unfold bytesOf?
  rcases hv : dget d param with _ | v
  · rw [hv] at h; cases h
  · rw [hv] at h
    cases v <;> first | rfl | cases h

theorem before_bad {ext : Ext} {ca : Bytes → Eff Key} {c : Cls} {d : VDict} {pre : List Cls} {e : Exn}
    (h : BadText d e) : (certBefore ext ca c d pre).res ≠ .ok () := by
  intro hok
  unfold certBefore at hok
  obtain ⟨⟨⟩, -, hok⟩ := Eff.bind_res_ok_iff.1 hok
  obtain ⟨⟨⟩, -, hok⟩ := Eff.bind_res_ok_iff.1 hok
  obtain ⟨⟨⟩, h1, hok⟩ := Eff.bind_res_ok_iff.1 hok
  obtain ⟨⟨⟩, h2, h3⟩ := Eff.bind_res_ok_iff.1 hok
  obtain ⟨rfl, h | h | h⟩ := h
  · unfold certPrincipalsCheck at h1
    rw [if_pos (principals_bytes h), eofWarns_bad _ (by rw [h]; rfl)] at h1
    cases h1
  · unfold certOptionsCheck at h2
    rw [if_pos (options_bytes h), eofWarns_bad _ h] at h2
    cases h2
  · unfold certOptionsCheck at h3
    rw [if_pos (options_bytes h), eofWarns_bad _ h] at h3
    cases h3

theorem before_ca (ext : Ext) (ca ca' : Bytes → Eff Key) (c : Cls) (d : VDict) {pre : List Cls} (h : Cls.certPub ∉ pre) :
    certBefore ext ca c d pre = certBefore ext ca' c d pre := by
  unfold certBefore
  rw [runChecks_congr (g := localCheck ext ca' c d)]
  intro D hD
  cases D <;> first | rfl | exact absurd hD h

theorem checks_cert (ext : Ext) (ca : Bytes → Eff Key) {c : Cls} (d : VDict) {pre : List Cls}
    (h : checkPlan c = pre ++ [.certPub]) :
    runChecks (localCheck ext ca c d) (checkPlan c) = (do certBefore ext ca c d pre; certCaCheck ca d) := by
  rw [h, runChecks_append]
  have e : ∀ x : Eff Unit, (do x; pure ()) = x := by
    rintro ⟨l, e | ⟨⟨⟩⟩⟩
    · exact Eff.bind_error rfl _
    · rw [Eff.bind_ok (a := ()) rfl]; simp
  simp only [certBefore, runChecks, localCheck, certLocalCheck, Eff.bind_assoc, e]

theorem authority_cert {t : Str} {c : Cls} (hc : paramsClass .pub (.str t) = .ok c)
    (h : py! "signature_key" ∈ dkeys (formatOf c)) : isCertType t = true := by
  have key : ∀ e ∈ keyTypeMapping, py! "signature_key" ∈ dkeys (formatOf e.2.1) → isCertType e.1 = true := by
    decide +kernel
  simp only [paramsClass, getPublicClass] at hc
  split at hc
  · simp at hc
  · rename_i r hr
    obtain ⟨s, hs, hm⟩ := lookupType_mem hr
    simp at hs hc; subst hs; subst hc
    exact key _ hm h

theorem caCheck_recursion {ca : Bytes → Eff Key} {d : VDict} {x : Bytes}
    (hx : dget d (py! "signature_key") = some (.bytes x)) (h : (ca x).res = .error .recursionError) :
    (certCaCheck ca d).res = .error .recursionError := by
  have hg : getSignatureKeyWith ca d = ⟨(ca x).log, .error .recursionError⟩ := by
    unfold getSignatureKeyWith getItem
    simp only [hx, asBuffer, Eff.lift_ok_bind]
    rw [Eff.bind_error h]
  unfold certCaCheck
  rw [if_pos (by simp [bytesOf?, hx]), hg]
  rfl

/-! ### Parsing with a limit -/

theorem opens_fun {b x : Bytes} {h p f : VDict} {n : Nat} (hr : prs (readKey .pub) b = (.ok (h, p, f), n))
    (ho : LooksInto b x) : dget p (py! "signature_key") = some (.bytes x) ∧ ∀ e, ¬ BadText p e := by
  obtain ⟨h', p', f', s, h1, h2, h3, h4, h5⟩ := ho
  rw [readKey_streamOf, hr] at h1
  simp only [Prod.mk.injEq, Except.ok.injEq] at h1
  obtain ⟨⟨rfl, rfl, rfl⟩, -⟩ := h1
  refine ⟨h2, ?_⟩
  rintro e ⟨rfl, h | h | h⟩
  · exact h3 h
  · exact h4 h
  · exact h5 h

theorem limited_cases (ext : Ext) (n : Nat) : ∀ b,
    (NestedChain b n ∧ (pubFromBytesFuel ext n b).res = .error .recursionError) ∨
    (¬ NestedChain b n ∧ pubFromBytesFuel ext n b = fromBytes ext .pub b none) := by
  induction n with
  | zero => exact fun b => .inl ⟨.here b, rfl⟩
  | succ n ih =>
    intro b
    rw [pubFromBytesFuel, fromBytes, fromBytesWith_eq, fromBytesWith_eq]
    rcases hr : prs (readKey .pub) b with ⟨e | ⟨h, p, f⟩, m⟩
    · refine .inr ⟨?_, rfl⟩
      rintro (_ | ⟨ho, -⟩)
      obtain ⟨h', p', f', s, h1, -⟩ := ho
      rw [readKey_streamOf, hr] at h1
      simp at h1
    · simp only
      by_cases hx : ∃ x, dget p (py! "signature_key") = some (.bytes x)
      · obtain ⟨x, hx⟩ := hx
        rcases ih x with ⟨hc, hres⟩ | ⟨hc, heq⟩
        · obtain ⟨t, c, n1, n2, n3, rfl, hcl, -, hrd, -, rfl⟩ := prs_readKey_ok hr
          have hmem : py! "signature_key" ∈ dkeys (formatOf c) := by
            rw [← readDict_dkeys hrd]
            exact (dget_isSome_iff).1 (by rw [hx]; rfl)
          obtain ⟨pre, hplan, hpre⟩ := certPlan_eq hcl (authority_cert hcl hmem)
          rw [mkKeyWith_eq (t := t) (c := c) (by simp) hcl, mkKeyWith_eq (t := t) (c := c) (by simp) hcl,
            checks_cert ext _ p hplan, checks_cert ext _ p hplan, before_ca ext _ (caFromBytes ext) c p hpre]
          rcases hB : (certBefore ext (caFromBytes ext) c p pre).res with e | ⟨⟨⟩⟩
          · have hbad := (certBefore_within (ext := ext) (ca := caFromBytes ext) (d := p) (plain_class hcl) hpre).exn e hB
            refine .inr ⟨?_, ?_⟩
            · rintro (_ | ⟨ho, -⟩)
              exact (opens_fun hr ho).2 e hbad
            · simp only [Eff.bind_assoc]
              rw [Eff.bind_error hB, Eff.bind_error hB]
          · refine .inl ⟨.nested ⟨_, p, f, _, by rw [readKey_streamOf, hr], hx, ?_, ?_, ?_⟩ hc, ?_⟩
            · exact fun h => before_bad ⟨rfl, .inl h⟩ hB
            · exact fun h => before_bad ⟨rfl, .inr (.inl h)⟩ hB
            · exact fun h => before_bad ⟨rfl, .inr (.inr h)⟩ hB
            · simp only [Eff.bind_assoc]
              rw [Eff.bind_res_of_ok hB, Eff.bind_res_error_iff]
              exact .inl (caCheck_recursion hx hres)
        · refine .inr ⟨?_, ?_⟩
          · rintro (_ | ⟨ho, hc'⟩)
            have := (opens_fun hr ho).1
            rw [hx] at this
            cases this
            exact hc hc'
          · rw [mkKeyWith_congr (ca' := caFromBytes ext)]
            intro y hy
            rw [hx] at hy
            cases hy
            rw [heq, caFromBytes_eq]
      · refine .inr ⟨?_, ?_⟩
        · rintro (_ | ⟨ho, -⟩)
          exact hx ⟨_, (opens_fun hr ho).1⟩
        · rw [mkKeyWith_congr (ca' := caFromBytes ext)]
          exact fun y hy => absurd ⟨y, hy⟩ hx

/-! ### Sizes -/

/-- The fewest bytes that a field takes. -/
def FI.least : FI → Nat
  | .pascal _ => 4
  | .struct ⟨_, [.int n _]⟩ => n
  | _ => 0

def least (fmt : FDict) : Nat := (fmt.map (fun kf => kf.2.least)).sum

theorem least_field {fi : FI} (hp : fi.plain = true) {r : Bytes} {v : Val} {n : Nat}
    (h : prs (readFI fi) r = (.ok v, n)) : fi.least ≤ n ∧ ∀ x, v = .bytes x → fi.least + x.length ≤ n := by
  rcases FI.plain_cases hp with ⟨p, rfl⟩ | ⟨big, sz, sg, rfl, h0, h8⟩
  · obtain ⟨b, hb, -, hn, -⟩ := prs_readPascal_ok h
    simp only [defaultLengthSize] at hn
    refine ⟨by simp only [FI.least]; omega, ?_⟩
    rintro x rfl
    cases p <;> simp [decodePrim] at hb
    · subst hb; simp only [FI.least]; omega
    · unfold bytesDecode at hb
      split at hb <;> simp [Except.map] at hb
  · simp only [readFI] at h
    obtain ⟨b, n', m, h4, h5, rfl⟩ := prs_bind_ok (fun _ => Reader.pure _) (Reader.readFixed _) h
    obtain ⟨h6, -, h7, h8⟩ := prs_readFixed_ok h4
    rw [prs_pure] at h5
    simp only [Prod.mk.injEq] at h5
    refine ⟨?_, ?_⟩
    · simp [FI.least, SFmt.calcsize, SCode.size] at *
      omega
    · rintro x rfl
      simp [SFmt.unpack, unpackItems, SCode.unpack, structResult] at h5

theorem least_fields {fmt : FDict} (hp : plainFmt fmt = true) {r : Bytes} {d : VDict} {N : Nat}
    (h : prs (readDict fmt) r = (.ok d, N)) :
    least fmt ≤ N ∧ ∀ k x, dget d k = some (.bytes x) → least fmt + x.length ≤ N := by
  induction fmt generalizing r d N with
  | nil =>
    simp [readDict, prs_pure] at h
    obtain ⟨rfl, rfl⟩ := h
    simp [least]
  | cons kf t ih =>
    obtain ⟨k', fi⟩ := kf
    obtain ⟨h1, h2, h3⟩ := plainFmt_cons hp
    obtain ⟨v, vs, n1, n2, rfl, hr, ht, rfl⟩ := readDict_cons_ok h
    obtain ⟨a1, a2⟩ := least_field h1 hr
    obtain ⟨b1, b2⟩ := ih h3 ht
    have e : least ((k', fi) :: t) = fi.least + least t := by simp [least]
    rw [e]
    refine ⟨by omega, ?_⟩
    intro k x hx
    rw [dget_cons] at hx
    split at hx
    · simp at hx
      have := a2 x hx
      omega
    · have := b2 k x hx
      omega

theorem strOf_length (cs : List Char) : (strOf cs).length ≤ (utf8 cs).length := by
  induction cs with
  | nil => simp [strOf, utf8]
  | cons c t ih =>
    have := Char.utf8Size_pos c
    simp [strOf, utf8, String.length_utf8EncodeChar] at ih ⊢
    omega

theorem header_length {t : Str} {r : Bytes} {n : Nat}
    (h : prs (readDict (headerFmt .pub)) r = (.ok [(py! "key_type", .str t)], n)) : 4 + t.length ≤ n := by
  have hf : headerFmt .pub = [(py! "key_type", .pascal .string)] := rfl
  rw [hf] at h
  obtain ⟨v, vs, n1, n2, e, h1, h2, rfl⟩ := readDict_cons_ok h
  obtain ⟨b, hb, -, hn, -⟩ := prs_readPascal_ok h1
  simp at e
  obtain ⟨rfl, rfl⟩ := e
  simp only [defaultLengthSize] at hn
  by_cases hcs : ∃ cs, b = utf8 cs
  · obtain ⟨cs, rfl⟩ := hcs
    simp [decodePrim, bytesDecode, utf8Decode?_utf8, Except.map] at hb
    have := strOf_length cs
    rw [hb] at this
    omega
  · simp only [decodePrim, bytesDecode_not (fun cs h => hcs ⟨cs, h⟩), Except.map] at hb
    cases hb

/-- Every level of nesting takes at least 100 bytes. -/
theorem authority_size {b x : Bytes} (h : IsAuthority b x) : x.length + 100 ≤ b.length := by
  obtain ⟨hd, p, f, s, hr, hx⟩ := h
  rw [readKey_streamOf] at hr
  rcases hp : prs (readKey .pub) b with ⟨r, n⟩
  have hb := (Reader.readKey .pub).bound b
  rw [hp] at hr hb
  simp at hr
  obtain ⟨rfl, -⟩ := hr
  obtain ⟨t, c, n1, n2, n3, rfl, hcl, h1, hrd, -, rfl⟩ := prs_readKey_ok hp
  have hmem : py! "signature_key" ∈ dkeys (formatOf c) := by
    rw [← readDict_dkeys hrd]
    exact (dget_isSome_iff).1 (by rw [hx]; rfl)
  have key : ∀ e ∈ keyTypeMapping, py! "signature_key" ∈ dkeys (formatOf e.2.1) → 100 ≤ 4 + e.1.length + least (formatOf e.2.1) := by
    decide +kernel
  have h2 := (least_fields (plain_class hcl) hrd).2 _ _ hx
  have h3 := header_length h1
  have : 100 ≤ 4 + t.length + least (formatOf c) := by
    simp only [paramsClass, getPublicClass] at hcl
    split at hcl
    · simp at hcl
    · rename_i r hr
      obtain ⟨s, hs, hm⟩ := lookupType_mem hr
      simp at hs hcl; subst hs; subst hcl
      exact key _ hm hmem
  simp at hb
  omega

theorem chain_size {b : Bytes} {n : Nat} (h : NestedChain b n) : 100 * n ≤ b.length := by
  induction h with
  | here b => omega
  | nested ho _ ih =>
    obtain ⟨h, p, f, s, h1, h2, -⟩ := ho
    have := authority_size ⟨h, p, f, s, h1, h2⟩
    omega

/-! ### Nested certificates -/

/-- An empty certificate for an Ed25519 key, with this authority. -/
def nestParams (x : Bytes) : VDict :=
  [(py! "nonce", .bytes []), (py! "public", .bytes []), (py! "serial", .int 0), (py! "type", .int 1),
   (py! "key_id", .str []), (py! "valid_principals", .bytes []), (py! "valid_after", .int 0), (py! "valid_before", .int 0),
   (py! "critical_options", .bytes []), (py! "extensions", .bytes []), (py! "reserved", .bytes []),
   (py! "signature_key", .bytes x), (py! "signature", .bytes [])]

/-- Nested empty certificates. -/
def nest : Nat → Bytes
  | 0 => []
  | n + 1 => [0, 0, 0, 32] ++ pb! "ssh-ed25519-cert-v01@openssh.com" ++ List.replicate 19 0 ++ [1] ++ List.replicate 36 0 ++
      natToBE 4 (100 * n) ++ nest n ++ [0, 0, 0, 0]

theorem nest_length (n : Nat) : (nest n).length = 100 * n := by
  induction n with
  | zero => rfl
  | succ n ih =>
    simp only [nest, List.length_append, ih, natToBE_length, List.length_replicate]
    have : (pb! "ssh-ed25519-cert-v01@openssh.com").length = 32 := by decide
    simp only [this, List.length_cons, List.length_nil]
    omega

theorem nest_packed {x : Bytes} (h : x.length < 2 ^ 32) :
    packDict (formatOf .certEd25519) (nestParams x) = .ok (List.replicate 19 0 ++ [1] ++ List.replicate 36 0 ++
      natToBE 4 x.length ++ x ++ [0, 0, 0, 0]) := by
  have hx : packFI (.pascal .bytes) (.bytes x) = .ok (natToBE 4 x.length ++ x) :=
    packFI_bytes_iff.2 ⟨x, rfl, prefixed_iff.2 ⟨h, rfl⟩⟩
  have hf : formatOf .certEd25519 = [(py! "nonce", .pascal .bytes), (py! "public", .pascal .bytes),
      (py! "serial", .struct fmtBEQ), (py! "type", .struct fmtBEI), (py! "key_id", .pascal .string),
      (py! "valid_principals", .pascal .bytes), (py! "valid_after", .struct fmtBEQ),
      (py! "valid_before", .struct fmtBEQ), (py! "critical_options", .pascal .bytes),
      (py! "extensions", .pascal .bytes), (py! "reserved", .pascal .bytes),
      (py! "signature_key", .pascal .bytes), (py! "signature", .pascal .bytes)] := by decide +kernel
  rw [hf]
  have e0 : ∀ {k t} {d : VDict} {w}, dget d k = some (.bytes []) → packDict t d = .ok w →
      packDict ((k, .pascal .bytes) :: t) d = .ok ([0, 0, 0, 0] ++ w) := fun h1 h2 =>
    packDict_cons_ok_iff.2 ⟨_, _, _, h1, by decide +kernel, h2, rfl⟩
  have e8 : ∀ {k t} {d : VDict} {w}, dget d k = some (.int 0) → packDict t d = .ok w →
      packDict ((k, .struct fmtBEQ) :: t) d = .ok ([0, 0, 0, 0, 0, 0, 0, 0] ++ w) := fun h1 h2 =>
    packDict_cons_ok_iff.2 ⟨_, _, _, h1, by decide +kernel, h2, rfl⟩
  have step := e0 (k := py! "nonce") (d := nestParams x) rfl (e0 (k := py! "public") rfl (e8 (k := py! "serial") rfl
    (packDict_cons_ok_iff.2 ⟨.int 1, [0, 0, 0, 1], _, (rfl : dget (nestParams x) (py! "type") = _), (by decide +kernel : packFI (.struct fmtBEI) (.int 1) = _),
      packDict_cons_ok_iff.2 ⟨.str [], [0, 0, 0, 0], _, (rfl : dget (nestParams x) (py! "key_id") = _),
        (by decide +kernel : packFI (.pascal .string) (.str []) = _),
      e0 (k := py! "valid_principals") rfl (e8 (k := py! "valid_after") rfl (e8 (k := py! "valid_before") rfl
        (e0 (k := py! "critical_options") rfl (e0 (k := py! "extensions") rfl (e0 (k := py! "reserved") rfl
        (packDict_cons_ok_iff.2 ⟨.bytes x, _, _, (rfl : dget (nestParams x) (py! "signature_key") = _), hx,
          e0 (k := py! "signature") (t := []) rfl rfl, rfl⟩)))))), rfl⟩, rfl⟩)))
  rw [step]
  simp [List.replicate]

theorem nest_read {n : Nat} (h : 100 * n < 2 ^ 32) : prs (readKey .pub) (nest (n + 1)) =
    (.ok ([(py! "key_type", .str (py! "ssh-ed25519-cert-v01@openssh.com"))], nestParams (nest n), []), 100 * (n + 1)) := by
  have hl := nest_length n
  have h1 : packDict (headerFmt .pub) [(py! "key_type", .str (py! "ssh-ed25519-cert-v01@openssh.com"))] =
      .ok ([0, 0, 0, 32] ++ pb! "ssh-ed25519-cert-v01@openssh.com") := by decide +kernel
  have := prs_readKey_packed (kind := .pub) (t := py! "ssh-ed25519-cert-v01@openssh.com") (c := .certEd25519) (f := []) (w3 := []) (by decide +kernel) (by simp) h1
    (nest_packed (x := nest n) (by omega)) rfl []
  have e : nest (n + 1) = ([0, 0, 0, 32] ++ pb! "ssh-ed25519-cert-v01@openssh.com") ++ (List.replicate 19 0 ++ [1] ++ List.replicate 36 0 ++
      natToBE 4 (nest n).length ++ nest n ++ [0, 0, 0, 0]) ++ [] ++ [] := by
    rw [hl]
    simp only [nest, List.append_assoc, List.append_nil]
  have hlen := nest_length (n + 1)
  rw [e] at hlen
  rw [e, this]
  rw [List.append_nil] at hlen
  rw [hlen]
  have hf : named (formatOf .certEd25519) (nestParams (nest n)) = nestParams (nest n) := by
    generalize nest n = x
    rfl
  rw [hf]
  rfl

theorem nest_opens {n : Nat} (h : 100 * n < 2 ^ 32) : LooksInto (nest (n + 1)) (nest n) := by
  refine ⟨_, nestParams (nest n), _, _, by rw [readKey_streamOf, nest_read h], rfl, ?_, ?_, ?_⟩ <;>
  · generalize nest n = x
    intro h
    cases h

theorem nest_chain {n : Nat} (h : 100 * n < 2 ^ 32) : NestedChain (nest n) n := by
  induction n with
  | zero => exact .here _
  | succ n ih => exact .nested (nest_opens (by omega)) (ih (by omega))

theorem nest_parses (ext : Ext) {n : Nat} (h : 100 * n < 2 ^ 32) (hn : 0 < n) :
    ∃ k, (fromBytes ext .pub (nest n) none).res = .ok k := by
  induction n with
  | zero => omega
  | succ n ih =>
    have hcl : paramsClass .pub (.str (py! "ssh-ed25519-cert-v01@openssh.com")) = .ok .certEd25519 := by decide +kernel
    have hp := C53_authority_partial ext _ _ hcl (by decide +kernel) (nestParams (nest n)) (nest n) rfl
    have hb : ∀ e, ¬ BadText (nestParams (nest n)) e := by
      have := nest_opens (n := n) (by omega)
      exact (opens_fun (nest_read (by omega)) this).2
    have hin : ∀ e, (fromBytes ext .pub (nest n) none).res = .error e → ∀ k, e ≠ .keyError k := by
      intro e he k hk
      rcases Nat.eq_zero_or_pos n with rfl | hpos
      · have h0 : (match (prs (readKey .pub) []).1 with | .error (.eofError _ _) => true | _ => false) = true := by
          decide +kernel
        rw [fromBytes, fromBytesWith_eq, nest] at he
        rcases hr : prs (readKey .pub) [] with ⟨e' | r, m⟩
        · rw [hr] at h0 he
          cases e' <;> simp at h0
          cases he
          cases hk
        · rw [hr] at h0
          cases h0
      · obtain ⟨k', hk'⟩ := ih (by omega) hpos
        rw [hk'] at he
        cases he
    have hok : ∃ prm, (newParams ext .certEd25519 (nestParams (nest n))).res = .ok prm := by
      rcases hr : (newParams ext .certEd25519 (nestParams (nest n))).res with e | prm
      · rcases hp.1 e hr with ⟨k, rfl, h⟩ | h
        · exact absurd rfl (hin _ h k)
        · exact absurd h (hb e)
      · exact ⟨prm, rfl⟩
    obtain ⟨prm, hprm⟩ := hok
    rw [fromBytes, fromBytesWith_eq, nest_read (by omega)]
    simp only [← nest_length (n + 1), List.drop_length, List.length_nil, Nat.lt_irrefl, if_false]
    rw [mkKeyWith_eq (by simp) hcl]
    unfold newParams newParamsWith at hprm
    obtain ⟨⟨⟩, h1, -⟩ := Eff.bind_res_ok_iff.1 hprm
    simp only [Eff.bind_assoc]
    rw [Eff.bind_res_of_ok h1]
    exact ⟨_, rfl⟩

/-! ### C92 -/

/-- **C92** (the part that holds). When keys may be parsed `n` levels deep, the outermost being the first, the
outcome is that of parsing without a limit, unless more levels than that are looked at, and then it is `RecursionError`.  Each level takes 100
bytes, so a key of fewer than `100 n` bytes never meets the limit.

Full statement: nesting never makes parsing fail.  `C92_false` shows that it does. -/
theorem C92_limit_partial (ext : Ext) (n : Nat) (b : Bytes) :
    ((pubFromBytesFuel ext n b).res = .error .recursionError ↔ NestedChain b n) ∧
    (¬ NestedChain b n → pubFromBytesFuel ext n b = fromBytes ext .pub b none) ∧
    (NestedChain b n → 100 * n ≤ b.length) := by
  refine ⟨⟨fun h => ?_, fun h => ?_⟩, fun h => ?_, chain_size⟩
  · rcases limited_cases ext n b with ⟨hc, -⟩ | ⟨-, he⟩
    · exact hc
    · rw [he] at h
      exact absurd h ((C52_nesting_bounded ext b).2.2.2 .pub none)
  · rcases limited_cases ext n b with ⟨-, he⟩ | ⟨hc, -⟩
    · exact he
    · exact absurd h hc
  · rcases limited_cases ext n b with ⟨hc, -⟩ | ⟨-, he⟩
    · exact absurd hc h
    · exact he

/-- **C92** is false in full: whatever the limit, some key of 100 bytes per level makes parsing fail with
`RecursionError`, although there is nothing in it that makes parsing without a limit fail. -/
theorem C92_false (ext : Ext) (n : Nat) (hn : 0 < n) (hn' : 100 * n < 2 ^ 32) :
    ∃ b, b.length = 100 * n ∧ (pubFromBytesFuel ext n b).res = .error .recursionError ∧
      ∃ k, (fromBytes ext .pub b none).res = .ok k :=
  ⟨nest n, nest_length n, (C92_limit_partial ext n (nest n)).1.2 (nest_chain hn'), nest_parses ext hn' hn⟩

/-- The example of nested certificates is parsed with a limit of 3 levels and not with one of 2. -/
example : ((pubFromBytesFuel exExt 3 (exCertWire (exCertWire exRsaWire))).res.toOption.isSome,
    (pubFromBytesFuel exExt 2 (exCertWire (exCertWire exRsaWire))).res.toOption.isSome) = (true, false) := by decide +kernel

end OSK
