import Verif.Lemmas.FileUnique
import Verif.Props.Cert
import Verif.Props.ListPack
import Verif.Spec.Options
/-
Option names and their order, what signed and packed bytes determine, equality of keys (C46, C77-C80).
-/
namespace OSK
open Spec

/-! ### C46: order of the encoded names -/

/-- Encoded code points compare as the code points do, whatever follows. -/
theorem encodeCp_lt {a b : Nat} {x y : Bytes} (hx : utf8EncodeCp a = some x) (hy : utf8EncodeCp b = some y)
    (h : a < b) (r r' : Bytes) : x ++ r < y ++ r' := by
  unfold utf8EncodeCp at hx hy
  have u : ∀ m n : Nat, (UInt8.ofNat m < UInt8.ofNat n) ↔ m % 256 < n % 256 := by
    intro m n
    rw [UInt8.lt_iff_toNat_lt, UInt8.toNat_ofNat', UInt8.toNat_ofNat']
  have v : ∀ m n : Nat, (UInt8.ofNat m = UInt8.ofNat n) ↔ m % 256 = n % 256 := by
    intro m n
    rw [← UInt8.toNat_inj, UInt8.toNat_ofNat', UInt8.toNat_ofNat']
  split at hx
  · split at hy
    · cases hx; cases hy
      simp only [List.cons_append, List.cons_lt_cons_iff, u, v]; omega
    · split at hy
      · cases hx; cases hy
        simp only [List.cons_append, List.cons_lt_cons_iff, u, v]; omega
      · split at hy
        · cases hy
        · split at hy
          · cases hx; cases hy
            simp only [List.cons_append, List.cons_lt_cons_iff, u, v]; omega
          · split at hy
            · cases hx; cases hy
              simp only [List.cons_append, List.cons_lt_cons_iff, u, v]; omega
            · cases hy
  · split at hx
    · split at hy
      · omega
      · split at hy
        · cases hx; cases hy
          simp only [List.cons_append, List.cons_lt_cons_iff, u, v]; omega
        · split at hy
          · cases hy
          · split at hy
            · cases hx; cases hy
              simp only [List.cons_append, List.cons_lt_cons_iff, u, v]; omega
            · split at hy
              · cases hx; cases hy
                simp only [List.cons_append, List.cons_lt_cons_iff, u, v]; omega
              · cases hy
    · split at hx
      · cases hx
      · split at hx
        · split at hy
          · omega
          · split at hy
            · omega
            · split at hy
              · cases hy
              · split at hy
                · cases hx; cases hy
                  simp only [List.cons_append, List.cons_lt_cons_iff, u, v]; omega
                · split at hy
                  · cases hx; cases hy
                    simp only [List.cons_append, List.cons_lt_cons_iff, u, v]; omega
                  · cases hy
        · split at hx
          · split at hy
            · omega
            · split at hy
              · omega
              · split at hy
                · cases hy
                · split at hy
                  · omega
                  · split at hy
                    · cases hx; cases hy
                      simp only [List.cons_append, List.cons_lt_cons_iff, u, v]
                      have m : ∀ n, n < 0x110000 → (240 + n / 262144) % 256 = 240 + n / 262144 ∧
                          (128 + n / 4096 % 64) % 256 = 128 + n / 4096 % 64 ∧
                          (128 + n / 64 % 64) % 256 = 128 + n / 64 % 64 ∧ (128 + n % 64) % 256 = 128 + n % 64 ∧
                          n / 262144 = n / 64 / 64 / 64 ∧ n / 4096 = n / 64 / 64 := by
                        intro n hn
                        omega
                      obtain ⟨m1, m2, m3, m4, m5, m6⟩ := m a (by omega)
                      obtain ⟨n1, n2, n3, n4, n5, n6⟩ := m b (by omega)
                      rw [m1, m2, m3, m4, n1, n2, n3, n4, m5, m6, n5, n6]
                      omega
                    · cases hy
          · cases hx

/-- Texts in the order of their code points have encodings in the order of their bytes. -/
theorem utf8_lt {a b : List Char} (h : strOf a < strOf b) : utf8 a < utf8 b := by
  induction a generalizing b with
  | nil =>
    cases b with
    | nil => exact absurd h (List.lt_irrefl _)
    | cons c t =>
      obtain ⟨x, l, e⟩ : ∃ x l, String.utf8EncodeChar c = x :: l := by
        rcases e : String.utf8EncodeChar c with _ | ⟨x, l⟩
        · have := congrArg List.length e
          simp [String.length_utf8EncodeChar] at this
          have := Char.utf8Size_pos c
          omega
        · exact ⟨x, l, rfl⟩
      simp [utf8, e]
  | cons c t ih =>
    cases b with
    | nil => simp [strOf] at h
    | cons c' t' =>
      have e : ∀ (c : Char) t, utf8 (c :: t) = String.utf8EncodeChar c ++ utf8 t := fun c t => by simp [utf8]
      rw [e, e]
      simp only [strOf, List.map_cons, List.cons_lt_cons_iff] at h
      rcases h with h | ⟨h, h'⟩
      · exact encodeCp_lt (utf8EncodeCp_char c) (utf8EncodeCp_char c') h _ _
      · have hc : c = c' := Char.toNat_inj.1 h
        subst hc
        exact List.append_left_lt (ih h')

/-- **C46** (order of bytes). The encoded names are also strictly increasing as byte strings, which is the
order OpenSSH asks for. -/
theorem C46_bytewise (d d' : VDict) (param : Str) (o : OptArg) (v : Val)
    (lg : List Event) (h : setOption d param o v = (⟨lg, .ok ()⟩, d')) :
    ∃ (l : List (List Char × Bytes)) (w : Bytes), dget d' param = some (.bytes w) ∧ OptionsWire l w ∧
      (l.map (fun e => utf8 e.1)).Pairwise (· < ·) := by
  obtain ⟨l, w, h1, h2, h3, -⟩ := C46_sorted_unique d d' param o v lg h
  refine ⟨l, w, h1, h2, ?_⟩
  rw [List.pairwise_map] at h3 ⊢
  exact h3.imp utf8_lt

/-! ### C77: names of options -/

/-- **C77** is false: one of the options has another name than OpenSSH's, in which the `X` is a capital. -/
theorem C77_false : ¬ ∀ o : CertOption, o.name = openSSHName o := by
  intro h
  have := h .permitX11Forwarding
  revert this
  decide +kernel

/-- **C77** (all the others). Every other option has the name that OpenSSH gives it, and different options have
different names; so after setting such an option, OpenSSH's name has the value that was set. -/
theorem C77_names_partial (o : CertOption) (ho : o ≠ .permitX11Forwarding) :
    o.name = openSSHName o ∧ (∀ o', o'.name = o.name → o' = o) ∧
    ∀ (d d' : VDict) (param : Str) (v : Val) (lg : List Event), OptionParam param →
      setOption d param (.opt o) v = (⟨lg, .ok ()⟩, d') →
      getOption d' param (.name (openSSHName o)) = ⟨[], .ok (some v)⟩ := by
  have h1 : o.name = openSSHName o := by revert ho; cases o <;> decide
  refine ⟨h1, fun o' => by cases o <;> cases o' <;> decide +kernel, fun d d' param v lg hp h => ?_⟩
  rw [← h1]
  exact (C45_get_after_set d d' param hp (.opt o) v lg h).2.1

/-- **C77** (what is wrong). Setting the X11 option does not change what OpenSSH's name for it has in the
certificate. -/
theorem C77_x11_not_set (d d' : VDict) (param : Str) (v : Val) (lg : List Event) (hp : OptionParam param)
    (h : setOption d param (.opt .permitX11Forwarding) v = (⟨lg, .ok ()⟩, d')) :
    (getOption d' param (.name (openSSHName .permitX11Forwarding))).res =
      (getOption d param (.name (openSSHName .permitX11Forwarding))).res :=
  (C45_get_after_set d d' param hp _ v lg h).2.2.2.1 _ (by decide +kernel)

/-- The extensions that `ssh-keygen` gives a user certificate. -/
def exExtensions : Bytes :=
  pb! "\x00\x00\x00\x15permit-X11-forwarding\x00\x00\x00\x00" ++ pb! "\x00\x00\x00\x17permit-agent-forwarding\x00\x00\x00\x00" ++
    pb! "\x00\x00\x00\x16permit-port-forwarding\x00\x00\x00\x00" ++ pb! "\x00\x00\x00\x0apermit-pty\x00\x00\x00\x00" ++
    pb! "\x00\x00\x00\x0epermit-user-rc\x00\x00\x00\x00"
def exUserCert : VDict :=
  [(py! "type", .int 1), (py! "critical_options", .bytes []), (py! "extensions", .bytes exExtensions)]

/-- All of them are found, but not the X11 option. -/
example : (getOption exUserCert (py! "extensions") (.opt .permitPty)).res = .ok (some (.bytes [])) ∧
    (getOption exUserCert (py! "extensions") (.opt .permitX11Forwarding)).res = .ok none ∧
    (getOption exUserCert (py! "extensions") (.name (py! "permit-X11-forwarding"))).res = .ok (some (.bytes [])) := by
  decide +kernel
/-- Setting it adds a sixth extension. -/
example : (setOption exUserCert (py! "extensions") (.opt .permitX11Forwarding) (.bytes [])).2 =
    [(py! "type", .int 1), (py! "critical_options", .bytes []), (py! "extensions", .bytes (exExtensions ++
      pb! "\x00\x00\x00\x15permit-x11-forwarding\x00\x00\x00\x00"))] := by
  decide +kernel

/-! ### C78: what signed bytes determine -/

/-- Packed records of the same format determine the values, also when something follows. -/
theorem packDict_inj {fmt : FDict} (hf : plainFmt fmt = true) {d d' : VDict} {w w' r r' : Bytes}
    (h : packDict fmt d = .ok w) (h' : packDict fmt d' = .ok w') (e : w ++ r = w' ++ r') :
    (∀ n ∈ dkeys fmt, dget d n = dget d' n) ∧ w = w' ∧ r = r' := by
  have h1 := prs_readDict_plain hf h r
  have h2 := prs_readDict_plain hf h' r'
  rw [e, h2] at h1
  simp only [Prod.mk.injEq, Except.ok.injEq] at h1
  obtain ⟨h3, h4⟩ := List.append_inj e h1.2.symm
  refine ⟨fun n hn => ?_, h3, h4⟩
  have := congrArg (dget · n) h1.1
  simpa only [dget_named, if_pos hn] using this.symm

theorem constructed_ok {ext : Ext} {k : Key} (h : Constructed ext k) :
    ∃ t, dget k.header (py! "key_type") = some (.str t) ∧ paramsClass k.kind (.str t) = .ok k.params.cls := by
  obtain ⟨hd, p, f, cl, hk⟩ := h
  obtain ⟨t, c, h1, h2, h3, -⟩ := mkKeyWith_ok hk
  have e1 : k.header = hd := by rw [h3]
  have e2 : k.params.cls = c := by rw [h3]
  exact ⟨t, by rw [e1]; exact h1, by rw [e2]; exact h2⟩

theorem plain_left {f g : FDict} (h : plainFmt (f ++ g) = true) : plainFmt f = true := by
  induction f with
  | nil => rfl
  | cons kf t ih =>
    obtain ⟨k, fi⟩ := kf
    obtain ⟨h1, h2, h3⟩ := plainFmt_cons h
    have h4 := ih h3
    unfold plainFmt at h4 ⊢
    rw [Bool.and_eq_true, decide_eq_true_iff] at h4
    rw [Bool.and_eq_true, decide_eq_true_iff, dkeys_cons, List.nodup_cons, List.all_cons, Bool.and_eq_true]
    refine ⟨⟨h1, h4.1⟩, fun hc => h2 ?_, h4.2⟩
    obtain ⟨x, hx, e⟩ := List.mem_map.1 hc
    exact List.mem_map.2 ⟨x, List.mem_append_left _ hx, e⟩

/-- Two certificates that have the same type and, apart from the signature, the same values. -/
def Spec.SameCert (k k' : Key) : Prop :=
  ∃ t fields, dget k.header (py! "key_type") = some (.str t) ∧ dget k'.header (py! "key_type") = some (.str t) ∧
    publicFields t = some (fields ++ [(py! "signature", .pascal .bytes)]) ∧
    ∀ n ∈ dkeys fields, dget k.params.data n = dget k'.params.data n

/-- A certificate that the constructor accepts without a warning. -/
def Spec.FlawlessCert (ext : Ext) (k : Key) : Prop :=
  (∃ h p f clear, mkKey ext .pub h p f clear = ⟨[], .ok k⟩) ∧
    ∃ t, dget k.header (py! "key_type") = some (.str t) ∧ isCertType t = true

/-- An RSA user certificate … -/
def exCollide1 : Key := ⟨.pub, [(py! "key_type", .str (py! "ssh-rsa-cert-v01@openssh.com"))], ⟨.certRsa,
  [(py! "nonce", .bytes [1]), (py! "e", .int (beNat (List.replicate 32 0x41))),
   (py! "n", .int (beNat [0x41, 0x41, 0x41, 0x41, 0, 0, 0, 1, 0, 0, 0, 18])), (py! "serial", .int 7),
   (py! "type", .int 1), (py! "key_id", .str (py! "id")), (py! "valid_principals", .bytes []), (py! "valid_after", .int 0),
   (py! "valid_before", .int 18446744073709551615), (py! "critical_options", .bytes []),
   (py! "extensions", .bytes exExtensions), (py! "reserved", .bytes []), (py! "signature_key", .bytes exRsaWire),
   (py! "signature", .bytes [8, 9])]⟩, [], []⟩

/-- … and an Ed25519 user certificate that have the same signed bytes. -/
def exCollide2 : Key := ⟨.pub, [(py! "key_type", .str (py! "ssh-ed25519-cert-v01@openssh.com"))], ⟨.certEd25519,
  [(py! "nonce", .bytes [1]), (py! "public", .bytes (List.replicate 32 0x41)),
   (py! "serial", .int (beNat [0, 0, 0, 12, 0x41, 0x41, 0x41, 0x41])),
   (py! "type", .int 1), (py! "key_id", .str ([0, 0, 0, 0, 0, 0, 0, 7] ++ [0, 0, 0, 1] ++ [0, 0, 0, 2] ++ py! "id")),
   (py! "valid_principals", .bytes []), (py! "valid_after", .int 0),
   (py! "valid_before", .int 18446744073709551615), (py! "critical_options", .bytes []),
   (py! "extensions", .bytes exExtensions), (py! "reserved", .bytes []), (py! "signature_key", .bytes exRsaWire),
   (py! "signature", .bytes [8, 9])]⟩, [], []⟩

theorem exCollide1_flawless : FlawlessCert exExt exCollide1 :=
  ⟨⟨exCollide1.header, exCollide1.params.data, [], none,
    Eff.ext (by decide +kernel) (by decide +kernel)⟩, _, rfl, by decide +kernel⟩
theorem exCollide2_flawless : FlawlessCert exExt exCollide2 :=
  ⟨⟨exCollide2.header, exCollide2.params.data, [], none,
    Eff.ext (by decide +kernel) (by decide +kernel)⟩, _, rfl, by decide +kernel⟩
theorem exCollide_signed : ∃ w, packSignedBytes exCollide1.params.cls exCollide1.params.data = .ok w ∧
    packSignedBytes exCollide2.params.cls exCollide2.params.data = .ok w :=
  ⟨(packSignedBytes exCollide1.params.cls exCollide1.params.data).toOption.getD [], by decide +kernel, by decide +kernel⟩

/-- **C78** is false: an RSA and an Ed25519 certificate, both without any flaw, have the same signed bytes. -/
theorem C78_false : ¬ ∀ (ext : Ext) (k k' : Key) (w : Bytes), FlawlessCert ext k → FlawlessCert ext k' →
    packSignedBytes k.params.cls k.params.data = .ok w → packSignedBytes k'.params.cls k'.params.data = .ok w →
    SameCert k k' := by
  intro h
  obtain ⟨w, h1, h2⟩ := exCollide_signed
  obtain ⟨t, f, h3, h4, -⟩ := h _ _ _ w exCollide1_flawless exCollide2_flawless h1 h2
  have e : (py! "ssh-rsa-cert-v01@openssh.com") = py! "ssh-ed25519-cert-v01@openssh.com" := by
    have a : t = py! "ssh-rsa-cert-v01@openssh.com" := by
      have : some (Val.str (py! "ssh-rsa-cert-v01@openssh.com")) = some (Val.str t) := h3
      simpa using this.symm
    have b : t = py! "ssh-ed25519-cert-v01@openssh.com" := by
      have : some (Val.str (py! "ssh-ed25519-cert-v01@openssh.com")) = some (Val.str t) := h4
      simpa using this.symm
    rw [← a, b]
  revert e
  decide +kernel

/-- **C78** (within a type). Certificates of the same type with the same signed bytes have the same values, apart from
the signature. The signed bytes may even be followed by something else. -/
theorem C78_same_type_partial (ext : Ext) (k k' : Key) (t : Str) (w w' r r' : Bytes)
    (hk : k.kind = .pub ∧ Constructed ext k) (hk' : k'.kind = .pub ∧ Constructed ext k') (hc : isCertType t = true)
    (ht : dget k.header (py! "key_type") = some (.str t)) (ht' : dget k'.header (py! "key_type") = some (.str t))
    (h : packSignedBytes k.params.cls k.params.data = .ok w) (h' : packSignedBytes k'.params.cls k'.params.data = .ok w')
    (e : w ++ r = w' ++ r') : SameCert k k' ∧ w = w' ∧ r = r' := by
  obtain ⟨t1, a1, b1⟩ := constructed_ok hk.2
  obtain ⟨t2, a2, b2⟩ := constructed_ok hk'.2
  rw [hk.1] at b1
  rw [hk'.1] at b2
  rw [ht] at a1; simp only [Option.some.injEq, Val.str.injEq] at a1; subst a1
  rw [ht'] at a2; simp only [Option.some.injEq, Val.str.injEq] at a2; subst a2
  have hcls : k'.params.cls = k.params.cls := by rw [b1] at b2; simpa using b2.symm
  rw [hcls] at h'
  unfold packSignedBytes at h h'
  rw [written_eq (Writes.dict _ _)] at h h'
  have hfmt := signedFmt_eq b1 hc
  have hpl := plain_class b1
  rw [hfmt] at hpl
  obtain ⟨h1, h2, h3⟩ := packDict_inj (plain_left hpl) h h' e
  exact ⟨⟨t, signedFmt k.params.cls, ht, ht', by rw [publicFields_eq b1, hfmt], h1⟩, h2, h3⟩

/-- **C78** (with the type). What OpenSSH signs, the length-prefixed type followed by these bytes, determines the
certificate apart from the signature. -/
theorem C78_with_type_partial (ext : Ext) (k k' : Key) (cs cs' : List Char) (a a' w w' : Bytes)
    (hk : k.kind = .pub ∧ Constructed ext k) (hk' : k'.kind = .pub ∧ Constructed ext k')
    (hc : isCertType (strOf cs) = true)
    (ht : dget k.header (py! "key_type") = some (.str (strOf cs)))
    (ht' : dget k'.header (py! "key_type") = some (.str (strOf cs')))
    (ha : Prefixed 4 (utf8 cs) a) (ha' : Prefixed 4 (utf8 cs') a')
    (h : packSignedBytes k.params.cls k.params.data = .ok w) (h' : packSignedBytes k'.params.cls k'.params.data = .ok w')
    (e : a ++ w = a' ++ w') : SameCert k k' := by
  obtain ⟨h1, -, h2⟩ := prefixed_unique ha ha' e
  have := utf8_inj h1
  subst this
  exact (C78_same_type_partial ext k k' (strOf cs) w w' [] [] hk hk' hc ht ht' h h' (by rw [h2])).1

/-! ### C79: packed bytes determine the key -/

/-- The keys, public or private, have the same type and the same public values. -/
def Spec.SamePublicPart (k k' : Key) : Prop :=
  ∃ t fields, dget k.header (py! "key_type") = some (.str t) ∧ dget k'.header (py! "key_type") = some (.str t) ∧
    publicFields t = some fields ∧ ∀ n ∈ dkeys fields, dget k.params.data n = dget k'.params.data n

/-- The private keys have the same type, the same values and the same comment. -/
def Spec.SamePrivatePart (k k' : Key) : Prop :=
  (∃ t fields, dget k.header (py! "key_type") = some (.str t) ∧ dget k'.header (py! "key_type") = some (.str t) ∧
    privateFields t = some fields ∧ ∀ n ∈ dkeys fields, dget k.params.data n = dget k'.params.data n) ∧
  dget k.footer (py! "comment") = dget k'.footer (py! "comment")

theorem header_inj {kind : Kind} {h h' : VDict} {t t' : Str} {w w' r r' : Bytes}
    (ht : dget h (py! "key_type") = some (.str t)) (ht' : dget h' (py! "key_type") = some (.str t'))
    (h1 : packDict (headerFmt kind) h = .ok w) (h2 : packDict (headerFmt kind) h' = .ok w') (e : w ++ r = w' ++ r') :
    t = t' ∧ w = w' ∧ r = r' := by
  obtain ⟨g1, g2, g3⟩ := packDict_inj (plain_header kind) h1 h2 e
  have := g1 (py! "key_type") (by cases kind <;> decide)
  rw [ht, ht'] at this
  exact ⟨by simpa using this, g2, g3⟩

theorem public_class {ext : Ext} {k : Key} (h : Constructed ext k) :
    ∃ t, dget k.header (py! "key_type") = some (.str t) ∧ paramsClass .pub (.str t) = .ok (firstPublicClass k.params.cls) := by
  obtain ⟨t, h1, h2⟩ := constructed_ok h
  refine ⟨t, h1, ?_⟩
  rcases e : k.kind with _ | _
  · rw [e] at h2; rw [pub_class h2]; exact h2
  · rw [e] at h2; exact priv_class h2

/-- **C79** (public). If the packed public bytes of two keys, public or private, begin a common byte string, the
keys have the same type and public values; so no packed key is the beginning of another one, and different
keys have different bytes. -/
theorem C79_public (ext : Ext) (k k' : Key) (hk : Constructed ext k) (hk' : Constructed ext k') (w w' r r' : Bytes)
    (h : packPublicBytes k = .ok w) (h' : packPublicBytes k' = .ok w') (e : w ++ r = w' ++ r') :
    SamePublicPart k k' ∧ w = w' ∧ r = r' := by
  obtain ⟨t, a1, b1⟩ := public_class hk
  obtain ⟨t', a2, b2⟩ := public_class hk'
  rw [packPublicBytes_eq] at h h'
  obtain ⟨x, y, h1, h2, rfl⟩ := catE_ok h
  obtain ⟨x', y', h1', h2', rfl⟩ := catE_ok h'
  simp only [List.append_assoc] at e
  obtain ⟨rfl, rfl, e2⟩ := header_inj a1 a2 h1 h1' e
  have hc : firstPublicClass k'.params.cls = firstPublicClass k.params.cls := by rw [b1] at b2; simpa using b2.symm
  rw [hc] at h2'
  obtain ⟨g1, rfl, g3⟩ := packDict_inj (plain_class b1) h2 h2' e2
  exact ⟨⟨t, _, a1, a2, publicFields_eq b1, g1⟩, rfl, g3⟩

/-- **C79** (private). The same of private bytes: they determine the type, all values and the comment. -/
theorem C79_private (ext : Ext) (k k' : Key) (hk : k.kind = .priv ∧ Constructed ext k)
    (hk' : k'.kind = .priv ∧ Constructed ext k') (w w' r r' : Bytes)
    (h : packPrivateBytes k = .ok w) (h' : packPrivateBytes k' = .ok w') (e : w ++ r = w' ++ r') :
    SamePrivatePart k k' ∧ w = w' ∧ r = r' := by
  obtain ⟨t, a1, b1⟩ := constructed_ok hk.2
  obtain ⟨t', a2, b2⟩ := constructed_ok hk'.2
  rw [hk.1] at b1
  rw [hk'.1] at b2
  rw [packPrivateBytes_eq] at h h'
  obtain ⟨x, v, h1, hv, rfl⟩ := catE_ok h
  obtain ⟨y, z, h2, h3, rfl⟩ := catE_ok hv
  obtain ⟨x', v', h1', hv', rfl⟩ := catE_ok h'
  obtain ⟨y', z', h2', h3', rfl⟩ := catE_ok hv'
  simp only [List.append_assoc] at e
  obtain ⟨rfl, rfl, e2⟩ := header_inj a1 a2 h1 h1' e
  have hc : k'.params.cls = k.params.cls := by rw [b1] at b2; simpa using b2.symm
  rw [hc] at h2'
  obtain ⟨g1, rfl, e3⟩ := packDict_inj (plain_class b1) h2 h2' e2
  obtain ⟨g2, rfl, g3⟩ := packDict_inj (plain_footer .priv) h3 h3' e3
  exact ⟨⟨⟨t, _, a1, a2, privateFields_eq b1, g1⟩, g2 _ (by decide)⟩, rfl, g3⟩

/-- **C79** (lists). Key lists that are packed with the same passphrase to the same bytes hold the same keys in the same
order, whatever the check number, the salt and the way keys were selected. -/
theorem C79_lists (ext : Ext) {cr : Crypto} (hl : CryptoLaws cr) (inp inp' : Inputs) (l l' : KeyList)
    (pass pass' : Option Str) (I I' : Option (List Int)) (o o' retain retain' : Bool) (w : Bytes)
    (hk : ∀ p ∈ l.pairs, Constructed ext p.pub ∧ p.priv.kind = .priv ∧ Constructed ext p.priv)
    (hk' : ∀ p ∈ l'.pairs, Constructed ext p.pub ∧ p.priv.kind = .priv ∧ Constructed ext p.priv)
    (hp : ∀ p, Enters inp pass p → Enters inp' pass' p)
    (h : (packKeyList cr inp l pass I o retain).res = .ok w)
    (h' : (packKeyList cr inp' l' pass' I' o' retain').res = .ok w) :
    ∃ sel sel', Selection l.pairs I sel ∧ Selection l'.pairs I' sel' ∧
      List.Forall₂ (fun p p' => SamePublicPart (if o then p.priv else p.pub) (if o' then p'.priv else p'.pub) ∧
        SamePrivatePart p.priv p'.priv) sel sel' := by
  obtain ⟨kl, sel, a1, a2, a3⟩ := C25_round_trip hl inp inp' l pass pass' I o retain w hk hp h
  obtain ⟨kl', sel', b1, b2, b3⟩ := C25_round_trip hl inp' inp' l' pass' pass' I' o' retain' w hk' (fun _ h => h) h'
  rw [a1] at b1
  have e : kl = kl' := by simpa using b1
  subst e
  refine ⟨sel, sel', a2, b2, ?_⟩
  clear a1 a2 b1 b2 h h'
  generalize kl.pairs = q at a3 b3
  induction a3 generalizing sel' with
  | nil => cases b3; exact .nil
  | cons hpq _ ih =>
    cases b3 with
    | cons hpq' hr =>
      refine .cons ⟨?_, ?_⟩ (ih _ hr)
      · obtain ⟨-, -, -, t, f, c1, c2, c3, -, -, c6⟩ := hpq.1
        obtain ⟨-, -, -, t', f', d1, d2, d3, -, -, d6⟩ := hpq'.1
        rw [c3] at d3
        have ht : t = t' := by simpa using d3
        subst ht
        have hf : f = f' := by rw [c2] at d2; simpa using d2
        subst hf
        exact ⟨t, f, c1, d1, c2, fun n hn => by rw [← c6 n hn, d6 n hn]⟩
      · obtain ⟨-, -, t, f, c1, c2, c3, -, c6, -, c7⟩ := hpq.2.1
        obtain ⟨-, -, t', f', d1, d2, d3, -, d6, -, d7⟩ := hpq'.2.1
        rw [c3] at d3
        have ht : t = t' := by simpa using d3
        subst ht
        have hf : f = f' := by rw [c2] at d2; simpa using d2
        subst hf
        exact ⟨⟨t, f, c1, d1, c2, fun n hn => by rw [← c6 n hn, d6 n hn]⟩, by rw [← c7, d7]⟩

/-- Non-vacuous: an RSA private key and the public key, given entries that are not packed, have the same bytes. -/
example : SamePublicPart exRsaPriv exPub :=
  (C79_public exExt exRsaPriv exPub ⟨exRsaPriv.header, exRsaPriv.params.data, exRsaPriv.footer, none, by decide +kernel⟩
    ⟨exPub.header, exPub.params.data, exPub.footer, none, by decide +kernel⟩ exRsaWire exRsaWire [] []
    (by decide +kernel) (by decide +kernel) rfl).1
/-- And the example list can be packed. -/
example : ∃ sel, Selection exList.pairs none sel ∧
    List.Forall₂ (fun p p' => SamePublicPart p.pub p'.pub ∧ SamePrivatePart p.priv p'.priv) sel sel := by
  obtain ⟨s, s', h1, h2, h3⟩ := C79_lists exExt toyCrypto_laws exInputs exInputs exList exList none none none none
    false false true true exFile exList_constructed exList_constructed (fun _ h => h) exFile_packed exFile_packed
  have : s = s' := by
    have h1 : s = exList.pairs := h1
    have h2 : s' = exList.pairs := h2
    rw [h1, h2]
  subst this
  exact ⟨s, h1, h3⟩

/-! ### C80: equality of keys -/

/-- The dictionaries of the key have every name once, as Python dictionaries do. -/
def Spec.Key.Proper (k : Key) : Prop :=
  (dkeys k.header).Nodup ∧ (dkeys k.params.data).Nodup ∧ (dkeys k.footer).Nodup ∧ (dkeys k.clear).Nodup

theorem keyEq_iff {a b : Key} (ha : Key.Proper a) (hb : Key.Proper b) : a.eq b = true ↔
    a.kind = b.kind ∧ (∀ n, dget a.header n = dget b.header n) ∧ (∀ n, dget a.params.data n = dget b.params.data n) ∧
      (∀ n, dget a.footer n = dget b.footer n) ∧ ∀ n, dget a.clear n = dget b.clear n := by
  obtain ⟨a1, a2, a3, a4⟩ := ha
  obtain ⟨b1, b2, b3, b4⟩ := hb
  unfold Key.eq
  simp only [Bool.and_eq_true, decide_eq_true_eq, deq_iff a1 b1, deq_iff a2 b2, deq_iff a3 b3, deq_iff a4 b4, and_assoc]

/-- **C80** (equivalence). Comparing keys is reflexive, symmetric and transitive; it does not depend on the order in
which values were put into the dictionaries. -/
theorem C80_equivalence (a b c : Key) (ha : Key.Proper a) (hb : Key.Proper b) (hc : Key.Proper c) :
    a.eq a = true ∧ a.eq b = b.eq a ∧ (a.eq b = true → b.eq c = true → a.eq c = true) ∧
    ∀ d, d.Perm a.params.data → a.eq { a with params := { a.params with data := d } } = true := by
  refine ⟨(keyEq_iff ha ha).2 ⟨rfl, fun _ => rfl, fun _ => rfl, fun _ => rfl, fun _ => rfl⟩, ?_, ?_, ?_⟩
  · rw [Bool.eq_iff_iff, keyEq_iff ha hb, keyEq_iff hb ha]
    constructor <;>
    · rintro ⟨h1, h2, h3, h4, h5⟩
      exact ⟨h1.symm, fun n => (h2 n).symm, fun n => (h3 n).symm, fun n => (h4 n).symm, fun n => (h5 n).symm⟩
  · rw [keyEq_iff ha hb, keyEq_iff hb hc, keyEq_iff ha hc]
    rintro ⟨h1, h2, h3, h4, h5⟩ ⟨g1, g2, g3, g4, g5⟩
    exact ⟨h1.trans g1, fun n => (h2 n).trans (g2 n), fun n => (h3 n).trans (g3 n), fun n => (h4 n).trans (g4 n),
      fun n => (h5 n).trans (g5 n)⟩
  · intro d hd
    have hn : (dkeys d).Nodup := (hd.map _).nodup_iff.2 ha.2.1
    have hb : Key.Proper { a with params := { a.params with data := d } } := ⟨ha.1, hn, ha.2.2⟩
    refine (keyEq_iff ha hb).2 ⟨rfl, fun _ => rfl, fun n => ?_, fun _ => rfl, fun _ => rfl⟩
    rcases e : dget a.params.data n with _ | v
    · symm
      rcases e' : dget d n with _ | v
      · rfl
      · rw [dget_of_mem ha.2.1 (hd.subset (dget_mem e'))] at e
        cases e
    · exact (dget_of_mem hn (hd.symm.subset (dget_mem e))).symm

/-- **C80** (congruence). Constructed keys that compare equal have the same class of parameters and give the same
bytes and lines. -/
theorem C80_congruence (ext : Ext) (a b : Key) (ha : Key.Proper a) (hb : Key.Proper b) (hca : Constructed ext a)
    (hcb : Constructed ext b) (h : a.eq b = true) :
    a.params.cls = b.params.cls ∧ packPublicBytes a = packPublicBytes b ∧ packPrivateBytes a = packPrivateBytes b ∧
    ∀ uf uc, packPublicString ext a uf uc = packPublicString ext b uf uc := by
  obtain ⟨h1, h2, h3, h4, h5⟩ := (keyEq_iff ha hb).1 h
  obtain ⟨t, a1, b1⟩ := constructed_ok hca
  obtain ⟨t', a2, b2⟩ := constructed_ok hcb
  rw [h2, a2] at a1
  simp only [Option.some.injEq, Val.str.injEq] at a1
  subst a1
  have hc : a.params.cls = b.params.cls := by rw [h1, b2] at b1; simpa using b1.symm
  have hpub : packPublicBytes a = packPublicBytes b := by
    rw [packPublicBytes_eq, packPublicBytes_eq, hc, packDict_congr (fun k _ _ => h2 k), packDict_congr (fun k _ _ => h3 k)]
  refine ⟨hc, hpub, ?_, fun uf uc => ?_⟩
  · rw [packPrivateBytes_eq, packPrivateBytes_eq, hc, packDict_congr (fun k _ _ => h2 k), packDict_congr (fun k _ _ => h3 k),
      packDict_congr (fun k _ _ => h4 k)]
  · unfold packPublicString commentText
    rw [hpub, getItem_congr (h2 _), h4, h5]

theorem exPub_proper : Key.Proper exPub := by unfold Key.Proper; decide +kernel
/-- Non-vacuous: the same key with its values in another order. -/
example : exPub.eq { exPub with params := { exPub.params with data := exPub.params.data.reverse } } = true :=
  (C80_equivalence exPub exPub exPub exPub_proper exPub_proper exPub_proper).2.2.2 _
    (List.reverse_perm _)
/-- Keys that are not constructed may compare equal though their classes differ. -/
example : (⟨.pub, [], ⟨.ec256Pub, []⟩, [], []⟩ : Key).eq ⟨.pub, [], ⟨.rsaPub, []⟩, [], []⟩ = true := by decide +kernel

end OSK
