import Verif.Lemmas.Plain
import Verif.Model.Key
/-
Reading, constructing and packing single keys.
-/
namespace OSK
open Spec

/-! ### The classes the factory can return -/

/-- All classes in the factory's table. -/
def factoryClasses : List Cls := keyTypeMapping.flatMap (fun e => e.2.1 :: e.2.2.toList)

theorem lookupType_mem {t : Val} {r : Cls × Option Cls} (h : lookupType t = .ok r) :
    ∃ s, t = .str s ∧ (s, r) ∈ keyTypeMapping := by
  unfold lookupType at h
  split at h
  · rename_i s
    split at h
    · rename_i r' hr
      simp at h; subst h
      exact ⟨s, rfl, dget_mem hr⟩
    · simp at h
  · simp at h

theorem paramsClass_mem {kind : Kind} {t : Val} {c : Cls} (h : paramsClass kind t = .ok c) :
    c ∈ factoryClasses ∧ ∃ s, t = .str s := by
  cases kind
  · simp only [paramsClass, getPublicClass] at h
    split at h
    · simp at h
    · rename_i r hr
      obtain ⟨s, rfl, hm⟩ := lookupType_mem hr
      simp at h; subst h
      exact ⟨List.mem_flatMap.2 ⟨_, hm, by simp⟩, s, rfl⟩
  · simp only [paramsClass, getPrivateClass] at h
    split at h
    · simp at h
    · rename_i r hr
      obtain ⟨s, rfl, hm⟩ := lookupType_mem hr
      split at h
      · simp at h
      · rename_i c' hc
        simp at h; subst h
        exact ⟨List.mem_flatMap.2 ⟨_, hm, by simp [hc]⟩, s, rfl⟩

theorem plain_factory : ∀ c ∈ factoryClasses, plainFmt (formatOf c) = true := by decide +kernel

theorem plain_class {kind : Kind} {t : Val} {c : Cls} (h : paramsClass kind t = .ok c) :
    plainFmt (formatOf c) = true := plain_factory c (paramsClass_mem h).1

theorem plain_header (kind : Kind) : plainFmt (headerFmt kind) = true := by cases kind <;> decide
theorem plain_footer (kind : Kind) : plainFmt (footerFmt kind) = true := by cases kind <;> decide

/-! ### Reading -/

theorem Reader.readKey (kind : Kind) : Reader (readKey kind) :=
  (Reader.readDict _).bind fun _ => (Reader.lift _).bind fun _ => (Reader.lift _).bind fun _ =>
    (Reader.readDict _).bind fun _ => (Reader.readDict _).bind fun _ => Reader.pure _

/-- The parts of `readKey` after the header. -/
theorem readKey_rest_reader (kind : Kind) (header : VDict) :
    Reader (do
      let t ← SM.lift (getItem header (py! "key_type"))
      let c ← SM.lift (paramsClass kind t)
      let params ← readDict (formatOf c)
      let footer ← readDict (footerFmt kind)
      pure (header, params, footer)) :=
  (Reader.lift _).bind fun _ => (Reader.lift _).bind fun _ =>
    (Reader.readDict _).bind fun _ => (Reader.readDict _).bind fun _ => Reader.pure _

theorem readHeader_ok {kind : Kind} {r : Bytes} {h : VDict} {n : Nat}
    (hr : prs (readDict (headerFmt kind)) r = (.ok h, n)) :
    ∃ t, h = [(py! "key_type", .str t)] := by
  have hd := readDict_dkeys hr
  have hf : headerFmt kind = [(py! "key_type", .pascal .string)] := by cases kind <;> rfl
  rw [hf] at hr hd
  obtain ⟨v, vs, n1, n2, rfl, h1, h2, -⟩ := readDict_cons_ok hr
  simp [readDict, prs_pure] at h2
  obtain ⟨rfl, -⟩ := h2
  obtain ⟨b, hb, -⟩ := prs_readPascal_ok h1
  simp [decodePrim] at hb
  unfold bytesDecode at hb
  split at hb <;> simp [Except.map] at hb
  subst hb
  exact ⟨_, rfl⟩

/-- Inversion of a successful key read. -/
theorem prs_readKey_ok {kind : Kind} {r : Bytes} {h p f : VDict} {N : Nat}
    (hr : prs (readKey kind) r = (.ok (h, p, f), N)) :
    ∃ t c n1 n2 n3, h = [(py! "key_type", .str t)] ∧ paramsClass kind (.str t) = .ok c ∧
      prs (readDict (headerFmt kind)) r = (.ok h, n1) ∧
      prs (readDict (formatOf c)) (r.drop n1) = (.ok p, n2) ∧
      prs (readDict (footerFmt kind)) (r.drop (n1 + n2)) = (.ok f, n3) ∧ N = n1 + n2 + n3 := by
  unfold readKey at hr
  obtain ⟨h', n1, m1, h1, h2, rfl⟩ := prs_bind_ok (fun h => readKey_rest_reader kind h) (Reader.readDict _) hr
  obtain ⟨t, rfl⟩ := readHeader_ok h1
  simp only [getItem, dget_cons_self, SM.lift_ok_bind] at h2
  rcases hc : paramsClass kind (.str t) with e | c
  · rw [hc, SM.lift_error_bind, prs_throw] at h2; simp at h2
  · rw [hc, SM.lift_ok_bind] at h2
    obtain ⟨p', n2, m2, h3, h4, rfl⟩ :=
      prs_bind_ok (fun _ => (Reader.readDict _).bind fun _ => Reader.pure _) (Reader.readDict _) h2
    obtain ⟨f', n3, m3, h5, h6, rfl⟩ := prs_bind_ok (fun _ => Reader.pure _) (Reader.readDict _) h4
    rw [prs_pure] at h6
    simp at h6
    obtain ⟨⟨rfl, rfl, rfl⟩, rfl⟩ := h6
    refine ⟨t, c, n1, n2, n3, rfl, hc, h1, h3, ?_, by omega⟩
    rw [← List.drop_drop]; exact h5

/-- Reading back a packed key. -/
theorem prs_readKey_packed {kind : Kind} {t : Str} {c : Cls} (hc : paramsClass kind (.str t) = .ok c)
    {h p f : VDict} {w1 w2 w3 : Bytes} (ht : dget h (py! "key_type") = some (.str t))
    (h1 : packDict (headerFmt kind) h = .ok w1) (h2 : packDict (formatOf c) p = .ok w2)
    (h3 : packDict (footerFmt kind) f = .ok w3) (post : Bytes) :
    prs (readKey kind) (w1 ++ w2 ++ w3 ++ post) =
      (.ok ([(py! "key_type", .str t)], named (formatOf c) p, named (footerFmt kind) f),
        (w1 ++ w2 ++ w3).length) := by
  unfold readKey
  rw [prs_bind (fun h => readKey_rest_reader kind h) (Reader.readDict _)]
  rw [List.append_assoc, List.append_assoc, prs_readDict_plain (plain_header kind) h1]
  have e : named (headerFmt kind) h = [(py! "key_type", .str t)] := by
    cases kind <;> simp [named, headerFmt, ht]
  simp only [e, getItem, dget_cons_self, SM.lift_ok_bind, hc]
  rw [List.drop_left]
  rw [prs_bind (fun _ => (Reader.readDict _).bind fun _ => Reader.pure _) (Reader.readDict _)]
  rw [prs_readDict_plain (plain_class hc) h2]
  simp only [List.drop_left]
  rw [prs_bind (fun _ => Reader.pure _) (Reader.readDict _)]
  rw [prs_readDict_plain (plain_footer kind) h3]
  simp [prs_pure]

/-! ### Construction -/

theorem mkKeyWith_ok {ext : Ext} {ca : Bytes → Eff Key} {kind : Kind} {h p f : VDict}
    {clear : Option VDict} {k : Key} (hk : (mkKeyWith ext ca kind h p f clear).res = .ok k) :
    ∃ t c, dget h (py! "key_type") = some (.str t) ∧ paramsClass kind (.str t) = .ok c ∧
      k = ⟨kind, h, ⟨c, p⟩, f, clear.getD []⟩ ∧
      (runChecks (localCheck ext ca c p) (checkPlan c)).res = .ok () := by
  unfold mkKeyWith at hk
  obtain ⟨_, _, hk⟩ := Eff.bind_res_ok_iff.1 hk
  obtain ⟨t, ht, hk⟩ := Eff.bind_res_ok_iff.1 hk
  obtain ⟨c, hc, hk⟩ := Eff.bind_res_ok_iff.1 hk
  obtain ⟨p', hp, hk⟩ := Eff.bind_res_ok_iff.1 hk
  obtain ⟨_, _, hk⟩ := Eff.bind_res_ok_iff.1 hk
  simp only [Eff.lift_res] at ht hc
  obtain ⟨_, s, rfl⟩ := paramsClass_mem hc
  unfold newParamsWith at hp
  obtain ⟨_, hp1, hp⟩ := Eff.bind_res_ok_iff.1 hp
  simp at hp
  subst hp
  simp only [Eff.pure_res, Except.ok.injEq] at hk
  refine ⟨s, c, ?_, hc, hk.symm, hp1⟩
  unfold getItem at ht
  split at ht
  · rename_i v hv; simp at ht; rw [hv, ht]
  · simp at ht

/-- The names that the own part of each class's check looks at. -/
def looksAt : Cls → List Str
  | .ed25519Pub => [py! "public"]
  | .ed25519Priv => [py! "public", py! "private_public"]
  | .ecdsaPub => [py! "identifier", py! "q"]
  | .certPub => [py! "type", py! "valid_principals", py! "critical_options", py! "extensions",
      py! "signature_key"]
  | _ => []

theorem looksAt_fields : ∀ c ∈ factoryClasses, ∀ D ∈ checkPlan c, ∀ k ∈ looksAt D, k ∈ dkeys (formatOf c) := by
  decide +kernel

theorem checkDict_congr {fmt : FDict} {d d' : VDict} (h : ∀ k ∈ dkeys fmt, dget d k = dget d' k) :
    checkDict d fmt = checkDict d' fmt := by
  induction fmt with
  | nil => rfl
  | cons kf t ih =>
    obtain ⟨k, fi⟩ := kf
    rw [dkeys_cons] at h
    unfold checkDict checkField
    rw [ih (fun k' hk => h k' (List.mem_cons_of_mem _ hk)), h k List.mem_cons_self]

theorem getItem_congr {d d' : VDict} {k : Str} (h : dget d k = dget d' k) : getItem d k = getItem d' k := by
  unfold getItem; rw [h]

theorem bytesOf?_congr {d d' : VDict} {k : Str} (h : dget d k = dget d' k) : bytesOf? d k = bytesOf? d' k := by
  unfold bytesOf?; rw [h]

/-- The own part of a check depends on the entries it looks at, and on the authority parser only at the
contents of `signature_key`. -/
theorem localCheck_congr {ext : Ext} {ca ca' : Bytes → Eff Key} {T D : Cls} {d d' : VDict}
    (h : ∀ k ∈ dkeys (formatOf T), dget d k = dget d' k) (h2 : ∀ k ∈ looksAt D, dget d k = dget d' k)
    (hca : ∀ x, dget d (py! "signature_key") = some (.bytes x) → ca x = ca' x) :
    localCheck ext ca T d D = localCheck ext ca' T d' D := by
  cases D <;> try rfl
  · exact checkDict_congr h
  · simp only [looksAt, List.mem_singleton, forall_eq] at h2
    simp only [localCheck, ed25519PubLocalCheck, bytesOf?_congr h2]
  · simp only [looksAt, List.mem_cons, List.not_mem_nil, or_false, forall_eq_or_imp, forall_eq] at h2
    simp only [localCheck, ed25519PrivLocalCheck, bytesOf?_congr h2.1, bytesOf?_congr h2.2]
  · simp only [looksAt, List.mem_cons, List.not_mem_nil, or_false, forall_eq_or_imp, forall_eq] at h2
    simp only [localCheck, ecdsaLocalCheck, bytesOf?_congr h2.2, h2.1]
  · simp only [looksAt, List.mem_cons, List.not_mem_nil, or_false, forall_eq_or_imp, forall_eq] at h2
    obtain ⟨a1, a2, a3, a4, a5⟩ := h2
    have e : getSignatureKeyWith ca d = getSignatureKeyWith ca' d' := by
      unfold getSignatureKeyWith
      rw [getItem_congr a5]
      rcases hv : dget d' (py! "signature_key") with _ | v
      · simp [getItem, hv]
      · simp only [getItem, hv, Eff.lift_ok_bind]
        cases v <;> simp only [asBuffer, Eff.lift_ok_bind, Eff.lift_error_bind]
        rw [hca _ (by rw [a5, hv])]
    have e1 : certTypeCheck d = certTypeCheck d' := by
      unfold certTypeCheck getType dhas; rw [a1, getItem_congr a1]
    have e2 : certPrincipalsCheck d = certPrincipalsCheck d' := by
      unfold certPrincipalsCheck getValidPrincipals; rw [bytesOf?_congr a2, getItem_congr a2]
    have e3 : ∀ param w, dget d param = dget d' param →
        certOptionsCheck d param w = certOptionsCheck d' param w := by
      intro param w hw
      unfold certOptionsCheck getOptionValues; rw [bytesOf?_congr hw, getItem_congr hw]
    have e5 : certCaCheck ca d = certCaCheck ca' d' := by
      unfold certCaCheck; rw [bytesOf?_congr a5, e]
    simp only [localCheck, certLocalCheck, e1, e2, e3 _ _ a3, e3 _ _ a4, e5]

theorem runChecks_congr {f g : Cls → Eff Unit} {l : List Cls} (h : ∀ D ∈ l, f D = g D) :
    runChecks f l = runChecks g l := by
  induction l with
  | nil => rfl
  | cons D t ih =>
    unfold runChecks
    rw [h D List.mem_cons_self, ih (fun D' hD => h D' (List.mem_cons_of_mem _ hD))]

/-- The checks on a factory class's object depend on the fields of its format only. -/
theorem checks_congr {ext : Ext} {ca ca' : Bytes → Eff Key} {c : Cls} (hc : c ∈ factoryClasses) {d d' : VDict}
    (h : ∀ k ∈ dkeys (formatOf c), dget d k = dget d' k)
    (hca : ∀ x, dget d (py! "signature_key") = some (.bytes x) → ca x = ca' x) :
    runChecks (localCheck ext ca c d) (checkPlan c) = runChecks (localCheck ext ca' c d') (checkPlan c) :=
  runChecks_congr fun D hD =>
    localCheck_congr h (fun k hk => h k (looksAt_fields c hc D hD k hk)) hca

theorem mkKeyWith_congr {ext : Ext} {ca ca' : Bytes → Eff Key} {kind : Kind} {h p f : VDict}
    {clear : Option VDict} (hca : ∀ x, dget p (py! "signature_key") = some (.bytes x) → ca x = ca' x) :
    mkKeyWith ext ca kind h p f clear = mkKeyWith ext ca' kind h p f clear := by
  unfold mkKeyWith
  congr 1
  funext _
  rcases getItem h (py! "key_type") with e | t
  · simp
  · simp only [Eff.lift_ok_bind]
    rcases hc : paramsClass kind t with e | c
    · simp
    · simp only [Eff.lift_ok_bind]
      unfold newParamsWith
      rw [checks_congr (paramsClass_mem hc).1 (fun _ _ => rfl) hca]

/-! ### `from_bytes` -/

theorem readKey_streamOf (kind : Kind) (b : Bytes) :
    readKey kind (Stream.of b) = ((prs (readKey kind) b).1, ⟨b, (prs (readKey kind) b).2⟩) := by
  have := (Reader.readKey kind).shift (Stream.of b)
  simpa [Stream.of, Stream.rest] using this

theorem fromBytesWith_eq (ext : Ext) (ca : Bytes → Eff Key) (kind : Kind) (b : Bytes) (clear : Option VDict) :
    fromBytesWith ext ca kind b clear =
      (match prs (readKey kind) b with
      | (.error e, _) => Eff.throw e
      | (.ok (h, p, f), n) => do
        let k ← mkKeyWith ext ca kind h p f clear
        if 0 < (b.drop n).length then
          Eff.warn .excessBytes
          pure { k with clear := dset k.clear (py! "remainder") (.bytes (b.drop n)) }
        else pure k) := by
  unfold fromBytesWith fromByteStreamWith
  rw [readKey_streamOf]
  rcases prs (readKey kind) b with ⟨e | ⟨h, p, f⟩, n⟩
  · simp only; rw [Eff.bind_error (e := e) rfl]; rfl
  · rfl

/-- An authority key's bytes are fewer than the bytes of the key that contains it. -/
theorem readKey_ca_lt {kind : Kind} {b : Bytes} {h p f : VDict} {n : Nat}
    (hr : prs (readKey kind) b = (.ok (h, p, f), n)) {k : Str} {x : Bytes}
    (hx : dget p k = some (.bytes x)) : x.length < b.length := by
  have hb := (Reader.readKey kind).bound b
  rw [hr] at hb
  obtain ⟨t, c, n1, n2, n3, -, hc, -, h2, -, rfl⟩ := prs_readKey_ok hr
  have := readDict_bytes_le (plain_class hc) h2 hx
  simp at hb
  omega

theorem fromBytesWith_congr {ext : Ext} {ca ca' : Bytes → Eff Key} {kind : Kind} {b : Bytes}
    {clear : Option VDict} (h : ∀ x, x.length < b.length → ca x = ca' x) :
    fromBytesWith ext ca kind b clear = fromBytesWith ext ca' kind b clear := by
  rw [fromBytesWith_eq, fromBytesWith_eq]
  rcases hr : prs (readKey kind) b with ⟨e | ⟨hd, p, f⟩, n⟩
  · rfl
  · simp only
    rw [mkKeyWith_congr (ca' := ca') (fun x hx => h x (readKey_ca_lt hr hx))]

theorem pubFromBytesFuel_stable (ext : Ext) : ∀ (n : Nat) (b : Bytes), b.length < n →
    pubFromBytesFuel ext n b = caFromBytes ext b := by
  intro n
  induction n using Nat.strong_induction_on with
  | _ n ih =>
    intro b hb
    obtain ⟨m, rfl⟩ : ∃ m, n = m + 1 := ⟨n - 1, by omega⟩
    unfold caFromBytes
    rw [pubFromBytesFuel, pubFromBytesFuel]
    apply fromBytesWith_congr
    intro x hx
    rw [ih m (by omega) x (by omega)]
    rcases Nat.lt_or_ge b.length (m + 1) with hlt | hge
    · rcases Nat.lt_or_ge b.length m with h1 | h1
      · rw [ih b.length (by omega) x hx]
      · have : b.length = m := by omega
        rw [this, ih m (by omega) x (by omega)]
    · omega

/-- The authority parser is `PublicKey.from_bytes`. -/
theorem caFromBytes_eq (ext : Ext) (b : Bytes) : caFromBytes ext b = fromBytes ext .pub b none := by
  unfold fromBytes
  rw [caFromBytes, pubFromBytesFuel]
  apply fromBytesWith_congr
  intro x hx
  exact pubFromBytesFuel_stable ext _ _ hx

/-! ### Packing -/

theorem written_eq {x : SM Unit} {p : Except Exn Bytes} (h : Writes x p) : written x = p := by
  unfold written
  cases p with
  | ok b =>
    rw [h.ok b rfl]
    simp only
    rw [Stream.new_wr_buf]
  | error e =>
    have := h.result Stream.new
    rcases hx : x Stream.new with ⟨e' | _, s⟩ <;> rw [hx] at this <;> simp [Except.map] at this
    simp only
    rw [this]

theorem packPublicBytes_eq (k : Key) : packPublicBytes k =
    catE (packDict (headerFmt .pub) k.header)
      (packDict (formatOf (firstPublicClass k.params.cls)) k.params.data) := by
  unfold packPublicBytes
  rw [written_eq ((Writes.dict _ _).bind ((Writes.dict _ _).bind (Writes.dict _ _)))]
  show catE _ (catE _ (.ok [])) = _
  rw [catE_nil_right]

theorem packPrivateBytes_eq (k : Key) : packPrivateBytes k =
    catE (packDict (headerFmt .priv) k.header)
      (catE (packDict (formatOf k.params.cls) k.params.data) (packDict (footerFmt .priv) k.footer)) := by
  unfold packPrivateBytes
  rw [written_eq ((Writes.dict _ _).bind ((Writes.dict _ _).bind (Writes.dict _ _)))]

/-- The public class of a public class is itself. -/
theorem firstPublicClass_pub : ∀ e ∈ keyTypeMapping, firstPublicClass e.2.1 = e.2.1 := by decide +kernel

theorem firstPublicClass_priv : ∀ e ∈ keyTypeMapping, ∀ c, e.2.2 = some c → firstPublicClass c = e.2.1 := by
  decide +kernel

theorem pub_class {t : Val} {c : Cls} (h : paramsClass .pub t = .ok c) : firstPublicClass c = c := by
  simp only [paramsClass, getPublicClass] at h
  split at h
  · simp at h
  · rename_i r hr
    obtain ⟨s, rfl, hm⟩ := lookupType_mem hr
    simp at h; subst h
    exact firstPublicClass_pub _ hm

theorem priv_class {t : Val} {c : Cls} (h : paramsClass .priv t = .ok c) :
    paramsClass .pub t = .ok (firstPublicClass c) := by
  simp only [paramsClass, getPrivateClass] at h
  split at h
  · simp at h
  · rename_i r hr
    obtain ⟨s, rfl, hm⟩ := lookupType_mem hr
    split at h
    · simp at h
    · rename_i c' hc
      simp at h; subst h
      simp only [paramsClass, getPublicClass, hr]
      rw [firstPublicClass_priv _ hm _ hc]

end OSK
