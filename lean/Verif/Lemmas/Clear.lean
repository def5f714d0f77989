import Verif.Props.FileGrammar
import Verif.Props.ListParse
import Verif.Spec.Clear
/-
Reading a key file up to the question for the passphrase.
-/
namespace OSK
open Spec

/-- What `from_bytes` does before the passphrase is needed. -/
def clearPart (ext : Ext) (b : Bytes) : Eff (VDict × List Key × Bytes × KdfCls × KdfOptions × CipherCls × Stream) := do
  let (header, s) ← onStream (readDict listHeaderFmt) (Stream.of b)
  let magic ← Eff.lift (getItem header (py! "auth_magic"))
  if magic ≠ .bytes authMagic then Eff.throw (.valueError "Not an openssh-key-v1 key")
  else
    let nv ← Eff.lift (getItem header (py! "num_keys"))
    let n ← Eff.lift (asInt nv)
    if n < 0 then Eff.throw (.valueError "Cannot parse negative number of keys")
    else
      let (pubs, s) ← readPublicKeys ext n.toNat s
      let (cv, s) ← onStream (readFI (.pascal .bytes)) s
      let cipherBytes ← Eff.lift (asBytes cv)
      let kdf ← Eff.lift (getItem header (py! "kdf"))
      let kdfClass ← Eff.lift (getKdfClass kdf)
      let ov ← Eff.lift (getItem header (py! "kdf_options"))
      let ob ← Eff.lift (asBytes ov)
      let (od, _) ← onStream (readDict (kdfFmt kdfClass)) (Stream.of ob)
      let options ← newKdf kdfClass od
      let cv ← Eff.lift (getItem header (py! "cipher"))
      let cipherClass ← Eff.lift (getCipherClass cv)
      pure (header, pubs, cipherBytes, kdfClass, options, cipherClass, s)

/-- What it does then. -/
def hiddenPart (ext : Ext) (cr : Crypto) (b : Bytes) (pass : Str) :
    VDict × List Key × Bytes × KdfCls × KdfOptions × CipherCls × Stream → Eff KeyList
  | (header, pubs, cipherBytes, kdfClass, options, cipherClass, s) => do
    let (cipherBytes, _) ← readTag cipherClass cipherBytes s
    let options' ← newKdf kdfClass options.data
    let plain ← Eff.lift (decrypt cr cipherClass options' pass cipherBytes)
    let (pairs, dh, padding) ← readPrivateSection ext cipherClass pubs plain
    pure ⟨pairs, some b, some header, some cipherBytes, some options, some plain, some dh, some padding⟩

theorem listFromBytesBody_parts (ext : Ext) (cr : Crypto) (inp : Inputs) (b : Bytes) (passphrase : Option Str) :
    listFromBytesBody ext cr inp b passphrase =
      (clearPart ext b >>= fun x => choosePassphrase inp (x.2.2.2.1 = .none) passphrase >>= fun p => hiddenPart ext cr b p x) := by
  unfold listFromBytesBody clearPart
  simp only [Eff.bind_assoc]
  congr 1
  funext ⟨header, s⟩
  simp only
  congr 1
  funext magic
  split
  · rfl
  simp only [Eff.bind_assoc]
  congr 1
  funext nv
  congr 1
  funext n
  split
  · rfl
  simp only [Eff.bind_assoc, Eff.pure_bind]
  rfl

theorem Prompts.clearPart (ext : Ext) (b : Bytes) : Prompts 0 (clearPart ext b) := by
  unfold OSK.clearPart
  refine (Prompts.onStream _ _).bind0 fun _ => (Prompts.lift _).bind0 fun _ => ?_
  split
  · exact Prompts.throw _
  refine (Prompts.lift _).bind0 fun _ => (Prompts.lift _).bind0 fun _ => ?_
  split
  · exact Prompts.throw _
  exact (Prompts.readPublicKeys _ _ _).bind0 fun _ => (Prompts.onStream _ _).bind0 fun _ =>
    (Prompts.lift _).bind0 fun _ => (Prompts.lift _).bind0 fun _ => (Prompts.lift _).bind0 fun _ =>
    (Prompts.lift _).bind0 fun _ => (Prompts.lift _).bind0 fun _ => (Prompts.onStream _ _).bind0 fun _ =>
    (newKdf_prompts _ _).bind0 fun _ => (Prompts.lift _).bind0 fun _ => (Prompts.lift _).bind0 fun _ => Prompts.pure _

theorem Prompts.hiddenPart (ext : Ext) (cr : Crypto) (b : Bytes) (pass : Str)
    (x : VDict × List Key × Bytes × KdfCls × KdfOptions × CipherCls × Stream) : Prompts 0 (hiddenPart ext cr b pass x) := by
  obtain ⟨header, pubs, cb, kc, o, cc, s⟩ := x
  unfold OSK.hiddenPart
  refine Prompts.bind0 ?_ fun _ => (newKdf_prompts _ _).bind0 fun _ =>
    (Prompts.lift _).bind0 fun _ => (Prompts.readPrivateSection _ _ _ _).bind0 fun _ => Prompts.pure _
  unfold readTag
  split
  · exact (Prompts.onStream _ _).bind0 fun _ => Prompts.pure _
  · exact Prompts.pure _

/-- The clear part of a file in order is read, with the warnings of the public keys. -/
theorem clearPart_reads {ext : Ext} {b : Bytes} {f : KeyFile} (h : ClearPart b f) :
    ∃ ks kc o cc s, (clearPart ext b) =
      ⟨f.pubs.flatMap (fun b => (fromBytes ext .pub b none).log), .ok (fileHeader f, ks, f.body, kc, o, cc, s)⟩ ∧
      getKdfClass (.str (strOf f.kdf)) = .ok kc ∧ getCipherClass (.str (strOf f.cipher)) = .ok cc ∧
      kc = o.cls ∧ ∃ m, prs (readDict (kdfFmt o.cls)) f.options = (.ok o.data, m) := by
  obtain ⟨ht, w, post, ⟨front, wb, ⟨wc, wk, wo, wn, wp, h1, h2, h3, h4, h5, h6, h7, rfl⟩, h8, rfl⟩, hb0⟩ := h.layout
  have hb1 : b = magic ++ wc ++ wk ++ wo ++ wn ++ (wp ++ (wb ++ post)) := by
    rw [hb0, ht]; simp only [List.append_assoc, List.nil_append]
  have e1 : onStream (readDict listHeaderFmt) (Stream.of b) =
      pure (fileHeader f, ⟨b, (magic ++ wc ++ wk ++ wo ++ wn).length⟩) := by
    rw [onStream_ok (Reader.readDict _) (by rw [Stream.rest_of, hb1]; exact prs_header h1 h2 h3 h4 h5 h6 _)]
    simp [Stream.of, fileHeader]
  have e2 := readPublicKeys_eq ext h7 (s := ⟨b, (magic ++ wc ++ wk ++ wo ++ wn).length⟩)
    (post := wb ++ post) (by
      show b.drop _ = _
      rw [hb1, List.drop_left])
  have e3 : onStream (readFI (.pascal .bytes)) ⟨b, (magic ++ wc ++ wk ++ wo ++ wn).length + wp.length⟩ =
      pure (.bytes f.body, ⟨b, (magic ++ wc ++ wk ++ wo ++ wn).length + wp.length + wb.length⟩) := by
    apply onStream_ok (Reader.readFI _)
    have : (⟨b, (magic ++ wc ++ wk ++ wo ++ wn).length + wp.length⟩ : Stream).rest = wb ++ post := by
      show b.drop _ = _
      rw [hb1, ← List.length_append, ← List.append_assoc (_ ++ wn), List.drop_left]
    rw [this]
    exact prs_bytes h8 _
  have g1 : getItem (fileHeader f) (py! "auth_magic") = .ok (.bytes authMagic) := rfl
  have g2 : getItem (fileHeader f) (py! "num_keys") = .ok (.int f.pubs.length) := rfl
  have g3 : getItem (fileHeader f) (py! "kdf") = .ok (.str (strOf f.kdf)) := rfl
  have g4 : getItem (fileHeader f) (py! "cipher") = .ok (.str (strOf f.cipher)) := rfl
  have g5 : getItem (fileHeader f) (py! "kdf_options") = .ok (.bytes f.options) := rfl
  obtain ⟨sz, hsz⟩ := Option.isSome_iff_exists.1 h.cipher
  obtain ⟨cc, hc⟩ := cipher_known hsz
  obtain ⟨o, m, hk, ho⟩ : ∃ (o : KdfOptions) (m : Nat), getKdfClass (.str (strOf f.kdf)) = .ok o.cls ∧
      prs (readDict (kdfFmt o.cls)) f.options = (.ok o.data, m) := by
    rcases h.kdf with hn | ⟨hn, salt, rounds, w, r, hw, hr⟩
    · obtain ⟨m, p, q1, q2, -⟩ := kdf_given_iff.2 (KdfGiven.none (inp := exInputs) (passphrase := some []) hn)
      exact ⟨_, m, q1, q2⟩
    · obtain ⟨m, p, q1, q2, -⟩ := kdf_given_iff.2 (KdfGiven.bcrypt (inp := exInputs) (passphrase := some []) (p := []) hn hw hr
        (choosePassphrase_iff.1 rfl))
      exact ⟨_, m, q1, q2⟩
  have hp : ∃ ks, (parsePubs ext f.pubs).res = .ok ks := by
    have hps := h.pubs
    have : ∀ l : List Bytes, (∀ p ∈ l, ∃ k, KeyBlob p k) → ∃ ks, List.Forall₂ KeyBlob l ks := by
      intro l
      induction l with
      | nil => exact fun _ => ⟨[], .nil⟩
      | cons p t ih =>
        intro hl
        obtain ⟨k, hk⟩ := hl p (List.mem_cons_self ..)
        obtain ⟨ks, hks⟩ := ih fun q hq => hl q (List.mem_cons_of_mem _ hq)
        exact ⟨k :: ks, .cons hk hks⟩
    obtain ⟨ks, hks⟩ := this _ hps
    exact ⟨ks, parsePubs_reads hks⟩
  obtain ⟨ks, hks⟩ := hp
  have hks' : parsePubs ext f.pubs = ⟨f.pubs.flatMap (fun b => (fromBytes ext .pub b none).log), .ok ks⟩ := by
    rw [← parsePubs_log hks, ← hks]
  refine ⟨ks, o.cls, o, cc, ⟨b, (magic ++ wc ++ wk ++ wo ++ wn).length + wp.length + wb.length⟩, ?_, hk, hc, rfl, m, ho⟩
  unfold clearPart
  rw [e1]
  simp only [Eff.pure_bind, g1, Eff.lift_ok_bind, ne_eq, not_true_eq_false, if_false, g2, asInt]
  rw [if_neg (by omega), Int.toNat_natCast, e2]
  simp only [Eff.bind_assoc, Eff.pure_bind, e3, asBytes, Eff.lift_ok_bind, g3, hk, g4, hc, g5]
  rw [onStream_ok (Reader.readDict _) (by rw [Stream.rest_of]; exact ho), hks']
  simp only [Eff.pure_bind, newKdf_read ho, Eff.mk_bind_ok, Eff.pure_res, Eff.pure_log, List.append_nil]

/-- If the clear part is read, it is in order. -/
theorem clearPart_ok {ext : Ext} {b : Bytes} {x : VDict × List Key × Bytes × KdfCls × KdfOptions × CipherCls × Stream}
    (h : (clearPart ext b).res = .ok x) : ∃ f, ClearPart b f := by
  unfold clearPart at h
  obtain ⟨⟨hd, s1⟩, h1, h⟩ := Eff.bind_res_ok_iff.1 h
  obtain ⟨n1, hn1, rfl⟩ := onStream_res_ok (Reader.readDict _) h1
  rw [Stream.rest_of] at hn1
  obtain ⟨m, cipher, kdf, opts, wc, wk, wo, wn, n, hm, rfl, hc, hk, ho, hwn, hn, hb, hN⟩ := prs_header_ok hn1
  have g1 : getItem [(py! "auth_magic", Val.bytes m), (py! "cipher", .str (strOf cipher)),
    (py! "kdf", .str (strOf kdf)), (py! "kdf_options", .bytes opts), (py! "num_keys", .int n)]
      (py! "auth_magic") = .ok (.bytes m) := rfl
  have g2 : getItem [(py! "auth_magic", Val.bytes m), (py! "cipher", .str (strOf cipher)),
    (py! "kdf", .str (strOf kdf)), (py! "kdf_options", .bytes opts), (py! "num_keys", .int n)]
      (py! "num_keys") = .ok (.int n) := rfl
  have g3 : getItem [(py! "auth_magic", Val.bytes m), (py! "cipher", .str (strOf cipher)),
    (py! "kdf", .str (strOf kdf)), (py! "kdf_options", .bytes opts), (py! "num_keys", .int n)]
      (py! "kdf") = .ok (.str (strOf kdf)) := rfl
  have g4 : getItem [(py! "auth_magic", Val.bytes m), (py! "cipher", .str (strOf cipher)),
    (py! "kdf", .str (strOf kdf)), (py! "kdf_options", .bytes opts), (py! "num_keys", .int n)]
      (py! "cipher") = .ok (.str (strOf cipher)) := rfl
  have g5 : getItem [(py! "auth_magic", Val.bytes m), (py! "cipher", .str (strOf cipher)),
    (py! "kdf", .str (strOf kdf)), (py! "kdf_options", .bytes opts), (py! "num_keys", .int n)]
      (py! "kdf_options") = .ok (.bytes opts) := rfl
  simp only [g1, Eff.lift_ok_bind, g2, asInt, g3, g4, g5, asBytes] at h
  split at h
  · simp at h
  rename_i hmag
  split at h
  · simp at h
  rename_i hneg
  obtain ⟨⟨ks, s2⟩, h2, h⟩ := Eff.bind_res_ok_iff.1 h
  obtain ⟨⟨cv, s3⟩, h3, h⟩ := Eff.bind_res_ok_iff.1 h
  obtain ⟨cb, h4, h⟩ := Eff.bind_res_ok_iff.1 h
  obtain ⟨kc, h5, h⟩ := Eff.bind_res_ok_iff.1 h
  obtain ⟨⟨od, s4⟩, h8, h⟩ := Eff.bind_res_ok_iff.1 h
  obtain ⟨opts', -, h⟩ := Eff.bind_res_ok_iff.1 h
  obtain ⟨cc, h6, h⟩ := Eff.bind_res_ok_iff.1 h
  clear h
  simp only [Eff.lift_res] at h5 h6
  obtain ⟨pubs, wp, hl, hf, hr2, rfl⟩ := readPublicKeys_ok h2
  have hpub : (parsePubs ext pubs).res = .ok ks := by
    have e := readPublicKeys_eq ext hf hr2
    rw [hl] at e
    rw [e] at h2
    obtain ⟨ks', q1, q2⟩ := Eff.bind_res_ok_iff.1 h2
    simp only [Eff.pure_res, Except.ok.injEq, Prod.mk.injEq] at q2
    rw [q1, q2.1]
  obtain ⟨n3, hn3, rfl⟩ := onStream_res_ok (Reader.readFI _) h3
  obtain ⟨body, wb, rfl, hwb, rfl, he3⟩ := prs_bytes_ok hn3
  obtain ⟨n8, hn8, -⟩ := onStream_res_ok (Reader.readDict _) h8
  rw [Stream.rest_of] at hn8
  simp only [ne_eq, Decidable.not_not] at hmag
  have hm' : m = magic := by rw [← magic_eq]; injection hmag
  subst hm'
  have hn31 : n < 2 ^ 31 ∧ digitSum wn = n.toNat := by
    have hne : wn ≠ [] := by intro hc; rw [hc] at hwn; simp at hwn
    have h1 := beInt_range wn hne
    rw [hwn, ← tcVal_eq, ← hn] at h1
    have h2 := beNat_lt wn
    refine ⟨by omega, ?_⟩
    rw [digitSum_eq]
    have h3 : n = beInt wn := by rw [hn, tcVal_eq]
    rw [beInt_eq] at h3
    rw [hwn] at h2 h3
    split at h3 <;> omega
  have e1 : (⟨(Stream.of b).buf, (Stream.of b).pos + n1⟩ : Stream).rest = b.drop n1 := by
    rw [Stream.rest_advance, Stream.rest_of]
  rw [e1] at hr2
  refine ⟨⟨cipher, kdf, opts, pubs, body, []⟩, ⟨rfl, magic ++ wc ++ wk ++ wo ++ wn ++ wp ++ wb ++ [],
    (⟨(Stream.of b).buf, (Stream.of b).pos + n1 + wp.length⟩ : Stream).rest.drop wb.length, ⟨_, wb, ⟨wc, wk, wo, wn, wp, hc, hk, ho, hwn, by rw [hn31.2, hl], by rw [hl]; omega, hf, rfl⟩, hwb, rfl⟩, ?_⟩, ?_, ?_, ?_⟩
  · clear h2 h3 hn3
    generalize (⟨(Stream.of b).buf, (Stream.of b).pos + n1 + wp.length⟩ : Stream).rest = X at *
    calc b = magic ++ wc ++ wk ++ wo ++ wn ++ (wp ++ (wb ++ X.drop wb.length)) := by
          rw [← he3, ← hr2]; exact hb
      _ = _ := by simp only [List.append_assoc, List.nil_append]
  · rw [show cipherSizes (strOf cipher) = _ from cipher_sizes h6]
    rfl
  · rcases getKdfClass_iff.1 h5 with ⟨hk', hkc⟩ | ⟨hk', hkc⟩
    · exact .inl hk'
    · rw [hkc] at hn8
      obtain ⟨w, r, hw, hr, -⟩ := (readDict_ok_iff (kdf_wire _)).1 hn8
      obtain ⟨salt, rounds, hbc, -⟩ := bcrypt_fields.1 hw
      exact .inr ⟨hk', salt, rounds, w, r, hbc, hr⟩
  · intro p hp
    have hfa := parsePubs_forall hpub
    clear * - hfa hp
    induction hfa with
    | nil => cases hp
    | cons h1 _ ih =>
      rcases List.mem_cons.1 hp with rfl | hp
      · exact ⟨_, keyReads_iff.1 h1⟩
      · exact ih hp

end OSK
