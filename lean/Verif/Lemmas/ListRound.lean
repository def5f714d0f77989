import Verif.Lemmas.ListPack
import Verif.Lemmas.KeyExn
import Verif.Props.Cipher
import Verif.Props.ListParse
/-
Parsing what `PrivateKeyList.pack_bytes` wrote.
-/
namespace OSK
open Spec

/-! ### Checks that are not those of certificates -/

/-- Not the warning about excess bytes. -/
def NoExcess (v : Event) : Prop := v ≠ .warn .excessBytes

theorem checkDict_noExcess {P : Exn → Prop} {fmt : FDict} (hp : plainFmt fmt = true) (d : VDict) :
    Within P NoExcess (checkDict d fmt) := by
  refine ⟨(checkDict_within (P := P) hp d).exn, ?_⟩
  clear hp
  induction fmt with
  | nil => intro v hv; simp [checkDict] at hv
  | cons kf t ih =>
    obtain ⟨k, fi⟩ := kf
    intro v hv
    rcases Eff.mem_bind_log hv with h | ⟨a, -, h⟩
    · unfold checkField at h
      split at h
      · simp at h; subst h; simp [NoExcess]
      · split at h
        · split at h <;> simp at h
          subst h; simp [NoExcess]
        · split at h <;> simp at h
          subst h; simp [NoExcess]
        · split at h <;> simp at h
          subst h; simp [NoExcess]
        · simp at h
    · exact ih v h

theorem localCheck_noExcess {P : Exn → Prop} {ext : Ext} {ca : Bytes → Eff Key} {T D : Cls} {d : VDict}
    (hT : plainFmt (formatOf T) = true) (hD : D ≠ .certPub) : Within P NoExcess (localCheck ext ca T d D) := by
  have hw : ∀ w, w ≠ Warning.excessBytes → Within P NoExcess (Eff.warn w) := by
    intro w hw
    exact Within.warn (by intro hc; simp at hc; exact hw hc)
  cases D <;> try exact Within.pure _
  · exact checkDict_noExcess hT d
  · simp only [localCheck, ed25519PubLocalCheck]
    split
    · exact Within.pure _
    · exact Within.ite (fun _ => hw _ (by simp)) (fun _ => Within.pure _)
  · simp only [localCheck, ed25519PrivLocalCheck]
    split
    · exact Within.warnIf (by simp [NoExcess])
        (Within.ite (fun _ => hw _ (by simp)) (fun _ => Within.pure _))
    · exact Within.pure _
  · simp only [localCheck, ecdsaLocalCheck]
    split
    · exact Within.pure _
    · refine Within.warnIf (by simp [NoExcess]) ?_
      split
      · exact Within.pure _
      · exact Within.ite (fun _ => Within.pure _) (fun _ => hw _ (by simp))
  · exact absurd rfl hD

theorem runChecks_noExcess {P : Exn → Prop} {ext : Ext} {ca : Bytes → Eff Key} {T : Cls} {d : VDict} {l : List Cls}
    (hT : plainFmt (formatOf T) = true) (hl : Cls.certPub ∉ l) :
    Within P NoExcess (runChecks (localCheck ext ca T d) l) := by
  induction l with
  | nil => exact Within.pure _
  | cons D t ih =>
    simp at hl
    exact (localCheck_noExcess hT (Ne.symm hl.1)).bind fun _ _ => ih hl.2

theorem priv_plan {t : Str} {c : Cls} (h : paramsClass .priv (.str t) = .ok c) :
    Cls.certPub ∉ checkPlan c ∧ Cls.certPub ∉ checkPlan (firstPublicClass c) := by
  have key : ∀ e ∈ keyTypeMapping, ∀ c, e.2.2 = some c →
      Cls.certPub ∉ checkPlan c ∧ Cls.certPub ∉ checkPlan (firstPublicClass c) := by decide +kernel
  simp only [paramsClass, getPrivateClass] at h
  split at h
  · cases h
  · rename_i r hr
    obtain ⟨s, hs, hm⟩ := lookupType_mem hr
    split at h
    · cases h
    · rename_i c' hc
      cases h
      exact key _ hm _ hc

/-- Checks that cannot fail. -/
theorem res_of_never {x : Eff Unit} {Q : Event → Prop} (h : Within (fun _ => False) Q x) : x.res = .ok () := by
  rcases hx : x.res with e | a
  · exact absurd (h.exn e hx) id
  · rfl

/-! ### Public keys -/

theorem fromBytes_public {ext : Ext} {k : Key} (hk : Constructed ext k) {b : Bytes}
    (h : packPublicBytes k = .ok b) :
    ∃ k', (fromBytes ext .pub b none).res = .ok k' ∧ SamePublic k k' ∧
      ((∃ t c, dget k.header (py! "key_type") = some (.str t) ∧ paramsClass .priv (.str t) = .ok c) →
        .warn .excessBytes ∉ (fromBytes ext .pub b none).log) := by
  obtain ⟨hd, p, f, cl, hk⟩ := hk
  obtain ⟨kind, hd', ps, ft, c0⟩ := k
  obtain ⟨t, c, ht, hc, he, hr⟩ := mkKeyWith_ok hk
  simp only [Key.mk.injEq] at he
  obtain ⟨-, rfl, rfl, -, -⟩ := he
  simp only at ht hc hr
  rw [packPublicBytes_eq] at h
  simp only at h
  have hc' : paramsClass .pub (.str t) = .ok (firstPublicClass c) := by
    cases kind
    · rw [pub_class hc]; exact hc
    · exact priv_class hc
  obtain ⟨w1, w2, h1, h2, rfl⟩ := catE_ok h
  have hpres := packDict_present h2
  have hfb := fromBytes_packed ext hc' (f := []) (w3 := []) ht h1 h2 rfl none
  rw [List.append_nil] at hfb
  have hpriv : ∀ c1, paramsClass .priv (.str t) = .ok c1 → Cls.certPub ∉ checkPlan (firstPublicClass c) := by
    intro c1 hc1
    have h3 := priv_class hc1
    have := paramsClass_fun hc' h3
    rw [this]
    exact (priv_plan hc1).2
  have hr' : (runChecks (localCheck ext (caFromBytes ext) (firstPublicClass c) p)
      (checkPlan (firstPublicClass c))).res = .ok () := by
    cases kind
    · rw [pub_class hc]; exact hr
    · exact res_of_never (runChecks_noExcess (plain_class hc') (hpriv _ hc))
  refine ⟨⟨.pub, [(py! "key_type", .str t)], ⟨firstPublicClass c, named (formatOf (firstPublicClass c)) p⟩, [], []⟩,
    ?_, ⟨rfl, rfl, rfl, t, formatOf (firstPublicClass c), ht, publicFields_eq hc', rfl, hc', dkeys_named hpres, ?_⟩, ?_⟩
  · rw [hfb, Eff.bind_ok hr']
    rfl
  · intro n hn
    show dget (named _ p) n = _
    rw [dget_named, if_pos hn]
  · rintro ⟨t', c1, ht', hc1⟩
    simp only at ht'
    rw [ht] at ht'
    cases ht'
    rw [hfb, Eff.bind_log_ok hr']
    simp only [Eff.pure_log, List.append_nil]
    exact fun hm => (runChecks_noExcess (P := fun _ => True) (plain_class hc') (hpriv _ hc1)).ev _ hm rfl

theorem parsePubs_packed {ext : Ext} {ks : List Key} {bs : List Bytes}
    (h : List.Forall₂ (fun k b => Constructed ext k ∧ packPublicBytes k = .ok b) ks bs) :
    ∃ ks', (parsePubs ext bs).res = .ok ks' ∧ List.Forall₂ SamePublic ks ks' := by
  induction h with
  | nil => exact ⟨[], rfl, .nil⟩
  | cons h1 _ ih =>
    obtain ⟨k', hk', hs, -⟩ := fromBytes_public h1.1 h1.2
    obtain ⟨ks', h2, h3⟩ := ih
    refine ⟨k' :: ks', ?_, .cons hs h3⟩
    unfold parsePubs
    rw [Eff.bind_res_of_ok hk', Eff.bind_res_of_ok h2]
    rfl

/-! ### Private keys -/

theorem readPairs_packed {ext : Ext} {pubs : List Key} (hp : ∀ k ∈ pubs, ∃ t, dget k.header (py! "key_type") = some t)
    {ks : List Key} {bs : List Bytes}
    (h : List.Forall₂ (fun k b => (k.kind = .priv ∧ Constructed ext k) ∧ packPrivateBytes k = .ok b) ks bs)
    (hl : pubs.length = ks.length) (i : Nat) (s : Stream) (post : Bytes) (hs : s.rest = bs.flatten ++ post) :
    ∃ ps, (readPairs ext pubs i s).res = .ok (ps, ⟨s.buf, s.pos + bs.flatten.length⟩) ∧ ps.map Pair.pub = pubs ∧
      List.Forall₂ (fun k (p : Pair) => SamePrivate k p.priv ∧ p.priv.clear = []) ks ps := by
  induction h generalizing pubs i s with
  | nil =>
    have : pubs = [] := List.length_eq_zero_iff.1 hl
    subst this
    exact ⟨[], rfl, rfl, .nil⟩
  | @cons k b ks bs h1 _ ih =>
    obtain ⟨pub, pubs, rfl⟩ : ∃ a t, pubs = a :: t := by
      cases pubs with
      | nil => simp at hl
      | cons a t => exact ⟨a, t, rfl⟩
    simp only [List.flatten_cons] at hs
    obtain ⟨k', g1, g2, g3, g4, -⟩ := fromByteStream_packed ext k h1.1.1 h1.1.2 b h1.2 s (bs.flatten ++ post)
      (by rw [hs, List.append_assoc]) none
    have hs' : (⟨s.buf, s.pos + b.length⟩ : Stream).rest = bs.flatten ++ post := by
      rw [Stream.rest_advance, hs, List.append_assoc, List.drop_left]
    obtain ⟨ps, e1, e2, e3⟩ := ih (pubs := pubs) (fun k hk => hp k (List.mem_cons_of_mem _ hk)) (by simpa using hl)
      (i + 1) _ hs'
    obtain ⟨t, ht⟩ := hp pub List.mem_cons_self
    obtain ⟨t', ht'⟩ : ∃ t', dget k'.header (py! "key_type") = some (Val.str t') := by
      obtain ⟨-, -, t', _, -, -, hh, -⟩ := g2
      exact ⟨t', by rw [hh]; simp⟩
    refine ⟨⟨pub, k'⟩ :: ps, ?_, by simp [e2], .cons ⟨g2, g3⟩ e3⟩
    have e : readPairs ext (pub :: pubs) i s = (do
        let priv ← (fromByteStream ext .priv none s).1
        (do checkPairType i pub priv; checkPairValues i pub priv)
        let (ps, s) ← readPairs ext pubs (i + 1) (fromByteStream ext .priv none s).2
        pure (Pair.mk pub priv :: ps, s)) := by
      show (do
        let priv ← (fromByteStream ext .priv none s).1
        checkPairType i pub priv
        checkPairValues i pub priv
        let (ps, s) ← readPairs ext pubs (i + 1) (fromByteStream ext .priv none s).2
        pure (Pair.mk pub priv :: ps, s)) = _
      simp only [Eff.bind_assoc]
    rw [e, Eff.bind_res_of_ok g1, checkPair_eq ht ht', Eff.mk_bind_ok, g4]
    simp only
    rw [Eff.bind_res_of_ok e1]
    simp [Nat.add_assoc]

theorem readPrivateSection_packed {ext : Ext} {cc : CipherCls} {pubs : List Key}
    (hp : ∀ k ∈ pubs, ∃ t, dget k.header (py! "key_type") = some t)
    {ks : List Key} {bs : List Bytes}
    (h : List.Forall₂ (fun k b => (k.kind = .priv ∧ Constructed ext k) ∧ packPrivateBytes k = .ok b) ks bs)
    (hl : pubs.length = ks.length) {c pad : Bytes} (hc : c.length = 4) :
    ∃ ps, (readPrivateSection ext cc pubs (c ++ c ++ bs.flatten ++ pad)).res = .ok (ps, checkInts c c, pad) ∧
      ps.map Pair.pub = pubs ∧
      List.Forall₂ (fun k (p : Pair) => SamePrivate k p.priv ∧ p.priv.clear = []) ks ps := by
  have hr : (⟨(Stream.of (c ++ c ++ bs.flatten ++ pad)).buf, (Stream.of (c ++ c ++ bs.flatten ++ pad)).pos + 8⟩ :
      Stream).rest = bs.flatten ++ pad := by
    rw [Stream.rest_advance, Stream.rest_of, List.append_assoc (c ++ c),
      List.drop_left' (by simp [hc])]
  obtain ⟨ps, e1, e2, e3⟩ := readPairs_packed hp h hl 0 _ pad hr
  refine ⟨ps, ?_, e2, e3⟩
  unfold readPrivateSection
  rw [onStream_ok (Reader.readDict _) (n := 8) (a := checkInts c c) (by
    rw [Stream.rest_of, List.append_assoc (c ++ c)]; exact prs_decipherHeader hc hc _)]
  simp only [checkCheckInts_eq hc hc, Eff.pure_bind, Eff.mk_bind_ok]
  rw [Eff.bind_res_of_ok e1]
  have e3 : ∀ s : Stream, onStream (bytesIORead (-1)) s = pure (s.rest, ⟨s.buf, max s.pos s.buf.length⟩) :=
    fun s => rfl
  simp only [e3, Eff.pure_bind, checkPadding_eq, Eff.mk_bind_ok, Eff.pure_res,
    Except.ok.injEq, Prod.mk.injEq, true_and]
  have := Stream.rest_advance (⟨(Stream.of (c ++ c ++ bs.flatten ++ pad)).buf,
    (Stream.of (c ++ c ++ bs.flatten ++ pad)).pos + 8⟩ : Stream) bs.flatten.length
  simp only at this
  rw [this, hr, List.drop_left]

/-! ### Everything -/

theorem deriveKey_named (cr : Crypto) (kc : KdfCls) (d : VDict) (p : Str) (n : Nat) :
    deriveKey cr ⟨kc, named (kdfFmt kc) d⟩ p n = deriveKey cr ⟨kc, d⟩ p n := by
  cases kc
  · rfl
  · unfold deriveKey
    have e1 : getItem (named (kdfFmt .bcrypt) d) (py! "salt") = getItem d (py! "salt") :=
      getItem_congr (by rw [dget_named, if_pos (by decide)])
    have e2 : getItem (named (kdfFmt .bcrypt) d) (py! "rounds") = getItem d (py! "rounds") :=
      getItem_congr (by rw [dget_named, if_pos (by decide)])
    simp only [e1, e2]

theorem decrypt_named (cr : Crypto) (cc : CipherCls) (kc : KdfCls) (d : VDict) (p : Str) (y : Bytes) :
    decrypt cr cc ⟨kc, named (kdfFmt kc) d⟩ p y = decrypt cr cc ⟨kc, d⟩ p y := by
  by_cases h : cc = .none
  · subst h; rfl
  · rw [decrypt_ne_none h, decrypt_ne_none h, deriveKey_named]

theorem choosePassphrase_same {inp inp' : Inputs} {isNone : Bool} {pp pp' : Option Str} {p : Str}
    (hp : ∀ p, Enters inp pp p → Enters inp' pp' p) (h : (choosePassphrase inp isNone pp).res = .ok p) :
    (choosePassphrase inp' isNone pp').res = .ok p := by
  unfold choosePassphrase at h ⊢
  cases isNone
  · simp only [Bool.false_eq_true, if_false] at h ⊢
    have he : Enters inp pp p := by
      cases pp with
      | none => exact .inr ⟨rfl, h⟩
      | some q => simp at h; subst h; exact .inl rfl
    rcases hp p he with rfl | ⟨rfl, ha⟩
    · rfl
    · exact ha
  · exact h

theorem forall₂_and_left {α β : Type} {R : α → β → Prop} {P : α → Prop} {l : List α} {m : List β}
    (hP : ∀ a ∈ l, P a) (h : List.Forall₂ R l m) : List.Forall₂ (fun a b => P a ∧ R a b) l m := by
  induction h with
  | nil => exact .nil
  | cons h1 _ ih => exact .cons ⟨hP _ List.mem_cons_self, h1⟩ (ih fun a ha => hP a (List.mem_cons_of_mem _ ha))

theorem forall₂_both {α β : Type} {R S : α → β → Prop} {l : List α} {m : List β}
    (h : List.Forall₂ R l m) (h' : List.Forall₂ S l m) : List.Forall₂ (fun a b => R a b ∧ S a b) l m := by
  induction h with
  | nil => exact .nil
  | cons h1 _ ih =>
    cases h' with
    | cons h2 h3 => exact .cons ⟨h1, h2⟩ (ih h3)

/-- The parts of a list that were packed are found again. -/
theorem ListPack.parsed {ext : Ext} {cr : Crypto} (hl : CryptoLaws cr) {inp inp' : Inputs} {self : KeyList}
    {passphrase passphrase' : Option Str} {indices : Option (List Int)} {override retain : Bool} {w : Bytes}
    (k : ListPack cr inp self passphrase indices override retain w)
    (hk : ∀ p ∈ k.sel, Constructed ext p.pub ∧ p.priv.kind = .priv ∧ Constructed ext p.priv)
    (hp : ∀ p, Enters inp passphrase p → Enters inp' passphrase' p) (post : Bytes) :
    ∃ kl, (listFromBytes ext cr inp' (w ++ post) passphrase').res = .ok kl ∧
      List.Forall₂ (fun (p q : Pair) => SamePublic (if override then p.priv else p.pub) q.pub ∧
        SamePrivate p.priv q.priv ∧ q.priv.clear = []) k.sel kl.pairs ∧
      kl.header = some (fileHeader k.f) ∧ kl.kdfOptions = some ⟨k.kc, named (kdfFmt k.kc) k.opts⟩ ∧
      kl.decipherBytes = some k.plain ∧
      ∃ n, n < k.cc.blockSize ∧ kl.decipherPadding = some (countUp n) := by
  have henc := C42_decrypt_encrypt hl k.cipher _ _ k.enc
  have htag : TagFits k.cc k.f.tag := by
    rw [tagFits_iff]
    have h1 := k.split
    have h2 : k.f.tag = (bodyTag k.cc (k.f.body ++ k.f.tag)).2 := by rw [← h1]
    rw [h2]
    exact bodyTag_length (by rw [henc.2]; omega)
  have hbody := listFromBytesBody_eq ext cr inp' passphrase' k.lays k.kdf k.cipher htag post
  have hpubs : List.Forall₂ (fun q b => Constructed ext q ∧ packPublicBytes q = .ok b)
      (k.sel.map (fun p => if override then p.priv else p.pub)) k.f.pubs := by
    rw [List.forall₂_map_left_iff]
    refine forall₂_and_left (fun p hp => ?_) k.pubs
    cases override
    · exact (hk p hp).1
    · exact (hk p hp).2.2
  obtain ⟨ks, hks, hsame⟩ := parsePubs_packed hpubs
  obtain ⟨c, n, hc, -, hn, -, hplain⟩ := k.section_
  have hprivs : List.Forall₂ (fun q b => (q.kind = .priv ∧ Constructed ext q) ∧ packPrivateBytes q = .ok b)
      (k.sel.map Pair.priv) k.privs := by
    rw [List.forall₂_map_left_iff]
    exact forall₂_and_left (fun p hp => (hk p hp).2) k.privKeys
  obtain ⟨ps, hsec, hps, hpriv⟩ := readPrivateSection_packed (cc := k.cc) (pubs := ks) (parsePubs_types hks) hprivs
    (by rw [← hsame.length_eq]; simp) (c := c) (pad := countUp n) hc
  rw [← hplain] at hsec
  have hnew := newKdf_packed k.options
  obtain ⟨m, hm⟩ : ∃ m, prs (readDict (kdfFmt k.kc)) k.f.options = (.ok (named (kdfFmt k.kc) k.opts), m) := by
    have := prs_readDict_plain (plain_kdf k.kc) k.options []
    rw [List.append_nil] at this
    exact ⟨_, this⟩
  refine ⟨⟨ps, some (w ++ post), some (fileHeader k.f), some (k.f.body ++ k.f.tag),
    some ⟨k.kc, named (kdfFmt k.kc) k.opts⟩, some k.plain, some (checkInts c c), some (countUp n)⟩, ?_, ?_, rfl, rfl,
    rfl, n, hn, rfl⟩
  · rw [listFromBytes_body, hbody]
    unfold parseFields
    rw [Eff.bind_res_of_ok hks, onStream_ok (Reader.readDict _) (by rw [Stream.rest_of]; exact hm)]
    simp only [newKdf_read hm, Eff.pure_bind]
    rw [Eff.bind_res_of_ok (choosePassphrase_same hp k.pass), decrypt_named, henc.1, Eff.lift_ok_bind,
      Eff.bind_res_of_ok hsec]
    rfl
  · simp only
    rw [List.forall₂_map_left_iff] at hsame hpriv
    rw [← hps, List.forall₂_map_right_iff] at hsame
    exact forall₂_both hsame hpriv

end OSK
