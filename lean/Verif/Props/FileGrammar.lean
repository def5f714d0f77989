import Verif.Props.Grammar
import Verif.Props.ListText
import Verif.Lemmas.ListSucceed
import Verif.Lemmas.Base64Reads
import Verif.Spec.FileGrammar
/-
Property C75: exactly which byte strings and texts are key lists.
-/
namespace OSK
open Spec

/-! ### Keys -/

theorem keyReads_iff {ext : Ext} {kind : Kind} {b : Bytes} {k : Key} :
    (fromBytes ext kind b none).res = .ok k ↔ ∃ rest, KeyReads kind b k rest ∧
      k.clear = if rest = [] then [] else [(py! "remainder", .bytes rest)] := by
  rw [C74_accepts]
  constructor
  · rintro ⟨t, p, f, rest, h1, h2, h3, h4, h5, rfl, rfl, h8⟩
    exact ⟨rest, ⟨t, h1, h2, h3, h4, h5⟩, by simpa [dset] using h8⟩
  · rintro ⟨rest, ⟨t, h1, h2, h3, h4, h5⟩, h8⟩
    exact ⟨t, _, _, rest, h1, h2, h3, h4, h5, rfl, rfl, by simpa [dset] using h8⟩

theorem keyIn_append {kind : Kind} {b x : Bytes} {t : Str} {p f : VDict} (h : KeyIn kind b t p f []) :
    KeyIn kind (b ++ x) t p f x := by
  obtain ⟨fmt, wt, wp, wf, h1, h2, h3, h4, rfl⟩ := h.layout
  exact ⟨⟨fmt, wt, wp, wf, h1, h2, h3, h4, by simp⟩⟩

theorem keyIn_cut {kind : Kind} {b x : Bytes} {t : Str} {p f : VDict} (h : KeyIn kind b t p f x) :
    ∃ w, b = w ++ x ∧ KeyIn kind w t p f [] := by
  obtain ⟨fmt, wt, wp, wf, h1, h2, h3, h4, rfl⟩ := h.layout
  exact ⟨wt ++ wp ++ wf, rfl, ⟨⟨fmt, wt, wp, wf, h1, h2, h3, h4, by simp⟩⟩⟩

theorem keysAt_keysIn {ext : Ext} {ps : List Pair} {ws : List Bytes} (h : KeysAt ext ps ws) (pad : Bytes) :
    KeysIn (ps.map Pair.priv) (ws.flatten ++ pad) pad := by
  induction ps generalizing ws with
  | nil =>
    simp only [KeysAt] at h
    subst h
    exact .nil
  | cons p ps ih =>
    obtain ⟨w, t, rfl, h1, h2, h3⟩ := h
    obtain ⟨rest, ⟨ty, g1, g2, g3, g4, g5⟩, g6⟩ := keyReads_iff.1 h1
    have : rest = [] := by
      by_contra hr
      rw [if_neg hr, h2] at g6
      simp at g6
    subst this
    refine .cons (rest := t.flatten ++ pad) ⟨ty, ?_, g2, g3, g4, g5⟩ h2 (ih h3)
    rw [List.flatten_cons, List.append_assoc]
    exact keyIn_append g1

theorem keyReads_stream {ext : Ext} {s : Stream} {k : Key} {rest : Bytes} (h : KeyReads .priv s.rest k rest)
    (hc : k.clear = []) : ∃ n, (fromByteStream ext .priv none s) = ((fromByteStream ext .priv none s).1, ⟨s.buf, s.pos + n⟩) ∧
      (fromByteStream ext .priv none s).1.res = .ok k ∧ s.rest.drop n = rest := by
  obtain ⟨t, h1, h2, h3, h4, h5⟩ := h
  obtain ⟨w, hw, hk⟩ := keyIn_cut h1
  have hok : (fromBytes ext .priv w none).res = .ok k :=
    keyReads_iff.2 ⟨[], ⟨t, hk, h2, h3, h4, h5⟩, by simpa using hc⟩
  obtain ⟨n, hn, hd⟩ := readKey_in h1
  obtain ⟨n', hn', hd'⟩ := readKey_in hk
  have hb' := (Reader.readKey .priv).bound w
  have ho := (Reader.readKey .priv).okLocal _ _ _ hn' rest
  rw [hn'] at hb'
  simp only at hb'
  have hl : n' = w.length := by
    have := congrArg List.length hd'
    simp at this
    omega
  subst hl
  rw [List.take_length] at ho
  rw [← hw] at ho
  unfold fromBytes at hok
  rw [fromBytesWith_eq, hn'] at hok
  simp only [List.drop_length, List.length_nil, Nat.lt_irrefl, if_false] at hok
  refine ⟨w.length, ?_, ?_, by rw [hw, List.drop_left]⟩
  · unfold fromByteStream fromByteStreamWith
    rw [(Reader.readKey .priv).shift s, ho]
  · unfold fromByteStream fromByteStreamWith
    rw [(Reader.readKey .priv).shift s, ho]
    simp only
    obtain ⟨k', hk', h⟩ := Eff.bind_res_ok_iff.1 hok
    simp at h
    rw [hk', h]

theorem readPairs_reads {ext : Ext} {ps : List Pair} {s : Stream} {pad : Bytes} (i : Nat)
    (hp : ∀ p ∈ ps, ∃ t, dget p.pub.header (py! "key_type") = some t)
    (h : KeysIn (ps.map Pair.priv) s.rest pad) :
    ∃ s', (readPairs ext (ps.map Pair.pub) i s).res = .ok (ps, s') ∧ s'.buf = s.buf ∧ s'.rest = pad := by
  induction ps generalizing s i with
  | nil =>
    generalize hb : s.rest = b at h
    cases h
    exact ⟨s, rfl, rfl, hb⟩
  | cons p ps ih =>
    rw [List.map_cons] at h
    generalize hb : s.rest = b at h
    obtain _ | ⟨h1, h2, h3⟩ := h
    subst hb
    obtain ⟨n, e1, e2, e3⟩ := keyReads_stream (ext := ext) h1 h2
    obtain ⟨t, ht⟩ := hp p List.mem_cons_self
    have ht' : ∃ t', dget p.priv.header (py! "key_type") = some t' := by
      obtain ⟨t', -, -, -, hh, -⟩ := h1
      exact ⟨_, by rw [hh]; rfl⟩
    obtain ⟨t', ht'⟩ := ht'
    have hs2 : (fromByteStream ext .priv none s).2 = ⟨s.buf, s.pos + n⟩ := by rw [e1]
    obtain ⟨s', g1, g2, g3⟩ := ih (s := ⟨s.buf, s.pos + n⟩) (i + 1) (fun q hq => hp q (List.mem_cons_of_mem _ hq))
      (by rw [Stream.rest_advance, e3]; exact h3)
    refine ⟨s', ?_, g2, g3⟩
    have e : readPairs ext (p.pub :: ps.map Pair.pub) i s = (do
        let priv ← (fromByteStream ext .priv none s).1
        (do checkPairType i p.pub priv; checkPairValues i p.pub priv)
        let (ps, s) ← readPairs ext (ps.map Pair.pub) (i + 1) (fromByteStream ext .priv none s).2
        pure (Pair.mk p.pub priv :: ps, s)) := by
      show (do
        let priv ← (fromByteStream ext .priv none s).1
        checkPairType i p.pub priv
        checkPairValues i p.pub priv
        let (ps, s) ← readPairs ext (ps.map Pair.pub) (i + 1) (fromByteStream ext .priv none s).2
        pure (Pair.mk p.pub priv :: ps, s)) = _
      simp only [Eff.bind_assoc]
    rw [List.map_cons, e]
    refine Eff.bind_res_ok_iff.2 ⟨p.priv, e2, ?_⟩
    rw [checkPair_eq ht ht', Eff.mk_bind_ok]
    show (readPairs ext _ _ _ >>= _).res = _
    rw [hs2]
    exact Eff.bind_res_ok_iff.2 ⟨_, g1, rfl⟩

theorem readPrivateSection_reads {ext : Ext} {cc : CipherCls} {ps : List Pair} {c1 c2 keys pad : Bytes}
    (hp : ∀ p ∈ ps, ∃ t, dget p.pub.header (py! "key_type") = some t) (l1 : c1.length = 4) (l2 : c2.length = 4)
    (h : KeysIn (ps.map Pair.priv) keys pad) :
    (readPrivateSection ext cc (ps.map Pair.pub) (c1 ++ c2 ++ keys)).res = .ok (ps, checkInts c1 c2, pad) := by
  unfold readPrivateSection
  rw [onStream_ok (Reader.readDict _) (by rw [Stream.rest_of]; exact prs_decipherHeader l1 l2 keys)]
  simp only [checkCheckInts_eq l1 l2, Eff.pure_bind, Eff.mk_bind_ok]
  obtain ⟨s', g1, g2, g3⟩ := readPairs_reads (ext := ext) (s := ⟨c1 ++ c2 ++ keys, 0 + 8⟩) 0 hp
    (by show KeysIn _ ((c1 ++ c2 ++ keys).drop 8) pad
        rw [show 8 = (c1 ++ c2).length by simp [l1, l2], List.drop_left]; exact h)
  refine Eff.bind_res_ok_iff.2 ⟨_, g1, ?_⟩
  have e3 : ∀ s : Stream, onStream (bytesIORead (-1)) s = pure (s.rest, ⟨s.buf, max s.pos s.buf.length⟩) :=
    fun s => rfl
  simp only [e3, Eff.pure_bind, checkPadding_eq, Eff.mk_bind_ok, Eff.pure_res, g3]

/-! ### Public keys -/

theorem parsePubs_reads {ext : Ext} {bs : List Bytes} {ks : List Key} (h : List.Forall₂ KeyBlob bs ks) :
    (parsePubs ext bs).res = .ok ks := by
  induction h with
  | nil => rfl
  | cons h1 _ ih =>
    unfold parsePubs
    exact Eff.bind_res_ok_iff.2 ⟨_, keyReads_iff.2 h1, Eff.bind_res_ok_iff.2 ⟨_, ih, rfl⟩⟩

/-! ### Key derivation and decryption -/

theorem enters_unique {inp : Inputs} {passphrase : Option Str} {p q : Str} (h : Enters inp passphrase p)
    (h' : Enters inp passphrase q) : p = q := by
  unfold Enters at h h'
  rcases h with rfl | ⟨rfl, h⟩ <;> rcases h' with h' | ⟨h1, h2⟩
  · simpa using h'
  · simp at h1
  · simp at h'
  · rw [h] at h2; simpa using h2

theorem choosePassphrase_iff {inp : Inputs} {passphrase : Option Str} {p : Str} :
    (choosePassphrase inp false passphrase).res = .ok p ↔ Enters inp passphrase p := by
  unfold choosePassphrase Enters
  rcases passphrase with _ | q
  · simp [getpass]
  · simp

theorem getKdfClass_iff {s : Str} {kc : KdfCls} : getKdfClass (.str s) = .ok kc ↔
    (s = py! "none" ∧ kc = .none) ∨ (s = py! "bcrypt" ∧ kc = .bcrypt) := by
  constructor
  · intro h
    unfold getKdfClass at h
    simp only at h
    split at h
    · rename_i c hc
      cases h
      have hm := dget_mem hc
      simpa only [kdfMapping, List.mem_cons, Prod.mk.injEq, List.not_mem_nil, or_false] using hm
    · cases h
  · rintro (⟨rfl, rfl⟩ | ⟨rfl, rfl⟩) <;> decide +kernel

theorem bcrypt_fields {w : Bytes} {d : VDict} : EncodesAll (kdfFmt .bcrypt) w d ↔
    ∃ salt rounds, BcryptField salt rounds w ∧ d = (bcryptOptions salt rounds).data := by
  constructor
  · intro h
    unfold kdfFmt at h
    obtain _ | ⟨h1, h2⟩ := h
    obtain _ | ⟨h2, h3⟩ := h2
    cases h3
    rcases h1 with ⟨ha⟩
    generalize hfi : FI.struct fmtBEI = fi at h2
    cases h2 with
    | uint =>
      simp [fmtBEI] at hfi
      exact ⟨_, _, ⟨_, _, by assumption, hfi.symm, rfl, by simp⟩, rfl⟩
    | _ => cases hfi
  · rintro ⟨salt, rounds, ⟨a, b, h1, h2, rfl, rfl⟩, rfl⟩
    have : EncodesAll (kdfFmt .bcrypt) (a ++ (b ++ [])) (bcryptOptions salt (digitSum b)).data := by
      unfold kdfFmt bcryptOptions
      refine .cons (.bytes h1) (.cons ?_ .nil)
      have := Encodes.uint (w := b)
      rw [h2] at this
      exact this
    simpa using this

theorem kdf_wire (kc : KdfCls) : wireFmt (kdfFmt kc) = true := by cases kc <;> decide

/-- The options and the passphrase, both ways. -/
theorem kdf_given_iff {inp : Inputs} {passphrase : Option Str} {f : KeyFile} {o : KdfOptions} :
    (∃ m p, getKdfClass (.str (strOf f.kdf)) = .ok o.cls ∧ prs (readDict (kdfFmt o.cls)) f.options = (.ok o.data, m) ∧
      (choosePassphrase inp (o.cls = .none) passphrase).res = .ok p) ↔ KdfGiven inp passphrase f o := by
  constructor
  · rintro ⟨m, p, h1, h2, h3⟩
    obtain ⟨cls, d⟩ := o
    simp only at h1 h2 h3
    rcases getKdfClass_iff.1 h1 with ⟨h, rfl⟩ | ⟨h, rfl⟩
    · simp [kdfFmt, readDict, prs_pure] at h2
      rw [h2.1]
      exact .none h
    · obtain ⟨w, r, hw, hr, -⟩ := (readDict_ok_iff (kdf_wire _)).1 h2
      obtain ⟨salt, rounds, hb, rfl⟩ := bcrypt_fields.1 hw
      exact .bcrypt h hb hr (choosePassphrase_iff.1 (by simpa using h3))
  · intro h
    cases h with
    | none h => exact ⟨0, [], getKdfClass_iff.2 (.inl ⟨h, rfl⟩), by simp [kdfFmt, readDict, prs_pure], rfl⟩
    | bcrypt h h1 h2 h3 =>
      have e := readDict_encodes (kdf_wire .bcrypt) (bcrypt_fields.2 ⟨_, _, h1, rfl⟩)
      exact ⟨_, _, getKdfClass_iff.2 (.inr ⟨h, rfl⟩), by rw [h2]; exact e _, choosePassphrase_iff.2 h3⟩


theorem strEncode_strOf (cs : List Char) : strEncode (strOf cs) = .ok (utf8 cs) := by
  unfold strEncode
  rw [utf8Encode?_chars]

theorem suites_nodup : (suites.map Prod.fst).Nodup := by decide +kernel

theorem suites_ne_none {name : Str} {su : Suite} (h : (name, su) ∈ suites) : name ≠ py! "none" := by
  have t : ∀ x ∈ suites.map Prod.fst, x ≠ py! "none" := by decide +kernel
  exact t _ (List.mem_map.2 ⟨_, h, rfl⟩)

theorem suites_unique {name : Str} {su su' : Suite} (h : (name, su) ∈ suites) (h' : (name, su') ∈ suites) : su = su' := by
  have := List.inj_on_of_nodup_map suites_nodup h h' rfl
  simpa using this

theorem deriveKey_iff {cr : Crypto} {inp : Inputs} {passphrase : Option Str} {f : KeyFile} {o : KdfOptions} {p : Str}
    {n : Nat} {r : Bytes} (ho : KdfGiven inp passphrase f o)
    (hp : (choosePassphrase inp (o.cls = .none) passphrase).res = .ok p) :
    deriveKey cr o p n = .ok r ↔ Derives cr inp passphrase n o r := by
  cases ho with
  | none h =>
    constructor
    · intro h
      simp [deriveKey] at h
      rw [h]
      exact .none
    · intro h
      generalize ho : (⟨.none, []⟩ : KdfOptions) = o at h
      cases h with
      | none => rfl
      | bcrypt => simp [bcryptOptions] at ho
  | @bcrypt salt w r' rounds p' h h1 h2 h3 =>
    have hp' := choosePassphrase_iff.1 (show (choosePassphrase inp false passphrase).res = .ok p from hp)
    rw [deriveKey_bcrypt]
    constructor
    · intro h
      rcases e : strEncode p with x | pw
      · rw [e] at h; cases h
      · rw [e] at h
        obtain ⟨cs, rfl, rfl⟩ := strEncode_ok e
        exact .bcrypt hp' h
    · intro h
      generalize ho : bcryptOptions salt rounds = o at h
      cases h with
      | none => simp [bcryptOptions] at ho
      | bcrypt g1 g2 =>
        simp [bcryptOptions] at ho
        obtain ⟨rfl, ho⟩ := ho
        rw [← ho] at g2
        rw [← enters_unique g1 hp', strEncode_strOf]
        exact g2

theorem decrypt_iff {cr : Crypto} (hl : ∀ {p s n r k}, cr.bcryptKdf p s n r = .ok k → k.length = n)
    {inp : Inputs} {passphrase : Option Str} {f : KeyFile} {o : KdfOptions} {p : Str}
    {cc : CipherCls} {plain : Bytes} (hc : getCipherClass (.str (strOf f.cipher)) = .ok cc)
    (ho : KdfGiven inp passphrase f o) (hp : (choosePassphrase inp (o.cls = .none) passphrase).res = .ok p) :
    decrypt cr cc o p (f.body ++ f.tag) = .ok plain ↔ Opens cr inp passphrase f o plain := by
  rcases class_suite hc with ⟨h, rfl⟩ | ⟨name, su, h, hm, hs⟩
  · simp only [Val.str.injEq] at h
    constructor
    · intro hd
      simp only [decrypt, Except.ok.injEq] at hd
      subst hd
      exact .none h
    · intro hd
      cases hd with
      | none _ => rfl
      | cipher hm =>
        rw [h] at hm
        have := suites_ne_none hm
        exact absurd rfl this
  · simp only [Val.str.injEq] at h
    subst h
    rw [decrypt_ne_none hs.notNone, hs.key, hs.iv]
    have key : ∀ r, Derives cr inp passphrase (su.key + su.iv) o r →
        decryptWithKeyIv cr cc (f.body ++ f.tag) (splitKeyIv cc r).1 (splitKeyIv cc r).2 =
          su.dec cr (r.take su.key) (r.drop su.key) (f.body ++ f.tag) := by
      intro r hr
      have hcase : r = [] ∨ r.length = su.key + su.iv := by
        cases hr with
        | none => exact .inl rfl
        | bcrypt _ h => exact .inr (hl h)
      rw [hs.dec]
      rcases hcase with rfl | hr
      · simp [splitKeyIv, sliceTo, sliceFrom]
      · obtain ⟨h1, h2⟩ := splitKeyIv_eq hs hr
        rw [h1]
        by_cases hi : 0 < su.iv
        · rw [h2 hi]
        · exact (suite_iv hm hi cr _ _ _ _).2
    constructor
    · intro hd
      rcases e : deriveKey cr o p (su.key + su.iv) with x | r
      · rw [e] at hd; cases hd
      · rw [e] at hd
        have hr := (deriveKey_iff ho hp).1 e
        have hd' : decryptWithKeyIv cr cc (f.body ++ f.tag) (splitKeyIv cc r).1 (splitKeyIv cc r).2 = .ok plain := hd
        rw [key r hr] at hd'
        exact .cipher hm hr hd'
    · intro hd
      cases hd with
      | none h =>
        rw [h] at hm
        exact absurd rfl (suites_ne_none hm)
      | @cipher su' r _ hm' hr hd =>
        have : su' = su := suites_unique hm' hm
        subst this
        rw [(deriveKey_iff ho hp).2 hr]
        show decryptWithKeyIv cr cc (f.body ++ f.tag) (splitKeyIv cc r).1 (splitKeyIv cc r).2 = _
        rw [key r hr, hd]

/-! ### Files -/

theorem forall₂_right {α β : Type} {R : α → β → Prop} {l : List α} {m : List β} (h : List.Forall₂ R l m) {b : β}
    (hb : b ∈ m) : ∃ a ∈ l, R a b := by
  induction h with
  | nil => simp at hb
  | cons h1 _ ih =>
    rcases List.mem_cons.1 hb with rfl | hb
    · exact ⟨_, List.mem_cons_self, h1⟩
    · obtain ⟨a, ha, hr⟩ := ih hb
      exact ⟨a, List.mem_cons_of_mem _ ha, hr⟩

/-- A successful parse, put together from its steps. -/
theorem listFromBytes_reads {ext : Ext} {cr : Crypto} {inp : Inputs} {passphrase : Option Str} {f : KeyFile}
    {w : Bytes} {kc : KdfCls} {cc : CipherCls} {ps : List Pair} {od : VDict} {m : Nat} {p : Str}
    {c1 c2 keys pad : Bytes} (post : Bytes) (hf : f.Lays w) (hk : getKdfClass (.str (strOf f.kdf)) = .ok kc)
    (hc : getCipherClass (.str (strOf f.cipher)) = .ok cc) (ht : TagFits cc f.tag)
    (hb : List.Forall₂ KeyBlob f.pubs (ps.map Pair.pub)) (ho : prs (readDict (kdfFmt kc)) f.options = (.ok od, m))
    (hp : (choosePassphrase inp (kc = .none) passphrase).res = .ok p)
    (hd : decrypt cr cc ⟨kc, od⟩ p (f.body ++ f.tag) = .ok (c1 ++ c2 ++ keys)) (l1 : c1.length = 4)
    (l2 : c2.length = 4) (hks : KeysIn (ps.map Pair.priv) keys pad) :
    (listFromBytes ext cr inp (w ++ post) passphrase).res = .ok ⟨ps, some (w ++ post), some (fileHeader f),
      some (f.body ++ f.tag), some ⟨kc, od⟩, some (c1 ++ c2 ++ keys), some (checkInts c1 c2), some pad⟩ := by
  rw [listFromBytes_body, listFromBytesBody_eq ext cr inp passphrase hf hk hc ht post]
  unfold parseFields
  refine Eff.bind_res_ok_iff.2 ⟨_, parsePubs_reads hb, ?_⟩
  rw [onStream_ok (Reader.readDict _) (by rw [Stream.rest_of]; exact ho)]
  simp only [newKdf_read ho, Eff.pure_bind]
  refine Eff.bind_res_ok_iff.2 ⟨_, hp, ?_⟩
  rw [hd, Eff.lift_ok_bind]
  refine Eff.bind_res_ok_iff.2 ⟨_, readPrivateSection_reads ?_ l1 l2 hks, rfl⟩
  intro q hq
  obtain ⟨b, -, h⟩ := forall₂_right hb (List.mem_map_of_mem hq)
  obtain ⟨rest, ⟨t, -, -, -, hh, -⟩, -⟩ := h
  exact ⟨_, by rw [hh]; rfl⟩

theorem tagFits_sizes {s : Str} {cc : CipherCls} (hc : getCipherClass (.str s) = .ok cc) (tag : Bytes) :
    TagFits cc tag ↔ ∃ block, cipherSizes s = some (block, tag.length) := by
  unfold TagFits
  rw [tagLength_table, cipher_sizes hc]
  constructor
  · intro h; exact ⟨_, by rw [h]⟩
  · rintro ⟨b, h⟩; simp at h; exact h.2.symm

theorem cipher_known {s : Str} {x : Nat × Nat} (h : cipherSizes s = some x) :
    ∃ cc, getCipherClass (.str s) = .ok cc := by
  unfold cipherSizes at h
  split at h
  · rename_i hs; subst hs; exact ⟨.none, by decide +kernel⟩
  · rw [Option.map_eq_some_iff] at h
    obtain ⟨su, h, -⟩ := h
    obtain ⟨c, hc, -⟩ := suite_class (dget_mem h)
    exact ⟨c, hc⟩

/-- **C75** (files). Parsing any bytes as a key list succeeds exactly if the grammar says so, and the result is
the list that the grammar says. -/
theorem C75_accepts (ext : Ext) {cr : Crypto} (hl : ∀ {p s n r k}, cr.bcryptKdf p s n r = .ok k → k.length = n)
    (inp : Inputs) (passphrase : Option Str) (b : Bytes) (kl : KeyList) :
    (listFromBytes ext cr inp b passphrase).res = .ok kl ↔ FileReads cr inp passphrase b kl := by
  constructor
  · intro h
    obtain ⟨P⟩ := listFromBytes_parse h
    have ho : KdfGiven inp passphrase P.f ⟨P.kc, P.od⟩ := kdf_given_iff.1 ⟨P.m, P.p, P.kdf, P.options, P.pass⟩
    obtain ⟨block, hbl⟩ := (tagFits_sizes P.cipher _).1 P.tag
    refine ⟨⟨P.f, P.w, P.post, P.plain, P.c1, P.c2, P.ws.flatten ++ P.pad, P.pad, ⟨P.kc, P.od⟩, block, P.input, P.lays,
      hbl, ho, (decrypt_iff hl P.cipher ho P.pass).1 P.dec, ?_, P.len1, P.len2, ?_, keysAt_keysIn P.keys _, ?_⟩⟩
    · rw [P.split]; simp
    · have := P.pubs
      rw [← P.pairs, List.forall₂_map_right_iff] at this
      exact this.imp fun _ _ h => keyReads_iff.1 h
    · have e := P.list
      exact ⟨congrArg KeyList.byteString e, congrArg KeyList.header e, congrArg KeyList.cipherBytes e,
        congrArg KeyList.kdfOptions e, congrArg KeyList.decipherBytes e, congrArg KeyList.decipherHeader e,
        congrArg KeyList.decipherPadding e⟩
  · rintro ⟨f, w, post, plain, c1, c2, keys, pad, o, block, rfl, hf, hs, ho, hd, rfl, l1, l2, hp, hk, e1, e2, e3, e4, e5,
      e6, e7⟩
    obtain ⟨cc, hc⟩ := cipher_known hs
    obtain ⟨m, p, g1, g2, g3⟩ := kdf_given_iff.2 ho
    have := listFromBytes_reads (ext := ext) post hf g1 hc ((tagFits_sizes hc _).2 ⟨_, hs⟩)
      (List.forall₂_map_right_iff.2 hp) g2 g3 ((decrypt_iff hl hc ho g3).2 hd) l1 l2 hk
    rw [this]
    obtain ⟨ps, x1, x2, x3, x4, x5, x6, x7⟩ := kl
    simp only at e1 e2 e3 e4 e5 e6 e7
    subst e1 e2 e3 e4 e5 e6 e7
    rfl

/-- **C75** (rejection). Everything else is rejected with `ValueError`. -/
theorem C75_rejects (ext : Ext) {cr : Crypto} (hl : ∀ {p s n r k}, cr.bcryptKdf p s n r = .ok k → k.length = n)
    (inp : Inputs) (passphrase : Option Str) (b : Bytes) :
    (∃ e, (listFromBytes ext cr inp b passphrase).res = .error e ∧ e.isValueError = true) ↔
      ¬ ∃ kl, FileReads cr inp passphrase b kl := by
  constructor
  · rintro ⟨e, he, -⟩ ⟨kl, h⟩
    rw [(C75_accepts ext hl inp passphrase b kl).2 h] at he
    cases he
  · intro h
    rcases e : (listFromBytes ext cr inp b passphrase).res with x | kl
    · exact ⟨x, rfl, C27_only_value_error ext cr inp b passphrase x e⟩
    · exact absurd ⟨kl, (C75_accepts ext hl inp passphrase b kl).1 e⟩ h

/-- **C75** (unambiguous). The bytes, with the passphrase, determine the list. -/
theorem C75_unambiguous {cr : Crypto} (hl : ∀ {p s n r k}, cr.bcryptKdf p s n r = .ok k → k.length = n)
    (inp : Inputs) (passphrase : Option Str) (b : Bytes) (kl kl' : KeyList)
    (h : FileReads cr inp passphrase b kl) (h' : FileReads cr inp passphrase b kl') : kl = kl' := by
  have h1 := (C75_accepts exExt hl inp passphrase b kl).2 h
  have h2 := (C75_accepts exExt hl inp passphrase b kl').2 h'
  rw [h1] at h2
  simpa using h2

/-! ### Texts -/

theorem loop_afterCR {s : Str} (h : ¬ ∃ t, s = 0x0a :: t) (b : Bool) (cur : Str) :
    splitLinesLoop cur b s = splitLinesLoop cur false s := by
  cases s with
  | nil => rfl
  | cons c t =>
    have : c ≠ 10 := fun e => h ⟨t, by rw [e]⟩
    cases b <;> simp [splitLinesLoop, this]

theorem splitLines_linesOf {ls : List Str} {s : Str} (h : LinesOf ls s) : splitLines s = ls := by
  unfold splitLines
  induction h with
  | nil => rfl
  | @last l h1 h2 =>
    have := splitLines_line h2 [] []
    rw [List.append_nil, List.nil_append] at this
    rw [this, splitLinesLoop, if_neg h1]
  | @crlf l s ls h1 h2 ih =>
    rw [List.append_assoc, splitLines_line h1, List.nil_append]
    rw [show ([13, 10] ++ s : Str) = 13 :: 10 :: s from rfl, splitLinesLoop, if_neg (by simp), if_pos (by decide)]
    rw [show (decide ((13 : Nat) = 13)) = true from rfl, splitLinesLoop, if_pos (by decide), ih]
  | @cons l s ls e h1 he hn h2 ih =>
    rw [List.append_assoc, splitLines_line h1, List.nil_append]
    rw [show ([e] ++ s : Str) = e :: s from rfl, splitLinesLoop, if_neg (by simp),
      if_pos ((isLineBreak_iff e).2 he)]
    congr 1
    by_cases hc : e = 13
    · rw [loop_afterCR (fun ht => hn ⟨hc, ht⟩), ih]
    · rw [decide_eq_false hc, ih]

theorem linesOf_exists (s : Str) : ∃ ls, LinesOf ls s := by
  induction hn : s.length using Nat.strong_induction_on generalizing s with
  | _ n ih =>
    subst hn
    rcases Nat.eq_zero_or_pos s.length with h0 | h0
    · rw [List.length_eq_zero_iff] at h0
      subst h0
      exact ⟨[], .nil⟩
    · by_cases hb : ∃ c ∈ s, c ∈ lineBoundaries
      · obtain ⟨l, e, t, rfl, he, hl⟩ : ∃ l e t, s = l ++ e :: t ∧ e ∈ lineBoundaries ∧ ∀ c ∈ l, c ∉ lineBoundaries := by
          clear ih h0
          induction s with
          | nil => simp at hb
          | cons a s ih =>
            by_cases ha : a ∈ lineBoundaries
            · exact ⟨[], a, s, rfl, ha, by simp⟩
            · obtain ⟨c, hc, hcb⟩ := hb
              rcases List.mem_cons.1 hc with rfl | hc
              · exact absurd hcb ha
              · obtain ⟨l, e, t, rfl, he, hl⟩ := ih ⟨c, hc, hcb⟩
                refine ⟨a :: l, e, t, rfl, he, ?_⟩
                intro x hx
                rcases List.mem_cons.1 hx with rfl | hx
                · exact ha
                · exact hl x hx
        by_cases hcr : e = 0x0d ∧ ∃ t', t = 0x0a :: t'
        · obtain ⟨rfl, t', rfl⟩ := hcr
          obtain ⟨ls, h⟩ := ih t'.length (by simp; omega) t' rfl
          exact ⟨l :: ls, by simpa using LinesOf.crlf hl h⟩
        · obtain ⟨ls, h⟩ := ih t.length (by simp; omega) t rfl
          exact ⟨l :: ls, by simpa using LinesOf.cons hl he hcr h⟩
      · refine ⟨[s], .last ?_ fun c hc hcb => hb ⟨c, hc, hcb⟩⟩
        rintro rfl
        simp at h0

/-- Python's `splitlines` finds exactly the lines of the text. -/
theorem linesOf_iff {ls : List Str} {s : Str} : splitLines s = ls ↔ LinesOf ls s := by
  constructor
  · rintro rfl
    obtain ⟨ls, h⟩ := linesOf_exists s
    rw [splitLines_linesOf h]
    exact h
  · exact splitLines_linesOf

theorem index_last {α : Type} (l : List α) (z : α) : pyIndex (l ++ [z]) (-1) = .ok z := by
  unfold pyIndex
  rw [if_neg (by decide), if_pos (by simp)]
  rw [show (((l ++ [z]).length : Int) + -1).toNat = l.length by simp]
  simp [listGet]

/-- **C75** (texts). Parsing a text as a key list succeeds exactly if its first line is the begin marker, its last
the end marker, and the lines between, put together, are base64 text of a file that parses. -/
theorem C75_texts (ext : Ext) {cr : Crypto} (hl : ∀ {p s n r k}, cr.bcryptKdf p s n r = .ok k → k.length = n)
    (inp : Inputs) (passphrase : Option Str) (s : Str) (kl : KeyList) :
    (listFromString ext cr inp s passphrase).res = .ok kl ↔
      ∃ ls b, LinesOf (beginMarker :: (ls ++ [endMarker])) s ∧ TextReads ls.flatten b ∧ FileReads cr inp passphrase b kl := by
  simp only [← C75_accepts ext hl, ← textReads_iff]
  constructor
  · intro h
    have hl : ∃ ls, splitLines s = beginMarker :: (ls ++ [endMarker]) := by
      unfold listFromString at h
      simp only at h
      obtain ⟨a, h0, h⟩ := Eff.bind_res_ok_iff.1 h
      split at h
      · simp at h
      · rename_i ha
        obtain ⟨z, h1, h⟩ := Eff.bind_res_ok_iff.1 h
        split at h
        · simp at h
        · rename_i hz
          simp only [ne_eq, not_not] at ha hz
          subst ha hz
          rcases hs : splitLines s with _ | ⟨x, t⟩
          · rw [hs] at h0; simp [pyIndex, listGet] at h0
          · rw [hs] at h0 h1
            have hx : x = pemHeader := by simpa [pyIndex, listGet] using h0
            rcases List.eq_nil_or_concat t with rfl | ⟨ls, y, rfl⟩
            · have : pemHeader = pemFooter := by simpa [pyIndex, listGet, hx] using h1
              exact absurd this (by decide)
            · rw [List.concat_eq_append] at h1 ⊢
              have := index_last (x :: ls) y
              rw [List.cons_append] at this
              have e : Except.ok y = (Except.ok pemFooter : Except Exn Str) := by
                rw [← this]; simpa using h1
              simp at e
              exact ⟨ls, by rw [hx, e]; rfl⟩
    obtain ⟨ls, hls⟩ := hl
    rw [listFromString_lines ext cr inp s passphrase ls hls] at h
    obtain ⟨b, hb, h⟩ := Eff.bind_res_ok_iff.1 h
    exact ⟨ls, b, linesOf_iff.1 hls, by simpa using hb, h⟩
  · rintro ⟨ls, b, hls, hb, h⟩
    rw [listFromString_lines ext cr inp s passphrase ls (linesOf_iff.2 hls), hb, Eff.lift_ok_bind]
    exact h

/-! ### Lines -/

theorem no_space {a : Str} : (0x20 ∉ a) ↔ ∀ c ∈ a, c ≠ 32 :=
  ⟨fun h _ hc e => h (e ▸ hc), fun h hc => h _ hc rfl⟩

theorem words_cases (ext : Ext) (kind : Kind) (s : Str) :
    (0x20 ∉ s ∧ fromString ext kind s = Eff.throw .indexError) ∨
    ∃ a w c, Words s a w c ∧ fromString ext kind s = fromStringTail ext kind a w c := by
  rcases split_cases s with ⟨h, e⟩ | ⟨a, b, rfl, ha, hb, e⟩ | ⟨a, b, c, rfl, ha, hb, e⟩
  · exact .inl ⟨no_space.2 h, fromString_one ext kind e⟩
  · exact .inr ⟨a, b, [], .two (no_space.2 ha) (no_space.2 hb), fromString_two ext kind e⟩
  · exact .inr ⟨a, b, c, .three (no_space.2 ha) (no_space.2 hb), fromString_three ext kind e⟩

theorem words_tail {ext : Ext} {kind : Kind} {s a w c : Str} (h : Words s a w c) :
    fromString ext kind s = fromStringTail ext kind a w c := by
  cases h with
  | two ha hw => exact fromString_two ext kind (split_two (no_space.1 ha) (no_space.1 hw))
  | three ha hw => exact fromString_three ext kind (split_three (no_space.1 ha) (no_space.1 hw) c)

theorem words_space {s a w c : Str} (h : Words s a w c) : 0x20 ∈ s := by
  cases h <;> simp

theorem tail_res {ext : Ext} {kind : Kind} {a w c : Str} {b : Bytes} (h : b64decodeStr w = .ok b) :
    (fromStringTail ext kind a w c).res =
      (fromBytes ext kind b (some [(py! "key_type", .str a), (py! "comment", .str c)])).res := by
  unfold fromStringTail
  rw [h, Eff.lift_ok_bind]
  rcases e : (fromBytes ext kind b (some [(py! "key_type", .str a), (py! "comment", .str c)])).res with x | k
  · exact Eff.bind_res_error_iff.2 (.inl e)
  · refine Eff.bind_res_ok_iff.2 ⟨k, e, ?_⟩
    obtain ⟨t, ht⟩ := fromBytes_type e
    have : getItem k.header (py! "key_type") = .ok (.str t) := by unfold getItem; rw [ht]
    rw [this, Eff.lift_ok_bind]
    split <;> rfl

theorem accepts_clear {ext : Ext} {kind : Kind} {b : Bytes} {a c : Str} {k : Key} :
    (fromBytes ext kind b (some [(py! "key_type", .str a), (py! "comment", .str c)])).res = .ok k ↔
      ∃ rest, KeyReads kind b k rest ∧ k.clear = lineClear a c rest := by
  have e : ∀ rest : Bytes, lineClear a c rest = if rest = [] then [(py! "key_type", .str a), (py! "comment", .str c)]
      else dset [(py! "key_type", .str a), (py! "comment", .str c)] (py! "remainder") (.bytes rest) := by
    intro rest
    unfold lineClear
    split
    · rfl
    · simp [dset]
  rw [C74_accepts]
  constructor
  · rintro ⟨t, p, f, rest, h1, h2, h3, h4, h5, rfl, rfl, h8⟩
    exact ⟨rest, ⟨t, h1, h2, h3, h4, h5⟩, by rw [e]; exact h8⟩
  · rintro ⟨rest, ⟨t, h1, h2, h3, h4, h5⟩, h8⟩
    exact ⟨t, _, _, rest, h1, h2, h3, h4, h5, rfl, rfl, by rw [e] at h8; exact h8⟩

/-- **C76** (acceptance). Parsing a text as a key succeeds exactly if its second word is base64 text of a key; the
key then has the first word and everything after the second space in the clear. -/
theorem C76_accepts (ext : Ext) (kind : Kind) (s : Str) (k : Key) :
    (fromString ext kind s).res = .ok k ↔
      ∃ a w c b rest, Words s a w c ∧ TextReads w b ∧ KeyReads kind b k rest ∧ k.clear = lineClear a c rest := by
  constructor
  · intro h
    rcases words_cases ext kind s with ⟨-, e⟩ | ⟨a, w, c, hw, e⟩
    · rw [e] at h; simp at h
    · rw [e] at h
      rcases hb : b64decodeStr w with x | b
      · unfold fromStringTail at h
        rw [hb] at h; simp at h
      · rw [tail_res hb] at h
        obtain ⟨rest, h1, h2⟩ := accepts_clear.1 h
        exact ⟨a, w, c, b, rest, hw, textReads_iff.1 hb, h1, h2⟩
  · rintro ⟨a, w, c, b, rest, hw, hb, h1, h2⟩
    rw [words_tail hw, tail_res (textReads_iff.2 hb)]
    exact accepts_clear.2 ⟨rest, h1, h2⟩

theorem decode_error {s : Str} (h : ∀ c ∈ s, c < 128) {e : Exn} (he : b64decodeStr s = .error e) : e = .binasciiError := by
  have key : ∀ (s : Bytes) (q l p : Nat) (o : Bytes) (e : Exn), a2bLoop s q l p o = .error e → e = .binasciiError := by
    intro s
    induction s with
    | nil =>
      intro q l p o e h
      rw [a2bLoop] at h
      split at h
      · cases h
      · simpa using h.symm
    | cons c t ih =>
      intro q l p o e h
      rw [a2bLoop] at h
      split at h
      · split at h
        · split at h
          · simp at h
          · exact ih _ _ _ _ _ h
        · exact ih _ _ _ _ _ h
      · split at h
        · exact ih _ _ _ _ _ h
        · split at h
          · exact ih _ _ _ _ _ h
          · split at h
            · exact ih _ _ _ _ _ h
            · split at h <;> exact ih _ _ _ _ _ h
  unfold b64decodeStr at he
  rw [if_pos (by simpa using h)] at he
  exact key _ _ _ _ _ _ he

/-- What is given for the clear part has no influence on errors. -/
theorem fromBytes_error_clear (ext : Ext) (kind : Kind) (b : Bytes) (clear : Option VDict) (e : Exn) :
    (fromBytes ext kind b clear).res = .error e ↔ (fromBytes ext kind b none).res = .error e := by
  have mk : ∀ h p f, (mkKeyWith ext (caFromBytes ext) kind h p f clear).res = .error e ↔
      (mkKeyWith ext (caFromBytes ext) kind h p f none).res = .error e := by
    intro h p f
    have : mkKeyWith ext (caFromBytes ext) kind h p f clear =
        (mkKeyWith ext (caFromBytes ext) kind h p f none >>= fun k => pure { k with clear := clear.getD [] }) := by
      unfold mkKeyWith
      simp only [Eff.bind_assoc, Eff.pure_bind]
    rw [this, Eff.bind_res_error_iff]
    simp
  have fb : ∀ cl, (fromBytes ext kind b cl).res = .error e ↔
      match prs (readKey kind) b with
      | (.error e', _) => e' = e
      | (.ok (h, p, f), _) => (mkKeyWith ext (caFromBytes ext) kind h p f cl).res = .error e := by
    intro cl
    unfold fromBytes
    rw [fromBytesWith_eq]
    rcases prs (readKey kind) b with ⟨e' | ⟨h, p, f⟩, n⟩
    · simp
    · simp only
      rw [Eff.bind_res_error_iff, or_iff_left]
      rintro ⟨k, -, h⟩
      split at h
      · have hh : (do Eff.warn .excessBytes; pure { k with clear := dset k.clear (py! "remainder") (.bytes (b.drop n)) } : Eff Key).res
          = .ok { k with clear := dset k.clear (py! "remainder") (.bytes (b.drop n)) } := rfl
        rw [hh] at h
        cases h
      · simp at h
  rw [fb, fb]
  rcases prs (readKey kind) b with ⟨e' | ⟨h, p, f⟩, n⟩
  · rfl
  · exact mk h p f

/-- **C76** (errors). Otherwise the exception says what is wrong: `IndexError` exactly if there is no space;
`ValueError` if the second word has a character that is not ASCII; `binascii.Error` if it is not base64
text; and if it is, the exception is that of parsing the bytes (see C74). -/
theorem C76_errors (ext : Ext) (kind : Kind) (s : Str) :
    ((fromString ext kind s).res = .error .indexError ↔ 0x20 ∉ s) ∧
    ∀ a w c, Words s a w c →
      ((¬ ∀ x ∈ w, x < 128) → ∃ m, (fromString ext kind s).res = .error (.valueError m)) ∧
      ((∀ x ∈ w, x < 128) → (¬ ∃ b, TextReads w b) → (fromString ext kind s).res = .error .binasciiError) ∧
      (∀ b, TextReads w b → ∀ e, (fromString ext kind s).res = .error e ↔ (fromBytes ext kind b none).res = .error e) := by
  refine ⟨⟨fun h => ?_, fun h => ?_⟩, fun a w c hw => ?_⟩
  · rcases words_cases ext kind s with ⟨e, -⟩ | ⟨a, w, c, hw, e⟩
    · exact e
    · exfalso
      rw [e] at h
      rcases hb : b64decodeStr w with x | b
      · unfold fromStringTail at h
        rw [hb] at h
        simp at h
        subst h
        have := b64decodeStr_exn hb
        simp [Exn.isValueError] at this
      · rw [tail_res hb] at h
        rcases (C74_unknown ext kind b _).2 _ h with ⟨_, _, h⟩ | h | ⟨_, h⟩ <;> simp at h
  · rcases words_cases ext kind s with ⟨-, e⟩ | ⟨a, w, c, hw, -⟩
    · rw [e]; rfl
    · exact absurd (words_space hw) h
  · rw [words_tail hw]
    refine ⟨fun h => ?_, fun h1 h2 => ?_, fun b hb e => ?_⟩
    · unfold fromStringTail b64decodeStr
      rw [if_neg (by simpa using h)]
      exact ⟨_, rfl⟩
    · rcases hb : b64decodeStr w with x | b
      · have := decode_error h1 hb
        subst this
        unfold fromStringTail
        rw [hb]; rfl
      · exact absurd ⟨b, textReads_iff.1 hb⟩ h2
    · rw [tail_res (textReads_iff.2 hb)]
      exact fromBytes_error_clear ext kind b _ e

/-! ### Examples -/

/-- A file without keys: the check numbers differ and the padding is wrong, but it parses. -/
def exEmptyFile : Bytes := magic ++ [0, 0, 0, 4] ++ pb! "none" ++ [0, 0, 0, 4] ++ pb! "none" ++ [0, 0, 0, 0] ++ [0, 0, 0, 0]
  ++ [0, 0, 0, 9, 1, 2, 3, 4, 5, 6, 7, 8, 99]

/-- The list that the grammar finds in it. -/
def exEmptyList (b : Bytes) : KeyList := ⟨[], some b, some [(py! "auth_magic", .bytes magic),
  (py! "cipher", .str (py! "none")), (py! "kdf", .str (py! "none")), (py! "kdf_options", .bytes []),
  (py! "num_keys", .int 0)], some [1, 2, 3, 4, 5, 6, 7, 8, 99], some ⟨.none, []⟩, some [1, 2, 3, 4, 5, 6, 7, 8, 99],
  some [(py! "check_int_1", .int 0x01020304), (py! "check_int_2", .int 0x05060708)], some [99]⟩

/-- Non-vacuous: the grammar accepts a file, also with something after it, directly from its definition. -/
theorem exEmptyFile_reads (inp : Inputs) (cr : Crypto) (post : Bytes) :
    FileReads cr inp none (exEmptyFile ++ post) (exEmptyList (exEmptyFile ++ post)) := by
  refine ⟨⟨⟨"none".toList, "none".toList, [], [], [1, 2, 3, 4, 5, 6, 7, 8, 99], []⟩, exEmptyFile, post,
    [1, 2, 3, 4, 5, 6, 7, 8, 99], [1, 2, 3, 4], [5, 6, 7, 8], [99], [99], ⟨.none, []⟩, 8, rfl, ?_, by decide +kernel, .none (by decide +kernel),
    ?_, rfl, rfl, rfl, .nil, .nil, rfl, rfl, rfl, rfl, rfl, by simp only [exEmptyList]; decide +kernel, rfl⟩⟩
  · refine ⟨_, [0, 0, 0, 9, 1, 2, 3, 4, 5, 6, 7, 8, 99], ⟨[0, 0, 0, 4] ++ pb! "none", [0, 0, 0, 4] ++ pb! "none", [0, 0, 0, 0],
      [0, 0, 0, 0], [], ?_, ?_, ?_, rfl, by decide +kernel, by decide, rfl, rfl⟩, ?_, ?_⟩
    · exact ⟨[0, 0, 0, 4], rfl, by decide +kernel, by decide +kernel⟩
    · exact ⟨[0, 0, 0, 4], rfl, by decide +kernel, by decide +kernel⟩
    · exact ⟨[0, 0, 0, 0], rfl, by decide +kernel, by decide +kernel⟩
    · exact ⟨[0, 0, 0, 9], rfl, by decide +kernel, by decide +kernel⟩
    · decide +kernel
  · exact Opens.none (by decide +kernel)

/-- So it parses. -/
example (post : Bytes) : (listFromBytes exExt toyCrypto exInputs (exEmptyFile ++ post) none).res =
    .ok (exEmptyList (exEmptyFile ++ post)) :=
  (C75_accepts exExt toyCrypto_laws.kdf_length exInputs none _ _).2 (exEmptyFile_reads exInputs toyCrypto post)

/-- An encrypted file with two keys is in the grammar, with the passphrase that is entered. -/
example : ∃ kl, FileReads toyCrypto exInputs none exFile kl ∧ kl.pairs.length = 2 := by
  have h : ((listFromBytes exExt toyCrypto exInputs exFile none).res.toOption.map (fun k => k.pairs.length)) = some 2 := by
    decide +kernel
  rcases e : (listFromBytes exExt toyCrypto exInputs exFile none).res with x | kl
  · rw [e] at h; simp [Except.toOption] at h
  · rw [e] at h
    exact ⟨kl, (C75_accepts exExt toyCrypto_laws.kdf_length exInputs none _ _).1 e, by simpa [Except.toOption] using h⟩

/-- And it is not, with another passphrase. -/
example : ¬ ∃ kl, FileReads toyCrypto exInputs (some (py! "wrong")) exFile kl := by
  rw [← C75_rejects exExt toyCrypto_laws.kdf_length]
  have h : ((listFromBytes exExt toyCrypto exInputs exFile (some (py! "wrong"))).res.toOption.isSome) = false := by
    decide +kernel
  rcases e : (listFromBytes exExt toyCrypto exInputs exFile (some (py! "wrong"))).res with x | kl
  · exact ⟨x, rfl, C27_only_value_error _ _ _ _ _ _ e⟩
  · rw [e] at h; simp [Except.toOption] at h

/-- Lines end with a variety of characters; an empty line counts. -/
example : LinesOf [py! "a", [], py! "b"] (py! "a" ++ [0x0d, 0x0a] ++ [0x2028] ++ py! "b") := by
  refine .crlf (by decide) ?_
  exact .cons (l := []) (e := 0x2028) (by simp) (by decide) (by simp) (.last (by decide) (by decide))

/-- `aGk=` and text with other characters in it read as `hi`; what comes after the end is ignored. -/
example : TextReads (py! "aGk=") (pb! "hi") ∧ TextReads (py! "= a\tG=k .=zzz") (pb! "hi") := by
  rw [← textReads_iff, ← textReads_iff]
  decide +kernel

/-- A group of two digits at the end is not base64 text. -/
example : ¬ ∃ b, TextReads (py! "aGkhaG=") b := by
  rintro ⟨b, h⟩
  rw [← textReads_iff] at h
  have : b64decodeStr (py! "aGkhaG=") = .error .binasciiError := by decide +kernel
  rw [this] at h
  cases h

/-- A line with a key whose first word is wrong and that has a comment with a space. -/
example : ∃ k, (fromString exExt .pub (py! "x AAAAC3NzaC1lZDI1NTE5AAAAAgEC a b")).res = .ok k ∧
    k.clear = lineClear (py! "x") (py! "a b") [] := by
  have h : ((fromString exExt .pub (py! "x AAAAC3NzaC1lZDI1NTE5AAAAAgEC a b")).res.toOption.map Key.clear) =
      some (lineClear (py! "x") (py! "a b") []) := by decide +kernel
  rcases e : (fromString exExt .pub (py! "x AAAAC3NzaC1lZDI1NTE5AAAAAgEC a b")).res with x | k
  · rw [e] at h; simp [Except.toOption] at h
  · rw [e] at h; exact ⟨k, rfl, by simpa [Except.toOption] using h⟩

end OSK
