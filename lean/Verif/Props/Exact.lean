import Verif.Lemmas.Exact
/-
C119: which key files come out again byte for byte.
-/
namespace OSK
open Spec

theorem keysIn_reads {ks : List Key} {b pad : Bytes} (h : KeysIn ks b pad) : ∀ k ∈ ks, ∃ x rest, KeyReads .priv x k rest := by
  induction h with
  | nil => intro k hk; cases hk
  | cons h _ _ ih =>
    intro k hk
    rcases List.mem_cons.1 hk with rfl | hk
    · exact ⟨_, _, h⟩
    · exact ih k hk

theorem forall₂_swap {α β : Type} {R : α → β → Prop} {S : β → α → Prop} {l : List α} {m : List β} (h : List.Forall₂ R l m)
    (hs : ∀ a ∈ l, ∀ b ∈ m, R a b → S b a) : List.Forall₂ S m l := by
  induction h with
  | nil => exact .nil
  | cons h _ ih => exact .cons (hs _ (by simp) _ (by simp) h) (ih fun a ha b hb => hs a (by simp [ha]) b (by simp [hb]))

theorem kdfFields_none {fmt : FDict} : (py! "none", fmt) ∈ kdfFields → fmt = [] := by
  intro h
  simp only [kdfFields, List.mem_cons, List.not_mem_nil, or_false, Prod.mk.injEq] at h
  rcases h with ⟨-, rfl⟩ | ⟨h, -⟩
  · rfl
  · exact absurd h (by decide)

theorem kdfFields_bcrypt {fmt : FDict} : (py! "bcrypt", fmt) ∈ kdfFields →
    fmt = [(py! "salt", .pascal .bytes), (py! "rounds", .struct ⟨true, [.int 4 false]⟩)] := by
  intro h
  simp only [kdfFields, List.mem_cons, List.not_mem_nil, or_false, Prod.mk.injEq] at h
  rcases h with ⟨h, -⟩ | ⟨-, rfl⟩
  · exact absurd h (by decide)
  · rfl

theorem parsed_kind {ext : Ext} {kind : Kind} {b : Bytes} {clear : Option VDict} {k : Key}
    (h : (fromBytes ext kind b clear).res = .ok k) : k.kind = kind := by
  obtain ⟨P⟩ := parsed_key h
  exact congrArg Key.kind P.key

theorem sizes_suite {name : Str} {su : Suite} (h : (name, su) ∈ suites) : cipherSizes name = some (su.block, su.tag) := by
  unfold cipherSizes
  rw [if_neg (suites_ne_none h), dget_of_mem suites_nodup h]
  rfl

/-- **C119** (the laws). The standard algorithms are such that encryption undoes decryption. -/
theorem C119_laws : ReverseLaws Std.crypto := reverse_std

/-- **C119** (partial). Full claim: a key file that was read is written again, with the options kept and the same check number and
passphrase, as the same bytes.  It is false (`C119_false`).  Proved instead: exactly which files these are. -/
theorem C119_exact_partial {ext : Ext} {cr : Crypto} (hl : CryptoLaws cr) (hv : ReverseLaws cr) (inp inp1 : Inputs)
    (passphrase passphrase1 : Option Str) (b : Bytes) (kl : KeyList) (hr : (listFromBytes ext cr inp b passphrase).res = .ok kl)
    (hi : inp1.checkInt < 2 ^ 32) :
    (packKeyList cr inp1 kl passphrase1 none false true).res = .ok b ↔
      FileTight cr inp1 passphrase1 inp1.checkInt b kl := by
  obtain ⟨P⟩ := listFromBytes_parse hr
  have hpar := list_parsed P
  have hc : AllConstructed ext kl.pairs := by
    intro p hp
    obtain ⟨⟨x, -, hx⟩, ⟨y, hy⟩, -⟩ := hpar p hp
    exact ⟨parsed_constructed hx, parsed_constructed hy, parsed_kind hy⟩
  obtain ⟨f0, w0, post, plain0, c1, c2, keys, pad, o0, block0, hb0, hl0, hs0, hk0, -, -, -, -, hp0, hq0, -, hh0, -, ho0, -⟩ :=
    ((C75_accepts ext hl.kdf_length inp passphrase b kl).1 hr).parts
  have hpub : ∀ p ∈ kl.pairs, ∃ x rest, KeyReads .pub x p.pub rest := by
    intro p hp
    obtain ⟨x, -, rest, h, -⟩ := forall₂_right hp0 hp
    exact ⟨x, rest, h⟩
  have hprv : ∀ p ∈ kl.pairs, ∃ x rest, KeyReads .priv x p.priv rest :=
    fun p hp => keysIn_reads hq0 _ (List.mem_map.2 ⟨p, hp, rfl⟩)
  have hnamed0 : Named kl (.str (strOf f0.cipher)) (.str (strOf f0.kdf)) := .inl ⟨_, hh0, by simp [dget_cons], by simp [dget_cons]⟩
  constructor
  · intro h
    rcases C91_complete ext inp1 kl none false true hc hi with ⟨e, he⟩ | ⟨cipher, kdf, opts, ob, pubs, plain, hp⟩
    · rw [C91_unprepared ext cr inp1 kl passphrase1 none false true e hc hi he] at h
      cases h
    · have hfin := ((C91_prepared ext cr hl inp1 kl passphrase1 none false true cipher kdf opts ob pubs plain hc hi hp).2 _).1 h
      obtain ⟨sel, privs, sizes, ⟨⟨⟨hnamed, hopt, fmt, hfm, hst⟩, -, -, -⟩, hsel, hpubs⟩, hpr, hsz, hsec⟩ := hp
      have hsel : sel = kl.pairs := hsel
      subst hsel
      have hname := (named_iff.2 hnamed).symm.trans (named_iff.2 hnamed0)
      simp only [Prod.mk.injEq, Val.str.injEq] at hname
      obtain ⟨hcn, rfl⟩ := hname
      have hopts : opts = o0.data := by
        rcases hopt with ⟨o, -, ho, rfl⟩ | ⟨h | h, -⟩
        · rw [ho0] at ho
          cases ho
          rfl
        · cases h
        · rw [ho0] at h
          cases h
      subst hopts
      cases hfin with
      | @file p ks body tag _ hpf hen hks hlay =>
        have htag : sizes.2 = tag.length := by
          cases hen with
          | clear h =>
            rw [h] at hsz
            cases hsz
            rfl
          | sealed h1 _ _ h4 =>
            rw [sizes_suite h1] at hsz
            cases hsz
            exact h4.symm
        have hent : strOf f0.kdf = py! "bcrypt" → Enters inp1 passphrase1 p := by
          intro hk
          unfold passphraseFor at hpf
          rw [hk, if_neg (by decide)] at hpf
          cases passphrase1 with
          | none => exact .inr ⟨rfl, hpf⟩
          | some q => cases hpf; exact .inl rfl
        refine ⟨⟨cipher, ks, ob, pubs, body, tag⟩, o0, plain, privs, sizes.1, hlay, by rw [← htag]; exact hsz, ?_, ?_, ?_, ?_, hsec⟩
        · cases hk0 with
          | none hk =>
            rw [hk] at hfm
            cases kdfFields_none hfm
            cases hst
            exact .none (by rw [← hks]; exact hk) rfl
          | bcrypt hk _ _ _ =>
            have hf := hfm
            rw [hk] at hf
            cases kdfFields_bcrypt hf
            exact .bcrypt (by rw [← hks]; exact hk) (bcrypt_stores.1 hst) (hent hk)
        · refine forall₂_swap hpubs fun p hp w _ hw => ?_
          obtain ⟨x, rest, hx⟩ := hpub p hp
          exact (keyTight_pub hx).2 hw.1
        · refine forall₂_swap hpr fun p hp w _ hw => ?_
          obtain ⟨x, rest, hx⟩ := hprv p hp
          exact (keyTight_priv hx).2 hw
        · cases hen with
          | clear h =>
            have := Opens.none (cr := cr) (inp := inp1) (passphrase := passphrase1) (f := ⟨cipher, ks, ob, pubs, plain, []⟩) (o := o0) h
            rw [List.append_nil] at this
            exact this
          | @sealed su r _ _ h1 h2 h3 h4 =>
            refine .cipher h1 ?_ (suite_inv h1 hl h3).1
            generalize hx : (Except.ok r : Except Exn Bytes) = x at h2
            cases h2 with
            | none hk =>
              cases hx
              cases hk0 with
              | none _ => exact .none
              | bcrypt hk' _ _ _ => rw [hk] at hk'; exact absurd hk' (by decide)
            | surrogate => cases hx
            | @bcrypt cs salt' rounds' hk hs hro =>
              cases hk0 with
              | none hk' => rw [hk] at hk'; exact absurd hk' (by decide)
              | bcrypt _ _ _ _ =>
                simp [bcryptOptions, dget_cons] at hs hro
                subst hs hro
                exact .bcrypt (hent hk) hx.symm
  · rintro ⟨f, o, plain, privs, block, h1, h2, h3, h4, h5, h6, h7⟩
    obtain ⟨rfl, rfl, -⟩ := lays_unique (r := []) (r' := post) h1 hl0 (fun e => by
      rw [e, hs0] at h2
      exact (Prod.mk.inj (Option.some.inj h2)).2.symm) (by rw [List.append_nil]; exact hb0)
    have hlay := h1
    obtain ⟨front, wb, ⟨wc, wk, wo, wn, wp, g1, g2, g3, g4, g5, g6, g7, g8⟩, g9, g10⟩ := hlay
    have ho : o = o0 := by
      cases h3 with
      | none hk _ =>
        cases hk0 with
        | none _ => rfl
        | bcrypt hk' _ _ _ => rw [hk] at hk'; exact absurd hk' (by decide)
      | bcrypt hk hb _ =>
        cases hk0 with
        | none hk' => rw [hk] at hk'; exact absurd hk' (by decide)
        | bcrypt _ hb' he' _ =>
          obtain ⟨rfl, rfl⟩ := bcryptField_unique (x := []) hb hb' (by rw [List.append_nil]; exact he')
          rfl
    subst ho
    have hopt : ∃ fmt, (strOf f.kdf, fmt) ∈ kdfFields ∧ StoresAll o.data fmt f.options := by
      cases h3 with
      | none hk he =>
        rw [hk, he]
        exact ⟨_, List.mem_cons_self, .nil⟩
      | bcrypt hk hb _ =>
        rw [hk]
        exact ⟨_, List.mem_cons_of_mem _ List.mem_cons_self, bcrypt_stores.2 hb⟩
    have hprep : Prepared inp1 kl none false true f.cipher (strOf f.kdf) o.data f.options f.pubs plain := by
      refine ⟨kl.pairs, privs, (block, f.tag.length), ⟨⟨⟨hnamed0, .inl ⟨o, rfl, ho0, rfl⟩, hopt⟩, prefixed_lt g1, prefixed_lt g3, ?_⟩,
        rfl, ?_⟩, ?_, h2, h7⟩
      · show kl.pairs.length < _
        rw [← h4.length_eq]
        exact g6
      · refine forall₂_swap h4 fun w hw p hp h => ?_
        obtain ⟨x, rest, hx⟩ := hpub p hp
        exact ⟨(keyTight_pub hx).1 h, fieldsIn_lt g7 w hw⟩
      · refine forall₂_swap h5 fun w hw p hp h => ?_
        obtain ⟨x, rest, hx⟩ := hprv p hp
        exact (keyTight_priv hx).1 h
    refine ((C91_prepared ext cr hl inp1 kl passphrase1 none false true _ _ _ _ _ _ hc hi hprep).2 _).2 ?_
    obtain ⟨p, hp, hen⟩ : ∃ p, passphraseFor inp1 (strOf f.kdf) passphrase1 = .ok p ∧
        Encrypts cr (strOf f.cipher) (strOf f.kdf) o.data p plain (.ok (f.body, f.tag)) := by
      have hpass : ∀ q, strOf f.kdf = py! "bcrypt" → Enters inp1 passphrase1 q → passphraseFor inp1 (strOf f.kdf) passphrase1 = .ok q := by
        intro q hk hq
        unfold passphraseFor
        rw [hk, if_neg (by decide)]
        rcases hq with rfl | ⟨rfl, hq⟩
        · rfl
        · exact hq
      cases h6 with
      | none hcn =>
        have htag : f.tag = [] := by
          rw [hcn] at h2
          exact List.length_eq_zero_iff.1 (Prod.mk.inj (Option.some.inj h2)).2.symm
        rw [htag, List.append_nil]
        cases h3 with
        | none hk _ =>
          exact ⟨[], by unfold passphraseFor; rw [hk, if_pos rfl], .clear hcn⟩
        | bcrypt hk _ he => exact ⟨_, hpass _ hk he, .clear hcn⟩
      | @cipher su r _ hsu hder hdec =>
        have henc := suite_reverse hv hsu hdec
        have htag : f.tag.length = su.tag := by
          rw [sizes_suite hsu] at h2
          exact (Prod.mk.inj (Option.some.inj h2)).2.symm
        cases h3 with
        | none hk _ =>
          cases hder
          exact ⟨[], by unfold passphraseFor; rw [hk, if_pos rfl], .sealed hsu (.none hk) henc htag⟩
        | bcrypt hk _ he =>
          generalize ho : bcryptOptions _ _ = o' at hder
          cases hder with
          | none => simp [bcryptOptions] at ho
          | @bcrypt salt' r' rounds' pass he' hkdf =>
            cases ho
            exact ⟨_, hpass _ hk he', .sealed hsu (hkdf ▸ .bcrypt hk rfl rfl) henc htag⟩
    exact .file hp hen rfl h1

/-! ### What was written -/

theorem storesAll_tight {d : VDict} {fmt : FDict} {w : Bytes} (h : StoresAll d fmt w) : ∃ d', TightAll fmt w d' := by
  induction h with
  | nil => exact ⟨[], .nil⟩
  | cons _ hs _ ih =>
    obtain ⟨d', h⟩ := ih
    exact ⟨_, .cons (tight_iff.2 hs) h⟩

theorem public_reads {k k' : Key} {w x b rest : Bytes} (h : PublicBytes k w) (hr : KeyReads .pub b k' rest) (e : w ++ x = b) :
    KeyTight .pub w k' ∧ x = rest := by
  obtain ⟨t, fmt, wt, wp, -, hf, h1, h2, rfl⟩ := h
  obtain ⟨t', ⟨fmt', wt', wp', wf', hf', h1', h2', h3', rfl⟩, -, -, hh, -⟩ := hr
  simp only [List.append_assoc] at e
  obtain ⟨et, rfl, e1⟩ := encodes_unique (tight_encodes (tight_iff.2 h1)) h1' e
  cases et
  have hf : fieldsOf .pub t = some fmt := hf
  rw [hf] at hf'
  cases hf'
  obtain ⟨d', hd⟩ := storesAll_tight h2
  obtain ⟨rfl, rfl, e2⟩ := encodesAll_unique (tightAll_encodes hd) h2' e1
  generalize hk : k'.footer = d at h3'
  cases h3'
  exact ⟨⟨t, fmt, wt, wp, [], hh, hf, tight_iff.2 h1, hd, by rw [hk]; exact .nil, by rw [List.append_nil]⟩, e2⟩

theorem private_reads {k k' : Key} {w x b rest : Bytes} (h : PrivateBytes k w) (hr : KeyReads .priv b k' rest) (e : w ++ x = b) :
    KeyTight .priv w k' ∧ x = rest := by
  obtain ⟨t, fmt, wt, wp, wf, -, hf, h1, h2, h3, rfl⟩ := h
  obtain ⟨t', ⟨fmt', wt', wp', wf', hf', h1', h2', h3', rfl⟩, -, -, hh, -⟩ := hr
  simp only [List.append_assoc] at e
  obtain ⟨et, rfl, e1⟩ := encodes_unique (tight_encodes (tight_iff.2 h1)) h1' e
  cases et
  have hf : fieldsOf .priv t = some fmt := hf
  rw [hf] at hf'
  cases hf'
  obtain ⟨d', hd⟩ := storesAll_tight h2
  obtain ⟨rfl, rfl, e2⟩ := encodesAll_unique (tightAll_encodes hd) h2' e1
  obtain ⟨d2, hd2⟩ := storesAll_tight h3
  obtain ⟨rfl, rfl, e3⟩ := encodesAll_unique (tightAll_encodes hd2) h3' e2
  exact ⟨⟨t, fmt, wt, wp, wf, hh, hf, tight_iff.2 h1, hd, hd2, rfl⟩, e3⟩

theorem privates_read {sel : List Pair} {privs : List Bytes} (h : List.Forall₂ (fun (p : Pair) w => PrivateBytes p.priv w) sel privs)
    {ps : List Pair} {b x pad : Bytes} (hr : KeysIn (ps.map Pair.priv) b pad) (hl : ps.length = sel.length) (e : privs.flatten ++ x = b) :
    List.Forall₂ (fun w (p : Pair) => KeyTight .priv w p.priv) privs ps := by
  induction h generalizing ps b x with
  | nil =>
    rw [List.length_eq_zero_iff.1 hl]
    exact .nil
  | @cons p w sel privs h _ ih =>
    cases ps with
    | nil => cases hl
    | cons q ps =>
      rw [List.map_cons] at hr
      cases hr with
      | cons h1 _ h2 =>
        rw [List.flatten_cons, List.append_assoc] at e
        obtain ⟨g1, g2⟩ := private_reads h h1 e
        exact .cons g1 (ih h2 (Nat.succ.inj hl) g2)

theorem bcrypt_written {opts : VDict} {w : Bytes}
    (h : StoresAll opts [(py! "salt", .pascal .bytes), (py! "rounds", .struct ⟨true, [.int 4 false]⟩)] w) :
    ∃ salt, ∃ rounds : Nat, dget opts (py! "salt") = some (.bytes salt) ∧ dget opts (py! "rounds") = some (.int rounds) ∧
      BcryptField salt rounds w := by
  cases h with
  | cons hv h1 h2 =>
    cases h2 with
    | cons hv' h3 h4 =>
      cases h4
      cases h1 with
      | bytes h1 =>
        generalize hfi : FI.struct ⟨true, [.int 4 false]⟩ = fi at h3
        cases h3 with
        | uint =>
          simp at hfi
          exact ⟨_, _, hv, hv', _, _, h1, hfi.symm, rfl, by rw [List.append_nil]⟩
        | _ => cases hfi

/-- **C119** (what was written). A file that the package wrote, whatever the list was made of, is reproduced: read and written again
with the same passphrase and check number, it is the same file. -/
theorem C119_again {ext : Ext} {cr : Crypto} (hl : CryptoLaws cr) (hv : ReverseLaws cr) (inp0 inp inp1 : Inputs)
    (passphrase0 passphrase passphrase1 : Option Str) (self kl : KeyList) (indices : Option (List Int)) (override retain : Bool) (b : Bytes)
    (hc0 : AllConstructed ext self.pairs) (hi : inp0.checkInt < 2 ^ 32) (hi1 : inp1.checkInt = inp0.checkInt)
    (hw : (packKeyList cr inp0 self passphrase0 indices override retain).res = .ok b)
    (hr : (listFromBytes ext cr inp b passphrase).res = .ok kl)
    (he : ∀ p, Enters inp0 passphrase0 p → Enters inp passphrase p ∧ Enters inp1 passphrase1 p) :
    (packKeyList cr inp1 kl passphrase1 none false true).res = .ok b := by
  refine (C119_exact_partial hl hv inp inp1 passphrase passphrase1 b kl hr (by rw [hi1]; exact hi)).2 ?_
  obtain ⟨f0, w0, post, plain0, c1, c2, keys, pad, o0, block0, hb0, hl0, hs0, hk0, ho0, hpl, hc1, hc2, hp0, hq0, -⟩ :=
    ((C75_accepts ext hl.kdf_length inp passphrase b kl).1 hr).parts
  rcases C91_complete ext inp0 self indices override retain hc0 hi with ⟨e, h⟩ | ⟨cipher, kdf, opts, ob, pubs, plain, hp⟩
  · rw [C91_unprepared ext cr inp0 self passphrase0 indices override retain e hc0 hi h] at hw
    cases hw
  have hfin := ((C91_prepared ext cr hl inp0 self passphrase0 indices override retain cipher kdf opts ob pubs plain hc0 hi hp).2 _).1 hw
  obtain ⟨sel, privs, sizes, ⟨⟨⟨-, -, fmt, hfm, hst⟩, -, -, -⟩, -, hpubs⟩, hpr, hsz, hsec⟩ := hp
  cases hfin with
  | @file p ks body tag _ hpf hen hks hlay =>
    have htag : sizes.2 = tag.length := by
      cases hen with
      | clear h =>
        rw [h] at hsz
        cases hsz
        rfl
      | sealed h1 _ _ h4 =>
        rw [sizes_suite h1] at hsz
        cases hsz
        exact h4.symm
    obtain ⟨rfl, rfl, rfl⟩ := lays_unique (r := []) (r' := post) hlay hl0 (fun e => by
      have e : cipher = f0.cipher := e
      rw [← e, hsz] at hs0
      show tag.length = _
      rw [← htag]
      exact (congrArg Prod.snd (Option.some.inj hs0))) (by rw [List.append_nil]; exact hb0)
    have hent : kdf = py! "bcrypt" → Enters inp0 passphrase0 p := by
      intro hk
      unfold passphraseFor at hpf
      rw [hk, if_neg (by decide)] at hpf
      cases passphrase0 with
      | none => exact .inr ⟨rfl, hpf⟩
      | some q => cases hpf; exact .inl rfl
    have hopt : OptionsTight inp1 passphrase1 ⟨cipher, ks, ob, pubs, body, tag⟩ o0 := by
      cases hk0 with
      | none hk =>
        have hk' : kdf = py! "none" := hks.trans hk
        rw [hk'] at hfm
        cases kdfFields_none hfm
        cases hst
        exact .none hk rfl
      | bcrypt hk hb hoe _ =>
        have hk' : kdf = py! "bcrypt" := hks.trans hk
        have hf := hfm
        rw [hk'] at hf
        cases kdfFields_bcrypt hf
        obtain ⟨s, r, -, -, hb'⟩ := bcrypt_written hst
        obtain ⟨rfl, rfl⟩ := bcryptField_unique (x := []) hb' hb (by rw [List.append_nil]; exact hoe)
        exact .bcrypt hk hb' (he p (hent hk')).2
    have hopens : ∀ i q, (∀ p, Enters inp0 passphrase0 p → Enters i q p) → Opens cr i q ⟨cipher, ks, ob, pubs, body, tag⟩ o0 plain := by
      intro i q hq
      cases hen with
      | clear h =>
        have := Opens.none (cr := cr) (inp := i) (passphrase := q) (f := ⟨cipher, ks, ob, pubs, plain, []⟩) (o := o0) h
        rw [List.append_nil] at this
        exact this
      | @sealed su r _ _ h1 h2 h3 h4 =>
        refine .cipher h1 ?_ (suite_inv h1 hl h3).1
        generalize hx : (Except.ok r : Except Exn Bytes) = x at h2
        cases h2 with
        | none hk =>
          cases hx
          cases hk0 with
          | none _ => exact .none
          | bcrypt hk' _ _ _ =>
            rw [← hks, hk] at hk'
            exact absurd hk' (by decide)
        | surrogate => cases hx
        | @bcrypt cs salt' rounds' hk hs hro =>
          cases hk0 with
          | none hk' =>
            rw [← hks, hk] at hk'
            exact absurd hk' (by decide)
          | bcrypt _ hb hoe _ =>
            have hf := hfm
            rw [hk] at hf
            cases kdfFields_bcrypt hf
            obtain ⟨s, r, g1, g2, hb'⟩ := bcrypt_written hst
            rw [hs] at g1
            rw [hro] at g2
            cases g1
            cases g2
            obtain ⟨rfl, rfl⟩ := bcryptField_unique (x := []) hb' hb (by rw [List.append_nil]; exact hoe)
            exact .bcrypt (hq _ (hent hk)) hx.symm
    have hplain := opens_unique rfl rfl (hopens inp passphrase fun p hp => (he p hp).1) ho0
    refine ⟨_, o0, plain, privs, sizes.1, hlay, by rw [← htag]; exact hsz, hopt, ?_, ?_, hopens _ _ fun p hp => (he p hp).2,
      by rw [hi1]; exact hsec⟩
    · refine forall₂_swap (forall₂_swap (S := fun (p : Pair) w => KeyTight .pub w p.pub) hp0 fun w hw p _ h => ?_) fun p _ w _ h => h
      obtain ⟨q, -, hq, -⟩ := forall₂_right hpubs hw
      obtain ⟨rest, h, -⟩ := h
      exact (public_reads hq h (List.append_nil w)).1
    · obtain ⟨c, k, g1, -, -, -, g2⟩ := hsec
      rw [hplain, hpl] at g2
      simp only [List.append_assoc] at g2
      obtain ⟨-, g3⟩ := List.append_inj g2 (hc1.trans g1.symm)
      obtain ⟨-, g4⟩ := List.append_inj g3 (hc2.trans g1.symm)
      exact privates_read hpr hq0 (by rw [← hp0.length_eq, hpubs.length_eq]) g4.symm

/-! ### Texts -/

theorem cut_unique {α : Type} {n : Nat} {l m : List (List α)} (h : l.flatten = m.flatten)
    (hl : (∀ x ∈ l.dropLast, x.length = n) ∧ ∀ x ∈ l, 1 ≤ x.length ∧ x.length ≤ n)
    (hm : (∀ x ∈ m.dropLast, x.length = n) ∧ ∀ x ∈ m, 1 ≤ x.length ∧ x.length ≤ n) : l = m := by
  have empty : ∀ {k : List (List α)}, (∀ x ∈ k, 1 ≤ x.length ∧ x.length ≤ n) → k.flatten = [] → k = [] := by
    intro k hk he
    cases k with
    | nil => rfl
    | cons x k =>
      have := (hk x (by simp)).1
      rw [List.flatten_cons, List.append_eq_nil_iff] at he
      rw [he.1] at this
      cases this
  have long : ∀ {x y : List α} {k : List (List α)}, x = y ++ k.flatten → (∀ z ∈ (y :: k).dropLast, z.length = n) →
      (∀ z ∈ k, 1 ≤ z.length ∧ z.length ≤ n) → x.length ≤ n → k = [] := by
    intro x y k e h1 h2 h3
    refine Decidable.byContradiction fun hk => ?_
    rw [List.dropLast_cons_of_ne_nil hk] at h1
    have hy := h1 y (by simp)
    have : k.flatten ≠ [] := fun he => hk (empty h2 he)
    have := List.length_pos_iff.2 this
    rw [e, List.length_append] at h3
    omega
  induction l generalizing m with
  | nil => exact (empty hm.2 (by rw [← h]; rfl)).symm
  | cons x l ih =>
    cases m with
    | nil => exact empty hl.2 (by rw [h]; rfl)
    | cons y m =>
      rw [List.flatten_cons, List.flatten_cons] at h
      rcases Decidable.em (l = []) with rfl | hl0
      · rw [List.flatten_nil, List.append_nil] at h
        cases long h hm.1 (fun z hz => hm.2 z (by simp [hz])) (hl.2 x (by simp)).2
        rw [h, List.flatten_nil, List.append_nil]
      · rcases Decidable.em (m = []) with rfl | hm0
        · rw [List.flatten_nil, List.append_nil] at h
          exact absurd (long h.symm hl.1 (fun z hz => hl.2 z (by simp [hz])) (hm.2 y (by simp)).2) hl0
        · rw [List.dropLast_cons_of_ne_nil hl0] at hl
          rw [List.dropLast_cons_of_ne_nil hm0] at hm
          obtain ⟨rfl, h2⟩ := List.append_inj h ((hl.1 x (by simp)).trans (hm.1 y (by simp)).symm)
          rw [ih h2 ⟨fun z hz => hl.1 z (by simp [hz]), fun z hz => hl.2 z (by simp [hz])⟩
            ⟨fun z hz => hm.1 z (by simp [hz]), fun z hz => hm.2 z (by simp [hz])⟩]

/-- **C119** (texts, partial). The text of a key file is reproduced if and only if the bytes in it are, and it has just the marker lines
and between them the bytes in lines of 70 characters, with a line feed after each. -/
theorem C119_text_partial {ext : Ext} {cr : Crypto} (hl : CryptoLaws cr) (hv : ReverseLaws cr) (inp inp1 : Inputs)
    (passphrase passphrase1 : Option Str) (s : Str) (kl : KeyList) (hr : (listFromString ext cr inp s passphrase).res = .ok kl)
    (hi : inp1.checkInt < 2 ^ 32) :
    (packListString cr inp1 kl passphrase1 none false true).res = .ok s ↔
      ∃ b ls, s = (beginMarker :: (ls ++ [endMarker])).flatMap (· ++ py! "\n") ∧ Wrapped 70 b ls ∧
        FileTight cr inp1 passphrase1 inp1.checkInt b kl := by
  constructor
  · intro h
    obtain ⟨b, h1, h2, -⟩ := C36_round_trip ext cr inp1 inp kl passphrase1 passphrase none false true s h
    obtain ⟨ls, h3, -, h4, -⟩ := C36_layout cr inp1 kl passphrase1 none false true b h1
    rw [h] at h4
    rw [h2] at hr
    exact ⟨b, ls, Except.ok.inj h4, h3, (C119_exact_partial hl hv inp inp1 passphrase passphrase1 b kl hr hi).1 h1⟩
  · rintro ⟨b, ls, rfl, h3, hf⟩
    rw [C36_parse ext cr inp passphrase b ls _ (by rw [h3.1, base64Text_filter]) (fun c hc => by
      rw [h3.1, ← b64encodeStr_text] at hc
      exact (b64encodeStr_no_space b c hc).1) (textOf_endings (wrapped_lines h3) (by decide))] at hr
    have h1 := (C119_exact_partial hl hv inp inp1 passphrase passphrase1 b kl hr hi).2 hf
    obtain ⟨ls', h5, -, h4, -⟩ := C36_layout cr inp1 kl passphrase1 none false true b h1
    rw [h4, cut_unique (h3.1.trans h5.1.symm) h3.2 h5.2]

/-! ### Examples -/

/-- A short string with its length. -/
def exField (b : Bytes) : Bytes := [0, 0, 0, b.length.toUInt8] ++ b

/-- An unencrypted file with one RSA key, whose check numbers are 7: the bytes of the options field, of the modulus, of the comment, of
the padding, and those after the end. -/
def exCopy (options n comment pad post : Bytes) : Bytes :=
  pb! "openssh-key-v1" ++ [0] ++ exField (pb! "none") ++ exField (pb! "none") ++ exField options ++ [0, 0, 0, 1] ++
    exField (exField (pb! "ssh-rsa") ++ exField [3] ++ exField n) ++
    exField ([0, 0, 0, 7, 0, 0, 0, 7] ++ exField (pb! "ssh-rsa") ++ exField n ++ exField [3] ++ exField [2] ++ exField [5] ++ exField [7] ++
      exField [11] ++ exField comment ++ pad) ++ post

def exSeven : Inputs := { exInputs with checkInt := 7 }

/-- Read without a warning, and then written with the same check number: the bytes. -/
def exCopied (b : Bytes) : Option Bytes :=
  match listFromBytes exExt Std.crypto exSeven b none with
  | ⟨[], .ok kl⟩ => (packKeyList Std.crypto exSeven kl none none false true).res.toOption
  | _ => none

theorem exCopied_eq {b w : Bytes} (h : exCopied b = some w) : ∃ kl, listFromBytes exExt Std.crypto exSeven b none = ⟨[], .ok kl⟩ ∧
    (packKeyList Std.crypto exSeven kl none none false true).res = .ok w := by
  unfold exCopied at h
  split at h
  · rename_i kl e
    refine ⟨kl, e, ?_⟩
    generalize (packKeyList Std.crypto exSeven kl none none false true).res = r at h
    cases r with
    | ok x => cases h; rfl
    | error e => cases h
  · cases h

/-- The full claim fails: these files are read without a warning, and what is written is different.  Each of the four conditions is needed: bytes after the end, bytes in the options field though there are no options, an integer
with a needless zero before it, and a whole block of padding. -/
theorem C119_false : ∀ b ∈ [exCopy [] [77] (pb! "me") [1] [0], exCopy [9] [77] (pb! "me") [1] [], exCopy [] [0, 77] (pb! "me") [] [],
      exCopy [] [77] (pb! "you") [1, 2, 3, 4, 5, 6, 7, 8] []],
    ∃ kl w, listFromBytes exExt Std.crypto exSeven b none = ⟨[], .ok kl⟩ ∧
      (packKeyList Std.crypto exSeven kl none none false true).res = .ok w ∧ w ≠ b := by
  have t : ∀ b ∈ [exCopy [] [77] (pb! "me") [1] [0], exCopy [9] [77] (pb! "me") [1] [], exCopy [] [0, 77] (pb! "me") [] [],
      exCopy [] [77] (pb! "you") [1, 2, 3, 4, 5, 6, 7, 8] []],
      ∃ w ∈ [exCopy [] [77] (pb! "me") [1] [], exCopy [] [77] (pb! "you") [] []], exCopied b = some w ∧ w ≠ b := by decide +kernel
  intro b hb
  obtain ⟨w, -, h, hn⟩ := t b hb
  obtain ⟨kl, h1, h2⟩ := exCopied_eq h
  exact ⟨kl, w, h1, h2, hn⟩

/-- None of them has the one form. -/
example (kl : KeyList) (h : (listFromBytes exExt Std.crypto exSeven (exCopy [] [0, 77] (pb! "me") [] []) none).res = .ok kl) :
    ¬ FileTight Std.crypto exSeven none 7 (exCopy [] [0, 77] (pb! "me") [] []) kl := by
  intro hf
  obtain ⟨kl', w, h1, h2, hn⟩ := C119_false (exCopy [] [0, 77] (pb! "me") [] []) (by simp)
  rw [h1] at h
  cases h
  have := (C119_exact_partial C104_laws C119_laws exSeven exSeven none none _ _ (by rw [h1]) (by decide)).2 hf
  rw [h2] at this
  cases this
  exact hn rfl

/-- Without these the file is reproduced. -/
example : ∃ kl, listFromBytes exExt Std.crypto exSeven (exCopy [] [77] (pb! "me") [1] []) none = ⟨[], .ok kl⟩ ∧
    (packKeyList Std.crypto exSeven kl none none false true).res = .ok (exCopy [] [77] (pb! "me") [1] []) :=
  exCopied_eq (by decide +kernel)

/-- The example list, encrypted with AES-256 under the passphrase `pw`, is written, read, and written again as the same bytes; the file
has the one form. -/
example : ∃ w kl, (packKeyList Std.crypto exInputs exList none none false true).res = .ok w ∧
    (listFromBytes exExt Std.crypto exInputs w (some (py! "pw"))).res = .ok kl ∧
    (packKeyList Std.crypto exInputs kl (some (py! "pw")) none false true).res = .ok w ∧
    FileTight Std.crypto exInputs (some (py! "pw")) 12345 w kl := by
  obtain ⟨w, -, hw, -⟩ := C104_file (ext := exExt) exInputs exInputs exList none (some (py! "pw")) none false true (py! "aes256-ctr")
    (aesCtr 32) [1, 2, 3] 16 ['p', 'w'] exList.pairs
    [(packPrivateBytes exEd).toOption.getD [], (packPrivateBytes exRsaPriv).toOption.getD []]
    (.inl ⟨_, rfl, by decide +kernel, by decide +kernel⟩) (by unfold suites; simp [aesCtr])
    (.inl ⟨_, rfl, rfl, by decide +kernel, by decide +kernel⟩) (by decide) (by decide) (by decide) (by decide) (by decide)
    (.inr ⟨rfl, by decide +kernel⟩) (.inl (by decide +kernel)) exList_constructed rfl (by decide +kernel)
    (by
      intro p hp
      rcases List.mem_cons.1 hp with rfl | hp
      · exact ⟨(packPublicBytes exEdPub).toOption.getD [], by decide +kernel, by decide +kernel⟩
      · rcases List.mem_cons.1 hp with rfl | hp
        · exact ⟨(packPublicBytes exPub).toOption.getD [], by decide +kernel, by decide +kernel⟩
        · cases hp)
    (.cons (by decide +kernel) (.cons (by decide +kernel) .nil)) (by decide +kernel) (by decide)
  obtain ⟨k⟩ := packKeyList_pack hw
  have hsel : k.sel = exList.pairs := k.selection
  have hp : ∀ p, Enters exInputs none p → Enters exInputs (some (py! "pw")) p := by
    intro p hp
    rcases hp with hp | ⟨-, hp⟩
    · cases hp
    · cases hp; exact .inl rfl
  obtain ⟨kl, h1, -⟩ := k.parsed (ext := exExt) (inp' := exInputs) (passphrase' := some (py! "pw")) C104_laws
    (fun p hp => exList_constructed p (hsel ▸ hp)) hp []
  rw [List.append_nil] at h1
  have := C119_again C104_laws C119_laws exInputs exInputs exInputs none (some (py! "pw")) (some (py! "pw")) exList kl none false true w
    exList_all (by decide) rfl hw h1 fun p h => ⟨hp p h, hp p h⟩
  exact ⟨w, kl, hw, h1, this, (C119_exact_partial C104_laws C119_laws exInputs exInputs _ _ w kl h1 (by decide)).1 this⟩

end OSK
