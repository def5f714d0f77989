import Verif.Props.StdCrypto
import Verif.Props.FileGrammar
import Verif.Props.Pack
/-
Property C108: a key file is read, comments and passphrase are changed, and it is written again (as the README shows).
-/
namespace OSK
open Spec

/-- `key.footer['comment'] = c` -/
def Spec.withComment (k : Key) (c : Str) : Key := { k with footer := dset k.footer (py! "comment") (.str c) }

/-- The comments of all private keys of the list are replaced. -/
def Spec.withComments (kl : KeyList) (cs : List (List Char)) : KeyList :=
  { kl with pairs := List.zipWith (fun p c => { p with priv := withComment p.priv (strOf c) }) kl.pairs cs }

/-- The integers of the key can be written (C05). -/
def Spec.NoSignBytes (k : Key) : Prop := ∀ n i, dget k.params.data n = some (.int i) → ¬ NeedsSignByte i

theorem footer_comment {r : Bytes} {f : VDict} {n : Nat} (h : prs (readDict (footerFmt .priv)) r = (.ok f, n)) :
    (∃ c, f = [(py! "comment", .str c)]) ∧ 4 ≤ n := by
  obtain ⟨v, vs, n1, n2, rfl, h1, h2, rfl⟩ := readDict_cons_ok h
  simp [readDict, prs_pure] at h2
  obtain ⟨rfl, -⟩ := h2
  obtain ⟨cs, w, rfl, ⟨p, hp, -, rfl⟩, rfl, -⟩ := prs_string_ok h1
  exact ⟨⟨_, rfl⟩, by rw [List.length_append]; omega⟩

theorem pack_comment (cs : List Char) (h : (utf8 cs).length < 2 ^ 32) :
    ∃ w, packDict (footerFmt .priv) [(py! "comment", .str (strOf cs))] = .ok w ∧ w.length = 4 + (utf8 cs).length := by
  obtain ⟨w, hw, hl⟩ := prefixed_exists h
  exact ⟨w, packDict_cons_ok_iff.2 ⟨_, _, _, rfl, packFI_string_iff.2 ⟨cs, rfl, hw⟩, rfl, (List.append_nil w).symm⟩, by omega⟩

/-- What a parsed key looks like. -/
structure ParsedKey (ext : Ext) (kind : Kind) (b : Bytes) (clear : Option VDict) (k : Key) where
  t : Str
  c : Cls
  n1 : Nat
  n2 : Nat
  n3 : Nat
  cls : paramsClass kind (.str t) = .ok c
  first : prs (readDict (headerFmt kind)) b = (.ok [(py! "key_type", .str t)], n1)
  params : prs (readDict (formatOf c)) (b.drop n1) = (.ok k.params.data, n2)
  foot : prs (readDict (footerFmt kind)) (b.drop (n1 + n2)) = (.ok k.footer, n3)
  length : n1 + n2 + n3 ≤ b.length
  checks : (runChecks (localCheck ext (caFromBytes ext) c k.params.data) (checkPlan c)).res = .ok ()
  key : k = ⟨kind, [(py! "key_type", .str t)], ⟨c, k.params.data⟩, k.footer, k.clear⟩

theorem parsed_key {ext : Ext} {kind : Kind} {b : Bytes} {clear : Option VDict} {k : Key}
    (h : (fromBytes ext kind b clear).res = .ok k) : Nonempty (ParsedKey ext kind b clear k) := by
  obtain ⟨t, c, hd, p, f, n, hr, rfl, hc, hu, rfl, -⟩ := fromBytes_ok h
  have hbound := (Reader.readKey kind).bound b
  rw [hr] at hbound
  obtain ⟨t', c', n1, n2, n3, ht', hc', h1, h2, h3, rfl⟩ := prs_readKey_ok hr
  simp at ht'; subst ht'
  have := paramsClass_fun hc hc'; subst this
  exact ⟨⟨t, c, n1, n2, n3, hc, h1, h2, h3, hbound, hu, rfl⟩⟩

/-- A parsed key was constructed. -/
theorem parsed_constructed {ext : Ext} {kind : Kind} {b : Bytes} {clear : Option VDict} {k : Key}
    (h : (fromBytes ext kind b clear).res = .ok k) : Constructed ext k := by
  obtain ⟨P⟩ := parsed_key h
  have hk := P.key
  have e : k.kind = kind := congrArg Key.kind hk
  refine ⟨[(py! "key_type", .str P.t)], k.params.data, k.footer, some k.clear, ?_⟩
  show (mkKeyWith ext (caFromBytes ext) k.kind _ _ _ _).res = _
  rw [e, mkKeyWith_eq (t := P.t) (c := P.c) (by simp) P.cls, checkDict_read (plain_footer kind) P.foot, Eff.bind_res_of_ok P.checks]
  exact congrArg Except.ok hk.symm

theorem comment_set {k : Key} {ext : Ext} {w : Bytes} (P : ParsedKey ext .priv w none k) (cs : List Char) :
    (withComment k (strOf cs)).footer = [(py! "comment", .str (strOf cs))] := by
  obtain ⟨⟨oc, hoc⟩, -⟩ := footer_comment P.foot
  show dset k.footer _ _ = _
  rw [hoc]
  rfl

theorem comment_constructed {ext : Ext} {w : Bytes} {k : Key} (h : (fromBytes ext .priv w none).res = .ok k) (cs : List Char) :
    Constructed ext (withComment k (strOf cs)) := by
  obtain ⟨P⟩ := parsed_key h
  have hk := P.key
  have e : k.kind = .priv := congrArg Key.kind hk
  refine ⟨[(py! "key_type", .str P.t)], k.params.data, [(py! "comment", .str (strOf cs))], some k.clear, ?_⟩
  show (mkKeyWith ext (caFromBytes ext) k.kind _ _ _ _).res = _
  rw [e, mkKeyWith_eq (t := P.t) (c := P.c) (by simp) P.cls, Eff.bind_res_of_ok P.checks]
  have := comment_set P cs
  generalize hw : withComment k (strOf cs) = k' at this ⊢
  have e1 : k'.kind = .priv := by rw [← hw]; exact e
  have e2 : k'.header = [(py! "key_type", .str P.t)] := by rw [← hw]; exact congrArg Key.header hk
  have e3 : k'.params = ⟨P.c, k.params.data⟩ := by rw [← hw]; exact congrArg Key.params hk
  have e4 : k'.clear = k.clear := by rw [← hw]; rfl
  obtain ⟨a1, a2, a3, a4, a5⟩ := k'
  simp only at this e1 e2 e3 e4
  subst this e1 e2 e3 e4
  rfl

/-- An integer that needs a sign byte is one of the format's `mpint`s. -/
theorem sign_mpint {fmt : FDict} {w : Bytes} {d : VDict} (h : EncodesAll fmt w d) {n : Str} {i : Int}
    (hd : dget d n = some (.int i)) (hs : NeedsSignByte i) : (n, FI.pascal .mpint) ∈ fmt := by
  induction h with
  | nil => cases hd
  | @cons k fi t w w' v d h1 h2 ih =>
    by_cases hk : n = k
    · subst hk
      rw [dget_cons_self] at hd
      cases hd
      generalize hv : Val.int i = v at h1
      cases h1 with
      | bytes => cases hv
      | text => cases hv
      | mpint => exact List.mem_cons_self
      | uint =>
        cases hv
        exact absurd hs (not_needsSignByte_of_nonneg (by omega))
    · rw [dget_cons_ne (fun h => hk h.symm)] at hd
      exact List.mem_cons_of_mem _ (ih hd)

theorem wire_factory : ∀ c ∈ factoryClasses, wireFmt (formatOf c) = true := by decide +kernel

/-- The values of a parsed key can be packed, exactly if none needs a sign byte. -/
theorem parsed_params {ext : Ext} {kind : Kind} {b : Bytes} {clear : Option VDict} {k : Key} (P : ParsedKey ext kind b clear k) :
    (NoSignBytes k → ∃ w, packDict (formatOf P.c) k.params.data = .ok w ∧ w.length ≤ P.n2) ∧
    ((∃ w, packDict (formatOf P.c) k.params.data = .ok w) → NoSignBytes k) := by
  rcases packDict_read_plain (plain_class P.cls) P.params with ⟨he, k', i, -, hk, hi⟩ | ⟨w2, hw2, hl2, hno, -⟩
  · exact ⟨fun hs => absurd hi (hs k' i hk), fun ⟨w, hw⟩ => by rw [he] at hw; cases hw⟩
  · refine ⟨fun _ => ⟨w2, hw2, hl2⟩, fun _ n i hd hs => ?_⟩
    obtain ⟨w, r, hw, -, -⟩ := (readDict_ok_iff (wire_factory _ (paramsClass_mem P.cls).1)).1 P.params
    exact hno n i (sign_mpint hw hd hs) hd hs

theorem parsed_header {ext : Ext} {kind : Kind} {b : Bytes} {clear : Option VDict} {k : Key} (P : ParsedKey ext kind b clear k) :
    ∃ w, packDict (headerFmt kind) k.header = .ok w ∧ w.length ≤ P.n1 := by
  have e : k.header = [(py! "key_type", .str P.t)] := congrArg Key.header P.key
  rw [e]
  rcases packDict_read_plain (plain_header kind) P.first with ⟨-, n, i, hm, -⟩ | ⟨w1, hw1, hl1, -⟩
  · cases kind <;> simp [headerFmt] at hm
  · exact ⟨w1, hw1, hl1⟩

/-- A parsed public key can be packed, exactly if none of its integers needs a sign byte. -/
theorem parsed_public {ext : Ext} {b : Bytes} {k : Key} (h : (fromBytes ext .pub b none).res = .ok k) :
    (NoSignBytes k → ∃ w, packPublicBytes k = .ok w ∧ w.length ≤ b.length) ∧ ((∃ w, packPublicBytes k = .ok w) → NoSignBytes k) := by
  obtain ⟨P⟩ := parsed_key h
  obtain ⟨w1, hw1, hl1⟩ := parsed_header P
  obtain ⟨g1, g2⟩ := parsed_params P
  have hcl : k.params.cls = P.c := congrArg (fun k => k.params.cls) P.key
  have hc : firstPublicClass k.params.cls = P.c := by rw [hcl]; exact pub_class P.cls
  have hlen := P.length
  rw [packPublicBytes_eq, hw1, hc]
  constructor
  · intro hs
    obtain ⟨w2, hw2, hl2⟩ := g1 hs
    rw [hw2]
    exact ⟨w1 ++ w2, rfl, by rw [List.length_append]; omega⟩
  · rintro ⟨w, hw⟩
    obtain ⟨-, w2, -, hw2, -⟩ := catE_ok hw
    exact g2 ⟨w2, hw2⟩

/-- A parsed private key can be packed with another comment, exactly if none of its integers needs a sign byte. -/
theorem parsed_private {ext : Ext} {w : Bytes} {k : Key} (h : (fromBytes ext .priv w none).res = .ok k) (cs : List Char)
    (hc : (utf8 cs).length < 2 ^ 32) :
    (NoSignBytes k → ∃ b, packPrivateBytes (withComment k (strOf cs)) = .ok b ∧ b.length ≤ w.length + (utf8 cs).length) ∧
    ((∃ b, packPrivateBytes (withComment k (strOf cs)) = .ok b) → NoSignBytes k) := by
  obtain ⟨P⟩ := parsed_key h
  obtain ⟨w1, hw1, hl1⟩ := parsed_header P
  obtain ⟨g1, g2⟩ := parsed_params P
  obtain ⟨w3, hw3, hl3⟩ := pack_comment cs hc
  obtain ⟨-, h4⟩ := footer_comment P.foot
  have hcl : k.params.cls = P.c := congrArg (fun k => k.params.cls) P.key
  have hlen := P.length
  rw [packPrivateBytes_eq, comment_set P, hw3]
  show (_ → ∃ b, catE (packDict (headerFmt .priv) k.header) (catE (packDict (formatOf k.params.cls) k.params.data) _) = _ ∧ _) ∧
    ((∃ b, catE (packDict (headerFmt .priv) k.header) (catE (packDict (formatOf k.params.cls) k.params.data) _) = _) → _)
  rw [hw1, hcl]
  constructor
  · intro hs
    obtain ⟨w2, hw2, hl2⟩ := g1 hs
    rw [hw2]
    exact ⟨w1 ++ (w2 ++ w3), rfl, by simp only [List.length_append]; omega⟩
  · rintro ⟨b, hb⟩
    obtain ⟨-, w23, -, h23, -⟩ := catE_ok hb
    obtain ⟨w2, -, hw2, -, -⟩ := catE_ok h23
    exact g2 ⟨w2, hw2⟩

/-! ### Reading back -/

theorem same_data {c : Cls} (hp : plainFmt (formatOf c) = true) {d d' : VDict} {r r' : Bytes} {n n' : Nat}
    (h : prs (readDict (formatOf c)) r = (.ok d, n)) (h' : prs (readDict (formatOf c)) r' = (.ok d', n'))
    (hd : ∀ n ∈ dkeys d', dget d' n = dget d n) : d' = d := by
  rw [← named_of_read hp h, ← named_of_read hp h']
  exact named_congr fun k hk => hd k (by rw [readDict_dkeys h']; exact hk)

theorem public_equal {ext : Ext} {b b' : Bytes} {k k' : Key} (h : (fromBytes ext .pub b none).res = .ok k)
    (h' : (fromBytes ext .pub b' none).res = .ok k') (hs : SamePublic k k') : k' = { k with clear := [] } := by
  obtain ⟨P⟩ := parsed_key h
  obtain ⟨Q⟩ := parsed_key h'
  obtain ⟨s1, s2, s3, t, fields, s4, s5, s6, s7, s8, s9⟩ := hs
  have e1 : k.header = [(py! "key_type", .str P.t)] := congrArg Key.header P.key
  have e2 : k'.header = [(py! "key_type", .str Q.t)] := congrArg Key.header Q.key
  rw [e1, dget_cons_self] at s4
  cases s4
  rw [e2] at s6
  have e3 : Q.t = P.t := by simpa using s6
  have hQ := Q.cls
  rw [e3] at hQ
  have e4 : Q.c = P.c := paramsClass_fun hQ P.cls
  have hf := Q.params
  rw [e4] at hf
  have e5 := same_data (plain_class P.cls) P.params hf (fun n hn => s9 n (s8 ▸ hn))
  have e6 : k.footer = [] := by
    have := P.foot
    simp [footerFmt, readDict, prs_pure] at this
    exact this.1
  have hk := P.key
  have hk' := Q.key
  rw [hk', e3, e4, e5, s2, s3]
  rw [e6] at hk
  conv_rhs => rw [hk]

theorem private_equal {ext : Ext} {b b' : Bytes} {k k' : Key} {cs : List Char} (h : (fromBytes ext .priv b none).res = .ok k)
    (hc : k.clear = []) (h' : (fromBytes ext .priv b' none).res = .ok k') (hc' : k'.clear = [])
    (hs : SamePrivate (withComment k (strOf cs)) k') : k' = { k with footer := [(py! "comment", .str (strOf cs))] } := by
  obtain ⟨P⟩ := parsed_key h
  obtain ⟨Q⟩ := parsed_key h'
  obtain ⟨s1, s2, t, fields, s4, s5, s6, s8, s9, s10, s11⟩ := hs
  have e1 : k.header = [(py! "key_type", .str P.t)] := congrArg Key.header P.key
  have e2 : k'.header = [(py! "key_type", .str Q.t)] := congrArg Key.header Q.key
  replace s4 : dget k.header (py! "key_type") = some (.str t) := s4
  rw [e1, dget_cons_self] at s4
  cases s4
  rw [e2] at s6
  have e3 : Q.t = P.t := by simpa using s6
  have hQ := Q.cls
  rw [e3] at hQ
  have e4 : Q.c = P.c := paramsClass_fun hQ P.cls
  have hf := Q.params
  rw [e4] at hf
  have e5 := same_data (plain_class P.cls) P.params hf (fun n hn => s9 n (s8 ▸ hn))
  rw [comment_set P, dget_cons_self] at s11
  obtain ⟨⟨oc, hoc⟩, -⟩ := footer_comment Q.foot
  rw [hoc, dget_cons_self] at s11
  cases s11
  have hk := P.key
  have hk' := Q.key
  rw [hk', e3, e4, e5, hoc, hc']
  rw [hc] at hk
  conv_rhs => rw [hk]

theorem keysAt_forall {ext : Ext} {ps : List Pair} {ws : List Bytes} (h : KeysAt ext ps ws) :
    List.Forall₂ (fun (p : Pair) w => (fromBytes ext .priv w none).res = .ok p.priv ∧ p.priv.clear = []) ps ws := by
  induction ps generalizing ws with
  | nil => cases h; exact .nil
  | cons p ps ih =>
    obtain ⟨w, t, rfl, h1, h2, h3⟩ := h
    exact .cons ⟨h1, h2⟩ (ih h3)

/-- Both keys of every pair of a list that was read were parsed. -/
theorem list_parsed {ext : Ext} {cr : Crypto} {inp : Inputs} {passphrase : Option Str} {b : Bytes} {kl : KeyList}
    (P : ListParse ext cr inp passphrase b kl) :
    ∀ p ∈ kl.pairs, (∃ x ∈ P.f.pubs, (fromBytes ext .pub x none).res = .ok p.pub) ∧
      (∃ y, (fromBytes ext .priv y none).res = .ok p.priv) ∧ p.priv.clear = [] := by
  intro p hp
  have h1 := P.pubs
  rw [← P.pairs, List.forall₂_map_right_iff] at h1
  have h2 := keysAt_forall P.keys
  have g1 : ∀ {l : List Bytes} {ps : List Pair}, List.Forall₂ (fun b (p : Pair) => (fromBytes ext .pub b none).res = .ok p.pub) l ps →
      p ∈ ps → ∃ x ∈ l, (fromBytes ext .pub x none).res = .ok p.pub := by
    intro l ps h hp
    induction h with
    | nil => cases hp
    | cons h _ ih =>
      rcases List.mem_cons.1 hp with rfl | hp
      · exact ⟨_, List.mem_cons_self, h⟩
      · obtain ⟨x, hx, hr⟩ := ih hp
        exact ⟨x, List.mem_cons_of_mem _ hx, hr⟩
  have g2 : ∀ {l : List Bytes} {ps : List Pair}, List.Forall₂ (fun (p : Pair) w => (fromBytes ext .priv w none).res = .ok p.priv ∧
      p.priv.clear = []) ps l → p ∈ ps → ∃ y, (fromBytes ext .priv y none).res = .ok p.priv ∧ p.priv.clear = [] := by
    intro l ps h hp
    induction h with
    | nil => cases hp
    | cons h _ ih =>
      rcases List.mem_cons.1 hp with rfl | hp
      · exact ⟨_, h⟩
      · exact ih hp
  obtain ⟨y, hy, hc⟩ := g2 h2 hp
  exact ⟨g1 h1 hp, ⟨y, hy⟩, hc⟩

theorem withComments_mem {kl : KeyList} {cs : List (List Char)} {q : Pair} (h : q ∈ (withComments kl cs).pairs) :
    ∃ p ∈ kl.pairs, ∃ c ∈ cs, q = { p with priv := withComment p.priv (strOf c) } := by
  unfold withComments at h
  simp only at h
  generalize kl.pairs = ps at h ⊢
  induction ps generalizing cs with
  | nil => cases h
  | cons p ps ih =>
    cases cs with
    | nil => cases h
    | cons c cs =>
      rw [List.zipWith_cons_cons] at h
      rcases List.mem_cons.1 h with rfl | h
      · exact ⟨p, List.mem_cons_self, c, List.mem_cons_self, rfl⟩
      · obtain ⟨p', h1, c', h2, h3⟩ := ih h
        exact ⟨p', List.mem_cons_of_mem _ h1, c', List.mem_cons_of_mem _ h2, h3⟩

/-- A list that was read, and is written with changed comments, whatever passphrase it is written with: what is written is read
again with that passphrase, names the same cipher and key derivation function, and holds exactly the same keys with the new
comments (bytes that came after a public key are gone). -/
theorem C108_reads {ext : Ext} {cr : Crypto} (hl : CryptoLaws cr) (inp inp1 inp2 : Inputs) (passphrase passphrase1 passphrase2 : Option Str)
    (b w : Bytes) (kl : KeyList) (cs : List (List Char)) (retain : Bool)
    (hr : (listFromBytes ext cr inp b passphrase).res = .ok kl)
    (hp : ∀ p, Enters inp1 passphrase1 p → Enters inp2 passphrase2 p)
    (hw : (packKeyList cr inp1 (withComments kl cs) passphrase1 none false retain).res = .ok w) :
    ∃ kl2, (listFromBytes ext cr inp2 w passphrase2).res = .ok kl2 ∧
      kl2.pairs = List.zipWith (fun (p : Pair) c => ⟨{ p.pub with clear := [] },
        { p.priv with footer := [(py! "comment", .str (strOf c))] }⟩) kl.pairs cs ∧
      ∀ cipher kdf, Names kl cipher kdf → Names kl2 cipher kdf := by
  obtain ⟨P⟩ := listFromBytes_parse hr
  have hpar := list_parsed P
  obtain ⟨k⟩ := packKeyList_pack hw
  have hsel : k.sel = (withComments kl cs).pairs := k.selection
  obtain ⟨kl2, h1, h2, h3, -⟩ := k.parsed (ext := ext) hl (fun q hq => by
    rw [hsel] at hq
    obtain ⟨p, hp, c, -, rfl⟩ := withComments_mem hq
    obtain ⟨⟨x, -, hx⟩, ⟨y, hy⟩, -⟩ := hpar p hp
    obtain ⟨Q⟩ := parsed_key hy
    exact ⟨parsed_constructed hx, congrArg Key.kind Q.key, comment_constructed hy c⟩) hp []
  rw [List.append_nil] at h1
  refine ⟨kl2, h1, ?_, ?_⟩
  · obtain ⟨P2⟩ := listFromBytes_parse h1
    have hpar2 := list_parsed P2
    rw [hsel] at h2
    unfold withComments at h2
    simp only at h2
    generalize kl.pairs = ps at hpar h2 ⊢
    generalize kl2.pairs = qs at hpar2 h2 ⊢
    generalize P.f.pubs = l1 at hpar
    generalize P2.f.pubs = l2 at hpar2
    clear hr hw hsel h1 h3 P P2 k
    induction ps generalizing cs qs with
    | nil => cases h2; rfl
    | cons p ps ih =>
      cases cs with
      | nil => cases h2; rfl
      | cons c cs =>
        rw [List.zipWith_cons_cons] at h2 ⊢
        obtain _ | ⟨g1, g2⟩ := h2
        rename_i q qs
        obtain ⟨a1, a2, a3⟩ := g1
        obtain ⟨⟨x, -, hx⟩, ⟨y, hy⟩, hc⟩ := hpar p List.mem_cons_self
        obtain ⟨⟨x', -, hx'⟩, ⟨y', hy'⟩, hc'⟩ := hpar2 q List.mem_cons_self
        have := ih cs qs g2 (fun p hp => hpar p (List.mem_cons_of_mem _ hp)) (fun p hp => hpar2 p (List.mem_cons_of_mem _ hp))
        rw [this]
        congr 1
        obtain ⟨qp, qs⟩ := q
        simp only at hx' hy' a1 a2 hc'
        rw [public_equal hx hx' a1, private_equal hy hc hy' hc' a2]
  · intro cipher kdf hn
    have := names_iff.2 hn
    rw [← names_iff, h3]
    have hnames := k.names
    show listCipherKdf (some (fileHeader k.f)) = _
    have e : listCipherKdf (some (fileHeader k.f)) = (.str (strOf k.f.cipher), .str (strOf k.f.kdf)) := rfl
    rw [e, ← hnames]
    exact this

/-! ### Writing -/

theorem Std.sym_refuses (enc : Bool) (alg : SymAlg) (mode : SymMode) (iv x y : Bytes) : Std.symCrypt enc alg mode [] iv x ≠ .ok y := by
  unfold Std.symCrypt
  rw [if_pos (by cases alg <;> decide)]
  intro h; cases h

theorem Std.gcm_refuses (iv x y : Bytes) : Std.gcmDec [] iv x ≠ .ok y := by
  unfold Std.gcmDec
  rw [if_pos (by unfold Std.gcmAllowed; simp [Std.keyAllowed])]
  intro h; cases h

/-- No cipher decrypts without a key. -/
theorem Std.dec_refuses {name : Str} {su : Suite} (h : (name, su) ∈ suites) (iv x y : Bytes) : su.dec Std.crypto [] iv x ≠ .ok y := by
  have h1 : ∀ alg mode, Std.crypto.symDec alg mode [] iv x ≠ .ok y := fun alg mode => by
    rw [Std.crypto_symDec]; exact Std.sym_refuses _ _ _ _ _ _
  have h2 : Std.crypto.gcmDec [] iv x ≠ .ok y := by rw [Std.crypto_gcmDec]; exact Std.gcm_refuses _ _ _
  unfold suites at h
  simp only [List.mem_cons, Prod.mk.injEq, List.not_mem_nil, or_false] at h
  rcases h with ⟨-, rfl⟩ | ⟨-, rfl⟩ | ⟨-, rfl⟩ | ⟨-, rfl⟩ | ⟨-, rfl⟩ | ⟨-, rfl⟩ | ⟨-, rfl⟩ | ⟨-, rfl⟩ | ⟨-, rfl⟩ | ⟨-, rfl⟩ | ⟨-, rfl⟩
  · exact h1 .tripleDes .cbc
  · exact h1 .aes .ctr
  · exact h1 .aes .ctr
  · exact h1 .aes .ctr
  · exact h1 .aes .cbc
  · exact h1 .aes .cbc
  · exact h1 .aes .cbc
  · exact h1 .aes .cbc
  · exact h2
  · exact h2
  · show chachaOpen Std.crypto [] iv x ≠ _
    unfold chachaOpen
    rw [Std.crypto_chacha, List.take_nil, Std.chacha_empty]
    intro h; cases h

theorem utf8_ne_nil {cs : List Char} (h : cs ≠ []) : utf8 cs ≠ [] := by
  cases cs with
  | nil => exact absurd rfl h
  | cons c t =>
    intro h0
    have h1 : (String.utf8EncodeChar c).length + (utf8 t).length = 0 := by
      rw [← List.length_append]
      exact congrArg List.length h0
    have := Char.utf8Size_pos c
    rw [String.length_utf8EncodeChar] at h1
    omega

theorem prefixed_lt {b w : Bytes} (h : Prefixed 4 b w) : b.length < 2 ^ 32 := (prefixed_iff.1 h).1

/-- Salt and rounds for writing are there, whether they are kept or fresh. -/
theorem uses_some {inp : Inputs} {kl : KeyList} {salt : Bytes} {rounds : Nat} (ho : kl.kdfOptions = some (bcryptOptions salt rounds))
    (retain : Bool) : ∃ s r, Uses inp kl retain s r ∧ ((s = salt ∧ r = rounds) ∨ (s = inp.tokenBytes 16 ∧ r = 16)) := by
  cases retain with
  | true => exact ⟨salt, rounds, .inl ⟨_, rfl, ho, rfl, rfl⟩, .inl ⟨rfl, rfl⟩⟩
  | false => exact ⟨_, 16, .inr ⟨.inl rfl, rfl, rfl⟩, .inr ⟨rfl, rfl⟩⟩

/-- Everything is there to write with a passphrase what was read. -/
theorem read_ready {ext : Ext} {inp inp1 : Inputs} {passphrase passphrase1 : Option Str} {b : Bytes} {kl : KeyList} {pass : List Char}
    (hr : (listFromBytes ext Std.crypto inp b passphrase).res = .ok kl) (retain : Bool) (he : Enters inp1 passphrase1 (strOf pass))
    (hpass : pass ≠ []) (ht : (inp1.tokenBytes 16).length = 16) :
    ∃ cipher kdf, Names kl cipher kdf ∧ ∀ cs, Ready Std.crypto inp1 (withComments kl cs) passphrase1 retain cipher kdf := by
  obtain ⟨f, w, post, plain, c1, c2, keys, pad, o, block, rfl, hf, hs, ho, hd, hplain, l1, l2, hp, hk, e1, e2, e3, e4, e5, e6, e7⟩ :=
    ((C75_accepts ext C104_laws.kdf_length inp passphrase b kl).1 hr).parts
  refine ⟨strOf f.cipher, strOf f.kdf, .inl ⟨_, e2, rfl, rfl⟩, fun cs => ?_⟩
  cases ho with
  | none h1 =>
    cases hd with
    | none h2 => exact .inl ⟨h2, h1⟩
    | cipher h2 h3 h4 =>
      generalize hoo : (⟨.none, []⟩ : KdfOptions) = o at h3
      cases h3 with
      | none => rw [List.take_nil, List.drop_nil] at h4; exact absurd h4 (Std.dec_refuses h2 _ _ _)
      | bcrypt => cases hoo
  | @bcrypt salt w' r rounds p h1 h2 h3 h4 =>
    obtain ⟨s, n, hu, hsn⟩ := uses_some (inp := inp1) (kl := withComments kl cs) e4 retain
    obtain ⟨a, a', ⟨la, ha1, ha2, ha3⟩, ha4, ha5, ha6⟩ := h2
    have hopt : f.options.length < 2 ^ 32 := by
      obtain ⟨front, wb, ⟨wc, wk, wo, wn, wp, -, -, ho, -⟩, -⟩ := hf
      exact prefixed_lt ho
    have hlen : salt.length + 8 < 2 ^ 32 := by
      rw [h3, ha6, ha3] at hopt
      simp only [List.length_append] at hopt
      omega
    have hrl : rounds < 2 ^ 32 := by
      rw [← ha5, digitSum_eq]
      have := beNat_lt a'
      rw [ha4] at this
      exact this
    have b1 : s.length + 8 < 2 ^ 32 := by
      rcases hsn with ⟨rfl, -⟩ | ⟨rfl, -⟩
      · exact hlen
      · omega
    have b2 : n < 2 ^ 32 := by
      rcases hsn with ⟨-, rfl⟩ | ⟨-, rfl⟩
      · exact hrl
      · decide
    refine .inr ⟨h1, s, n, hu, b1, b2, ?_⟩
    cases hd with
    | none h5 => exact .inl ⟨h5, _, he⟩
    | @cipher su r' plain h5 h6 h7 =>
      right
      generalize hoo : bcryptOptions salt rounds = o at h6
      cases h6 with
      | none => cases hoo
      | @bcrypt salt' r'' rounds' pass' h8 h9 =>
        unfold bcryptOptions at hoo
        simp only [KdfOptions.mk.injEq, List.cons.injEq, Prod.mk.injEq, Val.bytes.injEq, Val.int.injEq, true_and, and_true] at hoo
        obtain ⟨rfl, hrr⟩ := hoo
        obtain ⟨-, q2, q3, q4, q5⟩ := (C104_kdf _ _ _ _).1 ⟨_, h9⟩
        have q6 : s ≠ [] ∧ (1 : Int) ≤ n := by
          rcases hsn with ⟨rfl, rfl⟩ | ⟨rfl, rfl⟩
          · exact ⟨q2, by omega⟩
          · exact ⟨(fun h => by rw [h] at ht; cases ht), by decide⟩
        obtain ⟨y, hy⟩ := (C104_kdf (utf8 pass) s (su.key + su.iv) n).2 ⟨utf8_ne_nil hpass, q6.1, q3, q4, q6.2⟩
        have hyl := C104_laws.kdf_length hy
        exact ⟨pass, su, y, he, h5, hy, fun plain hp =>
          C104_encrypts h5 (by rw [List.length_take, hyl]; omega) (by rw [List.length_drop, hyl]; omega) hp⟩

theorem privates_pack {ext : Ext} {ps : List Pair} {ws : List Bytes}
    (h : List.Forall₂ (fun (p : Pair) w => (fromBytes ext .priv w none).res = .ok p.priv ∧ p.priv.clear = []) ps ws)
    (hs : ∀ p ∈ ps, NoSignBytes p.priv) : ∀ (cs : List (List Char)), cs.length = ps.length → (∀ c ∈ cs, (utf8 c).length < 2 ^ 32) →
    ∃ privs, List.Forall₂ (fun (p : Pair) b => packPrivateBytes p.priv = .ok b)
      (List.zipWith (fun (p : Pair) c => { p with priv := withComment p.priv (strOf c) }) ps cs) privs ∧
      privs.flatten.length ≤ ws.flatten.length + (cs.map (fun c => (utf8 c).length)).sum := by
  induction h with
  | nil =>
    intro cs hl _
    cases cs with
    | nil => exact ⟨[], .nil, by simp⟩
    | cons => cases hl
  | @cons p w ps ws h1 _ ih =>
    intro cs hl hc
    cases cs with
    | nil => cases hl
    | cons c cs =>
      obtain ⟨privs, g1, g2⟩ := ih (fun p hp => hs p (List.mem_cons_of_mem _ hp)) cs (by simpa using hl)
        (fun c h => hc c (List.mem_cons_of_mem _ h))
      obtain ⟨b, hb, hbl⟩ := (parsed_private h1.1 c (hc c List.mem_cons_self)).1 (hs p List.mem_cons_self)
      refine ⟨b :: privs, .cons hb g1, ?_⟩
      simp only [List.flatten_cons, List.length_append, List.map_cons, List.sum_cons]
      omega

theorem le_sum_of_mem {l : List Nat} {n : Nat} (h : n ∈ l) : n ≤ l.sum := by
  induction l with
  | nil => cases h
  | cons a t ih =>
    rw [List.sum_cons]
    rcases List.mem_cons.1 h with rfl | h
    · omega
    · have := ih h; omega

theorem fieldsIn_lt {l : List Bytes} {w : Bytes} (h : FieldsIn l w) : ∀ b ∈ l, b.length < 2 ^ 32 := by
  induction l generalizing w with
  | nil => intro b hb; cases hb
  | cons a t ih =>
    obtain ⟨x, y, hx, hy, -⟩ := h
    intro b hb
    rcases List.mem_cons.1 hb with rfl | hb
    · exact prefixed_lt hx
    · exact ih hy b hb

/-- **C108** (partial). Full claim: whatever was read can be written again with changed comments and another passphrase.  It is false
(`C108_false`).  Proved instead, with the standard algorithms: it can be written, with kept or fresh salt and rounds, exactly if no
integer of a key is negative and needs a sign byte (C05).  That the comments do not make the file too long, and that the passphrase
is not empty, is assumed. -/
theorem C108_writes_partial {ext : Ext} (inp inp1 : Inputs) (passphrase passphrase1 : Option Str) (b : Bytes) (kl : KeyList)
    (cs : List (List Char)) (retain : Bool) (pass : List Char)
    (hr : (listFromBytes ext Std.crypto inp b passphrase).res = .ok kl) (hlen : cs.length = kl.pairs.length)
    (hsize : ∀ plain, kl.decipherBytes = some plain → plain.length + (cs.map (fun c => (utf8 c).length)).sum + 16 ≤ 2 ^ 32)
    (he : Enters inp1 passphrase1 (strOf pass)) (hpass : pass ≠ []) (hi : inp1.checkInt < 2 ^ 32)
    (ht : (inp1.tokenBytes 16).length = 16) :
    (∃ w, (packKeyList Std.crypto inp1 (withComments kl cs) passphrase1 none false retain).res = .ok w) ↔
      ∀ p ∈ kl.pairs, NoSignBytes p.pub ∧ NoSignBytes p.priv := by
  obtain ⟨P⟩ := listFromBytes_parse hr
  have hpar := list_parsed P
  have hdec : kl.decipherBytes = some P.plain := congrArg KeyList.decipherBytes P.list
  have hsz := hsize _ hdec
  have hshort : ∀ c ∈ cs, (utf8 c).length < 2 ^ 32 := by
    intro c hc
    have := le_sum_of_mem (List.mem_map.2 ⟨c, hc, rfl⟩ : (utf8 c).length ∈ cs.map (fun c => (utf8 c).length))
    omega
  constructor
  · rintro ⟨w, hw⟩ p hp
    obtain ⟨k⟩ := packKeyList_pack hw
    have hsel : k.sel = (withComments kl cs).pairs := k.selection
    obtain ⟨⟨x, -, hx⟩, ⟨y, hy⟩, -⟩ := hpar p hp
    have hmem : ∀ {ps : List Pair} {cs : List (List Char)}, cs.length = ps.length → p ∈ ps → ∃ c ∈ cs,
        ({ p with priv := withComment p.priv (strOf c) } : Pair) ∈
          List.zipWith (fun (p : Pair) c => { p with priv := withComment p.priv (strOf c) }) ps cs := by
      intro ps
      induction ps with
      | nil => intro cs _ hp; cases hp
      | cons q ps ih =>
        intro cs hl hp
        cases cs with
        | nil => cases hl
        | cons c cs =>
          rcases List.mem_cons.1 hp with rfl | hp
          · exact ⟨c, List.mem_cons_self, List.mem_cons_self⟩
          · obtain ⟨c', h1, h2⟩ := ih (by simpa using hl) hp
            exact ⟨c', List.mem_cons_of_mem _ h1, List.mem_cons_of_mem _ h2⟩
    obtain ⟨c, hc, hq⟩ := hmem hlen hp
    have hq' : ({ p with priv := withComment p.priv (strOf c) } : Pair) ∈ k.sel := by rw [hsel]; exact hq
    have hget : ∀ {l : List Pair} {bs : List Bytes} {R : Pair → Bytes → Prop}, List.Forall₂ R l bs → ∀ q ∈ l, ∃ b, R q b := by
      intro l bs R h q hq
      induction h with
      | nil => cases hq
      | cons h1 _ ih =>
        rcases List.mem_cons.1 hq with rfl | hq
        · exact ⟨_, h1⟩
        · exact ih hq
    obtain ⟨b1, hb1⟩ := hget k.pubs _ hq'
    obtain ⟨b2, hb2⟩ := hget k.privKeys _ hq'
    exact ⟨(parsed_public hx).2 ⟨b1, hb1⟩, (parsed_private hy c (hshort c hc)).2 ⟨b2, hb2⟩⟩
  · intro hs
    obtain ⟨cipher, kdf, hn, hready⟩ := read_ready hr retain he hpass ht
    obtain ⟨privs, g1, g2⟩ := privates_pack (keysAt_forall P.keys) (fun p hp => (hs p hp).2) cs hlen hshort
    have hfront : (∀ x ∈ P.f.pubs, x.length < 2 ^ 32) ∧ P.f.pubs.length < 2 ^ 31 := by
      obtain ⟨front, wb, ⟨wc, wk, wo, wn, wp, -, -, -, -, -, hn, hf, -⟩, -⟩ := P.lays
      exact ⟨fieldsIn_lt hf, hn⟩
    have hcount : kl.pairs.length = P.f.pubs.length := by
      rw [P.pubs.length_eq, ← P.pairs, List.length_map]
    refine C69_succeeds C104_laws inp1 (withComments kl cs) passphrase1 none false retain cipher kdf (withComments kl cs).pairs privs hn
      (hready cs) rfl ?_ ?_ g1 ?_ hi
    · show (List.zipWith _ kl.pairs cs).length < _
      rw [List.length_zipWith]
      have := hfront.2
      omega
    · intro q hq
      obtain ⟨p, hp, c, -, rfl⟩ := withComments_mem hq
      obtain ⟨⟨x, hm, hx⟩, -⟩ := hpar p hp
      obtain ⟨b1, h1, h2⟩ := (parsed_public hx).1 (hs p hp).1
      have := hfront.1 x hm
      exact ⟨b1, h1, by omega⟩
    · have h1 := congrArg List.length P.split
      simp only [List.length_append, P.len1, P.len2] at h1
      omega

/-- The workflow of the README: a text is read with one passphrase, the comments are set, and the text that is written with another
passphrase is read with that one as exactly the same keys with the new comments. -/
theorem C108_readme_partial {ext : Ext} (inp inp1 inp2 : Inputs) (passphrase passphrase1 passphrase2 : Option Str) (s : Str) (kl : KeyList)
    (cs : List (List Char)) (retain : Bool) (pass : List Char)
    (hr : (listFromString ext Std.crypto inp s passphrase).res = .ok kl) (hlen : cs.length = kl.pairs.length)
    (hsize : ∀ plain, kl.decipherBytes = some plain → plain.length + (cs.map (fun c => (utf8 c).length)).sum + 16 ≤ 2 ^ 32)
    (he : Enters inp1 passphrase1 (strOf pass)) (he' : Enters inp2 passphrase2 (strOf pass)) (hpass : pass ≠ [])
    (hi : inp1.checkInt < 2 ^ 32) (ht : (inp1.tokenBytes 16).length = 16)
    (hs : ∀ p ∈ kl.pairs, NoSignBytes p.pub ∧ NoSignBytes p.priv) :
    ∃ s' kl2, (packListString Std.crypto inp1 (withComments kl cs) passphrase1 none false retain).res = .ok s' ∧
      (listFromString ext Std.crypto inp2 s' passphrase2).res = .ok kl2 ∧
      kl2.pairs = List.zipWith (fun (p : Pair) c => ⟨{ p.pub with clear := [] },
        { p.priv with footer := [(py! "comment", .str (strOf c))] }⟩) kl.pairs cs ∧
      ∀ cipher kdf, Names kl cipher kdf → Names kl2 cipher kdf := by
  obtain ⟨ls, b, -, -, hb⟩ := (C75_texts ext C104_laws.kdf_length inp passphrase s kl).1 hr
  have hb := (C75_accepts ext C104_laws.kdf_length inp passphrase b kl).2 hb
  obtain ⟨w, hw⟩ := (C108_writes_partial inp inp1 passphrase passphrase1 b kl cs retain pass hb hlen hsize he hpass hi ht).2 hs
  obtain ⟨ls', -, -, hs', -⟩ := C36_layout Std.crypto inp1 (withComments kl cs) passphrase1 none false retain w hw
  obtain ⟨w', hw', e, -⟩ := C36_round_trip ext Std.crypto inp1 inp2 (withComments kl cs) passphrase1 passphrase2 none false retain _ hs'
  obtain ⟨kl2, h1, h2, h3⟩ := C108_reads C104_laws inp inp1 inp2 passphrase passphrase1 passphrase2 b w' kl cs retain hb
    (fun p hp => enters_unique he hp ▸ he') hw'
  exact ⟨_, kl2, hs', by rw [e]; exact h1, h2, h3⟩

/-! ### The encrypted example list, and a file with a negative integer -/

theorem noSign_public {k k' : Key} (h : SamePublic k k') (hs : NoSignBytes k) : NoSignBytes k' := by
  obtain ⟨-, -, -, t, fields, -, -, -, -, h1, h2⟩ := h
  intro n i hd
  have hm : n ∈ dkeys fields := h1 ▸ List.mem_map.2 ⟨_, dget_mem hd, rfl⟩
  rw [h2 n hm] at hd
  exact hs n i hd

theorem noSign_private {k k' : Key} (h : SamePrivate k k') (hs : NoSignBytes k) : NoSignBytes k' := by
  obtain ⟨-, -, t, fields, -, -, -, h1, h2, -⟩ := h
  intro n i hd
  have hm : n ∈ dkeys fields := h1 ▸ List.mem_map.2 ⟨_, dget_mem hd, rfl⟩
  rw [h2 n hm] at hd
  exact hs n i hd

theorem noSign_of {k : Key} (h : k.params.data.all (fun e => match e.2 with | .int i => decide (0 ≤ i) | _ => true) = true) :
    NoSignBytes k := by
  intro n i hd
  have := List.all_eq_true.1 h _ (dget_mem hd)
  exact not_needsSignByte_of_nonneg (by simpa using this)

/-- The example list, encrypted with AES-256 under the passphrase `pw`, is read; with two new comments and the passphrase `new` it is
written, and read again. -/
example : ∃ w kl w' kl', (packKeyList Std.crypto exInputs exList none none false true).res = .ok w ∧
    (listFromBytes exExt Std.crypto exInputs w (some (py! "pw"))).res = .ok kl ∧
    (packKeyList Std.crypto exInputs (withComments kl [['a'], ['b', 'c']]) (some (py! "new")) none false true).res = .ok w' ∧
    (listFromBytes exExt Std.crypto exInputs w' (some (py! "new"))).res = .ok kl' ∧
    kl'.pairs.map (fun p => dget p.priv.footer (py! "comment")) = [some (.str (py! "a")), some (.str (py! "bc"))] := by
  obtain ⟨w, -, hw, -⟩ := C104_file (ext := exExt) exInputs exInputs exList none (some (py! "pw")) none false true (py! "aes256-ctr")
    (aesCtr 32) [1, 2, 3] 16 ['p', 'w'] exList.pairs
    [(packPrivateBytes exEd).toOption.getD [], (packPrivateBytes exRsaPriv).toOption.getD []]
    (.inl ⟨_, rfl, by decide +kernel, by decide +kernel⟩) (by unfold suites; simp [aesCtr])
    (.inl ⟨_, rfl, rfl, by decide +kernel, by decide +kernel⟩) (by decide) (by decide) (by decide) (by decide) (by decide)
    (.inr ⟨rfl, by decide +kernel⟩) (.inl (by decide +kernel)) exList_constructed rfl (by decide +kernel)
    (by
      intro p hp
      rcases List.mem_cons.1 hp with rfl | hp
      · exact ⟨(packPublicBytes exEdPub).toOption.getD [], by decide +kernel, by decide +kernel⟩
      · rcases List.mem_cons.1 hp with rfl | hp
        · exact ⟨(packPublicBytes exPub).toOption.getD [], by decide +kernel, by decide +kernel⟩
        · cases hp)
    (.cons (by decide +kernel) (.cons (by decide +kernel) .nil)) (by decide +kernel) (by decide)
  obtain ⟨k⟩ := packKeyList_pack hw
  have hsel : k.sel = exList.pairs := k.selection
  obtain ⟨kl, h1, h2, -, -, h5, -⟩ := k.parsed (ext := exExt) (inp' := exInputs) (passphrase' := some (py! "pw")) C104_laws
    (fun p hp => exList_constructed p (hsel ▸ hp)) (fun p hp => by
      rcases hp with hp | ⟨-, hp⟩
      · cases hp
      · cases hp; exact .inl rfl) []
  rw [List.append_nil] at h1
  have hshort : k.plain.length ≤ 10000 := by
    obtain ⟨c, n, hc, -, hn, -, hp⟩ := k.section_
    have hb : k.cc.blockSize ≤ 16 := by cases k.cc <;> decide
    have hlen : ∀ {l : List Pair} {bs : List Bytes}, List.Forall₂ (fun (p : Pair) b => packPrivateBytes p.priv = .ok b) l bs →
        bs = l.map (fun p => (packPrivateBytes p.priv).toOption.getD []) := by
      intro l bs h
      induction h with
      | nil => rfl
      | cons h _ ih => rw [List.map_cons, h, ← ih]; rfl
    have e := hlen k.privKeys
    rw [hsel] at e
    rw [hp, e]
    have e2 : ((exList.pairs.map (fun p => (packPrivateBytes p.priv).toOption.getD [])).flatten).length ≤ 1000 := by decide +kernel
    simp only [List.length_append, countUp, List.length_map, List.length_range]
    omega
  rw [hsel] at h2
  have hex : exList.pairs = [(⟨exEdPub, exEd⟩ : Pair), ⟨exPub, exRsaPriv⟩] := rfl
  rw [hex] at h2
  generalize hps : kl.pairs = ps at h2
  obtain _ | ⟨a1, h2⟩ := h2
  obtain _ | ⟨a2, h2⟩ := h2
  obtain _ | _ := h2
  rename_i p q
  obtain ⟨w', hw'⟩ := (C108_writes_partial exInputs exInputs (some (py! "pw")) (some (py! "new")) w kl [['a'], ['b', 'c']] true
    ['n', 'e', 'w'] h1 (by rw [hps]; rfl) (by
      intro plain hplain
      rw [h5] at hplain
      cases hplain
      have : ([['a'], ['b', 'c']].map (fun c => (utf8 c).length)).sum = 3 := by decide
      rw [this]
      omega) (.inl (by decide +kernel)) (by decide) (by decide) (by decide)).2 (by
      rw [hps]
      intro x hx
      rcases List.mem_cons.1 hx with rfl | hx
      · exact ⟨noSign_public a1.1 (noSign_of (by decide +kernel)), noSign_private a1.2.1 (noSign_of (by decide +kernel))⟩
      · rcases List.mem_cons.1 hx with rfl | hx
        · exact ⟨noSign_public a2.1 (noSign_of (by decide +kernel)), noSign_private a2.2.1 (noSign_of (by decide +kernel))⟩
        · cases hx)
  obtain ⟨kl', h6, h7, -⟩ := C108_reads C104_laws exInputs exInputs exInputs (some (py! "pw")) (some (py! "new")) (some (py! "new")) w w' kl
    [['a'], ['b', 'c']] true h1 (fun _ h => h) hw'
  refine ⟨w, kl, w', kl', hw, h1, hw', h6, ?_⟩
  rw [h7, hps]
  rfl

/-- A file, not encrypted, with one pair of keys; the public one has the integer -129. -/
def exNegSection : Bytes := [0, 0, 0, 7, 0, 0, 0, 7] ++ (packPrivateBytes exEd).toOption.getD []
def exNegFile : Bytes := magic ++ ([0, 0, 0, 4] ++ pb! "none") ++ ([0, 0, 0, 4] ++ pb! "none") ++ [0, 0, 0, 0] ++ [0, 0, 0, 1] ++
  ([0, 0, 0, 21] ++ exNegWire) ++ ([0, 0, 0, UInt8.ofNat exNegSection.length] ++ exNegSection)
def exNegList : KeyList := ((listFromBytes exExt Std.crypto exInputs exNegFile none).res.toOption).getD exList

theorem exNegFile_reads : (listFromBytes exExt Std.crypto exInputs exNegFile none).res = .ok exNegList := by decide +kernel

/-- The file is read, but can not be written, whatever the comment. -/
theorem C108_false : ¬ ∀ (kl : KeyList) (cs : List (List Char)), (listFromBytes exExt Std.crypto exInputs exNegFile none).res = .ok kl →
    cs.length = kl.pairs.length → (∀ c ∈ cs, (utf8 c).length ≤ 100) →
    ∃ w, (packKeyList Std.crypto exInputs (withComments kl cs) (some (py! "new")) none false false).res = .ok w := by
  intro h
  obtain ⟨w, hw⟩ := h exNegList [['a']] exNegFile_reads (by decide +kernel) (by decide +kernel)
  have : (packKeyList Std.crypto exInputs (withComments exNegList [['a']]) (some (py! "new")) none false false).res = .error .overflowError := by
    decide +kernel
  rw [this] at hw
  cases hw

end OSK
