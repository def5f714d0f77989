import Verif.Spec.PackList
import Verif.Props.Pack
import Verif.Props.ListSucceed
import Mathlib.Data.Int.ModEq
/-
Property C91: exactly what packing a key list writes, and how it fails.
-/
namespace OSK
open Spec

/-! ### Keys -/

theorem public_iff {ext : Ext} {k : Key} (hk : Constructed ext k) :
    (∀ w, packPublicBytes k = .ok w ↔ PublicBytes k w) ∧ ∀ e, packPublicBytes k = .error e ↔ PublicRefused k e := by
  obtain ⟨t, fmt, h1, h2, h3, h4⟩ := C90_public ext k hk
  refine ⟨fun w => (h3 w).trans ⟨?_, ?_⟩, fun e => (h4 e).trans ⟨?_, ?_⟩⟩
  · rintro ⟨wt, wp, a, b, c⟩
    exact ⟨t, fmt, wt, wp, h1, h2, a, b, c⟩
  · rintro ⟨t', fmt', wt, wp, g1, g2, a, b, c⟩
    rw [h1] at g1
    cases g1
    rw [h2] at g2
    cases g2
    exact ⟨wt, wp, a, b, c⟩
  · exact fun h => ⟨t, fmt, h1, h2, h⟩
  · rintro ⟨t', fmt', g1, g2, a⟩
    rw [h1] at g1
    cases g1
    rw [h2] at g2
    cases g2
    exact a

theorem private_iff {ext : Ext} {k : Key} (hk : Constructed ext k) (hp : k.kind = .priv) :
    (∀ w, packPrivateBytes k = .ok w ↔ PrivateBytes k w) ∧ ∀ e, packPrivateBytes k = .error e ↔ PrivateRefused k e := by
  obtain ⟨t, fmt, h1, h2, h3, h4⟩ := C90_private ext k hk hp
  refine ⟨fun w => (h3 w).trans ⟨?_, ?_⟩, fun e => (h4 e).trans ⟨?_, ?_⟩⟩
  · rintro ⟨wt, wp, wc, a, b, c, d⟩
    exact ⟨t, fmt, wt, wp, wc, h1, h2, a, b, c, d⟩
  · rintro ⟨t', fmt', wt, wp, wc, g1, g2, a, b, c, d⟩
    rw [h1] at g1
    cases g1
    rw [h2] at g2
    cases g2
    exact ⟨wt, wp, wc, a, b, c, d⟩
  · exact fun h => ⟨t, fmt, h1, h2, h⟩
  · rintro ⟨t', fmt', g1, g2, a⟩
    rw [h1] at g1
    cases g1
    rw [h2] at g2
    cases g2
    exact a

/-- The keys of the list are as constructed. -/
def Spec.AllConstructed (ext : Ext) (l : List Pair) : Prop :=
  ∀ p ∈ l, Constructed ext p.pub ∧ Constructed ext p.priv ∧ p.priv.kind = .priv

theorem at_mem {l : List Pair} {i : Int} {p : Pair} (h : At l i p) : p ∈ l := by
  obtain ⟨n, hn, -⟩ := h
  exact List.mem_of_getElem? hn

theorem constructed_of {ext : Ext} {l : List Pair} (h : AllConstructed ext l) {p : Pair} (hp : p ∈ l) (override : Bool) :
    Constructed ext (publicOf override p) := by
  cases override
  · exact (h p hp).1
  · exact (h p hp).2.1

theorem index_none {l : List Pair} {i : Int} (h : ∀ p, ¬ At l i p) : pyIndex l i = .error .indexError := by
  rcases hi : pyIndex l i with e | p
  · rw [pyIndex_error hi]
  · exact absurd (pyIndex_ok.1 hi) (h p)

theorem publics_fail {ext : Ext} {l : List Pair} (hl : AllConstructed ext l) {override : Bool} {is : List Int} {e : Exn}
    (h : PublicsFail l override is e) : pubBytes l override is = .error e := by
  induction h with
  | index h => unfold pubBytes; rw [index_none h]; rfl
  | key h1 h2 =>
    unfold pubBytes
    rw [pyIndex_ok.2 h1]
    have := ((public_iff (constructed_of hl (at_mem h1) override)).2 _).2 h2
    unfold publicOf at this
    show (packPublicBytes _ >>= _) = _
    rw [this]
    rfl
  | long h1 h2 h3 =>
    unfold pubBytes
    rw [pyIndex_ok.2 h1]
    have := ((public_iff (constructed_of hl (at_mem h1) override)).1 _).2 h2
    unfold publicOf at this
    show (packPublicBytes _ >>= _) = _
    rw [this]
    show (packFI _ _ >>= _) = _
    rw [refuses_pack (.longBytes h3)]
    rfl
  | later h1 h2 h3 _ ih =>
    unfold pubBytes
    rw [pyIndex_ok.2 h1]
    have := ((public_iff (constructed_of hl (at_mem h1) override)).1 _).2 h2
    unfold publicOf at this
    show (packPublicBytes _ >>= _) = _
    rw [this]
    obtain ⟨w, hw, -⟩ := prefixed_exists h3
    show (packFI _ _ >>= _) = _
    rw [stores_pack (.bytes hw), ih]
    rfl

theorem publics_total {ext : Ext} {l : List Pair} (hl : AllConstructed ext l) (override : Bool) (is : List Int) :
    (∃ e, PublicsFail l override is e) ∨ ∃ sel pubs, List.Forall₂ (At l) is sel ∧
      List.Forall₂ (fun p w => PublicBytes (publicOf override p) w ∧ w.length < 2 ^ 32) sel pubs := by
  induction is with
  | nil => exact .inr ⟨[], [], .nil, .nil⟩
  | cons i t ih =>
    by_cases hi : ∃ p, At l i p
    · obtain ⟨p, hp⟩ := hi
      rcases hb : packPublicBytes (publicOf override p) with e | w
      · exact .inl ⟨e, .key hp (((public_iff (constructed_of hl (at_mem hp) override)).2 _).1 hb)⟩
      · have hw := ((public_iff (constructed_of hl (at_mem hp) override)).1 _).1 hb
        by_cases hlen : w.length < 2 ^ 32
        · rcases ih with ⟨e, he⟩ | ⟨sel, pubs, h1, h2⟩
          · exact .inl ⟨e, .later hp hw hlen he⟩
          · exact .inr ⟨p :: sel, w :: pubs, .cons hp h1, .cons ⟨hw, hlen⟩ h2⟩
        · exact .inl ⟨_, .long hp hw (by omega)⟩
    · exact .inl ⟨_, .index (fun p hp => hi ⟨p, hp⟩)⟩

theorem publics_ok {ext : Ext} {override : Bool} {sel : List Pair} (hl : AllConstructed ext sel) {pubs : List Bytes}
    (h : List.Forall₂ (fun p w => PublicBytes (publicOf override p) w ∧ w.length < 2 ^ 32) sel pubs) :
    ∃ w, pubsOf override sel = .ok w ∧ FieldsIn pubs w := by
  induction h with
  | nil => exact ⟨[], rfl, rfl⟩
  | cons h1 _ ih =>
    rename_i p b t u _
    obtain ⟨r, hr, hf⟩ := ih (fun q hq => hl q (List.mem_cons_of_mem _ hq))
    have := ((public_iff (constructed_of hl List.mem_cons_self override)).1 _).2 h1.1
    unfold publicOf at this
    obtain ⟨x, hx, -⟩ := prefixed_exists h1.2
    refine ⟨x ++ r, ?_, x, r, hx, hf, rfl⟩
    unfold pubsOf
    rw [this]
    show (packFI _ _ >>= _) = _
    rw [stores_pack (.bytes hx), hr]
    rfl

theorem privates_fail {ext : Ext} {sel : List Pair} (hl : AllConstructed ext sel) {e : Exn} (h : PrivatesFail sel e) :
    privsOf sel = .error e := by
  induction h with
  | key h =>
    unfold privsOf
    rw [((private_iff (hl _ List.mem_cons_self).2.1 (hl _ List.mem_cons_self).2.2).2 _).2 h]
    rfl
  | later h _ ih =>
    unfold privsOf
    rw [((private_iff (hl _ List.mem_cons_self).2.1 (hl _ List.mem_cons_self).2.2).1 _).2 h,
      ih (fun q hq => hl q (List.mem_cons_of_mem _ hq))]
    rfl

theorem privates_total {ext : Ext} {sel : List Pair} (hl : AllConstructed ext sel) :
    (∃ e, PrivatesFail sel e) ∨ ∃ privs, List.Forall₂ (fun p w => PrivateBytes p.priv w) sel privs := by
  induction sel with
  | nil => exact .inr ⟨[], .nil⟩
  | cons p t ih =>
    have hi := private_iff (hl _ List.mem_cons_self).2.1 (hl _ List.mem_cons_self).2.2
    rcases hb : packPrivateBytes p.priv with e | w
    · exact .inl ⟨e, .key ((hi.2 _).1 hb)⟩
    · rcases ih (fun q hq => hl q (List.mem_cons_of_mem _ hq)) with ⟨e, he⟩ | ⟨privs, h⟩
      · exact .inl ⟨e, .later ((hi.1 _).1 hb) he⟩
      · exact .inr ⟨w :: privs, .cons ((hi.1 _).1 hb) h⟩

theorem privates_ok {ext : Ext} {sel : List Pair} (hl : AllConstructed ext sel) {privs : List Bytes}
    (h : List.Forall₂ (fun p w => PrivateBytes p.priv w) sel privs) :
    List.Forall₂ (fun (p : Pair) b => packPrivateBytes p.priv = .ok b) sel privs := by
  induction h with
  | nil => exact .nil
  | cons h1 _ ih =>
    exact .cons (((private_iff (hl _ List.mem_cons_self).2.1 (hl _ List.mem_cons_self).2.2).1 _).2 h1)
      (ih (fun q hq => hl q (List.mem_cons_of_mem _ hq)))

/-! ### Header and options -/

theorem named_iff {self : KeyList} {cipher kdf : Val} : listCipherKdf self.header = (cipher, kdf) ↔ Named self cipher kdf := by
  unfold listCipherKdf Named
  rcases self.header with _ | h
  · simp [eq_comm]
  · rcases h1 : dget h (py! "cipher") with _ | c <;> rcases h2 : dget h (py! "kdf") with _ | k <;> simp [h1, h2, eq_comm]

theorem kdf_known {kdf : Str} {fmt : FDict} (h : (kdf, fmt) ∈ kdfFields) :
    ∃ kc, getKdfClass (.str kdf) = .ok kc ∧ kdfFmt kc = fmt ∧
      ((kc = .none ∧ kdf = py! "none") ∨ (kc = .bcrypt ∧ kdf = py! "bcrypt")) := by
  simp only [kdfFields, List.mem_cons, List.not_mem_nil, or_false, Prod.mk.injEq] at h
  rcases h with ⟨rfl, rfl⟩ | ⟨rfl, rfl⟩
  · exact ⟨.none, by decide +kernel, rfl, .inl ⟨rfl, rfl⟩⟩
  · exact ⟨.bcrypt, by decide +kernel, rfl, .inr ⟨rfl, rfl⟩⟩

theorem kdf_unknown {v : Val} (h : ∀ f ∈ kdfFields, v ≠ .str f.1) : getKdfClass v = .error (.keyError (nameIn v)) := by
  unfold getKdfClass
  split
  · rename_i s
    have h1 : s ≠ py! "none" := fun e => h _ (by simp [kdfFields]; exact .inl rfl) (by rw [e])
    have h2 : s ≠ py! "bcrypt" := fun e => h _ (by simp [kdfFields]; exact .inr rfl) (by rw [e])
    have : dget kdfMapping s = none := by
      unfold kdfMapping
      rw [dget, if_neg (fun e => h1 e.symm), dget, if_neg (fun e => h2 e.symm), dget]
    rw [this]
    rfl
  · rename_i hv
    cases v <;> first | rfl | exact absurd rfl (hv _)

theorem kdf_fields_wire {kdf : Str} {fmt : FDict} (h : (kdf, fmt) ∈ kdfFields) : wireFmt fmt = true := by
  simp only [kdfFields, List.mem_cons, List.not_mem_nil, or_false, Prod.mk.injEq] at h
  rcases h with ⟨rfl, rfl⟩ | ⟨rfl, rfl⟩ <;> rfl

theorem options_exist (inp : Inputs) (self : KeyList) (retain : Bool) (kdf : Str) :
    ∃ opts, OptionsFor inp self retain kdf opts := by
  cases retain
  · exact ⟨_, .inr ⟨.inl rfl, rfl⟩⟩
  · rcases h : self.kdfOptions with _ | o
    · exact ⟨_, .inr ⟨.inr h, rfl⟩⟩
    · exact ⟨_, .inl ⟨o, rfl, h, rfl⟩⟩

theorem choose_options {inp : Inputs} {self : KeyList} {retain : Bool} {kdf : Str} {fmt : FDict} {opts : VDict}
    (hk : (kdf, fmt) ∈ kdfFields) (h : OptionsFor inp self retain kdf opts) :
    chooseKdfOptions inp self.kdfOptions (.str kdf) retain = pure opts := by
  rcases h with ⟨o, rfl, h, rfl⟩ | ⟨h, rfl⟩
  · rw [h]; rfl
  · have : chooseKdfOptions inp self.kdfOptions (.str kdf) retain = (do
        let c ← Eff.lift (getKdfClass (.str kdf))
        let o ← generateKdf inp.tokenBytes c
        pure o.data) := by
      unfold chooseKdfOptions
      split
      · rename_i h1 h2
        rcases h with h | h
        · cases h
        · rw [h] at h2; cases h2
      · rfl
    rw [this]
    simp only [kdfFields, List.mem_cons, List.not_mem_nil, or_false, Prod.mk.injEq] at hk
    rcases hk with ⟨rfl, rfl⟩ | ⟨rfl, rfl⟩
    · rw [show getKdfClass (.str (py! "none")) = .ok .none by decide +kernel]
      rfl
    · rw [show getKdfClass (.str (py! "bcrypt")) = .ok .bcrypt by decide +kernel]
      rfl

theorem choose_unknown {inp : Inputs} {self : KeyList} {retain : Bool} {kdf : Val} {e : Exn}
    (h : getKdfClass kdf = .error e) {α : Type} (f : VDict → KdfCls → Eff α) :
    (chooseKdfOptions inp self.kdfOptions kdf retain >>= fun o => Eff.lift (getKdfClass kdf) >>= f o) = Eff.throw e := by
  unfold chooseKdfOptions
  rw [h]
  split <;> rfl

theorem header_cipher {cipher kdf : Val} {ob : Bytes} {n : Nat} {e : Exn} (h : Refuses (.pascal .string) cipher e) :
    packDict listHeaderFmt (listHeader cipher kdf ob n) = .error e := by
  have h1 : packFI (.struct fmt15s) (.bytes authMagic) = .ok magic := by decide +kernel
  have g1 : getItem (listHeader cipher kdf ob n) (py! "auth_magic") = .ok (.bytes authMagic) := rfl
  have g2 : getItem (listHeader cipher kdf ob n) (py! "cipher") = .ok cipher := rfl
  simp only [listHeaderFmt, packDict, g1, g2, h1, refuses_pack h, catE]

theorem header_options {cipher kdf : Val} {wc wk ob : Bytes} {n : Nat} (h1 : Stores (.pascal .string) cipher wc)
    (h2 : Stores (.pascal .string) kdf wk) (h : 2 ^ 32 ≤ ob.length) :
    packDict listHeaderFmt (listHeader cipher kdf ob n) = .error .overflowError := by
  have h0 : packFI (.struct fmt15s) (.bytes authMagic) = .ok magic := by decide +kernel
  have g1 : getItem (listHeader cipher kdf ob n) (py! "auth_magic") = .ok (.bytes authMagic) := rfl
  have g2 : getItem (listHeader cipher kdf ob n) (py! "cipher") = .ok cipher := rfl
  have g3 : getItem (listHeader cipher kdf ob n) (py! "kdf") = .ok kdf := rfl
  have g4 : getItem (listHeader cipher kdf ob n) (py! "kdf_options") = .ok (.bytes ob) := rfl
  simp only [listHeaderFmt, packDict, g1, g2, g3, g4, h0, stores_pack h1, stores_pack h2, refuses_pack (.longBytes h), catE]

theorem pack_int_large {n : Nat} (h : 2 ^ 31 ≤ n) : packFI (.struct fmtBEi) (.int n) = .error .structError := by
  rcases hp : packFI (.struct fmtBEi) (.int n) with e | b
  · by_cases hc : HasClass (.struct fmtBEi) (.int n)
    · obtain ⟨b, hb⟩ := (structPack_hasClass fmtBEi (.int n)).1 hc
      rw [show packFI (.struct fmtBEi) (.int n) = structPack fmtBEi (.int n) from rfl, hb] at hp
      cases hp
    · rw [show packFI (.struct fmtBEi) (.int n) = structPack fmtBEi (.int n) from rfl,
        (structPack_hasClass fmtBEi (.int n)).2 hc] at hp
      exact hp.symm
  · have := (pack_int.1 hp).1.2
    omega

theorem pack_here {d : VDict} {k : Str} {fi : FI} {v : Val} {e : Exn} {t : FDict} (g : getItem d k = .ok v)
    (h : packFI fi v = .error e) : packDict ((k, fi) :: t) d = .error e := by
  simp only [packDict, g, h, catE]

theorem pack_later {d : VDict} {k : Str} {fi : FI} {v : Val} {e : Exn} {t : FDict} {w : Bytes} (g : getItem d k = .ok v)
    (h : packFI fi v = .ok w) (h2 : packDict t d = .error e) : packDict ((k, fi) :: t) d = .error e := by
  simp only [packDict, g, h, h2, catE]

theorem header_count {cipher kdf : Val} {wc wk wo ob : Bytes} {n : Nat} (h1 : Stores (.pascal .string) cipher wc)
    (h2 : Stores (.pascal .string) kdf wk) (h3 : Stores (.pascal .bytes) (.bytes ob) wo) (h : 2 ^ 31 ≤ n) :
    packDict listHeaderFmt (listHeader cipher kdf ob n) = .error .structError := by
  have h0 : packFI (.struct fmt15s) (.bytes authMagic) = .ok magic := by decide +kernel
  have g1 : getItem (listHeader cipher kdf ob n) (py! "auth_magic") = .ok (.bytes authMagic) := rfl
  have g2 : getItem (listHeader cipher kdf ob n) (py! "cipher") = .ok cipher := rfl
  have g3 : getItem (listHeader cipher kdf ob n) (py! "kdf") = .ok kdf := rfl
  have g4 : getItem (listHeader cipher kdf ob n) (py! "kdf_options") = .ok (.bytes ob) := rfl
  have g5 : getItem (listHeader cipher kdf ob n) (py! "num_keys") = .ok (.int n) := rfl
  have h5 := pack_int_large h
  exact pack_later g1 h0 (pack_later g2 (stores_pack h1) (pack_later g3 (stores_pack h2)
    (pack_later g4 (stores_pack h3) (pack_here g5 h5))))

theorem text_stores {cs : List Char} (h : (utf8 cs).length < 2 ^ 32) : ∃ w, Stores (.pascal .string) (.str (strOf cs)) w := by
  obtain ⟨w, hw, -⟩ := prefixed_exists h
  exact ⟨w, .text hw⟩

theorem kdf_name {kdf : Str} {fmt : FDict} (h : (kdf, fmt) ∈ kdfFields) :
    ∃ ks, kdf = strOf ks ∧ (utf8 ks).length < 2 ^ 32 := by
  simp only [kdfFields, List.mem_cons, List.not_mem_nil, or_false, Prod.mk.injEq] at h
  rcases h with ⟨rfl, rfl⟩ | ⟨rfl, rfl⟩
  · exact ⟨"none".toList, by decide +kernel, by decide +kernel⟩
  · exact ⟨"bcrypt".toList, by decide +kernel, by decide +kernel⟩

theorem indices_eq (self : KeyList) (indices : Option (List Int)) :
    indices.getD (allIndices self.pairs.length) = indicesOf self indices := by
  cases indices
  · rfl
  · rfl

theorem count_eq (self : KeyList) (indices : Option (List Int)) :
    (indicesOf self indices).length = countOf self indices := by
  cases indices <;> simp [indicesOf, countOf]

theorem sizes_known {cipher : Str} {sizes : Nat × Nat} (h : cipherSizes cipher = some sizes) :
    ∃ c, getCipherClass (.str cipher) = .ok c ∧ c.blockSize = sizes.1 ∧
      ((cipher = py! "none" ∧ c = .none) ∨ ∃ su, (cipher, su) ∈ suites ∧ IsSuite c su) := by
  unfold cipherSizes at h
  split at h
  · rename_i hc
    subst hc
    cases h
    exact ⟨.none, by decide +kernel, rfl, .inl ⟨rfl, rfl⟩⟩
  · rw [Option.map_eq_some_iff] at h
    obtain ⟨su, h1, rfl⟩ := h
    have hm := dget_mem h1
    obtain ⟨c, hc, hs⟩ := suite_class hm
    exact ⟨c, hc, hs.block, .inr ⟨su, hm, hs⟩⟩

theorem sizes_unknown {cipher : Str} (h : cipherSizes cipher = none) :
    getCipherClass (.str cipher) = .error (.keyError (some cipher)) := by
  rcases hc : getCipherClass (.str cipher) with e | c
  · unfold getCipherClass at hc
    simp only at hc
    split at hc
    · cases hc
    · cases hc; rfl
  · exfalso
    unfold cipherSizes at h
    rcases class_suite hc with ⟨h1, -⟩ | ⟨name, su, h1, h2, -⟩
    · simp only [Val.str.injEq] at h1
      rw [if_pos h1] at h
      cases h
    · simp only [Val.str.injEq] at h1
      subst h1
      split at h
      · cases h
      · have : ∀ e ∈ suites, (dget suites e.1).isSome = true := by
          intro e he
          simp only [suites, List.mem_cons, List.not_mem_nil, or_false] at he
          rcases he with rfl | rfl | rfl | rfl | rfl | rfl | rfl | rfl | rfl | rfl | rfl <;> rfl
        have := this _ h2
        simp only [Option.map_eq_none_iff] at h
        rw [h] at this
        cases this

/-! ### The stages -/

theorem stores_struct {fi : FI} {f : SFmt} {v : Val} {w : Bytes} (h : Stores fi v w) (hf : fi = .struct f) :
    ∃ i, v = .int i := by
  cases h with
  | uint => exact ⟨_, rfl⟩
  | _ => cases hf

/-- Packing, from the header on. -/
theorem pack_start {cr : Crypto} {inp : Inputs} {self : KeyList} {passphrase : Option Str} {indices : Option (List Int)}
    {override retain : Bool} {cipher : Val} {kdf : Str} {opts : VDict} {ob : Bytes}
    (h : Optioned inp self retain cipher kdf opts ob) :
    ∃ kc, ((kc = .none ∧ kdf = py! "none") ∨ (kc = .bcrypt ∧ kdf = py! "bcrypt" ∧
        ∃ salt rounds, dget opts (py! "salt") = some (.bytes salt) ∧ dget opts (py! "rounds") = some (.int rounds))) ∧
      packKeyList cr inp self passphrase indices override retain = (do
        let hw ← Eff.lift (packDict listHeaderFmt (listHeader cipher (.str kdf) ob (countOf self indices)))
        let pw ← Eff.lift (pubBytes self.pairs override (indicesOf self indices))
        let plain ← Eff.lift (packPlain inp self.pairs (indicesOf self indices) cipher)
        let pass ← choosePassphrase inp (kdf = py! "none") passphrase
        let c ← Eff.lift (getCipherClass cipher)
        let y ← Eff.lift (encrypt cr c ⟨kc, opts⟩ pass plain)
        let t ← Eff.lift (packTail c y)
        pure (hw ++ pw ++ t)) := by
  obtain ⟨h1, h2, fmt, h3, h4⟩ := h
  obtain ⟨kc, k1, rfl, k3⟩ := kdf_known h3
  have hp := storesAll_pack h4
  refine ⟨kc, ?_, ?_⟩
  · rcases k3 with k3 | ⟨rfl, k3⟩
    · exact .inl k3
    · refine .inr ⟨rfl, k3, ?_⟩
      cases h4 with
      | cons g1 s1 h4 =>
        cases s1
        cases h4 with
        | cons g2 s2 h4 =>
          obtain ⟨i, rfl⟩ := stores_struct s2 rfl
          exact ⟨_, _, g1, g2⟩
  · rw [packKeyList_eq cr inp self passphrase indices override retain (named_iff.2 h1) (indices_eq self indices),
      choose_options h3 h2, Eff.pure_bind, k1, Eff.lift_ok_bind]
    unfold packFront
    rw [hp, ← count_eq]
    simp only [(newKdf_packed hp).1, Eff.pure_bind, Eff.lift_bind, Eff.bind_assoc, Eff.lift_pure, Eff.lift_ok_bind,
      Val.str.injEq]

theorem Eff.error_bind {α β : Type} {x : Except Exn α} {e : Exn} (h : x = .error e) (f : α → Eff β) :
    (Eff.lift x >>= f) = Eff.throw e := by rw [h]; rfl

theorem header_ok {cs : List Char} {kdf : Str} {fmt : FDict} {ob : Bytes} {n : Nat} (hk : (kdf, fmt) ∈ kdfFields)
    (h1 : (utf8 cs).length < 2 ^ 32) (h2 : ob.length < 2 ^ 32) (h3 : n < 2 ^ 31) :
    ∃ w, packDict listHeaderFmt (listHeader (.str (strOf cs)) (.str kdf) ob n) = .ok w := by
  obtain ⟨ks, rfl, hl⟩ := kdf_name hk
  exact packHeader_succeeds h1 hl h2 h3

theorem unprepared_fails {ext : Ext} {cr : Crypto} {inp : Inputs} {self : KeyList} {passphrase : Option Str}
    {indices : Option (List Int)} {override retain : Bool} {e : Exn} (hc : AllConstructed ext self.pairs)
    (hi : inp.checkInt < 2 ^ 32) (h : Unprepared inp self indices override retain e) :
    packKeyList cr inp self passphrase indices override retain = Eff.throw e := by
  have hsub : ∀ {sel : List Pair}, Selection self.pairs indices sel → AllConstructed ext sel :=
    fun hs p hp => hc p (hs.mem p hp)
  have hchk : ∃ w, packDict decipherHeaderFmt
      [(py! "check_int_1", .int inp.checkInt), (py! "check_int_2", .int inp.checkInt)] = .ok w := by
    obtain ⟨w1, l1, d1⟩ := uint_exists hi
    exact ⟨_, packDict_cons_ok_iff.2 ⟨_, _, _, rfl, pack_uint.2 ⟨l1, by rw [d1]⟩,
      packDict_cons_ok_iff.2 ⟨_, _, _, rfl, pack_uint.2 ⟨l1, by rw [d1]⟩, rfl, rfl⟩, rfl⟩⟩
  cases h with
  | kdf h1 h2 =>
    rw [packKeyList_eq cr inp self passphrase indices override retain (named_iff.2 h1) rfl]
    exact choose_unknown (kdf_unknown h2) _
  | options h1 h2 h3 h4 =>
    obtain ⟨kc, k1, rfl, -⟩ := kdf_known h3
    rw [packKeyList_eq cr inp self passphrase indices override retain (named_iff.2 h1) rfl,
      choose_options h3 h2, Eff.pure_bind, k1, Eff.lift_ok_bind]
    unfold packFront
    rw [refusesAt_pack h4]
    rfl
  | cipher h1 h2 =>
    obtain ⟨kc, -, e⟩ := pack_start (cr := cr) (passphrase := passphrase) (indices := indices) (override := override) h1
    rw [e, header_cipher h2]
    rfl
  | longOptions h1 h2 h3 =>
    obtain ⟨kc, -, e⟩ := pack_start (cr := cr) (passphrase := passphrase) (indices := indices) (override := override) h1
    obtain ⟨ks, rfl, hk⟩ := kdf_name h1.2.2.choose_spec.1
    obtain ⟨wc, hwc⟩ := text_stores h2
    obtain ⟨wk, hwk⟩ := text_stores hk
    rw [e, header_options hwc hwk h3]
    rfl
  | count h1 h2 h3 h4 =>
    obtain ⟨kc, -, e⟩ := pack_start (cr := cr) (passphrase := passphrase) (indices := indices) (override := override) h1
    obtain ⟨ks, rfl, hk⟩ := kdf_name h1.2.2.choose_spec.1
    obtain ⟨wc, hwc⟩ := text_stores h2
    obtain ⟨wk, hwk⟩ := text_stores hk
    obtain ⟨wo, hwo, -⟩ := prefixed_exists h3
    rw [e, header_count hwc hwk (.bytes hwo) h4]
    rfl
  | publics h1 h2 =>
    obtain ⟨kc, -, e⟩ := pack_start (cr := cr) (passphrase := passphrase) (indices := indices) (override := override) h1.1
    obtain ⟨hw, hhw⟩ := header_ok h1.1.2.2.choose_spec.1 h1.2.1 h1.2.2.1 h1.2.2.2
    rw [e, hhw, Eff.lift_ok_bind, publics_fail hc h2]
    rfl
  | privates h1 h2 =>
    obtain ⟨kc, -, e⟩ := pack_start (cr := cr) (passphrase := passphrase) (indices := indices) (override := override) h1.1.1
    obtain ⟨hw, hhw⟩ := header_ok h1.1.1.2.2.choose_spec.1 h1.1.2.1 h1.1.2.2.1 h1.1.2.2.2
    have hs := selection_iff.1 h1.2.1
    rw [indices_eq] at hs
    obtain ⟨pw, hpw, -⟩ := publics_ok (hsub h1.2.1) h1.2.2
    rw [e, hhw, Eff.lift_ok_bind, pubBytes_sel hs, hpw, Eff.lift_ok_bind]
    refine Eff.error_bind ?_ _
    unfold packPlain
    obtain ⟨w, hw⟩ := hchk
    rw [hw, privBytes_sel hs, privates_fail (hsub h1.2.1) h2]
    rfl
  | unknown h1 h2 h3 =>
    obtain ⟨kc, -, e⟩ := pack_start (cr := cr) (passphrase := passphrase) (indices := indices) (override := override) h1.1.1
    obtain ⟨hw, hhw⟩ := header_ok h1.1.1.2.2.choose_spec.1 h1.1.2.1 h1.1.2.2.1 h1.1.2.2.2
    have hs := selection_iff.1 h1.2.1
    rw [indices_eq] at hs
    obtain ⟨pw, hpw, -⟩ := publics_ok (hsub h1.2.1) h1.2.2
    rw [e, hhw, Eff.lift_ok_bind, pubBytes_sel hs, hpw, Eff.lift_ok_bind]
    refine Eff.error_bind ?_ _
    unfold packPlain
    obtain ⟨w, hw⟩ := hchk
    rw [hw, privBytes_sel hs, privsOf_succeeds (privates_ok (hsub h1.2.1) h2), sizes_unknown h3]
    rfl

/-! ### Encryption -/

/-- The class goes with the name and the options are there. -/
def KdfReady (kc : KdfCls) (kdf : Str) (opts : VDict) : Prop :=
  (kc = .none ∧ kdf = py! "none") ∨ (kc = .bcrypt ∧ kdf = py! "bcrypt" ∧
    ∃ salt rounds, dget opts (py! "salt") = some (.bytes salt) ∧ dget opts (py! "rounds") = some (.int rounds))

theorem derives_eq {cr : Crypto} {kc : KdfCls} {kdf : Str} {opts : VDict} {n : Nat} {p : Str} {r : Except Exn Bytes}
    (hk : KdfReady kc kdf opts) (h : DerivesKey cr kdf opts n p r) : deriveKey cr ⟨kc, opts⟩ p n = r := by
  have hne : (py! "none") ≠ py! "bcrypt" := by decide
  cases h with
  | none h =>
    rcases hk with ⟨rfl, -⟩ | ⟨-, h', -⟩
    · rfl
    · exact absurd (h.symm.trans h') hne
  | surrogate h hs =>
    rcases hk with ⟨-, h'⟩ | ⟨rfl, -, salt, rounds, g1, g2⟩
    · exact absurd (h'.symm.trans h) hne
    · have : strEncode p = .error .unicodeEncodeError := by
        unfold strEncode
        split
        · rename_i b hb
          obtain ⟨cs, rfl, -⟩ := utf8Encode?_some hb
          exact absurd rfl (hs cs)
        · rfl
      rw [deriveKey_dget _ _ g1 g2, deriveKey_bcrypt, this]
      rfl
  | bcrypt h g1 g2 =>
    rcases hk with ⟨-, h'⟩ | ⟨rfl, -, -⟩
    · exact absurd (h'.symm.trans h) hne
    · rename_i cs salt rounds
      have : strEncode (strOf cs) = .ok (utf8 cs) := by unfold strEncode; rw [utf8Encode?_chars]
      rw [deriveKey_dget _ _ g1 g2, deriveKey_bcrypt, this]
      rfl

theorem derives_total (cr : Crypto) {kc : KdfCls} {kdf : Str} {opts : VDict} (n : Nat) (p : Str)
    (hk : KdfReady kc kdf opts) : ∃ r, DerivesKey cr kdf opts n p r := by
  rcases hk with ⟨-, h⟩ | ⟨-, h, salt, rounds, g1, g2⟩
  · exact ⟨_, .none h⟩
  · by_cases hs : ∃ cs, p = strOf cs
    · obtain ⟨cs, rfl⟩ := hs
      exact ⟨_, .bcrypt h g1 g2⟩
    · exact ⟨_, .surrogate h (fun cs hc => hs ⟨cs, hc⟩)⟩

theorem derives_length {cr : Crypto} (hl : CryptoLaws cr) {kdf : Str} {opts : VDict} {n : Nat} {p : Str} {r : Bytes}
    (h : DerivesKey cr kdf opts n p (.ok r)) : r = [] ∨ r.length = n := by
  generalize hx : (Except.ok r : Except Exn Bytes) = x at h
  cases h with
  | none => cases hx; exact .inl rfl
  | surrogate => cases hx
  | bcrypt => exact .inr (hl.kdf_length hx.symm)

theorem suite_enc {cr : Crypto} {name : Str} {su : Suite} (h : (name, su) ∈ suites) {c : CipherCls} (hs : IsSuite c su)
    {r : Bytes} (hr : r = [] ∨ r.length = su.key + su.iv) (x : Bytes) :
    encryptWithKeyIv cr c x (splitKeyIv c r).1 (splitKeyIv c r).2 = su.enc cr (r.take su.key) (r.drop su.key) x := by
  rw [hs.enc]
  rcases hr with rfl | hr
  · have h1 : (splitKeyIv c []).1 = [] := by
      have := sliceTo_nat ([] : Bytes) c.keyLength
      simpa [splitKeyIv] using this
    have h2 : (splitKeyIv c []).2 = [] := by
      have := congrArg List.length (sliceTo_sliceFrom [] c.ivLength)
      rw [List.length_append] at this
      simp only [List.length_nil] at this
      exact List.eq_nil_of_length_eq_zero (by
        show (sliceFrom [] (-(c.ivLength : Int))).length = 0
        omega)
    rw [h1, h2]
    simp
  · obtain ⟨h1, h2⟩ := splitKeyIv_eq hs hr
    rw [h1]
    by_cases hi : 0 < su.iv
    · rw [h2 hi]
    · exact (suite_iv h hi cr _ _ _ x).1

theorem bodyTag_of {c : CipherCls} {body tag : Bytes} (h : tag.length = c.tagLength) :
    bodyTag c (body ++ tag) = (body, tag) := by
  have h1 := bodyTag_append c (body ++ tag)
  have h2 := bodyTag_length (c := c) (y := body ++ tag) (by rw [List.length_append]; omega)
  have h3 := List.append_inj' h1 (by omega)
  exact Prod.ext h3.1 h3.2

theorem encrypts_error {cr : Crypto} (hl : CryptoLaws cr) {cipher kdf : Str} {opts : VDict} {p : Str} {plain : Bytes}
    {kc : KdfCls} {c : CipherCls} {e : Exn} (hk : KdfReady kc kdf opts) (hc : getCipherClass (.str cipher) = .ok c)
    (h : Encrypts cr cipher kdf opts p plain (.error e)) : encrypt cr c ⟨kc, opts⟩ p plain = .error e := by
  cases h with
  | noKey h1 h2 =>
    obtain ⟨c', hc', hs⟩ := suite_class h1
    rw [hc] at hc'
    cases hc'
    rw [encrypt_ne_none hs.notNone, hs.key, hs.iv, derives_eq hk h2]
    rfl
  | refused h1 h2 h3 =>
    obtain ⟨c', hc', hs⟩ := suite_class h1
    rw [hc] at hc'
    cases hc'
    rw [encrypt_ne_none hs.notNone, hs.key, hs.iv, derives_eq hk h2]
    exact (suite_enc h1 hs (derives_length hl h2) plain).trans h3

theorem encrypts_ok {cr : Crypto} (hl : CryptoLaws cr) {cipher kdf : Str} {opts : VDict} {p : Str} {plain : Bytes}
    {kc : KdfCls} {c : CipherCls} {body tag : Bytes} (hk : KdfReady kc kdf opts)
    (hc : getCipherClass (.str cipher) = .ok c) (h : Encrypts cr cipher kdf opts p plain (.ok (body, tag))) :
    encrypt cr c ⟨kc, opts⟩ p plain = .ok (body ++ tag) ∧ bodyTag c (body ++ tag) = (body, tag) := by
  cases h with
  | clear h =>
    subst h
    rw [show getCipherClass (.str (py! "none")) = .ok .none by decide +kernel] at hc
    cases hc
    rw [List.append_nil]
    exact ⟨rfl, rfl⟩
  | sealed h1 h2 h3 h4 =>
    obtain ⟨c', hc', hs⟩ := suite_class h1
    rw [hc] at hc'
    cases hc'
    rw [encrypt_ne_none hs.notNone, hs.key, hs.iv, derives_eq hk h2]
    exact ⟨(suite_enc h1 hs (derives_length hl h2) plain).trans h3, bodyTag_of (by rw [hs.tag, h4])⟩

theorem encrypts_total {cr : Crypto} (hl : CryptoLaws cr) {cipher kdf : Str} {opts : VDict} (p : Str) (plain : Bytes)
    {kc : KdfCls} (hk : KdfReady kc kdf opts) {sizes : Nat × Nat} (hs : cipherSizes cipher = some sizes) :
    ∃ r, Encrypts cr cipher kdf opts p plain r := by
  obtain ⟨c, -, -, h | ⟨su, hsu, -⟩⟩ := sizes_known hs
  · exact ⟨_, .clear h.1⟩
  · obtain ⟨d, hd⟩ := derives_total cr (su.key + su.iv) p hk
    rcases d with e | r
    · exact ⟨_, .noKey hsu hd⟩
    · rcases he : su.enc cr (r.take su.key) (r.drop su.key) plain with e | y
      · exact ⟨_, .refused hsu hd he⟩
      · have hy := (suite_inv hsu hl he).2
        refine ⟨_, .sealed (body := y.take (y.length - su.tag)) (tag := y.drop (y.length - su.tag)) hsu hd ?_ ?_⟩
        · rw [List.take_append_drop, he]
        · rw [List.length_drop]
          omega

/-! ### Everything -/

theorem pad_unique {n k k' b : Nat} (h : (n + k) % b = 0) (h' : (n + k') % b = 0) (hk : k < b) (hk' : k' < b) : k = k' := by
  have : k ≡ k' [MOD b] := Nat.ModEq.add_left_cancel' n (h.trans h'.symm)
  rwa [Nat.ModEq, Nat.mod_eq_of_lt hk, Nat.mod_eq_of_lt hk'] at this

theorem section_unique {check : Nat} {keys : List Bytes} {block : Nat} {x y : Bytes} (h : Section check keys block x)
    (h' : Section check keys block y) : x = y := by
  obtain ⟨c, k, h1, h2, h3, h4, rfl⟩ := h
  obtain ⟨c', k', g1, g2, g3, g4, rfl⟩ := h'
  have hc : c = c' := by
    rw [digitSum_eq] at h2 g2
    rw [← natToBE_beNat c, ← natToBE_beNat c', h1, g1, h2, g2]
  subst hc
  have hlen : ∀ k, (countUp k).length = k := fun k => by simp [countUp]
  rw [List.length_append, hlen] at h4 g4
  rw [pad_unique h4 g4 h3 g3]

/-- Packing, from the passphrase on. -/
theorem pack_prepared {ext : Ext} {cr : Crypto} {inp : Inputs} {self : KeyList} {passphrase : Option Str}
    {indices : Option (List Int)} {override retain : Bool} {cipher : List Char} {kdf : Str} {opts : VDict} {ob : Bytes}
    {pubs : List Bytes} {plain : Bytes} (hcon : AllConstructed ext self.pairs) (hi : inp.checkInt < 2 ^ 32)
    (h : Prepared inp self indices override retain cipher kdf opts ob pubs plain) :
    ∃ kc c front ks sizes, KdfReady kc kdf opts ∧ getCipherClass (.str (strOf cipher)) = .ok c ∧ kdf = strOf ks ∧
      cipherSizes (strOf cipher) = some sizes ∧ (∀ b t, (KeyFile.mk cipher ks ob pubs b t).Front front) ∧
      packKeyList cr inp self passphrase indices override retain = (do
        let pass ← choosePassphrase inp (kdf = py! "none") passphrase
        let y ← Eff.lift (encrypt cr c ⟨kc, opts⟩ pass plain)
        let t ← Eff.lift (packTail c y)
        pure (front ++ t)) := by
  obtain ⟨sel, privs, sizes, h1, h2, h3, h4⟩ := h
  have hsel : AllConstructed ext sel := fun p hp => hcon p (h1.2.1.mem p hp)
  obtain ⟨kc, hk, e⟩ := pack_start (cr := cr) (passphrase := passphrase) (indices := indices) (override := override) h1.1.1
  obtain ⟨c, hc, hb, -⟩ := sizes_known h3
  obtain ⟨ks, rfl, hkl⟩ := kdf_name h1.1.1.2.2.choose_spec.1
  obtain ⟨hw, hhw⟩ := header_ok h1.1.1.2.2.choose_spec.1 h1.1.2.1 h1.1.2.2.1 h1.1.2.2.2
  have hs := selection_iff.1 h1.2.1
  rw [indices_eq] at hs
  obtain ⟨pw, hpw, hf⟩ := publics_ok hsel h1.2.2
  have hpr := privates_ok hsel h2
  obtain ⟨plain', hp1, -, -⟩ := packPlain_succeeds hs hpr hc hi
  have hplain : plain' = plain := by
    obtain ⟨privs', q1, q2⟩ := packPlain_ok hp1 hs hc
    have e1 : privs' = privs := by
      have := privsOf_succeeds q1
      clear q2 hp1
      have hd : ∀ {s : List Pair} {a b : List Bytes},
          List.Forall₂ (fun (p : Pair) b => packPrivateBytes p.priv = .ok b) s a →
          List.Forall₂ (fun (p : Pair) b => packPrivateBytes p.priv = .ok b) s b → a = b := by
        intro s a b ha hb
        induction ha generalizing b with
        | nil => cases hb; rfl
        | cons x _ ih =>
          cases hb with
          | cons y hb =>
            rw [x] at y
            cases y
            rw [ih hb]
      exact hd q1 hpr
    subst e1
    rw [hb] at q2
    exact section_unique q2 h4
  subst hplain
  refine ⟨kc, c, hw ++ pw, ks, sizes, hk, hc, rfl, h3, fun b t => ?_, ?_⟩
  · obtain ⟨cs', ks', wc, wk, wo, wn, q1, q2, q3, q4, q5, q6, q7, q8, rfl⟩ := packHeader_ok hhw
    have q1' := strOf_inj (Val.str.inj q1)
    have q2' := strOf_inj (Val.str.inj q2)
    subst q1' q2'
    refine ⟨wc, wk, wo, wn, pw, q3, q4, q5, q6, ?_, ?_, hf, rfl⟩
    · rw [q7, ← count_eq, hs.length_eq]
      exact h1.2.2.length_eq
    · have := h1.2.2.length_eq
      have h5 := hs.length_eq
      rw [count_eq] at h5
      show pubs.length < _
      rw [← this, ← h5]
      exact q8
  · rw [e, hhw, Eff.lift_ok_bind, pubBytes_sel hs, hpw, Eff.lift_ok_bind, hp1, Eff.lift_ok_bind]
    simp only [hc, Eff.lift_ok_bind]

theorem front_fun {f : KeyFile} {x x' : Bytes} (h : f.Front x) (h' : f.Front x') : x = x' := by
  obtain ⟨wc, wk, wo, wn, wp, a1, a2, a3, a4, a5, -, a7, rfl⟩ := h
  obtain ⟨wc', wk', wo', wn', wp', b1, b2, b3, b4, b5, -, b7, rfl⟩ := h'
  have e1 := prefixed_fun a1 b1
  have e2 := prefixed_fun a2 b2
  have e3 := prefixed_fun a3 b3
  have e4 : wn = wn' := by
    rw [digitSum_eq] at a5 b5
    exact beNat_inj (a4.trans b4.symm) (a5.trans b5.symm)
  have e5 : wp = wp' := by
    have : ∀ {l : List Bytes} {x y : Bytes}, FieldsIn l x → FieldsIn l y → x = y := by
      intro l
      induction l with
      | nil => intro x y hx hy; exact hx.trans hy.symm
      | cons b t ih =>
        rintro x y ⟨x1, x2, p1, p2, rfl⟩ ⟨y1, y2, q1, q2, rfl⟩
        rw [prefixed_fun p1 q1, ih p2 q2]
    exact this a7 b7
  subst e1 e2 e3 e4 e5
  rfl

theorem choosePassphrase_eq (inp : Inputs) (kdf : Str) (passphrase : Option Str) :
    choosePassphrase inp (kdf = py! "none") passphrase =
      ⟨if kdf ≠ py! "none" ∧ passphrase = none then [.prompt] else [], passphraseFor inp kdf passphrase⟩ := by
  unfold choosePassphrase passphraseFor
  by_cases h : kdf = py! "none"
  · simp [h]; rfl
  · cases passphrase
    · simp [h]; rfl
    · simp [h]; rfl

theorem packTail_ok {c : CipherCls} {body tag wb : Bytes} (h : bodyTag c (body ++ tag) = (body, tag))
    (hw : Prefixed 4 body wb) : packTail c (body ++ tag) = .ok (wb ++ tag) := by
  unfold packTail
  rw [h, packFI_bytes_iff.2 ⟨_, rfl, hw⟩]
  rfl

theorem finishes_eq {cr : Crypto} (hl : CryptoLaws cr) {inp : Inputs} {passphrase : Option Str}
    {cipher ks : List Char} {kdf : Str} {opts : VDict} {ob : Bytes} {pubs : List Bytes} {plain front : Bytes} {kc : KdfCls}
    {c : CipherCls} (hk : KdfReady kc kdf opts) (hc : getCipherClass (.str (strOf cipher)) = .ok c) (hks : kdf = strOf ks)
    (hf : ∀ b t, (KeyFile.mk cipher ks ob pubs b t).Front front) {r : Except Exn Bytes}
    (h : Finishes cr inp passphrase cipher kdf opts ob pubs plain r) :
    (do
      let pass ← choosePassphrase inp (kdf = py! "none") passphrase
      let y ← Eff.lift (encrypt cr c ⟨kc, opts⟩ pass plain)
      let t ← Eff.lift (packTail c y)
      pure (front ++ t) : Eff Bytes) = ⟨if kdf ≠ py! "none" ∧ passphrase = none then [.prompt] else [], r⟩ := by
  rw [choosePassphrase_eq]
  cases h with
  | noPassphrase h => rw [h, Eff.mk_bind_error]
  | encryption h1 h2 =>
    rw [h1, Eff.mk_bind_ok, encrypts_error hl hk hc h2]
    simp [Eff.lift_error_bind]
  | long h1 h2 h3 =>
    obtain ⟨e1, e2⟩ := encrypts_ok hl hk hc h2
    rename_i p body tag
    have e3 : packTail c (body ++ tag) = .error .overflowError := by
      unfold packTail
      rw [e2, refuses_pack (.longBytes h3)]
      rfl
    rw [h1, Eff.mk_bind_ok, e1, Eff.lift_ok_bind, e3]
    simp [Eff.lift_error_bind]
  | file h1 h2 h3 h4 =>
    rename_i p ks' body tag w
    have := strOf_inj (hks.symm.trans h3)
    subst this
    obtain ⟨front', wb, g1, g2, rfl⟩ := h4
    have := front_fun g1 (hf body tag)
    subst this
    obtain ⟨e1, e2⟩ := encrypts_ok hl hk hc h2
    rw [h1, Eff.mk_bind_ok, e1, Eff.lift_ok_bind, packTail_ok e2 g2, Eff.lift_ok_bind]
    simp

theorem finishes_total {cr : Crypto} (hl : CryptoLaws cr) (inp : Inputs) (passphrase : Option Str)
    {cipher ks : List Char} {kdf : Str} {opts : VDict} {ob : Bytes} {pubs : List Bytes} {plain front : Bytes} {kc : KdfCls}
    (hk : KdfReady kc kdf opts) (hks : kdf = strOf ks) {sizes : Nat × Nat} (hs : cipherSizes (strOf cipher) = some sizes)
    (hf : ∀ b t, (KeyFile.mk cipher ks ob pubs b t).Front front) :
    ∃ r, Finishes cr inp passphrase cipher kdf opts ob pubs plain r := by
  rcases hp : passphraseFor inp kdf passphrase with e | p
  · exact ⟨_, .noPassphrase hp⟩
  · obtain ⟨r, hr⟩ := encrypts_total hl p plain hk hs
    rcases r with e | ⟨body, tag⟩
    · exact ⟨_, .encryption hp hr⟩
    · by_cases hb : body.length < 2 ^ 32
      · obtain ⟨wb, hwb, -⟩ := prefixed_exists hb
        exact ⟨_, .file hp hr hks ⟨front, wb, hf body tag, hwb, rfl⟩⟩
      · exact ⟨_, .long hp hr (by omega)⟩

/-- **C91** (before the encryption). If something cannot be prepared, packing fails with the exception of the first such
thing, and nothing is asked. -/
theorem C91_unprepared (ext : Ext) (cr : Crypto) (inp : Inputs) (self : KeyList) (passphrase : Option Str)
    (indices : Option (List Int)) (override retain : Bool) (e : Exn) (hc : AllConstructed ext self.pairs)
    (hi : inp.checkInt < 2 ^ 32) (h : Unprepared inp self indices override retain e) :
    packKeyList cr inp self passphrase indices override retain = ⟨[], .error e⟩ :=
  unprepared_fails hc hi h

/-- **C91** (encryption). If everything is prepared, the passphrase is asked for if one is needed and none was given, and
the outcome is that of the encryption, laid out as a key file.  There are no warnings. -/
theorem C91_prepared (ext : Ext) (cr : Crypto) (hl : CryptoLaws cr) (inp : Inputs) (self : KeyList) (passphrase : Option Str)
    (indices : Option (List Int)) (override retain : Bool) (cipher : List Char) (kdf : Str) (opts : VDict) (ob : Bytes)
    (pubs : List Bytes) (plain : Bytes) (hc : AllConstructed ext self.pairs) (hi : inp.checkInt < 2 ^ 32)
    (h : Prepared inp self indices override retain cipher kdf opts ob pubs plain) :
    (packKeyList cr inp self passphrase indices override retain).log =
      (if kdf ≠ py! "none" ∧ passphrase = none then [.prompt] else []) ∧
    ∀ r, (packKeyList cr inp self passphrase indices override retain).res = r ↔
      Finishes cr inp passphrase cipher kdf opts ob pubs plain r := by
  obtain ⟨kc, c, front, ks, sizes, h1, h2, h3, h4, h5, e⟩ := pack_prepared (cr := cr) (passphrase := passphrase) hc hi h
  obtain ⟨r, hr⟩ := finishes_total hl inp passphrase (plain := plain) h1 h3 h4 h5
  have e' := e.trans (finishes_eq hl h1 h2 h3 h5 hr)
  refine ⟨by rw [e'], fun r' => ⟨fun h => ?_, fun h => ?_⟩⟩
  · rw [e'] at h
    simp only at h
    rw [← h]
    exact hr
  · rw [e.trans (finishes_eq hl h1 h2 h3 h5 h)]

/-- **C91** (complete). One or the other is the case. -/
theorem C91_complete (ext : Ext) (inp : Inputs) (self : KeyList) (indices : Option (List Int)) (override retain : Bool)
    (hc : AllConstructed ext self.pairs) (hi : inp.checkInt < 2 ^ 32) :
    (∃ e, Unprepared inp self indices override retain e) ∨
    ∃ cipher kdf opts ob pubs plain, Prepared inp self indices override retain cipher kdf opts ob pubs plain := by
  rcases hn : listCipherKdf self.header with ⟨cipher, kdf⟩
  rw [named_iff] at hn
  by_cases hk : ∃ f ∈ kdfFields, kdf = .str f.1
  · obtain ⟨⟨name, fmt⟩, hf, rfl⟩ := hk
    obtain ⟨opts, ho⟩ := options_exist inp self retain name
    rcases record_total (kdf_fields_wire hf) opts with ⟨ob, hob⟩ | ⟨e, he⟩
    · have hopt : Optioned inp self retain cipher name opts ob := ⟨hn, ho, fmt, hf, hob⟩
      rcases field_total (fi := .pascal .string) rfl cipher with ⟨w, hw⟩ | ⟨e, he⟩
      · generalize hfi : FI.pascal .string = fi at hw
        cases hw <;> cases hfi
        rename_i cs hcs
        have hcl := (prefixed_iff.1 hcs).1
        have hcl : (utf8 cs).length < 2 ^ 32 := by simpa using hcl
        by_cases hol : ob.length < 2 ^ 32
        · by_cases hcount : countOf self indices < 2 ^ 31
          · have hhead : Headed inp self indices retain cs name opts ob := ⟨hopt, hcl, hol, hcount⟩
            rcases publics_total hc override (indicesOf self indices) with ⟨e, he⟩ | ⟨sel, pubs, h1, h2⟩
            · exact .inl ⟨e, .publics hhead he⟩
            · have hsel : Selection self.pairs indices sel := selection_iff.2 (by rw [indices_eq]; exact h1)
              have hfront : Fronted inp self indices override retain cs name opts ob sel pubs := ⟨hhead, hsel, h2⟩
              have hcs : AllConstructed ext sel := fun p hp => hc p (hsel.mem p hp)
              rcases privates_total hcs with ⟨e, he⟩ | ⟨privs, h3⟩
              · exact .inl ⟨e, .privates hfront he⟩
              · rcases hs : cipherSizes (strOf cs) with _ | sizes
                · exact .inl ⟨_, .unknown hfront h3 hs⟩
                · obtain ⟨c, hcc, hb, -⟩ := sizes_known hs
                  obtain ⟨plain, hp1, -, -⟩ := packPlain_succeeds h1 (privates_ok hcs h3) hcc hi
                  obtain ⟨privs', q1, q2⟩ := packPlain_ok hp1 h1 hcc
                  rw [hb] at q2
                  have : List.Forall₂ (fun p w => PrivateBytes p.priv w) sel privs' := by
                    clear hp1 q2 h3 hfront h2 hsel h1 hs
                    induction q1 with
                    | nil => exact .nil
                    | cons x _ ih =>
                      exact .cons (((private_iff (hcs _ List.mem_cons_self).2.1 (hcs _ List.mem_cons_self).2.2).1 _).1 x)
                        (ih (fun q hq => hcs q (List.mem_cons_of_mem _ hq)))
                  exact .inr ⟨cs, name, opts, ob, pubs, plain, sel, privs', sizes, hfront, this, hs, q2⟩
          · exact .inl ⟨_, .count hopt hcl hol (by omega)⟩
        · exact .inl ⟨_, .longOptions hopt hcl (by omega)⟩
      · exact .inl ⟨e, .cipher hopt he⟩
    · exact .inl ⟨e, .options hn ho hf he⟩
  · exact .inl ⟨_, .kdf hn (fun f hf h => hk ⟨f, hf, h⟩)⟩

theorem exList_all : AllConstructed exExt exList.pairs := fun p hp =>
  ⟨(exList_constructed p hp).1, (exList_constructed p hp).2.2, (exList_constructed p hp).2.1⟩

/-- The example list is prepared, asks for its passphrase, and finishes with the example file. -/
example : ∃ cipher kdf opts ob pubs plain, Prepared exInputs exList none false true cipher kdf opts ob pubs plain ∧
    kdf = py! "bcrypt" ∧ Finishes toyCrypto exInputs none cipher kdf opts ob pubs plain (.ok exFile) := by
  have hi : exInputs.checkInt < 2 ^ 32 := by decide
  rcases C91_complete exExt exInputs exList none false true exList_all hi with ⟨e, he⟩ | ⟨ci, k, o, ob, ps, pl, h⟩
  · have := congrArg Eff.res (C91_unprepared exExt toyCrypto exInputs exList none none false true e exList_all hi he)
    rw [exFile_packed] at this
    cases this
  · refine ⟨ci, k, o, ob, ps, pl, h, ?_, ?_⟩
    · obtain ⟨-, -, -, ⟨⟨⟨hn, -⟩, -⟩, -⟩, -⟩ := h
      have := named_iff.2 hn
      have e : listCipherKdf exList.header = (.str (py! "aes256-ctr"), .str (py! "bcrypt")) := by decide +kernel
      rw [e] at this
      simp only [Prod.mk.injEq, Val.str.injEq] at this
      exact this.2.symm
    · exact ((C91_prepared exExt toyCrypto toyCrypto_laws exInputs exList none none false true ci k o ob ps pl
        exList_all hi h).2 _).1 exFile_packed

/-- An unknown key derivation function comes first. -/
example : Unprepared exInputs
    { exList with header := some [(py! "cipher", .int 3), (py! "kdf", .str (py! "scrypt"))] } (some [9]) false true
    (.keyError (some (py! "scrypt"))) :=
  .kdf (cipher := .int 3) (kdf := .str (py! "scrypt")) (.inl ⟨_, rfl, by decide +kernel, by decide +kernel⟩)
    (by decide +kernel)

end OSK
