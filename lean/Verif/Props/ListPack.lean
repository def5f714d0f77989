import Verif.Lemmas.ListRound
/-
Properties C25, C26, C29: parsing what `PrivateKeyList.pack_bytes` wrote.
-/
namespace OSK
open Spec

theorem Spec.Selection.mem {α : Type} {l : List α} {I : Option (List Int)} {sel : List α} (h : Selection l I sel) :
    ∀ a ∈ sel, a ∈ l := by
  cases I with
  | none => intro a ha; rw [show sel = l from h] at ha; exact ha
  | some I =>
    have h' : List.Forall₂ (At l) I sel := h
    clear h
    induction h' with
    | nil => simp
    | cons h1 _ ih =>
      intro a ha
      rcases List.mem_cons.1 ha with rfl | ha
      · obtain ⟨n, hn, -⟩ := h1
        exact List.mem_of_getElem? hn
      · exact ih a ha

/-! ### C25 -/

/-- **C25.** Whatever was packed (any cipher and key derivation function, any selection of the keys) is
recovered by parsing with the same passphrase, whether that is given or entered: the selected pairs in
order, each with the same types, the same private values and comment, and the public values of the public
key (or, with `override_public_with_private`, of the private key).   That the keys
were constructed, that is, accepted by the key classes, and that decryption undoes encryption are
assumed. -/
theorem C25_round_trip {ext : Ext} {cr : Crypto} (hl : CryptoLaws cr) (inp inp' : Inputs) (self : KeyList)
    (passphrase passphrase' : Option Str) (indices : Option (List Int)) (override retain : Bool) (w : Bytes)
    (hk : ∀ p ∈ self.pairs, Constructed ext p.pub ∧ p.priv.kind = .priv ∧ Constructed ext p.priv)
    (hp : ∀ p, Enters inp passphrase p → Enters inp' passphrase' p)
    (h : (packKeyList cr inp self passphrase indices override retain).res = .ok w) :
    ∃ kl sel, (listFromBytes ext cr inp' w passphrase').res = .ok kl ∧ Selection self.pairs indices sel ∧
      List.Forall₂ (fun (p q : Pair) => SamePublic (if override then p.priv else p.pub) q.pub ∧
        SamePrivate p.priv q.priv ∧ q.priv.clear = []) sel kl.pairs := by
  obtain ⟨k⟩ := packKeyList_pack h
  obtain ⟨kl, h1, h2, -⟩ := k.parsed hl (fun p hp => hk p (Selection.mem k.selection p hp)) hp []
  rw [List.append_nil] at h1
  exact ⟨kl, k.sel, h1, k.selection, h2⟩

/-- The example meets the hypotheses: two constructed pairs, packed with a cipher and a passphrase. -/
theorem exList_constructed : ∀ p ∈ exList.pairs,
    Constructed exExt p.pub ∧ p.priv.kind = .priv ∧ Constructed exExt p.priv := by
  intro p hp
  have hp' : p ∈ [(⟨exEdPub, exEd⟩ : Pair), ⟨exPub, exRsaPriv⟩] := hp
  simp only [List.mem_cons, List.not_mem_nil, or_false] at hp'
  rcases hp' with rfl | rfl
  · exact ⟨⟨exEdPub.header, exEdPub.params.data, exEdPub.footer, none, by decide +kernel⟩, rfl,
      exEd.header, exEd.params.data, exEd.footer, none, by decide +kernel⟩
  · exact ⟨⟨exPub.header, exPub.params.data, exPub.footer, none, by decide +kernel⟩, rfl,
      exRsaPriv.header, exRsaPriv.params.data, exRsaPriv.footer, none, by decide +kernel⟩
theorem exFile_packed : (packKeyList toyCrypto exInputs exList none none false true).res = .ok exFile := by
  decide +kernel
example : ∃ kl sel, (listFromBytes exExt toyCrypto exInputs exFile (some (py! "pw"))).res = .ok kl ∧
    Selection exList.pairs none sel ∧ List.Forall₂ (fun (p q : Pair) => SamePublic p.pub q.pub ∧
      SamePrivate p.priv q.priv ∧ q.priv.clear = []) sel kl.pairs :=
  C25_round_trip toyCrypto_laws exInputs exInputs exList none (some (py! "pw")) none false true exFile
    exList_constructed (fun p hp => by
      rcases hp with hp | ⟨-, hp⟩
      · cases hp
      · cases hp; exact .inl rfl) exFile_packed
/-- With the keys in another order, one of them twice, and the public values from the private keys. -/
example : (packKeyList toyCrypto exInputs exList (some (py! "x")) (some [-1, 0, 1]) true false).res.toOption.isSome
    = true := by decide +kernel

/-! ### C26 -/

theorem fromBytes_noExcess {ext : Ext} {b : Bytes} {k : Key} (h : (fromBytes ext .priv b none).res = .ok k)
    (hc : k.clear = []) : .warn .excessBytes ∉ (fromBytes ext .priv b none).log := by
  obtain ⟨t, c, hd, p, f, n, -, rfl, hcl, -, rfl, hlog⟩ := fromBytes_ok h
  rw [hlog]
  simp only at hc
  split at hc
  · exact absurd hc (by simp [dset])
  · rename_i hn
    rw [if_neg hn, List.append_nil]
    exact fun hm => (runChecks_noExcess (P := fun _ => True) (plain_class hcl) (priv_plan hcl).1).ev _ hm rfl

theorem pairsLog_noExcess {ext : Ext} {ps : List Pair} {ws : List Bytes} (h : KeysAt ext ps ws) (i : Nat) :
    .warn .excessBytes ∉ pairsLog ext i ps ws := by
  induction ps generalizing ws i with
  | nil => simp [pairsLog]
  | cons p t ih =>
    obtain ⟨w, ws, rfl, h1, h2, h3⟩ := h
    simp only [pairsLog, List.mem_append, not_or]
    refine ⟨⟨fromBytes_noExcess h1 h2, ?_⟩, ih h3 _⟩
    intro hm
    rcases pairWarnings_events hm with h | h <;> simp at h

/-- The warnings that something is wrong with the structure of a key list. -/
def Spec.Structural (v : Event) : Prop :=
  v = .warn .checkNumbers ∨ (∃ i, v = .warn (.pairTypeMismatch i)) ∨ (∃ i, v = .warn (.pairValueMismatch i)) ∨
    v = .warn .padding ∨ v = .warn .excessBytes

theorem consistent_parsed {override : Bool} {p q : Pair}
    (hs : SamePublic (if override then p.priv else p.pub) q.pub) (hp : SamePrivate p.priv q.priv)
    (hc : override = true ∨ (¬ TypesDiffer p ∧ ¬ ValuesDiffer p)) : ¬ TypesDiffer q ∧ ¬ ValuesDiffer q := by
  obtain ⟨-, -, -, t, fields, ht, -, hh, -, hd, hv⟩ := hs
  obtain ⟨-, -, t', fields', ht', -, hh', hd', hv', -, -⟩ := hp
  have hval : ¬ ∃ n a b, dget (if override then p.priv else p.pub).params.data n = some a ∧
      dget p.priv.params.data n = some b ∧ a ≠ b := by
    rcases hc with rfl | ⟨-, h⟩
    · rintro ⟨n, a, b, h1, h2, h3⟩
      simp only [if_true] at h1
      rw [h1] at h2
      exact h3 (by simpa using h2)
    · cases override
      · exact h
      · rintro ⟨n, a, b, h1, h2, h3⟩
        simp only [if_true] at h1
        rw [h1] at h2
        exact h3 (by simpa using h2)
  have htype : dget (if override then p.priv else p.pub).header (py! "key_type") =
      dget p.priv.header (py! "key_type") := by
    rcases hc with rfl | ⟨h, -⟩
    · rfl
    · cases override
      · exact not_not.1 h
      · rfl
  constructor
  · unfold TypesDiffer
    rw [hh, hh', not_not]
    rw [ht, ht'] at htype
    simp at htype ⊢
    exact htype
  · rintro ⟨n, a, b, h1, h2, h3⟩
    have m1 : n ∈ dkeys fields := by
      rw [← hd]; by_contra hm; rw [dget_eq_none_iff.2 hm] at h1; cases h1
    have m2 : n ∈ dkeys fields' := by
      rw [← hd']; by_contra hm; rw [dget_eq_none_iff.2 hm] at h2; cases h2
    rw [hv n m1] at h1
    rw [hv' n m2] at h2
    exact hval ⟨n, a, b, h1, h2, h3⟩

theorem forall₂_get {α β : Type} {R : α → β → Prop} {l : List α} {m : List β} (h : List.Forall₂ R l m) {i : Nat}
    {b : β} (hb : m[i]? = some b) : ∃ a, a ∈ l ∧ R a b := by
  induction h generalizing i with
  | nil => simp at hb
  | cons h1 _ ih =>
    cases i with
    | zero => simp at hb; subst hb; exact ⟨_, List.mem_cons_self, h1⟩
    | succ i =>
      obtain ⟨a, ha, hr⟩ := ih (by simpa using hb)
      exact ⟨a, List.mem_cons_of_mem _ ha, hr⟩

theorem constructed_type {ext : Ext} {k : Key} (h : Constructed ext k) (hk : k.kind = .priv) :
    ∃ t c, dget k.header (py! "key_type") = some (.str t) ∧ paramsClass .priv (.str t) = .ok c := by
  obtain ⟨hd, p, f, cl, hk'⟩ := h
  obtain ⟨t, c, ht, hc, he, -⟩ := mkKeyWith_ok hk'
  rw [hk] at hc
  rw [he]
  exact ⟨t, c, ht, hc⟩

/-- The tag of a packed list has the length that goes with the cipher. -/
theorem ListPack.tagFits {cr : Crypto} (hl : CryptoLaws cr) {inp : Inputs} {self : KeyList}
    {passphrase : Option Str} {indices : Option (List Int)} {override retain : Bool} {w : Bytes}
    (k : ListPack cr inp self passphrase indices override retain w) :
    k.f.tag.length = k.cc.tagLength ∧ k.f.body.length = k.plain.length := by
  have henc := C42_decrypt_encrypt hl k.cipher _ _ k.enc
  have h1 := k.split
  have h2 : k.f.tag = (bodyTag k.cc (k.f.body ++ k.f.tag)).2 := by rw [← h1]
  have h3 : k.f.tag.length = k.cc.tagLength := by
    rw [h2]
    exact bodyTag_length (by rw [henc.2]; omega)
  have := henc.2
  rw [List.length_append] at this
  exact ⟨h3, by omega⟩

/-- **C26.** Parsing what was packed emits none of the warnings about check numbers, key types, values,
padding and excess bytes.  The pairs that are packed must themselves be consistent (or the public keys be
overridden): an inconsistent pair is written as it is, and the warning about it is then due. -/
theorem C26_no_warnings {ext : Ext} {cr : Crypto} (hl : CryptoLaws cr) (inp inp' : Inputs) (self : KeyList)
    (passphrase passphrase' : Option Str) (indices : Option (List Int)) (override retain : Bool) (w : Bytes)
    (hk : ∀ p ∈ self.pairs, Constructed ext p.pub ∧ p.priv.kind = .priv ∧ Constructed ext p.priv)
    (hp : ∀ p, Enters inp passphrase p → Enters inp' passphrase' p)
    (hc : override = true ∨ ∀ p ∈ self.pairs, ¬ TypesDiffer p ∧ ¬ ValuesDiffer p)
    (h : (packKeyList cr inp self passphrase indices override retain).res = .ok w) :
    ∀ v ∈ (listFromBytes ext cr inp' w passphrase').log, ¬ Structural v := by
  obtain ⟨k⟩ := packKeyList_pack h
  have hmem := Selection.mem k.selection
  obtain ⟨kl, h1, h2, h3, -, h5, n, hn, h6⟩ := k.parsed hl (fun p hp => hk p (hmem p hp)) hp []
  rw [List.append_nil] at h1
  have hcons : ∀ (i : Nat) q, kl.pairs[i]? = some q → ¬ TypesDiffer q ∧ ¬ ValuesDiffer q := by
    intro i q hq
    obtain ⟨p, hpm, hs, hpr, -⟩ := forall₂_get h2 hq
    exact consistent_parsed hs hpr (hc.imp id fun hc => hc p (hmem p hpm))
  obtain ⟨c, m, hcl, -, hm, hmod, hplain⟩ := k.section_
  rintro v hv (rfl | ⟨i, rfl⟩ | ⟨i, rfl⟩ | rfl | rfl)
  · obtain ⟨plain, e, -, hiff⟩ := C32_check_warning ext cr inp' w passphrase' kl h1
    rw [h5] at e
    obtain rfl := Option.some.inj e
    refine hiff.1 hv ?_
    rw [hplain, List.append_assoc, List.append_assoc, List.take_left' hcl, List.drop_left' hcl,
      List.take_left' hcl]
  · obtain ⟨p, hp1, hp2⟩ := (C40_pair_warnings ext cr inp' w passphrase' kl h1 i).1.1 hv
    exact (hcons i p hp1).1 hp2
  · obtain ⟨p, hp1, hp2⟩ := (C40_pair_warnings ext cr inp' w passphrase' kl h1 i).2.1 hv
    exact (hcons i p hp1).2 hp2
  · obtain ⟨cipher, header, block, tag, plain, pad, nums, ws, e1, e2, e3, e4, e5, -, -, -, hiff⟩ :=
      C31_padding_warning ext cr inp' w passphrase' kl h1
    rw [h5] at e4
    rw [h3] at e1
    rw [h6] at e5
    obtain rfl := Option.some.inj e4
    obtain rfl := Option.some.inj e1
    obtain rfl := Option.some.inj e5
    have e6 : dget (fileHeader k.f) (py! "cipher") = some (.str (strOf k.f.cipher)) := rfl
    rw [e6] at e2
    obtain rfl := Val.str.inj (Option.some.inj e2)
    rw [cipher_sizes k.cipher] at e3
    have e7 : k.cc.blockSize = block := by simpa using congrArg (Option.map Prod.fst) e3
    refine hiff.1 hv ⟨e7 ▸ hmod, ?_⟩
    rw [← e7]
    unfold countUp
    refine List.IsPrefix.map _ ?_
    rw [List.prefix_iff_eq_take, List.length_range, List.take_range, Nat.min_eq_left (Nat.le_of_lt hn)]
  · obtain ⟨p⟩ := listFromBytes_parse h1
    have hcip : p.f.cipher = k.f.cipher → p.f.tag.length = k.f.tag.length := by
      intro e
      have h7 := p.cipher
      rw [e, k.cipher] at h7
      rw [tagFits_iff.1 p.tag, (k.tagFits hl).1, Except.ok.inj h7]
    obtain ⟨e1, -, -⟩ := lays_unique p.lays k.lays hcip (r := p.post) (r' := [])
      (by rw [List.append_nil]; exact p.input.symm)
    rw [p.log, List.mem_append, List.mem_append, List.mem_append, List.mem_append] at hv
    rcases hv with (hv | hv) | ((hv | hv) | hv)
    · obtain ⟨b, hb, hv⟩ := List.mem_flatMap.1 hv
      rw [e1] at hb
      obtain ⟨i, hi⟩ := List.mem_iff_getElem?.1 hb
      obtain ⟨a, ha, hab⟩ := forall₂_get k.pubs hi
      have hka := hk a (hmem a ha)
      have hcon : Constructed ext (if override then a.priv else a.pub) := by
        cases override
        · exact hka.1
        · exact hka.2.2
      obtain ⟨-, -, -, hno⟩ := fromBytes_public hcon hab
      refine hno ?_ hv
      obtain ⟨t, c, ht, hcl⟩ := constructed_type hka.2.2 hka.2.1
      refine ⟨t, c, ?_, hcl⟩
      rcases hc with rfl | hc
      · exact ht
      · cases override
        · exact (not_not.1 (hc a (hmem a ha)).1).trans ht
        · exact ht
    · rw [choosePassphrase_log] at hv
      split at hv <;> simp at hv
    · split at hv <;> simp at hv
    · exact pairsLog_noExcess p.keys 0 hv
    · unfold padWarnings at hv
      split at hv <;> simp at hv

/-- The example is consistent. -/
example : ∀ p ∈ exList.pairs, ¬ TypesDiffer p ∧ ¬ ValuesDiffer p := by
  intro p hp
  have hp' : p ∈ [(⟨exEdPub, exEd⟩ : Pair), ⟨exPub, exRsaPriv⟩] := hp
  simp only [List.mem_cons, List.not_mem_nil, or_false] at hp'
  rcases hp' with rfl | rfl
  · exact ⟨by unfold TypesDiffer; decide, (commonValuesAgree_iff _ _).1 (by decide +kernel)⟩
  · exact ⟨by unfold TypesDiffer; decide, (commonValuesAgree_iff _ _).1 (by decide +kernel)⟩
/-- Without consistency there are warnings. -/
example : Event.warn (.pairTypeMismatch 0) ∈ (listFromBytes exExt toyCrypto exInputs exOddFile none).log := by
  decide +kernel

/-! ### C29 -/

/-- **C29.** Every proper initial segment of a packed list is rejected with `ValueError`, whatever
passphrase is given. -/
theorem C29_truncated {ext : Ext} {cr : Crypto} (hl : CryptoLaws cr) (inp inp' : Inputs) (self : KeyList)
    (passphrase passphrase' : Option Str) (indices : Option (List Int)) (override retain : Bool) (w b : Bytes)
    (h : (packKeyList cr inp self passphrase indices override retain).res = .ok w)
    (hb : b <+: w) (hne : b ≠ w) :
    ∃ e, (listFromBytes ext cr inp' b passphrase').res = .error e ∧ e.isValueError = true := by
  rcases hr : (listFromBytes ext cr inp' b passphrase').res with e | kl
  · exact ⟨e, rfl, C27_only_value_error ext cr inp' b passphrase' e hr⟩
  · exfalso
    obtain ⟨k⟩ := packKeyList_pack h
    obtain ⟨p⟩ := listFromBytes_parse hr
    obtain ⟨r, rfl⟩ := hb
    have hcip : p.f.cipher = k.f.cipher → p.f.tag.length = k.f.tag.length := by
      intro e
      have h7 := p.cipher
      rw [e, k.cipher] at h7
      rw [tagFits_iff.1 p.tag, (k.tagFits hl).1, Except.ok.inj h7]
    obtain ⟨-, e, e2⟩ := lays_unique p.lays k.lays hcip (r := p.post ++ r) (r' := [])
      (by rw [List.append_nil, ← List.append_assoc, ← p.input])
    simp at e2
    exact hne (by rw [e2.2, List.append_nil])

example : ∀ n, n < exFile.length → ∃ e, (listFromBytes exExt toyCrypto exInputs (exFile.take n) none).res = .error e ∧
    e.isValueError = true := fun n hn =>
  C29_truncated toyCrypto_laws exInputs exInputs exList none none none false true exFile _ exFile_packed
    (List.take_prefix n exFile) (fun e => by have := congrArg List.length e; simp at this; omega)
example : 200 < exFile.length := by decide +kernel

end OSK
