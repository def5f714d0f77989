import Verif.Lemmas.Resources
import Verif.Lemmas.ListParse
import Verif.Props.Both
/-
Sizes of lists of keys, and numbers of warnings about them.
-/
namespace OSK
open Spec

/-- What is left to read. -/
def remains {α : Type} : Except Exn (α × Stream) → Nat
  | .ok r => r.2.rest.length
  | .error _ => 0

theorem spends_bind {α β : Type} {x : Eff (α × Stream)} {f : α × Stream → Eff (β × Stream)} {n : Nat}
    (hx : x.log.length + remains x.res ≤ n)
    (hf : ∀ r, x.res = .ok r → (f r).log.length + remains (f r).res ≤ r.2.rest.length) :
    (x >>= f).log.length + remains (x >>= f).res ≤ n := by
  rcases h : x.res with e | r
  · rw [h] at hx
    rw [Eff.bind_error h]
    exact hx
  · have := hf r h
    rw [h] at hx
    rw [Eff.bind_ok h]
    replace hx : x.log.length + r.2.rest.length ≤ n := hx
    simp only [List.length_append]
    omega

theorem readPublicKeys_spends (ext : Ext) (n : Nat) (s : Stream) :
    (readPublicKeys ext n s).log.length + remains (readPublicKeys ext n s).res ≤ s.rest.length := by
  induction n generalizing s with
  | zero => simp [readPublicKeys, remains]
  | succ n ih =>
    unfold readPublicKeys
    rcases h1 : (onStream (readFI (.pascal .bytes)) s).res with e | ⟨v, s1⟩
    · have : onStream (readFI (.pascal .bytes)) s = Eff.throw e := by
        unfold onStream at h1 ⊢
        split at h1
        · simp at h1
        · simp at h1; subst h1; rfl
      rw [this, Eff.bind_error (e := e) rfl]
      simp [remains]
    · obtain ⟨m, hm, rfl⟩ := onStream_res_ok (Reader.readFI _) h1
      rw [onStream_ok (Reader.readFI _) hm]
      obtain ⟨b, w, rfl, hw, rfl, he⟩ := prs_bytes_ok hm
      simp only [Eff.pure_bind, asBytes, Eff.lift_ok_bind]
      have hl := prefixed_length hw
      have hs : s.rest.length = w.length + (s.rest.drop w.length).length := by
        rw [List.length_drop]
        have := congrArg List.length he
        rw [List.length_append] at this
        omega
      rw [← Stream.rest_advance] at hs
      have hb := fromBytes_log_le ext .pub b none
      have ih' := ih ⟨s.buf, s.pos + w.length⟩
      rcases hk : (fromBytes ext .pub b none).res with e | k
      · rw [Eff.bind_error hk]
        simp only [remains]
        omega
      · rw [Eff.bind_ok hk]
        have := spends_bind (f := fun r => pure (k :: r.1, r.2)) ih' (fun r _ => by simp [remains])
        simp only [List.length_append]
        have e2 : ∀ a b c : Nat, a + b + c = a + (b + c) := Nat.add_assoc
        refine Nat.le_trans (Nat.le_of_eq (e2 _ _ _)) (Nat.le_trans (Nat.add_le_add_left this _) ?_)
        omega

theorem fromByteStream_spends (ext : Ext) (s : Stream) :
    (fromByteStream ext .priv none s).1.log.length +
      (match (fromByteStream ext .priv none s).1.res with
      | .ok _ => 2 + (fromByteStream ext .priv none s).2.rest.length
      | .error _ => 0) ≤ s.rest.length := by
  unfold fromByteStream fromByteStreamWith
  rw [(Reader.readKey .priv).shift s]
  rcases hp : prs (readKey .priv) s.rest with ⟨e | ⟨hd, p, f⟩, n⟩
  · simp
  · simp only
    have hb := (Reader.readKey .priv).bound s.rest
    rw [hp] at hb
    simp only at hb
    have := mkKey_log_le (ext := ext) (ca := caFromBytes ext) hp none (fun x hx => by
      rw [caFromBytes_eq]
      exact fromBytes_log_le _ _ _ _)
    rw [Stream.rest_advance, List.length_drop]
    split
    · refine Nat.le_trans (Nat.add_le_add_left (m := s.rest.length - n + 2) (Nat.le_of_eq (Nat.add_comm _ _)) _) ?_
      omega
    · omega

theorem readPairs_spends (ext : Ext) (ks : List Key) (i : Nat) (s : Stream) :
    (readPairs ext ks i s).log.length + remains (readPairs ext ks i s).res ≤ s.rest.length := by
  induction ks generalizing i s with
  | nil => simp [readPairs, remains]
  | cons pub pubs ih =>
    unfold readPairs
    have h := fromByteStream_spends ext s
    dsimp only
    generalize fromByteStream ext .priv none s = r at h ⊢
    have ih' := ih (i + 1) r.2
    rcases hr : r.1.res with e | priv
    · rw [hr] at h
      rw [Eff.bind_error hr]
      exact h
    · rw [hr] at h
      simp only at h
      have c1 : (checkPairType i pub priv).log.length ≤ 1 := by
        unfold checkPairType
        refine Nat.le_trans (Eff.log_bind_le (m := 0) (n := 1) (by simp [Eff.lift]) fun _ _ =>
          Nat.le_trans (Eff.log_bind_le (m := 0) (n := 1) (by simp [Eff.lift]) fun _ _ => ?_) (by omega)) (by omega)
        split <;> simp [Eff.warn]
      have c2 : (checkPairValues i pub priv).log.length ≤ 1 := by
        unfold checkPairValues
        split <;> simp [Eff.warn]
      rw [Eff.bind_ok hr]
      rcases h1 : (checkPairType i pub priv).res with e | ⟨⟩
      · rw [Eff.bind_error h1]
        simp only [remains, List.length_append]
        omega
      · rw [Eff.bind_ok h1]
        rcases h2 : (checkPairValues i pub priv).res with e | ⟨⟩
        · rw [Eff.bind_error h2]
          simp only [remains, List.length_append]
          omega
        · rw [Eff.bind_ok h2]
          have := spends_bind (f := fun x => pure (Pair.mk pub priv :: x.1, x.2)) ih'
            (fun x _ => by simp [remains])
          simp only [List.length_append]
          have e2 : ∀ a b c d e : Nat, a + (b + (c + d)) + e = a + b + c + (d + e) := by omega
          refine Nat.le_trans (Nat.le_of_eq (e2 _ _ _ _ _)) (Nat.le_trans (Nat.add_le_add_left this _) ?_)
          omega

theorem readPrivateSection_log_le (ext : Ext) (c : CipherCls) (ks : List Key) (plain : Bytes) :
    (readPrivateSection ext c ks plain).log.length ≤ plain.length := by
  unfold readPrivateSection
  rcases h1 : (onStream (readDict decipherHeaderFmt) (Stream.of plain)).res with e | ⟨dh, s1⟩
  · have : onStream (readDict decipherHeaderFmt) (Stream.of plain) = Eff.throw e := by
      unfold onStream at h1 ⊢
      split at h1
      · simp at h1
      · simp at h1; subst h1; rfl
    rw [this, Eff.bind_error (e := e) rfl]
    simp
  · obtain ⟨n, hn, rfl⟩ := onStream_res_ok (Reader.readDict _) h1
    rw [Stream.rest_of] at hn
    rw [onStream_ok (Reader.readDict _) (by rw [Stream.rest_of]; exact hn)]
    obtain ⟨c1, c2, l1, l2, rfl, rfl, hpl⟩ := prs_decipherHeader_ok hn
    simp only [checkCheckInts_eq l1 l2, Eff.pure_bind, Eff.mk_bind_ok]
    have hl : plain.length = 8 + (plain.drop 8).length := by
      have := congrArg List.length hpl
      rw [List.length_append, List.length_append] at this
      omega
    have hp := readPairs_spends ext ks 0 ⟨(Stream.of plain).buf, (Stream.of plain).pos + 8⟩
    rw [Stream.rest_advance, Stream.rest_of] at hp
    generalize readPairs ext ks 0 ⟨(Stream.of plain).buf, (Stream.of plain).pos + 8⟩ = x at hp ⊢
    have e3 : ∀ s : Stream, onStream (bytesIORead (-1)) s = pure (s.rest, ⟨s.buf, max s.pos s.buf.length⟩) :=
      fun s => rfl
    rw [List.length_append]
    have h3 : (if c1 ≠ c2 then [Event.warn .checkNumbers] else []).length ≤ 1 := by split <;> simp
    refine Nat.le_trans (Nat.add_le_add h3 (Eff.log_bind_le (m := x.log.length) (n := 1) (Nat.le_refl _) (fun r _ => ?_))) ?_
    · simp only [e3, Eff.pure_bind]
      refine Nat.le_trans (Eff.log_bind_le (m := 1) (n := 0) ?_ (fun _ _ => by simp)) (by omega)
      unfold checkPadding
      split <;> simp [Eff.warn]
    · omega

theorem streamUpdate_length (ks : Nat → UInt8) (n : Nat) (a : Bytes) : (streamUpdate ks n a).length = a.length := by
  induction a generalizing n with
  | nil => rfl
  | cons x t ih => simp [streamUpdate, ih]

theorem decrypt_length {cr : Crypto} (hd : DecryptLengths cr) {c : CipherCls} {o : KdfOptions} {p : Str} {y x : Bytes}
    (h : decrypt cr c o p y = .ok x) : x.length ≤ y.length := by
  have key : ∀ k iv, decryptWithKeyIv cr c y k iv = .ok x → x.length ≤ y.length := by
    intro k iv h
    unfold decryptWithKeyIv at h
    split at h
    · simp at h; subst h; exact Nat.le_refl _
    · have := hd.gcm h; omega
    · have := hd.gcm h; omega
    · unfold chachaDecrypt at h
      dsimp only at h
      rcases hk : cr.chacha (sliceTo k chachaKeyLength) chachaNonce with e | ks
      · rw [hk] at h; simp [bind, Except.bind] at h
      · rw [hk] at h
        simp only [bind, Except.bind] at h
        split at h
        · simp at h
        · simp only [pure, Except.pure, Except.ok.injEq] at h
          rw [← h, streamUpdate_length, sliceTo_neg _ (by decide), List.length_take]
          omega
    · split at h
      · exact Nat.le_of_eq (hd.sym h).symm
      · simp at h
  unfold decrypt at h
  split at h
  · simp at h; subst h; exact Nat.le_refl _
  · rcases hr : deriveKey cr o p (c.keyLength + c.ivLength) with e | r
    · rw [hr] at h; simp [bind, Except.bind] at h
    · rw [hr] at h
      exact key _ _ h

theorem Eff.log_bind_dep {α β : Type} {x : Eff α} {f : α → Eff β} {n : Nat} (hx : x.log.length ≤ n)
    (hf : ∀ a, x.res = .ok a → x.log.length + (f a).log.length ≤ n) : (x >>= f).log.length ≤ n := by
  rcases h : x.res with e | a
  · rw [Eff.bind_error h]; exact hx
  · rw [Eff.bind_log_ok h, List.length_append]
    exact hf a h

theorem Eff.log_lift_le {α β : Type} {y : Except Exn α} {f : α → Eff β} {n : Nat}
    (hf : ∀ a, y = .ok a → (f a).log.length ≤ n) : (Eff.lift y >>= f).log.length ≤ n :=
  Eff.log_bind_dep (by simp [Eff.lift]) (fun a h => by simpa [Eff.lift] using hf a h)

theorem onStream_log {α : Type} (x : SM α) (s : Stream) : (onStream x s).log = [] := by
  unfold onStream
  split <;> rfl

theorem onStream_log_le {α β : Type} {x : SM α} (hx : Reader x) {s : Stream} {f : α × Stream → Eff β} {n : Nat}
    (hf : ∀ a m, prs x s.rest = (.ok a, m) → (f (a, ⟨s.buf, s.pos + m⟩)).log.length ≤ n) :
    (onStream x s >>= f).log.length ≤ n := by
  refine Eff.log_bind_dep (by simp [onStream_log]) ?_
  rintro ⟨a, s'⟩ h
  obtain ⟨m, h1, rfl⟩ := onStream_res_ok hx h
  rw [onStream_log, List.length_nil, Nat.zero_add]
  exact hf a m h1

theorem choosePassphrase_log_le (inp : Inputs) (n : Bool) (p : Option Str) :
    (choosePassphrase inp n p).log.length ≤ 1 := by
  unfold choosePassphrase
  split
  · simp
  · split <;> simp [getpass]

theorem readTag_length {c : CipherCls} {y z : Bytes} {s s' : Stream} (h : (readTag c y s).res = .ok (z, s')) :
    z.length ≤ y.length + s.rest.length := by
  obtain ⟨tag, rfl, -, h2⟩ := readTag_ok h
  rw [h2]
  simp

theorem readTag_log (c : CipherCls) (y : Bytes) (s : Stream) : (readTag c y s).log = [] := by
  unfold readTag
  split
  · rcases h : (onStream (readFixed c.tagLength) s).res with e | a
    · rw [Eff.bind_error h, onStream_log]
    · rw [Eff.bind_log_ok h, onStream_log]; rfl
  · rfl

theorem listFromBytes_log_le {ext : Ext} {cr : Crypto} (hd : DecryptLengths cr) (inp : Inputs) (b : Bytes)
    (passphrase : Option Str) : (listFromBytes ext cr inp b passphrase).log.length ≤ b.length := by
  unfold listFromBytes
  refine Nat.le_trans (Eff.log_tryCatch_le (m := b.length) (n := 0) ?_ ?_) (Nat.le_refl _)
  · unfold listFromBytesBody
    refine onStream_log_le (Reader.readDict _) (fun h m hm => ?_)
    have hb := (Reader.readDict listHeaderFmt).bound (Stream.of b).rest
    rw [hm] at hb
    rw [Stream.rest_of] at hm hb
    simp only at hb
    have hm' : 31 ≤ m := by
      obtain ⟨mg, cipher, kdf, opts, wc, wk, wo, wn, n, l1, -, p1, p2, p3, l2, -, -, rfl⟩ := prs_header_ok hm
      have := prefixed_length p1
      have := prefixed_length p2
      have := prefixed_length p3
      simp only [List.length_append]
      omega
    have hr : (Stream.mk (Stream.of b).buf ((Stream.of b).pos + m)).rest.length + 31 ≤ b.length := by
      rw [Stream.rest_advance, Stream.rest_of, List.length_drop]
      omega
    generalize (Stream.mk (Stream.of b).buf ((Stream.of b).pos + m)) = s at hr ⊢
    refine Eff.log_lift_le (fun mg _ => ?_)
    split
    · simp
    refine Eff.log_lift_le (fun nv _ => ?_)
    refine Eff.log_lift_le (fun n _ => ?_)
    split
    · simp
    have hp := readPublicKeys_spends ext n.toNat s
    refine Eff.log_bind_dep (by omega) ?_
    rintro ⟨pubs, s2⟩ h2
    rw [h2] at hp
    replace hp : (readPublicKeys ext n.toNat s).log.length + s2.rest.length ≤ s.rest.length := hp
    refine Nat.le_trans (Nat.add_le_add_left (m := s2.rest.length + 31) ?_ _) (by omega)
    refine onStream_log_le (Reader.readFI _) (fun v k hk => ?_)
    obtain ⟨cb, w, rfl, hw, rfl, he⟩ := prs_bytes_ok hk
    have hl := prefixed_length hw
    have h3 : s2.rest.length = w.length + (Stream.mk s2.buf (s2.pos + w.length)).rest.length := by
      have := congrArg List.length he
      rw [List.length_append] at this
      rw [Stream.rest_advance]
      exact this
    dsimp only
    generalize (Stream.mk s2.buf (s2.pos + w.length)) = s3 at h3 ⊢
    refine Eff.log_lift_le (fun cb' hcb => ?_)
    simp only [asBytes, Except.ok.injEq] at hcb
    subst hcb
    refine Eff.log_lift_le (fun kdf _ => ?_)
    refine Eff.log_lift_le (fun kc _ => ?_)
    refine Eff.log_lift_le (fun ov _ => ?_)
    refine Eff.log_lift_le (fun ob _ => ?_)
    refine onStream_log_le (Reader.readDict _) (fun od k2 hk2 => ?_)
    dsimp only
    rw [newKdf_read hk2, Eff.pure_bind]
    refine Eff.log_lift_le (fun cv _ => ?_)
    refine Eff.log_lift_le (fun cc _ => ?_)
    have hcp := choosePassphrase_log_le inp (kc = .none) passphrase
    refine Eff.log_bind_dep (by omega) (fun p _ => ?_)
    refine Nat.le_trans (Nat.add_le_add_left (m := s2.rest.length) ?_ _) (by omega)
    refine Eff.log_bind_dep (by simp [readTag_log]) ?_
    rintro ⟨full, s4⟩ h4
    have h5 := readTag_length h4
    rw [readTag_log, List.length_nil, Nat.zero_add]
    dsimp only
    rw [newKdf_read hk2, Eff.pure_bind]
    refine Eff.log_lift_le (fun plain hpl => ?_)
    have h6 := decrypt_length hd hpl
    refine Nat.le_trans (Eff.log_bind_le (n := 0) (readPrivateSection_log_le ext cc pubs plain) (fun _ _ => by simp)) ?_
    omega
  · intro e y _ hy
    simp at hy
    subst hy
    simp

/-! ### Sizes -/

/-- The least length of a key. -/
def leastKey : Kind → Nat
  | .pub => 19
  | .priv => 27

theorem fromBytes_least {ext : Ext} {kind : Kind} {b : Bytes} {k : Key} (h : (fromBytes ext kind b none).res = .ok k) :
    keySize k ≤ b.length ∧ leastKey kind ≤ b.length := by
  have h1 := fromBytes_size h
  obtain ⟨t, c, hd, p, f, n, hr, -, -⟩ := fromBytes_ok h
  obtain ⟨t', c', rfl, hc', hs, hn, -, -⟩ := readKey_size hr
  have h2 := (planSmall hc').2.2
  refine ⟨?_, ?_⟩
  · simp only [Option.getD_none, dictSize, List.map_nil, List.sum_nil] at h1
    omega
  · cases kind
    · show 19 ≤ _
      dsimp only at h2
      omega
    · show 27 ≤ _
      dsimp only at h2
      omega

theorem pubs_size {ext : Ext} {bs : List Bytes} {ks : List Key} {w : Bytes} (hf : FieldsIn bs w)
    (h : List.Forall₂ (fun b k => (fromBytes ext .pub b none).res = .ok k) bs ks) :
    (ks.map keySize).sum ≤ w.length ∧ 23 * ks.length ≤ w.length := by
  induction h generalizing w with
  | nil => simp
  | cons h1 _ ih =>
    obtain ⟨x, y, hx, hy, rfl⟩ := hf
    have := ih hy
    have := fromBytes_least h1
    have := prefixed_length hx
    simp only [leastKey, List.map_cons, List.sum_cons, List.length_append, List.length_cons] at *
    omega

theorem privs_size {ext : Ext} {ps : List Pair} {ws : List Bytes} (h : KeysAt ext ps ws) :
    (ps.map (fun p => keySize p.priv)).sum ≤ ws.flatten.length ∧ 27 * ps.length ≤ ws.flatten.length := by
  induction ps generalizing ws with
  | nil => simp
  | cons p t ih =>
    obtain ⟨w, t', rfl, h1, -, h2⟩ := h
    have := ih h2
    have := fromBytes_least h1
    simp only [leastKey, List.map_cons, List.sum_cons, List.flatten_cons, List.length_append, List.length_cons] at *
    omega

theorem listFromBytes_size {ext : Ext} {cr : Crypto} (hd : DecryptLengths cr) {inp : Inputs} {passphrase : Option Str}
    {b : Bytes} {kl : KeyList} (h : (listFromBytes ext cr inp b passphrase).res = .ok kl) :
    pairsSize kl.pairs ≤ b.length ∧ 50 * kl.pairs.length ≤ b.length := by
  obtain ⟨P⟩ := listFromBytes_parse h
  obtain ⟨front, wb, ⟨wc, wk, wo, wn, wp, h1, h2, h3, h4, h5, h6, h7, rfl⟩, h8, h9⟩ := P.lays
  have a1 := pubs_size h7 P.pubs
  have a2 := privs_size P.keys
  have a3 := decrypt_length hd P.dec
  have a4 := congrArg List.length P.split
  have a5 := congrArg List.length P.input
  have a6 := congrArg List.length h9
  have a7 := prefixed_length h8
  have a8 : P.ks.length = kl.pairs.length := by rw [← P.pairs]; simp
  have a9 : pairsSize kl.pairs = (P.ks.map keySize).sum + (kl.pairs.map (fun p => keySize p.priv)).sum := by
    rw [← P.pairs, List.map_map]
    unfold pairsSize
    generalize kl.pairs = l
    induction l with
    | nil => rfl
    | cons p t ih => simp only [List.map_cons, List.sum_cons, ih, Function.comp]; omega
  simp only [List.length_append] at *
  omega

end OSK
