import Verif.Lemmas.ResourcesText
import Verif.Props.ListParse
import Verif.Props.FileGrammar
/-
How often nested keys are parsed and keys derived.
-/
namespace OSK
open Spec

theorem Prompts.of_log {α β : Type} {x : Eff α} {y : Eff β} {n : Nat} (hy : Prompts n y) (h : x.log <+: y.log) :
    Prompts n x := by
  obtain ⟨l, hl⟩ := h
  unfold Prompts at *
  rw [← hl, List.count_append] at hy
  omega

theorem bind_log_prefix {α β : Type} (x : Eff α) (f : α → Eff β) : x.log <+: (x >>= f).log := by
  rcases h : x.res with e | a
  · rw [Eff.bind_error h]; exact List.prefix_refl _
  · rw [Eff.bind_log_ok h]; exact List.prefix_append _ _

theorem bind_prefix_of_ok {α β : Type} {x : Eff α} {f : α → Eff β} {a : α} {m : Nat} (h : x.res = .ok a)
    (hp : Prompts m (x >>= f)) : Prompts m (f a) := by
  unfold Prompts at *
  rw [Eff.bind_log_ok h, List.count_append] at hp
  omega

/-- Reading a public key either does not involve an authority, or gives its bytes to `ca` once. -/
theorem fromBytesWith_shape (ext : Ext) (b : Bytes) (clear : Option VDict) :
    (∃ y : Eff Key, Prompts 0 y ∧ (∀ x, ¬ LooksInto b x) ∧ ∀ ca, fromBytesWith ext ca .pub b clear = y) ∨
    ∃ (x : Bytes) (p : VDict) (pre : Eff Unit) (post : Unit → Eff Key),
      dget p (py! "signature_key") = some (.bytes x) ∧ x.length + 100 ≤ b.length ∧ Prompts 0 pre ∧
      (∀ u, Prompts 0 (post u)) ∧ (pre.res = .ok () ↔ LooksInto b x) ∧ (∀ x', LooksInto b x' → x' = x) ∧
      ∀ ca, fromBytesWith ext ca .pub b clear = (pre >>= fun _ => certCaCheck ca p >>= post) := by
  have hw := Prompts.within (fromBytes_within ext .pub b clear)
  rcases hr : prs (readKey .pub) b with ⟨e | ⟨h, p, f⟩, n⟩
  · refine .inl ⟨Eff.throw e, Prompts.throw e, ?_, fun ca => by rw [fromBytesWith_eq, hr]⟩
    rintro x ⟨h', p', f', s, h1, -⟩
    rw [readKey_streamOf, hr] at h1
    simp at h1
  · by_cases hx : ∃ x, dget p (py! "signature_key") = some (.bytes x)
    · obtain ⟨x, hx⟩ := hx
      obtain ⟨t, c, rfl, hcl, -, -, -, hfoot⟩ := readKey_size hr
      obtain ⟨t', c', n1, n2, n3, ht', hcl', -, hrd, -, -⟩ := prs_readKey_ok hr
      simp at ht'
      subst ht'
      have hcc := paramsClass_fun hcl hcl'
      subst hcc
      have hmem : py! "signature_key" ∈ dkeys (formatOf c) := by
        rw [← readDict_dkeys hrd]
        exact (dget_isSome_iff).1 (by rw [hx]; rfl)
      obtain ⟨pre, hplan, hpre⟩ := certPlan_eq hcl (authority_cert hcl hmem)
      have shape : ∀ ca, fromBytesWith ext ca .pub b clear = (certBefore ext (caFromBytes ext) c p pre >>= fun _ =>
          certCaCheck ca p >>= fun _ => (do
            let k ← (pure ⟨.pub, [(py! "key_type", .str t)], ⟨c, p⟩, f, clear.getD []⟩ : Eff Key)
            if 0 < (b.drop n).length then
              Eff.warn .excessBytes
              pure { k with clear := dset k.clear (py! "remainder") (.bytes (b.drop n)) }
            else pure k)) := by
        intro ca
        rw [fromBytesWith_eq, hr]
        simp only
        rw [mkKeyWith_eq (t := t) (c := c) (by simp) hcl, checks_cert ext _ p hplan, hfoot,
          before_ca ext _ (caFromBytes ext) c p hpre]
        simp only [Eff.bind_assoc, Eff.pure_bind]
      refine .inr ⟨x, p, _, _, hx, ?_, ?_, ?_, ?_, ?_, shape⟩
      · exact authority_size ⟨_, p, f, _, by rw [readKey_streamOf, hr], hx⟩
      · unfold fromBytes at hw
        rw [shape] at hw
        exact hw.of_log (bind_log_prefix _ _)
      · intro u
        refine (Prompts.pure _).bind0 fun k => ?_
        split
        · exact (Prompts.warn _).bind0 fun _ => Prompts.pure _
        · exact Prompts.pure _
      · constructor
        · intro hB
          refine ⟨_, p, f, _, by rw [readKey_streamOf, hr], hx, ?_, ?_, ?_⟩
          · exact fun h => before_bad ⟨rfl, .inl h⟩ hB
          · exact fun h => before_bad ⟨rfl, .inr (.inl h)⟩ hB
          · exact fun h => before_bad ⟨rfl, .inr (.inr h)⟩ hB
        · intro ho
          rcases hB : (certBefore ext (caFromBytes ext) c p pre).res with e | ⟨⟨⟩⟩
          · have hbad := (certBefore_within (ext := ext) (ca := caFromBytes ext) (d := p) (plain_class hcl) hpre).exn e hB
            exact absurd hbad ((opens_fun hr ho).2 e)
          · rfl
      · intro x' ho
        have := (opens_fun hr ho).1
        rw [hx] at this
        simpa using this.symm
    · refine .inl ⟨fromBytesWith ext (caFromBytes ext) .pub b clear, hw, ?_, fun ca => ?_⟩
      · exact fun x ho => hx ⟨_, (opens_fun hr ho).1⟩
      · rw [fromBytesWith_eq, fromBytesWith_eq, hr]
        simp only
        rw [mkKeyWith_congr (ca' := caFromBytes ext)]
        exact fun y hy => absurd ⟨y, hy⟩ hx

/-! ### The meter -/

theorem unmetered_bind {α β : Type} (x : Eff α) (f : α → Eff β) :
    unmetered (x >>= f) = (unmetered x >>= fun a => unmetered (f a)) := by
  rcases h : x.res with e | a
  · rw [Eff.bind_error h, Eff.bind_error (x := unmetered x) (e := e) h]; rfl
  · rw [Eff.bind_ok h, Eff.bind_ok (x := unmetered x) (a := a) h]
    simp [unmetered]

theorem unmetered_free {α : Type} {x : Eff α} (h : Prompts 0 x) : unmetered x = x := by
  unfold unmetered
  have : x.log.filter (fun v => v ≠ .prompt) = x.log := by
    rw [List.filter_eq_self]
    intro v hv
    unfold Prompts at h
    rw [Nat.le_zero, List.count_eq_zero] at h
    simp only [decide_eq_true_eq]
    rintro rfl
    exact h hv
  rw [this]

theorem unmetered_tick (n : Nat) : unmetered (tick n) = pure () := by
  unfold unmetered tick
  have : (List.replicate n Event.prompt).filter (fun v => v ≠ .prompt) = [] := by
    rw [List.filter_eq_nil_iff]
    intro v hv
    simp [List.eq_of_mem_replicate hv]
  rw [this]; rfl

theorem certCaCheck_once {d : VDict} {x : Bytes}
    (hx : dget d (py! "signature_key") = some (.bytes x)) : ∃ g : Except Exn Key → Eff Unit, (∀ r, Prompts 0 (g r)) ∧
      ∀ ca : Bytes → Eff Key, certCaCheck ca d = ⟨(ca x).log ++ (g (ca x).res).log, (g (ca x).res).res⟩ := by
  refine ⟨fun r => match r with
    | .ok k => if k.params.cls.isSubclass .certPub then Eff.warn .caIsCert else pure ()
    | .error e => if e.isValueError || e.isEOFError || e = .typeError then Eff.warn .caInvalid else Eff.throw e, ?_, ?_⟩
  · intro r
    dsimp only
    split
    · split
      · exact Prompts.warn _
      · exact Prompts.pure _
    · split
      · exact Prompts.warn _
      · exact Prompts.throw _
  · intro ca
    have hg : getSignatureKeyWith ca d = (do
        let k ← ca x
        if k.params.cls.isSubclass .certPub then Eff.warn .caIsCert
        pure k) := by
      unfold getSignatureKeyWith getItem
      simp only [hx, asBuffer, Eff.lift_ok_bind]
    unfold certCaCheck
    rw [if_pos (by simp [bytesOf?, hx]), hg]
    rcases hr : (ca x).res with e | k
    · rw [Eff.bind_error hr, Eff.mk_bind_error]
      unfold Eff.tryCatch
      dsimp only
      split
      · rename_i y hy
        split at hy
        · rename_i h
          simp at hy
          rw [if_pos h, ← hy]
        · simp at hy
      · rename_i hy
        split at hy
        · simp at hy
        · rename_i h
          rw [if_neg h]
          simp
    · rw [Eff.bind_ok hr]
      by_cases h : k.params.cls.isSubclass .certPub = true
      · simp [h, Eff.tryCatch, Eff.warn, Eff.mk_bind_ok]
      · simp [h, Eff.tryCatch, Eff.mk_bind_ok]

theorem metered_erases (ext : Ext) (n : Nat) : ∀ b, unmetered (meteredFuel ext n b) = pubFromBytesFuel ext n b := by
  induction n with
  | zero => intro b; rfl
  | succ n ih =>
    intro b
    rw [meteredFuel, pubFromBytesFuel, unmetered_bind, unmetered_tick, Eff.pure_bind]
    rcases fromBytesWith_shape ext b none with ⟨y, hy, -, h⟩ | ⟨x, p, pre, post, hx, -, h1, h2, -, -, h⟩
    · rw [h, h, unmetered_free hy]
    · rw [h, h, unmetered_bind, unmetered_free h1]
      congr 1
      funext _
      obtain ⟨g, hg, hc⟩ := certCaCheck_once hx
      rw [unmetered_bind]
      have e : unmetered (certCaCheck (meteredFuel ext n) p) = certCaCheck (pubFromBytesFuel ext n) p := by
        rw [hc, hc, ← ih x]
        have := unmetered_free (hg (meteredFuel ext n x).res)
        unfold unmetered at this ⊢
        simp only [List.filter_append]
        rw [show (g (meteredFuel ext n x).res).log.filter (fun v => v ≠ .prompt) = (g (meteredFuel ext n x).res).log from
          congrArg Eff.log this]
      rw [e]
      congr 1
      funext u
      exact unmetered_free (h2 u)

theorem metered_step (ext : Ext) (n : Nat) (b : Bytes) :
    ((∀ x, ¬ LooksInto b x) ∧ (meteredFuel ext (n + 1) b).log.count .prompt = b.length) ∨
    ∃ x, LooksInto b x ∧ x.length + 100 ≤ b.length ∧
      (meteredFuel ext (n + 1) b).log.count .prompt = b.length + (meteredFuel ext n x).log.count .prompt := by
  have ht : (tick b.length).res = .ok () := rfl
  have hc : (tick b.length).log.count .prompt = b.length := by simp [tick]
  rw [meteredFuel, Eff.bind_log_ok ht, List.count_append, hc]
  rcases fromBytesWith_shape ext b none with ⟨y, hy, hno, h⟩ | ⟨x, p, pre, post, hx, hl, h1, h2, hlook, huniq, h⟩
  · refine .inl ⟨hno, ?_⟩
    rw [h]
    unfold Prompts at hy
    omega
  · rw [h]
    rcases hp : pre.res with e | ⟨⟩
    · left
      refine ⟨?_, ?_⟩
      · rintro x' ho
        have := huniq x' ho
        subst this
        rw [hlook.2 ho] at hp
        simp at hp
      · rw [Eff.bind_error hp]
        unfold Prompts at h1
        dsimp only
        omega
    · right
      refine ⟨x, hlook.1 hp, hl, ?_⟩
      obtain ⟨g, hg, hcc⟩ := certCaCheck_once hx
      rw [Eff.bind_log_ok hp, List.count_append]
      unfold Prompts at h1
      have : ((certCaCheck (meteredFuel ext n) p) >>= post).log.count .prompt = (meteredFuel ext n x).log.count .prompt := by
        have h3 := hg (meteredFuel ext n x).res
        unfold Prompts at h3
        have h4 : (certCaCheck (meteredFuel ext n) p).log.count .prompt = (meteredFuel ext n x).log.count .prompt := by
          rw [hcc]
          simp only [List.count_append]
          omega
        rcases hr : (certCaCheck (meteredFuel ext n) p).res with e | u
        · rw [Eff.bind_error hr]; exact h4
        · rw [Eff.bind_log_ok hr, List.count_append, h4]
          have := h2 u
          unfold Prompts at this
          omega
      omega

/-! ### Key derivation -/

/-- The run depends on the cryptographic library only in one key derivation, within these bounds. -/
def OneDerivation {α : Type} (n : Nat) (F : Crypto → α) : Prop :=
  ∃ password salt length rounds, length ≤ 64 ∧ salt.length ≤ n ∧ 0 ≤ rounds ∧ rounds < 2 ^ 32 ∧
    ∀ cr cr', SameBut password salt length rounds cr cr' → F cr = F cr'

theorem OneDerivation.const {α : Type} (n : Nat) (a : α) : OneDerivation n (fun _ => a) :=
  ⟨[], [], 0, 0, by simp, by simp, by simp, by simp, fun _ _ _ => rfl⟩

theorem OneDerivation.bind {α β : Type} {n : Nat} {x : Eff α} {f : Crypto → α → Eff β}
    (h : ∀ a, x.res = .ok a → OneDerivation n (fun cr => f cr a)) : OneDerivation n (fun cr => x >>= f cr) := by
  rcases hx : x.res with e | a
  · have : (fun cr => x >>= f cr) = fun _ => (⟨x.log, .error e⟩ : Eff β) := by
      funext cr; exact Eff.bind_error hx _
    rw [this]
    exact .const _ _
  · obtain ⟨p, s, l, r, h1, h2, h3, h4, h5⟩ := h a hx
    refine ⟨p, s, l, r, h1, h2, h3, h4, fun cr cr' hs => ?_⟩
    simp only [Eff.bind_ok hx, h5 cr cr' hs]

theorem decrypt_derivation {n : Nat} {c : CipherCls} {kc : KdfCls} {od : VDict} {ob : Bytes} {m : Nat} (pass : Str) (y : Bytes)
    (h : prs (readDict (kdfFmt kc)) ob = (.ok od, m)) (hn : ob.length ≤ n) :
    OneDerivation n (fun cr => decrypt cr c ⟨kc, od⟩ pass y) := by
  have hlen : c.keyLength + c.ivLength ≤ 64 := by cases c <;> decide
  have rest : ∀ cr cr' : Crypto, ∀ p s l r, SameBut p s l r cr cr' → ∀ k iv,
      decryptWithKeyIv cr c y k iv = decryptWithKeyIv cr' c y k iv := by
    intro cr cr' p s l r hs k iv
    unfold decryptWithKeyIv chachaDecrypt
    rw [hs.sym, hs.gcm, hs.chacha, hs.poly]
  cases kc with
  | none =>
    refine ⟨[], [], 0, 0, by simp, by simp, by simp, by simp, fun cr cr' hs => ?_⟩
    unfold decrypt
    split
    · rfl
    · simp only [deriveKey, bind, Except.bind]
      exact rest cr cr' _ _ _ _ hs _ _
  | bcrypt =>
    obtain ⟨w, r', hw, rfl, -⟩ := (readDict_ok_iff (by decide)).1 h
    obtain ⟨salt, rounds, ⟨wa, wr, ha, hr, rfl, rfl⟩, rfl⟩ := bcrypt_fields.1 hw
    have e1 : getItem (bcryptOptions salt (digitSum wr)).data (py! "salt") = .ok (.bytes salt) := rfl
    have e2 : getItem (bcryptOptions salt (digitSum wr)).data (py! "rounds") = .ok (.int (digitSum wr : Nat)) := rfl
    rcases hp : strEncode pass with e | pw
    · refine ⟨[], [], 0, 0, by simp, by simp, by simp, by simp, fun cr cr' hs => ?_⟩
      unfold decrypt
      split
      · rfl
      · simp only [deriveKey, hp, bind, Except.bind]
    · refine ⟨pw, salt, c.keyLength + c.ivLength, (digitSum wr : Nat), hlen, ?_, by omega, ?_, fun cr cr' hs => ?_⟩
      · have := prefixed_length ha
        simp only [List.length_append] at hn
        omega
      · have := digitSum_lt wr
        rw [hr] at this
        have e : (256 : Nat) ^ 4 = 4294967296 := by norm_num
        have e' : (2 : Int) ^ 32 = 4294967296 := by norm_num
        rw [e] at this
        rw [e']
        omega
      · unfold decrypt
        split
        · rfl
        · have : ∀ q : Crypto, deriveKey q ⟨.bcrypt, (bcryptOptions salt (digitSum wr)).data⟩ pass (c.keyLength + c.ivLength) =
              q.bcryptKdf pw salt (c.keyLength + c.ivLength) (digitSum wr : Nat) := by
            intro q
            simp only [deriveKey, hp, e1, e2, bind, Except.bind]
          dsimp only
          rw [this, this, hs.kdf]
          rcases cr'.bcryptKdf pw salt (c.keyLength + c.ivLength) (digitSum wr : Nat) with e | k
          · rfl
          · exact rest cr cr' _ _ _ _ hs _ _

theorem list_derivation (ext : Ext) (inp : Inputs) (b : Bytes) (passphrase : Option Str) :
    OneDerivation b.length (fun cr => listFromBytes ext cr inp b passphrase) := by
  suffices OneDerivation b.length (fun cr => listFromBytesBody ext cr inp b passphrase) by
    obtain ⟨p, s, l, r, h1, h2, h3, h4, h5⟩ := this
    refine ⟨p, s, l, r, h1, h2, h3, h4, fun cr cr' hs => ?_⟩
    have := h5 cr cr' hs
    dsimp only at this ⊢
    unfold listFromBytes
    rw [this]
  unfold listFromBytesBody
  refine .bind ?_
  rintro ⟨hd, s⟩ hhd
  obtain ⟨m, hm, -⟩ := onStream_res_ok (Reader.readDict _) hhd
  rw [Stream.rest_of] at hm
  obtain ⟨mg, cipher, kdf, opts, wc, wk, wo, wn, nk, l1, rfl, p1, p2, p3, l2, -, hb, -⟩ := prs_header_ok hm
  refine .bind fun mg' _ => ?_
  split
  · exact .const _ _
  refine .bind fun nv _ => ?_
  refine .bind fun n _ => ?_
  split
  · exact .const _ _
  refine .bind ?_
  rintro ⟨pubs, s2⟩ -
  refine .bind ?_
  rintro ⟨cv, s3⟩ -
  refine .bind fun cb _ => ?_
  refine .bind fun kdfv _ => ?_
  refine .bind fun kc _ => ?_
  refine .bind fun ov hov => ?_
  refine .bind fun ob hob => ?_
  have e : ob = opts := by
    have h1 : Val.bytes opts = ov := Except.ok.inj hov
    subst h1
    exact (Except.ok.inj (hob : Except.ok opts = Except.ok ob)).symm
  subst e
  refine .bind ?_
  rintro ⟨od, s4⟩ hod
  obtain ⟨m2, hm2, -⟩ := onStream_res_ok (Reader.readDict _) hod
  rw [Stream.rest_of] at hm2
  simp only [newKdf_read hm2, Eff.pure_bind]
  refine .bind fun cv _ => ?_
  refine .bind fun cc _ => ?_
  refine .bind fun pass _ => ?_
  refine .bind ?_
  rintro ⟨full, s5⟩ -
  have hn : ob.length ≤ b.length := by
    have := congrArg List.length hb
    have := prefixed_length p3
    simp only [List.length_append] at *
    omega
  obtain ⟨p, s, l, r, h1, h2, h3, h4, h5⟩ := decrypt_derivation (c := cc) pass full hm2 hn
  refine ⟨p, s, l, r, h1, h2, h3, h4, fun cr cr' hs => ?_⟩
  simp only [h5 cr cr' hs]

end OSK
