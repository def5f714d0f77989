import Verif.Spec.Resources
import Verif.Lemmas.Grammar
import Verif.Props.Checks
import Verif.Props.Depth
/-
Sizes of what is read, and numbers of warnings.
-/
namespace OSK
open Spec

/-! ### Sizes of values -/

theorem octets_le {n m : Nat} (h : n < 2 ^ (8 * m)) : octets n ≤ m := by
  have := Nat.size_le.2 h
  unfold octets
  omega

theorem digitSum_lt (b : Bytes) : digitSum b < 256 ^ b.length := by
  rw [digitSum_eq]
  exact beNat_lt b

theorem tcVal_octets (b : Bytes) : octets (tcVal b).natAbs ≤ b.length := by
  refine octets_le ?_
  rw [Nat.pow_mul]
  cases b with
  | nil => decide
  | cons x xs =>
    have h := digitSum_lt xs
    have hx := x.toNat_lt
    have e : (256 : Int) ^ xs.length = ((256 ^ xs.length : Nat) : Int) := by norm_cast
    simp only [tcVal, List.length_cons, Nat.pow_succ, e]
    norm_num only
    generalize 256 ^ xs.length = P at h ⊢
    generalize digitSum xs = D at h ⊢
    obtain ⟨a, ha, h1, h2⟩ : ∃ a : Int, (if x.toNat < 128 then (x.toNat : Int) else (x.toNat : Int) - 256) = a ∧
        -128 ≤ a ∧ a ≤ 127 := by
      refine ⟨_, rfl, ?_⟩
      split <;> omega
    rw [ha]
    have hP : (0 : Int) ≤ P := by omega
    have b1 : -128 * (P : Int) ≤ a * P := by nlinarith
    have b2 : a * (P : Int) ≤ 127 * P := by nlinarith
    generalize a * (P : Int) = A at b1 b2 ⊢
    omega

/-! ### Sizes of fields -/

/-- The bytes of a field that are not part of its value. -/
def FI.overhead : FI → Nat
  | .pascal _ => 4
  | _ => 0

def overhead (fmt : FDict) : Nat := (fmt.map (fun e => e.2.overhead)).sum

theorem prefixed_length {b w : Bytes} (h : Prefixed 4 b w) : w.length = 4 + b.length := by
  obtain ⟨p, hp, -, rfl⟩ := h
  simp [hp]

theorem encodes_sizes {fi : FI} {w : Bytes} {v : Val} (h : Encodes fi w v) :
    fi.overhead + valueSize v ≤ w.length := by
  cases h with
  | bytes h => simp [FI.overhead, valueSize, prefixed_length h]
  | text h =>
    have := strOf_length
    simp [FI.overhead, valueSize, prefixed_length h, this]
  | mpint h =>
    have := tcVal_octets
    simp [FI.overhead, valueSize, prefixed_length h, this]
  | uint =>
    simp only [FI.overhead, valueSize, Int.natAbs_natCast, Nat.zero_add]
    refine octets_le ?_
    rw [Nat.pow_mul]
    exact digitSum_lt w

theorem encodesAll_sizes {fmt : FDict} {w : Bytes} {d : VDict} (h : EncodesAll fmt w d) :
    overhead fmt + dictSize d ≤ w.length := by
  induction h with
  | nil => simp [overhead, dictSize]
  | cons h1 _ ih =>
    have := encodes_sizes h1
    simp only [overhead, dictSize, List.map_cons, List.sum_cons, List.length_append] at ih ⊢
    omega

theorem readDict_size {fmt : FDict} (hf : wireFmt fmt = true) {r : Bytes} {d : VDict} {n : Nat}
    (h : prs (readDict fmt) r = (.ok d, n)) : overhead fmt + dictSize d ≤ n ∧ n ≤ r.length := by
  obtain ⟨w, r', h1, rfl, rfl⟩ := (readDict_ok_iff hf).1 h
  exact ⟨encodesAll_sizes h1, by simp⟩

/-! ### Keys -/

theorem wire_class {kind : Kind} {t : Str} {c : Cls} (h : paramsClass kind (.str t) = .ok c) :
    wireFmt (formatOf c) = true := fieldsOf_wire (fieldsOf_eq h)

theorem wire_header (kind : Kind) : wireFmt (headerFmt kind) = true := by cases kind <;> decide
theorem wire_footer (kind : Kind) : wireFmt (footerFmt kind) = true := by cases kind <;> decide

/-- The bytes of a key of class `c` that are neither its type nor its values. -/
def keyOverhead (kind : Kind) (c : Cls) : Nat := 4 + overhead (formatOf c) + overhead (footerFmt kind)

theorem readKey_size {kind : Kind} {r : Bytes} {h p f : VDict} {N : Nat}
    (hr : prs (readKey kind) r = (.ok (h, p, f), N)) :
    ∃ t c, h = [(py! "key_type", .str t)] ∧ paramsClass kind (.str t) = .ok c ∧
      keyOverhead kind c + t.length + dictSize p + dictSize f ≤ N ∧ N ≤ r.length ∧
      checkDict p (formatOf c) = pure () ∧ checkDict f (footerFmt kind) = pure () := by
  obtain ⟨t, c, n1, n2, n3, rfl, hc, h1, h2, h3, rfl⟩ := prs_readKey_ok hr
  obtain ⟨a1, -⟩ := readDict_size (wire_header kind) h1
  obtain ⟨a2, -⟩ := readDict_size (wire_class hc) h2
  obtain ⟨a3, -⟩ := readDict_size (wire_footer kind) h3
  have hb := (Reader.readKey kind).bound r
  rw [hr] at hb
  refine ⟨t, c, rfl, hc, ?_, hb, checkDict_read (plain_class hc) h2, checkDict_read (plain_footer kind) h3⟩
  have e : overhead (headerFmt kind) = 4 := by cases kind <;> rfl
  rw [e] at a1
  simp only [dictSize, valueSize, List.map_cons, List.map_nil, List.sum_cons, List.sum_nil, Nat.add_zero] at a1
  unfold keyOverhead
  simp only [dictSize] at a2 a3 ⊢
  omega

theorem dictSize_dset (d : VDict) (k : Str) (v : Val) : dictSize (dset d k v) ≤ dictSize d + valueSize v := by
  induction d with
  | nil => simp [dset, dictSize]
  | cons e t ih =>
    obtain ⟨k', v'⟩ := e
    unfold dset
    split
    · simp only [dictSize, List.map_cons, List.sum_cons]; omega
    · simp only [dictSize, List.map_cons, List.sum_cons] at ih ⊢; omega

theorem fromBytes_size {ext : Ext} {kind : Kind} {b : Bytes} {clear : Option VDict} {k : Key}
    (h : (fromBytes ext kind b clear).res = .ok k) :
    keyOverhead kind k.params.cls + keySize k ≤ b.length + dictSize (clear.getD []) := by
  unfold fromBytes at h
  rw [fromBytesWith_eq] at h
  rcases hr : prs (readKey kind) b with ⟨e | ⟨hd, p, f⟩, n⟩
  · rw [hr] at h; simp at h
  · rw [hr] at h
    simp only at h
    obtain ⟨t, c, rfl, hc, hs, hn, -, -⟩ := readKey_size hr
    obtain ⟨k', hk', h⟩ := Eff.bind_res_ok_iff.1 h
    rw [mkKeyWith_eq (dget_cons_self _ _ _) hc] at hk'
    obtain ⟨_, -, hk'⟩ := Eff.bind_res_ok_iff.1 hk'
    obtain ⟨_, -, hk'⟩ := Eff.bind_res_ok_iff.1 hk'
    simp at hk'
    subst hk'
    have e : dictSize [(py! "key_type", Val.str t)] = t.length := by simp [dictSize, valueSize]
    split at h
    · obtain ⟨_, -, h⟩ := Eff.bind_res_ok_iff.1 h
      simp at h
      subst h
      have := dictSize_dset (clear.getD []) (py! "remainder") (.bytes (b.drop n))
      simp only [valueSize, List.length_drop] at this
      simp only [keySize, e]
      omega
    · simp at h
      subst h
      simp only [keySize, e]
      omega

/-! ### Warnings -/

theorem Eff.log_bind_le {α β : Type} {x : Eff α} {f : α → Eff β} {m n : Nat} (hx : x.log.length ≤ m)
    (hf : ∀ a, x.res = .ok a → (f a).log.length ≤ n) : (x >>= f).log.length ≤ m + n := by
  rcases h : x.res with e | a
  · rw [Eff.bind_error h]; simp only; omega
  · rw [Eff.bind_log_ok h, List.length_append]
    have := hf a h
    omega

theorem Eff.log_tryCatch_le {α : Type} {x : Eff α} {g : Exn → Option (Eff α)} {m n : Nat} (hx : x.log.length ≤ m)
    (hg : ∀ e y, x.res = .error e → g e = some y → y.log.length ≤ n) : (Eff.tryCatch x g).log.length ≤ m + n := by
  unfold Eff.tryCatch
  split
  · omega
  · rename_i e he
    split
    · rename_i y hy
      have := hg e y he hy
      simp only [List.length_append]
      omega
    · omega

theorem warnIf_log_le {α : Type} {c : Prop} [Decidable c] {w : Warning} {y : Eff α} {n : Nat} (h : y.log.length ≤ n) :
    (if c then (do Eff.warn w; y) else y).log.length ≤ n + 1 := by
  split
  · rw [Nat.add_comm]
    exact Eff.log_bind_le (by simp [Eff.warn]) (fun _ _ => h)
  · omega

theorem eofWarns_log_le {α : Type} {x : Eff α} {w : Warning} {m : Nat} (hx : x.log.length ≤ m) :
    (eofWarns x w).log.length ≤ m + 1 := by
  refine Eff.log_tryCatch_le (by simpa using Eff.log_bind_le (n := 0) hx (fun _ _ => by simp)) ?_
  intro e y _ hy
  split at hy
  · simp at hy; subst hy; simp [Eff.warn]
  · simp at hy

theorem collectOptions_log_le (param : Str) (acc : VDict) (l : List VDict) :
    (collectOptions param acc l).log.length ≤ l.length := by
  induction l generalizing acc with
  | nil => simp [collectOptions]
  | cons r t ih =>
    unfold collectOptions
    split
    · rw [List.length_cons]
      exact warnIf_log_le (ih _)
    · simp

theorem records_length {fmt : FDict} {b r : Bytes} {l : List VDict} (h : Records fmt b l r) :
    overhead fmt * l.length ≤ b.length := by
  induction h with
  | done => simp
  | more h1 _ ih =>
    have := encodesAll_sizes h1
    simp only [List.length_append, List.length_cons, Nat.mul_succ]
    omega

theorem getOptionValues_log_le {d : VDict} {param : Str} {b : Bytes} (h : dget d param = some (.bytes b)) :
    8 * (getOptionValues d param).log.length ≤ b.length := by
  unfold getOptionValues getItem
  simp only [h, asBuffer, Eff.lift_ok_bind]
  rcases hr : (readRepeatedly optionFmt (Stream.of b)).1 with e | l
  · rw [Eff.bind_error (e := e) rfl]; simp [Eff.lift]
  · rw [Eff.lift_ok_bind]
    obtain ⟨r, h1, -⟩ := ((repeated_iff (by decide) nonEmpty_option b).1 l).1 hr
    have := collectOptions_log_le param [] l
    have := records_length h1
    have e : overhead optionFmt = 8 := rfl
    rw [e] at this
    omega

/-- The length of a field that holds bytes. -/
def fieldLen (d : VDict) (k : Str) : Nat := ((bytesOf? d k).getD []).length

theorem fieldLen_cons (k k' : Str) (v : Val) (d : VDict) :
    (k = k' ∧ fieldLen ((k, v) :: d) k' ≤ valueSize v) ∨ (k ≠ k' ∧ fieldLen ((k, v) :: d) k' = fieldLen d k') := by
  by_cases h : k = k'
  · subst h
    refine .inl ⟨rfl, ?_⟩
    unfold fieldLen bytesOf?
    rw [dget_cons_self]
    cases v <;> simp [valueSize]
  · refine .inr ⟨h, ?_⟩
    unfold fieldLen bytesOf?
    rw [dget_cons_ne h]

theorem fieldLen_three {a b c : Str} (h1 : a ≠ b) (h2 : a ≠ c) (h3 : b ≠ c) (d : VDict) :
    fieldLen d a + fieldLen d b + fieldLen d c ≤ dictSize d := by
  induction d with
  | nil => simp [fieldLen, bytesOf?, dget]
  | cons e t ih =>
    obtain ⟨k, v⟩ := e
    have e : dictSize ((k, v) :: t) = valueSize v + dictSize t := by simp [dictSize]
    rw [e]
    rcases fieldLen_cons k a v t with ⟨ha, xa⟩ | ⟨ha, xa⟩ <;>
    rcases fieldLen_cons k b v t with ⟨hb, xb⟩ | ⟨hb, xb⟩ <;>
    rcases fieldLen_cons k c v t with ⟨hc, xc⟩ | ⟨hc, xc⟩
    · exact absurd (ha.symm.trans hb) h1
    · exact absurd (ha.symm.trans hb) h1
    · exact absurd (ha.symm.trans hc) h2
    · omega
    · exact absurd (hb.symm.trans hc) h3
    · omega
    · omega
    · omega

theorem certOptionsCheck_log_le (d : VDict) (param : Str) (w : Warning) :
    (certOptionsCheck d param w).log.length ≤ fieldLen d param + 1 := by
  unfold certOptionsCheck
  split
  · rename_i h
    obtain ⟨b, hb⟩ := Option.isSome_iff_exists.1 h
    have hd : dget d param = some (.bytes b) := by
      unfold bytesOf? at hb
      split at hb
      · rename_i hx; rw [hx]; simpa using hb
      · simp at hb
    have := getOptionValues_log_le hd
    have e : fieldLen d param = b.length := by simp [fieldLen, hb]
    refine (eofWarns_log_le (m := b.length) (by omega)).trans ?_
    omega
  · simp

theorem certCaCheck_log_le {ca : Bytes → Eff Key} {d : VDict}
    (hca : ∀ x, dget d (py! "signature_key") = some (.bytes x) → (ca x).log.length ≤ x.length) :
    (certCaCheck ca d).log.length ≤ fieldLen d (py! "signature_key") + 1 := by
  unfold certCaCheck
  split
  · rename_i h
    obtain ⟨b, hb⟩ := Option.isSome_iff_exists.1 h
    have hd : dget d (py! "signature_key") = some (.bytes b) := by
      unfold bytesOf? at hb
      split at hb
      · rename_i hx; rw [hx]; simpa using hb
      · simp at hb
    have e : fieldLen d (py! "signature_key") = b.length := by simp [fieldLen, hb]
    rw [e]
    have hg : getSignatureKeyWith ca d = (do
        let k ← ca b
        if k.params.cls.isSubclass .certPub then Eff.warn .caIsCert
        pure k) := by
      unfold getSignatureKeyWith getItem
      simp only [hd, asBuffer, Eff.lift_ok_bind]
    rw [hg]
    have hb' := hca b hd
    rcases hr : (ca b).res with e | k
    · rw [Eff.bind_error hr, Eff.mk_bind_error]
      refine Eff.log_tryCatch_le hb' ?_
      intro e' y _ hy
      split at hy
      · simp at hy; subst hy; simp [Eff.warn]
      · simp at hy
    · refine Nat.le_trans (Eff.log_tryCatch_le (m := b.length + 1) (n := 0) ?_ ?_) (by omega)
      · rw [Eff.bind_assoc]
        refine Eff.log_bind_le hb' (fun a _ => ?_)
        refine Nat.le_trans (Eff.log_bind_le (m := 1) (n := 0) ?_ (fun _ _ => by simp)) (by omega)
        exact warnIf_log_le (n := 0) (by simp)
      · intro e' y he
        exfalso
        rw [Eff.bind_ok hr] at he
        split at he <;> simp [Eff.warn, Eff.mk_bind_ok] at he
  · simp

theorem certLocalCheck_log_le {ca : Bytes → Eff Key} {d : VDict}
    (hca : ∀ x, dget d (py! "signature_key") = some (.bytes x) → (ca x).log.length ≤ x.length) :
    (certLocalCheck ca d).log.length ≤ 5 + dictSize d := by
  have h1 : (certTypeCheck d).log.length ≤ 1 := by
    unfold certTypeCheck
    split
    · refine Nat.le_trans (Eff.log_tryCatch_le (m := 0) (n := 1) ?_ ?_) (by omega)
      · cases getType d <;> simp [Eff.lift]
      · intro e y _ hy
        split at hy
        · simp at hy; subst hy; simp [Eff.warn]
        · simp at hy
    · simp
  have h2 : (certPrincipalsCheck d).log.length ≤ 1 := by
    unfold certPrincipalsCheck
    split
    · exact eofWarns_log_le (m := 0) (by simp [Eff.lift])
    · simp
  have h3 := certOptionsCheck_log_le d (py! "critical_options") .certCriticalOptions
  have h4 := certOptionsCheck_log_le d (py! "extensions") .certExtensions
  have h5 := certCaCheck_log_le hca
  have h6 := fieldLen_three (a := py! "critical_options") (b := py! "extensions") (c := py! "signature_key") (by decide)
    (by decide) (by decide) d
  unfold certLocalCheck
  refine Nat.le_trans (Eff.log_bind_le h1 fun _ _ => Eff.log_bind_le h2 fun _ _ => Eff.log_bind_le h3 fun _ _ =>
    Eff.log_bind_le h4 fun _ _ => h5) ?_
  omega

/-- The most warnings of the own part of a check, apart from those about the contents of fields. -/
def localMost : Cls → Nat
  | .ed25519Pub => 1
  | .ed25519Priv => 2
  | .ecdsaPub => 2
  | .certPub => 5
  | _ => 0

theorem localCheck_log_le {ext : Ext} {ca : Bytes → Eff Key} {c : Cls} {d : VDict}
    (hd : checkDict d (formatOf c) = pure ())
    (hca : ∀ x, dget d (py! "signature_key") = some (.bytes x) → (ca x).log.length ≤ x.length) (D : Cls) :
    (localCheck ext ca c d D).log.length ≤ localMost D + if D = .certPub then dictSize d else 0 := by
  by_cases h : D = .certPub
  · subst h
    exact certLocalCheck_log_le hca
  · rw [if_neg h, Nat.add_zero]
    unfold localCheck
    split
    · rw [hd]; simp
    · unfold ed25519PubLocalCheck
      split
      · simp
      · split <;> simp [Eff.warn, localMost]
    · unfold ed25519PrivLocalCheck
      split
      · refine warnIf_log_le (n := 1) ?_
        split <;> simp [Eff.warn]
      · simp
    · unfold ecdsaLocalCheck
      split
      · simp
      · refine warnIf_log_le (n := 1) ?_
        split
        · simp
        · split <;> simp [Eff.warn]
    · simp
    · exact absurd rfl h
    · simp

theorem runChecks_log_le {f : Cls → Eff Unit} {g : Cls → Nat} (h : ∀ D, (f D).log.length ≤ g D) (l : List Cls) :
    (runChecks f l).log.length ≤ (l.map g).sum := by
  induction l with
  | nil => simp [runChecks]
  | cons D t ih =>
    unfold runChecks
    rw [List.map_cons, List.sum_cons]
    exact Eff.log_bind_le (h D) (fun _ _ => ih)

/-- What the table must say: the authority is checked once at most, and the fixed parts of the key outweigh the
warnings, with three to spare. -/
def PlanSmall (kind : Kind) (t : Str) (c : Cls) : Prop :=
  (checkPlan c).count .certPub ≤ 1 ∧ ((checkPlan c).map localMost).sum + 3 ≤ keyOverhead kind c + t.length ∧
    (match kind with | .pub => 19 | .priv => 27) ≤ keyOverhead kind c + t.length

instance (kind : Kind) (t : Str) (c : Cls) : Decidable (PlanSmall kind t c) := by
  unfold PlanSmall; infer_instance

theorem planSmall_pub : ∀ e ∈ keyTypeMapping, PlanSmall .pub e.1 e.2.1 := by decide +kernel
theorem planSmall_priv : ∀ e ∈ keyTypeMapping, ∀ c ∈ e.2.2, PlanSmall .priv e.1 c := by decide +kernel

theorem planSmall {kind : Kind} {t : Str} {c : Cls} (h : paramsClass kind (.str t) = .ok c) : PlanSmall kind t c := by
  cases kind
  · simp only [paramsClass, getPublicClass] at h
    split at h
    · simp at h
    · rename_i r hr
      obtain ⟨s, hs, hm⟩ := lookupType_mem hr
      simp at hs h; subst hs; subst h
      have := planSmall_pub _ hm
      dsimp only at this
      exact this
  · simp only [paramsClass, getPrivateClass] at h
    split at h
    · simp at h
    · rename_i r hr
      obtain ⟨s, hs, hm⟩ := lookupType_mem hr
      split at h
      · simp at h
      · rename_i c' hc
        simp at hs h; subst hs; subst h
        have := planSmall_priv _ hm _ hc
        dsimp only at this
        exact this

theorem sum_planMost (n : Nat) (l : List Cls) :
    (l.map (fun D => localMost D + if D = .certPub then n else 0)).sum =
      (l.map localMost).sum + l.count .certPub * n := by
  induction l with
  | nil => simp
  | cons D t ih =>
    simp only [List.map_cons, List.sum_cons, ih, List.count_cons]
    by_cases h : D = .certPub
    · subst h; simp [Nat.add_mul]; omega
    · simp [h]; omega

theorem mkKey_log_le {ext : Ext} {ca : Bytes → Eff Key} {kind : Kind} {r : Bytes} {h p f : VDict} {N : Nat}
    (hr : prs (readKey kind) r = (.ok (h, p, f), N)) (clear : Option VDict)
    (hca : ∀ x, dget p (py! "signature_key") = some (.bytes x) → (ca x).log.length ≤ x.length) :
    (mkKeyWith ext ca kind h p f clear).log.length + 3 ≤ N := by
  obtain ⟨t, c, rfl, hc, hs, hn, h1, h2⟩ := readKey_size hr
  obtain ⟨q1, q2, -⟩ := planSmall hc
  rw [mkKeyWith_eq (dget_cons_self _ _ _) hc, h2]
  have hk : (runChecks (localCheck ext ca c p) (checkPlan c)).log.length ≤
      ((checkPlan c).map localMost).sum + dictSize p := by
    refine (runChecks_log_le (localCheck_log_le h1 hca) _).trans ?_
    rw [sum_planMost]
    have : (checkPlan c).count .certPub * dictSize p ≤ 1 * dictSize p := Nat.mul_le_mul_right _ q1
    omega
  refine Nat.le_trans (Nat.add_le_add_right (Eff.log_bind_le (n := 0) hk (fun _ _ => by simp)) 3) ?_
  omega

theorem readKey_authority {kind : Kind} {r : Bytes} {h p f : VDict} {N : Nat}
    (hr : prs (readKey kind) r = (.ok (h, p, f), N)) {x : Bytes}
    (hx : dget p (py! "signature_key") = some (.bytes x)) : x.length + 3 ≤ r.length := by
  obtain ⟨t, c, rfl, hc, hs, hn, -, -⟩ := readKey_size hr
  have := fieldLen_three (a := py! "critical_options") (b := py! "extensions") (c := py! "signature_key") (by decide)
    (by decide) (by decide) p
  have e : fieldLen p (py! "signature_key") = x.length := by simp [fieldLen, bytesOf?, hx]
  have := (planSmall hc).2.1
  omega

theorem fromBytes_log_le (ext : Ext) (kind : Kind) (b : Bytes) (clear : Option VDict) :
    (fromBytes ext kind b clear).log.length ≤ b.length := by
  induction hl : b.length using Nat.strong_induction_on generalizing b kind clear with
  | _ l ih =>
    subst hl
    unfold fromBytes
    rw [fromBytesWith_eq]
    rcases hr : prs (readKey kind) b with ⟨e | ⟨h, p, f⟩, n⟩
    · simp
    · simp only
      have hb := (Reader.readKey kind).bound b
      rw [hr] at hb
      simp only at hb
      have := mkKey_log_le (ext := ext) (ca := caFromBytes ext) hr clear (fun x hx => by
        rw [caFromBytes_eq]
        have := readKey_authority hr hx
        exact ih x.length (by omega) .pub x none rfl)
      refine Nat.le_trans (Eff.log_bind_le (Nat.le_refl _) (n := 1) (fun k _ => ?_)) (by omega)
      split
      · exact Eff.log_bind_le (n := 0) (by simp [Eff.warn]) (fun _ _ => by simp)
      · simp

end OSK
