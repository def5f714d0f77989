import Verif.Model.Sk
import Verif.Props.Key
/-
Properties C54 (security key flags) and C55 (Ed25519 check).
-/
namespace OSK
open Spec

/-! ### C54 -/

/-- Bit `k` of an integer, as a digit of its base-2 representation. -/
def Spec.BitSet (x : Int) (k : Nat) : Prop := x / 2 ^ k % 2 = 1

instance (x : Int) (k : Nat) : Decidable (Spec.BitSet x k) := by unfold Spec.BitSet; infer_instance

/-- The bit that stands for a flag (PROTOCOL.u2f: user presence 0x01, user verification 0x04, resident key
0x20). -/
def Spec.flagBit : SkFlag → Nat
  | .userPresenceRequired => 0
  | .userVerificationRequired => 2
  | .residentKey => 5

theorem nat_land_pow (m k : Nat) : Nat.land m (2 ^ k) ≠ 0 ↔ m / 2 ^ k % 2 = 1 := by
  have h := Nat.and_two_pow m k
  have e : Nat.land m (2 ^ k) = m &&& 2 ^ k := rfl
  rw [e, h, Nat.testBit_eq_decide_div_mod_eq]
  by_cases hm : m / 2 ^ k % 2 = 1 <;> simp [hm]

theorem nat_ldiff_pow (m k : Nat) : Nat.ldiff (2 ^ k) m ≠ 0 ↔ m / 2 ^ k % 2 = 0 := by
  have hb : ∀ i, (Nat.ldiff (2 ^ k) m).testBit i = (decide (k = i) && !m.testBit i) := by
    intro i
    rw [Nat.testBit_ldiff, Nat.testBit_two_pow]
  have hm : m.testBit k = decide (m / 2 ^ k % 2 = 1) := Nat.testBit_eq_decide_div_mod_eq
  constructor
  · intro h
    by_contra hne
    apply h
    apply Nat.eq_of_testBit_eq
    intro i
    rw [hb, Nat.zero_testBit]
    by_cases hi : k = i
    · subst hi
      rw [hm]
      have : m / 2 ^ k % 2 = 1 := by omega
      simp [this]
    · simp [hi]
  · intro h h0
    have := hb k
    rw [h0, Nat.zero_testBit, hm] at this
    simp [h] at this

theorem land_flag (x : Int) (f : SkFlag) : Int.land x f.value ≠ 0 ↔ BitSet x (flagBit f) := by
  have hv : f.value = ((2 ^ flagBit f : Nat) : Int) := by cases f <;> rfl
  rw [hv]
  unfold BitSet
  cases x with
  | ofNat m =>
    have e : Int.land (Int.ofNat m) ((2 ^ flagBit f : Nat) : Int) = ((Nat.land m (2 ^ flagBit f) : Nat) : Int) := rfl
    rw [e, Int.natCast_ne_zero, nat_land_pow]
    simp only [Int.ofNat_eq_natCast]
    cases f <;> simp only [flagBit] <;> omega
  | negSucc m =>
    have e : Int.land (Int.negSucc m) ((2 ^ flagBit f : Nat) : Int) =
      ((Nat.ldiff (2 ^ flagBit f) m : Nat) : Int) := rfl
    rw [e, Int.natCast_ne_zero, nat_ldiff_pow]
    rw [Int.negSucc_eq]
    cases f <;> simp only [flagBit] <;> omega

theorem getFlag_int {d : VDict} {x : Int} (h : dget d (py! "flags") = some (.int x)) (f : SkFlag) :
    getFlag d f = .ok (decide (BitSet x (flagBit f))) := by
  unfold getFlag getItem
  rw [h]
  simp only [land_flag]

/-- The flags value after `set_flag`. -/
def setBit (x : Int) (k : Nat) (b : Bool) : Int :=
  if b then (if BitSet x k then x else x + 2 ^ k) else (if BitSet x k then x - 2 ^ k else x)

theorem dset_self {d : VDict} {k : Str} {v : Val} (h : dget d k = some v) : dset d k v = d := by
  induction d with
  | nil => simp [dget] at h
  | cons kv t ih =>
    obtain ⟨k', v'⟩ := kv
    rw [dget_cons] at h
    rw [dset]
    split at h
    · rename_i he; simp at h; rw [if_pos he, h]
    · rename_i he; rw [if_neg he, ih h]

theorem setFlag_int {d : VDict} {x : Int} (h : dget d (py! "flags") = some (.int x)) (f : SkFlag) (b : Bool) :
    setFlag d f b = (.ok (), dset d (py! "flags") (.int (setBit x (flagBit f) b))) := by
  have hv : f.value = 2 ^ flagBit f := by cases f <;> rfl
  unfold setFlag
  rw [getFlag_int h]
  unfold addFlags getItem setBit
  rw [h]
  cases b <;> by_cases hb : BitSet x (flagBit f) <;> simp [hb, hv, dset_self h, Int.sub_eq_add_neg]

theorem setBit_cases (x : Int) (k : Nat) (b : Bool) :
    ((BitSet x k ↔ b = true) ∧ setBit x k b = x) ∨ (b = true ∧ ¬ BitSet x k ∧ setBit x k b = x + 2 ^ k) ∨
      (b = false ∧ BitSet x k ∧ setBit x k b = x - 2 ^ k) := by
  unfold setBit
  cases b <;> by_cases h : BitSet x k <;> simp [h]

theorem bitSet_setBit_self (x : Int) (f : SkFlag) (b : Bool) :
    BitSet (setBit x (flagBit f) b) (flagBit f) ↔ b = true := by
  rcases setBit_cases x (flagBit f) b with ⟨h, e⟩ | ⟨rfl, h, e⟩ | ⟨rfl, h, e⟩ <;> rw [e]
  · exact h
  · unfold BitSet at *
    cases f <;> simp only [flagBit] at * <;> simp <;> omega
  · unfold BitSet at *
    cases f <;> simp only [flagBit] at * <;> simp <;> omega

theorem bitSet_setBit_other (x : Int) (f : SkFlag) (b : Bool) (k : Nat) (hk : k ≠ flagBit f) :
    BitSet (setBit x (flagBit f) b) k ↔ BitSet x k := by
  have high : ∀ y : Int, y / 2 ^ (flagBit f + 1) = x / 2 ^ (flagBit f + 1) → flagBit f < k →
      (BitSet y k ↔ BitSet x k) := by
    intro y hy hlt
    unfold BitSet
    obtain ⟨j, rfl⟩ : ∃ j, k = flagBit f + 1 + j := ⟨k - (flagBit f + 1), by omega⟩
    have e : ∀ z : Int, z / 2 ^ (flagBit f + 1 + j) = z / 2 ^ (flagBit f + 1) / 2 ^ j := by
      intro z
      rw [pow_add, Int.ediv_ediv_of_nonneg (by positivity)]
    rw [e, e, hy]
  rcases setBit_cases x (flagBit f) b with ⟨-, e⟩ | ⟨-, h, e⟩ | ⟨-, h, e⟩ <;> rw [e]
  · rcases Nat.lt_or_ge (flagBit f) k with hlt | hge
    · apply high _ _ hlt
      unfold BitSet at h
      cases f <;> simp only [flagBit] at * <;> omega
    · unfold BitSet at *
      cases f <;> simp only [flagBit] at *
      · omega
      · rcases (by omega : k = 0 ∨ k = 1) with rfl | rfl <;> omega
      · rcases (by omega : k = 0 ∨ k = 1 ∨ k = 2 ∨ k = 3 ∨ k = 4) with rfl | rfl | rfl | rfl | rfl <;> omega
  · rcases Nat.lt_or_ge (flagBit f) k with hlt | hge
    · apply high _ _ hlt
      unfold BitSet at h
      cases f <;> simp only [flagBit] at * <;> omega
    · unfold BitSet at *
      cases f <;> simp only [flagBit] at *
      · omega
      · rcases (by omega : k = 0 ∨ k = 1) with rfl | rfl <;> omega
      · rcases (by omega : k = 0 ∨ k = 1 ∨ k = 2 ∨ k = 3 ∨ k = 4) with rfl | rfl | rfl | rfl | rfl <;> omega

theorem setBit_byte (x : Int) (f : SkFlag) (b : Bool) (h : 0 ≤ x ∧ x < 256) :
    0 ≤ setBit x (flagBit f) b ∧ setBit x (flagBit f) b < 256 := by
  rcases setBit_cases x (flagBit f) b with ⟨-, e⟩ | ⟨-, h, e⟩ | ⟨-, h, e⟩ <;> rw [e]
  · exact h
  · unfold BitSet at h
    cases f <;> simp only [flagBit] at * <;> omega
  · unfold BitSet at h
    cases f <;> simp only [flagBit] at * <;> omega

theorem setBit_eq_self {x : Int} {k : Nat} {b : Bool} (h : BitSet x k ↔ b = true) : setBit x k b = x := by
  unfold setBit
  cases b
  · rw [if_neg (by simp), if_neg (by simpa using h)]
  · rw [if_pos rfl, if_pos (h.2 rfl)]

/-- **C54.** For an integer flags value (of any sign and size), `set_flag(f, b)` succeeds, `get_flag(f)` then
returns `b`, all other flags, all other bits and all other entries are unchanged, and a one-byte value
stays one. -/
theorem C54_set_get (d : VDict) (x : Int) (h : dget d (py! "flags") = some (.int x)) (f : SkFlag) (b : Bool) :
    ∃ d' x', setFlag d f b = (.ok (), d') ∧ dget d' (py! "flags") = some (.int x') ∧
      getFlag d' f = .ok b ∧ (∀ g, g ≠ f → getFlag d' g = getFlag d g) ∧
      (∀ k, k ≠ flagBit f → (BitSet x' k ↔ BitSet x k)) ∧
      (∀ n, n ≠ py! "flags" → dget d' n = dget d n) ∧ dkeys d' = dkeys d ∧
      (0 ≤ x ∧ x < 256 → 0 ≤ x' ∧ x' < 256) := by
  have h' : dget (dset d (py! "flags") (.int (setBit x (flagBit f) b))) (py! "flags") =
    some (.int (setBit x (flagBit f) b)) := dget_dset_self _ _ _
  refine ⟨_, setBit x (flagBit f) b, setFlag_int h f b, h', ?_, ?_, ?_, ?_, ?_, setBit_byte x f b⟩
  · rw [getFlag_int h']
    have := bitSet_setBit_self x f b
    cases b <;> simpa using this
  · intro g hg
    rw [getFlag_int h', getFlag_int h]
    have : flagBit g ≠ flagBit f := by
      revert hg; cases f <;> cases g <;> simp [flagBit]
    rw [decide_eq_decide.2 (bitSet_setBit_other x f b _ this)]
  · exact fun k hk => bitSet_setBit_other x f b k hk
  · exact fun n hn => dget_dset_ne (fun e => hn e.symm) _ _
  · rw [dkeys_dset, if_pos]
    rw [← dget_isSome_iff, h]; rfl

/-- **C54** (idempotent; writing back what was read changes nothing). -/
theorem C54_idempotent (d : VDict) (x : Int) (h : dget d (py! "flags") = some (.int x)) (f : SkFlag) (b : Bool) :
    setFlag (setFlag d f b).2 f b = (.ok (), (setFlag d f b).2) ∧
    ∃ c, getFlag d f = .ok c ∧ setFlag d f c = (.ok (), d) := by
  have h' : dget (dset d (py! "flags") (.int (setBit x (flagBit f) b))) (py! "flags") =
    some (.int (setBit x (flagBit f) b)) := dget_dset_self _ _ _
  refine ⟨?_, decide (BitSet x (flagBit f)), getFlag_int h f, ?_⟩
  · rw [setFlag_int h]
    simp only
    rw [setFlag_int h', setBit_eq_self (bitSet_setBit_self x f b), dset_self h']
  · rw [setFlag_int h, setBit_eq_self (by simp), dset_self h]

/-- A sequence of `set_flag` calls, stopping at the first exception. -/
def Spec.setFlags (d : VDict) : List (SkFlag × Bool) → Except Exn Unit × VDict
  | [] => (.ok (), d)
  | (f, b) :: t =>
    match setFlag d f b with
    | (.ok _, d') => setFlags d' t
    | (.error e, d') => (.error e, d')

/-- The value a flag should have after a sequence of assignments: the last one to it, or else the initial
one. -/
def Spec.lastSet (f : SkFlag) (init : Bool) : List (SkFlag × Bool) → Bool
  | [] => init
  | (g, b) :: t => lastSet f (if g = f then b else init) t

/-- **C54** (sequences). After any sequence of `set_flag` calls every flag has the value last assigned to it,
or its initial value; all other bits and entries are as before; and a one-byte value stays one. -/
theorem C54_sequences (calls : List (SkFlag × Bool)) (d : VDict) (x : Int)
    (h : dget d (py! "flags") = some (.int x)) :
    ∃ d' x', setFlags d calls = (.ok (), d') ∧ dget d' (py! "flags") = some (.int x') ∧
      (∀ f, getFlag d' f = .ok (lastSet f (decide (BitSet x (flagBit f))) calls)) ∧
      (∀ k, (∀ f, k ≠ flagBit f) → (BitSet x' k ↔ BitSet x k)) ∧
      (∀ n, n ≠ py! "flags" → dget d' n = dget d n) ∧
      (0 ≤ x ∧ x < 256 → 0 ≤ x' ∧ x' < 256) := by
  induction calls generalizing d x with
  | nil => exact ⟨d, x, rfl, h, fun f => getFlag_int h f, by simp, by simp, id⟩
  | cons c t ih =>
    obtain ⟨f, b⟩ := c
    obtain ⟨d1, x1, e1, e2, e3, e4, e5, e6, -, e7⟩ := C54_set_get d x h f b
    obtain ⟨d', x', i1, i2, i3, i4, i5, i6⟩ := ih d1 x1 e2
    refine ⟨d', x', by rw [setFlags, e1]; exact i1, i2, ?_, ?_, ?_, fun hx => i6 (e7 hx)⟩
    · intro g
      rw [i3, lastSet]
      congr 1
      have : decide (BitSet x1 (flagBit g)) = if f = g then b else decide (BitSet x (flagBit g)) := by
        by_cases hg : f = g
        · subst hg
          rw [getFlag_int e2] at e3
          simpa using e3
        · have := e4 g (fun e => hg e.symm)
          rw [getFlag_int e2, getFlag_int h] at this
          rw [if_neg hg]
          simpa using this
      rw [this]
    · intro k hk
      rw [i4 k hk, e5 k (hk f)]
    · intro n hn
      rw [i5 n hn, e6 n hn]

/-- **C54** (errors). Without a flags entry both methods raise `KeyError`; if it is not an integer they raise
`TypeError`; in both cases nothing is changed. -/
theorem C54_errors (d : VDict) (f : SkFlag) (b : Bool) :
    (dget d (py! "flags") = none → getFlag d f = .error (.keyError (some (py! "flags"))) ∧
      setFlag d f b = (.error (.keyError (some (py! "flags"))), d)) ∧
    (∀ v, dget d (py! "flags") = some v → (∀ x, v ≠ .int x) → getFlag d f = .error .typeError ∧
      setFlag d f b = (.error .typeError, d)) := by
  constructor
  · intro h
    have : getFlag d f = .error (.keyError (some (py! "flags"))) := by
      unfold getFlag getItem; rw [h]
    exact ⟨this, by unfold setFlag; rw [this]⟩
  · intro v h hv
    have : getFlag d f = .error .typeError := by
      unfold getFlag getItem; rw [h]
      cases v <;> first | rfl | exact absurd rfl (hv _)
    exact ⟨this, by unfold setFlag; rw [this]⟩

example : getFlag [(py! "flags", .int 0x21)] .residentKey = .ok true := by decide +kernel
example : setFlags [(py! "flags", .int 0x21), (py! "reserved", .bytes [])]
    [(.residentKey, false), (.userVerificationRequired, true), (.residentKey, false)] =
    (.ok (), [(py! "flags", .int 0x5), (py! "reserved", .bytes [])]) := by decide +kernel

/-! ### C55 -/

/-- **C55.** Constructing Ed25519 private parameters whose two documented entries are byte strings always
succeeds, and emits no warning exactly when `public` has 32 bytes and `private_public` has 64 bytes of
which the last 32 are `public`. -/
theorem C55_ed25519_check (ext : Ext) (d : VDict) (p pp : Bytes)
    (hp : dget d (py! "public") = some (.bytes p)) (hpp : dget d (py! "private_public") = some (.bytes pp)) :
    (newParams ext .ed25519Priv d).res = .ok ⟨.ed25519Priv, d⟩ ∧
    ((newParams ext .ed25519Priv d).log = [] ↔
      p.length = 32 ∧ pp.length = 64 ∧ ∃ secret, pp = secret ++ p) := by
  have hplan : checkPlan .ed25519Priv = [.pascalStyleDict, .ed25519Pub, .pascalStyleDict, .ed25519Priv] := by
    decide +kernel
  have hfmt : formatOf .ed25519Priv = [(py! "public", .pascal .bytes), (py! "private_public", .pascal .bytes)] := by
    decide +kernel
  have hfield : checkDict d (formatOf .ed25519Priv) = pure () := by
    rw [hfmt]
    simp [checkDict, checkField, hp, hpp, Prim.matchesVal]
  unfold newParams newParamsWith
  rw [hplan]
  simp only [runChecks, localCheck, hfield, Eff.pure_bind, ed25519PubLocalCheck, ed25519PrivLocalCheck,
    bytesOf?, hp, hpp]
  have key : (p.length = 32 ∧ pp.length = 64 ∧ ∃ secret, pp = secret ++ p) ↔
      p.length = 32 ∧ pp.drop 32 = p ∧ (pp.drop 32).length = 32 := by
    constructor
    · rintro ⟨h1, h2, s, rfl⟩
      simp at h2
      have : s.length = 32 := by omega
      have e : (s ++ p).drop 32 = p := by rw [← this]; simp
      exact ⟨h1, e, by rw [e]; exact h1⟩
    · rintro ⟨h1, h2, h3⟩
      simp at h3
      exact ⟨h1, by omega, pp.take 32, by conv => lhs; rw [← List.take_append_drop 32 pp, h2]⟩
  rw [key]
  simp only [ed25519KeySize]
  by_cases h1 : p.length = 32 <;> by_cases h2 : pp.drop 32 = p <;> by_cases h3 : (pp.drop 32).length = 32 <;>
    simp only [h1, h2, h3, ne_eq, not_true_eq_false, not_false_eq_true, if_true, if_false] <;>
    refine ⟨by rfl, ?_⟩ <;> simp [Eff.warn, bind, Eff.bind] 

/-- Which conditions on the two byte strings the individual warnings stand for. -/
theorem C55_warnings (ext : Ext) (d : VDict) (p pp : Bytes)
    (hp : dget d (py! "public") = some (.bytes p)) (hpp : dget d (py! "private_public") = some (.bytes pp)) :
    (newParams ext .ed25519Priv d).log =
      (if p.length = 32 then [] else [.warn .ed25519PublicLength]) ++
      (if pp.drop 32 = p then [] else [.warn .ed25519PublicMismatch]) ++
      (if pp.length = 64 then [] else [.warn .ed25519PrivateLength]) := by
  have hplan : checkPlan .ed25519Priv = [.pascalStyleDict, .ed25519Pub, .pascalStyleDict, .ed25519Priv] := by
    decide +kernel
  have hfmt : formatOf .ed25519Priv = [(py! "public", .pascal .bytes), (py! "private_public", .pascal .bytes)] := by
    decide +kernel
  have hfield : checkDict d (formatOf .ed25519Priv) = pure () := by
    rw [hfmt]
    simp [checkDict, checkField, hp, hpp, Prim.matchesVal]
  have h64 : pp.length = 64 ↔ (pp.drop 32).length = 32 := by simp; omega
  unfold newParams newParamsWith
  rw [hplan]
  simp only [runChecks, localCheck, hfield, Eff.pure_bind, ed25519PubLocalCheck, ed25519PrivLocalCheck,
    bytesOf?, hp, hpp, h64, ed25519KeySize]
  by_cases h1 : p.length = 32 <;> by_cases h2 : pp.drop 32 = p <;> by_cases h3 : (pp.drop 32).length = 32 <;>
    simp only [h1, h2, h3, ne_eq, not_true_eq_false, not_false_eq_true, if_true, if_false] <;> rfl

example : (newParams exExt .ed25519Priv [(py! "public", .bytes (List.replicate 32 7)),
    (py! "private_public", .bytes (List.replicate 64 7))]).log = [] := by decide +kernel
example : (newParams exExt .ed25519Priv [(py! "public", .bytes (List.replicate 31 7)),
    (py! "private_public", .bytes (List.replicate 63 7))]).log =
    [.warn .ed25519PublicLength, .warn .ed25519PrivateLength] := by decide +kernel

end OSK
