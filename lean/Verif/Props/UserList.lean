import Verif.Props.Inject
import Verif.Props.ListWire
import Verif.Spec.UserList
/-
List operations of key lists (C85, C86), `from_list` (C87), equality of pairs and lists (C88).
-/
namespace OSK
open Spec

/-! ### C85: protection of lists made from lists -/

theorem NewOp.run_eq (l : KeyList) (op : NewOp) : op.run l = newKeyList (op.run l).pairs := by
  cases op <;> rfl

theorem NewOp.names (l : KeyList) (op : NewOp) : Names (op.run l) (py! "none") (py! "none") := by
  rw [NewOp.run_eq]
  exact names_iff.1 rfl

theorem infix_of_lays {f : KeyFile} {w : Bytes} (h : f.Lays w) : f.body <:+: w := by
  obtain ⟨front, wb, -, ⟨pre, h1⟩, rfl⟩ := h
  obtain ⟨-, -, rfl⟩ := h1
  exact ⟨front ++ pre, f.tag, by simp⟩

theorem infix_flatten {α : Type} {x : List α} {l : List (List α)} (h : x ∈ l) : x <:+: l.flatten := by
  induction l with
  | nil => cases h
  | cons y t ih =>
    rcases List.mem_cons.1 h with rfl | h
    · exact ⟨[], t.flatten, by simp⟩
    · exact (ih h).trans ⟨y, [], by simp⟩

/-- **C85, violated.** Slicing, concatenating, repeating or copying a key list, however it is protected, gives a list
that is packed in the clear: each private key occurs in the bytes as it is, no passphrase is asked for, and one that is
given is ignored. -/
theorem C85_false {cr : Crypto} (hl : CryptoLaws cr) (inp : Inputs) (l : KeyList) (op : NewOp) (passphrase : Option Str)
    (indices : Option (List Int)) (override retain : Bool) (w : Bytes)
    (h : (packKeyList cr inp (op.run l) passphrase indices override retain).res = .ok w) :
    (∃ sel, Selection (op.run l).pairs indices sel ∧ ∀ p ∈ sel, ∃ b, packPrivateBytes p.priv = .ok b ∧ b <:+: w) ∧
    .prompt ∉ (packKeyList cr inp (op.run l) passphrase indices override retain).log ∧
    ∀ passphrase', packKeyList cr inp (op.run l) passphrase' indices override retain =
      packKeyList cr inp (op.run l) passphrase indices override retain := by
  have hn := NewOp.names l op
  refine ⟨?_, (C34_pack_prompts cr inp (op.run l) passphrase indices override retain).2 (.inr ⟨_, hn⟩),
    fun p' => C34_pack_none cr inp inp.answer (op.run l) p' passphrase indices override retain _ hn⟩
  obtain ⟨k⟩ := packKeyList_pack h
  refine ⟨k.sel, k.selection, fun p hp => ?_⟩
  have hc : strOf k.f.kdf = py! "none" := by
    have := k.names
    rw [names_iff.2 hn] at this
    exact (Val.str.inj (Prod.mk.inj this).2).symm
  have hb : k.f.body = k.plain := by
    rcases k.encloses hl with ⟨-, e, -⟩ | ⟨e, -⟩
    · exact e
    · rw [hc] at e
      exact absurd e (by decide)
  obtain ⟨c, n, -, -, -, -, hpl⟩ := k.section_
  obtain ⟨b, hb1, hb2⟩ : ∃ b, b ∈ k.privs ∧ packPrivateBytes p.priv = .ok b := by
    have := k.privKeys
    generalize k.sel = s at this hp
    generalize k.privs = t at this
    induction this with
    | nil => cases hp
    | cons h1 _ ih =>
      rcases List.mem_cons.1 hp with rfl | hp
      · exact ⟨_, List.mem_cons_self, h1⟩
      · obtain ⟨b, h2, h3⟩ := ih hp
        exact ⟨b, List.mem_cons_of_mem _ h2, h3⟩
  refine ⟨b, hb2, ?_⟩
  refine (infix_flatten hb1).trans (List.IsInfix.trans ?_ (infix_of_lays k.lays))
  rw [hb, hpl]
  exact ⟨c ++ c, countUp n, by simp⟩

/-- A list is changed by a number of operations one after the other. -/
inductive Steps : KeyList → KeyList → Prop
  | refl (l) : Steps l l
  | copy {l l'} : Steps l l' → Steps l (shallowCopy l')
  | op {l l' l''} (o : InOp) : Steps l l' → o.run l' = .ok l'' → Steps l l''

theorem inOp_run {l l' : KeyList} {op : InOp} (h : op.run l = .ok l') :
    op.data l.pairs = .ok l'.pairs ∧ SameSetting l l' := by
  unfold InOp.run at h
  split at h
  · rename_i d hd
    cases h
    exact ⟨hd, rfl, rfl, rfl, rfl, rfl, rfl, rfl⟩
  · cases h

theorem Spec.SameSetting.trans {a b c : KeyList} (h : SameSetting a b) (h' : SameSetting b c) : SameSetting a c :=
  ⟨h'.1.trans h.1, h'.2.trans h.2, h'.3.trans h.3, h'.4.trans h.4, h'.5.trans h.5, h'.6.trans h.6, h'.7.trans h.7⟩

/-- **C85**, partial. Missing: operations that make new lists (`C85_false`).  Any number of changes in place, and
`copy.copy`, keep all attributes of the list; with a cipher other than `none`, the private section of the changed list is
written encrypted under the key derived from the passphrase. -/
theorem C85_in_place_partial {cr : Crypto} (hl : CryptoLaws cr) (inp : Inputs) (l l' : KeyList) (hs : Steps l l')
    (passphrase : Option Str) (indices : Option (List Int)) (override retain : Bool) :
    SameSetting l l' ∧ ∀ cipher kdf w, Names l cipher kdf → cipher ≠ py! "none" →
      (packKeyList cr inp l' passphrase indices override retain).res = .ok w →
      kdf = py! "bcrypt" ∧ ∃ f plain privs block pass salt rounds, KeyFile.Lays f w ∧ strOf f.cipher = cipher ∧
        Section inp.checkInt privs block plain ∧ Enters inp passphrase (strOf pass) ∧
        BcryptField salt rounds f.options ∧ Sealed cr f pass salt rounds plain := by
  have hset : SameSetting l l' := by
    induction hs with
    | refl => exact ⟨rfl, rfl, rfl, rfl, rfl, rfl, rfl⟩
    | copy _ ih => exact ih.trans ⟨rfl, rfl, rfl, rfl, rfl, rfl, rfl⟩
    | op o _ h ih => exact ih.trans (inOp_run h).2
  refine ⟨hset, fun cipher kdf w hn hc h => ?_⟩
  have hn' : Names l' cipher kdf := by
    unfold Names at hn ⊢
    rw [hset.header]
    exact hn
  exact C35_sealed_partial hl inp l' passphrase indices override retain w cipher kdf hn' hc h

/-- Non-vacuous: the example is encrypted; all of it in a slice is not, and neither is a copy. -/
example : Names exList (py! "aes256-ctr") (py! "bcrypt") := names_iff.1 rfl
example : ((packKeyList toyCrypto exInputs ((NewOp.slice none none).run exList) (some (py! "secret")) none true true).res.toOption.map
    (fun w => w.take 31)) = some (authMagic ++ [0, 0, 0, 4] ++ pb! "none" ++ [0, 0, 0, 4] ++ pb! "none") := by decide +kernel
example : ((NewOp.slice (some (-1)) none).run exList).pairs = exList.pairs.drop 1 ∧
    (NewOp.copy.run exList).pairs = exList.pairs ∧ ((NewOp.mul (-2)).run exList).pairs = [] := by decide +kernel
example : Steps exList { exList with pairs := exList.pairs.reverse ++ exList.pairs } :=
  .op (.extend exList.pairs) (.op .reverse (.refl _) rfl) rfl

/-! ### C86: what changes in place do -/

theorem pyPosition_ok {n : Nat} {i : Int} {k : Nat} : pyPosition n i = .ok k ↔ k < n ∧ (i = k ∨ i = (k : Int) - n) := by
  unfold pyPosition
  split
  · rename_i h
    simp only [Except.ok.injEq]
    omega
  · split
    · simp only [Except.ok.injEq]
      omega
    · simp only [reduceCtorEq, false_iff]
      omega

theorem pyPosition_error {n : Nat} {i : Int} {e : Exn} (h : pyPosition n i = .error e) :
    e = .indexError ∧ ¬ ∃ k, k < n ∧ (i = (k : Nat) ∨ i = (k : Int) - n) := by
  unfold pyPosition at h
  split at h
  · cases h
  · split at h
    · cases h
    · cases h
      refine ⟨rfl, ?_⟩
      rintro ⟨k, hk, h1⟩
      omega

/-- Position `k` splits the list. -/
theorem split_at {α : Type} {l : List α} {k : Nat} (h : k < l.length) :
    ∃ x, l = l.take k ++ x :: l.drop (k + 1) ∧ (l.take k).length = k ∧ (l.drop (k + 1)).length + (k + 1) = l.length :=
  ⟨l[k], by simp, by simp; omega, by simp; omega⟩

theorem counts_iff {a b n : Nat} {i : Int} (h : b + (a + 1) = n) : Counts i a b ↔ (i = a ∨ i = (a : Int) - n) := by
  unfold Counts
  omega

theorem listRemove_ok {p : Pair} : ∀ {l l' : List Pair}, listRemove p l = .ok l' ↔
    ∃ a x b, l = a ++ x :: b ∧ l' = a ++ b ∧ x.eq p = true ∧ ∀ y ∈ a, ¬ y.eq p = true
  | [], l' => by simp [listRemove]
  | q :: t, l' => by
    unfold listRemove
    constructor
    · intro h
      split at h
      · rename_i hq
        cases h
        exact ⟨[], q, t, rfl, rfl, hq, by simp⟩
      · rename_i hq
        split at h
        · rename_i t' ht
          cases h
          obtain ⟨a, x, b, rfl, rfl, h1, h2⟩ := listRemove_ok.1 ht
          exact ⟨q :: a, x, b, rfl, rfl, h1, List.forall_mem_cons.2 ⟨hq, h2⟩⟩
        · cases h
    · rintro ⟨a, x, b, h1, rfl, h2, h3⟩
      rcases a with _ | ⟨y, a⟩
      · simp only [List.nil_append, List.cons.injEq] at h1
        obtain ⟨rfl, rfl⟩ := h1
        rw [if_pos h2]
        rfl
      · simp only [List.cons_append, List.cons.injEq] at h1
        obtain ⟨rfl, rfl⟩ := h1
        have h4 := List.forall_mem_cons.1 h3
        rw [if_neg h4.1, listRemove_ok.2 ⟨a, x, b, rfl, rfl, h2, h4.2⟩]
        rfl

theorem listRemove_error {p : Pair} : ∀ {l : List Pair} {e : Exn}, listRemove p l = .error e →
    e.isValueError = true ∧ ∀ y ∈ l, ¬ y.eq p = true
  | [], e, h => by cases h; simp [Exn.isValueError]
  | q :: t, e, h => by
    unfold listRemove at h
    split at h
    · cases h
    · rename_i hq
      split at h
      · cases h
      · rename_i e' ht
        cases h
        obtain ⟨h1, h2⟩ := listRemove_error ht
        exact ⟨h1, List.forall_mem_cons.2 ⟨hq, h2⟩⟩

theorem listMul_get {α : Type} (l : List α) (n : Nat) : ∀ i x, ((List.replicate n l).flatten)[i]? = some x →
    l[i % l.length]? = some x := by
  induction n with
  | zero => intro i x h; simp at h
  | succ n ih =>
    intro i x h
    rw [List.replicate_succ, List.flatten_cons] at h
    by_cases hi : i < l.length
    · rw [List.getElem?_append_left hi] at h
      rw [Nat.mod_eq_of_lt hi]
      exact h
    · rw [List.getElem?_append_right (by omega)] at h
      have := ih _ _ h
      rw [Nat.mod_eq_sub_mod (by omega)]
      exact this

/-- A list of known length is determined by its items. -/
theorem listMul_unique {l new : List Pair} {k : Nat} (h1 : new.length = k * l.length)
    (h2 : ∀ i, ∀ x, new[i]? = some x → l[i % l.length]? = some x) : new = (List.replicate k l).flatten := by
  refine List.ext_getElem? fun i => ?_
  have hlen : ((List.replicate k l).flatten).length = k * l.length := by simp
  rcases h : new[i]? with _ | x
  · have := List.getElem?_eq_none_iff.1 h
    rw [List.getElem?_eq_none (by omega)]
  · have hi := (List.getElem?_eq_some_iff.1 h).1
    rcases h' : ((List.replicate k l).flatten)[i]? with _ | y
    · have := List.getElem?_eq_none_iff.1 h'
      omega
    · have e1 := h2 _ _ h
      have e2 := listMul_get l k _ _ h'
      rw [e1] at e2
      exact e2

/-- **C86.** Each operation changes the sequence of pairs to what the specification says, changes nothing else, and if
it fails then because there is nothing that it could give: an index out of range (`IndexError`), or no equal pair to
remove (`ValueError`). -/
theorem C86_changes (l : KeyList) (op : InOp) :
    (∀ l', op.run l = .ok l' ↔ Changes (fun x y => x.eq y = true) l.pairs l'.pairs op ∧ SameSetting l l') ∧
    (∀ e, op.run l = .error e → Refusal op e ∧ ∀ new, ¬ Changes (fun x y => x.eq y = true) l.pairs new op) := by
  have key : (∀ new, op.data l.pairs = .ok new ↔ Changes (fun x y => x.eq y = true) l.pairs new op) ∧
      (∀ e, op.data l.pairs = .error e → Refusal op e) := by
    generalize l.pairs = d
    have hdel : ∀ i new, (do let k ← pyPosition d.length i; pure (d.eraseIdx k) : Except Exn (List Pair)) = .ok new ↔
        ∃ a x b, d = a ++ x :: b ∧ new = a ++ b ∧ Counts i a.length b.length := by
      intro i new
      constructor
      · intro h
        rcases hp : pyPosition d.length i with e | k
        · rw [hp] at h; cases h
        · rw [hp] at h
          have h : d.eraseIdx k = new := Except.ok.inj h
          obtain ⟨h1, h2⟩ := pyPosition_ok.1 hp
          obtain ⟨x, h3, h4, h5⟩ := split_at h1
          refine ⟨_, x, _, h3, ?_, (counts_iff (n := d.length) (by omega)).2 (by rw [h4]; exact h2)⟩
          rw [← h, List.eraseIdx_eq_take_drop_succ]
      · rintro ⟨a, x, b, rfl, rfl, h⟩
        have hp := (pyPosition_ok (n := (a ++ x :: b).length) (i := i) (k := a.length)).2
          ⟨by simp, (counts_iff (by simp; omega)).1 h⟩
        rw [hp]
        show Except.ok _ = _
        rw [List.eraseIdx_eq_take_drop_succ]
        simp
    have hdel' : ∀ i e, (do let k ← pyPosition d.length i; pure (d.eraseIdx k) : Except Exn (List Pair)) = .error e →
        e = .indexError := by
      intro i e h
      rcases hp : pyPosition d.length i with e' | k
      · rw [hp] at h
        cases h
        exact (pyPosition_error hp).1
      · rw [hp] at h; cases h
    cases op with
    | append p => exact ⟨fun new => by simp [InOp.data, Changes, eq_comm], fun e h => by simp [InOp.data] at h⟩
    | extend o => exact ⟨fun new => by simp [InOp.data, Changes, eq_comm], fun e h => by simp [InOp.data] at h⟩
    | clear => exact ⟨fun new => by simp [InOp.data, Changes, eq_comm], fun e h => by simp [InOp.data] at h⟩
    | remove p =>
      exact ⟨fun new => listRemove_ok, fun e h => (listRemove_error h).1⟩
    | pop i => exact ⟨fun new => hdel i new, fun e h => hdel' i e h⟩
    | delItem i => exact ⟨fun new => hdel i new, fun e h => hdel' i e h⟩
    | setItem i p =>
      refine ⟨fun new => ⟨fun h => ?_, ?_⟩, fun e h => ?_⟩
      · rcases hp : pyPosition d.length i with e | k
        · simp only [InOp.data] at h; rw [hp] at h; cases h
        · simp only [InOp.data] at h
          rw [hp] at h
          have h : d.set k p = new := Except.ok.inj h
          obtain ⟨h1, h2⟩ := pyPosition_ok.1 hp
          obtain ⟨x, h3, h4, h5⟩ := split_at h1
          refine ⟨_, x, _, h3, ?_, (counts_iff (n := d.length) (by omega)).2 (by rw [h4]; exact h2)⟩
          rw [← h, List.set_eq_take_append_cons_drop, if_pos h1]
      · rintro ⟨a, x, b, rfl, rfl, h⟩
        have hp := (pyPosition_ok (n := (a ++ x :: b).length) (i := i) (k := a.length)).2
          ⟨by simp, (counts_iff (by simp; omega)).1 h⟩
        simp only [InOp.data]
        rw [hp]
        show Except.ok _ = _
        simp
      · rcases hp : pyPosition d.length i with e' | k
        · simp only [InOp.data] at h
          rw [hp] at h
          cases h
          exact (pyPosition_error hp).1
        · simp only [InOp.data] at h; rw [hp] at h; cases h
    | insert i p =>
      refine ⟨fun new => ⟨fun h => ?_, ?_⟩, fun e h => by simp [InOp.data] at h⟩
      · simp only [InOp.data, Except.ok.injEq] at h
        refine ⟨d.take (sliceBound d.length i), d.drop (sliceBound d.length i), by simp, h.symm, ?_⟩
        have hb : sliceBound d.length i ≤ d.length := by unfold sliceBound; split <;> omega
        simp only [List.length_take, List.length_drop, ← List.length_eq_zero_iff (l := List.drop _ _),
          ← List.length_eq_zero_iff (l := List.take _ _)]
        unfold sliceBound at hb ⊢
        split <;> omega
      · rintro ⟨a, b, rfl, rfl, h1, h2⟩
        have hb : sliceBound (a ++ b).length i = a.length := by
          unfold sliceBound
          simp only [List.length_append]
          by_cases h : i < 0
          · rw [if_pos h]
            rcases h2 h with h | ⟨rfl, h⟩
            · omega
            · simp; omega
          · rw [if_neg h]
            rcases h1 (by omega) with h | ⟨rfl, h⟩
            · omega
            · simp; omega
        simp only [InOp.data, hb]
        simp
    | imul n =>
      refine ⟨fun new => ⟨fun h => ?_, ?_⟩, fun e h => by simp [InOp.data] at h⟩
      · simp only [InOp.data, Except.ok.injEq, listMul] at h
        subst h
        by_cases hn : n ≤ 0
        · exact .inl ⟨hn, by rw [show n.toNat = 0 by omega]; rfl⟩
        · exact .inr ⟨n.toNat, by omega, by simp, listMul_get _ _⟩
      · rintro (⟨hn, rfl⟩ | ⟨k, rfl, h1, h2⟩)
        · simp only [InOp.data, listMul]
          rw [show n.toNat = 0 by omega]
          rfl
        · simp only [InOp.data, listMul, Int.toNat_natCast]
          rw [listMul_unique h1 h2]
    | reverse =>
      refine ⟨fun new => ⟨fun h => ?_, ?_⟩, fun e h => by simp [InOp.data] at h⟩
      · simp only [InOp.data, Except.ok.injEq] at h
        subst h
        refine ⟨by simp, fun i j hij => ?_⟩
        rw [List.getElem?_reverse (by omega)]
        congr 1
        omega
      · rintro ⟨h1, h2⟩
        simp only [InOp.data, Except.ok.injEq]
        refine List.ext_getElem? fun i => ?_
        by_cases hi : i < d.length
        · rw [h2 i (d.length - 1 - i) (by omega), List.getElem?_reverse hi]
        · rw [List.getElem?_eq_none (by simp; omega), List.getElem?_eq_none (by omega)]
  refine ⟨fun l' => ⟨fun h => ?_, fun ⟨h1, h2⟩ => ?_⟩, fun e h => ?_⟩
  · obtain ⟨h1, h2⟩ := inOp_run h
    exact ⟨(key.1 _).1 h1, h2⟩
  · unfold InOp.run
    rw [(key.1 _).2 h1]
    obtain ⟨e1, e2, e3, e4, e5, e6, e7⟩ := h2
    cases l'
    simp only at e1 e2 e3 e4 e5 e6 e7
    subst e1 e2 e3 e4 e5 e6 e7
    rfl
  · unfold InOp.run at h
    split at h
    · cases h
    · rename_i e' hd
      cases h
      refine ⟨key.2 _ hd, fun new hc => ?_⟩
      rw [(key.1 new).2 hc] at hd
      cases hd

theorem bound_iff {n : Nat} {i : Int} {k : Nat} : Bound n i k ↔ k = sliceBound n i := by
  unfold Bound sliceBound
  split <;> omega

/-- **C86** (new lists). The pairs of the lists that slicing, concatenation, repetition and `copy` make. -/
theorem C86_new_lists (l : KeyList) (op : NewOp) : ∀ new, (op.run l).pairs = new ↔ Makes l.pairs new op := by
  intro new
  cases op with
  | add o => simp only [NewOp.run, newKeyList, Makes, eq_comm]
  | radd o => simp only [NewOp.run, newKeyList, Makes, eq_comm]
  | copy => simp only [NewOp.run, newKeyList, Makes, eq_comm]
  | mul n => exact ⟨fun h => ((C86_changes l (.imul n)).1 { l with pairs := new }).1 (by rw [← h]; rfl) |>.1,
      fun h => by
        have := ((C86_changes l (.imul n)).1 { l with pairs := new }).2 ⟨h, rfl, rfl, rfl, rfl, rfl, rfl, rfl⟩
        exact (congrArg KeyList.pairs (Except.ok.inj this) : _)⟩
  | slice i j =>
    simp only [NewOp.run, newKeyList, Makes, sliceOpt, slice]
    generalize l.pairs = d
    have hi : ∀ lo, ((∀ i', i = some i' → Bound d.length i' lo) ∧ (i = none → lo = 0)) ↔ lo = sliceBound d.length (i.getD 0) := by
      intro lo
      cases i with
      | none => simp [sliceBound]
      | some i => simp [bound_iff]
    have hj : ∀ hi, ((∀ j', j = some j' → Bound d.length j' hi) ∧ (j = none → hi = d.length)) ↔
        hi = sliceBound d.length (j.getD d.length) := by
      intro hi
      cases j with
      | none =>
        have : sliceBound d.length (d.length : Int) = d.length := by unfold sliceBound; split <;> omega
        simp [this]
      | some j => simp [bound_iff]
    have hle : ∀ i, sliceBound d.length i ≤ d.length := by intro i; unfold sliceBound; split <;> omega
    constructor
    · rintro rfl
      refine ⟨_, _, ((hi _).2 rfl).1, ((hi _).2 rfl).2, ((hj _).2 rfl).1, ((hj _).2 rfl).2, ?_, fun m hm => ?_⟩
      · have := hle (j.getD d.length)
        simp
        omega
      · rw [List.getElem?_drop, List.getElem?_take_of_lt (by omega)]
    · rintro ⟨lo, hi', a1, a2, b1, b2, h1, h2⟩
      obtain rfl := (hi lo).1 ⟨a1, a2⟩
      obtain rfl := (hj hi').1 ⟨b1, b2⟩
      have := hle (j.getD d.length)
      refine List.ext_getElem? fun m => ?_
      by_cases hm : m < sliceBound d.length (j.getD d.length) - sliceBound d.length (i.getD 0)
      · rw [h2 m hm, List.getElem?_drop, List.getElem?_take_of_lt (by omega)]
      · rw [List.getElem?_eq_none (by simp; omega), List.getElem?_eq_none (by omega)]

/-- Non-vacuous: operations that succeed and that fail. -/
example : ((InOp.pop (-1)).run exList).toOption.map (fun l => l.pairs.length) = some 1 ∧
    ((InOp.pop 2).run exList).toOption.isSome = false ∧ ((InOp.delItem (-3)).run exList).toOption.isSome = false ∧
    ((InOp.remove ⟨exPub, exRsaPriv⟩).run exList).toOption.map (fun l => l.pairs) = some [⟨exEdPub, exEd⟩] ∧
    ((InOp.remove ⟨exPub, exEd⟩).run exList).toOption.isSome = false ∧
    ((InOp.insert (-7) ⟨exPub, exEd⟩).run exList).toOption.map (fun l => l.pairs) = some (⟨exPub, exEd⟩ :: exList.pairs) := by
  decide +kernel

/-! ### C87: `from_list` -/

/-- **C87.** `from_list` succeeds exactly for lists of pairs of a public and a private key, and then has exactly these
pairs, the given cipher and key derivation function, and the given options; otherwise it raises `ValueError`. -/
theorem C87_from_list (items : List Item) (cipher kdf : Str) (options : Option KdfOptions) :
    (∀ l, listFromItems items cipher kdf options = .ok l ↔
      items = l.pairs.map (fun p => .pair (.key p.pub) (.key p.priv)) ∧
      (∀ p ∈ l.pairs, p.pub.kind = .pub ∧ p.priv.kind = .priv) ∧
      l.header = some [(py! "cipher", .str cipher), (py! "kdf", .str kdf)] ∧
      l.kdfOptions = some (options.getD ⟨.none, []⟩) ∧ l.byteString = none ∧ l.cipherBytes = none ∧
      l.decipherBytes = none ∧ l.decipherHeader = none ∧ l.decipherPadding = none) ∧
    ∀ e, listFromItems items cipher kdf options = .error e → ∃ msg, e = .valueError msg := by
  have key : ∀ items, (∀ ps, checkItems items = .ok ps ↔ items = ps.map (fun p => .pair (.key p.pub) (.key p.priv)) ∧
      ∀ p ∈ ps, p.pub.kind = .pub ∧ p.priv.kind = .priv) ∧ ∀ e, checkItems items = .error e → ∃ msg, e = .valueError msg := by
    intro items
    fun_induction checkItems items with
    | case1 => simp
    | case2 a b t hk ps ht ih =>
      rw [ht] at ih
      refine ⟨fun ps' => ?_, fun e h => by cases h⟩
      rcases ps' with _ | ⟨q, ps'⟩
      · simp
      · obtain ⟨i1, -⟩ := ih
        simp only [Except.ok.injEq, List.cons.injEq, List.map_cons, Item.pair.injEq, ItemPart.key.injEq,
          List.forall_mem_cons]
        constructor
        · rintro ⟨rfl, rfl⟩
          obtain ⟨h1, h2⟩ := (i1 ps).1 rfl
          exact ⟨⟨⟨rfl, rfl⟩, h1⟩, hk, h2⟩
        · rintro ⟨⟨⟨rfl, rfl⟩, h1⟩, -, h2⟩
          exact ⟨rfl, Except.ok.inj ((i1 ps').2 ⟨h1, h2⟩)⟩
    | case3 a b t hk e he ih =>
      rw [he] at ih
      refine ⟨fun ps' => ?_, fun e' h => ih.2 e' h⟩
      rcases ps' with _ | ⟨q, ps'⟩
      · simp
      · simp only [reduceCtorEq, List.cons.injEq, List.map_cons, List.forall_mem_cons, false_iff]
        rintro ⟨⟨-, h1⟩, -, h2⟩
        have := (ih.1 ps').2 ⟨h1, h2⟩
        cases this
    | case4 a b t hk =>
      refine ⟨fun ps' => ?_, fun e' h => by cases h; exact ⟨_, rfl⟩⟩
      rcases ps' with _ | ⟨q, ps'⟩
      · simp
      · simp only [reduceCtorEq, List.cons.injEq, List.map_cons, Item.pair.injEq, ItemPart.key.injEq,
          List.forall_mem_cons, false_iff]
        rintro ⟨⟨⟨rfl, rfl⟩, -⟩, h, -⟩
        exact hk h
    | case5 x t hx =>
      refine ⟨fun ps' => ?_, fun e' h => by cases h; exact ⟨_, rfl⟩⟩
      rcases ps' with _ | ⟨q, ps'⟩
      · simp
      · simp only [reduceCtorEq, List.cons.injEq, List.map_cons, false_iff]
        rintro ⟨⟨h, -⟩, -⟩
        exact hx _ _ h
  obtain ⟨k1, k2⟩ := key items
  refine ⟨fun l => ?_, fun e h => ?_⟩
  · unfold listFromItems
    split
    · rename_i ps hps
      constructor
      · intro h
        cases h
        obtain ⟨h1, h2⟩ := (k1 ps).1 hps
        exact ⟨h1, h2, rfl, rfl, rfl, rfl, rfl, rfl, rfl⟩
      · rintro ⟨h1, h2, e1, e2, e3, e4, e5, e6, e7⟩
        have := (k1 l.pairs).2 ⟨h1, h2⟩
        rw [hps] at this
        cases l
        simp only [Except.ok.injEq] at this e1 e2 e3 e4 e5 e6 e7
        subst this e1 e2 e3 e4 e5 e6 e7
        rfl
    · rename_i e he
      simp only [reduceCtorEq, false_iff]
      rintro ⟨h1, h2, -⟩
      rw [(k1 l.pairs).2 ⟨h1, h2⟩] at he
      cases he
  · unfold listFromItems at h
    split at h
    · cases h
    · rename_i e' he
      cases h
      exact k2 _ he

/-- Non-vacuous: a pair; a pair the wrong way round. -/
example : (listFromItems [.pair (.key exPub) (.key exRsaPriv)] (py! "none") (py! "none") none).toOption.isSome = true ∧
    listFromItems [.pair (.key exPub) (.key exRsaPriv), .pair (.key exRsaPriv) (.key exPub)] (py! "none") (py! "none") none =
      .error (.valueError "Not a key pair") := ⟨by decide +kernel, rfl⟩

/-! ### C88: equality -/

/-- The pair has keys whose dictionaries have no repeated names, as dictionaries always do. -/
def Pair.Proper (p : Pair) : Prop := Key.Proper p.pub ∧ Key.Proper p.priv

theorem pairsEq_iff {s t : List Pair} : pairsEq s t = true ↔ List.Forall₂ (fun p q => p.eq q = true) s t := by
  induction s generalizing t with
  | nil => cases t <;> simp [pairsEq]
  | cons p s ih => cases t <;> simp [pairsEq, ih]

theorem pairEq_iff {p q : Pair} : p.eq q = true ↔ p.pub.eq q.pub = true ∧ p.priv.eq q.priv = true := by
  simp [Pair.eq]

/-- **C88** (equivalence). Comparing key lists is reflexive, symmetric and transitive, and depends on the pairs only. -/
theorem C88_equivalence (a b c : KeyList) (ha : ∀ p ∈ a.pairs, p.Proper) (hb : ∀ p ∈ b.pairs, p.Proper)
    (hc : ∀ p ∈ c.pairs, p.Proper) :
    a.eq a = true ∧ a.eq b = b.eq a ∧ (a.eq b = true → b.eq c = true → a.eq c = true) ∧
    ∀ b', b'.pairs = b.pairs → a.eq b' = a.eq b := by
  have sym : ∀ p q : Pair, p.Proper → q.Proper → p.eq q = true → q.eq p = true := by
    intro p q hp hq h
    rw [pairEq_iff] at h ⊢
    rw [(C80_equivalence q.pub p.pub p.pub hq.1 hp.1 hp.1).2.1, (C80_equivalence q.priv p.priv p.priv hq.2 hp.2 hp.2).2.1]
    exact h
  have symL : ∀ s t : List Pair, (∀ p ∈ s, p.Proper) → (∀ p ∈ t, p.Proper) →
      List.Forall₂ (fun p q => p.eq q = true) s t → List.Forall₂ (fun p q => p.eq q = true) t s := by
    intro s t hs ht h
    induction h with
    | nil => exact .nil
    | cons h1 _ ih =>
      have a1 := List.forall_mem_cons.1 hs
      have a2 := List.forall_mem_cons.1 ht
      exact .cons (sym _ _ a1.1 a2.1 h1) (ih a1.2 a2.2)
  refine ⟨?_, ?_, ?_, ?_⟩
  · unfold KeyList.eq
    rw [pairsEq_iff]
    generalize a.pairs = s at ha
    induction s with
    | nil => exact .nil
    | cons p s ih =>
      have a1 := List.forall_mem_cons.1 ha
      exact .cons (pairEq_iff.2 ⟨(C80_equivalence p.pub p.pub p.pub a1.1.1 a1.1.1 a1.1.1).1, (C80_equivalence p.priv p.priv p.priv a1.1.2 a1.1.2 a1.1.2).1⟩)
        (ih a1.2)
  · unfold KeyList.eq
    rw [Bool.eq_iff_iff, pairsEq_iff, pairsEq_iff]
    exact ⟨symL _ _ ha hb, symL _ _ hb ha⟩
  · unfold KeyList.eq
    rw [pairsEq_iff, pairsEq_iff, pairsEq_iff]
    intro h h'
    generalize a.pairs = s at *
    generalize b.pairs = t at *
    generalize c.pairs = u at *
    induction h generalizing u with
    | nil => cases h'; exact .nil
    | cons h1 _ ih =>
      cases h' with
      | cons g1 g2 =>
        have a1 := List.forall_mem_cons.1 ha
        have a2 := List.forall_mem_cons.1 hb
        have a3 := List.forall_mem_cons.1 hc
        rw [pairEq_iff] at h1 g1
        exact .cons (pairEq_iff.2 ⟨(C80_equivalence _ _ _ a1.1.1 a2.1.1 a3.1.1).2.2.1 h1.1 g1.1,
          (C80_equivalence _ _ _ a1.1.2 a2.1.2 a3.1.2).2.2.1 h1.2 g1.2⟩) (ih a1.2 a2.2 _ a3.2 g2)
  · intro b' h
    unfold KeyList.eq
    rw [h]

/-- Pairs that are packed in the same way. -/
def PacksAlike (p q : Pair) : Prop :=
  packPublicBytes p.pub = packPublicBytes q.pub ∧ packPublicBytes p.priv = packPublicBytes q.priv ∧
    packPrivateBytes p.priv = packPrivateBytes q.priv

theorem forall₂_at {α β : Type} {R : α → β → Prop} {s : List α} {t : List β} (h : List.Forall₂ R s t) :
    ∀ (n : Nat) a, s[n]? = some a → ∃ b, t[n]? = some b ∧ R a b := by
  induction h with
  | nil => intro n a h; simp at h
  | cons h1 _ ih =>
    intro n a h
    rcases n with _ | n
    · simp only [List.getElem?_cons_zero, Option.some.injEq] at h
      subst h
      exact ⟨_, by simp, h1⟩
    · exact ih n a (by simpa using h)

theorem pyIndex_forall₂ {s t : List Pair} (h : List.Forall₂ PacksAlike s t) (i : Int) :
    (∃ p q, pyIndex s i = .ok p ∧ pyIndex t i = .ok q ∧ PacksAlike p q) ∨
    (pyIndex s i = .error .indexError ∧ pyIndex t i = .error .indexError) := by
  rcases hs : pyIndex s i with e | p
  · right
    have e1 := pyIndex_error hs
    subst e1
    rcases ht : pyIndex t i with e | q
    · exact ⟨rfl, by rw [pyIndex_error ht]⟩
    · obtain ⟨n, hn, h1⟩ := pyIndex_ok.1 ht
      have hlen := h.length_eq
      have hn' := (List.getElem?_eq_some_iff.1 hn).1
      have : pyIndex s i = .ok (s[n]'(by omega)) := pyIndex_ok.2 ⟨n, by simp, by omega⟩
      rw [hs] at this
      cases this
  · left
    obtain ⟨n, hn, h1⟩ := pyIndex_ok.1 hs
    obtain ⟨q, hq, h2⟩ := forall₂_at h n p hn
    exact ⟨p, q, rfl, pyIndex_ok.2 ⟨n, hq, by rw [← h.length_eq]; exact h1⟩, h2⟩

theorem pubBytes_alike {s t : List Pair} (h : List.Forall₂ PacksAlike s t) (o : Bool) (I : List Int) :
    pubBytes s o I = pubBytes t o I := by
  induction I with
  | nil => rfl
  | cons i I ih =>
    unfold pubBytes
    rcases pyIndex_forall₂ h i with ⟨p, q, h1, h2, h3, h4, -⟩ | ⟨h1, h2⟩
    · rw [h1, h2, ih]
      show (packPublicBytes _ >>= _) = (packPublicBytes _ >>= _)
      cases o
      · simp only [Bool.false_eq_true, if_false]; rw [h3]
      · simp only [if_true]; rw [h4]
    · rw [h1, h2]
      rfl

theorem privBytes_alike {s t : List Pair} (h : List.Forall₂ PacksAlike s t) (I : List Int) :
    privBytes s I = privBytes t I := by
  induction I with
  | nil => rfl
  | cons i I ih =>
    unfold privBytes
    rcases pyIndex_forall₂ h i with ⟨p, q, h1, h2, -, -, h5⟩ | ⟨h1, h2⟩
    · rw [h1, h2, ih]
      show (packPrivateBytes _ >>= _) = (packPrivateBytes _ >>= _)
      rw [h5]
    · rw [h1, h2]
      rfl

/-- **C88** (congruence). Lists of constructed keys that compare equal and have the same header and options are packed
in the same way: same bytes or same exception, same prompts. -/
theorem C88_congruence (ext : Ext) (cr : Crypto) (inp : Inputs) (a b : KeyList)
    (ha : ∀ p ∈ a.pairs, p.Proper ∧ Constructed ext p.pub ∧ Constructed ext p.priv)
    (hb : ∀ p ∈ b.pairs, p.Proper ∧ Constructed ext p.pub ∧ Constructed ext p.priv)
    (h : a.eq b = true) (h1 : a.header = b.header) (h2 : a.kdfOptions = b.kdfOptions)
    (passphrase : Option Str) (indices : Option (List Int)) (override retain : Bool) :
    packKeyList cr inp a passphrase indices override retain = packKeyList cr inp b passphrase indices override retain := by
  have hf : List.Forall₂ PacksAlike a.pairs b.pairs := by
    unfold KeyList.eq at h
    rw [pairsEq_iff] at h
    generalize a.pairs = s at *
    generalize b.pairs = t at *
    induction h with
    | nil => exact .nil
    | cons g1 _ ih =>
      have a1 := List.forall_mem_cons.1 ha
      have a2 := List.forall_mem_cons.1 hb
      rw [pairEq_iff] at g1
      obtain ⟨-, p1, -, -⟩ := C80_congruence ext _ _ a1.1.1.1 a2.1.1.1 a1.1.2.1 a2.1.2.1 g1.1
      obtain ⟨-, p2, p3, -⟩ := C80_congruence ext _ _ a1.1.1.2 a2.1.1.2 a1.1.2.2 a2.1.2.2 g1.2
      exact .cons ⟨p1, p2, p3⟩ (ih a1.2 a2.2)
  rw [packKeyList_eq cr inp a passphrase indices override retain (Prod.mk.eta).symm rfl,
    packKeyList_eq cr inp b passphrase indices override retain (Prod.mk.eta).symm rfl, h1, h2, hf.length_eq]
  have e1 : ∀ I c k kc o, packFront a.pairs override I c k kc o = packFront b.pairs override I c k kc o := by
    intro I c k kc o
    unfold packFront
    rw [pubBytes_alike hf]
  have e2 : ∀ I c, packPlain inp a.pairs I c = packPlain inp b.pairs I c := by
    intro I c
    unfold packPlain
    rw [privBytes_alike hf]
  simp only [e1, e2]

/-- Non-vacuous: equal lists with values in different order; a list that is encrypted is equal to one that is not. -/
example : exList.eq (NewOp.copy.run exList) = true ∧ exList.eq ((NewOp.slice (some 1) none).run exList) = false ∧
    exList.eq { exList with pairs := exList.pairs.map (fun p =>
      { p with priv := { p.priv with params := { p.priv.params with data := p.priv.params.data.reverse } } }) } = true := by
  decide +kernel

end OSK
