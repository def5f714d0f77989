import Verif.Spec.Store
import Verif.Props.UserDict
/-
C103: keys share no state with each other or with the dictionaries they are made from.
-/
namespace OSK
open Spec

/-! ### Simulation -/

/-- `s'` has the dictionaries of `s`, unchanged, and perhaps more. -/
def Extends (s s' : Store) : Prop := s.length ≤ s'.length ∧ ∀ i, i < s.length → s'.getD i [] = s.getD i []

theorem Extends.refl (s : Store) : Extends s s := ⟨Nat.le_refl _, fun _ _ => rfl⟩

theorem Extends.append (s t : Store) : Extends s (s ++ t) :=
  ⟨by simp, fun i hi => by simp only [List.getD_eq_getElem?_getD, List.getElem?_append_left hi]⟩

theorem Extends.trans {s t u : Store} (h : Extends s t) (h' : Extends t u) : Extends s u :=
  ⟨Nat.le_trans h.1 h'.1, fun i hi => (h'.2 i (Nat.lt_of_lt_of_le hi h.1)).trans (h.2 i hi)⟩

theorem Extends.set {s t : Store} (h : Extends s t) {r : Nat} (hr : s.length ≤ r) (d : VDict) : Extends s (t.set r d) := by
  refine ⟨by simpa using h.1, fun i hi => ?_⟩
  rw [← h.2 i hi]
  have : r ≠ i := by omega
  simp only [List.getD_eq_getElem?_getD, List.getElem?_set_ne this]

/-- A computation on a store does what a computation on values does, and leaves the dictionaries of `s0` alone. -/
def Sim {α β : Type} (s0 s : Store) (m : StoreM α) (x : Eff β) (R : α → β → Store → Prop) : Prop :=
  Extends s0 (m s).2 ∧ (m s).1.log = x.log ∧
  match (m s).1.res, x.res with
  | .ok a, .ok b => R a b (m s).2
  | .error e, .error e' => e = e'
  | _, _ => False

theorem Sim.bind {α β γ δ : Type} {s0 s : Store} {m : StoreM α} {x : Eff β} {R : α → β → Store → Prop} {f : α → StoreM γ}
    {g : β → Eff δ} {R' : γ → δ → Store → Prop} (h : Sim s0 s m x R)
    (h' : ∀ a b s', Extends s0 s' → R a b s' → Sim s0 s' (f a) (g b) R') : Sim s0 s (m >>= f) (x >>= g) R' := by
  obtain ⟨h1, h2, h3⟩ := h
  show Sim s0 s (StoreM.bind m f) _ R'
  unfold Sim StoreM.bind
  generalize m s = r at h1 h2 h3
  obtain ⟨⟨l, r⟩, s'⟩ := r
  obtain ⟨l', r'⟩ := x
  dsimp only at h1 h2 h3
  subst h2
  rcases r with e | a <;> rcases r' with e' | b
  · cases (show e = e' from h3)
    exact ⟨h1, rfl, rfl⟩
  · exact False.elim h3
  · exact False.elim h3
  · obtain ⟨k1, k2, k3⟩ := h' _ _ _ h1 h3
    refine ⟨k1, ?_, ?_⟩
    · dsimp only; rw [k2]; rfl
    · exact k3

/-- A step of the store that values do not have. -/
theorem Sim.left {α β γ : Type} {s0 s s' : Store} {m : StoreM α} {a : α} (hm : m s = (⟨[], .ok a⟩, s')) {f : α → StoreM γ}
    {x : Eff β} {R : γ → β → Store → Prop} (h : Sim s0 s' (f a) x R) : Sim s0 s (m >>= f) x R := by
  show Sim s0 s (StoreM.bind m f) x R
  unfold Sim StoreM.bind
  rw [hm]
  exact h

theorem Sim.lift {α : Type} {s0 s : Store} (x : Eff α) (h : Extends s0 s) :
    Sim s0 s (StoreM.lift x) x (fun a b s' => a = b ∧ s' = s) := by
  unfold Sim StoreM.lift
  refine ⟨h, rfl, ?_⟩
  obtain ⟨l, r⟩ := x
  cases r
  · rfl
  · exact ⟨rfl, rfl⟩

theorem Sim.pure {α β : Type} {s0 s : Store} {a : α} {b : β} {R : α → β → Store → Prop} (h : Extends s0 s) (hr : R a b s) :
    Sim s0 s (Pure.pure a) (Pure.pure b) R := ⟨h, rfl, hr⟩

theorem StoreM.copy_apply (s : Store) (r : Nat) : StoreM.copy r s = (⟨[], .ok s.length⟩, s ++ [s.getD r []]) := rfl

theorem StoreM.alloc_apply (s : Store) (d : VDict) : StoreM.alloc d s = (⟨[], .ok s.length⟩, s ++ [d]) := rfl

theorem StoreM.read_apply (s : Store) (r : Nat) : StoreM.read r s = (⟨[], .ok (s.getD r [])⟩, s) := rfl

theorem StoreM.write_apply (s : Store) (r : Nat) (d : VDict) : StoreM.write r d s = (⟨[], .ok ()⟩, s.set r d) := rfl

theorem getD_append_new (s : Store) (d : VDict) : (s ++ [d]).getD s.length [] = d := by
  simp only [List.getD_eq_getElem?_getD, List.getElem?_append_right (Nat.le_refl _), Nat.sub_self]
  rfl

theorem getD_append_old (s t : Store) {i : Nat} (hi : i < s.length) : (s ++ t).getD i [] = s.getD i [] :=
  (Extends.append s t).2 i hi

/-- The references of a key. -/
def KeyRef.refs (k : KeyRef) : List Nat := [k.header, k.data, k.footer, k.clear]

/-- The key has dictionaries of its own: none of them is in `s0`, and they are four. -/
def KeyRef.Fresh (s0 s : Store) (k : KeyRef) : Prop := k.refs.Nodup ∧ ∀ r ∈ k.refs, s0.length ≤ r ∧ r < s.length

theorem newKeyRef_sim (ext : Ext) (kind : Kind) {s0 s : Store} {header params footer : Nat} {clear : Option Nat} (hs : Extends s0 s)
    (hh : header < s.length) (hp : params < s.length) (hf : footer < s.length) (hc : ∀ r ∈ clear, r < s.length) :
    Sim s0 s (newKeyRef ext kind header params footer clear)
      (mkKey ext kind (s.getD header []) (s.getD params []) (s.getD footer []) (clear.map (s.getD · [])))
      (fun k v s' => k.value s' = v ∧ k.Fresh s0 s') := by
  unfold newKeyRef mkKey mkKeyWith
  refine Sim.left (StoreM.copy_apply _ _) (Sim.left (StoreM.read_apply _ _) ?_)
  rw [getD_append_new]
  have e1 : Extends s0 (s ++ [s.getD header []]) := hs.trans (Extends.append _ _)
  refine Sim.bind (Sim.lift _ e1) ?_
  rintro a b s' - ⟨-, rfl⟩
  refine Sim.left (StoreM.read_apply _ _) ?_
  rw [getD_append_old _ _ hh]
  refine Sim.bind (Sim.lift _ e1) ?_
  rintro t _ s' - ⟨rfl, rfl⟩
  refine Sim.bind (Sim.lift _ e1) ?_
  rintro c _ s' - ⟨rfl, rfl⟩
  refine Sim.left (StoreM.copy_apply _ _) (Sim.left (StoreM.read_apply _ _) ?_)
  rw [getD_append_new, getD_append_old _ _ hp]
  have e2 : Extends s0 (s ++ [s.getD header []] ++ [s.getD params []]) := e1.trans (Extends.append _ _)
  have hpar : ∀ q l, (newParams ext c (s.getD params [])) = ⟨l, .ok q⟩ → q = ⟨c, s.getD params []⟩ := by
    intro q l h
    have h := congrArg Eff.res h
    unfold newParams newParamsWith at h
    rw [Eff.bind_res_ok_iff] at h
    obtain ⟨_, _, h⟩ := h
    exact (Except.ok.inj h).symm
  have hsim : Sim s0 (s ++ [s.getD header []] ++ [s.getD params []]) (StoreM.lift (newParams ext c (s.getD params [])))
      (newParams ext c (s.getD params []))
      (fun _ b s' => b = ⟨c, s.getD params []⟩ ∧ s' = s ++ [s.getD header []] ++ [s.getD params []]) := by
    unfold Sim StoreM.lift
    refine ⟨e2, rfl, ?_⟩
    generalize hq : newParams ext c (s.getD params []) = q
    obtain ⟨l, q⟩ := q
    cases q with
    | error e => rfl
    | ok q => exact ⟨hpar q l hq, rfl⟩
  refine Sim.bind hsim ?_
  rintro _ b s' - ⟨rfl, rfl⟩
  refine Sim.left (StoreM.copy_apply _ _) (Sim.left (StoreM.read_apply _ _) ?_)
  rw [getD_append_new]
  have hfoot : (s ++ [s.getD header []] ++ [s.getD params []]).getD footer [] = s.getD footer [] := by
    rw [List.append_assoc, getD_append_old _ _ hf]
  rw [hfoot]
  have e3 : Extends s0 (s ++ [s.getD header []] ++ [s.getD params []] ++ [s.getD footer []]) := e2.trans (Extends.append _ _)
  refine Sim.bind (Sim.lift _ e3) ?_
  rintro _ _ s' - ⟨-, rfl⟩
  have hl0 := hs.1
  have fin : ∀ d : VDict, Sim s0 (s ++ [s.getD header []] ++ [s.getD params []] ++ [s.getD footer []] ++ [d])
      (Pure.pure (KeyRef.mk kind c s.length (s ++ [s.getD header []]).length (s ++ [s.getD header []] ++ [s.getD params []]).length
        (s ++ [s.getD header []] ++ [s.getD params []] ++ [s.getD footer []]).length))
      (Pure.pure (Key.mk kind (s.getD header []) ⟨c, s.getD params []⟩ (s.getD footer []) d))
      (fun k v s' => k.value s' = v ∧ k.Fresh s0 s') := by
    intro d
    refine Sim.pure (e3.trans (Extends.append _ _)) ⟨?_, ?_, ?_⟩
    · unfold KeyRef.value
      dsimp only
      rw [getD_append_new]
      congr 1
      · simp only [List.append_assoc]
        rw [← List.append_assoc, getD_append_old _ _ (by simp), getD_append_new]
      · congr 1
        rw [List.append_assoc, getD_append_old _ _ (by simp), getD_append_new]
      · rw [getD_append_old _ _ (by simp), getD_append_new]
    · simp [KeyRef.refs]
    · intro r hr
      simp only [KeyRef.refs, List.mem_cons, List.not_mem_nil, or_false, List.length_append, List.length_cons, List.length_nil] at hr ⊢
      omega
  cases clear with
  | none => exact Sim.left (StoreM.alloc_apply _ _) (fin _)
  | some r =>
    refine Sim.left (StoreM.copy_apply _ _) ?_
    have : (s ++ [s.getD header []] ++ [s.getD params []] ++ [s.getD footer []]).getD r [] = s.getD r [] := by
      rw [List.append_assoc, List.append_assoc, getD_append_old _ _ (hc r rfl)]
    rw [this]
    exact fin _

theorem getD_set_self {s : Store} {r : Nat} (h : r < s.length) (d : VDict) : (s.set r d).getD r [] = d := by
  simp only [List.getD_eq_getElem?_getD, List.getElem?_set_self h, Option.getD_some]

theorem getD_set_ne (s : Store) {r i : Nat} (h : r ≠ i) (d : VDict) : (s.set r d).getD i [] = s.getD i [] := by
  simp only [List.getD_eq_getElem?_getD, List.getElem?_set_ne h]

theorem fromBytesRef_sim (ext : Ext) (kind : Kind) (b : Bytes) {s0 s : Store} {clear : Option Nat} (hs : Extends s0 s)
    (hc : ∀ r ∈ clear, r < s.length) :
    Sim s0 s (fromBytesRef ext kind b clear) (fromBytes ext kind b (clear.map (s.getD · [])))
      (fun k v s' => k.value s' = v ∧ k.Fresh s0 s') := by
  unfold fromBytesRef fromBytes fromBytesWith fromByteStreamWith
  generalize readKey kind (Stream.of b) = r
  obtain ⟨r, st⟩ := r
  cases r with
  | error e => exact ⟨hs, rfl, rfl⟩
  | ok q =>
    obtain ⟨header, params, footer⟩ := q
    dsimp only
    refine Sim.left (StoreM.alloc_apply _ _) (Sim.left (StoreM.alloc_apply _ _) (Sim.left (StoreM.alloc_apply _ _) ?_))
    have e3 : Extends s (s ++ [header] ++ [params] ++ [footer]) := by
      rw [List.append_assoc, List.append_assoc]
      exact Extends.append _ _
    have key := newKeyRef_sim ext kind (s0 := s0) (s := s ++ [header] ++ [params] ++ [footer]) (header := s.length)
      (params := (s ++ [header]).length) (footer := (s ++ [header] ++ [params]).length) (clear := clear) (hs.trans e3)
      (by simp) (by simp) (by simp) (fun r hr => Nat.lt_of_lt_of_le (hc r hr) e3.1)
    have g1 : (s ++ [header] ++ [params] ++ [footer]).getD s.length [] = header := by
      rw [List.append_assoc, getD_append_old _ _ (by simp), getD_append_new]
    have g2 : (s ++ [header] ++ [params] ++ [footer]).getD (s ++ [header]).length [] = params := by
      rw [getD_append_old _ _ (by simp), getD_append_new]
    have g3 : clear.map ((s ++ [header] ++ [params] ++ [footer]).getD · []) = clear.map (s.getD · []) := by
      cases clear with
      | none => rfl
      | some r => exact congrArg some (e3.2 r (hc r rfl))
    rw [g1, g2, getD_append_new, g3] at key
    refine Sim.bind key ?_
    rintro k v s' hs' ⟨rfl, hn, hk⟩
    by_cases hl : 0 < st.rest.length
    · rw [if_pos hl, if_pos hl]
      refine Sim.bind (Sim.lift _ hs') ?_
      rintro _ _ s'' - ⟨-, rfl⟩
      refine Sim.left (StoreM.read_apply _ _) (Sim.left (StoreM.write_apply _ _ _) ?_)
      refine Sim.pure (hs'.set (hk k.clear (by simp [KeyRef.refs])).1 _) ⟨?_, hn, ?_⟩
      · simp only [KeyRef.refs, List.nodup_cons, List.mem_cons, List.not_mem_nil, or_false, not_or] at hn
        unfold KeyRef.value
        congr 1
        · exact getD_set_ne _ (fun h => hn.1.2.2 h.symm) _
        · congr 1
          exact getD_set_ne _ (fun h => hn.2.1.2 h.symm) _
        · exact getD_set_ne _ (fun h => hn.2.2.1 h.symm) _
        · exact getD_set_self (hk k.clear (by simp [KeyRef.refs])).2 _
      · simpa using hk
    · rw [if_neg hl, if_neg hl]
      exact Sim.pure hs' ⟨rfl, hn, hk⟩

theorem fromStringRef_sim (ext : Ext) (kind : Kind) (t : Str) (s : Store) :
    Sim s s (fromStringRef ext kind t) (fromString ext kind t) (fun k v s' => k.value s' = v ∧ k.Fresh s s') := by
  unfold fromStringRef fromString
  refine Sim.bind (Sim.lift _ (.refl _)) ?_
  rintro typeClear _ s' - ⟨rfl, rfl⟩
  refine Sim.bind (Sim.lift _ (.refl _)) ?_
  rintro b64 _ s' - ⟨rfl, rfl⟩
  refine Sim.bind (Sim.lift _ (.refl _)) ?_
  rintro b _ s' - ⟨rfl, rfl⟩
  refine Sim.left (StoreM.alloc_apply _ _) ?_
  have key := fun d => fromBytesRef_sim ext kind b (s0 := s') (s := s' ++ [d]) (clear := some s'.length) (.append _ _) (by simp)
  simp only [Option.map_some, getD_append_new] at key
  refine Sim.bind (key _) ?_
  rintro k v s'' hs'' ⟨rfl, hk⟩
  refine Sim.left (StoreM.read_apply _ _) ?_
  refine Sim.bind (Sim.lift _ hs'') ?_
  rintro t' _ s3 - ⟨rfl, rfl⟩
  by_cases ht : t' ≠ .str typeClear
  · simp only [if_pos ht]
    refine Sim.bind (Sim.lift _ hs'') ?_
    rintro _ _ s3 - ⟨-, rfl⟩
    exact Sim.pure hs'' ⟨rfl, hk⟩
  · simp only [if_neg ht]
    exact Sim.left rfl (Sim.pure hs'' ⟨rfl, hk⟩)

/-! ### The invariant -/

/-- All references of a program. -/
def Objects.refs (o : Objects) : List Nat := o.dicts ++ o.keys.flatMap (·.refs)

/-- No two of them are the same. -/
def Objects.Apart (o : Objects) : Prop := o.refs.Nodup ∧ ∀ r ∈ o.refs, r < o.store.length

theorem KeyRef.part_mem (k : KeyRef) (p : KeyPart) : k.part p ∈ k.refs := by cases p <;> simp [KeyRef.part, KeyRef.refs]

theorem Objects.find_mem {o : Objects} {x : DictName} {r : Nat} (h : o.find x = some r) : r ∈ o.refs := by
  cases x with
  | own i => exact List.mem_append_left _ (List.mem_of_getElem? h)
  | part k p =>
    simp only [Objects.find, Option.map_eq_some_iff] at h
    obtain ⟨q, hq, rfl⟩ := h
    exact List.mem_append_right _ (List.mem_flatMap.2 ⟨q, List.mem_of_getElem? hq, q.part_mem p⟩)

theorem KeyRef.value_part (s : Store) (k : KeyRef) (p : KeyPart) : (k.value s).part p = s.getD (k.part p) [] := by cases p <;> rfl

theorem Objects.find_value (o : Objects) (x : DictName) : (Values.of o).find x = (o.find x).map (o.store.getD · []) := by
  cases x with
  | own i => simp [Values.find, Values.of, Objects.find]
  | part k p =>
    simp only [Values.find, Values.of, Objects.find, List.getElem?_map, Option.map_map]
    congr 1
    funext q
    exact q.value_part o.store p

theorem KeyRef.value_extends {s s' : Store} (h : Extends s s') {k : KeyRef} (hk : ∀ r ∈ k.refs, r < s.length) :
    k.value s' = k.value s := by
  simp only [KeyRef.refs, List.forall_mem_cons, List.not_mem_nil] at hk
  unfold KeyRef.value
  rw [h.2 _ hk.1, h.2 _ hk.2.1, h.2 _ hk.2.2.1, h.2 _ hk.2.2.2.1]

theorem Objects.dict_lt {o : Objects} (h : o.Apart) : ∀ r ∈ o.dicts, r < o.store.length :=
  fun r hr => h.2 r (List.mem_append_left _ hr)

theorem Objects.key_lt {o : Objects} (h : o.Apart) : ∀ k ∈ o.keys, ∀ r ∈ k.refs, r < o.store.length :=
  fun k hk r hr => h.2 r (List.mem_append_right _ (List.mem_flatMap.2 ⟨k, hk, hr⟩))

/-- A larger store changes no value. -/
theorem Objects.of_extends {o : Objects} (h : o.Apart) {s : Store} (hs : Extends o.store s) :
    Values.of { o with store := s } = Values.of o := by
  unfold Values.of
  congr 1
  · exact List.map_congr_left (fun r hr => hs.2 r (o.dict_lt h r hr))
  · exact List.map_congr_left (fun k hk => KeyRef.value_extends hs (o.key_lt h k hk))

theorem Objects.make_sim {o : Objects} (h : o.Apart) {m : StoreM KeyRef} {x : Eff Key}
    (hm : Sim o.store o.store m x (fun k v s' => k.value s' = v ∧ k.Fresh o.store s')) :
    (o.make m).1 = ((Values.of o).make x).1 ∧ Values.of (o.make m).2 = ((Values.of o).make x).2 ∧ (o.make m).2.Apart := by
  obtain ⟨h1, h2, h3⟩ := hm
  unfold Objects.make Values.make
  generalize m o.store = r at h1 h2 h3
  obtain ⟨⟨l, r⟩, s⟩ := r
  obtain ⟨l', r'⟩ := x
  dsimp only at h1 h2 h3
  subst h2
  rcases r with e | k <;> rcases r' with e' | v
  · cases (show e = e' from h3)
    exact ⟨rfl, o.of_extends h h1, h.1, fun r hr => Nat.lt_of_lt_of_le (h.2 r hr) h1.1⟩
  · exact False.elim h3
  · exact False.elim h3
  · obtain ⟨rfl, hn, hk⟩ := h3
    refine ⟨rfl, ?_, ?_, ?_⟩
    · dsimp only
      have := o.of_extends h h1
      unfold Values.of at this ⊢
      injection this with t1 t2
      simp only [List.map_append, List.map_cons, List.map_nil, t1, t2]
    · simp only [Objects.refs, List.flatMap_append, List.flatMap_cons, List.flatMap_nil, List.append_nil, ← List.append_assoc]
      refine List.nodup_append.2 ⟨h.1, hn, ?_⟩
      intro a ha b hb hab
      have := h.2 a ha
      have := (hk b hb).1
      omega
    · intro r hr
      simp only [Objects.refs, List.flatMap_append, List.flatMap_cons, List.flatMap_nil, List.append_nil, ← List.append_assoc] at hr
      rcases List.mem_append.1 hr with hr | hr
      · exact Nat.lt_of_lt_of_le (h.2 r hr) h1.1
      · exact (hk r hr).2

theorem map_set_getD {l : List Nat} (hn : l.Nodup) {s : Store} {i r : Nat} (hi : l[i]? = some r) (hr : r < s.length) (d : VDict) :
    l.map ((s.set r d).getD · []) = (l.map (s.getD · [])).set i d := by
  apply List.ext_getElem?
  intro j
  rw [List.getElem?_map]
  by_cases hj : i = j
  · subst hj
    have : i < (l.map (s.getD · [])).length := by
      have := List.getElem?_eq_some_iff.1 hi
      simpa using this.1
    rw [List.getElem?_set_self this, hi, Option.map_some, getD_set_self hr]
  · rw [List.getElem?_set_ne hj, List.getElem?_map]
    cases hq : l[j]? with
    | none => rfl
    | some q =>
      rw [Option.map_some, Option.map_some, getD_set_ne]
      intro hrq
      subst hrq
      obtain ⟨h1, e1⟩ := List.getElem?_eq_some_iff.1 hi
      obtain ⟨h2, e2⟩ := List.getElem?_eq_some_iff.1 hq
      have hp := List.pairwise_iff_getElem.1 hn
      rcases Nat.lt_or_gt_of_ne hj with hlt | hlt
      · exact hp i j h1 h2 hlt (e1.trans e2.symm)
      · exact hp j i h2 h1 hlt (e2.trans e1.symm)

theorem KeyRef.value_set_other {s : Store} {k : KeyRef} {r : Nat} (h : r ∉ k.refs) (d : VDict) : k.value (s.set r d) = k.value s := by
  simp only [KeyRef.refs, List.mem_cons, List.not_mem_nil, or_false, not_or] at h
  unfold KeyRef.value
  rw [getD_set_ne _ h.1, getD_set_ne _ h.2.1, getD_set_ne _ h.2.2.1, getD_set_ne _ h.2.2.2]

theorem KeyRef.value_set_part {s : Store} {k : KeyRef} (hn : k.refs.Nodup) (hk : ∀ r ∈ k.refs, r < s.length) (p : KeyPart) (d : VDict) :
    k.value (s.set (k.part p) d) = (k.value s).withPart d p := by
  have hself := getD_set_self (hk _ (k.part_mem p)) d
  simp only [KeyRef.refs, List.nodup_cons, List.mem_cons, List.not_mem_nil, or_false, not_or] at hn
  obtain ⟨⟨h1, h2, h3⟩, ⟨h4, h5⟩, h6, -⟩ := hn
  cases p <;> simp only [KeyRef.part, KeyRef.value, Key.withPart] at hself ⊢ <;> rw [hself]
  · rw [getD_set_ne _ h1, getD_set_ne _ h2, getD_set_ne _ h3]
  · rw [getD_set_ne _ (Ne.symm h1), getD_set_ne _ h4, getD_set_ne _ h5]
  · rw [getD_set_ne _ (Ne.symm h2), getD_set_ne _ (Ne.symm h4), getD_set_ne _ h6]
  · rw [getD_set_ne _ (Ne.symm h3), getD_set_ne _ (Ne.symm h5), getD_set_ne _ (Ne.symm h6)]

/-- A change of what one name names changes the value of that alone. -/
theorem Objects.of_set {o : Objects} (h : o.Apart) {x : DictName} {r : Nat} (hx : o.find x = some r) (d : VDict) :
    Values.of { o with store := o.store.set r d } = (Values.of o).put d x := by
  have hn := List.nodup_append.1 h.1
  have hr := h.2 r (o.find_mem hx)
  cases x with
  | own i =>
    unfold Values.of Values.put
    dsimp only
    congr 1
    · exact map_set_getD hn.1 hx hr d
    · refine List.map_congr_left (fun k hk => KeyRef.value_set_other (fun hm => ?_) d)
      exact hn.2.2 r (List.mem_of_getElem? hx) r (List.mem_flatMap.2 ⟨k, hk, hm⟩) rfl
  | part i p =>
    simp only [Objects.find, Option.map_eq_some_iff] at hx
    obtain ⟨k, hk, rfl⟩ := hx
    have hmem := List.mem_of_getElem? hk
    unfold Values.of Values.put
    dsimp only
    congr 1
    · refine List.map_congr_left (fun q hq => getD_set_ne _ (fun he => ?_) _)
      exact hn.2.2 q hq (k.part p) (List.mem_flatMap.2 ⟨k, hmem, k.part_mem p⟩) he.symm
    · apply List.ext_getElem?
      intro j
      rw [List.getElem?_modify, List.getElem?_map, List.getElem?_map]
      obtain ⟨hin, hdis⟩ := List.pairwise_flatMap.1 hn.2.1
      by_cases hj : i = j
      · subst hj
        rw [hk]
        simp only [Option.map_some, if_true, Option.map_eq_map]
        rw [KeyRef.value_set_part (hin k hmem) (o.key_lt h k hmem)]
      · cases hq : o.keys[j]? with
        | none => simp
        | some q =>
          simp only [Option.map_some, if_neg hj, Option.map_eq_map]
          congr 1
          apply KeyRef.value_set_other
          intro hm
          have hpm := k.part_mem p
          generalize k.part p = r at hm hpm
          obtain ⟨h1, rfl⟩ := List.getElem?_eq_some_iff.1 hk
          obtain ⟨h2, rfl⟩ := List.getElem?_eq_some_iff.1 hq
          have hp := List.pairwise_iff_getElem.1 hdis
          rcases Nat.lt_or_gt_of_ne hj with hlt | hlt
          · exact hp i j h1 h2 hlt _ hpm _ hm rfl
          · exact hp j i h2 h1 hlt _ hm _ hpm rfl

theorem findOpt_value (o : Objects) (c : Option DictName) :
    findOpt (Values.of o).find c = (findOpt o.find c).map (Option.map (o.store.getD · [])) := by
  cases c with
  | none => rfl
  | some x =>
    simp only [findOpt, o.find_value x, Option.map_map]
    congr 1

theorem findOpt_lt {o : Objects} (h : o.Apart) {c : Option DictName} {c' : Option Nat} (hc : findOpt o.find c = some c') :
    ∀ r ∈ c', r < o.store.length := by
  intro r hr
  cases c with
  | none => cases hc; cases hr
  | some x =>
    simp only [findOpt, Option.map_eq_some_iff] at hc
    obtain ⟨q, hq, rfl⟩ := hc
    cases hr
    exact h.2 _ (o.find_mem hq)

/-- One step. -/
theorem Objects.step_sim (ext : Ext) {o : Objects} (h : o.Apart) (c : Cmd) :
    (o.step ext c).1 = ((Values.of o).step ext c).1 ∧ Values.of (o.step ext c).2 = ((Values.of o).step ext c).2 ∧
    (o.step ext c).2.Apart := by
  cases c with
  | dict d =>
    refine ⟨rfl, ?_, ?_, ?_⟩
    · have := o.of_extends h (Extends.append o.store [d])
      simp only [Objects.step, Values.step]
      unfold Values.of at this ⊢
      injection this with t1 t2
      simp only [List.map_append, List.map_cons, List.map_nil, t1, t2, getD_append_new]
    · simp only [Objects.step, Objects.refs]
      obtain ⟨n1, n2, n3⟩ := List.nodup_append.1 h.1
      refine List.nodup_append.2 ⟨List.nodup_append.2 ⟨n1, by simp, ?_⟩, n2, ?_⟩
      · intro a ha b hb
        have := o.dict_lt h a ha
        simp only [List.mem_singleton] at hb
        omega
      · intro a ha b hb
        rcases List.mem_append.1 ha with ha | ha
        · exact n3 a ha b hb
        · have := h.2 b (List.mem_append_right _ hb)
          simp only [List.mem_singleton] at ha
          omega
    · intro r hr
      simp only [Objects.step, Objects.refs, List.append_assoc, List.mem_append, List.mem_singleton, List.length_append,
        List.length_singleton] at hr ⊢
      have := fun hr => h.2 r (List.mem_append.2 hr)
      rcases hr with hr | hr | hr
      · have := this (.inl hr); omega
      · omega
      · have := this (.inr hr); omega
  | key kind hd p f c =>
    simp only [Objects.step, Values.step, o.find_value, findOpt_value]
    cases e1 : o.find hd with
    | none => exact ⟨rfl, rfl, h⟩
    | some r1 =>
      cases e2 : o.find p with
      | none => exact ⟨rfl, rfl, h⟩
      | some r2 =>
        cases e3 : o.find f with
        | none => exact ⟨rfl, rfl, h⟩
        | some r3 =>
          cases e4 : findOpt o.find c with
          | none => exact ⟨rfl, rfl, h⟩
          | some r4 =>
            exact o.make_sim h (newKeyRef_sim ext kind (.refl _) (h.2 _ (o.find_mem e1)) (h.2 _ (o.find_mem e2)) (h.2 _ (o.find_mem e3))
              (findOpt_lt h e4))
  | parse kind b c =>
    simp only [Objects.step, Values.step, findOpt_value]
    cases e4 : findOpt o.find c with
    | none => exact ⟨rfl, rfl, h⟩
    | some r4 => exact o.make_sim h (fromBytesRef_sim ext kind b (.refl _) (findOpt_lt h e4))
  | line kind s => exact o.make_sim h (fromStringRef_sim ext kind s o.store)
  | change x op =>
    simp only [Objects.step, Values.step, o.find_value]
    cases e1 : o.find x with
    | none => exact ⟨rfl, rfl, h⟩
    | some r =>
      refine ⟨rfl, ?_, ?_, ?_⟩
      · exact o.of_set h e1 _
      · exact h.1
      · intro r' hr'
        simpa using h.2 r' hr'
  | packPublic k =>
    simp only [Objects.step, Values.step, Values.of, List.getElem?_map]
    cases o.keys[k]? <;> exact ⟨rfl, rfl, h⟩
  | packPrivate k =>
    simp only [Objects.step, Values.step, Values.of, List.getElem?_map]
    cases o.keys[k]? <;> exact ⟨rfl, rfl, h⟩
  | equal k k' =>
    simp only [Objects.step, Values.step, Values.of, List.getElem?_map]
    cases o.keys[k]? <;> cases o.keys[k']? <;> exact ⟨rfl, rfl, h⟩
  | list l => exact ⟨rfl, rfl, h⟩
  | derive i how => exact ⟨rfl, rfl, h⟩

theorem Objects.run_apart (ext : Ext) {o : Objects} (h : o.Apart) (prog : List Cmd) : (o.run ext prog).2.Apart := by
  induction prog generalizing o with
  | nil => exact h
  | cons c t ih => exact ih (Objects.step_sim ext h c).2.2

theorem Objects.empty_apart : Objects.Apart {} := ⟨List.nodup_nil, fun _ h => nomatch h⟩

theorem Objects.run_sim (ext : Ext) {o : Objects} (h : o.Apart) (prog : List Cmd) :
    (o.run ext prog).1 = ((Values.of o).run ext prog).1 ∧ Values.of (o.run ext prog).2 = ((Values.of o).run ext prog).2 := by
  induction prog generalizing o with
  | nil => exact ⟨rfl, rfl⟩
  | cons c t ih =>
    obtain ⟨h1, h2, h3⟩ := Objects.step_sim ext h c
    have := ih h3
    simp only [Objects.run, Values.run, h1, ← h2, this.1, this.2]
    exact ⟨trivial, trivial⟩

/-! ### C103 -/

/-- A program sees what it would see if its dictionaries and keys were values that share nothing; and so are the contents of all its objects
afterwards. -/
theorem C103_values (ext : Ext) (prog : List Cmd) :
    (Objects.run ext {} prog).1 = (Values.run ext {} prog).1 ∧ Values.of (Objects.run ext {} prog).2 = (Values.run ext {} prog).2 :=
  Objects.run_sim ext Objects.empty_apart prog

/-- The entries of the dictionary that a name names now. -/
def Objects.now (o : Objects) (x : DictName) : Option VDict := (o.find x).map (o.store.getD · [])

/-- After any program, a change of one dictionary (of the program, or a part of a key) changes no other one. -/
theorem C103_change (ext : Ext) (prog : List Cmd) (x y : DictName) (hxy : x ≠ y) (op : DictOp) :
    let o := (Objects.run ext {} prog).2
    (o.step ext (.change x op)).2.now y = o.now y := by
  intro o
  have h : o.Apart := Objects.run_apart ext Objects.empty_apart prog
  have h2 := (Objects.step_sim ext h (.change x op)).2.1
  unfold Objects.now
  rw [← Objects.find_value, ← Objects.find_value, h2]
  simp only [Values.step]
  cases (Values.of o).find x with
  | none => rfl
  | some d =>
    dsimp only
    generalize (match x with
      | .own _ => op.runDict d
      | .part _ p => op.runPart d p).2 = d'
    cases x with
    | own i =>
      cases y with
      | own j =>
        have : i ≠ j := fun he => hxy (by rw [he])
        simp only [Values.put, Values.find, List.getElem?_set_ne this]
      | part k p => rfl
    | part i p =>
      cases y with
      | own j => rfl
      | part j q =>
        simp only [Values.put, Values.find, List.getElem?_modify]
        by_cases hij : i = j
        · subst hij
          simp only [if_true, Option.map_eq_map, Option.map_map]
          congr 1
          funext k
          cases p <;> cases q <;> first | rfl | exact absurd rfl hxy
        · simp only [if_neg hij, id_map']

/-- After any program, making a key (from dictionaries, from bytes or from a line; whether or not it works) changes no dictionary that was
there before, and makes nothing but at most one key, at the end. -/
theorem C103_make (ext : Ext) (prog : List Cmd) (c : Cmd)
    (hc : (∃ k h p f cl, c = .key k h p f cl) ∨ (∃ k b cl, c = .parse k b cl) ∨ ∃ k s, c = .line k s) (y : DictName) :
    let o := (Objects.run ext {} prog).2
    let o' := (o.step ext c).2
    (∀ d, o.now y = some d → o'.now y = some d) ∧ o'.dicts = o.dicts ∧ o'.lists = o.lists ∧
      (o'.keys = o.keys ∨ ∃ k, o'.keys = o.keys ++ [k]) := by
  intro o
  have h : o.Apart := Objects.run_apart ext Objects.empty_apart prog
  have h2 := (Objects.step_sim ext h c).2.1
  have hmake : ∀ x : Eff Key, ((Values.of o).make x).2.dicts = (Values.of o).dicts ∧
      (((Values.of o).make x).2.keys = (Values.of o).keys ∨ ∃ k, ((Values.of o).make x).2.keys = (Values.of o).keys ++ [k]) := by
    intro x
    unfold Values.make
    cases x.res with
    | ok k => exact ⟨rfl, .inr ⟨k, rfl⟩⟩
    | error e => exact ⟨rfl, .inl rfl⟩
  have hval : ((Values.of o).step ext c).2.dicts = (Values.of o).dicts ∧
      (((Values.of o).step ext c).2.keys = (Values.of o).keys ∨
        ∃ k, ((Values.of o).step ext c).2.keys = (Values.of o).keys ++ [k]) := by
    rcases hc with ⟨k, hd, p, f, cl, rfl⟩ | ⟨k, b, cl, rfl⟩ | ⟨k, s, rfl⟩
    · simp only [Values.step]
      split
      · exact hmake _
      · exact ⟨rfl, .inl rfl⟩
    · simp only [Values.step]
      split
      · exact hmake _
      · exact ⟨rfl, .inl rfl⟩
    · exact hmake _
  have hobj : ∀ m : StoreM KeyRef, (o.make m).2.dicts = o.dicts ∧ (o.make m).2.lists = o.lists ∧
      ((o.make m).2.keys = o.keys ∨ ∃ k, (o.make m).2.keys = o.keys ++ [k]) := by
    intro m
    unfold Objects.make
    generalize m o.store = r
    obtain ⟨⟨l, r⟩, s⟩ := r
    cases r with
    | error e => exact ⟨rfl, rfl, .inl rfl⟩
    | ok k => exact ⟨rfl, rfl, .inr ⟨k, rfl⟩⟩
  intro o'
  refine ⟨?_, ?_⟩
  · intro d hd
    unfold Objects.now at hd ⊢
    rw [← Objects.find_value] at hd ⊢
    rw [h2]
    cases y with
    | own i =>
      simp only [Values.find] at hd ⊢
      rw [hval.1]; exact hd
    | part i p =>
      simp only [Values.find, Option.map_eq_some_iff] at hd ⊢
      obtain ⟨k, hk, rfl⟩ := hd
      refine ⟨k, ?_, rfl⟩
      rcases hval.2 with he | ⟨k', he⟩
      · rw [he]; exact hk
      · rw [he, List.getElem?_append_left (List.getElem?_eq_some_iff.1 hk).1]; exact hk
  · show o'.dicts = o.dicts ∧ o'.lists = o.lists ∧ (o'.keys = o.keys ∨ ∃ k, o'.keys = o.keys ++ [k])
    rcases hc with ⟨k, hd, p, f, cl, rfl⟩ | ⟨k, b, cl, rfl⟩ | ⟨k, s, rfl⟩
    · show (o.step ext _).2.dicts = _ ∧ (o.step ext _).2.lists = _ ∧ _
      simp only [o', Objects.step]
      split
      · exact hobj _
      · exact ⟨rfl, rfl, .inl rfl⟩
    · simp only [o', Objects.step]
      split
      · exact hobj _
      · exact ⟨rfl, rfl, .inl rfl⟩
    · exact hobj _

/-- Lists hold the keys themselves: after any program, a change of a part of a key is seen wherever a list has that key, and nowhere else. -/
theorem C103_lists (ext : Ext) (prog : List Cmd) (k : Nat) (p : KeyPart) (op : DictOp) (i : Nat) :
    let o := (Objects.run ext {} prog).2
    let key := fun q => o.keys[q]?.map (·.value o.store)
    let changed := (key k).map (fun v => v.withPart (op.runPart (v.part p) p).2 p)
    let seen := fun q => if q = k then changed else key q
    (o.step ext (.change (.part k p) op)).2.listValue i = o.lists[i]?.map (·.map (fun e => (seen e.1, seen e.2))) := by
  intro o key changed seen
  have h : o.Apart := Objects.run_apart ext Objects.empty_apart prog
  have h2 := (Objects.step_sim ext h (.change (.part k p) op)).2.1
  generalize ho' : (o.step ext (.change (.part k p) op)).2 = o' at h2
  have hkeys : ∀ q, o'.keys[q]?.map (·.value o'.store) = seen q := by
    intro q
    have e := congrArg (fun v : Values => v.keys[q]?) h2
    simp only [Values.of, List.getElem?_map] at e
    rw [e]
    simp only [Values.step, Values.find, List.getElem?_map]
    show _ = if q = k then changed else key q
    cases hk : o.keys[k]? with
    | none =>
      simp only [Option.map_none]
      by_cases hq : q = k
      · subst hq
        rw [if_pos rfl]
        show _ = (Option.map _ _).map _
        simp [List.getElem?_map, hk]
      · rw [if_neg hq]
        simp [key]
    | some v =>
      simp only [Option.map_some, Values.put, List.getElem?_modify, List.getElem?_map]
      by_cases hq : q = k
      · subst hq
        rw [if_pos rfl]
        simp [changed, key, hk]
      · have hq' : ¬ k = q := fun e => hq e.symm
        rw [if_neg hq]
        simp [key, hq']
  have hl : o'.lists = o.lists := by
    subst ho'
    simp only [Objects.step]
    split <;> rfl
  unfold Objects.listValue
  rw [hl]
  simp only [hkeys]

/-- The dictionaries of a program and the parts of keys that are dictionaries give their last item to `popitem`; the parameters, which are
a `UserDict`, their first one.  An empty one has nothing to give. -/
theorem C103_popitem (d : VDict) (k : Str) (v : Val) (p : KeyPart) :
    DictOp.runDict (d ++ [(k, v)]) .popItem = (.ok (.item k v), d) ∧
    (p ≠ .params → DictOp.runPart (d ++ [(k, v)]) .popItem p = (.ok (.item k v), d)) ∧
    (k ∉ d.map Prod.fst → DictOp.runPart ((k, v) :: d) .popItem .params = (.ok (.item k v), d)) ∧
    DictOp.runDict [] .popItem = (.error (.keyError none), []) ∧ DictOp.runPart [] .popItem p = (.error (.keyError none), []) := by
  have h : DictOp.runDict (d ++ [(k, v)]) .popItem = (.ok (.item k v), d) := by simp [DictOp.runDict]
  refine ⟨h, fun hp => ?_, fun hn => ?_, rfl, ?_⟩
  · cases p with
    | params => exact absurd rfl hp
    | header => exact h
    | footer => exact h
    | clear => exact h
  · have : ddel ((k, v) :: d) k = d := by
      unfold ddel
      rw [List.filter_cons_of_neg (by simp), List.filter_eq_self]
      intro e he
      simpa using fun h => hn (List.mem_map.2 ⟨e, he, h⟩)
    simp only [DictOp.runPart, DictOp.run, dpopItem, this]
  · cases p <;> rfl

/-- Derived lists: after any program, a list that is a slice, a sum, a multiple or a copy of others is a new one at the end, with the keys
that Python's lists would have. -/
theorem C103_derive (ext : Ext) (prog : List Cmd) (i : Nat) (how : Derive) :
    let o := (Objects.run ext {} prog).2
    let o' := (o.step ext (.derive i how)).2
    (∀ j < o.lists.length, o'.listValue j = o.listValue j) ∧
    ∀ l, o.listValue i = some l →
      match how with
      | .copy => o'.listValue o.lists.length = some l
      | .add j => o'.listValue o.lists.length = (o.listValue j).map (l ++ ·)
      | .mul n => o'.listValue o.lists.length = some ((List.replicate n.toNat l).flatten)
      | .slice a b => ∀ a' b' : Nat, BoundAt l.length a 0 a' → BoundAt l.length b l.length b' →
          o'.listValue o.lists.length = some ((l.take b').drop a') := by
  intro o o'
  have hk : o'.keys = o.keys := rfl
  have hs : o'.store = o.store := rfl
  have hl : o'.lists = (addList o.lists (o.lists[i]?.bind (fun l => deriveList o.lists l how))).2 := rfl
  refine ⟨fun j hj => ?_, fun l h => ?_⟩
  · unfold Objects.listValue
    rw [hk, hs, hl]
    unfold addList
    split
    · rw [List.getElem?_append_left hj]
    · rfl
  · unfold Objects.listValue at h
    obtain ⟨m, hm, rfl⟩ := Option.map_eq_some_iff.1 h
    rw [hm, Option.bind_some] at hl
    have hnew : ∀ m', o'.lists = o.lists ++ [m'] → o'.listValue o.lists.length =
        some (m'.map (fun p => (o.keys[p.1]?.map (·.value o.store), o.keys[p.2]?.map (·.value o.store)))) := by
      intro m' hm'
      unfold Objects.listValue
      rw [hm', hk, hs]
      simp
    cases how with
    | copy => exact hnew _ hl
    | mul n =>
      rw [hnew _ hl, listMul, List.map_flatten, List.map_replicate]
    | add j =>
      dsimp only
      change o'.lists = (addList o.lists (o.lists[j]?.map (m ++ ·))).2 at hl
      cases hj : o.lists[j]? with
      | none =>
        rw [hj] at hl
        have hl : o'.lists = o.lists := hl
        unfold Objects.listValue
        rw [hj, hl]
        simp
      | some m2 =>
        rw [hj] at hl
        rw [hnew _ hl]
        unfold Objects.listValue
        rw [hj]
        simp
    | slice a b =>
      intro a' b' ha hb
      rw [hnew _ hl]
      simp only [List.length_map] at ha hb
      have hbound : ∀ (x : Option Int) (d y : Nat), d ≤ m.length → BoundAt m.length x d y → sliceBound m.length (x.getD d) = min y m.length := by
        intro x d y hd hx
        cases hx with
        | absent => simp only [Option.getD_none, sliceBound]; split <;> omega
        | front n => simp only [Option.getD_some, sliceBound]; split <;> omega
        | back h => simp only [Option.getD_some, sliceBound]; split <;> omega
        | before h => simp only [Option.getD_some, sliceBound]; split <;> omega
      have h1 := hbound a 0 a' (by omega) ha
      have h2 := hbound b m.length b' (by omega) hb
      rw [sliceOpt, slice]
      rw [show ((0 : Nat) : Int) = 0 from rfl] at h1
      rw [h1, h2, ← List.map_take, ← List.map_drop]
      congr 2
      rw [← List.take_eq_take_min]
      rcases Nat.le_total a' m.length with h | h
      · rw [Nat.min_eq_left h]
      · rw [Nat.min_eq_right h, List.drop_eq_nil_of_le (by simp), List.drop_eq_nil_of_le (by simp; omega)]

/-- A program: a key is made from three dictionaries, a second key from the parts of the first one; then the program changes its dictionary,
the comment of the second key, and both lists of the first key are looked at. -/
def exProg : List Cmd := [
  .dict [(py! "key_type", .str (py! "ssh-ed25519"))],
  .dict [(py! "public", .bytes (List.replicate 32 7))],
  .dict [],
  .key .pub (.own 0) (.own 1) (.own 2) (some (.own 2)),
  .key .pub (.part 0 .header) (.part 0 .params) (.part 0 .footer) (some (.part 0 .clear)),
  .list [(0, 0), (1, 1)],
  .derive 0 (.slice (some 1) none),
  .change (.own 1) .clear,
  .change (.part 1 .clear) (.setItem (py! "comment") (.str [0x61]))]

/-- Both keys are there, the first key has its parameters still, and only the second key has the comment; the list derived from the first one
shows it, as the first one does. -/
example : ∃ o, o = (Objects.run exExt {} exProg).2 ∧
    o.keys.length = 2 ∧ o.now (.own 1) = some [] ∧
    o.now (.part 0 .params) = some [(py! "public", .bytes (List.replicate 32 7))] ∧
    o.now (.part 1 .params) = o.now (.part 0 .params) ∧
    o.now (.part 0 .clear) = some [] ∧ o.now (.part 1 .clear) = some [(py! "comment", .str [0x61])] ∧
    (o.listValue 1).map (·.map (fun e => e.1.map (·.clear))) = some [some [(py! "comment", .str [0x61])]] ∧
    (o.listValue 0).map (·.map (fun e => e.1.map (·.clear))) = some [some [], some [(py! "comment", .str [0x61])]] := by
  refine ⟨_, rfl, ?_, ?_, ?_, ?_, ?_, ?_, ?_, ?_⟩ <;> decide +kernel

end OSK
