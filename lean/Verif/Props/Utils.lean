import Verif.Lemmas.Utils
import Verif.Model.Key
/-
C118: method resolution, abstract classes and static properties (utils.py).
-/
namespace OSK
open Spec

/-! ### Spec -/

namespace Spec
open Utils

/-- The first class in an order that has an attribute of the name binds it to `a`. -/
def Finds (w : World) (order : List Nat) (name : Str) (a : Attr) : Prop :=
  ∃ pre d post x, order = pre ++ d :: post ∧ (∀ e ∈ pre, ∀ y, w[e]? = some y → name ∉ dkeys y.dict) ∧
    w[d]? = some x ∧ dget x.dict name = some a

/-- An order that suits a class statement with these bases. -/
structure Suits (w : World) (bs : List Nat) (order : List Nat) : Prop where
  nodup : order.Nodup
  bases : bs.Sublist order
  orders : ∀ b ∈ bs, ∀ y, w[b]? = some y → y.mro.Sublist order

/-- Class bodies bind a name once; classes with abstract methods have the metaclass `ABCMeta`; a name of an abstract method is not
used for a static property elsewhere. -/
structure Tidy (w : World) : Prop where
  keys : ∀ x ∈ w, (dkeys x.dict).Nodup
  abcs : ∀ x ∈ w, ∀ name v, dget x.dict name = some (.method true v) → x.abcMeta = true
  props : ∀ x ∈ w, ∀ name v, dget x.dict name = some (.method true v) → ∀ y ∈ w, ∀ g, dget y.dict name ≠ some (.prop g)

end Spec

namespace Utils

/-! ### Lookup -/

theorem sublist_eq {s t : List Nat} (h : s.Sublist t) (hn : t.Nodup) (hs : t ⊆ s) : s = t := by
  induction h with
  | slnil => rfl
  | cons a h ih => exact absurd (h.subset (hs List.mem_cons_self)) (List.nodup_cons.1 hn).1
  | cons_cons a h ih =>
    rw [List.nodup_cons] at hn
    rw [ih hn.2 (fun x hx => ?_)]
    rcases List.mem_cons.1 (hs (List.mem_cons_of_mem _ hx)) with rfl | h'
    · exact absurd hx hn.1
    · exact h'

theorem lookup_iff {w : World} {order : List Nat} {name : Str} {a : Attr} : lookup w order name = some a ↔ Finds w order name a := by
  unfold lookup
  rw [List.findSome?_eq_some_iff]
  constructor
  · rintro ⟨pre, d, post, rfl, h1, h2⟩
    cases hx : w[d]? with
    | none => simp [dictOf, hx] at h1
    | some x =>
      refine ⟨pre, d, post, x, rfl, fun e he y hy => ?_, hx, by simpa [dictOf, hx] using h1⟩
      rw [← dget_eq_none_iff]
      simpa [dictOf, hy] using h2 e he
  · rintro ⟨pre, d, post, x, rfl, h1, h2, h3⟩
    refine ⟨pre, d, post, rfl, by simpa [dictOf, h2] using h3, fun e he => ?_⟩
    cases hy : w[e]? with
    | none => simp [dictOf, hy]
    | some y => simpa [dictOf, hy] using dget_eq_none_iff.2 (h1 e he y hy)

theorem lookup_congr {w w' : World} {order : List Nat} (h : ∀ c ∈ order, dictOf w c = dictOf w' c) (name : Str) :
    lookup w order name = lookup w' order name := by
  unfold lookup
  induction order with
  | nil => rfl
  | cons c t ih =>
    rw [List.findSome?_cons, List.findSome?_cons, h c List.mem_cons_self, ih (fun d hd => h d (List.mem_cons_of_mem _ hd))]

theorem dictOf_old {w : World} {x : ClassObj} {c : Nat} (h : c < w.length) : dictOf (w ++ [x]) c = dictOf w c := by
  unfold dictOf
  rw [List.getElem?_append_left h]

theorem dictOf_new {w : World} {x : ClassObj} : dictOf (w ++ [x]) w.length = x.dict := by
  unfold dictOf
  rw [List.getElem?_concat_length]
  rfl

/-- The order of a base finds the same as the whole order, if the class in question is in it. -/
theorem lookup_sublist {w : World} {l s : List Nat} (hs : s.Sublist l) (hn : l.Nodup) {name : Str} {a : Attr} {pre post : List Nat}
    {d : Nat} (hl : l = pre ++ d :: post) (hd : dget (dictOf w d) name = some a)
    (hpre : ∀ e ∈ pre, dget (dictOf w e) name = none) (hds : d ∈ s) : lookup w s name = some a := by
  subst hl
  rw [List.sublist_append_iff] at hs
  obtain ⟨s1, s2, rfl, h1, h2⟩ := hs
  have hn' := List.nodup_append.1 hn
  have hd1 : d ∉ s1 := fun h => hn'.2.2 d (h1.subset h) d List.mem_cons_self rfl
  rcases sublist_cons h2 (List.nodup_cons.1 hn'.2.1).1 with ⟨h, -⟩ | ⟨t, rfl, -, -⟩
  · rcases List.mem_append.1 hds with h' | h'
    · exact absurd h' hd1
    · exact absurd h' h
  · unfold lookup
    rw [List.findSome?_eq_some_iff]
    exact ⟨s1, d, t, rfl, hd, fun e he => hpre e (h1.subset he)⟩

theorem getAttr_callable {w : World} {order : List Nat} {n : Nat} {name : Str} {a : Bool} {v : Val} :
    getAttrAlong w order (n + 1) name = .ok (.callable a v) ↔ lookup w order name = some (.method a v) := by
  rw [getAttrAlong]
  cases h : lookup w order name with
  | none => simp
  | some x =>
    cases x with
    | method a' v' => simp
    | value v' => simp
    | prop g =>
      simp only [Option.some.injEq, reduceCtorEq, iff_false]
      cases (getAttrAlong w order n g).bind call <;> simp [Except.map]

theorem stillAbstract_skip {w : World} {order : List Nat} {x name : Str} {t names : List Str}
    (hx : ∀ v, lookup w order x ≠ some (.method true v))
    (ih : name ∈ names ↔ name ∈ t ∧ ∃ v, lookup w order name = some (.method true v)) :
    name ∈ names ↔ (name = x ∨ name ∈ t) ∧ ∃ v, lookup w order name = some (.method true v) := by
  rw [ih]
  refine ⟨fun ⟨h1, h2⟩ => ⟨.inr h1, h2⟩, ?_⟩
  rintro ⟨rfl | h1, v, h2⟩
  · exact absurd h2 (hx v)
  · exact ⟨h1, v, h2⟩

theorem stillAbstract_ok {w : World} {order : List Nat} : ∀ {l names : List Str}, stillAbstract w order l = .ok names →
    ∀ name, name ∈ names ↔ name ∈ l ∧ ∃ v, lookup w order name = some (.method true v)
  | [], names, h, name => by cases h; simp
  | x :: t, names, h, name => by
    unfold stillAbstract at h
    split at h
    · rename_i v hv
      have hv : lookup w order x = some (.method true v) := getAttr_callable.1 hv
      cases ht : stillAbstract w order t with
      | error e => rw [ht] at h; cases h
      | ok m =>
        rw [ht] at h; cases h
        have ih := stillAbstract_ok ht name
        rw [List.mem_cons, List.mem_cons, ih]
        constructor
        · rintro (rfl | ⟨h1, h2⟩)
          · exact ⟨.inl rfl, _, hv⟩
          · exact ⟨.inr h1, h2⟩
        · rintro ⟨h1 | h1, h2⟩
          · exact .inl h1
          · exact .inr ⟨h1, h2⟩
    · rename_i g hg' hg
      refine (stillAbstract_skip (fun v hv => ?_) (stillAbstract_ok h name)).trans (by rw [List.mem_cons])
      have h3 := (getAttr_callable (n := 999)).2 hv
      change getAttrAlong w order limit x = _ at h3
      rw [hg] at h3
      exact hg' v (Except.ok.inj h3)
    · rename_i hg
      refine (stillAbstract_skip (fun v hv => ?_) (stillAbstract_ok h name)).trans (by rw [List.mem_cons])
      have h3 := (getAttr_callable (n := 999)).2 hv
      change getAttrAlong w order limit x = _ at h3
      rw [hg] at h3
      cases h3
    · cases h

/-! ### Abstract methods -/

/-- `__abstractmethods__` are the names that are found to be abstract. -/
def AbsGood (w : World) : Prop := ∀ (c : Nat) (x : ClassObj), w[c]? = some x → x.abcMeta = true →
  ∀ name, name ∈ x.abstracts.getD [] ↔ ∃ v, lookup w x.mro name = some (.method true v)

theorem abstractsOf_eq {w : World} {c : Nat} {x : ClassObj} (h : w[c]? = some x) : abstractsOf w c = x.abstracts.getD [] := by
  unfold abstractsOf; rw [h]; rfl

theorem tidy_old {w : World} {x : ClassObj} (h : Tidy (w ++ [x])) : Tidy w :=
  ⟨fun y hy => h.keys y (List.mem_append_left _ hy), fun y hy => h.abcs y (List.mem_append_left _ hy),
    fun y hy name v hv z hz => h.props y (List.mem_append_left _ hy) name v hv z (List.mem_append_left _ hz)⟩

theorem lookup_cons {w : World} {c : Nat} {l : List Nat} {name : Str} :
    lookup w (c :: l) name = (dget (dictOf w c) name).or (lookup w l name) := by
  unfold lookup
  rw [List.findSome?_cons]
  cases dget (dictOf w c) name <;> rfl

theorem mem_of_get {w : World} {c : Nat} {x : ClassObj} (h : w[c]? = some x) : x ∈ w := List.mem_of_getElem? h

/-- A name that a list of bases finds abstract is abstract in one of them. -/
theorem abstract_base {w : World} (hw : Good w) (ht : Tidy w) (ha : AbsGood w) {bases l : List Nat} (hlt : ∀ b ∈ bases, b < w.length)
    (hl : mroOfBases w bases = .ok l) {name : Str} {v : Val} (h : lookup w l name = some (.method true v)) :
    name ∈ bases.flatMap (abstractsOf w) := by
  obtain ⟨h1, h2, h3, h4⟩ := mroOfBases_ok hw hlt hl
  have hf := h
  unfold lookup at hf
  rw [List.findSome?_eq_some_iff] at hf
  obtain ⟨pre, d, post, rfl, hd, hpre⟩ := hf
  obtain ⟨b, hb, hbd⟩ := (h4 d).1 (by simp)
  obtain ⟨y, hy⟩ : ∃ y, w[b]? = some y := ⟨_, List.getElem?_eq_getElem (hlt b hb)⟩
  have hdy := ((hw.ordered b y hy).mem d).2 hbd
  have hs := lookup_sublist (h3 b hb y hy) h1 rfl hd hpre hdy
  obtain ⟨z, hz⟩ : ∃ z, w[d]? = some z := ⟨_, List.getElem?_eq_getElem (derived_lt hbd)⟩
  have hzm : z.abcMeta = true := ht.abcs z (mem_of_get hz) name v (by simpa [dictOf, hz] using hd)
  have hym := hw.inherit b y hy d hdy z hz hzm
  rw [List.mem_flatMap]
  exact ⟨b, hb, by rw [abstractsOf_eq hy]; exact (ha b y hy hym name).2 ⟨v, hs⟩⟩

theorem absGood_define {w w' : World} {s : Stmt} (hw : Good w) (ha : Tidy w → AbsGood w) (h : define w s = .ok w') (ht : Tidy w') :
    AbsGood w' := by
  obtain ⟨bases, l, a, -, hlt, hl, rfl, -, ha'⟩ := define_ok h
  have ht0 := tidy_old ht
  have ha0 := ha ht0
  obtain ⟨h1, h2, h3, h4⟩ := mroOfBases_ok hw hlt hl
  have hle : ∀ d ∈ l, d < w.length := fun d hd => by
    obtain ⟨b, -, hd⟩ := (h4 d).1 hd
    exact derived_lt hd
  intro c x hx hm name
  rcases get_append hx with ⟨hc, hx'⟩ | ⟨rfl, rfl⟩
  · rw [ha0 c x hx' hm name, lookup_congr (fun d hd => ?_)]
    refine (dictOf_old ?_).symm
    exact derived_lt (((hw.ordered c x hx').mem d).1 hd)
  · obtain ⟨names, hn, rfl⟩ := ha' hm
    have hlk : ∀ (y : ClassObj) (k : Str), y.dict = s.dict → lookup (w ++ [y]) (w.length :: l) k = (dget s.dict k).or (lookup w l k) := by
      intro y k hk
      rw [lookup_cons, dictOf_new, hk, lookup_congr (fun d hd => dictOf_old (hle d hd))]
    have hnames := stillAbstract_ok hn name
    rw [hlk _ _ rfl] at hnames
    show name ∈ _ ++ names ↔ ∃ v, lookup _ (w.length :: l) name = _
    rw [hlk _ _ rfl, List.mem_append, hnames]
    have hkeys : (dkeys s.dict).Nodup := ht.keys _ (mem_of_get hx)
    constructor
    · rintro (h | ⟨-, h⟩)
      · obtain ⟨⟨k, at'⟩, he, rfl⟩ := List.mem_map.1 h
        rw [List.mem_filter] at he
        have hd := dget_of_mem hkeys he.1
        cases at' with
        | method b v =>
          have hb : b = true := he.2
          subst hb
          exact ⟨v, by show (dget s.dict k).or _ = _; rw [hd]; rfl⟩
        | prop => cases he.2
        | value => cases he.2
      · exact h
    · rintro ⟨v, h⟩
      cases hd : dget s.dict name with
      | some at' =>
        rw [hd] at h
        cases h
        exact .inl (List.mem_map.2 ⟨_, List.mem_filter.2 ⟨dget_mem hd, rfl⟩, rfl⟩)
      | none =>
        rw [hd] at h
        exact .inr ⟨abstract_base hw ht0 ha0 hlt hl h, v, h⟩

theorem absGood_run {l : List Stmt} {w : World} (h : run start l = .ok w) (ht : Tidy w) : AbsGood w := by
  refine (run_induction (P := fun w => Good w ∧ (Tidy w → AbsGood w))
    (fun w w' s hw hd => ⟨good_define hw.1 hd, fun ht => absGood_define hw.1 hw.2 hd ht⟩) ⟨good_start, fun _ => ?_⟩ h).2 ht
  intro c x hx hm
  rcases get_append (w := []) hx with ⟨h, -⟩ | ⟨-, rfl⟩
  · exact absurd h (Nat.not_lt_zero _)
  · cases hm

end Utils

open Utils

/-! ### The properties -/

/-- **C118** (order of classes). After any class statements the method resolution order of every class is as it should be. -/
theorem C118_mro (l : List Stmt) (w : World) (h : run start l = .ok w) (c : Nat) (x : ClassObj) (hx : w[c]? = some x) : Ordered w c x :=
  (good_run h).ordered c x hx

/-- **C118** (abstract classes). `is_abstract` says of every class whether one of its methods is still abstract. -/
theorem C118_abstract (l : List Stmt) (w : World) (h : run start l = .ok w) (ht : Tidy w) (c : Nat) (x : ClassObj)
    (hx : w[c]? = some x) : isAbstract w c = true ↔ ∃ name v, Finds w x.mro name (.method true v) := by
  have hg := good_run h
  have ha := absGood_run h ht c x hx
  simp only [← lookup_iff]
  unfold isAbstract
  rw [hx]
  show (match x.abstracts with | none => false | some l => decide (l.length ≠ 0)) = true ↔ _
  cases hs : x.abstracts with
  | none =>
    simp only [Bool.false_eq_true, false_iff]
    rintro ⟨name, v, hl⟩
    obtain ⟨pre, d, post, y, e, -, hy, hd⟩ := lookup_iff.1 hl
    have hm := hg.inherit c x hx d (by rw [e]; simp) y hy (ht.abcs y (mem_of_get hy) name v hd)
    have := (hg.setBy c x hx).1 hm
    rw [hs] at this
    cases this
  | some names =>
    have hm := (hg.setBy c x hx).2 (by rw [hs]; rfl)
    have ha := ha hm
    rw [hs] at ha
    simp only [Option.getD_some] at ha
    simp only [← ha]
    cases names with
    | nil => simp
    | cons a t => simp only [List.length_cons, ne_eq, Nat.add_eq_zero_iff, Nat.succ_ne_self, and_false, not_false_eq_true, decide_true, true_iff]; exact ⟨a, List.mem_cons_self⟩

/-- **C118** (class statements). A class can be defined exactly if there is an order that suits its bases; otherwise there is a
`TypeError`. -/
theorem C118_definable (l : List Stmt) (w : World) (h : run start l = .ok w) (ht : Tidy w) (s : Stmt) (hne : s.bases ≠ [])
    (hlt : ∀ b ∈ s.bases, b < w.length)
    (hp : ∀ x ∈ w, ∀ name v, dget x.dict name = some (.method true v) → ∀ g, dget s.dict name ≠ some (.prop g)) :
    ((∃ w', define w s = .ok w') ↔ ∃ order, Suits w s.bases order) ∧
    ((¬ ∃ order, Suits w s.bases order) → define w s = .error .typeError) := by
  have hg := good_run h
  have ha := absGood_run h ht
  have hb : (if s.bases.isEmpty then [0] else s.bases) = s.bases := by
    cases hs : s.bases with
    | nil => exact absurd hs hne
    | cons => rfl
  have hfit : (∃ order, mroOfBases w s.bases = .ok order) ↔ ∃ order, Suits w s.bases order := by
    constructor
    · rintro ⟨o, ho⟩
      obtain ⟨h1, h2, h3, -⟩ := mroOfBases_ok hg hlt ho
      exact ⟨o, h1, h2, h3⟩
    · rintro ⟨o, h1, h2, h3⟩
      unfold mroOfBases
      split
      · exact ⟨_, rfl⟩
      · rw [if_pos (h1.sublist h2)]
        obtain ⟨m, hm⟩ := merge_isSome (seqs := s.bases.map (mroOf w) ++ [s.bases]) h1 (fun t hts => by
          rcases List.mem_append.1 hts with hts | hts
          · obtain ⟨b, hb, rfl⟩ := List.mem_map.1 hts
            have hy := List.getElem?_eq_getElem (hlt b hb)
            rw [mroOf_eq hy]
            exact h3 b hb _ hy
          · rw [List.mem_singleton] at hts; subst hts; exact h2) (Nat.lt_succ_self _)
        dsimp only
        rw [hm]
        exact ⟨m, rfl⟩
  have hno : ∀ e, mroOfBases w s.bases = .error e → e = .typeError := by
    intro e he
    unfold mroOfBases at he
    split at he
    · cases he
    · split at he
      · dsimp only at he
        split at he <;> cases he
        rfl
      · cases he; rfl
  have hany : ¬ (s.bases.any (fun b => decide (w.length ≤ b)) = true) := by
    rw [List.any_eq_true]
    rintro ⟨b, hb, h⟩
    have := hlt b hb
    have := of_decide_eq_true h
    omega
  rw [← hfit]
  refine ⟨⟨?_, ?_⟩, ?_⟩
  · rintro ⟨w', hw'⟩
    obtain ⟨bases, o, a, hbs, -, ho, -⟩ := define_ok hw'
    rw [hb] at hbs
    subst hbs
    exact ⟨o, ho⟩
  · rintro ⟨o, ho⟩
    unfold define
    dsimp only
    rw [hb, if_neg hany, ho]
    dsimp only
    split
    · have key : ∀ names : List Str, (∀ name ∈ names, name ∈ s.bases.flatMap (abstractsOf w)) →
          ∃ r, stillAbstract (w ++ [⟨s.bases, w.length :: o, s.dict, true, none⟩]) (w.length :: o) names = .ok r := by
        intro names
        induction names with
        | nil => intro _; exact ⟨[], rfl⟩
        | cons x t ih =>
          intro hall
          obtain ⟨r, hr⟩ := ih (fun n hn => hall n (List.mem_cons_of_mem _ hn))
          unfold stillAbstract
          rw [hr]
          have hx := hall x List.mem_cons_self
          rw [List.mem_flatMap] at hx
          obtain ⟨b, hbm, hx⟩ := hx
          obtain ⟨y, hy⟩ : ∃ y, w[b]? = some y := ⟨_, List.getElem?_eq_getElem (hlt b hbm)⟩
          rw [abstractsOf_eq hy] at hx
          have hym : y.abcMeta = true := (hg.setBy b y hy).2 (by
            cases hys : y.abstracts with
            | none => rw [hys] at hx; cases hx
            | some _ => rfl)
          obtain ⟨v, hv⟩ := (ha b y hy hym x).1 hx
          obtain ⟨pre, d, post, z, -, -, hz, hzd⟩ := lookup_iff.1 hv
          have hnp : ∀ g, lookup (w ++ [⟨s.bases, w.length :: o, s.dict, true, none⟩]) (w.length :: o) x ≠ some (.prop g) := by
            intro g hgp
            obtain ⟨pre', d', post', z', -, -, hz', hzd'⟩ := lookup_iff.1 hgp
            rcases get_append hz' with ⟨-, hz''⟩ | ⟨-, rfl⟩
            · exact ht.props z (mem_of_get hz) x v hzd z' (mem_of_get hz'') g hzd'
            · exact hp z (mem_of_get hz) x v hzd g hzd'
          have hget : ∀ e, getAttrAlong (w ++ [⟨s.bases, w.length :: o, s.dict, true, none⟩]) (w.length :: o) limit x = .error e →
              e = .attributeError := by
            intro e he
            change getAttrAlong _ _ (999 + 1) x = _ at he
            rw [getAttrAlong] at he
            cases hlk : lookup (w ++ [⟨s.bases, w.length :: o, s.dict, true, none⟩]) (w.length :: o) x with
            | none => rw [hlk] at he; cases he; rfl
            | some at' =>
              cases at' with
              | method => rw [hlk] at he; cases he
              | value => rw [hlk] at he; cases he
              | prop g => exact absurd hlk (hnp g)
          split
          · exact ⟨_, rfl⟩
          · exact ⟨_, rfl⟩
          · exact ⟨_, rfl⟩
          · rename_i e hne' hge
            exact absurd (hget _ hge) hne'
      obtain ⟨r, hr⟩ := key _ (fun _ h => h)
      rw [hr]
      exact ⟨_, rfl⟩
    · exact ⟨_, rfl⟩
  · intro hnone
    unfold define
    dsimp only
    rw [hb, if_neg hany]
    cases ho : mroOfBases w s.bases with
    | ok o => exact absurd ⟨o, ho⟩ hnone
    | error e =>
      dsimp only
      rw [hno e ho]

/-- **C118** (static properties). A static property of a class gives the value of the first method in the order of the class
that has the name of the property's method, and no other value; likewise for an object that has no attribute of its own of this name. -/
theorem C118_static_partial (w : World) (c : Nat) (x : ClassObj) (hx : w[c]? = some x) (p g : Str) (hp : Finds w x.mro p (.prop g)) (v : Val) :
    (getClassAttr w c p = .ok (.value v) ↔ ∃ a, Finds w x.mro g (.method a v)) ∧
    ∀ o : Obj, o.cls = c → p ∉ dkeys o.dict → (getObjAttr w o p = .ok (.value v) ↔ ∃ a, Finds w x.mro g (.method a v)) := by
  have hm := mroOf_eq hx
  simp only [← lookup_iff] at hp ⊢
  have key : ∀ n, ((getAttrAlong w x.mro (n + 1) g).bind call).map Got.value = .ok (.value v) ↔
      ∃ a, lookup w x.mro g = some (.method a v) := by
    intro n
    constructor
    · intro h
      cases hg : getAttrAlong w x.mro (n + 1) g with
      | error e => rw [hg] at h; cases h
      | ok r =>
        rw [hg] at h
        cases r with
        | value => cases h
        | callable a u =>
          cases h
          exact ⟨a, getAttr_callable.1 hg⟩
    · rintro ⟨a, h⟩
      rw [(getAttr_callable (n := n)).2 h]
      rfl
  refine ⟨?_, fun o ho hn => ?_⟩
  · unfold getClassAttr
    rw [hm]
    show getAttrAlong w x.mro (999 + 1) p = _ ↔ _
    rw [getAttrAlong, hp]
    exact key 998
  · unfold getObjAttr
    rw [dget_eq_none_iff.2 hn, ho, hm, hp]
    dsimp only [propGet]
    unfold getClassAttr
    rw [hm]
    exact key 999

/-- **C118** (the descriptor). `__get__` gives the value of the first method of its name in the order of the class it is given, whatever
the object is, and in the order of the object's class if it is given none. -/
theorem C118_get (w : World) (c : Nat) (x : ClassObj) (hx : w[c]? = some x) (g : Str) (v : Val) :
    (∀ obj, propGet w g obj (some c) = .ok v ↔ ∃ a, Finds w x.mro g (.method a v)) ∧
    ∀ o : Obj, o.cls = c → (propGet w g (some o) none = .ok v ↔ ∃ a, Finds w x.mro g (.method a v)) := by
  have hm := mroOf_eq hx
  simp only [← lookup_iff]
  have key : (getClassAttr w c g).bind call = .ok v ↔ ∃ a, lookup w x.mro g = some (.method a v) := by
    unfold getClassAttr
    rw [hm]
    show (getAttrAlong w x.mro (999 + 1) g).bind call = _ ↔ _
    constructor
    · intro h
      cases hg : getAttrAlong w x.mro (999 + 1) g with
      | error e => rw [hg] at h; cases h
      | ok r =>
        rw [hg] at h
        cases r with
        | value => cases h
        | callable a u =>
          cases h
          exact ⟨a, getAttr_callable.1 hg⟩
    · rintro ⟨a, h⟩
      rw [getAttr_callable.2 h]
      rfl
  refine ⟨fun obj => key, fun o ho => ?_⟩
  rw [← ho] at key
  exact key

/-- **C118** (overriding). A class that defines the method itself determines the value. -/
theorem C118_override (l : List Stmt) (w : World) (h : run start l = .ok w) (c : Nat) (x : ClassObj) (hx : w[c]? = some x) (p g : Str)
    (hp : Finds w x.mro p (.prop g)) (a : Bool) (v : Val) (hg : dget x.dict g = some (.method a v)) :
    getClassAttr w c p = .ok (.value v) := by
  refine ((C118_static_partial w c x hx p g hp v).1).2 ⟨a, ?_⟩
  have hh := (C118_mro l w h c x hx).head
  cases hm : x.mro with
  | nil => rw [hm] at hh; cases hh
  | cons d t =>
    rw [hm] at hh
    cases hh
    exact ⟨[], c, t, x, rfl, by simp, hx, hg⟩

/-- **C118** (inheriting). A class with one base that does not have the names itself has the value of the base. -/
theorem C118_inherit (l : List Stmt) (w : World) (h : run start l = .ok w) (c b : Nat) (x y : ClassObj) (hx : w[c]? = some x)
    (hb : x.bases = [b]) (hy : w[b]? = some y) (p g : Str) (hpx : p ∉ dkeys x.dict) (hgx : g ∉ dkeys x.dict)
    (hp : Finds w y.mro p (.prop g)) (v : Val) : getClassAttr w c p = .ok (.value v) ↔ getClassAttr w b p = .ok (.value v) := by
  have hg := good_run h
  have ho := hg.ordered c x hx
  have ho' := hg.ordered b y hy
  have hmro : x.mro = c :: y.mro := by
    have hh := ho.head
    cases hm : x.mro with
    | nil => rw [hm] at hh; cases hh
    | cons d t =>
      rw [hm] at hh
      cases hh
      have hn := ho.nodup
      rw [hm, List.nodup_cons] at hn
      have hs := ho.orders b (by rw [hb]; simp) y hy
      rw [hm] at hs
      have hcy : c ∉ y.mro := fun hc => by
        have := derived_le hg.below ((ho'.mem c).1 hc)
        have := hg.below c x hx b (by rw [hb]; simp)
        omega
      rcases sublist_cons hs hn.1 with ⟨-, hs⟩ | ⟨t', e, -, -⟩
      · have hsub : t ⊆ y.mro := by
          intro d hd
          have := (ho.mem d).1 (by rw [hm]; exact List.mem_cons_of_mem _ hd)
          cases this with
          | self => exact absurd hd hn.1
          | base g1 g2 g3 =>
            rw [hx] at g1; cases g1
            rw [hb, List.mem_singleton] at g2
            subst g2
            exact (ho'.mem d).2 g3
        rw [sublist_eq hs hn.2 hsub]
      · rw [e] at hcy; exact absurd List.mem_cons_self hcy
  have hlk : ∀ {k a}, k ∉ dkeys x.dict → (Finds w x.mro k a ↔ Finds w y.mro k a) := by
    intro k a hk
    rw [← lookup_iff, ← lookup_iff, hmro, lookup_cons]
    have : dget (dictOf w c) k = none := by
      unfold dictOf; rw [hx]; exact dget_eq_none_iff.2 hk
    rw [this]
    rfl
  rw [(C118_static_partial w c x hx p g ((hlk hpx).2 hp) v).1, (C118_static_partial w b y hy p g hp v).1]
  simp only [hlk hgx]

/-- `C118_get` with an object of another class: the class given counts (1 has the value 1, 2 has the value 2). -/
example : ∃ w, run start [⟨[], false, [(py! "f", .method false (.int 1)), (py! "p", .prop (py! "f"))]⟩,
      ⟨[1], false, [(py! "f", .method false (.int 2))]⟩] = .ok w ∧
    propGet w (py! "f") (some ⟨2, []⟩) (some 1) = .ok (.int 1) ∧ propGet w (py! "f") (some ⟨2, []⟩) none = .ok (.int 2) :=
  ⟨_, rfl, by decide +kernel, by decide +kernel⟩

/-! ### They are not read-only -/

/-- The class of `test_readonly_static_property_same_class` (tests/test_utils.py:51-58). -/
def exStatic : Stmt := ⟨[], false, [(py! "f", .method false (.int 1)), (py! "p", .prop (py! "f"))]⟩

/-- **C118** is false as far as the name `readonly_static_property` goes: it has no `__set__`, so that objects and classes can be given
another value. -/
theorem C118_false : ∃ w c, run start [exStatic] = .ok w ∧ getObjAttr w ⟨c, []⟩ (py! "p") = .ok (.value (.int 1)) ∧
    (∀ v, getObjAttr w (setObjAttr ⟨c, []⟩ (py! "p") v) (py! "p") = .ok (.value v)) ∧
    ∀ v, getClassAttr (setClassAttr w c (py! "p") v) c (py! "p") = .ok (.value v) := by
  refine ⟨_, 1, rfl, ?_, fun v => ?_, fun v => ?_⟩
  · decide +kernel
  · unfold getObjAttr setObjAttr
    rw [dget_dset_self]
  · rfl

/-- Whatever an object is given comes back. -/
theorem C118_set (w : World) (o : Obj) (p : Str) (v : Val) : getObjAttr w (setObjAttr o p v) p = .ok (.value v) := by
  unfold getObjAttr setObjAttr
  rw [dget_dset_self]

/-! ### The classes of the package -/

/-- The classes in the order of their definition. -/
def packageClasses : List Cls := [.object, .abc, .userDict] ++ Cls.definitionOrder

/-- The number of a class. -/
def numberOf (c : Cls) : Nat := packageClasses.idxOf c

/-- `get_curve_…` of one curve (ecdsa.py:332-348, 362-378, 392-408) -/
def curveMethods (identifier name oid : Str) : List (Str × Attr) :=
  [(py! "get_curve_identifier", .method false (.str identifier)), (py! "get_curve_name", .method false (.str name)),
   (py! "get_curve_oid", .method false (.str oid))]

/-- `get_format_instructions_dict`; the dictionaries themselves are in `formatOf`. -/
def formatMethod (a : Bool) : Str × Attr := (py! "get_format_instructions_dict", .method a (.other 0))

/-- `generate_private_params` -/
def generateMethod (a : Bool) : Str × Attr := (py! "generate_private_params", .method a (.other 1))

/-- The bodies of the classes, as far as abstract methods and static properties go (lines as in `Cls` and `abstractDef`; static
properties: pascal_style_byte_stream.py:476-478, ecdsa.py:55-94, rsa.py:142-164, dss.py:152-162, ed25519.py:48-58). -/
def packageDict : Cls → List (Str × Attr)
  | .pascalStyleDict => [formatMethod true, (py! "FORMAT_INSTRUCTIONS_DICT", .prop (py! "get_format_instructions_dict"))]
  | .privateKeyParams => [generateMethod true]
  | .rsaPub | .dssPub => [formatMethod false]
  | .rsaPriv => [formatMethod false, (py! "get_public_exponent", .method false (.int 65537)),
      (py! "PUBLIC_EXPONENT", .prop (py! "get_public_exponent")), (py! "get_key_size", .method false (.int 4096)),
      (py! "KEY_SIZE", .prop (py! "get_key_size")), generateMethod false]
  | .dssPriv => [formatMethod false, (py! "get_key_size", .method false (.int 1024)), (py! "KEY_SIZE", .prop (py! "get_key_size")),
      generateMethod false]
  | .ed25519Pub => [formatMethod false, (py! "get_key_size", .method false (.int 32)), (py! "KEY_SIZE", .prop (py! "get_key_size"))]
  | .ed25519Priv => [formatMethod false, generateMethod false]
  | .ecdsaPub => [formatMethod false, (py! "get_curve_identifier", .method true (.str [])),
      (py! "CURVE_IDENTIFIER", .prop (py! "get_curve_identifier")), (py! "get_curve_name", .method true (.str [])),
      (py! "CURVE_NAME", .prop (py! "get_curve_name")), (py! "get_curve_oid", .method true (.str [])),
      (py! "CURVE_OID", .prop (py! "get_curve_oid"))]
  | .ecdsaPriv => [formatMethod false, generateMethod false]
  | .ec256Pub => curveMethods (py! "nistp256") (py! "secp256r1") (py! "1.2.840.10045.3.1.7")
  | .ec384Pub => curveMethods (py! "nistp384") (py! "secp384r1") (py! "1.3.132.0.34")
  | .ec521Pub => curveMethods (py! "nistp521") (py! "secp521r1") (py! "1.3.132.0.35")
  | .skPub => [(py! "get_sk_base_public_key_class", .method true (.other 2)), formatMethod false]
  | .skPriv => [formatMethod false, generateMethod false]
  | .skEc256Pub | .skEd25519Pub => [(py! "get_sk_base_public_key_class", .method false (.other 2))]
  | .certPub => [(py! "get_cert_base_public_key_class", .method true (.other 3)), formatMethod false]
  | .certRsa | .certEd25519 | .certDss | .certEc256 | .certEc384 | .certEc521 | .certSkEd25519 | .certSkEc256 =>
    [(py! "get_cert_base_public_key_class", .method false (.other 3))]
  | _ => []

/-- The class statements, after `object`. -/
def packageStmts : List Stmt :=
  packageClasses.tail.map (fun c => ⟨c.bases.map numberOf, c = .abc ∨ c = .userDict, packageDict c⟩)

/-- The classes after importing the package. -/
def packageWorld : World := match run start packageStmts with | .ok w => w | .error _ => []

/-- A test for `Tidy`. -/
theorem tidy_of {w : World} (h1 : ∀ x ∈ w, (dkeys x.dict).Nodup) (h2 : ∀ x ∈ w, ∀ e ∈ x.dict, e.2.isAbstract = true → x.abcMeta = true)
    (h3 : ∀ x ∈ w, ∀ e ∈ x.dict, e.2.isAbstract = true → ∀ y ∈ w, ∀ e' ∈ y.dict, e'.1 = e.1 →
      (match e'.2 with | .prop _ => False | _ => True)) : Tidy w := by
  refine ⟨h1, fun x hx name v hv => h2 x hx _ (dget_mem hv) rfl, fun x hx name v hv y hy g hg => ?_⟩
  exact h3 x hx _ (dget_mem hv) rfl y hy _ (dget_mem hg) rfl

theorem package_tidy : packageWorld.all (fun x => decide (dkeys x.dict).Nodup && x.dict.all (fun e => !e.2.isAbstract || (x.abcMeta &&
    packageWorld.all (fun y => y.dict.all (fun e' => decide (e'.1 ≠ e.1) || (match e'.2 with | .prop _ => false | _ => true)))))) = true := by
  decide +kernel

/-- **C118** (the package). The class statements of the package can be executed, are tidy, and give the order and the abstract classes that the
rest of the model has. -/
theorem C118_package : run start packageStmts = .ok packageWorld ∧ Tidy packageWorld ∧
    ∀ c : Cls, mroOf packageWorld (numberOf c) = c.mro.map numberOf ∧ isAbstract packageWorld (numberOf c) = c.isAbstract := by
  refine ⟨?_, ?_, fun c => ?_⟩
  · have h : (run start packageStmts).isOk = true := by decide +kernel
    unfold packageWorld
    cases hr : run start packageStmts with
    | ok w => rfl
    | error e => rw [hr] at h; cases h
  · have h := package_tidy
    simp only [List.all_eq_true, Bool.and_eq_true, Bool.or_eq_true, Bool.not_eq_true', decide_eq_true_eq] at h
    refine tidy_of (fun x hx => (h x hx).1) (fun x hx e he ha => ?_) (fun x hx e he ha y hy e' he' hk => ?_)
    · rcases (h x hx).2 e he with h' | h'
      · rw [ha] at h'; cases h'
      · exact h'.1
    · rcases (h x hx).2 e he with h' | h'
      · rw [ha] at h'; cases h'
      · rcases h'.2 y hy e' he' with h'' | h''
        · exact absurd hk h''
        · revert h''
          cases e'.2 <;> simp
  · cases c <;> decide +kernel

/-- The methods that a class leaves to its subclasses. -/
def missingOf : Cls → List Str
  | .pascalStyleDict | .publicKeyParams => [py! "get_format_instructions_dict"]
  | .privateKeyParams => [py! "generate_private_params", py! "get_format_instructions_dict"]
  | .ecdsaPub | .ecdsaPriv => [py! "get_curve_identifier", py! "get_curve_name", py! "get_curve_oid"]
  | .skPub | .skPriv => [py! "get_sk_base_public_key_class"]
  | .certPub => [py! "get_cert_base_public_key_class"]
  | _ => []

/-- **C118** (the package). Exactly these methods have to be supplied before a class of the package can be instantiated. -/
theorem C118_missing (c : Cls) (name : Str) :
    name ∈ (((packageWorld[numberOf c]?).bind ClassObj.abstracts).getD []) ↔ name ∈ missingOf c := by
  have h : ((packageWorld[numberOf c]?).bind ClassObj.abstracts).getD [] = missingOf c := by cases c <;> decide +kernel
  rw [h]

/-- **C118** (the package's properties). The curve of a class is that of the rest of the model. -/
theorem C118_curves (c : Cls) (h : c.isSubclass .ecdsaPub = true) :
    getClassAttr packageWorld (numberOf c) (py! "CURVE_IDENTIFIER") = .ok (.value (.str (curveOf c).1)) ∧
    getClassAttr packageWorld (numberOf c) (py! "CURVE_OID") = .ok (.value (.str (curveOf c).2)) ∧
    getClassAttr packageWorld (numberOf c) (py! "CURVE_NAME") = .ok (.value (.str (curveNameOf c))) := by
  revert h
  cases c <;> decide +kernel

/-- **C118** (the package's properties). Sizes and the public exponent, as documented; `KEY_SIZE` of an Ed25519 key is in bytes. -/
theorem C118_sizes (c : Cls) :
    getClassAttr packageWorld (numberOf c) (py! "KEY_SIZE") =
      (if c.isSubclass .rsaPriv then .ok (.value (.int 4096)) else if c.isSubclass .dssPriv then .ok (.value (.int 1024))
       else if c.isSubclass .ed25519Pub then .ok (.value (.int 32)) else .error .attributeError) ∧
    getClassAttr packageWorld (numberOf c) (py! "PUBLIC_EXPONENT") =
      (if c.isSubclass .rsaPriv then .ok (.value (.int 65537)) else .error .attributeError) := by
  cases c <;> decide +kernel

/-! ### The hypotheses can be met, and are needed -/

/-- A class whose abstract method is bound elsewhere to a static property that fails: the class statement fails as well. -/
example : run start [⟨[], true, [(py! "f", .method true (.int 0))]⟩,
    ⟨[1], false, [(py! "f", .prop (py! "g")), (py! "g", .value (.int 0))]⟩] = .error .typeError := by decide +kernel

/-- Without `ABCMeta` nothing is abstract, even in derived classes with this metaclass. -/
example : (run start [⟨[], false, [(py! "f", .method true (.int 0))]⟩, ⟨[1], true, []⟩]).map (fun w => (isAbstract w 1, isAbstract w 2)) =
    .ok (false, false) := by decide +kernel

/-- There is no order for `class C(object, A)`. -/
example : run start [⟨[], false, []⟩, ⟨[0, 1], false, []⟩] = .error .typeError := by decide +kernel

/-- A diamond. -/
example : (run start [⟨[], false, []⟩, ⟨[1], false, []⟩, ⟨[1], false, []⟩, ⟨[2, 3], false, []⟩]).map (fun w => mroOf w 4) =
    .ok [4, 2, 3, 1, 0] := by decide +kernel

/-- A property of a method of the same name calls itself. -/
example : (run start [⟨[], false, [(py! "f", .prop (py! "f"))]⟩]).bind (fun w => getClassAttr w 1 (py! "f")) =
    .error .recursionError := by decide +kernel

end OSK
