import Verif.Model.Utils
import Verif.Lemmas.Dict
/-
Lemmas about the order of classes.
-/
namespace OSK
namespace Utils

theorem pick_some {seqs : List (List Nat)} {c : Nat} (h : pick seqs = some c) :
    (∃ s ∈ seqs, s.head? = some c) ∧ ∀ s ∈ seqs, c ∉ s.tail := by
  unfold pick at h
  have h1 := List.mem_of_find?_eq_some h
  have h2 := List.find?_some h
  rw [List.mem_filterMap] at h1
  refine ⟨h1, fun s hs hc => ?_⟩
  rw [List.all_eq_true] at h2
  have := h2 s hs
  simp at this
  exact this hc

theorem sublist_cons {s l : List Nat} {a : Nat} (h : s.Sublist (a :: l)) (hn : a ∉ l) :
    (a ∉ s ∧ s.Sublist l) ∨ ∃ t, s = a :: t ∧ t.Sublist l ∧ a ∉ t := by
  cases h with
  | cons _ h => exact .inl ⟨fun ha => hn (h.subset ha), h⟩
  | cons_cons _ h => exact .inr ⟨_, rfl, h, fun ha => hn (h.subset ha)⟩

theorem pick_isSome : ∀ {l : List Nat} {seqs : List (List Nat)}, l.Nodup → (∀ s ∈ seqs, s.Sublist l) →
    (∃ s ∈ seqs, s ≠ []) → ∃ c, pick seqs = some c
  | [], seqs, _, hs, ⟨s, h1, h2⟩ => absurd (List.sublist_nil.1 (hs s h1)) h2
  | a :: l, seqs, hn, hs, hne => by
    rw [List.nodup_cons] at hn
    by_cases ha : ∃ s ∈ seqs, a ∈ s
    · obtain ⟨s, h1, h2⟩ := ha
      have hsome : ((seqs.filterMap List.head?).find? (fun c => seqs.all (fun s => !(s.tail.contains c)))).isSome := by
        rw [List.find?_isSome]
        refine ⟨a, List.mem_filterMap.2 ⟨s, h1, ?_⟩, ?_⟩
        · rcases sublist_cons (hs s h1) hn.1 with ⟨h, -⟩ | ⟨t, rfl, -, -⟩
          · exact absurd h2 h
          · rfl
        · rw [List.all_eq_true]
          intro u hu
          rcases sublist_cons (hs u hu) hn.1 with ⟨h, -⟩ | ⟨t, rfl, -, h⟩
          · simp only [Bool.not_eq_true', List.contains_iff_mem, Bool.eq_false_iff, ne_eq]
            exact fun hc => h (List.mem_of_mem_tail hc)
          · simp only [Bool.not_eq_true', List.contains_iff_mem, Bool.eq_false_iff, ne_eq]
            exact h
      exact Option.isSome_iff_exists.1 hsome
    · refine pick_isSome hn.2 (fun s h => ?_) hne
      rcases sublist_cons (hs s h) hn.1 with ⟨-, h'⟩ | ⟨t, rfl, -, -⟩
      · exact h'
      · exact absurd ⟨_, h, List.mem_cons_self⟩ ha

/-- What is left of a list when `c` is taken. -/
def rest (c : Nat) (s : List Nat) : List Nat := if s.head? = some c then s.tail else s

theorem rest_cases (c : Nat) (s : List Nat) : (s = c :: rest c s) ∨ (s.head? ≠ some c ∧ rest c s = s) := by
  unfold rest
  split
  · rename_i h
    cases s with
    | nil => simp at h
    | cons a t => simp at h; subst h; exact .inl rfl
  · rename_i h
    exact .inr ⟨h, rfl⟩

theorem merge_some : ∀ {n : Nat} {seqs : List (List Nat)} {l : List Nat}, merge n seqs = some l →
    (∀ s ∈ seqs, s.Sublist l) ∧ (∀ x ∈ l, ∃ s ∈ seqs, x ∈ s) ∧ l.Nodup
  | 0, _, _, h => by cases h
  | n + 1, seqs, l, h => by
    unfold merge at h
    split at h
    · rename_i he
      cases h
      rw [List.all_eq_true] at he
      exact ⟨fun s hs => by simpa using he s hs, by simp, List.nodup_nil⟩
    · split at h
      · cases h
      · rename_i c hc
        obtain ⟨⟨s0, hs0, hd⟩, ht⟩ := pick_some hc
        rw [Option.map_eq_some_iff] at h
        obtain ⟨l', h1, rfl⟩ := h
        obtain ⟨i1, i2, i3⟩ := merge_some h1
        change ∀ s ∈ seqs.map (rest c), _ at i1
        change ∀ x ∈ l', ∃ s ∈ seqs.map (rest c), _ at i2
        refine ⟨fun s hs => ?_, fun x hx => ?_, ?_⟩
        · have := i1 _ (List.mem_map_of_mem hs)
          rcases rest_cases c s with h | ⟨-, h⟩
          · rw [h]; exact this.cons_cons c
          · rw [h] at this; exact this.cons c
        · rcases List.mem_cons.1 hx with rfl | hx
          · exact ⟨s0, hs0, List.mem_of_mem_head? (by rw [hd]; rfl)⟩
          · obtain ⟨s, hs, hxs⟩ := i2 x hx
            obtain ⟨u, hu, rfl⟩ := List.mem_map.1 hs
            refine ⟨u, hu, ?_⟩
            rcases rest_cases c u with h | ⟨-, h⟩
            · rw [h]; exact List.mem_cons_of_mem _ hxs
            · rwa [h] at hxs
        · rw [List.nodup_cons]
          refine ⟨fun hcl => ?_, i3⟩
          obtain ⟨s, hs, hxs⟩ := i2 c hcl
          obtain ⟨u, hu, rfl⟩ := List.mem_map.1 hs
          rcases rest_cases c u with h | ⟨h0, h⟩
          · have := ht u hu
            rw [h] at this
            exact this hxs
          · rw [h] at hxs
            cases u with
            | nil => cases hxs
            | cons a t =>
              rcases List.mem_cons.1 hxs with rfl | hm
              · exact h0 rfl
              · exact ht _ hu hm

theorem rest_length (c : Nat) (s : List Nat) : (rest c s).length ≤ s.length := by
  rcases rest_cases c s with h | ⟨-, h⟩
  · have := congrArg List.length h; simp at this; omega
  · rw [h]; exact Nat.le_refl _

theorem rest_flatten (c : Nat) : ∀ (seqs : List (List Nat)), (seqs.map (rest c)).flatten.length ≤ seqs.flatten.length ∧
    ((∃ s ∈ seqs, s.head? = some c) → (seqs.map (rest c)).flatten.length < seqs.flatten.length)
  | [] => by simp
  | s :: t => by
    have ih := rest_flatten c t
    have h1 := rest_length c s
    simp only [List.map_cons, List.flatten_cons, List.length_append]
    refine ⟨by omega, ?_⟩
    rintro ⟨u, hu, hd⟩
    rcases List.mem_cons.1 hu with rfl | hu
    · rcases rest_cases c u with h | ⟨h, -⟩
      · have := congrArg List.length h; simp at this; omega
      · exact absurd hd h
    · have := ih.2 ⟨u, hu, hd⟩
      omega

theorem merge_isSome : ∀ {n : Nat} {seqs : List (List Nat)} {l : List Nat}, l.Nodup → (∀ s ∈ seqs, s.Sublist l) →
    seqs.flatten.length < n → ∃ m, merge n seqs = some m
  | 0, _, _, _, _, h => absurd h (Nat.not_lt_zero _)
  | n + 1, seqs, l, hn, hs, hlen => by
    unfold merge
    split
    · exact ⟨_, rfl⟩
    · rename_i he
      have hne : ∃ s ∈ seqs, s ≠ [] := by
        apply Classical.byContradiction
        intro hcon
        apply he
        rw [List.all_eq_true]
        intro s h
        cases s with
        | nil => rfl
        | cons a t => exact absurd ⟨_, h, by simp⟩ hcon
      obtain ⟨c, hc⟩ := pick_isSome hn hs hne
      have hp := pick_some hc
      rw [hc]
      have hr := (rest_flatten c seqs).2 hp.1
      obtain ⟨m, hm⟩ := merge_isSome (n := n) (seqs := seqs.map (rest c)) hn (fun s h => by
        obtain ⟨u, hu, rfl⟩ := List.mem_map.1 h
        rcases rest_cases c u with h | ⟨-, h⟩
        · exact (List.sublist_cons_self c _).trans (h ▸ hs u hu)
        · rw [h]; exact hs u hu) (by omega)
      refine ⟨c :: m, ?_⟩
      show (merge n (seqs.map (rest c))).map _ = _
      rw [hm]
      rfl

/-! ### Worlds -/

end Utils

namespace Spec
open Utils

/-- `d` is `c` or one of the classes that `c` is derived from. -/
inductive Derived (w : World) : Nat → Nat → Prop where
  | self {c} : c < w.length → Derived w c c
  | base {c b d x} : w[c]? = some x → b ∈ x.bases → Derived w b d → Derived w c d

/-- What the method resolution order of a class should be: it begins with the class, has every class that it is derived from
once, the bases as they are listed, and the classes of every base as the base has them. -/
structure Ordered (w : World) (c : Nat) (x : ClassObj) : Prop where
  head : x.mro.head? = some c
  nodup : x.mro.Nodup
  mem : ∀ d, d ∈ x.mro ↔ Derived w c d
  bases : x.bases.Sublist x.mro
  orders : ∀ b ∈ x.bases, ∀ y, w[b]? = some y → y.mro.Sublist x.mro

end Spec

namespace Utils
open Spec

/-- The orders of a world are as they should be, and bases are defined before. -/
structure Good (w : World) : Prop where
  ordered : ∀ (c : Nat) (x : ClassObj), w[c]? = some x → Ordered w c x
  below : ∀ (c : Nat) (x : ClassObj), w[c]? = some x → ∀ b ∈ x.bases, b < c
  setBy : ∀ (c : Nat) (x : ClassObj), w[c]? = some x → (x.abcMeta = true ↔ x.abstracts.isSome)
  inherit : ∀ (c : Nat) (x : ClassObj), w[c]? = some x → ∀ d ∈ x.mro, ∀ y : ClassObj, w[d]? = some y → y.abcMeta = true → x.abcMeta = true

theorem derived_le {w : World} (hb : ∀ (c : Nat) (x : ClassObj), w[c]? = some x → ∀ b ∈ x.bases, b < c) {c d : Nat} (h : Derived w c d) : d ≤ c := by
  induction h with
  | self => exact Nat.le_refl _
  | base h1 h2 _ ih => exact Nat.le_trans ih (Nat.le_of_lt (hb _ _ h1 _ h2))

theorem derived_lt {w : World} {c d : Nat} (h : Derived w c d) : d < w.length := by
  induction h with
  | self h => exact h
  | base _ _ _ ih => exact ih

theorem get_append {w : World} {x y : ClassObj} {c : Nat} (h : (w ++ [x])[c]? = some y) :
    (c < w.length ∧ w[c]? = some y) ∨ (c = w.length ∧ y = x) := by
  rcases Nat.lt_trichotomy c w.length with hc | hc | hc
  · rw [List.getElem?_append_left hc] at h
    exact .inl ⟨hc, h⟩
  · subst hc
    rw [List.getElem?_concat_length] at h
    exact .inr ⟨rfl, (Option.some.inj h).symm⟩
  · rw [List.getElem?_eq_none (by simp; omega)] at h
    cases h

theorem get_old {w : World} {x y : ClassObj} {c : Nat} (h : w[c]? = some y) : (w ++ [x])[c]? = some y := by
  rw [List.getElem?_append_left (List.getElem?_eq_some_iff.1 h).1, h]

theorem derived_append {w : World} (hb : ∀ (c : Nat) (x : ClassObj), w[c]? = some x → ∀ b ∈ x.bases, b < c) {x : ClassObj} {c d : Nat}
    (hc : c < w.length) : Derived (w ++ [x]) c d ↔ Derived w c d := by
  constructor
  · intro h
    induction h with
    | self => exact .self hc
    | base h1 h2 _ ih =>
      rcases get_append h1 with ⟨h3, h4⟩ | ⟨h3, -⟩
      · exact .base h4 h2 (ih (Nat.lt_trans (hb _ _ h4 _ h2) hc))
      · omega
  · intro h
    induction h with
    | self => exact .self (by simp; omega)
    | base h1 h2 _ ih => exact .base (get_old h1) h2 (ih (Nat.lt_trans (hb _ _ h1 _ h2) hc))

theorem mroOf_eq {w : World} {c : Nat} {x : ClassObj} (h : w[c]? = some x) : mroOf w c = x.mro := by
  unfold mroOf; rw [h]; rfl

theorem mem_self {w : World} (hw : Good w) {c : Nat} {x : ClassObj} (h : w[c]? = some x) : c ∈ x.mro :=
  ((hw.ordered c x h).mem c).2 (.self (List.getElem?_eq_some_iff.1 h).1)

/-- The order for a list of bases. -/
theorem mroOfBases_ok {w : World} (hw : Good w) {bases l : List Nat} (hlt : ∀ b ∈ bases, b < w.length)
    (h : mroOfBases w bases = .ok l) :
    l.Nodup ∧ bases.Sublist l ∧ (∀ b ∈ bases, ∀ y, w[b]? = some y → y.mro.Sublist l) ∧
      (∀ d, d ∈ l ↔ ∃ b ∈ bases, Derived w b d) := by
  have hsome : ∀ b ∈ bases, ∃ y, w[b]? = some y := fun b hb => ⟨_, List.getElem?_eq_getElem (hlt b hb)⟩
  unfold mroOfBases at h
  split at h
  · rename_i b
    cases h
    obtain ⟨y, hy⟩ := hsome b (by simp)
    have ho := hw.ordered b y hy
    rw [mroOf_eq hy]
    refine ⟨ho.nodup, by simpa using mem_self hw hy, fun c hc z hz => ?_, fun d => ?_⟩
    · rw [List.mem_singleton] at hc; subst hc
      rw [hy] at hz; cases hz
      exact List.Sublist.refl _
    · simpa using ho.mem d
  · split at h
    · dsimp only at h
      split at h
      · cases h
      · rename_i l' hl
        cases h
        obtain ⟨h1, h2, h3⟩ := merge_some hl
        have hm : ∀ b ∈ bases, ∀ y, w[b]? = some y → y.mro.Sublist l := fun b hb y hy => by
          rw [← mroOf_eq hy]
          exact h1 _ (List.mem_append_left _ (List.mem_map_of_mem hb))
        refine ⟨h3, h1 _ (by simp), hm, fun d => ⟨fun hd => ?_, ?_⟩⟩
        · obtain ⟨s, hs, hds⟩ := h2 d hd
          rcases List.mem_append.1 hs with hs | hs
          · obtain ⟨b, hb, rfl⟩ := List.mem_map.1 hs
            obtain ⟨y, hy⟩ := hsome b hb
            rw [mroOf_eq hy] at hds
            exact ⟨b, hb, ((hw.ordered b y hy).mem d).1 hds⟩
          · rw [List.mem_singleton] at hs; subst hs
            exact ⟨d, hds, .self (hlt d hds)⟩
        · rintro ⟨b, hb, hd⟩
          obtain ⟨y, hy⟩ := hsome b hb
          exact (hm b hb y hy).subset (((hw.ordered b y hy).mem d).2 hd)
    · cases h

/-- What a class statement adds. -/
theorem define_ok {w w' : World} {s : Stmt} (h : define w s = .ok w') : ∃ bases l a,
    bases = (if s.bases.isEmpty then [0] else s.bases) ∧ (∀ b ∈ bases, b < w.length) ∧ mroOfBases w bases = .ok l ∧
    w' = w ++ [⟨bases, w.length :: l, s.dict, s.metaclass || bases.any (metaOf w), a⟩] ∧
    ((s.metaclass || bases.any (metaOf w)) = false → a = none) ∧
    ((s.metaclass || bases.any (metaOf w)) = true → ∃ names,
      stillAbstract (w ++ [⟨bases, w.length :: l, s.dict, true, none⟩]) (w.length :: l) (bases.flatMap (abstractsOf w)) = .ok names ∧
      a = some ((s.dict.filter (fun e => e.2.isAbstract)).map Prod.fst ++ names)) := by
  unfold define at h
  dsimp only at h
  generalize (if s.bases.isEmpty then [0] else s.bases) = bases at h
  split at h
  · cases h
  · rename_i hlt
    have hlt : ∀ b ∈ bases, b < w.length := by
      intro b hb
      apply Classical.byContradiction
      intro hcon
      exact hlt (List.any_eq_true.2 ⟨b, hb, by simp; omega⟩)
    split at h
    · cases h
    · rename_i l hl
      split at h
      · rename_i hm
        split at h
        · cases h
        · rename_i names hn
          cases h
          exact ⟨bases, l, _, rfl, hlt, hl, by rw [hm], by rw [hm]; simp, fun _ => ⟨names, hn, rfl⟩⟩
      · rename_i hm
        cases h
        rw [Bool.not_eq_true] at hm
        exact ⟨bases, l, none, rfl, hlt, hl, by rw [hm], fun _ => rfl, by rw [hm]; simp⟩

theorem good_start : Good start := by
  have key : ∀ c x, start[c]? = some x → c = 0 ∧ x = ⟨[], [0], [], false, none⟩ := by
    intro c x h
    rcases get_append (w := []) h with ⟨h, -⟩ | ⟨h, h'⟩
    · exact absurd h (Nat.not_lt_zero _)
    · exact ⟨h, h'⟩
  refine ⟨fun c x h => ?_, fun c x h => ?_, fun c x h => ?_, fun c x h d hd y hy => ?_⟩
  · obtain ⟨rfl, rfl⟩ := key c x h
    refine ⟨rfl, by simp, fun d => ?_, by simp, by simp⟩
    constructor
    · intro hd
      simp at hd; subst hd
      exact .self (by decide)
    · intro hd
      have := derived_lt hd
      change d < 1 at this
      simp; omega
  · obtain ⟨rfl, rfl⟩ := key c x h; simp
  · obtain ⟨rfl, rfl⟩ := key c x h; simp
  · obtain ⟨rfl, rfl⟩ := key d y hy; simp

theorem metaOf_eq {w : World} {c : Nat} {x : ClassObj} (h : w[c]? = some x) : metaOf w c = x.abcMeta := by
  unfold metaOf; rw [h]; rfl

theorem good_define {w w' : World} {s : Stmt} (hw : Good w) (h : define w s = .ok w') : Good w' := by
  obtain ⟨bases, l, a, -, hlt, hl, rfl, ha, ha'⟩ := define_ok h
  obtain ⟨h1, h2, h3, h4⟩ := mroOfBases_ok hw hlt hl
  have hle : ∀ d ∈ l, d < w.length := fun d hd => by
    obtain ⟨b, -, hd⟩ := (h4 d).1 hd
    exact derived_lt hd
  generalize hm : (s.metaclass || bases.any (metaOf w)) = m at ha ha'
  have hnew : Derived (w ++ [⟨bases, w.length :: l, s.dict, m, a⟩]) w.length w.length := .self (by simp)
  refine ⟨fun c x hx => ?_, fun c x hx => ?_, fun c x hx => ?_, fun c x hx d hd y hy hy' => ?_⟩
  · rcases get_append hx with ⟨hc, hx⟩ | ⟨rfl, rfl⟩
    · have ho := hw.ordered c x hx
      refine ⟨ho.head, ho.nodup, fun d => (ho.mem d).trans (derived_append hw.below hc).symm, ho.bases, fun b hb y hy => ?_⟩
      rcases get_append hy with ⟨-, hy⟩ | ⟨hb', -⟩
      · exact ho.orders b hb y hy
      · have := hw.below c x hx b hb
        omega
    · refine ⟨rfl, List.nodup_cons.2 ⟨fun hd => Nat.lt_irrefl _ (hle _ hd), h1⟩, fun d => ?_, h2.cons _, fun b hb y hy => ?_⟩
      · constructor
        · intro hd
          rcases List.mem_cons.1 hd with rfl | hd
          · exact hnew
          · obtain ⟨b, hb, hd⟩ := (h4 d).1 hd
            exact .base hx hb ((derived_append hw.below (hlt b hb)).2 hd)
        · intro hd
          cases hd with
          | self => exact List.mem_cons_self
          | base g1 g2 g3 =>
            rw [hx] at g1; cases g1
            exact List.mem_cons_of_mem _ ((h4 d).2 ⟨_, g2, (derived_append hw.below (hlt _ g2)).1 g3⟩)
      · rcases get_append hy with ⟨-, hy⟩ | ⟨hb', -⟩
        · exact (h3 b hb y hy).cons _
        · have := hlt b hb
          omega
  · rcases get_append hx with ⟨hc, hx⟩ | ⟨rfl, rfl⟩
    · exact hw.below c x hx
    · exact hlt
  · rcases get_append hx with ⟨hc, hx⟩ | ⟨rfl, rfl⟩
    · exact hw.setBy c x hx
    · cases m with
      | false => rw [ha rfl]; simp
      | true => obtain ⟨_, -, e⟩ := ha' rfl; rw [e]; simp
  · rcases get_append hx with ⟨hc, hx⟩ | ⟨rfl, rfl⟩
    · rcases get_append hy with ⟨-, hy⟩ | ⟨hb', -⟩
      · exact hw.inherit c x hx d hd y hy hy'
      · have := derived_le hw.below (((hw.ordered c x hx).mem d).1 hd)
        omega
    · rcases get_append hy with ⟨hdl, hy⟩ | ⟨rfl, rfl⟩
      · rcases List.mem_cons.1 hd with rfl | hd
        · exact absurd hdl (Nat.lt_irrefl _)
        · obtain ⟨b, hb, hd⟩ := (h4 d).1 hd
          obtain ⟨z, hz⟩ : ∃ z, w[b]? = some z := ⟨_, List.getElem?_eq_getElem (hlt b hb)⟩
          have := hw.inherit b z hz d (((hw.ordered b z hz).mem d).2 hd) y hy hy'
          show m = true
          rw [← hm, Bool.or_eq_true, List.any_eq_true]
          exact .inr ⟨b, hb, by rw [metaOf_eq hz, this]⟩
      · exact hy'

theorem run_induction {P : World → Prop} (hd : ∀ w w' s, P w → define w s = .ok w' → P w') :
    ∀ {l : List Stmt} {w w' : World}, P w → run w l = .ok w' → P w'
  | [], w, w', hw, h => by cases h; exact hw
  | s :: t, w, w', hw, h => by
    unfold run at h
    split at h
    · cases h
    · rename_i w1 h1
      exact run_induction hd (hd _ _ _ hw h1) h

theorem good_run {l : List Stmt} {w : World} (h : run start l = .ok w) : Good w :=
  run_induction (fun _ _ _ => good_define) good_start h

end Utils
end OSK
