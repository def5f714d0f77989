import Mathlib.Data.List.TakeWhile
import Verif.Spec.Args
import Verif.Lemmas.ListParse
/-
What the arguments of the command line are taken for.
-/
namespace OSK
open Spec

theorem digitChar_iff {digit : Nat → Bool} {c : Nat} : isDigitChar digit c = true ↔ DecimalDigit digit c := by
  unfold isDigitChar DecimalDigit
  split
  · simp; omega
  · constructor
    · intro h; exact .inr ⟨by omega, h⟩
    · rintro (h | h)
      · omega
      · exact h.2

theorem partition_none {s o : Str} (h : partitionEq s = (o, none)) : o = s ∧ 0x3d ∉ s := by
  induction s generalizing o with
  | nil => simp [partitionEq] at h; exact ⟨h, by simp⟩
  | cons c t ih =>
    unfold partitionEq at h
    split at h
    · cases h
    · rename_i hc
      simp only [Prod.mk.injEq] at h
      obtain ⟨e1, e2⟩ := ih (o := (partitionEq t).1) (Prod.ext rfl h.2)
      rw [← h.1, e1]
      exact ⟨rfl, by simp [e2, Ne.symm hc]⟩

theorem partition_some {s o x : Str} : partitionEq s = (o, some x) ↔ s = o ++ 0x3d :: x ∧ 0x3d ∉ o := by
  induction s generalizing o with
  | nil => simp [partitionEq]
  | cons c t ih =>
    unfold partitionEq
    split
    · rename_i hc
      subst hc
      simp only [Prod.mk.injEq, Option.some.injEq]
      constructor
      · rintro ⟨rfl, rfl⟩; exact ⟨rfl, by simp⟩
      · rintro ⟨e, h⟩
        cases o with
        | nil => simp at e; exact ⟨rfl, e⟩
        | cons a o => simp at e; exact absurd e.1.symm (by simp at h; exact fun h' => h.1 h'.symm)
    · rename_i hc
      simp only [Prod.mk.injEq]
      constructor
      · rintro ⟨rfl, e⟩
        obtain ⟨e1, e2⟩ := (ih (o := (partitionEq t).1)).1 (Prod.ext rfl e)
        exact ⟨congrArg (c :: ·) e1, by simp [e2, Ne.symm hc]⟩
      · rintro ⟨e, h⟩
        cases o with
        | nil => simp at e; exact absurd e.1 hc
        | cons a o =>
          simp at e h
          have := ih.2 ⟨e.2, h.2⟩
          rw [this]
          exact ⟨by rw [e.1], rfl⟩

theorem option_plain {o : Str} (h : o <+: py! "--passphrase" ∨ o <+: py! "--help") : 0x3d ∉ o := by
  intro hm
  rcases h with h | h
  · exact absurd (h.subset hm) (by decide)
  · exact absurd (h.subset hm) (by decide)

/-- The parts in front of and after `=` of an argument that may be an option. -/
theorem partition_option {s o : Str} (hs : s = o ∨ ∃ x, s = o ++ 0x3d :: x) (h : 0x3d ∉ o) : (partitionEq s).1 = o := by
  rcases hs with rfl | ⟨x, rfl⟩
  · rcases e : partitionEq s with ⟨a, _ | x⟩
    · exact (partition_none e).1
    · have := (partition_some.1 e).1
      exact absurd (this ▸ by simp) h
  · rw [partition_some.2 ⟨rfl, h⟩]

theorem partition_self (s : Str) : s = (partitionEq s).1 ∨ ∃ x, s = (partitionEq s).1 ++ 0x3d :: x := by
  rcases e : partitionEq s with ⟨a, _ | x⟩
  · exact .inl (partition_none e).1.symm
  · exact .inr ⟨x, (partition_some.1 e).1⟩

/-- The number itself, without the line feed. -/
theorem negativeBody_iff {digit : Nat → Bool} {b : Str} :
    negativeBody digit b = true ↔
      (∃ ds, ds ≠ [] ∧ (∀ c ∈ ds, DecimalDigit digit c) ∧ b = 0x2d :: ds) ∨
      ∃ ds fs, (∀ c ∈ ds, DecimalDigit digit c) ∧ fs ≠ [] ∧ (∀ c ∈ fs, DecimalDigit digit c) ∧ b = 0x2d :: (ds ++ 0x2e :: fs) := by
  have hdot : isDigitChar digit 0x2e = false := by simp [isDigitChar]
  unfold negativeBody
  constructor
  · intro h
    split at h
    · rename_i r
      have htake : ∀ c ∈ r.takeWhile (isDigitChar digit), DecimalDigit digit c :=
        fun c hc => digitChar_iff.1 (List.mem_takeWhile_imp hc)
      have happ := List.takeWhile_append_dropWhile (p := isDigitChar digit) (l := r)
      simp only [Bool.or_eq_true] at h
      rcases h with h | h
      · simp at h
        left
        exact ⟨r, h.2, fun c hc => digitChar_iff.1 (h.1 c hc), rfl⟩
      · right
        split at h
        · rename_i fs e
          simp at h
          refine ⟨_, fs, htake, h.1, fun c hc => digitChar_iff.1 (h.2 c hc), ?_⟩
          rw [← e, happ]
        · cases h
    · cases h
  · rintro (⟨ds, h1, h2, rfl⟩ | ⟨ds, fs, h1, h2, h3, rfl⟩)
    · have : ds.dropWhile (isDigitChar digit) = [] := List.dropWhile_eq_nil_iff.2 fun c hc => digitChar_iff.2 (h2 c hc)
      simp [this, h1]
    · have : (ds ++ 0x2e :: fs).dropWhile (isDigitChar digit) = 0x2e :: fs := by
        rw [List.dropWhile_append_of_pos fun c hc => digitChar_iff.2 (h1 c hc)]
        simp [hdot]
      simp only [this]
      simp [h2]
      exact fun c hc => digitChar_iff.2 (h3 c hc)

theorem looksNegative_iff {digit : Nat → Bool} {s : Str} : looksNegative digit s = true ↔ NegativeNumber digit s := by
  have hnl : ¬ DecimalDigit digit 0x0a := by unfold DecimalDigit; omega
  have hend : ∀ (p : Str) (ds : Str), ds ≠ [] → (∀ c ∈ ds, DecimalDigit digit c) → (p ++ ds).getLast? ≠ some 0x0a := by
    intro p ds h1 h2 h
    rw [List.getLast?_append_of_ne_nil _ h1] at h
    exact hnl (h2 _ (List.mem_of_getLast? h))
  unfold looksNegative
  rw [negativeBody_iff]
  constructor
  · intro h
    obtain ⟨b, e, he, hs, hb⟩ : ∃ b e, (e = [] ∨ e = [0x0a]) ∧ s = b ++ e ∧ (if s.getLast? = some 0x0a then s.dropLast else s) = b := by
      split
      · rename_i hl
        exact ⟨_, [0x0a], .inr rfl, (List.dropLast_append_getLast? _ hl).symm, rfl⟩
      · exact ⟨s, [], .inl rfl, by simp, rfl⟩
    rw [hb] at h
    rcases h with ⟨ds, h1, h2, rfl⟩ | ⟨ds, fs, h1, h2, h3, rfl⟩
    · rw [hs]; exact .whole h1 h2 he
    · rw [hs]
      have := NegativeNumber.point h1 h2 h3 he
      simpa using this
  · intro h
    have fin : ∀ b e : Str, b.getLast? ≠ some 0x0a → e = [] ∨ e = [0x0a] →
        (if (b ++ e).getLast? = some 0x0a then (b ++ e).dropLast else (b ++ e)) = b := by
      rintro b e hb (rfl | rfl)
      · simp [hb]
      · simp
    cases h with
    | @whole ds e h1 h2 he =>
      have := fin (0x2d :: ds) e (hend [0x2d] ds h1 h2) he
      rw [← List.cons_append, this]
      exact .inl ⟨ds, h1, h2, rfl⟩
    | @point ds fs e h1 h2 h3 he =>
      have := fin (0x2d :: (ds ++ 0x2e :: fs)) e (by
        have := hend (0x2d :: (ds ++ [0x2e])) fs h2 h3
        simpa using this) he
      have e2 : (0x2d :: (ds ++ 0x2e :: (fs ++ e)) : Str) = 0x2d :: (ds ++ 0x2e :: fs) ++ e := by simp
      rw [e2, this]
      exact .inr ⟨ds, fs, h1, h2, h3, rfl⟩

theorem startsWith_prefix {l p : Str} : startsWith l p = true ↔ p <+: l := by
  unfold startsWith
  rw [decide_eq_true_iff, List.prefix_iff_eq_take]
  exact eq_comm

/-- Whether the help is shown for such an option. -/
def helpShown (n : Str) (b : Bool) : Option Str → Bool
  | none => true
  | some x => n = py! "-h" && x ≠ [] && !b && helpCluster x

/-- The arguments are words, passphrase options without or with a value, or something else. -/
inductive ArgKind (digit : Nat → Bool) (s : Str) : Except ArgsExit Tok → Prop
  | word : Word digit s → ArgKind digit s (.ok (.arg s))
  | pass (n : Str) : PassphraseOption s → ArgKind digit s (.ok (.opt (some .passphrase) n false none))
  | value (o x n : Str) (b : Bool) : PassphraseOption o → s = o ++ 0x3d :: x →
      ArgKind digit s (.ok (.opt (some .passphrase) n b (some x)))
  | error : py! "--=" <+: s → ArgKind digit s (.error .usage)
  | help (n : Str) (b : Bool) (v : Option Str) : OptionLike s → (HelpOption s ↔ helpShown n b v = true) →
      ArgKind digit s (.ok (.opt (some .help) n b v))
  | unknown (n : Str) (b : Bool) (v : Option Str) : ¬ Word digit s → ¬ OptionLike s → ArgKind digit s (.ok (.opt none n b v))

theorem dget_options {s : Str} {a : OptAct} (h : dget optionStrings s = some a) :
    (s = py! "--passphrase" ∧ a = .passphrase) ∨ ((s = py! "-h" ∨ s = py! "--help") ∧ a = .help) := by
  unfold optionStrings dget at h
  split at h
  · rename_i e; cases h; exact .inr ⟨.inl e.symm, rfl⟩
  unfold dget at h
  split at h
  · rename_i e; cases h; exact .inr ⟨.inr e.symm, rfl⟩
  unfold dget at h
  split at h
  · rename_i e; cases h; exact .inl ⟨e.symm, rfl⟩
  cases h

theorem optionTuples_long {s o r : Str} {v : Option Str} (hs : s = 0x2d :: 0x2d :: r) (e : partitionEq s = (o, v)) :
    optionTuples s = (if o <+: py! "--help" then [Tok.opt (some .help) (py! "--help") v.isSome v] else []) ++
      (if o <+: py! "--passphrase" then [Tok.opt (some .passphrase) (py! "--passphrase") v.isSome v] else []) := by
  have h0 : startsWith s (py! "--") = true := by subst hs; rfl
  have hlen : ∃ o', o = 0x2d :: 0x2d :: o' := by
    have := congrArg Prod.fst e
    subst hs
    simp [partitionEq] at this
    exact ⟨_, this.symm⟩
  obtain ⟨o', rfl⟩ := hlen
  have h1 : startsWith (py! "-h") (0x2d :: 0x2d :: o') = false := by
    cases o' <;> rfl
  unfold optionTuples optionStrings
  rw [if_pos h0, e]
  simp only [List.filter_cons, h1, List.filter_nil, Bool.false_eq_true, if_false]
  by_cases a : (0x2d :: 0x2d :: o') <+: py! "--help" <;> by_cases b : (0x2d :: 0x2d :: o') <+: py! "--passphrase" <;>
    simp only [startsWith_prefix, a, b, if_true, if_false] <;> rfl

theorem optionTuples_short {c : Nat} {r : Str} (hc : c ≠ 0x2d) (h : (0x2d :: c :: r : Str) ≠ py! "-h") :
    optionTuples (0x2d :: c :: r) = if c = 0x68 then [Tok.opt (some .help) (py! "-h") false (some r)] else [] := by
  have h0 : ¬ startsWith (0x2d :: c :: r) (py! "--") = true := by
    simp [startsWith, hc]
  have h1 : ¬ startsWith (py! "-h") (0x2d :: c :: r) = true := by
    rw [startsWith_prefix]
    rintro ⟨t, ht⟩
    simp at ht h
    exact h ht.1 ht.2.1
  have h2 : ¬ startsWith (py! "--help") (0x2d :: c :: r) = true := by
    rw [startsWith_prefix]
    rintro ⟨t, ht⟩
    simp at ht
    exact hc ht.1
  have h3 : ¬ startsWith (py! "--passphrase") (0x2d :: c :: r) = true := by
    rw [startsWith_prefix]
    rintro ⟨t, ht⟩
    simp at ht
    exact hc ht.1
  unfold optionTuples optionStrings
  rw [if_neg h0]
  simp only [List.filterMap_cons, List.filterMap_nil, h1, h2, h3]
  by_cases h : c = 0x68
  · subst h; simp
  · simp [h, Ne.symm h]

/-- A passphrase option starts with two dashes. -/
theorem Spec.PassphraseOption.dashes {o : Str} (h : PassphraseOption o) : ∃ c r, o = 0x2d :: 0x2d :: c :: r := by
  obtain ⟨hl, t, ht⟩ := h
  rcases o with _ | ⟨a, _ | ⟨b, _ | ⟨c, r⟩⟩⟩
  · simp at hl
  · simp at hl
  · simp at hl
  · simp at ht
    obtain ⟨rfl, rfl, _⟩ := ht
    exact ⟨c, r, rfl⟩

theorem Spec.PassphraseOption.not_help {o : Str} (h : PassphraseOption o) : ¬ o <+: py! "--help" := by
  obtain ⟨c, r, rfl⟩ := h.dashes
  rintro ⟨t, ht⟩
  obtain ⟨_, u, hu⟩ := h
  simp at ht hu
  rw [ht.1] at hu
  exact absurd hu.1 (by decide)

theorem Spec.PassphraseOption.of_prefix {o : Str} (h : o <+: py! "--passphrase") (hn : ¬ o <+: py! "--help") : PassphraseOption o := by
  refine ⟨?_, h⟩
  obtain ⟨t, ht⟩ := h
  rcases o with _ | ⟨a, _ | ⟨b, _ | ⟨c, r⟩⟩⟩
  · exact absurd (List.nil_prefix) hn
  · simp at ht
    exact absurd ⟨py! "-help", by rw [ht.1]; rfl⟩ hn
  · simp at ht
    exact absurd ⟨py! "help", by rw [ht.1, ht.2.1]; rfl⟩ hn
  · simp

/-- Which letters after `-h` still show the help. -/
theorem helpCluster_iff {r : Str} (h : r.head? ≠ some 0x3d) : helpCluster r = true ↔
    (∃ k, r = List.replicate (k + 1) 0x68) ∨ ∃ k c t, c ∉ py! "h-=" ∧ r = List.replicate k 0x68 ++ c :: t := by
  induction r with
  | nil => simp [helpCluster]
  | cons c r ih =>
    unfold helpCluster
    have h3d : c ≠ 0x3d := by simpa using h
    by_cases h2d : c = 0x2d
    · subst h2d
      simp only [if_true, Bool.false_eq_true, false_iff]
      rintro (⟨k, hk⟩ | ⟨k, c, t, hc, hk⟩)
      · rw [List.replicate_succ] at hk; cases hk
      · cases k with
        | zero => simp at hk; exact hc (by rw [← hk.1]; decide)
        | succ k => rw [List.replicate_succ] at hk; cases hk
    rw [if_neg h2d]
    by_cases h68 : c = 0x68
    · subst h68
      rw [if_neg (by simp)]
      cases r with
      | nil => simp only [true_iff]; exact .inl ⟨0, rfl⟩
      | cons d r =>
        by_cases hd : d = 0x3d
        · subst hd
          simp only [Bool.false_eq_true, false_iff]
          rintro (⟨k, hk⟩ | ⟨k, c, t, hc, hk⟩)
          · cases k with
            | zero => cases hk
            | succ k => rw [List.replicate_succ, List.replicate_succ] at hk; cases hk
          · rcases k with _ | _ | k
            · simp at hk; exact hc (by rw [← hk.1]; decide)
            · simp at hk; exact hc (by rw [← hk.1]; decide)
            · rw [List.replicate_succ, List.replicate_succ] at hk; cases hk
        · have := ih (by simpa using hd)
          split
          · rename_i e; cases e
          · rename_i e; simp only [List.cons.injEq] at e; exact absurd e.1 hd
          · rename_i e; cases e
            rw [this]
            constructor
            · rintro (⟨k, hk⟩ | ⟨k, c, t, hc, hk⟩)
              · exact .inl ⟨k + 1, by rw [hk]; rfl⟩
              · exact .inr ⟨k + 1, c, t, hc, by rw [hk]; rfl⟩
            · rintro (⟨k, hk⟩ | ⟨k, c, t, hc, hk⟩)
              · cases k with
                | zero => cases hk
                | succ k => exact .inl ⟨k, by rw [List.replicate_succ] at hk; simpa using hk⟩
              · cases k with
                | zero => simp at hk; exact absurd (by rw [← hk.1]; decide) hc
                | succ k => exact .inr ⟨k, c, t, hc, by rw [List.replicate_succ] at hk; simpa using hk⟩
    · rw [if_pos h68]
      simp only [true_iff]
      exact .inr ⟨0, c, r, by simp [h68, h2d, h3d], rfl⟩

theorem helpOption_short {r : Str} : HelpOption (0x2d :: 0x68 :: r) ↔
    r = [] ∨ (r.head? ≠ some 0x3d ∧ helpCluster r = true) := by
  constructor
  · intro h
    generalize hs : (0x2d :: 0x68 :: r : Str) = s at h
    cases h with
    | long _ h =>
      subst hs
      obtain ⟨t, ht⟩ := h
      simp at ht
    | short k =>
      simp only [List.cons.injEq, true_and] at hs
      cases k with
      | zero => exact .inl hs
      | succ k =>
        have h1 : r.head? ≠ some 0x3d := by rw [hs, List.replicate_succ]; simp
        exact .inr ⟨h1, (helpCluster_iff h1).2 (.inl ⟨k, hs⟩)⟩
    | more k t hc =>
      simp only [List.cons.injEq, true_and] at hs
      rename_i c
      have h1 : r.head? ≠ some 0x3d := by
        rw [hs]
        cases k with
        | zero => simp at hc ⊢; exact hc.2.2
        | succ k => rw [List.replicate_succ]; simp
      exact .inr ⟨h1, (helpCluster_iff h1).2 (.inr ⟨k, c, t, hc, hs⟩)⟩
  · rintro (rfl | ⟨h1, h2⟩)
    · exact .short 0
    · rcases (helpCluster_iff h1).1 h2 with ⟨k, rfl⟩ | ⟨k, c, t, hc, rfl⟩
      · exact .short _
      · exact .more k t hc

theorem helpOption_long {r : Str} : HelpOption (0x2d :: 0x2d :: r) ↔ r ≠ [] ∧ (0x2d :: 0x2d :: r) <+: py! "--help" := by
  constructor
  · intro h
    generalize hs : (0x2d :: 0x2d :: r : Str) = s at h
    cases h with
    | long hl hp =>
      subst hs
      refine ⟨?_, hp⟩
      rintro rfl
      simp at hl
    | short k => cases hs
    | more k => cases hs
  · rintro ⟨h1, h2⟩
    refine .long ?_ h2
    cases r with
    | nil => exact absurd rfl h1
    | cons => simp

theorem argKind (digit : Nat → Bool) (s : Str) (hs : s ≠ py! "--") : ArgKind digit s (parseOptional digit s) := by
  have hpass : PassphraseOption (py! "--passphrase") := ⟨by decide, List.prefix_refl _⟩
  unfold parseOptional
  split
  · rename_i h; subst h; exact .word (.plain (by simp))
  split
  · rename_i h; exact .word (.plain h)
  rename_i hne hd
  split
  · rename_i a ha
    rcases dget_options ha with ⟨rfl, rfl⟩ | ⟨h, rfl⟩
    · exact .pass _ hpass
    · refine .help _ _ _ ?_ ?_
      · rcases h with rfl | rfl
        · exact .inl (List.prefix_refl _)
        · exact .inr ⟨_, by decide, .inl rfl, .inr (List.prefix_refl _)⟩
      · refine ⟨fun _ => rfl, fun _ => ?_⟩
        rcases h with rfl | rfl
        · exact .short 0
        · exact .long (by decide) (List.prefix_refl _)
  rename_i hno
  split
  · rename_i hl
    obtain ⟨c, rfl⟩ := List.length_eq_one_iff.1 hl
    simp at hd
    subst hd
    exact .word .dash
  rename_i hl
  split
  · rename_i a x h
    rcases e : partitionEq s with ⟨o, _ | y⟩
    · rw [e] at h; simp at h
    · rw [e] at h
      simp only [Option.bind_some, Option.map_eq_some_iff, Prod.mk.injEq] at h
      obtain ⟨a', h1, rfl, rfl⟩ := h
      rcases dget_options h1 with ⟨rfl, rfl⟩ | ⟨h, rfl⟩
      · exact .value _ _ _ _ hpass (partition_some.1 e).1
      · have hs3 := (partition_some.1 e).1
        refine .help _ _ _ ?_ ?_
        · rcases h with rfl | rfl
          · exact .inl ⟨_, hs3.symm⟩
          · exact .inr ⟨_, by decide, .inr ⟨_, hs3⟩, .inr (List.prefix_refl _)⟩
        · refine ⟨fun hh => ?_, fun hh => by simp [helpShown] at hh⟩
          rcases h with rfl | rfl
          · rw [hs3] at hh
            rcases helpOption_short.1 hh with h | ⟨h, _⟩
            · cases h
            · exact absurd rfl h
          · rw [hs3] at hh
            obtain ⟨_, t, ht⟩ := helpOption_long.1 hh
            simp at ht
  rename_i hno2
  obtain ⟨c, r, rfl⟩ : ∃ c r, s = 0x2d :: c :: r := by
    rcases s with _ | ⟨a, _ | ⟨c, r⟩⟩
    · exact absurd rfl hne
    · exact absurd rfl hl
    · simp at hd; exact ⟨c, r, by rw [hd]⟩
  have hnw : ¬ looksNegative digit (0x2d :: c :: r) = true → ¬ 0x20 ∈ (0x2d :: c :: r : Str) → ¬ Word digit (0x2d :: c :: r) := by
    intro h1 h2 h
    generalize hg : (0x2d :: c :: r : Str) = s at h
    cases h with
    | plain h => subst hg; exact h rfl
    | dash => cases hg
    | number h => subst hg; exact h1 (looksNegative_iff.2 h)
    | spaced h _ => subst hg; exact h2 h
  by_cases hc : c = 0x2d
  · subst hc
    rcases e : partitionEq (0x2d :: 0x2d :: r) with ⟨o, v⟩
    rw [optionTuples_long rfl e]
    have hs2 : (0x2d :: 0x2d :: r : Str) = o ++ (match v with | none => [] | some x => 0x3d :: x) := by
      cases v with
      | none => simp [(partition_none e).1]
      | some x => exact (partition_some.1 e).1
    have ho : (partitionEq (0x2d :: 0x2d :: r)).1 = o := by rw [e]
    by_cases a : o <+: py! "--help" <;> by_cases b : o <+: py! "--passphrase"
    · simp only [a, b, if_true, List.cons_append, List.nil_append]
      have h2 : o = py! "--" := by
        have hd : ∃ o', o = 0x2d :: 0x2d :: o' := by
          simp [partitionEq] at ho
          exact ⟨_, ho.symm⟩
        obtain ⟨o', rfl⟩ := hd
        cases o' with
        | nil => rfl
        | cons x o' =>
          obtain ⟨t, ht⟩ := a
          obtain ⟨u, hu⟩ := b
          simp at ht hu
          omega
      refine .error ?_
      cases v with
      | none => exact absurd (h2 ▸ (partition_none e).1).symm hs
      | some x => rw [(partition_some.1 e).1, h2]; exact ⟨x, rfl⟩
    · simp only [a, b, if_true, if_false, List.append_nil]
      refine .help _ _ _ (.inr ⟨o, ?_, ?_, .inr a⟩) ?_
      · simp [partitionEq] at ho
        rw [← ho]; simp
      · cases v with
        | none => exact .inl (by simpa using hs2)
        | some x => exact .inr ⟨x, hs2⟩
      · rw [helpOption_long]
        cases v with
        | none =>
          simp only [List.append_nil] at hs2
          refine ⟨fun _ => rfl, fun _ => ⟨?_, hs2 ▸ a⟩⟩
          rintro rfl
          exact hs rfl
        | some x =>
          refine ⟨fun hh => ?_, fun hh => by simp [helpShown] at hh⟩
          obtain ⟨_, t, ht⟩ := hh
          have hm := congrArg (0x3d ∈ ·) ht
          rw [hs2] at hm
          simp at hm
    · simp only [a, b, if_true, if_false, List.nil_append]
      have hp := PassphraseOption.of_prefix b a
      cases v with
      | none => rw [hs2, List.append_nil]; exact .pass _ hp
      | some x => exact .value o x _ _ hp hs2
    · simp only [a, b, if_false, List.nil_append]
      have hnl : ¬ OptionLike (0x2d :: 0x2d :: r) := by
        rintro (⟨t, ht⟩ | ⟨o', hl', hs', hp⟩)
        · simp at ht
        · have : o = o' := by rw [← ho, partition_option hs' (option_plain hp)]
          subst this
          rcases hp with hp | hp
          · exact b hp
          · exact a hp
      split
      · rename_i h; exact .word (.number (looksNegative_iff.1 h))
      · rename_i hneg
        split
        · rename_i h
          exact .word (.spaced h hnl)
        · rename_i hsp
          exact .unknown _ _ _ (hnw hneg hsp) hnl
  · by_cases hh : (0x2d :: c :: r : Str) = py! "-h"
    · rw [hh] at hno; exact absurd hno (by decide)
    rw [optionTuples_short hc hh]
    by_cases h68 : c = 0x68
    · subst h68
      rw [if_pos rfl]
      have hr : r ≠ [] := by rintro rfl; exact hh rfl
      have heq : r.head? ≠ some 0x3d := by
        intro he
        obtain ⟨x, rfl⟩ : ∃ x, r = 0x3d :: x := by
          cases r with
          | nil => cases he
          | cons a x => simp at he; exact ⟨x, by rw [he]⟩
        have hp : partitionEq (0x2d :: 0x68 :: 0x3d :: x) = (py! "-h", some x) := partition_some.2 ⟨rfl, by decide⟩
        rw [hp] at hno2; have h0 : some (OptAct.help, x) = none := hno2; cases h0
      refine .help _ _ _ (.inl ⟨r, rfl⟩) ?_
      rw [helpOption_short]
      simp [helpShown, hr, heq]
    · rw [if_neg h68]; dsimp only
      have hnl : ¬ OptionLike (0x2d :: c :: r) := by
        rintro (⟨t, ht⟩ | ⟨o', hl', hs', hp⟩)
        · simp at ht; exact h68 ht.1.symm
        · have hdd : ∃ t, o' = 0x2d :: 0x2d :: t := by
            rcases o' with _ | ⟨x, _ | ⟨y, t⟩⟩
            · simp at hl'
            · simp at hl'
            · rcases hp with ⟨u, hu⟩ | ⟨u, hu⟩ <;> simp at hu <;> exact ⟨t, by rw [hu.1, hu.2.1]⟩
          obtain ⟨t, rfl⟩ := hdd
          rcases hs' with h | ⟨x, h⟩ <;> simp at h <;> exact hc h.1
      split
      · rename_i h; exact .word (.number (looksNegative_iff.1 h))
      · rename_i hneg
        split
        · rename_i h
          exact .word (.spaced h hnl)
        · rename_i hsp
          exact .unknown _ _ _ (hnw hneg hsp) hnl

/-- A passphrase option without `=` is taken for one. -/
theorem parseOptional_pass {digit : Nat → Bool} {s : Str} (h : PassphraseOption s) :
    ∃ n, parseOptional digit s = .ok (.opt (some .passphrase) n false none) := by
  obtain ⟨c, r, rfl⟩ := h.dashes
  have hne : (0x2d :: 0x2d :: c :: r : Str) ≠ py! "--" := by simp
  have hp := option_plain (.inl h.2)
  have hpart : partitionEq (0x2d :: 0x2d :: c :: r) = (0x2d :: 0x2d :: c :: r, none) := by
    rcases e : partitionEq (0x2d :: 0x2d :: c :: r) with ⟨a, _ | x⟩
    · rw [(partition_none e).1]
    · exact absurd ((partition_some.1 e).1 ▸ by simp) hp
  unfold parseOptional
  rw [if_neg (by simp), if_neg (by simp)]
  split
  · rename_i a ha
    rcases dget_options ha with ⟨_, rfl⟩ | ⟨h' | h', _⟩
    · exact ⟨_, rfl⟩
    · rw [h'] at h; exact absurd h.1 (by decide)
    · rw [h'] at h; exact absurd h.2 (by decide)
  · rw [if_neg (by simp), optionTuples_long rfl hpart, hpart, if_neg h.not_help, if_pos h.2]
    exact ⟨_, rfl⟩

/-- With `=`, the value is what follows it. -/
theorem parseOptional_value {digit : Nat → Bool} {o x : Str} (h : PassphraseOption o) :
    ∃ n b, parseOptional digit (o ++ 0x3d :: x) = .ok (.opt (some .passphrase) n b (some x)) := by
  obtain ⟨c, r, rfl⟩ := h.dashes
  have hp := option_plain (.inl h.2)
  have hpart := (partition_some (x := x)).2 ⟨rfl, hp⟩
  unfold parseOptional
  rw [if_neg (by simp), if_neg (by simp)]
  split
  · rename_i a ha
    rcases dget_options ha with ⟨h', rfl⟩ | ⟨h' | h', _⟩
    · exact absurd (h' ▸ (by simp : 0x3d ∈ (0x2d :: 0x2d :: c :: r) ++ 0x3d :: x)) (by decide)
    · exact absurd (h' ▸ (by simp : 0x3d ∈ (0x2d :: 0x2d :: c :: r) ++ 0x3d :: x)) (by decide)
    · exact absurd (h' ▸ (by simp : 0x3d ∈ (0x2d :: 0x2d :: c :: r) ++ 0x3d :: x)) (by decide)
  · rw [if_neg (by simp), optionTuples_long (s := 45 :: 45 :: c :: r ++ 61 :: x) rfl hpart, hpart, if_neg h.not_help, if_pos h.2]
    split
    · rename_i a y h1
      simp only [Option.bind_some, Option.map_eq_some_iff, Prod.mk.injEq] at h1
      obtain ⟨a', h1, rfl, rfl⟩ := h1
      rcases dget_options h1 with ⟨_, rfl⟩ | ⟨h' | h', _⟩
      · exact ⟨_, _, rfl⟩
      · rw [h'] at h; exact absurd h.1 (by decide)
      · rw [h'] at h; exact absurd h.2 (by decide)
    · exact ⟨_, _, rfl⟩

/-- A word is taken for an argument. -/
theorem parseOptional_word {digit : Nat → Bool} {s : Str} (h : Word digit s) (hs : s ≠ py! "--") :
    parseOptional digit s = .ok (.arg s) := by
  have noOption : ¬ OptionLike s → s.head? = some 0x2d → 2 ≤ s.length → (looksNegative digit s = true ∨ 0x20 ∈ s) →
      parseOptional digit s = .ok (.arg s) := by
    intro hno hd hl hor
    obtain ⟨c, r, rfl⟩ : ∃ c r, s = 0x2d :: c :: r := by
      rcases s with _ | ⟨a, _ | ⟨c, r⟩⟩
      · cases hd
      · simp at hl
      · simp at hd; exact ⟨c, r, by rw [hd]⟩
    unfold parseOptional
    rw [if_neg (by simp), if_neg (by simp)]
    have hself := partition_self (0x2d :: c :: r)
    have hdg : ∀ o a, dget optionStrings o = some a → (0x2d :: c :: r = o ∨ ∃ x, 0x2d :: c :: r = o ++ 0x3d :: x) → False := by
      intro o a ha ho
      rcases dget_options ha with ⟨rfl, _⟩ | ⟨rfl | rfl, _⟩
      · exact hno (.inr ⟨_, by decide, ho, .inl (List.prefix_refl _)⟩)
      · refine hno (.inl ?_)
        rcases ho with ho | ⟨x, ho⟩
        · rw [ho]; exact List.prefix_refl _
        · rw [ho]; exact List.prefix_append _ _
      · exact hno (.inr ⟨_, by decide, ho, .inr (List.prefix_refl _)⟩)
    have htup : optionTuples (0x2d :: c :: r) = [] := by
      by_cases hc : c = 0x2d
      · subst hc
        rcases e : partitionEq (0x2d :: 0x2d :: r) with ⟨o, v⟩
        have ho2 : 2 ≤ o.length := by
          have := congrArg Prod.fst e
          simp [partitionEq] at this
          rw [← this]; simp
        rw [e] at hself
        rw [optionTuples_long rfl e, if_neg, if_neg]
        · rfl
        · exact fun hp => hno (.inr ⟨_, ho2, hself, .inl hp⟩)
        · exact fun hp => hno (.inr ⟨_, ho2, hself, .inr hp⟩)
      · by_cases hh : (0x2d :: c :: r : Str) = py! "-h"
        · exact absurd (.inl (hh ▸ List.prefix_refl _)) hno
        rw [optionTuples_short hc hh, if_neg]
        intro h68
        exact hno (.inl ⟨r, by rw [h68]; rfl⟩)
    split
    · rename_i a ha
      exact (hdg _ _ ha (.inl rfl)).elim
    · rw [if_neg (by simp)]
      split
      · rename_i a x h1
        rcases e : partitionEq (0x2d :: c :: r) with ⟨o, _ | y⟩
        · rw [e] at h1; simp at h1
        · rw [e] at h1
          simp only [Option.bind_some, Option.map_eq_some_iff, Prod.mk.injEq] at h1
          obtain ⟨a', h1, rfl, rfl⟩ := h1
          exact (hdg _ _ h1 (.inr ⟨_, (partition_some.1 e).1⟩)).elim
      · rw [htup]
        by_cases hn : looksNegative digit (0x2d :: c :: r) = true
        · simp only [hn, if_true]
        · rw [if_neg hn, if_pos (hor.resolve_left hn)]
  cases h with
  | plain h =>
    unfold parseOptional
    by_cases e : s = []
    · rw [if_pos e]
    · rw [if_neg e, if_pos h]
  | dash => rfl
  | number h =>
    have hn := looksNegative_iff.2 h
    have hnum : ∃ c r, s = 0x2d :: c :: r ∧ c ≠ 0x2d ∧ c ≠ 0x68 := by
      have hdig : ∀ c, DecimalDigit digit c → c ≠ 0x2d ∧ c ≠ 0x68 := by
        intro c hc; unfold DecimalDigit at hc; omega
      cases h with
      | @whole ds e h1 h2 he =>
        cases ds with
        | nil => exact absurd rfl h1
        | cons d ds => exact ⟨d, ds ++ e, rfl, hdig d (h2 d (by simp))⟩
      | @point ds fs e h1 h2 h3 he =>
        cases ds with
        | nil => exact ⟨_, _, rfl, by decide, by decide⟩
        | cons d ds => exact ⟨d, _, rfl, hdig d (h1 d (by simp))⟩
    obtain ⟨c, r, rfl, h1, h2⟩ := hnum
    refine noOption ?_ rfl (by simp) (.inl hn)
    rintro (⟨t, ht⟩ | ⟨o', hl', hs', hp⟩)
    · simp at ht; exact h2 ht.1.symm
    · have hdd : ∃ t, o' = 0x2d :: 0x2d :: t := by
        rcases o' with _ | ⟨x, _ | ⟨y, t⟩⟩
        · simp at hl'
        · simp at hl'
        · rcases hp with ⟨u, hu⟩ | ⟨u, hu⟩ <;> simp at hu <;> exact ⟨t, by rw [hu.1, hu.2.1]⟩
      obtain ⟨t, rfl⟩ := hdd
      rcases hs' with h | ⟨x, h⟩ <;> simp at h <;> exact h1 h.1
  | spaced h1 h2 =>
    by_cases hd : s.head? = some 0x2d
    · refine noOption h2 hd ?_ (.inr h1)
      rcases s with _ | ⟨a, _ | ⟨c, r⟩⟩
      · cases hd
      · simp at hd h1; omega
      · simp
    · unfold parseOptional
      by_cases e : s = []
      · rw [if_pos e]
      · rw [if_neg e, if_pos hd]

theorem Spec.Word.ne_dashes {digit : Nat → Bool} {s : Str} (h : Word digit s) : s ≠ py! "--" := by
  rintro rfl
  cases h with
  | plain h => exact h rfl
  | number h => exact absurd (looksNegative_iff.2 h) (by simp [looksNegative, negativeBody, isDigitChar])
  | spaced h1 h2 => exact absurd h1 (by decide)

theorem tokens_cons {digit : Nat → Bool} {s : Str} {t : List Str} (h : s ≠ py! "--") {k : Tok}
    (hk : parseOptional digit s = .ok k) : tokens digit (s :: t) = (tokens digit t).map (k :: ·) := by
  rw [tokens, if_neg h, hk]
  cases tokens digit t <;> rfl

/-- With an argument that is not recognized, the program ends. -/
theorem parseToks_extras (toks : List Tok) (st : ArgState) (h : st.extras = true) (f : Str) (p : Option Str) :
    parseToks toks st ≠ .ok (f, p) := by
  have hr : ∀ toks st, st.extras = true → parseRest toks st ≠ .ok (f, p) := by
    intro toks st h
    unfold parseRest
    split
    · simp [h]
    · simp only
      split
      · nofun
      · simp [h]
  have aux : ∀ (n : Nat) (toks : List Tok) (st : ArgState), toks.length ≤ n → st.extras = true →
      parseToks toks st ≠ .ok (f, p) := by
    intro n
    induction n with
    | zero =>
      intro toks st hl h
      obtain rfl := List.length_eq_zero_iff.1 (by omega : toks.length = 0)
      rw [parseToks]
      exact hr _ _ h
    | succ n ih =>
      intro toks st hl h
      cases toks with
      | nil => rw [parseToks]; exact hr _ _ h
      | cons tok t =>
        have hl' : t.length ≤ n := by simpa using hl
        unfold parseToks
        split
        · exact hr _ _ h
        · split
          · split
            · exact ih _ _ hl' h
            · exact ih _ _ hl' rfl
          · exact ih _ _ hl' rfl
          · exact ih _ _ hl' rfl
          · nofun
          · split <;> nofun
          · exact ih _ _ hl' h
          · split
            · rename_i s t'
              exact ih _ _ (by simp at hl'; omega) h
            · nofun
  exact aux toks.length toks st (Nat.le_refl _) h

/-- Options only, in front of anything. -/
theorem parseToks_options {digit : Nat → Bool} {a : List Str} {ws : List Str} {p : Option Str} (h : Parts digit a ws p)
    (hw : ws = []) (t : List Str) : ∃ ks : List Tok, tokens digit (a ++ t) = (tokens digit t).map (ks ++ ·) ∧
      ((ks = [] ∧ p = none) ∨ ks.any Tok.isOpt = true) ∧ ∀ ts st, parseToks (ks ++ ts) st = parseToks ts { st with passphrase := p.or st.passphrase } := by
  have hid : ∀ e : Except ArgsExit (List Tok), e.map ([] ++ ·) = e := by intro e; cases e <;> rfl
  have hcomp : ∀ (ks ls : List Tok) (e : Except ArgsExit (List Tok)), (e.map (ls ++ ·)).map (ks ++ ·) = e.map ((ks ++ ls) ++ ·) := by
    intro ks ls e; cases e <;> simp [Except.map]
  induction h with
  | nil => exact ⟨[], by rw [hid]; rfl, .inl ⟨rfl, rfl⟩, fun ts st => by simp⟩
  | word _ _ _ => cases hw
  | @equals o x t' ws p ho _ ih =>
    obtain ⟨ks, h1, _, h2⟩ := ih hw
    obtain ⟨n, b, hk⟩ := parseOptional_value (digit := digit) (x := x) ho
    refine ⟨.opt (some .passphrase) n b (some x) :: ks, ?_, .inr rfl, fun ts st => ?_⟩
    · rw [List.cons_append, tokens_cons (by obtain ⟨c, r, rfl⟩ := ho.dashes; simp) hk, h1]
      exact hcomp [_] ks _
    · rw [List.cons_append, parseToks, if_neg (by simp [Tok.isOpt]), h2]
      cases p <;> simp
  | @next o w t' ws p ho hwd _ ih =>
    obtain ⟨ks, h1, _, h2⟩ := ih hw
    obtain ⟨n, hk⟩ := parseOptional_pass (digit := digit) ho
    have hk2 := parseOptional_word hwd hwd.ne_dashes
    refine ⟨.opt (some .passphrase) n false none :: .arg w :: ks, ?_, .inr rfl, fun ts st => ?_⟩
    · rw [List.cons_append, List.cons_append, tokens_cons (by obtain ⟨c, r, rfl⟩ := ho.dashes; simp) hk,
        tokens_cons hwd.ne_dashes hk2, h1]
      rw [show ((tokens digit t).map (ks ++ ·)).map (Tok.arg w :: ·) = (tokens digit t).map ((Tok.arg w :: ks) ++ ·) from hcomp [_] ks _]
      exact hcomp [_] _ _
    · rw [List.cons_append, List.cons_append, parseToks, if_neg (by simp [Tok.isOpt])]
      rw [h2]
      cases p <;> simp

/-- What follows a passphrase option. -/
theorem Spec.CommandLine.equals {digit : Nat → Bool} {o x f : Str} {t : List Str} {q : Option Str} (ho : PassphraseOption o)
    (h : CommandLine digit t f q) : CommandLine digit ((o ++ 0x3d :: x) :: t) f (q.or (some x)) := by
  cases h with
  | plain h => exact .plain (.equals ho h)
  | after h => exact .after (.equals ho h)
  | before h hw => exact .before (.equals ho h) hw

theorem Spec.CommandLine.next {digit : Nat → Bool} {o w f : Str} {t : List Str} {q : Option Str} (ho : PassphraseOption o)
    (hw : Word digit w) (h : CommandLine digit t f q) : CommandLine digit (o :: w :: t) f (q.or (some w)) := by
  cases h with
  | plain h => exact .plain (.next ho hw h)
  | after h => exact .after (.next ho hw h)
  | before h hf => exact .before (.next ho hw h) hf

/-- A word can be split off in front of options. -/
theorem parts_word_split {digit : Nat → Bool} {a ws : List Str} {p : Option Str} (h : Parts digit a ws p) {f : Str} (hw : ws = [f]) :
    ∃ a1 a2 p1 p2, a = a1 ++ f :: a2 ∧ Word digit f ∧ Parts digit a1 [] p1 ∧ Parts digit a2 [] p2 ∧ p = p2.or p1 := by
  induction h with
  | nil => cases hw
  | word h1 h2 _ => cases hw; exact ⟨[], _, none, _, rfl, h1, .nil, h2, by simp⟩
  | equals ho _ ih =>
    obtain ⟨a1, a2, p1, p2, rfl, h1, h2, h3, rfl⟩ := ih hw
    exact ⟨_, a2, _, p2, rfl, h1, .equals ho h2, h3, by cases p2 <;> simp⟩
  | next ho hwd _ ih =>
    obtain ⟨a1, a2, p1, p2, rfl, h1, h2, h3, rfl⟩ := ih hw
    exact ⟨_, a2, _, p2, rfl, h1, .next ho hwd h2, h3, by cases p2 <;> simp⟩

/-- Command lines that name a file are read. -/
theorem parseArgs_of_line {digit : Nat → Bool} {args : List Str} {f : Str} {p : Option Str} (h : CommandLine digit args f p) :
    parseArgs digit args = .ok (f, p) := by
  unfold parseArgs
  cases h with
  | plain h =>
    obtain ⟨a1, a2, p1, p2, rfl, hw, h1, h2, rfl⟩ := parts_word_split h rfl
    obtain ⟨ks, e1, _, g1⟩ := parseToks_options h1 rfl (f :: a2)
    obtain ⟨ls, e2, f2, g2⟩ := parseToks_options h2 rfl []
    rw [List.append_nil] at e2
    rw [e1, tokens_cons hw.ne_dashes (parseOptional_word hw hw.ne_dashes), e2]
    show parseToks (ks ++ Tok.arg f :: (ls ++ [])) {} = _
    rw [g1, parseToks]
    split
    · rename_i hno
      rcases f2 with ⟨rfl, rfl⟩ | f2
      · simp [parseRest]
      · simp at hno
        simp at f2
        obtain ⟨x, hx, hx'⟩ := f2
        exact absurd hx' (by simp [hno.2 x hx])
    · simp only
      rw [g2, parseToks]
      simp [parseRest]
  | @after a _ _ h =>
    obtain ⟨ks, e1, _, g1⟩ := parseToks_options h rfl [py! "--", f]
    rw [e1]
    show parseToks (ks ++ [Tok.dashes, Tok.arg f]) {} = _
    rw [g1, parseToks]
    simp [Tok.isOpt, parseRest]
  | @before a _ _ h hw =>
    obtain ⟨ks, e1, _, g1⟩ := parseToks_options h rfl [f, py! "--"]
    rw [e1, tokens_cons hw.ne_dashes (parseOptional_word hw hw.ne_dashes)]
    show parseToks (ks ++ [Tok.arg f, Tok.dashes]) {} = _
    rw [g1, parseToks]
    simp [Tok.isOpt, parseRest]

theorem tokens_cons_inv {digit : Nat → Bool} {s : Str} {t : List Str} {ks : List Tok} (h : s ≠ py! "--")
    (hk : tokens digit (s :: t) = .ok ks) : ∃ k ks', parseOptional digit s = .ok k ∧ tokens digit t = .ok ks' ∧ ks = k :: ks' := by
  rw [tokens, if_neg h] at hk
  cases e1 : parseOptional digit s with
  | error e => rw [e1] at hk; cases hk
  | ok k =>
    cases e2 : tokens digit t with
    | error e => rw [e1, e2] at hk; cases hk
    | ok ks' => rw [e1, e2] at hk; cases hk; exact ⟨k, ks', rfl, rfl, rfl⟩

/-- Only `--` among the arguments, or nothing. -/
theorem tokens_dashes {digit : Nat → Bool} {t : List Str} {ks : List Tok} (h : tokens digit t = .ok ks)
    (hd : ks.dropWhile (· = .dashes) = []) : t = [] ∨ t = [py! "--"] := by
  cases t with
  | nil => exact .inl rfl
  | cons s t =>
    right
    by_cases hs : s = py! "--"
    · subst hs
      rw [tokens, if_pos rfl] at h
      cases h
      cases t with
      | nil => rfl
      | cons a t => simp at hd
    · obtain ⟨k, ks', h1, h2, rfl⟩ := tokens_cons_inv hs h
      have := argKind digit s hs
      rw [h1] at this
      cases this <;> simp at hd

/-- The file name as the last argument that is read. -/
theorem parseRest_first {toks t : List Tok} {s f : Str} {st : ArgState} {p : Option Str} (h1 : st.filename = none)
    (h2 : toks.dropWhile (· = .dashes) = .arg s :: t) (h : parseRest toks st = .ok (f, p)) :
    f = s ∧ p = st.passphrase ∧ t.dropWhile (· = .dashes) = [] := by
  unfold parseRest at h
  simp only [h1, h2] at h
  split at h
  · cases h
  · rename_i hn
    cases h
    simp at hn
    exact ⟨rfl, rfl, List.dropWhile_eq_nil_iff.2 (by simpa using hn.2)⟩

/-- The state after some arguments, and the rest of the command line. -/
theorem line_of_parseToks {digit : Nat → Bool} {f : Str} {p : Option Str} : ∀ (n : Nat) (args : List Str), args.length ≤ n →
    ∀ (ks : List Tok) (st : ArgState), tokens digit args = .ok ks → parseToks ks st = .ok (f, p) →
    (st.filename = none → ∃ q, CommandLine digit args f q ∧ p = q.or st.passphrase) ∧
    (∀ g, st.filename = some g → f = g ∧ ∃ q, Parts digit args [] q ∧ p = q.or st.passphrase) := by
  intro n
  induction n with
  | zero =>
    intro args hl ks st hk hp
    obtain rfl := List.length_eq_zero_iff.1 (by omega : args.length = 0)
    cases hk
    rw [parseToks] at hp
    unfold parseRest at hp
    constructor
    · intro hn; simp [hn] at hp
    · intro g hg
      simp [hg] at hp
      split at hp
      · cases hp
      · cases hp; exact ⟨rfl, none, .nil, by simp⟩
  | succ n ih =>
    intro args hl ks st hk hp
    have hext : st.extras = false := by
      cases he : st.extras with
      | false => rfl
      | true => exact absurd hp (parseToks_extras ks st he f p)
    cases args with
    | nil => exact ih [] (by simp) ks st hk hp
    | cons s t =>
      have hl' : t.length ≤ n := by simpa using hl
      by_cases hs : s = py! "--"
      · subst hs
        rw [tokens, if_pos rfl] at hk
        cases hk
        rw [parseToks, if_pos (by simp [Tok.isOpt])] at hp
        constructor
        · intro hn
          cases t with
          | nil => simp [parseRest, hn] at hp
          | cons a t =>
            obtain ⟨rfl, rfl, h⟩ := parseRest_first (s := a) (t := t.map Tok.arg) hn (by simp) hp
            cases t with
            | nil => exact ⟨none, .after (a := []) .nil, by simp⟩
            | cons b t => simp at h
        · intro g hg
          simp [parseRest, hg] at hp
      · obtain ⟨k, ks', h1, h2, rfl⟩ := tokens_cons_inv hs hk
        have hkind := argKind digit s hs
        rw [h1] at hkind
        cases hkind with
        | word hw =>
          rw [parseToks] at hp
          split at hp
          · constructor
            · intro hn
              obtain ⟨rfl, rfl, h⟩ := parseRest_first (s := s) (t := ks') hn (by simp) hp
              rcases tokens_dashes h2 h with rfl | rfl
              · exact ⟨none, .plain (.word hw .nil), by simp⟩
              · exact ⟨none, .before (a := []) .nil hw, by simp⟩
            · intro g hg
              simp [parseRest, hg] at hp
          · constructor
            · intro hn
              simp only [hn] at hp
              obtain ⟨rfl, q, hq, e⟩ := (ih t hl' _ _ h2 hp).2 s rfl
              exact ⟨q, .plain (.word hw hq), e⟩
            · intro g hg
              simp only [hg] at hp
              exact absurd hp (parseToks_extras _ _ rfl f p)
        | pass nm ho =>
          rw [parseToks.eq_def] at hp
          simp only [List.any_cons, Tok.isOpt, Bool.true_or, Bool.not_true, Bool.false_eq_true, if_false] at hp
          cases t with
          | nil => cases h2; cases hp
          | cons w t =>
            by_cases hw : w = py! "--"
            · subst hw
              rw [tokens, if_pos rfl] at h2
              cases h2
              cases hp
            · obtain ⟨k2, ks2, g1, g2, rfl⟩ := tokens_cons_inv hw h2
              have hkind := argKind digit w hw
              rw [g1] at hkind
              cases hkind with
              | word hww =>
                have := ih t (by simp at hl'; omega) _ _ g2 hp
                constructor
                · intro hn
                  obtain ⟨q, hq, e⟩ := this.1 hn
                  exact ⟨_, hq.next ho hww, by rw [e]; cases q <;> simp⟩
                · intro g hg
                  obtain ⟨e, q, hq, e2⟩ := this.2 g hg
                  exact ⟨e, _, .next ho hww hq, by rw [e2]; cases q <;> simp⟩
              | pass => cases hp
              | value => cases hp
              | help => cases hp
              | unknown => cases hp
        | value o x nm b ho hs' =>
          subst hs'
          rw [parseToks, if_neg (by simp [Tok.isOpt])] at hp
          have := ih t hl' _ _ h2 hp
          constructor
          · intro hn
            obtain ⟨q, hq, e⟩ := this.1 hn
            exact ⟨_, hq.equals ho, by rw [e]; cases q <;> simp⟩
          · intro g hg
            obtain ⟨e, q, hq, e2⟩ := this.2 g hg
            exact ⟨e, _, .equals ho hq, by rw [e2]; cases q <;> simp⟩
        | help nm b v =>
          rw [parseToks.eq_def] at hp
          simp only [List.any_cons, Tok.isOpt, Bool.true_or, Bool.not_true, Bool.false_eq_true, if_false] at hp
          cases v with
          | none => cases hp
          | some x => simp only at hp; split at hp <;> cases hp
        | unknown nm b v =>
          rw [parseToks, if_neg (by simp [Tok.isOpt])] at hp
          exact absurd hp (parseToks_extras _ _ rfl f p)

theorem parseArgs_iff {digit : Nat → Bool} {args : List Str} {f : Str} {p : Option Str} :
    parseArgs digit args = .ok (f, p) ↔ CommandLine digit args f p := by
  refine ⟨fun h => ?_, parseArgs_of_line⟩
  unfold parseArgs at h
  cases e : tokens digit args with
  | error x => rw [e] at h; cases h
  | ok ks =>
    rw [e] at h
    obtain ⟨q, hq, e2⟩ := (line_of_parseToks args.length args (Nat.le_refl _) ks {} e h).1 rfl
    simp at e2
    rw [e2]; exact hq

theorem Spec.HelpOption.dashed {s : Str} (h : HelpOption s) : OptionLike s ∧ ∃ c r, s = 0x2d :: c :: r ∧ (c = 0x68 ∨ c = 0x2d) := by
  cases h with
  | long hl hp =>
    refine ⟨.inr ⟨s, by omega, .inl rfl, .inr hp⟩, ?_⟩
    rcases s with _ | ⟨a, _ | ⟨b, r⟩⟩
    · simp at hl
    · simp at hl
    · obtain ⟨t, ht⟩ := hp
      simp at ht
      exact ⟨b, r, by rw [ht.1], .inr ht.2.1⟩
  | short k => exact ⟨.inl ⟨_, rfl⟩, _, _, rfl, .inl rfl⟩
  | more k t hc => exact ⟨.inl ⟨_, rfl⟩, _, _, rfl, .inl rfl⟩

theorem Spec.HelpOption.not_word {digit : Nat → Bool} {s : Str} (h : HelpOption s) : ¬ Word digit s := by
  obtain ⟨h1, c, r, rfl, hc⟩ := h.dashed
  intro hw
  generalize hs : (0x2d :: c :: r : Str) = s at hw
  cases hw with
  | plain h => subst hs; exact h rfl
  | dash => cases hs
  | number h =>
    cases h with
    | @whole ds e hne hd _ =>
      cases ds with
      | nil => exact hne rfl
      | cons d ds =>
        simp only [List.cons_append, List.cons.injEq, true_and] at hs
        have := hd d (by simp)
        unfold DecimalDigit at this
        omega
    | @point ds fs e hd _ _ _ =>
      cases ds with
      | nil => simp only [List.nil_append, List.cons.injEq, true_and] at hs; omega
      | cons d ds =>
        simp only [List.cons_append, List.cons.injEq, true_and] at hs
        have := hd d (by simp)
        unfold DecimalDigit at this
        omega
  | spaced _ h => subst hs; exact h h1

theorem Spec.HelpOption.not_pass {s : Str} (h : HelpOption s) {o e : Str} (ho : PassphraseOption o) : s ≠ o ++ e := by
  rintro rfl
  have hp := ho
  obtain ⟨c, r, rfl⟩ := ho.dashes
  have := helpOption_long.1 h
  exact hp.not_help ((List.prefix_append _ _).trans this.2)

theorem Spec.HelpOption.ne_dashes {s : Str} (h : HelpOption s) : s ≠ py! "--" := by
  rintro rfl
  exact (helpOption_long.1 h).1 rfl

/-- What the parser makes of an argument that asks for the help. -/
theorem parseOptional_help {digit : Nat → Bool} {s : Str} (h : HelpOption s) :
    ∃ n b v, parseOptional digit s = .ok (.opt (some .help) n b v) ∧ helpShown n b v = true := by
  have := argKind digit s h.ne_dashes
  generalize hk : parseOptional digit s = k at this
  cases this with
  | word hw => exact absurd hw h.not_word
  | pass n hp => exact absurd (List.append_nil s).symm (h.not_pass hp)
  | value o x n b hp hs => exact absurd hs (h.not_pass hp)
  | error he =>
    obtain ⟨x, rfl⟩ := he
    obtain ⟨_, t, ht⟩ := helpOption_long.1 h
    simp at ht
  | help n b v _ hs => exact ⟨n, b, v, rfl, hs.1 h⟩
  | unknown n b v _ hn => exact absurd h.dashed.1 hn

/-- What the parser makes of an option that there is not. -/
theorem parseOptional_unknown {digit : Nat → Bool} {s : Str} (h1 : ¬ Word digit s) (h2 : ¬ OptionLike s) :
    s ≠ py! "--" ∧ ∃ n b v, parseOptional digit s = .ok (.opt none n b v) := by
  have hs : s ≠ py! "--" := by
    rintro rfl
    exact h2 (.inr ⟨_, by decide, .inl rfl, .inl (by decide)⟩)
  refine ⟨hs, ?_⟩
  have := argKind digit s hs
  generalize hk : parseOptional digit s = k at this
  cases this with
  | word hw => exact absurd hw h1
  | pass n hp => exact absurd (.inr ⟨s, by have := hp.1; omega, .inl rfl, .inl hp.2⟩) h2
  | value o x n b hp hs => exact absurd (.inr ⟨o, by have := hp.1; omega, .inr ⟨x, hs⟩, .inl hp.2⟩) h2
  | error he =>
    obtain ⟨x, rfl⟩ := he
    exact absurd (.inr ⟨py! "--", by decide, .inr ⟨x, rfl⟩, .inl (by decide)⟩) h2
  | help n b v hn _ => exact absurd hn h2
  | unknown n b v _ _ => exact ⟨n, b, v, rfl⟩

theorem parseToks_shown {n : Str} {b : Bool} {v : Option Str} (t : List Tok) (st : ArgState) :
    parseToks (.opt (some .help) n b v :: t) st = .error (if helpShown n b v then .help else .usage) := by
  rw [parseToks.eq_def]
  simp only [List.any_cons, Tok.isOpt, Bool.true_or, Bool.not_true, Bool.false_eq_true, if_false]
  cases v with
  | none => rfl
  | some x =>
    have e : helpShown n b (some x) = (n = py! "-h" && x ≠ [] && !b && helpCluster x) := rfl
    rw [e]
    dsimp only
    cases (n = py! "-h" && x ≠ [] && !b && helpCluster x) <;> rfl

/-- The help is shown when everything in front of it can be read. -/
theorem help_of_readable {digit : Nat → Bool} {a : List Str} {s : Str} {t : List Str} (ha : Readable digit a) (hs : HelpOption s) :
    ∀ ks st, tokens digit (a ++ s :: t) = .ok ks → parseToks ks st = .error .help ∧ ks.any Tok.isOpt = true := by
  induction ha with
  | nil =>
    intro ks st hk
    obtain ⟨k, ks', h1, h2, rfl⟩ := tokens_cons_inv hs.ne_dashes hk
    obtain ⟨n, b, v, h3, h4⟩ := parseOptional_help (digit := digit) hs
    rw [h1] at h3
    cases h3
    rw [parseToks_shown, h4]
    exact ⟨rfl, rfl⟩
  | @word w t' hw _ ih =>
    intro ks st hk
    obtain ⟨k, ks', h1, h2, rfl⟩ := tokens_cons_inv hw.ne_dashes hk
    rw [parseOptional_word hw hw.ne_dashes] at h1
    cases h1
    have ho := (ih ks' st h2).2
    refine ⟨?_, by simp [ho]⟩
    rw [parseToks.eq_def]
    simp only [List.any_cons, ho, Bool.or_true, Bool.not_true, Bool.false_eq_true, if_false]
    cases st.filename <;> exact (ih ks' _ h2).1
  | @equals o x t' hp _ ih =>
    intro ks st hk
    obtain ⟨n, b, h0⟩ := parseOptional_value (digit := digit) (x := x) hp
    obtain ⟨k, ks', h1, h2, rfl⟩ := tokens_cons_inv (by obtain ⟨c, r, rfl⟩ := hp.dashes; simp) hk
    rw [h0] at h1
    cases h1
    refine ⟨?_, rfl⟩
    rw [parseToks, if_neg (by simp [Tok.isOpt])]
    exact (ih ks' _ h2).1
  | @next o w t' hp hw _ ih =>
    intro ks st hk
    obtain ⟨n, h0⟩ := parseOptional_pass (digit := digit) hp
    obtain ⟨k, ks', h1, h2, rfl⟩ := tokens_cons_inv (by obtain ⟨c, r, rfl⟩ := hp.dashes; simp) hk
    rw [h0] at h1
    cases h1
    obtain ⟨k, ks', h1, h3, rfl⟩ := tokens_cons_inv hw.ne_dashes h2
    rw [parseOptional_word hw hw.ne_dashes] at h1
    cases h1
    refine ⟨?_, rfl⟩
    rw [parseToks, if_neg (by simp [Tok.isOpt])]
    exact (ih ks' _ h3).1
  | @unknown u t' hu1 hu2 _ ih =>
    intro ks st hk
    obtain ⟨hne, n, b, v, h0⟩ := parseOptional_unknown hu1 hu2
    obtain ⟨k, ks', h1, h2, rfl⟩ := tokens_cons_inv hne hk
    rw [h0] at h1
    cases h1
    refine ⟨?_, rfl⟩
    rw [parseToks, if_neg (by simp [Tok.isOpt])]
    exact (ih ks' _ h2).1

theorem parseRest_no_help (toks : List Tok) (st : ArgState) : parseRest toks st ≠ .error .help := by
  unfold parseRest
  split
  · dsimp only
    split <;> nofun
  · dsimp only
    split
    · nofun
    · split <;> nofun

/-- When the help is shown, everything in front of it can be read. -/
theorem readable_of_help {digit : Nat → Bool} : ∀ (n : Nat) (args : List Str), args.length ≤ n →
    ∀ (ks : List Tok) (st : ArgState), tokens digit args = .ok ks → parseToks ks st = .error .help →
    ∃ a s t, args = a ++ s :: t ∧ Readable digit a ∧ HelpOption s := by
  intro n
  induction n with
  | zero =>
    intro args hl ks st hk hp
    obtain rfl := List.length_eq_zero_iff.1 (by omega : args.length = 0)
    cases hk
    rw [parseToks] at hp
    exact absurd hp (parseRest_no_help _ _)
  | succ n ih =>
    intro args hl ks st hk hp
    cases args with
    | nil =>
      cases hk
      rw [parseToks] at hp
      exact absurd hp (parseRest_no_help _ _)
    | cons x args =>
      have hl' : args.length ≤ n := by simpa using hl
      by_cases hx : x = py! "--"
      · subst hx
        rw [tokens, if_pos rfl] at hk
        cases hk
        rw [parseToks, if_pos (by simp [Tok.isOpt])] at hp
        exact absurd hp (parseRest_no_help _ _)
      obtain ⟨k, ks', h1, h2, rfl⟩ := tokens_cons_inv hx hk
      have hkind := argKind digit x hx
      rw [h1] at hkind
      cases hkind with
      | word hw =>
        rw [parseToks.eq_def] at hp
        simp only at hp
        split at hp
        · exact absurd hp (parseRest_no_help _ _)
        · have hrest : ∃ st', parseToks ks' st' = .error .help := by
            split at hp <;> exact ⟨_, hp⟩
          obtain ⟨st', hp⟩ := hrest
          obtain ⟨a, s, t, rfl, ha, hs⟩ := ih args hl' ks' st' h2 hp
          exact ⟨x :: a, s, t, rfl, .word hw ha, hs⟩
      | pass m hpo =>
        rw [parseToks.eq_def] at hp
        simp only [List.any_cons, Tok.isOpt, Bool.true_or, Bool.not_true, Bool.false_eq_true, if_false] at hp
        split at hp
        · rename_i w ks''
          cases args with
          | nil => cases h2
          | cons y args =>
            by_cases hy : y = py! "--"
            · subst hy
              rw [tokens, if_pos rfl] at h2
              cases h2
            · obtain ⟨k, ks3, h3, h4, h5⟩ := tokens_cons_inv hy h2
              cases h5
              have hk2 := argKind digit y hy
              rw [h3] at hk2
              cases hk2 with
              | word hw =>
                obtain ⟨a, s, t, rfl, ha, hs⟩ := ih args (by simp at hl'; omega) ks'' _ h4 hp
                exact ⟨x :: w :: a, s, t, rfl, .next hpo hw ha, hs⟩
        · cases hp
      | value o v m b hpo he =>
        subst he
        rw [parseToks.eq_def] at hp
        simp only [List.any_cons, Tok.isOpt, Bool.true_or, Bool.not_true, Bool.false_eq_true, if_false] at hp
        obtain ⟨a, s, t, rfl, ha, hs⟩ := ih args hl' ks' _ h2 hp
        exact ⟨_ :: a, s, t, rfl, .equals hpo ha, hs⟩
      | help m b v _ hs =>
        rw [parseToks_shown] at hp
        split at hp
        · rename_i hsh
          exact ⟨[], x, args, rfl, .nil, hs.2 hsh⟩
        · cases hp
      | unknown m b v hu1 hu2 =>
        rw [parseToks.eq_def] at hp
        simp only [List.any_cons, Tok.isOpt, Bool.true_or, Bool.not_true, Bool.false_eq_true, if_false] at hp
        obtain ⟨a, s, t, rfl, ha, hs⟩ := ih args hl' ks' _ h2 hp
        exact ⟨x :: a, s, t, rfl, .unknown hu1 hu2 ha, hs⟩

/-- The arguments can be classified if none of them, up to `--`, is ambiguous. -/
theorem tokens_total (digit : Nat → Bool) (args : List Str) :
    (tokens digit args = .error .usage ∧ ∃ x ∈ args.takeWhile (· ≠ py! "--"), py! "--=" <+: x) ∨
    ((∃ ks, tokens digit args = .ok ks) ∧ ∀ x ∈ args.takeWhile (· ≠ py! "--"), ¬ py! "--=" <+: x) := by
  induction args with
  | nil => exact .inr ⟨⟨_, rfl⟩, by simp⟩
  | cons s t ih =>
    by_cases hs : s = py! "--"
    · subst hs
      exact .inr ⟨⟨_, by rw [tokens, if_pos rfl]⟩, by simp⟩
    · rw [List.takeWhile_cons, if_pos (by simpa using hs)]
      have hkind := argKind digit s hs
      have hcase : (parseOptional digit s = .error .usage ∧ py! "--=" <+: s) ∨
          ((∃ k, parseOptional digit s = .ok k) ∧ ¬ py! "--=" <+: s) := by
        generalize hk : parseOptional digit s = k at hkind
        have hp : py! "--=" <+: s → parseOptional digit s = .error .usage := by
          rintro ⟨x, rfl⟩
          have e : partitionEq (py! "--=" ++ x) = (py! "--", some x) := partition_some.2 ⟨rfl, by decide⟩
          have e2 := optionTuples_long (r := 0x3d :: x) rfl e
          rw [if_pos (by decide), if_pos (by decide)] at e2
          unfold parseOptional
          rw [if_neg (by simp), if_neg (by simp)]
          have e3 : dget optionStrings (py! "--=" ++ x) = none := by
            cases h : dget optionStrings (py! "--=" ++ x) with
            | none => rfl
            | some a => rcases dget_options h with ⟨h, _⟩ | ⟨h | h, _⟩ <;> simp at h
          rw [e3, e]
          dsimp only
          rw [if_neg (by simp)]
          have e4 : ((some x).bind fun x => Option.map (fun a => (a, x)) (dget optionStrings (py! "--"))) = none := rfl
          rw [e4]
          dsimp only
          rw [show (0x2d :: 0x2d :: 0x3d :: x) = py! "--=" ++ x from rfl] at e2
          rw [e2]
          rfl
        rw [hk] at hp
        cases hkind with
        | error h => exact .inl ⟨rfl, h⟩
        | word => exact .inr ⟨⟨_, rfl⟩, fun h => nomatch hp h⟩
        | pass => exact .inr ⟨⟨_, rfl⟩, fun h => nomatch hp h⟩
        | value => exact .inr ⟨⟨_, rfl⟩, fun h => nomatch hp h⟩
        | help => exact .inr ⟨⟨_, rfl⟩, fun h => nomatch hp h⟩
        | unknown => exact .inr ⟨⟨_, rfl⟩, fun h => nomatch hp h⟩
      rcases hcase with ⟨h1, h2⟩ | ⟨⟨k, h1⟩, h2⟩
      · exact .inl ⟨by rw [tokens, if_neg hs, h1]; rfl, s, by simp, h2⟩
      · rw [tokens_cons hs h1]
        rcases ih with ⟨h3, x, hx, h4⟩ | ⟨⟨ks, h3⟩, h4⟩
        · exact .inl ⟨by rw [h3]; rfl, x, List.mem_cons_of_mem _ hx, h4⟩
        · refine .inr ⟨⟨k :: ks, by rw [h3]; rfl⟩, ?_⟩
          intro x hx
          rcases List.mem_cons.1 hx with rfl | hx
          · exact h2
          · exact h4 x hx

/-- Nothing that can be read is `--` or ambiguous. -/
theorem readable_plain {digit : Nat → Bool} {a : List Str} (ha : Readable digit a) :
    ∀ x ∈ a, x ≠ py! "--" ∧ ¬ py! "--=" <+: x := by
  have hpass : ∀ {o e : Str}, PassphraseOption o → o ++ e ≠ py! "--" ∧ ¬ py! "--=" <+: o ++ e := by
    intro o e ho
    have ho' := ho.2
    obtain ⟨c, r, rfl⟩ := ho.dashes
    refine ⟨by simp, ?_⟩
    rintro ⟨t, ht⟩
    obtain ⟨u, hu⟩ := ho'
    simp at ht hu
    omega
  have hword : ∀ {w : Str}, Word digit w → w ≠ py! "--" ∧ ¬ py! "--=" <+: w := by
    intro w hw
    refine ⟨hw.ne_dashes, ?_⟩
    rintro ⟨x, rfl⟩
    generalize hs : (py! "--=" ++ x : Str) = s at hw
    cases hw with
    | plain h => subst hs; exact h rfl
    | dash => cases hs
    | number h =>
      cases h with
      | @whole ds e hne hd _ =>
        cases ds with
        | nil => exact hne rfl
        | cons d ds =>
          simp only [List.cons_append, List.cons.injEq, true_and] at hs
          have := hd d (by simp)
          unfold DecimalDigit at this
          omega
      | @point ds fs e hd _ _ _ =>
        cases ds with
        | nil => simp only [List.cons_append, List.nil_append, List.cons.injEq, true_and] at hs; omega
        | cons d ds =>
          simp only [List.cons_append, List.cons.injEq, true_and] at hs
          have := hd d (by simp)
          unfold DecimalDigit at this
          omega
    | spaced _ h =>
      subst hs
      exact h (.inr ⟨py! "--", by decide, .inr ⟨x, rfl⟩, .inl (by decide)⟩)
  induction ha with
  | nil => simp
  | word hw _ ih =>
    intro x hx
    rcases List.mem_cons.1 hx with rfl | hx
    · exact hword hw
    · exact ih x hx
  | equals hp _ ih =>
    intro x hx
    rcases List.mem_cons.1 hx with rfl | hx
    · exact hpass hp
    · exact ih x hx
  | @next o w t hp hw _ ih =>
    intro x hx
    rcases List.mem_cons.1 hx with rfl | hx
    · have := hpass (e := []) hp
      rwa [List.append_nil] at this
    rcases List.mem_cons.1 hx with rfl | hx
    · exact hword hw
    · exact ih x hx
  | unknown h1 h2 _ ih =>
    intro x hx
    rcases List.mem_cons.1 hx with rfl | hx
    · refine ⟨(parseOptional_unknown h1 h2).1, ?_⟩
      rintro ⟨y, rfl⟩
      exact h2 (.inr ⟨py! "--", by decide, .inr ⟨y, rfl⟩, .inl (by decide)⟩)
    · exact ih x hx

theorem takeWhile_through {α : Type} {p : α → Bool} {a t : List α} {s : α} (ha : ∀ x ∈ a, p x = true) (hs : p s = true) :
    (a ++ s :: t).takeWhile p = a ++ s :: t.takeWhile p := by
  rw [List.takeWhile_append_of_pos ha, List.takeWhile_cons, if_pos hs]

theorem parseArgs_help {digit : Nat → Bool} {args : List Str} : parseArgs digit args = .error .help ↔ AsksHelp digit args := by
  have hthrough : ∀ {a s t}, Readable digit a → HelpOption s →
      (a ++ s :: t).takeWhile (· ≠ py! "--") = a ++ s :: t.takeWhile (· ≠ py! "--") := by
    intro a s t ha hs
    exact takeWhile_through (fun x hx => by simpa using (readable_plain ha x hx).1) (by simpa using hs.ne_dashes)
  unfold parseArgs
  rcases tokens_total digit args with ⟨h1, x, hx, h2⟩ | ⟨⟨ks, h1⟩, h2⟩
  · rw [h1]
    constructor
    · nofun
    · rintro ⟨a, s, t, rfl, ha, hs, hn⟩
      rw [hthrough ha hs] at hx
      rcases List.mem_append.1 hx with h | h
      · exact absurd h2 (readable_plain ha x h).2
      rcases List.mem_cons.1 h with rfl | h
      · obtain ⟨y, rfl⟩ := h2
        obtain ⟨_, t, ht⟩ := helpOption_long.1 hs
        simp at ht
      · exact absurd h2 (hn x h)
  · rw [h1]
    show parseToks ks {} = .error .help ↔ _
    constructor
    · intro h
      obtain ⟨a, s, t, rfl, ha, hs⟩ := readable_of_help _ args (Nat.le_refl _) ks {} h1 h
      refine ⟨a, s, t, rfl, ha, hs, fun x hx => h2 x ?_⟩
      rw [hthrough ha hs]
      exact List.mem_append_right _ (List.mem_cons_of_mem _ hx)
    · rintro ⟨a, s, t, rfl, ha, hs, _⟩
      exact (help_of_readable ha hs ks {} h1).1

end OSK
