import Verif.Spec.Lines
import Verif.Lemmas.Exact
/-
C120: what becomes of a public key line that is read and written.
-/
namespace OSK
open Spec

/-- The line `s` is read as a public key, and that is written as the line `s'`. -/
def Rewritten (ext : Ext) (s s' : Str) : Prop :=
  ∃ k, (fromString ext .pub s).res = .ok k ∧ packPublicString ext k true true = .ok s'

theorem lineOf_snoc (t : Str) (b : Bytes) (c x : Str) : lineOf t b c ++ x = lineOf t b (c ++ x) := by
  simp [lineOf]

theorem packLine {ext : Ext} {k : Key} {b0 rest : Bytes} {a c : Str} (hr : KeyReads .pub b0 k rest) (hc : k.clear = lineClear a c rest)
    (s : Str) : packPublicString ext k true true = .ok s ↔
      ∃ t b, k.header = [(py! "key_type", .str t)] ∧ KeyTight .pub b k ∧ s = lineOf t b (c ++ py! "\n") := by
  have hk : Constructed ext k := parsed_constructed (accepts_clear.2 ⟨rest, hr, hc⟩)
  have hp := (public_iff hk).1
  have hrd := hr
  obtain ⟨t, ⟨fmt, wt, wp, wf, hf, h1, h2, h3, -⟩, -, -, hh, -⟩ := hr
  have hfoot : k.footer = [] := by
    generalize k.footer = d at h3
    cases h3
    rfl
  have e1 : commentText ext true k.footer = [] := by rw [hfoot]; rfl
  have e2 : commentText ext true k.clear = 0x20 :: c := by
    unfold commentText
    have : dget k.clear (py! "comment") = some (.str c) := by
      rw [hc]
      unfold lineClear
      simp [dget_cons]
    rw [this]
    simp [pyStr]
  have eg : getItem k.header (py! "key_type") = .ok (.str t) := by
    rw [hh]
    simp [getItem]
  unfold packPublicString
  rw [eg, e1, e2]
  rcases hb : packPublicBytes k with e | b
  · simp only [bind, Except.bind]
    constructor
    · intro h
      cases h
    · rintro ⟨t', b, -, h, -⟩
      have := (hp b).2 ((keyTight_pub hrd).1 h)
      rw [hb] at this
      cases this
  · simp only [bind, Except.bind, pure, Except.pure, Except.ok.injEq, pyStr]
    have hl : t ++ py! " " ++ b64encodeStr b ++ [] ++ 0x20 :: c ++ py! "\n" = lineOf t b (c ++ py! "\n") := by
      rw [b64encodeStr_text]
      simp [lineOf]
    rw [hl]
    constructor
    · rintro rfl
      exact ⟨t, b, hh, (keyTight_pub hrd).2 ((hp b).1 hb), rfl⟩
    · rintro ⟨t', b', h1', h2', rfl⟩
      rw [hh] at h1'
      cases h1'
      have := (hp b').2 ((keyTight_pub hrd).1 h2')
      rw [hb] at this
      cases this
      rfl

theorem words_line {t : Str} {b : Bytes} (ht : 0x20 ∉ t) (c : Str) : Words (lineOf t b c) t (base64Text b) c := by
  refine .three ht fun h => ?_
  rw [← b64encodeStr_text] at h
  exact (b64encodeStr_no_space b _ h).2.1 rfl

theorem words_unique {s a w c a' w' c' : Str} (h : Words s a w c) (h' : Words s a' w' c') : a = a' ∧ w = w' ∧ c = c' := by
  have cut : ∀ {x y x' y' : Str}, (0x20 : Nat) ∉ x → 0x20 ∉ x' → x ++ 0x20 :: y = x' ++ 0x20 :: y' → x = x' ∧ y = y' := by
    intro x
    induction x with
    | nil =>
      intro y x' y' _ h' e
      cases x' with
      | nil => exact ⟨rfl, (List.cons.inj e).2⟩
      | cons z x' => exact absurd (List.mem_cons.2 (.inl (List.cons.inj e).1)) h'
    | cons z x ih =>
      intro y x' y' h h' e
      cases x' with
      | nil => exact absurd (List.mem_cons.2 (.inl (List.cons.inj e).1.symm)) h
      | cons z' x' =>
        obtain ⟨rfl, e2⟩ := List.cons.inj e
        obtain ⟨rfl, rfl⟩ := ih (fun hm => h (by simp [hm])) (fun hm => h' (by simp [hm])) e2
        exact ⟨rfl, rfl⟩
  cases h with
  | two h1 h2 =>
    generalize hs : a ++ 0x20 :: w = s at h'
    cases h' with
    | two h3 h4 =>
      obtain ⟨rfl, rfl⟩ := cut h1 h3 hs
      exact ⟨rfl, rfl, rfl⟩
    | three h3 h4 =>
      obtain ⟨rfl, rfl⟩ := cut h1 h3 hs
      simp at h2
  | three h1 h2 =>
    generalize hs : a ++ 0x20 :: (w ++ 0x20 :: c) = s at h'
    cases h' with
    | two h3 h4 =>
      obtain ⟨rfl, rfl⟩ := cut h1 h3 hs
      simp at h4
    | three h3 h4 =>
      obtain ⟨rfl, e⟩ := cut h1 h3 hs
      obtain ⟨rfl, rfl⟩ := cut h2 h4 e
      exact ⟨rfl, rfl, rfl⟩

theorem type_no_space {k : Key} {b rest : Bytes} (h : KeyReads .pub b k rest) {t : Str} (ht : k.header = [(py! "key_type", .str t)]) :
    0x20 ∉ t := by
  obtain ⟨t', -, -, -, hh, hc⟩ := h
  rw [ht] at hh
  cases hh
  exact fun hm => keyType_no_space hc _ hm rfl

/-- **C120** (form). What is written for a line that was read: the type of the key, not the first word of the line; the key alone; and
the comment followed by a line feed. -/
theorem C120_form (ext : Ext) (s s' : Str) : Rewritten ext s s' ↔
    ∃ a w c b0 rest k t b, Words s a w c ∧ TextReads w b0 ∧ KeyReads .pub b0 k rest ∧ k.header = [(py! "key_type", .str t)] ∧
      KeyTight .pub b k ∧ s' = lineOf t b (c ++ py! "\n") := by
  constructor
  · rintro ⟨k, hr, hp⟩
    obtain ⟨a, w, c, b0, rest, h1, h2, h3, h4⟩ := (C76_accepts ext .pub s k).1 hr
    obtain ⟨t, b, h5, h6, h7⟩ := (packLine h3 h4 s').1 hp
    exact ⟨a, w, c, b0, rest, k, t, b, h1, h2, h3, h5, h6, h7⟩
  · rintro ⟨a, w, c, b0, rest, k, t, b, h1, h2, h3, h5, h6, rfl⟩
    refine ⟨{ k with clear := lineClear a c rest }, (C76_accepts ext .pub s _).2 ⟨a, w, c, b0, rest, h1, h2, h3, rfl⟩, ?_⟩
    exact (packLine (k := { k with clear := lineClear a c rest }) h3 rfl _).2 ⟨t, b, h5, h6, rfl⟩

/-- **C120 is false for the code**: no line at all is reproduced. -/
theorem C120_false (ext : Ext) (s : Str) : ¬ Rewritten ext s s := by
  intro h
  obtain ⟨a, w, c, b0, rest, k, t, b, h1, h2, h3, h5, h6, h7⟩ := (C120_form ext s s).1 h
  have := words_line (b := b) (type_no_space h3 h5) (c ++ py! "\n")
  rw [← h7] at this
  have e := congrArg List.length (words_unique h1 this).2.2
  simp at e

/-- **C120** (partial). Full claim: a line that is read and written is the same line.  It is false of every line (`C120_false`): a line
feed is added.  Proved instead: exactly which lines are the same but for this line feed. -/
theorem C120_exact_partial (ext : Ext) (s : Str) (k : Key) (hr : (fromString ext .pub s).res = .ok k) :
    packPublicString ext k true true = .ok (s ++ py! "\n") ↔ LineTight s k := by
  obtain ⟨a, w, c, b0, rest, h1, h2, h3, h4⟩ := (C76_accepts ext .pub s k).1 hr
  rw [packLine h3 h4]
  constructor
  · rintro ⟨t, b, h5, h6, h7⟩
    refine ⟨t, b, c, h5, h6, ?_⟩
    rw [← lineOf_snoc] at h7
    exact List.append_cancel_right h7
  · rintro ⟨t, b, c', h5, h6, rfl⟩
    obtain ⟨-, -, rfl⟩ := words_unique h1 (words_line (b := b) (type_no_space h3 h5) c')
    exact ⟨t, b, h5, h6, lineOf_snoc _ _ _ _⟩

/-- **C120** (again). What was written is read as the same key, and each time that it is read and written one more line feed is added. -/
theorem C120_again (ext : Ext) (s s' : Str) (h : Rewritten ext s s') (n : Nat) :
    Rewritten ext (s' ++ List.replicate n 0x0a) (s' ++ List.replicate (n + 1) 0x0a) := by
  obtain ⟨a, w, c, b0, rest, k, t, b, h1, h2, h3, h5, h6, rfl⟩ := (C120_form ext s s').1 h
  refine (C120_form ext _ _).2 ⟨t, base64Text b, c ++ py! "\n" ++ List.replicate n 0x0a, b, [], k, t, b, ?_, ?_, ?_, h5, h6, ?_⟩
  · rw [lineOf_snoc]
    exact words_line (type_no_space h3 h5) _
  · refine textReads_iff.1 (C23_decode_str b _ (fun x hx => ?_) (base64Text_filter b))
    rw [← b64encodeStr_text] at hx
    exact (b64encodeStr_no_space b x hx).1
  · obtain ⟨t', fmt, wt, wp, wf, hh, hf, g1, g2, g3, rfl⟩ := h6
    obtain ⟨t'', -, ha, hkd, hh', hcl⟩ := h3
    rw [h5] at hh hh'
    cases hh
    cases hh'
    exact ⟨t, ⟨fmt, wt, wp, wf, hf, tight_encodes g1, tightAll_encodes g2, tightAll_encodes g3, by rw [List.append_nil]⟩, ha, hkd, h5, hcl⟩
  · rw [lineOf_snoc, List.append_assoc, List.append_assoc, List.append_assoc, List.replicate_succ']

/-! ### Examples -/

/-- A line with a small RSA key: the first word, the bytes before the modulus and after the key, and what follows the base64 text. -/
def exLine (t : Str) (pre post : Bytes) (c : Str) : Str :=
  t ++ 0x20 :: ((base64 ([0, 0, 0, 7] ++ pb! "ssh-rsa" ++ [0, 0, 0, 1, 3] ++ [0, 0, 0, UInt8.ofNat (pre.length + 1)] ++ pre ++ [77] ++ post)).map
    UInt8.toNat ++ c)

def exRewrite (s : Str) : Option Str :=
  match (fromString exExt .pub s).res with
  | .ok k => (packPublicString exExt k true true).toOption
  | .error _ => none

theorem exRewrite_eq {s s' : Str} (h : exRewrite s = some s') : Rewritten exExt s s' := by
  unfold exRewrite at h
  split at h
  · rename_i k e
    refine ⟨k, e, ?_⟩
    generalize packPublicString exExt k true true = r at h
    cases r with
    | ok x => cases h; rfl
    | error e => cases h
  · cases h

/-- The same but for the line feed. -/
example : Rewritten exExt (exLine (py! "ssh-rsa") [] [] (py! " me")) (exLine (py! "ssh-rsa") [] [] (py! " me\n")) :=
  exRewrite_eq (by decide +kernel)

/-- Not so: no comment, another first word, a needless zero byte, bytes after the key, characters that base64 ignores. -/
example : ∀ s ∈ [exLine (py! "ssh-rsa") [] [] [], exLine (py! "ssh-dss") [] [] (py! " "), exLine (py! "ssh-rsa") [0] [] (py! " "),
    exLine (py! "ssh-rsa") [] [9] (py! " "), exLine (py! "ssh-rsa") [] [] (py! "\t ")],
    Rewritten exExt s (exLine (py! "ssh-rsa") [] [] (py! " \n")) := by
  have t : ∀ s ∈ [exLine (py! "ssh-rsa") [] [] [], exLine (py! "ssh-dss") [] [] (py! " "), exLine (py! "ssh-rsa") [0] [] (py! " "),
    exLine (py! "ssh-rsa") [] [9] (py! " "), exLine (py! "ssh-rsa") [] [] (py! "\t ")],
    exRewrite s = some (exLine (py! "ssh-rsa") [] [] (py! " \n")) := by decide +kernel
  exact fun s hs => exRewrite_eq (t s hs)

/-- Three times. -/
example : Rewritten exExt (exLine (py! "ssh-rsa") [] [] (py! " me\n\n")) (exLine (py! "ssh-rsa") [] [] (py! " me\n\n\n")) :=
  C120_again exExt _ _ (exRewrite_eq (s := exLine (py! "ssh-rsa") [] [] (py! " me")) (s' := exLine (py! "ssh-rsa") [] [] (py! " me\n"))
    (by decide +kernel)) 1

end OSK
