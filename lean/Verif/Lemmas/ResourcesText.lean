import Verif.Lemmas.ResourcesList
import Verif.Props.Cli
/-
Sizes of keys given as text, and numbers of warnings about them.
-/
namespace OSK
open Spec

theorem a2bLoop_size (s : Bytes) : ∀ (q l p : Nat) (o b : Bytes), q < 4 → a2bLoop s q l p o = .ok b →
    4 * b.length ≤ 4 * o.length + 3 * s.length + (if q = 0 then 0 else 4 - q) := by
  induction s with
  | nil =>
    intro q l p o b hq h
    unfold a2bLoop at h
    split at h
    · simp at h; subst h; omega
    · simp at h
  | cons c t ih =>
    intro q l p o b hq h
    unfold a2bLoop at h
    rw [List.length_cons]
    split at h
    · split at h
      · split at h
        · simp at h; subst h; omega
        · have := ih _ _ _ _ _ hq h; omega
      · have := ih _ _ _ _ _ hq h; omega
    · split at h
      · have := ih _ _ _ _ _ hq h; omega
      · split at h
        · rename_i hq0
          have := ih _ _ _ _ _ (by omega) h
          rw [if_neg (by omega)] at this
          rw [if_pos hq0]; omega
        · split at h
          · have := ih _ _ _ _ _ (by omega) h
            rw [if_neg (by omega), List.length_append, List.length_singleton] at this
            rw [if_neg (by omega)]; omega
          · split at h
            · have := ih _ _ _ _ _ (by omega) h
              rw [if_neg (by omega), List.length_append, List.length_singleton] at this
              rw [if_neg (by omega)]; omega
            · have := ih _ _ _ _ _ (by omega) h
              rw [if_pos rfl, List.length_append, List.length_singleton] at this
              rw [if_neg (by omega)]; omega

theorem b64decodeStr_size {s : Str} {b : Bytes} (h : b64decodeStr s = .ok b) : 4 * b.length ≤ 3 * s.length := by
  unfold b64decodeStr b64decode at h
  split at h
  · have := a2bLoop_size _ _ _ _ _ _ (by decide) h
    simpa using this
  · simp at h

theorem split_one (n : Nat) (s : Str) : splitSpaceMax (n + 1) s = [s] ∨
    ∃ t r, splitSpaceMax (n + 1) s = t :: splitSpaceMax n r ∧ s.length = t.length + 1 + r.length := by
  rw [splitSpaceMax]
  have e : s.takeWhile (fun c => c ≠ 32) ++ s.dropWhile (fun c => c ≠ 32) = s := List.takeWhile_append_dropWhile
  split
  · exact .inl rfl
  · rename_i c rest h
    refine .inr ⟨_, rest, rfl, ?_⟩
    rw [h] at e
    have := congrArg List.length e
    rw [List.length_append, List.length_cons] at this
    omega

theorem split_lengths (s : Str) : splitSpaceMax 2 s = [s] ∨
    (∃ t b, splitSpaceMax 2 s = [t, b] ∧ s.length = t.length + 1 + b.length) ∨
    ∃ t b c, splitSpaceMax 2 s = [t, b, c] ∧ s.length = t.length + 1 + b.length + 1 + c.length := by
  rcases split_one 1 s with h | ⟨t, r, h, hl⟩
  · exact .inl h
  · rcases split_one 0 r with h' | ⟨b, c, h', hl'⟩
    · exact .inr (.inl ⟨t, r, by rw [h, h'], hl⟩)
    · refine .inr (.inr ⟨t, b, c, by rw [h, h']; rfl, by omega⟩)

/-- `from_string` after the line has been split. -/
def fromParts (ext : Ext) (kind : Kind) (typeClear b64 comment : Str) : Eff Key := do
  let b ← Eff.lift (b64decodeStr b64)
  let k ← fromBytes ext kind b
    (some [(py! "key_type", .str typeClear), (py! "comment", .str comment)])
  let t ← Eff.lift (getItem k.header (py! "key_type"))
  if t ≠ .str typeClear then Eff.warn .clearTypeMismatch
  pure k

theorem fromString_parts (ext : Ext) (kind : Kind) (s : Str) :
    (fromString ext kind s = Eff.throw .indexError) ∨
    ∃ t b c, fromString ext kind s = fromParts ext kind t b c ∧ t.length + 1 + b.length + c.length ≤ s.length := by
  unfold fromString
  rcases split_lengths s with h | ⟨t, b, h, hl⟩ | ⟨t, b, c, h, hl⟩
  · rw [h]; exact .inl rfl
  · rw [h]; exact .inr ⟨t, b, [], rfl, by simp; omega⟩
  · rw [h]; exact .inr ⟨t, b, c, rfl, by omega⟩

theorem fromParts_log_le (ext : Ext) (kind : Kind) (t b c : Str) :
    (fromParts ext kind t b c).log.length ≤ b.length + 1 ∧
      ∀ e, (fromParts ext kind t b c).res = .error e → (fromParts ext kind t b c).log.length ≤ b.length := by
  unfold fromParts
  rcases hb : b64decodeStr b with e | x
  · rw [Eff.bind_error (e := e) rfl]
    simp [Eff.lift]
  · rw [Eff.lift_ok_bind]
    have h1 := b64decodeStr_size hb
    have h2 := fromBytes_log_le ext kind x (some [(py! "key_type", .str t), (py! "comment", .str c)])
    generalize hf : fromBytes ext kind x (some [(py! "key_type", .str t), (py! "comment", .str c)]) = f at h2 ⊢
    rcases hk : f.res with e | k
    · rw [Eff.bind_error hk]
      refine ⟨?_, fun e' he => ?_⟩ <;> dsimp only <;> omega
    · rw [Eff.bind_ok hk]
      obtain ⟨t', ht'⟩ := fromBytes_type (hf ▸ hk)
      simp only [getItem, ht', Eff.lift_ok_bind, List.length_append]
      refine ⟨?_, fun e' he => ?_⟩
      · have := warnIf_log_le (c := Val.str t' ≠ .str t) (w := .clearTypeMismatch) (y := pure k) (n := 0) (by simp)
        omega
      · exfalso
        split at he
        · simp [Eff.warn, Eff.mk_bind_ok] at he
        · simp at he

theorem fromString_log_le (ext : Ext) (kind : Kind) (s : Str) :
    (fromString ext kind s).log.length ≤ s.length ∧
      ∀ e, (fromString ext kind s).res = .error e →
        e = .indexError ∨ (fromString ext kind s).log.length + 1 ≤ s.length := by
  rcases fromString_parts ext kind s with h | ⟨t, b, c, h, hl⟩
  · rw [h]
    refine ⟨by simp, fun e he => .inl ?_⟩
    simpa using he.symm
  · rw [h]
    obtain ⟨h1, h2⟩ := fromParts_log_le ext kind t b c
    exact ⟨by omega, fun e he => .inr (by have := h2 e he; omega)⟩

theorem fromString_size {ext : Ext} {kind : Kind} {s : Str} {k : Key} (h : (fromString ext kind s).res = .ok k) :
    keySize k ≤ s.length := by
  rcases fromString_parts ext kind s with h' | ⟨t, b, c, h', hl⟩
  · rw [h'] at h; simp at h
  · rw [h'] at h
    unfold fromParts at h
    obtain ⟨x, hx, h⟩ := Eff.bind_res_ok_iff.1 h
    obtain ⟨k', hk', h⟩ := Eff.bind_res_ok_iff.1 h
    obtain ⟨t', ht', h⟩ := Eff.bind_res_ok_iff.1 h
    have h1 := b64decodeStr_size (s := b) (b := x) hx
    have h2 := fromBytes_size hk'
    have e : k' = k := by
      split at h
      · obtain ⟨_, -, h⟩ := Eff.bind_res_ok_iff.1 h
        simpa using h
      · simpa using h
    subst e
    simp only [Option.getD_some, dictSize, valueSize, List.map_cons, List.map_nil, List.sum_cons, List.sum_nil] at h2
    omega

/-! ### Lines -/

theorem splitLinesLoop_sum (s : Str) : ∀ (cur : Str) (cr : Bool),
    ((splitLinesLoop cur cr s).map List.length).sum ≤ cur.length + s.length := by
  induction s with
  | nil =>
    intro cur cr
    unfold splitLinesLoop
    split <;> simp
  | cons c t ih =>
    intro cur cr
    unfold splitLinesLoop
    rw [List.length_cons]
    split
    · have := ih cur false; omega
    · split
      · have := ih [] (c = 13)
        simp only [List.map_cons, List.sum_cons, List.length_nil] at this ⊢
        omega
      · have := ih (cur ++ [c]) false
        rw [List.length_append, List.length_singleton] at this
        omega

theorem splitLines_sum (s : Str) : ((splitLines s).map List.length).sum ≤ s.length := by
  have := splitLinesLoop_sum s [] false
  simpa [splitLines] using this

theorem strJoin_nil_length (l : List Str) : (strJoin [] l).length = (l.map List.length).sum := by
  induction l with
  | nil => rfl
  | cons a t ih =>
    cases t with
    | nil => simp [strJoin]
    | cons b t => simp only [strJoin, List.append_nil, List.length_append, ih, List.map_cons, List.sum_cons]

theorem slice_sum (l : List Str) (i j : Int) : ((slice l i j).map List.length).sum ≤ (l.map List.length).sum := by
  unfold slice
  have key : ∀ {a b : List Nat}, a.Sublist b → a.sum ≤ b.sum := by
    intro a b h
    induction h with
    | slnil => exact Nat.le_refl _
    | cons _ _ ih => rw [List.sum_cons]; omega
    | cons_cons _ _ ih => rw [List.sum_cons, List.sum_cons]; omega
  exact key (((List.drop_sublist _ _).trans (List.take_sublist _ _)).map List.length)

theorem listFromString_cases (ext : Ext) (cr : Crypto) (inp : Inputs) (s : Str) (passphrase : Option Str) :
    (∃ e, listFromString ext cr inp s passphrase = Eff.throw e) ∨
    ∃ b, listFromString ext cr inp s passphrase = listFromBytes ext cr inp b passphrase ∧ b.length ≤ s.length := by
  unfold listFromString
  rcases h1 : pyIndex (splitLines s) 0 with e | first
  · exact .inl ⟨e, by simp only [h1]; exact Eff.bind_error (e := e) rfl _⟩
  · simp only [Eff.lift_ok_bind, h1]
    split
    · exact .inl ⟨_, rfl⟩
    · rcases h2 : pyIndex (splitLines s) (-1) with e | last
      · exact .inl ⟨e, Eff.bind_error (e := e) rfl _⟩
      · simp only [Eff.lift_ok_bind]
        split
        · exact .inl ⟨_, rfl⟩
        · rcases h3 : b64decodeStr (strJoin [] (slice (splitLines s) 1 (-1))) with e | b
          · exact .inl ⟨e, Eff.bind_error (e := e) rfl _⟩
          · refine .inr ⟨b, Eff.lift_ok_bind _ _, ?_⟩
            have a1 := b64decodeStr_size h3
            rw [strJoin_nil_length] at a1
            have a2 := slice_sum (splitLines s) 1 (-1)
            have a3 := splitLines_sum s
            omega

theorem listFromString_log_le {ext : Ext} {cr : Crypto} (hd : DecryptLengths cr) (inp : Inputs) (s : Str)
    (passphrase : Option Str) : (listFromString ext cr inp s passphrase).log.length ≤ s.length := by
  rcases listFromString_cases ext cr inp s passphrase with ⟨e, h⟩ | ⟨b, h, hl⟩
  · rw [h]; simp
  · rw [h]
    exact (listFromBytes_log_le hd inp b passphrase).trans hl

theorem listFromString_size {ext : Ext} {cr : Crypto} (hd : DecryptLengths cr) {inp : Inputs} {s : Str}
    {passphrase : Option Str} {kl : KeyList} (h : (listFromString ext cr inp s passphrase).res = .ok kl) :
    pairsSize kl.pairs ≤ s.length ∧ 50 * kl.pairs.length ≤ s.length := by
  rcases listFromString_cases ext cr inp s passphrase with ⟨e, h'⟩ | ⟨b, h', hl⟩
  · rw [h'] at h; simp at h
  · rw [h'] at h
    have := listFromBytes_size hd h
    omega

/-! ### The command line -/

theorem cliLine_log_le (ext : Ext) (i : Nat) (l : Str) :
    (cliLine ext i l).log.length ≤ l.length ∧
      ∀ k, (cliLine ext i l).res = .ok (some k) → keySize k ≤ l.length := by
  obtain ⟨h1, h2⟩ := fromString_log_le ext .pub l
  rcases cliLine_cases ext i l with ⟨e, ha, he, h⟩ | ⟨k, hk, h⟩ | ⟨e, ha, he, h⟩
  · rw [h]; exact ⟨h1, fun k hk => by simp at hk⟩
  · rw [h]
    refine ⟨h1, fun k' hk' => ?_⟩
    simp at hk'; subst hk'
    exact fromString_size hk
  · rw [h]
    refine ⟨?_, fun k hk => by simp at hk⟩
    rcases h2 e he with rfl | h2
    · exact absurd (.inl rfl) ha
    · simpa using h2

theorem cliLines_log_le (ext : Ext) (ls : List Str) : ∀ i,
    (cliLines ext i ls).log.length ≤ (ls.map List.length).sum ∧
      ∀ ks, (cliLines ext i ls).res = .ok ks → (ks.map keySize).sum ≤ (ls.map List.length).sum := by
  induction ls with
  | nil => intro i; simp [cliLines]
  | cons l t ih =>
    intro i
    obtain ⟨h1, h2⟩ := cliLine_log_le ext i l
    obtain ⟨h3, h4⟩ := ih (i + 1)
    unfold cliLines
    rw [List.map_cons, List.sum_cons]
    refine ⟨Eff.log_bind_le h1 (fun _ _ => ?_), fun ks h => ?_⟩
    · exact Nat.le_trans (Eff.log_bind_le (n := 0) h3 (fun _ _ => by simp)) (by omega)
    · obtain ⟨k, hk, h⟩ := Eff.bind_res_ok_iff.1 h
      obtain ⟨ks', hks', h⟩ := Eff.bind_res_ok_iff.1 h
      simp at h
      subst h
      have := h4 ks' hks'
      cases k with
      | none => simp; omega
      | some k =>
        have := h2 k hk
        simp only [Option.toList_some, List.cons_append, List.nil_append, List.map_cons, List.sum_cons]
        omega

theorem cliParse_log_le {ext : Ext} {cr : Crypto} (hd : DecryptLengths cr) (inp : Inputs) (s : Str)
    (passphrase : Option Str) : (cliParse ext cr inp s passphrase).log.length ≤ s.length := by
  unfold cliParse
  split
  · exact Nat.le_trans (Eff.log_bind_le (n := 0) (listFromString_log_le hd inp s passphrase) (fun _ _ => by simp)) (by omega)
  · have := splitLines_sum s
    exact Nat.le_trans (Eff.log_bind_le (n := 0) (cliLines_log_le ext (splitLines s) 0).1 (fun _ _ => by simp)) (by omega)

end OSK
