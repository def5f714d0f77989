import Verif.Lemmas.Lines
import Verif.Props.ListPack
import Verif.Props.Text
/-
Properties C28 and C36: the text form of a key list.
-/
namespace OSK
open Spec

/-! ### C36 -/

theorem markers : pemHeader = beginMarker ∧ pemFooter = endMarker := ⟨rfl, rfl⟩

theorem marker_line : Line beginMarker ∧ Line endMarker := by
  refine ⟨⟨by decide, ?_⟩, by decide, ?_⟩ <;> decide +kernel

/-- `from_string` on a text with at least two lines. -/
theorem listFromString_lines (ext : Ext) (cr : Crypto) (inp : Inputs) (s : Str) (passphrase : Option Str)
    (ls : List Str) (h : splitLines s = beginMarker :: (ls ++ [endMarker])) :
    listFromString ext cr inp s passphrase =
      (do let b ← Eff.lift (b64decodeStr ls.flatten); listFromBytes ext cr inp b passphrase) := by
  have h0 : pyIndex (beginMarker :: (ls ++ [endMarker])) 0 = .ok pemHeader := rfl
  have h1 : pyIndex (beginMarker :: (ls ++ [endMarker])) (-1) = .ok pemFooter := by
    unfold pyIndex
    rw [if_neg (by decide), if_pos (by simp; omega)]
    rw [show (((beginMarker :: (ls ++ [endMarker])).length : Int) + -1).toNat = ls.length + 1 by simp]
    simp [listGet, markers]
  unfold listFromString
  simp only [h, h0, h1, slice_middle, strJoin_nil, Eff.lift_ok_bind, ne_eq, not_true_eq_false, if_false]

/-- **C36** (parsing). A text that consists of the marker lines and, between them, lines with the base64 form
of `w` — cut anywhere, with other ASCII characters such as blanks in between, each line ended by LF, CRLF or
CR, the last line possibly not ended — is parsed as the bytes `w` are: same result and same warnings. -/
theorem C36_parse (ext : Ext) (cr : Crypto) (inp : Inputs) (passphrase : Option Str) (w : Bytes) (ls : List Str)
    (s : Str) (hb : ls.flatten.filter (fun c => decide (c ∈ base64Alphabet.map UInt8.toNat)) = base64Text w)
    (ha : ∀ c ∈ ls.flatten, c < 128) (ht : TextOf (beginMarker :: (ls ++ [endMarker])) s) :
    listFromString ext cr inp s passphrase = listFromBytes ext cr inp w passphrase := by
  rw [listFromString_lines ext cr inp s passphrase ls (splitLines_text ht), C23_decode_str w _ ha hb,
    Eff.lift_ok_bind]

theorem base64Text_filter (w : Bytes) :
    (base64Text w).filter (fun c => decide (c ∈ base64Alphabet.map UInt8.toNat)) = base64Text w := by
  rw [List.filter_eq_self]
  intro c hc
  obtain ⟨x, hx, rfl⟩ := List.mem_map.1 hc
  exact decide_eq_true (List.mem_map_of_mem (base64_mem w x hx))

/-- The text with these lines, each followed by the line ending `e`. -/
theorem textOf_endings {ls : List Str} {e : Str} (hl : ∀ l ∈ ls, Line l) (he : e ∈ lineEndings) :
    TextOf ls (ls.flatMap (· ++ e)) := by
  induction ls with
  | nil => exact .nil
  | cons l ls ih =>
    rw [List.flatMap_cons]
    exact .cons (hl l (by simp)) he (ih fun x hx => hl x (by simp [hx]))

theorem wrapped_lines {n : Nat} {w : Bytes} {ls : List Str} (h : Wrapped n w ls) :
    ∀ l ∈ beginMarker :: (ls ++ [endMarker]), Line l := by
  intro l hl
  simp only [List.mem_cons, List.mem_append, List.not_mem_nil, or_false] at hl
  rcases hl with rfl | hl | rfl
  · exact marker_line.1
  · refine ⟨fun h0 => ?_, fun c hc => ?_⟩
    · have := (h.2.2 l hl).1
      simp [h0] at this
    · refine b64_line w c ?_
      rw [← h.1]
      exact List.mem_flatten_of_mem hl hc
  · exact marker_line.2

theorem packed_ne_nil {cr : Crypto} {inp : Inputs} {self : KeyList} {passphrase : Option Str}
    {indices : Option (List Int)} {override retain : Bool} {w : Bytes}
    (h : (packKeyList cr inp self passphrase indices override retain).res = .ok w) : w ≠ [] := by
  obtain ⟨k⟩ := packKeyList_pack h
  obtain ⟨front, wb, ⟨wc, wk, wo, wn, wp, -, -, -, -, -, -, -, rfl⟩, -, hw⟩ := k.lays
  rw [hw]
  simp [magic]

theorem base64_ne_nil {w : Bytes} (h : w ≠ []) : base64Text w ≠ [] := by
  intro h0
  have h1 := b64encode_length w
  rw [b64encode_eq, List.map_eq_nil_iff.1 h0] at h1
  have : 0 < w.length := List.length_pos_iff.2 h
  simp at h1
  omega

/-- **C36** (layout). `pack_string` writes exactly: the begin marker, the base64 form of what `pack_bytes`
writes in at least one line, all lines of 70 characters but the last of 1 to 70, and the end marker, each
ended by a line feed.  It does so whenever `pack_bytes` succeeds, with the same warnings and prompts. -/
theorem C36_layout (cr : Crypto) (inp : Inputs) (self : KeyList) (passphrase : Option Str)
    (indices : Option (List Int)) (override retain : Bool) (w : Bytes)
    (h : (packKeyList cr inp self passphrase indices override retain).res = .ok w) :
    ∃ ls, Wrapped 70 w ls ∧ ls ≠ [] ∧
      (packListString cr inp self passphrase indices override retain).res =
        .ok ((beginMarker :: (ls ++ [endMarker])).flatMap (· ++ py! "\n")) ∧
      (packListString cr inp self passphrase indices override retain).log =
        (packKeyList cr inp self passphrase indices override retain).log := by
  have hne : wrapText (b64encodeStr w) ≠ [] := by
    intro h0
    have := (wrapText_wrapped w).1
    rw [h0] at this
    exact base64_ne_nil (packed_ne_nil h) this.symm
  refine ⟨wrapText (b64encodeStr w), wrapText_wrapped w, hne, ?_, ?_⟩
  · unfold packListString
    simp only [Eff.bind_res_of_ok h, Eff.pure_res]
    rw [List.flatMap_cons, List.flatMap_append, ← strJoin_flatMap _ _ hne]
    simp [markers]
  · unfold packListString
    simp only [Eff.bind_log_ok h, Eff.pure_log, List.append_nil]

/-- **C36** (failure). `pack_string` fails exactly as `pack_bytes` does. -/
theorem C36_failure (cr : Crypto) (inp : Inputs) (self : KeyList) (passphrase : Option Str)
    (indices : Option (List Int)) (override retain : Bool) (e : Exn) :
    (packListString cr inp self passphrase indices override retain).res = .error e ↔
      (packKeyList cr inp self passphrase indices override retain).res = .error e := by
  unfold packListString
  rw [Eff.bind_res_error_iff]
  simp

/-- The text with every line feed replaced. -/
def Spec.replaceLF (e s : Str) : Str := s.flatMap (fun c => if c = 10 then e else [c])

theorem replaceLF_lines {ls : List Str} (h : ∀ l ∈ ls, Line l) (e : Str) :
    replaceLF e (ls.flatMap (· ++ py! "\n")) = ls.flatMap (· ++ e) := by
  unfold replaceLF
  rw [List.flatMap_assoc]
  refine List.flatMap_congr fun l hl => ?_
  rw [List.flatMap_append]
  have h1 : l.flatMap (fun c => if c = 10 then e else [c]) = l := by
    have : ∀ m : Str, (∀ c ∈ m, c ≠ 10) → m.flatMap (fun c => if c = 10 then e else [c]) = m := by
      intro m hm
      induction m with
      | nil => rfl
      | cons a m ih =>
        rw [List.flatMap_cons, if_neg (hm a (by simp)), ih (fun c hc => hm c (by simp [hc]))]; rfl
    refine this l fun c hc h0 => (h l hl).2 c hc ?_
    rw [h0]; decide
  rw [h1, show ((py! "\n" : Str).flatMap (fun c => if c = 10 then e else [c])) = e by simp]

/-- **C36.** What `pack_string` wrote, with its line endings kept or all of them replaced by CRLF or CR, is
parsed as the packed bytes are: same result and same warnings. -/
theorem C36_round_trip (ext : Ext) (cr : Crypto) (inp inp' : Inputs) (self : KeyList)
    (passphrase passphrase' : Option Str) (indices : Option (List Int)) (override retain : Bool) (s : Str)
    (h : (packListString cr inp self passphrase indices override retain).res = .ok s) :
    ∃ w, (packKeyList cr inp self passphrase indices override retain).res = .ok w ∧
      listFromString ext cr inp' s passphrase' = listFromBytes ext cr inp' w passphrase' ∧
      ∀ e ∈ lineEndings, listFromString ext cr inp' (replaceLF e s) passphrase' =
        listFromBytes ext cr inp' w passphrase' := by
  rcases hw : (packKeyList cr inp self passphrase indices override retain).res with e | w
  · rw [(C36_failure cr inp self passphrase indices override retain e).2 hw] at h
    cases h
  · obtain ⟨ls, h1, -, h3, -⟩ := C36_layout cr inp self passphrase indices override retain w hw
    rw [h] at h3
    have key : ∀ e ∈ lineEndings, listFromString ext cr inp'
        ((beginMarker :: (ls ++ [endMarker])).flatMap (· ++ e)) passphrase' =
        listFromBytes ext cr inp' w passphrase' := by
      intro e he
      refine C36_parse ext cr inp' passphrase' w ls _ ?_ ?_ (textOf_endings (wrapped_lines h1) he)
      · rw [h1.1, base64Text_filter]
      · intro c hc
        rw [h1.1, ← b64encodeStr_text] at hc
        exact (b64encodeStr_no_space w c hc).1
    rw [Except.ok.inj h3]
    refine ⟨w, rfl, key _ (by decide), fun e he => ?_⟩
    rw [replaceLF_lines (wrapped_lines h1)]
    exact key e he

/-- **C36** with C25: text that was packed gives the same keys back. -/
theorem C36_keys {ext : Ext} {cr : Crypto} (hl : CryptoLaws cr) (inp inp' : Inputs) (self : KeyList)
    (passphrase passphrase' : Option Str) (indices : Option (List Int)) (override retain : Bool) (s : Str)
    (hk : ∀ p ∈ self.pairs, Constructed ext p.pub ∧ p.priv.kind = .priv ∧ Constructed ext p.priv)
    (hp : ∀ p, Enters inp passphrase p → Enters inp' passphrase' p)
    (h : (packListString cr inp self passphrase indices override retain).res = .ok s) :
    ∃ kl sel, (listFromString ext cr inp' s passphrase').res = .ok kl ∧ Selection self.pairs indices sel ∧
      List.Forall₂ (fun (p q : Pair) => SamePublic (if override then p.priv else p.pub) q.pub ∧
        SamePrivate p.priv q.priv ∧ q.priv.clear = []) sel kl.pairs := by
  obtain ⟨w, h1, h2, -⟩ := C36_round_trip ext cr inp inp' self passphrase passphrase' indices override retain s h
  rw [h2]
  exact C25_round_trip hl inp inp' self passphrase passphrase' indices override retain w hk hp h1

/-- Non-vacuous: the example file as text. -/
def exText : Str := ((packListString toyCrypto exInputs exList none none false true).res.toOption).getD []
theorem exText_packed : (packListString toyCrypto exInputs exList none none false true).res = .ok exText := by
  decide +kernel
example : (splitLines exText).map List.length = [35, 70, 70, 70, 70, 33] ∧
    splitLines (replaceLF (py! "\r\n") exText) = splitLines exText := by decide +kernel
example : ∃ w, (packKeyList toyCrypto exInputs exList none none false true).res = .ok w ∧
    listFromString exExt toyCrypto exInputs exText none = listFromBytes exExt toyCrypto exInputs w none ∧
    ∀ e ∈ lineEndings, listFromString exExt toyCrypto exInputs (replaceLF e exText) none =
      listFromBytes exExt toyCrypto exInputs w none :=
  C36_round_trip exExt toyCrypto exInputs exInputs exList none none none false true exText exText_packed

/-! ### C28 -/

theorem b64decodeStr_exn {s : Str} {e : Exn} (h : b64decodeStr s = .error e) : e.isValueError = true := by
  have key : ∀ (b : Bytes) (q l p : Nat) (o : Bytes), a2bLoop b q l p o = .error e → e.isValueError = true := by
    intro b
    induction b with
    | nil =>
      intro q l p o h
      rw [a2bLoop] at h
      split at h <;> simp at h
      subst h; rfl
    | cons c t ih =>
      intro q l p o h
      rw [a2bLoop] at h
      split at h
      · split at h
        · split at h
          · simp at h
          · exact ih _ _ _ _ h
        · exact ih _ _ _ _ h
      · split at h
        · exact ih _ _ _ _ h
        · split at h
          · exact ih _ _ _ _ h
          · split at h
            · exact ih _ _ _ _ h
            · split at h <;> exact ih _ _ _ _ h
  unfold b64decodeStr at h
  split at h
  · exact key _ _ _ _ _ h
  · simp at h; subst h; rfl

/-- **C28** is false: the empty string has no lines, and looking at the first one raises `IndexError`. -/
theorem C28_false (ext : Ext) (cr : Crypto) (inp : Inputs) (passphrase : Option Str) :
    (listFromString ext cr inp [] passphrase).res = .error .indexError ∧
      Exn.isValueError .indexError = false := ⟨rfl, rfl⟩

/-- **C28**, except for the empty string: `from_string` returns or raises `ValueError` (or a subclass).
Missing from the full statement: the empty string, see `C28_false`. -/
theorem C28_only_value_error_partial (ext : Ext) (cr : Crypto) (inp : Inputs) (s : Str) (passphrase : Option Str)
    (e : Exn) (hs : s ≠ []) (h : (listFromString ext cr inp s passphrase).res = .error e) :
    e.isValueError = true := by
  have hl := splitLines_ne_nil hs
  unfold listFromString at h
  simp only at h
  obtain ⟨a, t, ht⟩ := List.exists_cons_of_ne_nil hl
  have h0 : pyIndex (splitLines s) 0 = .ok a := by rw [ht]; rfl
  have h1 : ∃ z, pyIndex (splitLines s) (-1) = .ok z := by
    unfold pyIndex
    rw [if_neg (by decide), if_pos (by rw [ht]; simp), ht]
    rw [show (((a :: t).length : Int) + -1).toNat = t.length by simp]
    have : t.length < (a :: t).length := by simp
    exact ⟨_, by rw [listGet, List.getElem?_eq_getElem this]⟩
  obtain ⟨z, hz⟩ := h1
  simp only [h0, hz, Eff.lift_ok_bind] at h
  split at h
  · simp at h; subst h; rfl
  · split at h
    · simp at h; subst h; rfl
    · rcases (Eff.bind_res_error_iff).1 h with h | ⟨b, -, h⟩
      · exact b64decodeStr_exn (by simpa using h)
      · exact C27_only_value_error ext cr inp b passphrase e h

/-- Non-vacuous: a string that is no key, one with wrong base64, one with a damaged key. -/
example : (listFromString exExt toyCrypto exInputs (py! "x") none).res =
      .error (.valueError "Not an openssh private key") ∧
    (listFromString exExt toyCrypto exInputs (beginMarker ++ py! "\nA\n" ++ endMarker) none).res =
      .error .binasciiError ∧
    ((listFromString exExt toyCrypto exInputs (beginMarker ++ py! "\nAAAA\n" ++ endMarker) none).res.toOption).isSome
      = false := by decide +kernel

end OSK
