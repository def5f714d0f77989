import Verif.Model.Json
import Verif.Lemmas.JsonText
import Verif.Lemmas.Eff
/-
What the encoder writes.
-/
namespace OSK
open Spec

/-- Printable ASCII characters and line feeds. -/
def Plain7 (s : Str) : Prop := ∀ c ∈ s, c = 10 ∨ (32 ≤ c ∧ c ≤ 126)

theorem plain7_append {s t : Str} : Plain7 (s ++ t) ↔ Plain7 s ∧ Plain7 t := by
  simp only [Plain7, List.mem_append]
  exact ⟨fun h => ⟨fun c hc => h c (Or.inl hc), fun c hc => h c (Or.inr hc)⟩,
    fun h c hc => hc.elim (h.1 c) (h.2 c)⟩

theorem plain7_cons {c : Nat} {t : Str} : Plain7 (c :: t) ↔ (c = 10 ∨ (32 ≤ c ∧ c ≤ 126)) ∧ Plain7 t := by
  simp [Plain7]

theorem plain7_nil : Plain7 [] := by simp [Plain7]

/-! ### Strings -/

theorem hexDigit_spec {n : Nat} (h : n < 16) : HexDigit n (hexDigit n) := by
  unfold HexDigit hexDigit; split <;> omega

theorem hexDigit_small {n : Nat} (h : n < 16) : SmallHexDigit n (hexDigit n) := by
  unfold SmallHexDigit hexDigit; split <;> omega

theorem hexDigit_plain {n : Nat} (h : n < 16) : 32 ≤ hexDigit n ∧ hexDigit n ≤ 126 := by
  unfold hexDigit; split <;> omega

theorem hex4_spec {n : Nat} (h : n < 65536) : Hex4 n (hex4 n) :=
  ⟨_, _, _, _, _, _, _, _, hexDigit_spec (n := n / 4096) (by omega), hexDigit_spec (n := n / 256 % 16) (by omega),
    hexDigit_spec (n := n / 16 % 16) (by omega), hexDigit_spec (n := n % 16) (by omega), rfl, by omega⟩

theorem hex4_plain {n : Nat} (h : n < 65536) : Plain7 (hex4 n) := by
  simp only [hex4, plain7_cons]
  exact ⟨Or.inr (hexDigit_plain (by omega)), Or.inr (hexDigit_plain (by omega)), Or.inr (hexDigit_plain (by omega)),
    Or.inr (hexDigit_plain (by omega)), plain7_nil⟩

theorem jsonChar_spec (c : Char) : CharText c (jsonChar c.toNat) ∧ Plain7 (jsonChar c.toNat) := by
  have hs := char_scalar c
  have short : ∀ {e : Nat}, (c.toNat, e) ∈ shortEscapes → 32 ≤ e ∧ e ≤ 126 →
      CharText c [92, e] ∧ Plain7 [92, e] := fun h h' =>
    ⟨.short h, by simp only [plain7_cons]; exact ⟨by omega, by omega, plain7_nil⟩⟩
  unfold jsonChar
  split
  · next h => exact short (by rw [h]; decide) (by omega)
  split
  · next h => exact short (by rw [h]; decide) (by omega)
  split
  · next h => exact short (by rw [h]; decide) (by omega)
  split
  · next h => exact short (by rw [h]; decide) (by omega)
  split
  · next h => exact short (by rw [h]; decide) (by omega)
  split
  · next h => exact short (by rw [h]; decide) (by omega)
  split
  · next h => exact short (by rw [h]; decide) (by omega)
  split
  · next h => exact ⟨.plain (by omega) (by omega) (by omega), by rw [plain7_cons]; exact ⟨by omega, plain7_nil⟩⟩
  split
  · next h =>
    refine ⟨.hex (hex4_spec h), ?_⟩
    rw [plain7_append]
    exact ⟨by simp [Plain7], hex4_plain h⟩
  · next h =>
    refine ⟨.surrogates (hi := (c.toNat - 0x10000) / 1024 % 1024) (lo := (c.toNat - 0x10000) % 1024)
      (hex4_spec (by omega)) (hex4_spec (by omega)) (by omega) (by omega) (by omega), ?_⟩
    simp only [plain7_append]
    exact ⟨⟨by simp [Plain7], hex4_plain (by omega)⟩, by simp [Plain7], hex4_plain (by omega)⟩

theorem jsonString_spec (cs : List Char) : StringText cs (jsonString (strOf cs)) ∧ Plain7 (jsonString (strOf cs)) := by
  have key : CharsText cs ((strOf cs).flatMap jsonChar) ∧ Plain7 ((strOf cs).flatMap jsonChar) := by
    induction cs with
    | nil => exact ⟨.nil, plain7_nil⟩
    | cons c t ih =>
      simp only [strOf, List.map_cons, List.flatMap_cons] at ih ⊢
      exact ⟨.cons (jsonChar_spec c).1 ih.1, plain7_append.2 ⟨(jsonChar_spec c).2, ih.2⟩⟩
  refine ⟨⟨key.1⟩, ?_⟩
  unfold jsonString
  simp only [plain7_append]
  exact ⟨⟨by simp [Plain7], key.2⟩, by simp [Plain7]⟩

/-! ### Numbers -/

theorem decimalAux_spec (fuel n : Nat) (h : n < 10 ^ fuel) (hf : 0 < fuel) :
    Digits (decimalAux fuel n) ∧ decValue (decimalAux fuel n) = n ∧
      (∀ m, 0 < m → ((decimalAux fuel n).length ≤ m ↔ n < 10 ^ m)) := by
  induction fuel generalizing n with
  | zero => omega
  | succ f ih =>
    rw [decimalAux]
    split
    · next hn =>
      refine ⟨⟨by simp, by simp; omega, by simp⟩, by simp [decValue], ?_⟩
      intro m hm
      obtain ⟨k, rfl⟩ : ∃ k, m = k + 1 := ⟨m - 1, by omega⟩
      have := Nat.one_le_two_pow (n := 0)
      have : 0 < 10 ^ k := Nat.pow_pos (by omega)
      simp [Nat.pow_succ]; omega
    · next hn =>
      have hf : 0 < f := by
        rcases Nat.eq_zero_or_pos f with rfl | h0
        · simp at h; omega
        · exact h0
      obtain ⟨h1, h2, h3⟩ := ih (n / 10) (by rw [Nat.pow_succ] at h; omega) hf
      refine ⟨⟨by simp, ?_, ?_⟩, ?_, ?_⟩
      · intro d hd
        simp at hd
        rcases hd with hd | rfl
        · exact h1.2.1 d hd
        · omega
      · intro h0
        exfalso
        rcases hx : decimalAux f (n / 10) with _ | ⟨d, t⟩
        · exact h1.1 hx
        · rw [hx] at h0 h1
          simp at h0
          subst h0
          have := h1.2.2 rfl
          rw [hx, this] at h2
          simp [decValue] at h2
          omega
      · unfold decValue at h2 ⊢
        rw [List.foldl_append, h2]
        simp; omega
      · intro m hm
        obtain ⟨k, rfl⟩ : ∃ k, m = k + 1 := ⟨m - 1, by omega⟩
        rcases Nat.eq_zero_or_pos k with rfl | hk
        · have : (decimalAux f (n / 10)).length ≠ 0 := by simp [h1.1]
          simp only [List.length_append, List.length_singleton, Nat.zero_add, Nat.pow_one]
          omega
        · have := h3 k hk
          simp [Nat.pow_succ]
          rw [this]
          omega

theorem decimal_spec (n : Nat) :
    Digits (decimal n) ∧ decValue (decimal n) = n ∧ ∀ m, 0 < m → ((decimal n).length ≤ m ↔ n < 10 ^ m) := by
  refine decimalAux_spec _ n ?_ (by omega)
  have h1 := Nat.lt_log2_self (n := n)
  have h2 : 2 ^ (n.log2 + 1) ≤ 10 ^ (n.log2 + 1) := Nat.pow_le_pow_left (by omega) _
  omega

theorem intRepr_ok {m : Nat} {i : Int} (h : FewDigits m i) : ∃ s, intRepr m i = .ok s ∧ IntText i s ∧ Plain7 s := by
  obtain ⟨h1, h2, h3⟩ := decimal_spec i.natAbs
  have hp : Plain7 (decimal i.natAbs) := fun c hc => Or.inr (by have := h1.2.1 c hc; omega)
  unfold intRepr
  simp only
  split
  · next hb =>
    exfalso
    rcases h with h | h
    · exact hb.1 h
    · have := (h3 m (by omega)).2 h; omega
  · refine ⟨_, rfl, ?_⟩
    split
    · next hi =>
      have : IntText (-(decValue (decimal i.natAbs) : Int)) (45 :: decimal i.natAbs) := .neg h1
      rw [h2, show -(i.natAbs : Int) = i by omega] at this
      exact ⟨this, plain7_cons.2 ⟨by omega, hp⟩⟩
    · next hi =>
      have : IntText (decValue (decimal i.natAbs) : Int) (decimal i.natAbs) := .pos h1
      rw [h2, show (i.natAbs : Int) = i by omega] at this
      exact ⟨this, hp⟩

theorem intRepr_error {m : Nat} {i : Int} (h : ¬ FewDigits m i) : ∃ msg, intRepr m i = .error (.valueError msg) := by
  obtain ⟨h1, h2, h3⟩ := decimal_spec i.natAbs
  unfold FewDigits at h
  have : m ≠ 0 ∧ m < (decimal i.natAbs).length := by
    refine ⟨by omega, ?_⟩
    have := (h3 m (by omega)).1
    omega
  unfold intRepr
  simp only [if_pos this]
  exact ⟨_, rfl⟩

/-! ### Bytes -/

theorem reprByte_spec {q : Nat} (hq : q = 0x27 ∨ q = 0x22) (x : UInt8) :
    ByteText q x (reprByte q x) ∧ ∀ c ∈ reprByte q x, 32 ≤ c ∧ c ≤ 126 := by
  have hx := x.toNat_lt
  unfold reprByte
  simp only
  split
  · next h => exact ⟨.escape (by simp; omega), by simp; omega⟩
  split
  · next h => exact ⟨.escape (by simp; omega), by simp⟩
  split
  · next h => exact ⟨.escape (by simp; omega), by simp⟩
  split
  · next h => exact ⟨.escape (by simp; omega), by simp⟩
  split
  · next h =>
    refine ⟨.hex (hexDigit_small (n := x.toNat / 16) (by omega)) (hexDigit_small (n := x.toNat % 16) (by omega)) (by omega), ?_⟩
    simp only [List.mem_cons, List.not_mem_nil, or_false]
    rintro c (rfl | rfl | rfl | rfl)
    · omega
    · omega
    · exact hexDigit_plain (by omega)
    · exact hexDigit_plain (by omega)
  · exact ⟨.plain (by omega) (by omega) (by omega) (by omega), by simp; omega⟩

theorem strOf_of_ascii {s : Str} (h : ∀ c ∈ s, c < 0xd800) : ∃ cs : List Char, strOf cs = s := by
  induction s with
  | nil => exact ⟨[], rfl⟩
  | cons c t ih =>
    obtain ⟨cs, hcs⟩ := ih (fun d hd => h d (by simp [hd]))
    have hc := h c (by simp)
    have hv : c.isValidChar := Or.inl hc
    refine ⟨Char.ofNatAux c hv :: cs, ?_⟩
    simp only [strOf, List.map_cons] at hcs ⊢
    rw [hcs]
    congr 1

theorem bytesRepr_spec (b : Bytes) : BytesLiteral b (bytesRepr b) ∧ ∀ c ∈ bytesRepr b, 32 ≤ c ∧ c ≤ 126 := by
  unfold bytesRepr
  simp only
  generalize hq : (if b.contains 39 && !b.contains 34 then 34 else 39) = q
  have hq : q = 0x27 ∨ q = 0x22 := by subst hq; split <;> simp
  have key : BytesText q b (b.flatMap (reprByte q)) ∧ ∀ c ∈ b.flatMap (reprByte q), 32 ≤ c ∧ c ≤ 126 := by
    clear * - hq
    induction b with
    | nil => exact ⟨.nil, by simp⟩
    | cons x t ih =>
      simp only [List.flatMap_cons]
      refine ⟨.cons (reprByte_spec hq x).1 ih.1, ?_⟩
      intro c hc
      simp only [List.mem_append] at hc
      exact hc.elim ((reprByte_spec hq x).2 c) (ih.2 c)
  refine ⟨⟨hq, key.1⟩, ?_⟩
  simp only [List.mem_append, List.mem_cons, List.not_mem_nil, or_false]
  rintro c (((rfl | rfl) | h) | rfl)
  · omega
  · omega
  · exact key.2 c h
  · omega

/-! ### Values -/

theorem ws_line (n : Nat) : Ws (lineAt n) := by
  intro c hc
  simp [lineAt] at hc
  omega

/-- What is laid out is JSON text. -/
theorem Spec.LaidOut.text_of {n : Nat} {p : Piece} {s : Str} (h : LaidOut n p s) : PieceText p s := by
  have hb : Ws (py! " ") := by simp [Ws]
  induction h with
  | null => exact .null
  | int h => exact .int h
  | text h => exact .text h
  | emptyList => exact .emptyList (w := []) ws_nil
  | list _ ih => exact .list (ws_line _) ih (ws_line _)
  | emptyObject => exact .emptyObject (w := []) ws_nil
  | object _ ih => exact .object (ws_line _) ih (ws_line _)
  | item _ ih => exact .item ih
  | items _ _ ih1 ih2 => simpa using PieceText.items ih1 ws_nil (ws_line _) ih2
  | member hk _ ih => simpa using PieceText.member hk ws_nil hb ih
  | members hk _ _ ih1 ih2 => simpa using PieceText.members hk ws_nil hb ih1 ws_nil (ws_line _) ih2

/-- `o` is encoded as `j`, unless one of the numbers `ns` in it is too long. -/
structure Enc (o : PyObj) (j : Json) (ns : Int → Prop) : Prop where
  ok : ∀ m level, (∀ i, ns i → FewDigits m i) → ∃ s, jsonEncode m level o = .ok s ∧ LaidOut level (.value j) s ∧ Plain7 s
  error : ∀ m level, (∃ i, ns i ∧ ¬ FewDigits m i) → ∃ msg, jsonEncode m level o = .error (.valueError msg)

theorem Enc.congr {o : PyObj} {j : Json} {ns ns' : Int → Prop} (h : Enc o j ns) (e : ∀ i, ns i ↔ ns' i) : Enc o j ns' := by
  obtain rfl : ns = ns' := funext fun i => propext (e i)
  exact h

theorem enc_none : Enc .none .null (fun _ => False) :=
  ⟨fun m level _ => ⟨_, rfl, .null, by simp [Plain7]⟩, by simp⟩

theorem enc_int (i : Int) : Enc (.int i) (.int i) (fun n => n = i) :=
  ⟨fun m level h => by
      obtain ⟨s, h1, h2, h3⟩ := intRepr_ok (h i rfl)
      exact ⟨s, by rw [jsonEncode]; exact h1, .int h2, h3⟩,
    fun m level h => by
      obtain ⟨_, rfl, h⟩ := h
      rw [jsonEncode]; exact intRepr_error h⟩

theorem enc_str (cs : List Char) : Enc (.str (strOf cs)) (.text cs) (fun _ => False) :=
  ⟨fun m level h => ⟨_, by rw [jsonEncode], .text (jsonString_spec cs).1, (jsonString_spec cs).2⟩, by simp⟩

theorem enc_bytes (b : Bytes) : ∃ cs, BytesLiteral b (strOf cs) ∧ Enc (.bytes b) (.text cs) (fun _ => False) := by
  obtain ⟨h1, h2⟩ := bytesRepr_spec b
  obtain ⟨cs, hcs⟩ := strOf_of_ascii (fun c hc => by have := h2 c hc; omega)
  refine ⟨cs, hcs ▸ h1, fun m level h => ⟨jsonString (bytesRepr b), by rw [jsonEncode], ?_⟩, by simp⟩
  rw [← hcs]
  exact ⟨.text (jsonString_spec cs).1, (jsonString_spec cs).2⟩

theorem plain7_newline (n : Nat) : Plain7 (newlineIndent n) := by
  intro c hc
  simp [newlineIndent] at hc
  omega

/-- The values of an array. -/
theorem enc_items {α : Type} (f : α → PyObj) (g : α → Json) (ns : α → Int → Prop) (l : List α) (hl : l ≠ [])
    (h : ∀ x ∈ l, Enc (f x) (g x) (ns x)) (m level : Nat) :
    ((∀ i, (∃ x ∈ l, ns x i) → FewDigits m i) → ∃ s, jsonItems m level (l.map f) = .ok s ∧
      LaidOut level (.items (l.map g)) s ∧ Plain7 s) ∧
    ((∃ i, (∃ x ∈ l, ns x i) ∧ ¬ FewDigits m i) → ∃ msg, jsonItems m level (l.map f) = .error (.valueError msg)) := by
  induction l with
  | nil => exact absurd rfl hl
  | cons x t ih =>
    have hx := h x (by simp)
    cases t with
    | nil =>
      simp only [List.map_cons, List.map_nil, jsonItems]
      constructor
      · intro hf
        obtain ⟨s, h1, h2, h3⟩ := hx.ok m level (fun i hi => hf i ⟨x, by simp, hi⟩)
        exact ⟨s, h1, .item h2, h3⟩
      · rintro ⟨i, ⟨y, hy, hi⟩, hn⟩
        simp at hy; subst hy
        exact hx.error m level ⟨i, hi, hn⟩
    | cons y t =>
      obtain ⟨ih1, ih2⟩ := ih (by simp) (fun z hz => h z (by simp [hz]))
      simp only [List.map_cons, jsonItems] at ih1 ih2 ⊢
      constructor
      · intro hf
        obtain ⟨s, h1, h2, h3⟩ := hx.ok m level (fun i hi => hf i ⟨x, by simp, hi⟩)
        obtain ⟨s', h1', h2', h3'⟩ := ih1 (fun i ⟨z, hz, hi⟩ => hf i ⟨z, List.mem_cons_of_mem _ hz, hi⟩)
        refine ⟨s ++ py! "," ++ newlineIndent level ++ s', ?_, .items h2 h2', ?_⟩
        · rw [h1, h1']; simp [Bind.bind, Except.bind, pure, Except.pure]
        · simp only [plain7_append]
          exact ⟨⟨⟨h3, by simp [Plain7]⟩, plain7_newline _⟩, h3'⟩
      · rintro ⟨i, ⟨z, hz, hi⟩, hn⟩
        by_cases hxe : ∃ i, ns x i ∧ ¬ FewDigits m i
        · obtain ⟨msg, h1⟩ := hx.error m level hxe
          exact ⟨msg, by rw [h1]; rfl⟩
        · obtain ⟨s, h1, -⟩ := hx.ok m level (fun i hi => Classical.byContradiction fun hc => hxe ⟨i, hi, hc⟩)
          rw [List.mem_cons] at hz
          rcases hz with rfl | hz
          · exact absurd ⟨i, hi, hn⟩ hxe
          · obtain ⟨msg, h2⟩ := ih2 ⟨i, ⟨z, hz, hi⟩, hn⟩
            exact ⟨msg, by rw [h1, h2]; rfl⟩

/-- The members of an object. -/
theorem enc_members {α : Type} (k : α → List Char) (f : α → PyObj) (g : α → Json) (ns : α → Int → Prop) (l : List α)
    (hl : l ≠ []) (h : ∀ x ∈ l, Enc (f x) (g x) (ns x)) (m level : Nat) :
    ((∀ i, (∃ x ∈ l, ns x i) → FewDigits m i) → ∃ s, jsonMembers m level (l.map fun x => (strOf (k x), f x)) = .ok s ∧
      LaidOut level (.members (l.map fun x => (k x, g x))) s ∧ Plain7 s) ∧
    ((∃ i, (∃ x ∈ l, ns x i) ∧ ¬ FewDigits m i) →
      ∃ msg, jsonMembers m level (l.map fun x => (strOf (k x), f x)) = .error (.valueError msg)) := by
  induction l with
  | nil => exact absurd rfl hl
  | cons x t ih =>
    have hx := h x (by simp)
    cases t with
    | nil =>
      simp only [List.map_cons, List.map_nil, jsonMembers]
      constructor
      · intro hf
        obtain ⟨s, h1, h2, h3⟩ := hx.ok m level (fun i hi => hf i ⟨x, by simp, hi⟩)
        refine ⟨jsonString (strOf (k x)) ++ py! ": " ++ s, ?_, .member (jsonString_spec _).1 h2, ?_⟩
        · rw [h1]; simp [Bind.bind, Except.bind, pure, Except.pure]
        · simp only [plain7_append]
          exact ⟨⟨(jsonString_spec _).2, by simp [Plain7]⟩, h3⟩
      · rintro ⟨i, ⟨y, hy, hi⟩, hn⟩
        simp at hy; subst hy
        obtain ⟨msg, h1⟩ := hx.error m level ⟨i, hi, hn⟩
        exact ⟨msg, by rw [h1]; rfl⟩
    | cons y t =>
      obtain ⟨ih1, ih2⟩ := ih (by simp) (fun z hz => h z (by simp [hz]))
      simp only [List.map_cons, jsonMembers] at ih1 ih2 ⊢
      constructor
      · intro hf
        obtain ⟨s, h1, h2, h3⟩ := hx.ok m level (fun i hi => hf i ⟨x, by simp, hi⟩)
        obtain ⟨s', h1', h2', h3'⟩ := ih1 (fun i ⟨z, hz, hi⟩ => hf i ⟨z, List.mem_cons_of_mem _ hz, hi⟩)
        refine ⟨jsonString (strOf (k x)) ++ py! ": " ++ s ++ py! "," ++ newlineIndent level ++ s', ?_,
          .members (jsonString_spec _).1 h2 h2', ?_⟩
        · rw [h1, h1']; simp [Bind.bind, Except.bind, pure, Except.pure]
        · simp only [plain7_append]
          exact ⟨⟨⟨⟨⟨(jsonString_spec _).2, by simp [Plain7]⟩, h3⟩, by simp [Plain7]⟩, plain7_newline _⟩, h3'⟩
      · rintro ⟨i, ⟨z, hz, hi⟩, hn⟩
        by_cases hxe : ∃ i, ns x i ∧ ¬ FewDigits m i
        · obtain ⟨msg, h1⟩ := hx.error m level hxe
          exact ⟨msg, by rw [h1]; rfl⟩
        · obtain ⟨s, h1, -⟩ := hx.ok m level (fun i hi => Classical.byContradiction fun hc => hxe ⟨i, hi, hc⟩)
          rw [List.mem_cons] at hz
          rcases hz with rfl | hz
          · exact absurd ⟨i, hi, hn⟩ hxe
          · obtain ⟨msg, h2⟩ := ih2 ⟨i, ⟨z, hz, hi⟩, hn⟩
            exact ⟨msg, by rw [h1, h2]; rfl⟩

theorem enc_seq {α : Type} (f : α → PyObj) (g : α → Json) (ns : α → Int → Prop) (l : List α)
    (h : ∀ x ∈ l, Enc (f x) (g x) (ns x)) :
    Enc (.seq (l.map f)) (.list (l.map g)) (fun i => ∃ x ∈ l, ns x i) := by
  rcases l with _ | ⟨x, t⟩
  · exact ⟨fun m level _ => ⟨_, by simp [jsonEncode], .emptyList, by simp [Plain7]⟩, by simp⟩
  · have key := fun m level => enc_items f g ns (x :: t) (by simp) h m (level + 1)
    simp only [List.map_cons] at key ⊢
    constructor
    · intro m level hf
      obtain ⟨s, h1, h2, h3⟩ := (key m level).1 hf
      refine ⟨[0x5b] ++ newlineIndent (level + 1) ++ s ++ newlineIndent level ++ [0x5d], ?_,
        .list h2, ?_⟩
      · rw [jsonEncode, h1]; rfl
      · simp only [plain7_append]
        exact ⟨⟨⟨⟨by simp [Plain7], plain7_newline _⟩, h3⟩, plain7_newline _⟩, by simp [Plain7]⟩
    · intro m level hf
      obtain ⟨msg, h1⟩ := (key m level).2 hf
      exact ⟨msg, by rw [jsonEncode, h1]; rfl⟩

theorem enc_dict {α : Type} (k : α → List Char) (f : α → PyObj) (g : α → Json) (ns : α → Int → Prop) (l : List α)
    (h : ∀ x ∈ l, Enc (f x) (g x) (ns x)) :
    Enc (.dict (l.map fun x => (strOf (k x), f x))) (.object (l.map fun x => (k x, g x))) (fun i => ∃ x ∈ l, ns x i) ∧
    Enc (.inst (l.map fun x => (strOf (k x), f x))) (.object (l.map fun x => (k x, g x))) (fun i => ∃ x ∈ l, ns x i) := by
  rcases l with _ | ⟨x, t⟩
  · exact ⟨⟨fun m level _ => ⟨_, by simp [jsonEncode], .emptyObject, by simp [Plain7]⟩, by simp⟩,
      ⟨fun m level _ => ⟨_, by simp [jsonEncode], .emptyObject, by simp [Plain7]⟩, by simp⟩⟩
  · have key := fun m level => enc_members k f g ns (x :: t) (by simp) h m (level + 1)
    simp only [List.map_cons] at key ⊢
    constructor <;> constructor
    · intro m level hf
      obtain ⟨s, h1, h2, h3⟩ := (key m level).1 hf
      refine ⟨[0x7b] ++ newlineIndent (level + 1) ++ s ++ newlineIndent level ++ [0x7d], ?_,
        .object h2, ?_⟩
      · rw [jsonEncode, h1]; rfl
      · simp only [plain7_append]
        exact ⟨⟨⟨⟨by simp [Plain7], plain7_newline _⟩, h3⟩, plain7_newline _⟩, by simp [Plain7]⟩
    · intro m level hf
      obtain ⟨msg, h1⟩ := (key m level).2 hf
      exact ⟨msg, by rw [jsonEncode, h1]; rfl⟩
    · intro m level hf
      obtain ⟨s, h1, h2, h3⟩ := (key m level).1 hf
      refine ⟨[0x7b] ++ newlineIndent (level + 1) ++ s ++ newlineIndent level ++ [0x7d], ?_,
        .object h2, ?_⟩
      · rw [jsonEncode, h1]; rfl
      · simp only [plain7_append]
        exact ⟨⟨⟨⟨by simp [Plain7], plain7_newline _⟩, h3⟩, plain7_newline _⟩, by simp [Plain7]⟩
    · intro m level hf
      obtain ⟨msg, h1⟩ := (key m level).2 hf
      exact ⟨msg, by rw [jsonEncode, h1]; rfl⟩

/-! ### Results -/

theorem exists_list {α β : Type} {P : α → β → Prop} {l : List α} (h : ∀ x ∈ l, ∃ y, P x y) :
    ∃ l' : List (α × β), l = l'.map Prod.fst ∧ ∀ p ∈ l', P p.1 p.2 := by
  induction l with
  | nil => exact ⟨[], rfl, by simp⟩
  | cons x t ih =>
    obtain ⟨y, hy⟩ := h x (by simp)
    obtain ⟨l', rfl, hl⟩ := ih (fun z hz => h z (by simp [hz]))
    exact ⟨(x, y) :: l', rfl, List.forall_mem_cons.2 ⟨hy, hl⟩⟩

/-- The value is a number, bytes, or text without surrogates. -/
def PlainVal (v : Val) : Prop := (∃ i, v = .int i) ∨ (∃ b, v = .bytes b) ∨ ∃ cs, v = .str (strOf cs)

def PlainDict (d : VDict) : Prop := ∀ kv ∈ d, (∃ cs, kv.1 = strOf cs) ∧ PlainVal kv.2

def PlainKey (k : Key) : Prop := PlainDict k.header ∧ PlainDict k.params.data ∧ PlainDict k.footer ∧ PlainDict k.clear

def PlainList (kl : KeyList) : Prop :=
  (∀ p ∈ kl.pairs, PlainKey p.pub ∧ PlainKey p.priv) ∧ (∀ h ∈ kl.header, PlainDict h) ∧
    (∀ o ∈ kl.kdfOptions, PlainDict o.data) ∧ ∀ h ∈ kl.decipherHeader, PlainDict h

def PlainResult : CliResult → Prop
  | .keyList kl => PlainList kl
  | .publicKeys ks => ∀ k ∈ ks, PlainKey k

theorem enc_val (ext : Ext) {v : Val} (h : PlainVal v) :
    ∃ j, ValShows v j ∧ Enc (v.toPy ext) j (fun i => v = .int i) := by
  rcases h with ⟨i, rfl⟩ | ⟨b, rfl⟩ | ⟨cs, rfl⟩
  · exact ⟨_, .int, (enc_int i).congr (by simp [eq_comm])⟩
  · obtain ⟨cs, h1, h2⟩ := enc_bytes b
    exact ⟨_, .bytes h1, h2.congr (by simp)⟩
  · exact ⟨_, .str, (enc_str cs).congr (by simp)⟩

theorem enc_vdict (ext : Ext) {d : VDict} (h : PlainDict d) :
    ∃ j, DictShows d j ∧ Enc (vdictToPy ext d) j (fun i => ∃ n, (n, Val.int i) ∈ d) := by
  have h' : ∀ x ∈ d, ∃ y : List Char × Json, x.1 = strOf y.1 ∧ ValShows x.2 y.2 ∧
      Enc (x.2.toPy ext) y.2 (fun i => x.2 = .int i) := by
    intro x hx
    obtain ⟨⟨cs, h1⟩, h2⟩ := h x hx
    obtain ⟨j, h3, h4⟩ := enc_val ext h2
    exact ⟨(cs, j), h1, h3, h4⟩
  obtain ⟨l, rfl, hl⟩ := exists_list h'
  refine ⟨.object (l.map fun p => (p.2.1, p.2.2)), ⟨_, rfl, ?_⟩, ?_⟩
  · rw [List.forall₂_map_left_iff, List.forall₂_map_right_iff, List.forall₂_same]
    exact fun p hp => ⟨(hl p hp).1, (hl p hp).2.1⟩
  · have e := (enc_dict (fun p : (Str × Val) × (List Char × Json) => p.2.1) (fun p => p.1.2.toPy ext) (fun p => p.2.2)
      (fun p i => p.1.2 = .int i) l (fun p hp => (hl p hp).2.2)).1
    have e1 : vdictToPy ext (l.map Prod.fst) = .dict (l.map fun p => (strOf p.2.1, p.1.2.toPy ext)) := by
      unfold vdictToPy
      congr 1
      rw [List.map_map]
      exact List.map_congr_left fun p hp => by simp [(hl p hp).1]
    rw [e1]
    refine e.congr fun i => ?_
    constructor
    · rintro ⟨p, hp, h1⟩
      exact ⟨p.1.1, List.mem_map.2 ⟨p, hp, Prod.ext rfl h1⟩⟩
    · rintro ⟨n, hn⟩
      obtain ⟨p, hp, h1⟩ := List.mem_map.1 hn
      exact ⟨p, hp, by rw [h1]⟩

/-- An object of attributes. -/
theorem enc_attrs (l : List (List Char × PyObj × Json × (Int → Prop))) (h : ∀ x ∈ l, Enc x.2.1 x.2.2.1 x.2.2.2) :
    Enc (.inst (l.map fun x => (strOf x.1, x.2.1))) (.object (l.map fun x => (x.1, x.2.2.1)))
      (fun i => ∃ x ∈ l, x.2.2.2 i) :=
  (enc_dict (fun x : List Char × PyObj × Json × (Int → Prop) => x.1) (fun x => x.2.1) (fun x => x.2.2.1)
    (fun x => x.2.2.2) l h).2

theorem enc_data (ext : Ext) {d : VDict} (h : PlainDict d) :
    ∃ j, DataShows d j ∧ Enc (userDictToPy ext d) j (fun i => ∃ n, (n, Val.int i) ∈ d) := by
  obtain ⟨x, h1, h2⟩ := enc_vdict ext h
  have := enc_attrs [("data".toList, _, x, _)] (by simpa using h2)
  exact ⟨_, ⟨x, rfl, h1⟩, this.congr (by simp)⟩

theorem enc_key (ext : Ext) {k : Key} (h : PlainKey k) :
    ∃ j, KeyShows k j ∧ Enc (k.toPy ext) j (NumberIn k) := by
  obtain ⟨a, ha, ea⟩ := enc_vdict ext h.1
  obtain ⟨b, hb, eb⟩ := enc_data ext h.2.1
  obtain ⟨c, hc, ec⟩ := enc_vdict ext h.2.2.1
  obtain ⟨d, hd, ed⟩ := enc_vdict ext h.2.2.2
  have := enc_attrs [("header".toList, _, a, _), ("params".toList, _, b, _), ("footer".toList, _, c, _),
    ("clear".toList, _, d, _)] (by simpa using ⟨ea, eb, ec, ed⟩)
  refine ⟨_, ⟨a, b, c, d, rfl, ha, hb, hc, hd⟩, this.congr fun i => ?_⟩
  simp only [List.mem_cons, List.not_mem_nil, or_false, exists_eq_or_imp, exists_eq_left, NumberIn, exists_or]

theorem enc_pair (ext : Ext) {p : Pair} (h : PlainKey p.pub ∧ PlainKey p.priv) :
    ∃ j, PairShows p j ∧ Enc (p.toPy ext) j (fun i => NumberIn p.pub i ∨ NumberIn p.priv i) := by
  obtain ⟨a, ha, ea⟩ := enc_key ext h.1
  obtain ⟨b, hb, eb⟩ := enc_key ext h.2
  have := enc_seq (fun x : PyObj × Json × (Int → Prop) => x.1) (fun x => x.2.1) (fun x => x.2.2)
    [(_, a, _), (_, b, _)] (by simpa using ⟨ea, eb⟩)
  exact ⟨_, ⟨a, b, rfl, ha, hb⟩, this.congr (by simp)⟩

theorem enc_list {α : Type} {f : α → PyObj} {P : α → Json → Prop} {ns : α → Int → Prop} {l : List α}
    (h : ∀ x ∈ l, ∃ j, P x j ∧ Enc (f x) j (ns x)) :
    ∃ js, List.Forall₂ P l js ∧ Enc (.seq (l.map f)) (.list js) (fun i => ∃ x ∈ l, ns x i) := by
  obtain ⟨l', rfl, hl⟩ := exists_list h
  refine ⟨l'.map Prod.snd, ?_, ?_⟩
  · rw [List.forall₂_map_left_iff, List.forall₂_map_right_iff, List.forall₂_same]
    exact fun p hp => (hl p hp).1
  · have := enc_seq (fun p : α × Json => f p.1) (fun p => p.2) (fun p => ns p.1) l' (fun p hp => (hl p hp).2)
    rw [List.map_map]
    exact this.congr (by simp)

theorem enc_opt {α : Type} {f : α → PyObj} {P : α → Json → Prop} {ns : α → Int → Prop} {o : Option α}
    (h : ∀ x ∈ o, ∃ j, P x j ∧ Enc (f x) j (ns x)) :
    ∃ j, OptShows P o j ∧ Enc (optToPy f o) j (fun i => ∃ x, o = some x ∧ ns x i) := by
  cases o with
  | none => exact ⟨_, .none, enc_none.congr (by simp)⟩
  | some x =>
    obtain ⟨j, h1, h2⟩ := h x rfl
    exact ⟨j, .some h1, h2.congr (by simp)⟩

theorem enc_optBytes (o : Option Bytes) :
    ∃ j, OptShows BytesShows o j ∧ Enc (optToPy .bytes o) j (fun _ => False) := by
  obtain ⟨j, h1, h2⟩ := enc_opt (f := PyObj.bytes) (P := BytesShows) (ns := fun _ _ => False) (o := o) (fun b _ => by
    obtain ⟨cs, h1, h2⟩ := enc_bytes b
    exact ⟨_, .bytes h1, h2⟩)
  exact ⟨j, h1, h2.congr (by simp)⟩

theorem enc_result (ext : Ext) {r : CliResult} (h : PlainResult r) :
    ∃ j, ResultShows r j ∧ Enc (r.toPy ext) j (Number r) := by
  cases r with
  | publicKeys ks =>
    obtain ⟨js, h1, h2⟩ := enc_list (fun k hk => enc_key ext (h k hk))
    refine ⟨_, .keys h1, h2.congr fun i => ?_⟩
    exact ⟨fun ⟨k, hk, hi⟩ => .key hk hi, fun h => by cases h with | key hk hi => exact ⟨_, hk, hi⟩⟩
  | keyList kl =>
    obtain ⟨h1, h2, h3, h4⟩ := h
    obtain ⟨l, hl, el⟩ := enc_list (fun p hp => enc_pair ext (h1 p hp))
    obtain ⟨b, hb, eb⟩ := enc_optBytes kl.byteString
    obtain ⟨hd, hhd, ehd⟩ := enc_opt (fun d hd => enc_vdict ext (h2 d hd))
    obtain ⟨c, hc, ec⟩ := enc_optBytes kl.cipherBytes
    obtain ⟨o, ho, eo⟩ := enc_opt (f := fun o : KdfOptions => userDictToPy ext o.data) (P := fun o => DataShows o.data)
      (fun o ho => enc_data ext (h3 o ho))
    obtain ⟨d, hd, ed⟩ := enc_optBytes kl.decipherBytes
    obtain ⟨dh, hdh, edh⟩ := enc_opt (fun d hd => enc_vdict ext (h4 d hd))
    obtain ⟨dp, hdp, edp⟩ := enc_optBytes kl.decipherPadding
    have := enc_attrs [("data".toList, _, .list l, _), ("byte_string".toList, _, b, _), ("header".toList, _, _, _),
      ("cipher_bytes".toList, _, c, _), ("kdf_options".toList, _, o, _), ("decipher_bytes".toList, _, d, _),
      ("decipher_bytes_header".toList, _, dh, _), ("decipher_padding".toList, _, dp, _)]
      (by simpa using ⟨el, eb, ehd, ec, eo, ed, edh, edp⟩)
    refine ⟨_, .list hl hb hhd hc ho hd hdh hdp, this.congr fun i => ?_⟩
    simp only [List.mem_cons, List.not_mem_nil, or_false, exists_eq_or_imp, exists_eq_left, false_or]
    constructor
    · rintro (⟨p, hp, hi | hi⟩ | ⟨d, hd, n, hn⟩ | ⟨o, ho, n, hn⟩ | ⟨d, hd, n, hn⟩)
      · exact .pub hp hi
      · exact .priv hp hi
      · exact .header hd hn
      · exact .options ho hn
      · exact .decipherHeader hd hn
    · intro h
      cases h with
      | pub hp hi => exact Or.inl ⟨_, hp, Or.inl hi⟩
      | priv hp hi => exact Or.inl ⟨_, hp, Or.inr hi⟩
      | header hd hn => exact Or.inr (Or.inl ⟨_, hd, _, hn⟩)
      | options hd hn => exact Or.inr (Or.inr (Or.inl ⟨_, hd, _, hn⟩))
      | decipherHeader hd hn => exact Or.inr (Or.inr (Or.inr ⟨_, hd, _, hn⟩))

end OSK
