import Verif.Lemmas.TextLine
import Verif.Props.Key
/-
Properties C22-C24: keys as lines of text.
-/
namespace OSK
open Spec

/-! ### C23 -/

/-- **C23** (encoding). `b64encode` is base64 as described in RFC 4648; its output has only characters of
the base64 alphabet. -/
theorem C23_encode_rfc4648 (b : Bytes) :
    b64encode b = base64 b ∧ (∀ c ∈ b64encode b, c ∈ base64Alphabet) ∧
      (b64encode b).length = 4 * ((b.length + 2) / 3) :=
  ⟨b64encode_eq b, b64encode_mem b, b64encode_length b⟩

/-- **C23** (lossless, ignoring other characters). Any byte string that becomes the encoding of `b` when the
characters outside the base64 alphabet are removed decodes to `b`. -/
theorem C23_decode (b y : Bytes) (h : y.filter (fun c => decide (c ∈ base64Alphabet)) = base64 b) :
    b64decode y = .ok b := by
  rw [← b64encode_eq] at h
  exact b64decode_of_filter h

/-- **C23** for text: the same for a `str` argument of ASCII characters. -/
theorem C23_decode_str (b : Bytes) (y : Str) (ha : ∀ c ∈ y, c < 128)
    (h : y.filter (fun c => decide (c ∈ base64Alphabet.map UInt8.toNat)) = (base64 b).map UInt8.toNat) :
    b64decodeStr y = .ok b := by
  rw [← b64encode_eq] at h
  exact b64decodeStr_of_filter ha h

/-- **C23** for text, encoder and decoder together. -/
theorem C23_roundtrip_str (b : Bytes) : b64decodeStr (b64encodeStr b) = .ok b := by
  refine C23_decode_str b _ (fun c hc => (b64encodeStr_no_space b c hc).1) ?_
  rw [← b64encode_eq]
  unfold b64encodeStr
  rw [List.filter_eq_self]
  intro c hc
  obtain ⟨x, hx, rfl⟩ := List.mem_map.1 hc
  exact decide_eq_true (List.mem_map_of_mem (b64encode_mem b x hx))

example : b64encode (pb! "abcd") = pb! "YWJjZA==" := by decide
example : b64decode (pb! "Y W\nJj\r\nZ-A=\n=") = .ok (pb! "abcd") := by decide
example : (pb! "Y W\nJj\r\nZ-A=\n=").filter (fun c => decide (c ∈ base64Alphabet)) = base64 (pb! "abcd") := by
  decide +kernel

/-! ### C22 -/

/-- The cleartext only matters for the result's `clear`. -/
theorem fromBytes_clear (ext : Ext) (kind : Kind) (b : Bytes) (clear : Option VDict) :
    fromBytes ext kind b clear = (do
      let k ← fromBytes ext kind b none
      pure { k with clear := match dget k.clear (py! "remainder") with
        | some r => dset (clear.getD []) (py! "remainder") r
        | none => clear.getD [] }) := by
  unfold fromBytes
  rw [fromBytesWith_eq, fromBytesWith_eq]
  rcases hr : prs (readKey kind) b with ⟨e | ⟨h, p, f⟩, n⟩
  · rfl
  · simp only
    obtain ⟨t, c, n1, n2, n3, rfl, hc, h1, h2, h3, rfl⟩ := prs_readKey_ok hr
    rw [mkKeyWith_eq (t := t) (c := c) (by simp) hc, mkKeyWith_eq (t := t) (c := c) (by simp) hc]
    simp only [Eff.bind_assoc, Eff.pure_bind]
    congr 1; funext _
    congr 1; funext _
    by_cases hlt : 0 < (b.drop (n1 + n2 + n3)).length
    · rw [if_pos hlt, if_pos hlt]
      simp only [Eff.bind_assoc, Eff.pure_bind, dget_dset_self]
    · rw [if_neg hlt, if_neg hlt]
      simp only [Eff.pure_bind]
      rfl

theorem fromStringTail_parsed {ext : Ext} {kind : Kind} {w : Str} {b : Bytes} {k : Key} {l : List Event}
    (hb : b64decodeStr w = .ok b) (hk : fromBytes ext kind b none = ⟨l, .ok k⟩) (a c t : Str)
    (ht : dget k.header (py! "key_type") = some (.str t)) :
    ∃ k', fromStringTail ext kind a w c =
        ⟨l ++ (if t = a then [] else [.warn .clearTypeMismatch]), .ok k'⟩ ∧
      k'.kind = k.kind ∧ k'.header = k.header ∧ k'.params = k.params ∧ k'.footer = k.footer ∧
      dget k'.clear (py! "key_type") = some (.str a) ∧ dget k'.clear (py! "comment") = some (.str c) ∧
      dget k'.clear (py! "remainder") = dget k.clear (py! "remainder") := by
  have hh : getItem k.header (py! "key_type") = .ok (.str t) := by
    unfold getItem; rw [ht]
  unfold fromStringTail
  simp only [hb, Eff.lift_ok_bind]
  rw [fromBytes_clear, hk]
  simp only [Eff.mk_bind_ok, Eff.pure_log, Eff.pure_res, List.append_nil, hh, Eff.lift_ok_bind]
  refine ⟨{ k with clear := match dget k.clear (py! "remainder") with
        | some r => dset [(py! "key_type", .str a), (py! "comment", .str c)] (py! "remainder") r
        | none => [(py! "key_type", .str a), (py! "comment", .str c)] }, ?_, rfl, rfl, rfl, rfl, ?_, ?_, ?_⟩
  · by_cases hta : t = a
    · subst hta
      simp
    · rw [if_pos (by simpa using hta), if_neg hta]
      rfl
  · rcases dget k.clear (py! "remainder") with _ | r <;> rfl
  · rcases dget k.clear (py! "remainder") with _ | r <;> rfl
  · rcases dget k.clear (py! "remainder") with _ | r <;> rfl

/-- **C22** (any line). A line `type base64 comment`, whose first two words contain no space and whose second
word decodes to bytes that parse as a key, parses as that key, and its comment is everything after
the second space, verbatim. -/
theorem C22_line (ext : Ext) (kind : Kind) (a w c : Str) (b : Bytes) (k : Key)
    (ha : 32 ∉ a) (hw : 32 ∉ w) (hb : b64decodeStr w = .ok b) (hk : (fromBytes ext kind b none).res = .ok k) :
    ∃ k', (fromString ext kind (a ++ py! " " ++ w ++ py! " " ++ c)).res = .ok k' ∧
      k'.kind = k.kind ∧ k'.header = k.header ∧ k'.params = k.params ∧ k'.footer = k.footer ∧
      dget k'.clear (py! "key_type") = some (.str a) ∧ dget k'.clear (py! "comment") = some (.str c) ∧
      dget k'.clear (py! "remainder") = dget k.clear (py! "remainder") := by
  have hs : splitSpaceMax 2 (a ++ py! " " ++ w ++ py! " " ++ c) = [a, w, c] := by
    have := split_three (a := a) (b := w) (fun x hx h => ha (h ▸ hx)) (fun x hx h => hw (h ▸ hx)) c
    simpa using this
  rw [fromString_three ext kind hs]
  obtain ⟨t, c', hd, p, f, n, -, rfl, -, -, rfl, -⟩ := fromBytes_ok hk
  obtain ⟨k', h1, h2⟩ := fromStringTail_parsed hb (l := (fromBytes ext kind b none).log)
    (by rw [← hk]) a c t (by simp)
  exact ⟨k', by rw [h1], h2⟩

/-- The comments of a cleartext or footer dictionary. -/
def Spec.commentsIn (d : VDict) : List Str :=
  match dget d (py! "comment") with
  | some (.str s) => [s]
  | _ => []

/-- What the code makes of the comments of a key: joined by spaces, and with a newline after them. -/
def Spec.recoveredComment : List Str → Str
  | [] => []
  | [c] => c ++ py! "\n"
  | c :: cs => c ++ py! " " ++ recoveredComment cs

/-- Comments, when present, are text. -/
def Spec.TextComment (d : VDict) : Prop := ∀ v, dget d (py! "comment") = some v → ∃ s, v = .str s

theorem packPublicString_ok {ext : Ext} {k : Key} {uf uc : Bool} {s : Str}
    (hf : TextComment k.footer) (hcl : TextComment k.clear) {t : Str}
    (ht : dget k.header (py! "key_type") = some (.str t))
    (h : packPublicString ext k uf uc = .ok s) :
    ∃ b, packPublicBytes k = .ok b ∧
      s = t ++ py! " " ++ b64encodeStr b ++
        (((if uf then commentsIn k.footer else []) ++ (if uc then commentsIn k.clear else [])).flatMap
          (fun c => py! " " ++ c)) ++ py! "\n" := by
  unfold packPublicString getItem at h
  rw [ht] at h
  rcases hb : packPublicBytes k with e | b
  · rw [hb] at h; simp [bind, Except.bind] at h
  · refine ⟨b, rfl, ?_⟩
    rw [hb] at h
    simp only [bind, Except.bind, pure, Except.pure, Except.ok.injEq] at h
    rw [← h]
    have key : ∀ (d : VDict), TextComment d → ∀ u : Bool,
        commentText ext u d = (if u then commentsIn d else []).flatMap (fun c => py! " " ++ c) := by
      intro d hd u
      cases u
      · rfl
      · unfold commentsIn commentText
        rcases hc : dget d (py! "comment") with _ | v
        · rfl
        · obtain ⟨s, rfl⟩ := hd v hc
          simp [pyStr]
    rw [key _ hf, key _ hcl, List.flatMap_append]
    simp [pyStr]

theorem recovered_flatMap (c : Str) (cs : List Str) :
    (c :: cs).flatMap (fun c => py! " " ++ c) ++ py! "\n" = 32 :: recoveredComment (c :: cs) := by
  induction cs generalizing c with
  | nil => simp [recoveredComment]
  | cons d ds ih =>
    rw [recoveredComment]
    · have := ih d
      rw [List.flatMap_cons, List.append_assoc, this]
      simp
    · simp

/-- **C22** (the part that holds). `from_string(pack_public_string())` recovers the key type, the class, the
parameters, and nothing else in the parameters, with the warnings of the construction and no others,
and recovers the comments followed by a newline.

Full statement: the recovered comment is the comment of the key, without the newline.  `C22_false`
shows that it fails for the code. -/
theorem C22_roundtrip_partial (ext : Ext) (h p f : VDict) (clear : Option VDict) (k : Key) (s : Str)
    (uf uc : Bool) (hk : (mkKey ext .pub h p f clear).res = .ok k) (hf : TextComment k.footer)
    (hcl : TextComment k.clear) (hs : packPublicString ext k uf uc = .ok s) :
    ∃ t fields k', dget h (py! "key_type") = some (.str t) ∧ publicFields t = some fields ∧
      fromString ext .pub s = ⟨(mkKey ext .pub h p f clear).log, .ok k'⟩ ∧
      k'.kind = .pub ∧ k'.header = [(py! "key_type", .str t)] ∧
      k'.params.cls = k.params.cls ∧ dkeys k'.params.data = dkeys fields ∧
      (∀ n ∈ dkeys fields, dget k'.params.data n = dget p n ∧ ∃ v, dget p n = some v) ∧
      k'.footer = [] ∧ dget k'.clear (py! "remainder") = none ∧
      dget k'.clear (py! "key_type") = some (.str t) ∧
      dget k'.clear (py! "comment") = some (.str (recoveredComment
        ((if uf then commentsIn k.footer else []) ++ (if uc then commentsIn k.clear else [])))) := by
  obtain ⟨t, c, ht, hc, hkeq, hr⟩ := mkKeyWith_ok hk
  have ht' : dget k.header (py! "key_type") = some (.str t) := by rw [hkeq]; exact ht
  obtain ⟨b, hb, rfl⟩ := packPublicString_ok hf hcl ht' hs
  obtain ⟨t', fields, k0, e1, e2, e3, e4, e5, e6, e7, e8, e9, e10⟩ :=
    C15_public_key_roundtrip ext h p f clear k b hk hb
  rw [ht] at e1; simp at e1; subst e1
  generalize hcs : ((if uf then commentsIn k.footer else []) ++ (if uc then commentsIn k.clear else [])) = cs at *
  have hts := keyType_no_space hc
  have hbs : ∀ x ∈ b64encodeStr b, x ≠ 32 := fun x hx => (b64encodeStr_no_space b x hx).2.1
  have hh0 : dget k0.header (py! "key_type") = some (.str t) := by rw [e5]; simp
  cases cs with
  | nil =>
    have hsplit : splitSpaceMax 2 (t ++ py! " " ++ b64encodeStr b ++
        ([] : List Str).flatMap (fun c => py! " " ++ c) ++ py! "\n") = [t, b64encodeStr b ++ [10]] := by
      have := split_two (a := t) (b := b64encodeStr b ++ [10]) hts (by
        intro x hx
        rcases List.mem_append.1 hx with hx | hx
        · exact hbs x hx
        · simp at hx; omega)
      simpa using this
    have hdec : b64decodeStr (b64encodeStr b ++ [10]) = .ok b := by
      apply C23_decode_str
      · intro x hx
        rcases List.mem_append.1 hx with hx | hx
        · exact (b64encodeStr_no_space b x hx).1
        · simp at hx; omega
      · rw [List.filter_append]
        have h10 : List.filter (fun c => decide (c ∈ base64Alphabet.map UInt8.toNat)) [10] = [] := by
          decide +kernel
        rw [h10, List.append_nil, ← b64encode_eq]
        unfold b64encodeStr
        rw [List.filter_eq_self]
        intro x hx
        obtain ⟨y, hy, rfl⟩ := List.mem_map.1 hx
        exact decide_eq_true (List.mem_map_of_mem (b64encode_mem b y hy))
    obtain ⟨k', h1, h2, h3, h4, h5, h6, h7, h8⟩ := fromStringTail_parsed hdec e3 t [] t hh0
    refine ⟨t, fields, k', ht, e2, ?_, h2.trans e4, h3.trans e5, by rw [h4]; exact e6, by rw [h4]; exact e7,
      by rw [h4]; exact e8, h5.trans e9, by rw [h8, e10]; rfl, h6, h7⟩
    rw [fromString_two ext .pub hsplit, h1, if_pos rfl, List.append_nil]
  | cons c0 cs =>
    have hsplit : splitSpaceMax 2 (t ++ py! " " ++ b64encodeStr b ++
        (c0 :: cs).flatMap (fun c => py! " " ++ c) ++ py! "\n") =
        [t, b64encodeStr b, recoveredComment (c0 :: cs)] := by
      rw [List.append_assoc _ _ (py! "\n"), recovered_flatMap]
      have := split_three (a := t) (b := b64encodeStr b) hts hbs (recoveredComment (c0 :: cs))
      simpa using this
    obtain ⟨k', h1, h2, h3, h4, h5, h6, h7, h8⟩ :=
      fromStringTail_parsed (C23_roundtrip_str b) e3 t (recoveredComment (c0 :: cs)) t hh0
    refine ⟨t, fields, k', ht, e2, ?_, h2.trans e4, h3.trans e5, by rw [h4]; exact e6, by rw [h4]; exact e7,
      by rw [h4]; exact e8, h5.trans e9, by rw [h8, e10]; rfl, h6, h7⟩
    rw [fromString_three ext .pub hsplit, h1, if_pos rfl, List.append_nil]

/-- The example key with a comment that has a space. -/
def exRsaCommented : Key :=
  ⟨.pub, exRsaHeader, ⟨.rsaPub, exRsaParams⟩, [], [(py! "comment", .str (py! "my key"))]⟩
/-- Its line. -/
def exRsaLine : Str := py! "ssh-rsa AAAAB3NzaC1yc2EAAAABEQAAAAIMoQ== my key\n"

example : (mkKey exExt .pub exRsaHeader exRsaParams [] (some [(py! "comment", .str (py! "my key"))])).res =
    .ok exRsaCommented := by decide +kernel
example : packPublicString exExt exRsaCommented true true = .ok exRsaLine := by decide +kernel
example : TextComment exRsaCommented.footer ∧ TextComment exRsaCommented.clear := by
  constructor
  · intro v h; simp [exRsaCommented] at h
  · intro v h; simp [exRsaCommented] at h; exact ⟨_, h.symm⟩

/-- **C22 is false for the code**: the comment comes back with a newline appended. -/
theorem C22_false : ∃ (k k' : Key) (s c : Str), packPublicString exExt k true true = .ok s ∧
    dget k.clear (py! "comment") = some (.str c) ∧ (fromString exExt .pub s).res = .ok k' ∧
    dget k'.clear (py! "comment") ≠ some (.str c) :=
  ⟨exRsaCommented, ⟨.pub, exRsaHeader, ⟨.rsaPub, [(py! "e", .int 17), (py! "n", .int 3233)]⟩, [],
    [(py! "key_type", .str (py! "ssh-rsa")), (py! "comment", .str (py! "my key\n"))]⟩, exRsaLine, py! "my key",
    by decide +kernel, by decide +kernel, by decide +kernel, by decide +kernel⟩

/-! ### C24 -/

/-- **C24.** When a line parses, the warning about inconsistent key types is emitted exactly when the first
word of the line differs from the encoded key type, which is the text stored first in the decoded
second word; and it is emitted at most once. -/
theorem C24_type_mismatch (ext : Ext) (kind : Kind) (s : Str) (k : Key)
    (h : (fromString ext kind s).res = .ok k) :
    ∃ first word rest b cs w post, s = first ++ py! " " ++ word ++ rest ∧ 32 ∉ first ∧ 32 ∉ word ∧
      (rest = [] ∨ ∃ c, rest = py! " " ++ c) ∧
      b64decodeStr word = .ok b ∧ b = w ++ post ∧ Prefixed 4 (utf8 cs) w ∧
      dget k.header (py! "key_type") = some (.str (strOf cs)) ∧
      (.warn .clearTypeMismatch ∈ (fromString ext kind s).log ↔ first ≠ strOf cs) ∧
      (fromString ext kind s).log.count (.warn .clearTypeMismatch) ≤ 1 := by
  have main : ∀ a word rest c, s = a ++ py! " " ++ word ++ rest → (∀ x ∈ a, x ≠ 32) →
      (∀ x ∈ word, x ≠ 32) → (rest = [] ∨ ∃ c, rest = py! " " ++ c) →
      fromString ext kind s = fromStringTail ext kind a word c →
      ∃ first word rest b cs w post, s = first ++ py! " " ++ word ++ rest ∧ 32 ∉ first ∧ 32 ∉ word ∧
        (rest = [] ∨ ∃ c, rest = py! " " ++ c) ∧
        b64decodeStr word = .ok b ∧ b = w ++ post ∧ Prefixed 4 (utf8 cs) w ∧
        dget k.header (py! "key_type") = some (.str (strOf cs)) ∧
        (.warn .clearTypeMismatch ∈ (fromString ext kind s).log ↔ first ≠ strOf cs) ∧
        (fromString ext kind s).log.count (.warn .clearTypeMismatch) ≤ 1 := by
    intro a word rest c hs ha hword hrest heq
    rw [heq] at h ⊢
    rcases hb : b64decodeStr word with e | b
    · unfold fromStringTail at h; rw [hb] at h; simp at h
    · rcases hfb : fromBytes ext kind b none with ⟨l, e | k0⟩
      · unfold fromStringTail at h
        rw [hb, Eff.lift_ok_bind, fromBytes_clear, hfb] at h
        simp only [Eff.mk_bind_error] at h
        simp at h
      · obtain ⟨t, c', hd, p, f, n, hr, rfl, hc, -, hk0, -⟩ :=
          fromBytes_ok (ext := ext) (kind := kind) (b := b) (clear := none) (k := k0) (by rw [hfb])
        obtain ⟨k', h1, -, h3, -⟩ := fromStringTail_parsed hb hfb a c t (by rw [hk0]; simp)
        rw [h1] at h ⊢
        simp at h; subst h
        obtain ⟨t', c'', n1, n2, n3, ht', -, h1', -, -, -⟩ := prs_readKey_ok hr
        simp at ht'; subst ht'
        have hf : headerFmt kind = [(py! "key_type", .pascal .string)] := by cases kind <;> rfl
        rw [hf] at h1'
        obtain ⟨v, vs, m1, m2, hv, hr1, -, -⟩ := readDict_cons_ok h1'
        simp at hv
        obtain ⟨x, hx, -, hm, hlx, htk, hle⟩ := prs_readPascal_ok hr1
        rw [← hv.1] at hx
        simp only [decodePrim, bytesDecode] at hx
        split at hx
        · rename_i s' hs'
          simp [Except.map] at hx; subst hx
          obtain ⟨cs, rfl, rfl⟩ := utf8Encode?_some (utf8Encode_decode hs')
          have hnot : Event.warn .clearTypeMismatch ∉ l := by
            intro hm
            have := (fromBytes_within ext kind b none).ev _ (by rw [hfb]; exact hm)
            exact this
          refine ⟨a, word, rest, b, cs, b.take m1, b.drop m1, hs, fun hm => ha _ hm rfl,
            fun hm => hword _ hm rfl, hrest, hb, (List.take_append_drop _ _).symm, ?_, by rw [h3, hk0]; simp,
            ?_, ?_⟩
          · rw [htk]
            exact ⟨_, by simp [defaultLengthSize], by rw [digitSum_eq, beNat_natToBE_of_lt hlx], rfl⟩
          · by_cases hta : strOf cs = a
            · rw [if_pos hta]; simp [hnot, hta]
            · rw [if_neg hta]; simp; exact fun h => hta h.symm
          · rw [List.count_append, List.count_eq_zero_of_not_mem hnot]
            split <;> simp
        · simp [Except.map] at hx
  rcases split_cases s with ⟨-, hs⟩ | ⟨a, b, hs, ha, hb, hsp⟩ | ⟨a, b, c, hs, ha, hb, hsp⟩
  · rw [fromString_one ext kind hs] at h; simp at h
  · exact main a b [] [] (by rw [hs]; simp) ha hb (Or.inl rfl) (fromString_two ext kind hsp)
  · exact main a b (py! " " ++ c) c (by rw [hs]; simp) ha hb (Or.inr ⟨c, rfl⟩) (fromString_three ext kind hsp)

def exMismatchLine : Str := py! "ssh-dss AAAAB3NzaC1yc2EAAAABEQAAAAIMoQ== x y"
example : (fromString exExt .pub exMismatchLine).log = [.warn .clearTypeMismatch] ∧
    (fromString exExt .pub exMismatchLine).res =
      .ok ⟨.pub, exRsaHeader, ⟨.rsaPub, [(py! "e", .int 17), (py! "n", .int 3233)]⟩, [],
        [(py! "key_type", .str (py! "ssh-dss")), (py! "comment", .str (py! "x y"))]⟩ := by decide +kernel
example : (fromString exExt .pub exRsaLine).log = [] := by decide +kernel

end OSK
