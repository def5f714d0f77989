import Verif.Lemmas.ReadInv
/-
The loop of `read_repeatedly_from_format_instructions_dict`.
-/
namespace OSK
open Spec

/-- The EOF exceptions that reading can raise. -/
def IsEof (e : Exn) : Prop := e = .eofError true eofEmptyText ∨ e = .eofError false eofShortText

/-- Every EOF exception that `x` raises is one of the two constants. -/
def EofConst {α : Type} (x : SM α) : Prop :=
  ∀ s b t, (x s).1 = .error (.eofError b t) → IsEof (.eofError b t)

theorem EofConst.bind {α β : Type} {x : SM α} {f : α → SM β} (hx : EofConst x)
    (hf : ∀ a, EofConst (f a)) : EofConst (x >>= f) := by
  intro s b t h
  rw [SM.bind_apply] at h
  rcases hs : x s with ⟨e | a, s'⟩
  · rw [hs] at h; simp at h; subst h
    exact hx s b t (by rw [hs])
  · rw [hs] at h; exact hf a s' b t h

theorem EofConst.readFixed (n : Int) : EofConst (readFixed n) := by
  intro s b t h
  unfold OSK.readFixed at h
  rw [SM.bind_apply] at h
  unfold bytesIORead at h
  by_cases h1 : n < 0
  · rw [if_pos h1] at h
    by_cases h2 : n < -(pyMaxSize : Int) - 1
    · rw [if_pos h2] at h
      simp at h
    rw [if_neg h2] at h
    simp only [] at h
    split at h
    · split at h
      · simp at h; exact Or.inl (by rw [← h.1, ← h.2])
      · simp at h; exact Or.inr (by rw [← h.1, ← h.2])
    · simp at h
  · rw [if_neg h1] at h
    split at h
    · split at h
      · split at h
        · simp at h; exact Or.inl (by rw [← h.1, ← h.2])
        · simp at h; exact Or.inr (by rw [← h.1, ← h.2])
      · simp at h
    · rename_i hh
      split at hh
      · simp at hh; simp at h; rw [← hh.1] at h; simp at h
      · simp at hh

theorem EofConst.pure {α : Type} (a : α) : EofConst (pure a : SM α) := by
  intro s b t h; simp at h

theorem EofConst.lift {α : Type} {r : Except Exn α} (h : ∀ b t, r ≠ .error (.eofError b t)) :
    EofConst (SM.lift r) := by
  intro s b t h'; simp at h'; exact absurd h' (h b t)

theorem EofConst.throw {α : Type} {e : Exn} (h : ∀ b t, e ≠ .eofError b t) :
    EofConst (SM.throw e : SM α) := by
  intro s b t h'; simp at h'; exact absurd h' (h b t)

theorem decodePrim_ne_eof (p : Prim) (x : Bytes) (b : Bool) (t : Str) :
    decodePrim p x ≠ .error (.eofError b t) := by
  cases p <;> simp [decodePrim, bytesDecode]
  split <;> simp [Except.map]

theorem EofConst.readPascalBytes (size : Int) : EofConst (readPascalBytes size) := by
  unfold OSK.readPascalBytes
  split
  · exact EofConst.throw (by simp)
  · exact (EofConst.readFixed _).bind (fun _ => EofConst.readFixed _)

theorem EofConst.readFI (fi : FI) : EofConst (readFI fi) := by
  cases fi with
  | struct f => exact (EofConst.readFixed _).bind (fun _ => EofConst.pure _)
  | pascal p =>
    exact (EofConst.readPascalBytes _).bind (fun _ => EofConst.lift (decodePrim_ne_eof _ _))
  | pascalSized p n =>
    exact (EofConst.readPascalBytes _).bind (fun _ => EofConst.lift (decodePrim_ne_eof _ _))
  | unrecognised => exact EofConst.throw (by simp)

theorem EofConst.readDict (fmt : FDict) : EofConst (readDict fmt) := by
  induction fmt with
  | nil => exact EofConst.pure _
  | cons kv t ih => exact (EofConst.readFI _).bind (fun _ => ih.bind (fun _ => EofConst.pure _))

/-- A successful read of a length-prefixed field or nonempty struct consumes something. -/
theorem readFI_consumes {fi : FI} (h : ∀ f, fi = .struct f → 0 < f.calcsize) {r : Bytes} {v : Val}
    {n : Nat} (hr : prs (readFI fi) r = (.ok v, n)) : 0 < n := by
  cases fi with
  | struct f =>
    simp only [readFI] at hr
    obtain ⟨b, n1, m, h1, h2, rfl⟩ := prs_bind_ok (fun _ => Reader.pure _) (Reader.readFixed _) hr
    obtain ⟨rfl, -⟩ := prs_readFixed_ok h1
    have := h f rfl
    omega
  | pascal p =>
    obtain ⟨b, -, h0, h3, -⟩ := prs_readPascal_ok hr
    omega
  | pascalSized p n =>
    obtain ⟨b, -, h0, h3, -⟩ := prs_readPascal_ok hr
    omega
  | unrecognised => simp [readFI, prs_throw] at hr

theorem readDict_consumes {fmt : FDict} (h : NonEmptyRecord fmt) {r : Bytes} {d : VDict} {n : Nat}
    (hr : prs (readDict fmt) r = (.ok d, n)) : 0 < n := by
  induction fmt generalizing r d n with
  | nil => obtain ⟨kf, hm, _⟩ := h; simp at hm
  | cons kf t ih =>
    unfold readDict at hr
    obtain ⟨v, n1, m, h1, h2, rfl⟩ :=
      prs_bind_ok (fun _ => (Reader.readDict t).bind (fun _ => Reader.pure _)) (Reader.readFI _) hr
    obtain ⟨vs, n2, m2, h3, h4, rfl⟩ := prs_bind_ok (fun _ => Reader.pure _) (Reader.readDict t) h2
    obtain ⟨kf', hm, hk⟩ := h
    simp at hm
    rcases hm with rfl | hm
    · have := readFI_consumes hk h1; omega
    · have := ih ⟨kf', hm, hk⟩ h3; omega

/-- A read at the end of the data either fails or consumed nothing; here: restated for streams. -/
theorem readDict_ok_stream {fmt : FDict} {s s' : Stream} {d : VDict}
    (h : readDict fmt s = (.ok d, s')) :
    ∃ n, prs (readDict fmt) s.rest = (.ok d, n) ∧ s' = ⟨s.buf, s.pos + n⟩ ∧
      s'.rest = s.rest.drop n ∧ n ≤ s.rest.length := by
  have hs := (Reader.readDict fmt).shift s
  rw [h] at hs
  have hb := (Reader.readDict fmt).bound s.rest
  rcases hp : prs (readDict fmt) s.rest with ⟨x, n⟩
  rw [hp] at hs hb
  simp at hs hb
  obtain ⟨rfl, rfl⟩ := hs
  exact ⟨n, rfl, rfl, by simp [Stream.rest], hb⟩

theorem loop_some {fmt : FDict} (h : NonEmptyRecord fmt) :
    ∀ (fuel : Nat) (acc : List VDict) (s : Stream), s.rest.length < fuel →
      ∃ r, readRepeatedlyLoop fmt fuel acc s = some r ∧
        ∀ k, readRepeatedlyLoop fmt (fuel + k) acc s = some r := by
  intro fuel
  induction fuel with
  | zero => intro acc s hs; omega
  | succ fuel ih =>
    intro acc s hs
    have e : ∀ k, fuel + 1 + k = (fuel + k) + 1 := by omega
    simp only [e, readRepeatedlyLoop]
    rcases hr : readDict fmt s with ⟨ex | d, s'⟩
    · cases ex <;> first | exact ⟨_, rfl, fun _ => rfl⟩ | skip
      rename_i b t
      cases b <;> exact ⟨_, rfl, fun _ => rfl⟩
    · obtain ⟨n, hp, hs', hrest, hn⟩ := readDict_ok_stream hr
      have := readDict_consumes h hp
      simp only []
      exact ih (acc ++ [d]) s' (by rw [hrest]; simp; omega)

/-- One step of the loop, for formats with nonempty records. -/
theorem loop_acc (fmt : FDict) : ∀ (fuel : Nat) (acc : List VDict) (s : Stream),
    readRepeatedlyLoop fmt fuel acc s =
      (readRepeatedlyLoop fmt fuel [] s).map (fun r => (r.1.map (acc ++ ·), r.2)) := by
  intro fuel
  induction fuel with
  | zero => intro acc s; rfl
  | succ fuel ih =>
    intro acc s
    simp only [readRepeatedlyLoop]
    rcases hr : readDict fmt s with ⟨ex | d, s'⟩
    · cases ex <;> try rfl
      rename_i b t
      cases b
      · rfl
      · simp [Except.map]
    · simp only []
      rw [ih (acc ++ [d]), ih ([] ++ [d])]
      rcases readRepeatedlyLoop fmt fuel [] s' with _ | ⟨r, s''⟩
      · rfl
      · cases r <;> simp [Except.map]

theorem nonEmptyRecord_length_ne {fmt : FDict} (h : NonEmptyRecord fmt) : fmt.length ≠ 0 := by
  obtain ⟨kf, hm, _⟩ := h
  intro hc
  have : fmt = [] := List.eq_nil_of_length_eq_zero hc
  subst this; simp at hm

/-- The loop, unrolled: what `read_repeatedly...` does on a stream. -/
theorem readRepeatedly_eq {fmt : FDict} (h : NonEmptyRecord fmt) (s : Stream) :
    readRepeatedly fmt s =
      match readDict fmt s with
      | (.ok d, s') => ((readRepeatedly fmt s').1.map (d :: ·), (readRepeatedly fmt s').2)
      | (.error (.eofError true _), s') => (.ok [], s')
      | (.error e, s') => (.error e, s') := by
  have hl := nonEmptyRecord_length_ne h
  unfold readRepeatedly readRepeatedlyFuel
  rw [if_neg hl]
  conv => lhs; rw [readRepeatedlyLoop]
  rcases hr : readDict fmt s with ⟨ex | d, s'⟩
  · cases ex <;> try rfl
    rename_i b t
    cases b <;> rfl
  · obtain ⟨n, hp, hs', hrest, hn⟩ := readDict_ok_stream hr
    have hn0 := readDict_consumes h hp
    simp only [hl, if_false]
    rw [loop_acc]
    obtain ⟨r, hr1, hr2⟩ := loop_some h (s'.rest.length + 1) [] s' (by omega)
    have := hr2 (s.rest.length - (s'.rest.length + 1))
    have e : s'.rest.length + 1 + (s.rest.length - (s'.rest.length + 1)) = s.rest.length := by
      rw [hrest]; simp; omega
    rw [e] at this
    rw [this, hr1]
    simp

theorem prs_readPascalBytes_nil {size : Int} (h0 : 0 < size) (h1 : size ≤ (pyMaxSize : Int)) :
    prs (readPascalBytes size) [] = (.error (.eofError true eofEmptyText), 0) := by
  unfold readPascalBytes
  obtain ⟨n, rfl⟩ := Int.eq_ofNat_of_zero_le (by omega : 0 ≤ size)
  rw [if_neg (by omega), prs_bind (fun _ => Reader.readFixed _) (Reader.readFixed _), prs_readFixed,
    if_neg (by omega), if_pos (by simp; omega)]
  simp

/-- At the end of the data, reading a record signals "empty". -/
theorem prs_readDict_nil {fmt : FDict} (hw : WellFormed fmt) (hne : NonEmptyRecord fmt) :
    prs (readDict fmt) [] = (.error (.eofError true eofEmptyText), 0) := by
  induction fmt with
  | nil => obtain ⟨kf, hm, _⟩ := hne; simp at hm
  | cons kf t ih =>
    obtain ⟨k, fi⟩ := kf
    have hw0 := hw (k, fi) (by simp)
    have hwt : WellFormed t := fun kf hm => hw kf (by simp [hm])
    unfold readDict
    rw [prs_bind (fun _ => (Reader.readDict t).bind (fun _ => Reader.pure _)) (Reader.readFI _)]
    cases fi with
    | unrecognised => exact absurd hw0 id
    | pascal p =>
      simp only [readFI]
      rw [prs_bind (fun _ => Reader.lift _) (Reader.readPascalBytes _),
        prs_readPascalBytes_nil (by decide) (by decide)]
    | pascalSized p n =>
      simp only [readFI]
      rw [prs_bind (fun _ => Reader.lift _) (Reader.readPascalBytes _),
        prs_readPascalBytes_nil hw0.1 hw0.2]
    | struct f =>
      simp only [readFI]
      simp only [] at hw0
      rw [prs_bind (fun _ => Reader.pure _) (Reader.readFixed _), prs_readFixed,
        if_neg (by omega)]
      by_cases h0 : f.calcsize = 0
      · rw [if_neg (by simp [h0])]
        simp only [List.drop_nil, prs_pure, h0]
        have hnt : NonEmptyRecord t := by
          obtain ⟨kf', hm, hk⟩ := hne
          simp at hm
          rcases hm with rfl | hm
          · have := hk f rfl; omega
          · exact ⟨kf', hm, hk⟩
        rw [prs_bind (fun _ => Reader.pure _) (Reader.readDict t), ih hwt hnt]
        rfl
      · rw [if_pos (by simp; omega)]
        simp

theorem readRepeatedly_end {fmt : FDict} (hw : WellFormed fmt) (hne : NonEmptyRecord fmt) (s : Stream)
    (hs : s.rest = []) : readRepeatedly fmt s = (.ok [], s) := by
  rw [readRepeatedly_eq hne, (Reader.readDict fmt).shift, hs, prs_readDict_nil hw hne]
  rfl

/-- Reading a list of complete records followed by `tail`. -/
theorem readRepeatedly_packed {fmt : FDict} (hne : NonEmptyRecord fmt) (ds : List VDict)
    (hx : ∀ d ∈ ds, ExactRecord fmt d) {w : Bytes} (hw : packDicts fmt ds = .ok w)
    (hl : w.length ≤ pyMaxSize) (s : Stream) (tail : Bytes) (hs : s.rest = w ++ tail) :
    readRepeatedly fmt s =
      ((readRepeatedly fmt ⟨s.buf, s.pos + w.length⟩).1.map (ds.map (named fmt) ++ ·),
        (readRepeatedly fmt ⟨s.buf, s.pos + w.length⟩).2) := by
  induction ds generalizing w s with
  | nil =>
    simp [packDicts] at hw; subst hw
    simp
    rcases readRepeatedly fmt s with ⟨_ | _, _⟩ <;> simp [Except.map]
  | cons d ds ih =>
    obtain ⟨a, b, ha, hb, rfl⟩ := catE_ok hw
    simp at hl
    conv => lhs; rw [readRepeatedly_eq hne]
    rw [(Reader.readDict fmt).shift, hs, List.append_assoc,
      prs_readDict ha (hx d (by simp)) (by omega)]
    simp only []
    have := ih (fun d hd => hx d (by simp [hd])) hb (by omega) ⟨s.buf, s.pos + a.length⟩ (by
      have : Stream.rest ⟨s.buf, s.pos + a.length⟩ = s.rest.drop a.length := by simp [Stream.rest]
      rw [this, hs]; simp)
    rw [this]
    simp only [List.length_append, ← Nat.add_assoc]
    rcases readRepeatedly fmt ⟨s.buf, s.pos + a.length + b.length⟩ with ⟨_ | _, _⟩ <;> simp [Except.map]

end OSK
