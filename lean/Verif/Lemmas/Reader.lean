import Verif.Model.Stream
/-
Readers: stream operations that only look at the bytes after the position.
-/
namespace OSK
variable {α β : Type}

namespace SM
@[simp] theorem pure_apply (a : α) (s : Stream) : (pure a : SM α) s = (.ok a, s) := rfl
@[simp] theorem throw_apply (e : Exn) (s : Stream) : (throw e : SM α) s = (.error e, s) := rfl
@[simp] theorem lift_apply (r : Except Exn α) (s : Stream) : (lift r : SM α) s = (r, s) := rfl
theorem bind_apply (x : SM α) (f : α → SM β) (s : Stream) :
    (x >>= f) s = match x s with
      | (.ok a, s') => f a s'
      | (.error e, s') => (.error e, s') := rfl
theorem bind_ok {x : SM α} {s s' : Stream} {a : α} (h : x s = (.ok a, s')) (f : α → SM β) :
    (x >>= f) s = f a s' := by rw [bind_apply, h]
theorem bind_error {x : SM α} {s s' : Stream} {e : Exn} (h : x s = (.error e, s')) (f : α → SM β) :
    (x >>= f) s = (.error e, s') := by rw [bind_apply, h]
@[simp] theorem lift_ok_bind (a : α) (f : α → SM β) : (lift (.ok a) >>= f) = f a := rfl
@[simp] theorem lift_error_bind (e : Exn) (f : α → SM β) :
    (lift (.error e) >>= f) = throw e := rfl
@[simp] theorem pure_bind (a : α) (f : α → SM β) : ((pure a : SM α) >>= f) = f a := rfl
end SM

/-- Outcome of `x` on a fresh stream with contents `r`, and how many bytes it consumed. -/
def prs (x : SM α) (r : Bytes) : Except Exn α × Nat := ((x ⟨r, 0⟩).1, (x ⟨r, 0⟩).2.pos)

/-- `x` reads forward from the position: it depends on the remaining bytes only, leaves the contents
alone, on success is insensitive to what follows the consumed bytes, and signals EOF if any of the
consumed bytes is missing. -/
structure Reader (x : SM α) : Prop where
  shift : ∀ s, x s = ((prs x s.rest).1, ⟨s.buf, s.pos + (prs x s.rest).2⟩)
  bound : ∀ r, (prs x r).2 ≤ r.length
  okLocal : ∀ r a n, prs x r = (.ok a, n) → ∀ post, prs x (r.take n ++ post) = (.ok a, n)
  trunc : ∀ r a n, prs x r = (.ok a, n) → ∀ m, m < n →
    ∃ e t, (prs x (r.take m)).1 = .error (.eofError e t)

@[simp] theorem Stream.rest_mk_zero (r : Bytes) : Stream.rest ⟨r, 0⟩ = r := by simp [Stream.rest]

theorem prs_pure (a : α) (r : Bytes) : prs (pure a : SM α) r = (.ok a, 0) := rfl
theorem prs_throw (e : Exn) (r : Bytes) : prs (SM.throw e : SM α) r = (.error e, 0) := rfl
theorem prs_lift (x : Except Exn α) (r : Bytes) : prs (SM.lift x) r = (x, 0) := rfl

theorem Reader.pure (a : α) : Reader (pure a : SM α) where
  shift s := rfl
  bound r := by simp [prs_pure]
  okLocal r b n h post := by rw [prs_pure] at h ⊢; simpa using h
  trunc r b n h m hm := by rw [prs_pure] at h; simp at h; omega

theorem Reader.throw (e : Exn) : Reader (SM.throw e : SM α) where
  shift s := rfl
  bound r := by simp [prs_throw]
  okLocal r b n h post := by rw [prs_throw] at h; simp at h
  trunc r b n h m hm := by rw [prs_throw] at h; simp at h

theorem Reader.lift (x : Except Exn α) : Reader (SM.lift x : SM α) where
  shift s := rfl
  bound r := by simp [prs_lift]
  okLocal r b n h post := by rw [prs_lift] at h ⊢; exact h
  trunc r b n h m hm := by rw [prs_lift] at h; simp at h; omega

theorem prs_bind {x : SM α} {f : α → SM β} (hf : ∀ a, Reader (f a)) (hx : Reader x) (r : Bytes) :
    prs (x >>= f) r = match prs x r with
      | (.ok a, n) => ((prs (f a) (r.drop n)).1, n + (prs (f a) (r.drop n)).2)
      | (.error e, n) => (.error e, n) := by
  have h1 := hx.shift ⟨r, 0⟩
  rw [Stream.rest_mk_zero] at h1
  unfold prs
  rw [SM.bind_apply, h1]
  rcases h : prs x r with ⟨a | a, n⟩
  · simp
  · have h2 := (hf a).shift ⟨r, 0 + n⟩
    simp only []
    rw [h2]
    simp [Stream.rest, prs]

theorem Reader.bind {x : SM α} {f : α → SM β} (hx : Reader x) (hf : ∀ a, Reader (f a)) :
    Reader (x >>= f) where
  shift s := by
    rw [SM.bind_apply, hx.shift s, prs_bind hf hx]
    rcases h : prs x s.rest with ⟨a | a, n⟩
    · simp
    · simp only []
      rw [(hf a).shift]
      simp [Stream.rest, Nat.add_assoc]
  bound r := by
    rw [prs_bind hf hx]
    have hb := hx.bound r
    rcases h : prs x r with ⟨a | a, n⟩
    · simpa [h] using hb
    · have := (hf a).bound (r.drop n)
      rw [h] at hb
      simp at this hb ⊢
      omega
  okLocal r b N h post := by
    rw [prs_bind hf hx] at h ⊢
    have hb := hx.bound r
    rcases h1 : prs x r with ⟨e | a, n⟩
    · simp [h1] at h
    · rw [h1] at h hb
      rcases h2 : prs (f a) (r.drop n) with ⟨e | c, m⟩
      · simp [h2] at h
      · simp [h2] at h hb
        obtain ⟨rfl, rfl⟩ := h
        have e1 : r.take (n + m) ++ post = r.take n ++ ((r.drop n).take m ++ post) := by
          rw [← List.append_assoc, ← List.take_add]
        rw [e1, hx.okLocal r a n h1]
        have e2 : (r.take n ++ ((r.drop n).take m ++ post)).drop n = (r.drop n).take m ++ post := by
          rw [List.drop_append_of_le_length (by simp; omega)]
          simp
        simp only [e2, (hf a).okLocal _ _ _ h2]
  trunc r b N h k hk := by
    rw [prs_bind hf hx] at h ⊢
    have hb := hx.bound r
    rcases h1 : prs x r with ⟨e | a, n⟩
    · simp [h1] at h
    · rw [h1] at h hb
      rcases h2 : prs (f a) (r.drop n) with ⟨e | c, m⟩
      · simp [h2] at h
      · simp [h2] at h hb
        obtain ⟨rfl, rfl⟩ := h
        by_cases hkn : k < n
        · obtain ⟨e, t, ht⟩ := hx.trunc r a n h1 k hkn
          refine ⟨e, t, ?_⟩
          rcases h3 : prs x (r.take k) with ⟨e' | a', n'⟩
          · rw [h3] at ht; simpa using ht
          · rw [h3] at ht; simp at ht
        · have e1 : r.take k = r.take n ++ (r.drop n).take (k - n) := by
            rw [← List.take_add]; congr 1; omega
          rw [e1, hx.okLocal r a n h1]
          have e2 : (r.take n ++ (r.drop n).take (k - n)).drop n = (r.drop n).take (k - n) := by
            rw [List.drop_append_of_le_length (by simp; omega)]
            simp
          simp only [e2]
          exact (hf a).trunc _ _ _ h2 (k - n) (by omega)

theorem Reader.ite {c : Prop} [Decidable c] {x y : SM α} (hx : Reader x) (hy : Reader y) :
    Reader (if c then x else y) := by split <;> assumption

/-- `read_fixed_bytes(n)` on the remaining bytes. -/
theorem readFixed_apply (n : Nat) (s : Stream) :
    readFixed (n : Int) s =
      if pyMaxSize < n then (.error .overflowError, s)
      else if s.rest.length < n then
        (.error (if s.rest.length = 0 then .eofError true eofEmptyText
          else .eofError false eofShortText), { s with pos := s.pos + s.rest.length })
      else (.ok (s.rest.take n), { s with pos := s.pos + n }) := by
  unfold readFixed
  rw [SM.bind_apply]
  unfold bytesIORead
  have hn : ¬ ((n : Int) < 0) := by omega
  rw [if_neg hn]
  simp only [Int.toNat_natCast]
  by_cases h1 : pyMaxSize < n
  · simp [h1]
  · simp only [if_neg h1, List.length_take]
    by_cases h2 : s.rest.length < n
    · have e1 : min n s.rest.length = s.rest.length := by omega
      rw [e1, if_pos h2, if_pos (by omega : (s.rest.length : Int) < (n : Int))]
      by_cases h3 : s.rest.length = 0
      · simp [h3]
      · simp [h3]
    · have e1 : min n s.rest.length = n := by omega
      rw [e1, if_neg h2, if_neg (by omega)]
      simp

theorem prs_readFixed (n : Nat) (r : Bytes) :
    prs (readFixed (n : Int)) r =
      if pyMaxSize < n then (.error .overflowError, 0)
      else if r.length < n then
        (.error (if r.length = 0 then .eofError true eofEmptyText
          else .eofError false eofShortText), r.length)
      else (.ok (r.take n), n) := by
  unfold prs
  rw [readFixed_apply]
  simp only [Stream.rest_mk_zero]
  split
  · simp
  · split <;> simp

theorem Reader.readFixed (n : Nat) : Reader (readFixed (n : Int)) where
  shift s := by
    rw [readFixed_apply, prs_readFixed]
    split
    · simp
    · split <;> simp
  bound r := by
    rw [prs_readFixed]
    split
    · simp
    · split
      · simp
      · simp; omega
  okLocal r a k h post := by
    rw [prs_readFixed] at h ⊢
    split at h
    · simp at h
    · split at h
      · simp at h
      · simp at h
        obtain ⟨rfl, rfl⟩ := h
        rename_i h1 h2
        rw [if_neg h1, if_neg (by simp; omega), List.take_append_of_le_length (by simp; omega)]
        simp [List.take_take]
  trunc r a k h m hm := by
    rw [prs_readFixed] at h ⊢
    split at h
    · simp at h
    · split at h
      · simp at h
      · simp at h
        obtain ⟨rfl, rfl⟩ := h
        rename_i h1 h2
        rw [if_neg h1, if_pos (by simp; omega)]
        by_cases h3 : (r.take m).length = 0
        · exact ⟨true, eofEmptyText, by simp only [if_pos h3]⟩
        · exact ⟨false, eofShortText, by simp only [if_neg h3]⟩

theorem Reader.readPascalBytes (size : Int) : Reader (readPascalBytes size) := by
  unfold OSK.readPascalBytes
  split
  · exact Reader.throw _
  · obtain ⟨n, rfl⟩ := Int.eq_ofNat_of_zero_le (by omega : 0 ≤ size)
    exact (Reader.readFixed n).bind (fun b => Reader.readFixed _)

theorem Reader.readFI (fi : FI) : Reader (readFI fi) := by
  cases fi with
  | struct f => exact (Reader.readFixed _).bind (fun b => Reader.pure _)
  | pascal p => exact (Reader.readPascalBytes _).bind (fun b => Reader.lift _)
  | pascalSized p size => exact (Reader.readPascalBytes _).bind (fun b => Reader.lift _)
  | unrecognised => exact Reader.throw _

theorem Reader.readDict (fmt : FDict) : Reader (readDict fmt) := by
  induction fmt with
  | nil => exact Reader.pure _
  | cons kv t ih =>
    exact (Reader.readFI _).bind (fun v => ih.bind (fun vs => Reader.pure _))

end OSK
