import Verif.Lemmas.Write
/-
What a successful read tells about the bytes consumed.
-/
namespace OSK
open Spec (Exact)
variable {α β : Type}

theorem prs_bind_ok {x : SM α} {f : α → SM β} (hf : ∀ a, Reader (f a)) (hx : Reader x) {r : Bytes}
    {b : β} {N : Nat} (h : prs (x >>= f) r = (.ok b, N)) :
    ∃ a n m, prs x r = (.ok a, n) ∧ prs (f a) (r.drop n) = (.ok b, m) ∧ N = n + m := by
  rw [prs_bind hf hx] at h
  rcases h1 : prs x r with ⟨e | a, n⟩
  · simp [h1] at h
  · rw [h1] at h
    rcases h2 : prs (f a) (r.drop n) with ⟨e | c, m⟩
    · simp [h2] at h
    · simp [h2] at h
      obtain ⟨rfl, rfl⟩ := h
      exact ⟨a, n, m, rfl, h2, rfl⟩

theorem prs_readFixed_ok {n : Nat} {r b : Bytes} {k : Nat}
    (h : prs (readFixed (n : Int)) r = (.ok b, k)) :
    k = n ∧ b = r.take n ∧ n ≤ r.length ∧ n ≤ pyMaxSize := by
  rw [prs_readFixed] at h
  split at h
  · simp at h
  · split at h
    · simp at h
    · simp at h; obtain ⟨rfl, rfl⟩ := h; exact ⟨rfl, rfl, by omega, by omega⟩

theorem prs_readPascalBytes_ok {size : Int} {r b : Bytes} {N : Nat}
    (h : prs (readPascalBytes size) r = (.ok b, N)) :
    0 < size ∧ N = size.toNat + b.length ∧ b.length < 256 ^ size.toNat ∧
      r.take N = natToBE size.toNat b.length ++ b ∧ N ≤ r.length ∧ b.length ≤ pyMaxSize := by
  unfold readPascalBytes at h
  split at h
  · simp [prs_throw] at h
  · rename_i hs
    obtain ⟨n, rfl⟩ := Int.eq_ofNat_of_zero_le (by omega : 0 ≤ size)
    obtain ⟨lb, n1, m, h1, h2, hN⟩ :=
      prs_bind_ok (fun _ => Reader.readFixed _) (Reader.readFixed _) h
    obtain ⟨hn1, hlb, h3, h4⟩ := prs_readFixed_ok h1
    rw [hn1, hlb] at h2
    rw [hn1] at hN
    obtain ⟨rfl, hb, h5, h6⟩ := prs_readFixed_ok h2
    subst hN
    have hbl : b.length = beNat (r.take n) := by
      rw [hb, List.length_take]; omega
    have htl : (r.take n).length = n := by simp; omega
    refine ⟨by omega, by simp [hbl], ?_, ?_, ?_, by omega⟩
    · rw [hbl]
      have := beNat_lt (r.take n)
      rw [htl] at this
      simpa using this
    · rw [List.take_add, ← hb, hbl]
      congr 1
      simp only [Int.toNat_natCast]
      have := natToBE_beNat (r.take n)
      rw [htl] at this
      exact this.symm
    · simp at h5; omega

/-- A successful read of a length-prefixed value, inverted. -/
theorem prs_readPascal_ok {p : Prim} {size : Int} {r : Bytes} {v : Val} {N : Nat}
    (h : prs (do let b ← readPascalBytes size; SM.lift (decodePrim p b)) r = (.ok v, N)) :
    ∃ b, decodePrim p b = .ok v ∧ 0 < size ∧ N = size.toNat + b.length ∧
      b.length < 256 ^ size.toNat ∧ r.take N = natToBE size.toNat b.length ++ b ∧ N ≤ r.length := by
  obtain ⟨b, n, m, h1, h2, rfl⟩ := prs_bind_ok (fun _ => Reader.lift _) (Reader.readPascalBytes _) h
  obtain ⟨h3, h4, h5, h6, h7, _⟩ := prs_readPascalBytes_ok h1
  rw [prs_lift] at h2
  simp at h2
  obtain ⟨h2, rfl⟩ := h2
  exact ⟨b, h2, h3, h4, h5, h6, h7⟩

theorem packPascal_eq {p : Prim} {size : Int} (hs : 0 ≤ size) {v : Val} {b : Bytes}
    (h : encodePrim p v = .ok b) (hb : b.length < 256 ^ size.toNat) :
    packPascal p size v = .ok (natToBE size.toNat b.length ++ b) := by
  obtain ⟨n, rfl⟩ := Int.eq_ofNat_of_zero_le hs
  simp only [Int.toNat_natCast] at hb ⊢
  simp [packPascal, h, toBytesUnsigned_eq hb]

/-- Re-encoding a decoded payload: always the same bytes, except that an MPINT may shrink to its
shortest form or fail to be written at all. -/
theorem encode_decodePrim {p : Prim} {v : Val} {b : Bytes} (h : decodePrim p b = .ok v)
    (hp : p = .mpint → ∃ i, v = .int i ∧ toBytesSigned (mpintLength i) i = .ok b) :
    encodePrim p v = .ok b := by
  cases p with
  | bytes => simp [decodePrim] at h; subst h; rfl
  | string =>
    simp only [decodePrim, bytesDecode] at h
    rcases hb : utf8Decode? b with _ | t
    · simp [hb, Except.map] at h
    · simp [hb, Except.map] at h; subst h
      simp [encodePrim, strEncode, utf8Encode_decode hb]
  | mpint =>
    obtain ⟨i, rfl, hi⟩ := hp rfl
    exact hi

theorem SCode.pack_unpack {big : Bool} {c : SCode} {b : Bytes} (hl : b.length = c.size)
    (h0 : 0 < c.size ∨ ∃ n, c = .str n) :
    c.pack big (c.unpack big b) = .ok b := by
  cases c with
  | str n =>
    simp [SCode.size] at hl
    simp [SCode.unpack, SCode.pack, hl]
  | int size signed =>
    simp [SCode.size] at hl h0
    have key : ∀ b' : Bytes, b'.length = size →
        SCode.inIntRange size signed (if signed then beInt b' else (beNat b' : Int)) ∧
        natToBE size ((if signed then beInt b' else (beNat b' : Int)) % (256 : Int) ^ size).toNat = b' := by
      intro b' hb'
      subst hb'
      have hne : b' ≠ [] := by intro hc; subst hc; simp at h0
      have hlt := beNat_lt b'
      have h2 : (beNat b' : Int) < (256 : Int) ^ b'.length := by exact_mod_cast hlt
      cases signed with
      | true =>
        simp only [SCode.inIntRange, if_true]
        refine ⟨beInt_range b' hne, ?_⟩
        rw [beInt_emod]; simp [natToBE_beNat]
      | false =>
        simp only [SCode.inIntRange]
        simp
        refine ⟨h2, ?_⟩
        rw [Int.emod_eq_of_lt (by positivity) h2]
        simp [natToBE_beNat]
    cases big with
    | true =>
      have := key b hl
      simp only [SCode.unpack, SCode.pack, if_true]
      rw [if_pos this.1, this.2]
    | false =>
      have := key b.reverse (by simp [hl])
      simp only [SCode.unpack, SCode.pack, Bool.false_eq_true, if_false]
      rw [if_pos this.1, this.2]; simp

/-- Single-item struct formats (the ones whose values can be written). -/
def FI.simple : FI → Prop
  | .struct f => ∃ c, f.items = [c] ∧ (0 < c.size ∨ ∃ n, c = .str n)
  | .unrecognised => False
  | _ => True

/-- The primitive of a length-prefixed instruction. -/
def FI.prim? : FI → Option (Prim × Int)
  | .pascal p => some (p, defaultLengthSize)
  | .pascalSized p n => some (p, n)
  | _ => none

/-- A value that was read can be written back to the same bytes, provided that MPINTs were stored in
the form in which they are written. -/
theorem packFI_of_read {fi : FI} (hs : fi.simple) {r : Bytes} {v : Val} {N : Nat}
    (h : prs (readFI fi) r = (.ok v, N))
    (hm : ∀ size i b, fi.prim? = some (.mpint, size) → v = .int i →
      r.take N = natToBE size.toNat b.length ++ b → b.length < 256 ^ size.toNat → beInt b = i →
      toBytesSigned (mpintLength i) i = .ok b) :
    packFI fi v = .ok (r.take N) ∧ Exact fi v ∧ N ≤ r.length := by
  cases fi with
  | struct f =>
    obtain ⟨c, hc, h0⟩ := hs
    simp only [readFI] at h
    obtain ⟨b, n, m, h1, h2, rfl⟩ := prs_bind_ok (fun _ => Reader.pure _) (Reader.readFixed _) h
    obtain ⟨rfl, rfl, h3, h4⟩ := prs_readFixed_ok h1
    rw [prs_pure] at h2
    simp at h2
    obtain ⟨rfl, rfl⟩ := h2
    have hsz : f.calcsize = c.size := by simp [SFmt.calcsize, hc]
    have hl : (r.take c.size).length = c.size := by simp; omega
    simp only [SFmt.unpack, hc, unpackItems, hsz, List.take_take, Nat.min_self, Nat.add_zero]
    have hp := SCode.pack_unpack (big := f.big) hl h0
    refine ⟨?_, ?_, by omega⟩
    · rcases hu : c.unpack f.big (r.take c.size) with i | b
      · rw [hu] at hp
        simp [structResult, packFI, structPack, Val.toSVal, SFmt.pack1, hc, hp]
      · rw [hu] at hp
        simp [structResult, packFI, structPack, Val.toSVal, SFmt.pack1, hc, hp]
    · cases c with
      | int n sg => simp [SCode.unpack, structResult, Exact]
      | str n => simp [SCode.unpack, structResult, Exact, hsz]; rw [hsz] at h3; simp [SCode.size] at *; omega
  | pascal p =>
    obtain ⟨b, h1, h2, h3, h4, h5, h6⟩ := prs_readPascal_ok h
    refine ⟨?_, ?_, h6⟩
    · rw [h5]
      refine packPascal_eq (by decide) (encode_decodePrim h1 ?_) h4
      rintro rfl
      simp [decodePrim] at h1
      exact ⟨_, h1.symm, by subst h1; exact hm _ _ b rfl rfl h5 h4 rfl⟩
    · cases v <;> simp [Exact]
  | pascalSized p size =>
    obtain ⟨b, h1, h2, h3, h4, h5, h6⟩ := prs_readPascal_ok h
    refine ⟨?_, ?_, h6⟩
    · rw [h5]
      refine packPascal_eq (by omega) (encode_decodePrim h1 ?_) h4
      rintro rfl
      simp [decodePrim] at h1
      exact ⟨_, h1.symm, by subst h1; exact hm _ _ b rfl rfl h5 h4 rfl⟩
    · cases v <;> simpa [Exact] using h2
  | unrecognised => exact absurd hs (by simp [FI.simple])

end OSK
