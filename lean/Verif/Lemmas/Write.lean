import Verif.Lemmas.Reader
import Verif.Lemmas.Int
import Verif.Lemmas.Utf8
import Verif.Lemmas.Mpint
import Verif.Spec.Format
/-
Writers, and reading back what was written.
-/
namespace OSK
open Spec (Exact)

/-- The stream after writing `b`. -/
def Stream.wr (s : Stream) (b : Bytes) : Stream := (bytesIOWrite b s).2

theorem bytesIOWrite_eq (b : Bytes) (s : Stream) : bytesIOWrite b s = (.ok (), s.wr b) := by
  unfold Stream.wr bytesIOWrite; split <;> rfl

@[simp] theorem Stream.wr_nil (s : Stream) : s.wr [] = s := by simp [Stream.wr, bytesIOWrite]

theorem Stream.wr_eq (s : Stream) {b : Bytes} (h : b ≠ []) :
    s.wr b = ⟨(s.buf ++ List.replicate (s.pos - s.buf.length) 0).take s.pos ++ b
      ++ s.buf.drop (s.pos + b.length), s.pos + b.length⟩ := by
  simp [Stream.wr, bytesIOWrite, h]

@[simp] theorem Stream.wr_pos (s : Stream) (b : Bytes) : (s.wr b).pos = s.pos + b.length := by
  by_cases h : b = []
  · subst h; simp
  · rw [Stream.wr_eq s h]

theorem Stream.wr_append (s : Stream) (a b : Bytes) : s.wr (a ++ b) = (s.wr a).wr b := by
  by_cases ha : a = []
  · subst ha; simp
  by_cases hb : b = []
  · subst hb; simp
  rw [Stream.wr_eq _ hb, Stream.wr_eq _ ha, Stream.wr_eq _ (by simp [ha])]
  have hP : ((s.buf ++ List.replicate (s.pos - s.buf.length) 0).take s.pos).length = s.pos := by
    simp; omega
  generalize (s.buf ++ List.replicate (s.pos - s.buf.length) 0).take s.pos = P at hP
  have e1 : (P ++ a ++ s.buf.drop (s.pos + a.length)
      ++ List.replicate (s.pos + a.length - (P ++ a ++ s.buf.drop (s.pos + a.length)).length) 0).take
        (s.pos + a.length) = P ++ a := by
    rw [List.append_assoc (P ++ a)]
    rw [List.take_append_of_le_length (by simp; omega)]
    rw [List.take_of_length_le (by simp; omega)]
  have e2 : (P ++ a ++ s.buf.drop (s.pos + a.length)).drop (s.pos + a.length + b.length)
      = s.buf.drop (s.pos + (a ++ b).length) := by
    rw [Nat.add_assoc, List.length_append]
    rw [List.drop_append, List.drop_eq_nil_of_le (by simp; omega), List.nil_append, List.drop_drop]
    congr 1
    simp; omega
  simp only [e1, e2]
  simp [Nat.add_assoc]

/-- Reading position moved back to where `b` was written: `b` is there. -/
theorem Stream.wr_drop (s : Stream) (b : Bytes) :
    (s.wr b).buf.drop s.pos = b ++ s.buf.drop (s.pos + b.length) := by
  by_cases h : b = []
  · subst h; simp
  · rw [Stream.wr_eq s h]
    have hP : ((s.buf ++ List.replicate (s.pos - s.buf.length) 0).take s.pos).length = s.pos := by
      simp; omega
    simp only [List.append_assoc]
    rw [List.drop_append, List.drop_eq_nil_of_le (by rw [hP]), hP]
    simp

theorem Stream.wr_end (s : Stream) (b : Bytes) (h : s.pos = s.buf.length) :
    s.wr b = ⟨s.buf ++ b, s.pos + b.length⟩ := by
  by_cases hb : b = []
  · subst hb; simp
  · rw [Stream.wr_eq s hb, h]; simp

@[simp] theorem Stream.new_wr_buf (b : Bytes) : (Stream.new.wr b).buf = b := by
  rw [Stream.wr_end _ _ rfl]; simp [Stream.new]

/-- `x` writes the bytes `p` (if `p` is `ok`), or raises the exception `p`. -/
structure Writes (x : SM Unit) (p : Except Exn Bytes) : Prop where
  ok : ∀ b, p = .ok b → ∀ s, x s = (.ok (), s.wr b)
  error : ∀ e, p = .error e → ∀ s, (x s).1 = .error e

/-- Concatenation of packed pieces; the first exception wins. -/
def catE (p q : Except Exn Bytes) : Except Exn Bytes :=
  match p with
  | .error e => .error e
  | .ok a => match q with
    | .error e => .error e
    | .ok b => .ok (a ++ b)

theorem catE_ok {p q : Except Exn Bytes} {b : Bytes} (h : catE p q = .ok b) :
    ∃ x y, p = .ok x ∧ q = .ok y ∧ b = x ++ y := by
  unfold catE at h
  split at h
  · simp at h
  · split at h
    · simp at h
    · simp at h; exact ⟨_, _, rfl, rfl, h.symm⟩

@[simp] theorem catE_ok_ok (a b : Bytes) : catE (.ok a) (.ok b) = .ok (a ++ b) := rfl
@[simp] theorem catE_nil_left (p : Except Exn Bytes) : catE (.ok []) p = p := by
  unfold catE; cases p <;> simp
@[simp] theorem catE_nil_right (p : Except Exn Bytes) : catE p (.ok []) = p := by
  unfold catE; cases p <;> simp
theorem catE_assoc (p q r : Except Exn Bytes) : catE (catE p q) r = catE p (catE q r) := by
  unfold catE; cases p <;> cases q <;> cases r <;> simp

theorem Writes.pure : Writes (pure ()) (.ok []) where
  ok b h s := by simp at h; subst h; simp
  error e h := by simp at h

theorem Writes.bind {x y : SM Unit} {p q : Except Exn Bytes} (hx : Writes x p) (hy : Writes y q) :
    Writes (x >>= fun _ => y) (catE p q) where
  ok b h s := by
    obtain ⟨a, c, rfl, rfl, rfl⟩ := catE_ok h
    rw [SM.bind_ok (hx.ok a rfl s), hy.ok c rfl, Stream.wr_append]
  error e h s := by
    cases p with
    | error e' =>
      simp [catE] at h; subst h
      have := hx.error e' rfl s
      rcases hx' : x s with ⟨r, s'⟩
      rw [hx'] at this; simp at this; subst this
      rw [SM.bind_error hx']
    | ok a =>
      rw [SM.bind_ok (hx.ok a rfl s)]
      cases q with
      | error e' => simp [catE] at h; subst h; exact hy.error _ rfl _
      | ok c => simp [catE] at h

theorem Writes.write (b : Bytes) : Writes (bytesIOWrite b) (.ok b) where
  ok c h s := by simp at h; subst h; exact bytesIOWrite_eq _ _
  error e h := by simp at h

theorem Writes.throw (e : Exn) : Writes (SM.throw e) (.error e) where
  ok b h := by simp at h
  error e' h s := by simp at h; subst h; rfl

theorem Writes.result {x : SM Unit} {p : Except Exn Bytes} (h : Writes x p) (s : Stream) :
    (x s).1 = p.map (fun _ => ()) := by
  cases p with
  | error e => rw [h.error e rfl]; rfl
  | ok b => rw [h.ok b rfl]; rfl

theorem Writes.of_ok {x : SM Unit} {p : Except Exn Bytes} (h : Writes x p) {s s' : Stream}
    (hx : x s = (.ok (), s')) : ∃ b, p = .ok b ∧ s' = s.wr b := by
  cases p with
  | error e => have := h.error e rfl s; rw [hx] at this; simp at this
  | ok b =>
    have := h.ok b rfl s
    rw [hx] at this; simp at this
    exact ⟨b, rfl, this⟩

theorem Writes.fi (fi : FI) (v : Val) : Writes (writeFI fi v) (packFI fi v) := by
  unfold writeFI
  cases packFI fi v with
  | error e => exact Writes.throw e
  | ok b => exact Writes.write b

/-- Bytes of a record. -/
def packDict : FDict → VDict → Except Exn Bytes
  | [], _ => .ok []
  | (k, fi) :: t, d =>
    match getItem d k with
    | .error e => .error e
    | .ok v => catE (packFI fi v) (packDict t d)

theorem Writes.dict (fmt : FDict) (d : VDict) : Writes (writeDict fmt d) (packDict fmt d) := by
  induction fmt with
  | nil => exact Writes.pure
  | cons kf t ih =>
    obtain ⟨k, fi⟩ := kf
    unfold writeDict packDict
    cases getItem d k with
    | error e => exact Writes.throw e
    | ok v => exact (Writes.fi fi v).bind ih

/-- Bytes of a list of records. -/
def packDicts (fmt : FDict) : List VDict → Except Exn Bytes
  | [] => .ok []
  | d :: ds => catE (packDict fmt d) (packDicts fmt ds)

theorem Writes.repeatedly (fmt : FDict) (ds : List VDict) :
    Writes (writeRepeatedly fmt ds) (packDicts fmt ds) := by
  induction ds with
  | nil => exact Writes.pure
  | cons d ds ih => exact (Writes.dict fmt d).bind ih

/-! ### Reading back -/

theorem decode_encodePrim {p : Prim} {v : Val} {b : Bytes} (h : encodePrim p v = .ok b) :
    decodePrim p b = .ok v := by
  cases p <;> cases v <;> simp [encodePrim] at h
  · subst h; rfl
  · unfold strEncode at h
    split at h
    · rename_i s b' hb; simp at h; subst h
      simp [decodePrim, bytesDecode, utf8Decode_encode hb, Except.map]
    · simp at h
  · have := toBytesSigned_ok h
    simp [decodePrim, this.2]

theorem prs_readPascalBytes {size : Nat} (hs : 0 < size) (hs' : size ≤ pyMaxSize) {b : Bytes}
    (hb : b.length < 256 ^ size) (hb' : b.length ≤ pyMaxSize) (post : Bytes) :
    prs (readPascalBytes size) (natToBE size b.length ++ b ++ post) = (.ok b, size + b.length) := by
  unfold readPascalBytes
  rw [if_neg (by omega), prs_bind (fun _ => Reader.readFixed _) (Reader.readFixed _), prs_readFixed,
    if_neg (by omega), if_neg (by simp), List.append_assoc,
    List.take_append_of_le_length (by simp)]
  simp only []
  rw [List.take_of_length_le (by simp), beNat_natToBE_of_lt hb,
    List.drop_append_of_le_length (by simp), List.drop_of_length_le (by simp), List.nil_append,
    prs_readFixed, if_neg (by omega), if_neg (by simp)]
  simp

theorem packPascal_ok {p : Prim} {size : Int} {v : Val} {w : Bytes} (h : packPascal p size v = .ok w) :
    ∃ b, encodePrim p v = .ok b ∧ 0 ≤ size ∧ b.length < 256 ^ size.toNat ∧
      w = natToBE size.toNat b.length ++ b := by
  unfold packPascal at h
  split at h
  · simp at h
  · rename_i b hb
    split at h
    · simp at h
    · rename_i lb hl
      simp at h; subst h
      unfold toBytesUnsigned at hl
      split at hl
      · simp at hl
      · split at hl
        · simp at hl; subst hl
          exact ⟨b, hb, by omega, by assumption, rfl⟩
        · simp at hl

theorem prs_readPascal {p : Prim} {size : Int} (hs : 0 < size) {v : Val} {w : Bytes}
    (h : packPascal p size v = .ok w) (hw : w.length ≤ pyMaxSize) (post : Bytes) :
    prs (do let b ← readPascalBytes size; SM.lift (decodePrim p b)) (w ++ post)
      = (.ok v, w.length) := by
  obtain ⟨b, hb, h0, hl, rfl⟩ := packPascal_ok h
  obtain ⟨n, rfl⟩ := Int.eq_ofNat_of_zero_le h0
  simp at hw hl
  rw [prs_bind (fun _ => Reader.lift _) (Reader.readPascalBytes _)]
  simp only [Int.toNat_natCast]
  rw [prs_readPascalBytes (by omega) (by omega) hl (by omega)]
  simp [prs_lift, decode_encodePrim hb]

theorem SCode.unpack_pack {big : Bool} {c : SCode} {sv : SVal} {b : Bytes} (h : c.pack big sv = .ok b)
    (hx : ∀ x, sv = .bytes x → x.length = c.size) :
    b.length = c.size ∧ c.unpack big b = sv := by
  cases c with
  | int size signed =>
    cases sv with
    | bytes x => simp [SCode.pack] at h
    | int v =>
      simp only [SCode.pack] at h
      split at h
      · rename_i hr
        simp at h
        have hv : (if signed then beInt (natToBE size (v % (256 : Int) ^ size).toNat)
            else (beNat (natToBE size (v % (256 : Int) ^ size).toNat) : Int)) = v := by
          unfold SCode.inIntRange at hr
          cases signed with
          | true =>
            simp at hr ⊢
            by_cases h0 : size = 0
            · subst h0; simp at hr; simp [natToBE, beInt]; omega
            · exact beInt_natToBE h0 hr
          | false =>
            simp at hr ⊢
            rw [beNat_natToBE, Int.emod_eq_of_lt hr.1 hr.2]
            have : v.toNat < 256 ^ size := by
              have h1 : (v.toNat : Int) < ((256 ^ size : Nat) : Int) := by
                rw [Int.toNat_of_nonneg hr.1]; push_cast; exact hr.2
              exact_mod_cast h1
            rw [Nat.mod_eq_of_lt this, Int.toNat_of_nonneg hr.1]
        cases big with
        | true =>
          simp at h; subst h
          refine ⟨by simp [SCode.size], ?_⟩
          simp only [SCode.unpack, if_true]
          rw [hv]
        | false =>
          simp at h; subst h
          refine ⟨by simp [SCode.size], ?_⟩
          simp only [SCode.unpack, List.reverse_reverse]
          simp
          exact hv
      · simp at h
  | str n =>
    cases sv with
    | int v => simp [SCode.pack] at h
    | bytes x =>
      have := hx x rfl
      simp [SCode.size] at this
      simp [SCode.pack] at h
      subst h
      simp [SCode.size, SCode.unpack, this]

theorem structPack_ok {f : SFmt} {v : Val} {b : Bytes} (h : structPack f v = .ok b) :
    ∃ c sv, f.items = [c] ∧ v.toSVal = some sv ∧ c.pack f.big sv = .ok b := by
  unfold structPack at h
  split at h
  · rename_i sv hsv
    unfold SFmt.pack1 at h
    split at h
    · rename_i c hc; exact ⟨c, sv, hc, hsv, h⟩
    · simp at h
  · simp at h

theorem structResult_toSVal {v : Val} {sv : SVal} (h : v.toSVal = some sv) :
    structResult [sv] = v := by
  cases v <;> simp [Val.toSVal] at h <;> subst h <;> rfl

theorem prs_readFI {fi : FI} {v : Val} {w : Bytes} (h : packFI fi v = .ok w) (hx : Exact fi v)
    (hw : w.length ≤ pyMaxSize) (post : Bytes) :
    prs (readFI fi) (w ++ post) = (.ok v, w.length) := by
  cases fi with
  | struct f =>
    obtain ⟨c, sv, hc, hsv, hp⟩ := structPack_ok h
    have hsz : f.calcsize = c.size := by simp [SFmt.calcsize, hc]
    have := SCode.unpack_pack hp (by
      intro x hx'
      subst hx'
      cases v <;> simp [Val.toSVal] at hsv
      subst hsv
      simpa [Exact, hsz] using hx)
    unfold readFI
    rw [prs_bind (fun _ => Reader.pure _) (Reader.readFixed _), prs_readFixed,
      if_neg (by omega), if_neg (by simp; omega)]
    simp only [prs_pure]
    rw [hsz, ← this.1, List.take_append_of_le_length (by simp), List.take_of_length_le (by simp)]
    simp only [SFmt.unpack, hc, unpackItems]
    rw [List.take_of_length_le (by omega), this.2, structResult_toSVal hsv]
    simp
  | pascal p => exact prs_readPascal (by decide) h hw post
  | pascalSized p size =>
    exact prs_readPascal (by cases v <;> simpa [Exact] using hx) h hw post
  | unrecognised => simp [packFI] at h

theorem prs_readDict {fmt : FDict} {d : VDict} {w : Bytes} (h : packDict fmt d = .ok w)
    (hx : ∀ k fi v, (k, fi) ∈ fmt → dget d k = some v → Exact fi v)
    (hw : w.length ≤ pyMaxSize) (post : Bytes) :
    prs (readDict fmt) (w ++ post) = (.ok (Spec.named fmt d), w.length) := by
  induction fmt generalizing w with
  | nil => simp [packDict] at h; subst h; rfl
  | cons kf t ih =>
    obtain ⟨k, fi⟩ := kf
    unfold packDict getItem at h
    rcases hk : dget d k with _ | v
    · simp [hk] at h
    · simp [hk] at h
      obtain ⟨a, b, ha, hb, rfl⟩ := catE_ok h
      simp at hw
      unfold readDict
      rw [prs_bind (fun v => (Reader.readDict t).bind (fun _ => Reader.pure _)) (Reader.readFI _),
        List.append_assoc, prs_readFI ha (hx k fi v (by simp) hk) (by omega)]
      simp only [List.drop_left]
      rw [prs_bind (fun _ => Reader.pure _) (Reader.readDict t),
        ih hb (fun k' fi' v' hm hv => hx k' fi' v' (by simp [hm]) hv) (by omega)]
      simp [prs_pure, Spec.named, hk]

theorem packDict_congr {fmt : FDict} {d d' : VDict} (h : ∀ k fi, (k, fi) ∈ fmt → dget d k = dget d' k) :
    packDict fmt d = packDict fmt d' := by
  induction fmt with
  | nil => rfl
  | cons kf t ih =>
    obtain ⟨k, fi⟩ := kf
    unfold packDict getItem
    rw [h k fi (by simp), ih (fun k' fi' hm => h k' fi' (by simp [hm]))]

end OSK
