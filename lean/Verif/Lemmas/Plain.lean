import Verif.Lemmas.Repeat
import Verif.Lemmas.Dict
import Verif.Spec.Canonical
/-
Formats as they occur in key parameter classes: length-prefixed fields with 4-byte prefix and single
integers.
-/
namespace OSK
open Spec

/-- Length-prefixed (4 bytes), or a single integer of at least one byte. -/
def FI.plain : FI → Bool
  | .pascal _ => true
  | .struct ⟨_, [.int n _]⟩ => decide (0 < n) && decide (n ≤ 8)
  | _ => false

/-- All fields plain, names distinct. -/
def plainFmt (fmt : FDict) : Bool := fmt.all (fun kf => kf.2.plain) && decide (dkeys fmt).Nodup

theorem plainFmt_cons {k : Str} {fi : FI} {t : FDict} (h : plainFmt ((k, fi) :: t) = true) :
    fi.plain = true ∧ k ∉ dkeys t ∧ plainFmt t = true := by
  unfold plainFmt at h ⊢
  rw [Bool.and_eq_true, decide_eq_true_iff, dkeys_cons, List.nodup_cons, List.all_cons,
    Bool.and_eq_true] at h
  rw [Bool.and_eq_true, decide_eq_true_iff]
  exact ⟨h.1.1, h.2.1, h.1.2, h.2.2⟩

theorem FI.plain_cases {fi : FI} (h : fi.plain = true) :
    (∃ p, fi = .pascal p) ∨ ∃ big n sg, fi = .struct ⟨big, [.int n sg]⟩ ∧ 0 < n ∧ n ≤ 8 := by
  unfold FI.plain at h
  split at h
  · exact Or.inl ⟨_, rfl⟩
  · simp at h; exact Or.inr ⟨_, _, _, rfl, h⟩
  · simp at h

theorem FI.plain_simple {fi : FI} (h : fi.plain = true) : fi.simple := by
  rcases FI.plain_cases h with ⟨p, rfl⟩ | ⟨big, n, sg, rfl, h0, h8⟩
  · trivial
  · exact ⟨_, rfl, Or.inl h0⟩

theorem exact_of_packFI {fi : FI} (h : fi.plain = true) {v : Val} {w : Bytes} (hp : packFI fi v = .ok w) :
    Exact fi v := by
  rcases FI.plain_cases h with ⟨p, rfl⟩ | ⟨big, n, sg, rfl, h0, h8⟩
  · cases v <;> simp [Exact]
  · cases v <;> simp [Exact]
    simp [packFI, structPack, Val.toSVal, SFmt.pack1, SCode.pack] at hp

theorem exact_of_packDict {fmt : FDict} (h : plainFmt fmt = true) {d : VDict} {w : Bytes}
    (hp : packDict fmt d = .ok w) : ∀ k fi v, (k, fi) ∈ fmt → dget d k = some v → Exact fi v := by
  induction fmt generalizing w with
  | nil => simp
  | cons kf t ih =>
    obtain ⟨k, fi⟩ := kf
    obtain ⟨h1, h2, h3⟩ := plainFmt_cons h
    unfold packDict getItem at hp
    rcases hk : dget d k with _ | v
    · simp [hk] at hp
    · simp [hk] at hp
      obtain ⟨a, b, ha, hb, rfl⟩ := catE_ok hp
      intro k' fi' v' hm hv
      simp at hm
      rcases hm with ⟨rfl, rfl⟩ | hm
      · rw [hk] at hv; simp at hv; subst hv; exact exact_of_packFI h1 ha
      · exact ih h3 hb k' fi' v' hm hv

/-- A plain field never exceeds what a single read can return. -/
theorem packFI_plain_length {fi : FI} (h : fi.plain = true) {v : Val} {w : Bytes}
    (hp : packFI fi v = .ok w) : w.length ≤ pyMaxSize := by
  rcases FI.plain_cases h with ⟨p, rfl⟩ | ⟨big, n, sg, rfl, h0, h8⟩
  · obtain ⟨b, -, -, hl, rfl⟩ := packPascal_ok hp
    have e : defaultLengthSize.toNat = 4 := rfl
    rw [e] at hl ⊢
    have e2 : (256 : Nat) ^ 4 = 4294967296 := by decide
    have e3 : pyMaxSize = 9223372036854775807 := by decide
    rw [e2] at hl
    rw [e3]
    simp
    omega
  · obtain ⟨c, sv, hc, hsv, hq⟩ := structPack_ok hp
    simp at hc; subst hc
    have := (SCode.unpack_pack hq (by
      intro x hx'
      subst hx'
      simp [SCode.pack] at hq)).1
    rw [this]
    have e3 : pyMaxSize = 9223372036854775807 := by decide
    rw [e3]
    simp [SCode.size]
    omega

theorem prs_readDict_plain {fmt : FDict} (h : plainFmt fmt = true) {d : VDict} {w : Bytes}
    (hp : packDict fmt d = .ok w) (post : Bytes) :
    prs (readDict fmt) (w ++ post) = (.ok (named fmt d), w.length) := by
  induction fmt generalizing w with
  | nil => simp [packDict] at hp; subst hp; rfl
  | cons kf t ih =>
    obtain ⟨k, fi⟩ := kf
    obtain ⟨h1, h2, h3⟩ := plainFmt_cons h
    unfold packDict getItem at hp
    rcases hk : dget d k with _ | v
    · simp [hk] at hp
    · simp [hk] at hp
      obtain ⟨a, b, ha, hb, rfl⟩ := catE_ok hp
      unfold readDict
      rw [prs_bind (fun v => (Reader.readDict t).bind (fun _ => Reader.pure _)) (Reader.readFI _),
        List.append_assoc, prs_readFI ha (exact_of_packFI h1 ha) (packFI_plain_length h1 ha)]
      simp only [List.drop_left]
      rw [prs_bind (fun _ => Reader.pure _) (Reader.readDict t), ih h3 hb]
      simp [prs_pure, Spec.named, hk]

theorem packDict_present {fmt : FDict} {d : VDict} {w : Bytes} (hp : packDict fmt d = .ok w) :
    ∀ k ∈ dkeys fmt, ∃ v, dget d k = some v := by
  induction fmt generalizing w with
  | nil => simp [dkeys]
  | cons kf t ih =>
    obtain ⟨k, fi⟩ := kf
    unfold packDict getItem at hp
    rcases hk : dget d k with _ | v
    · simp [hk] at hp
    · simp [hk] at hp
      obtain ⟨a, b, ha, hb, rfl⟩ := catE_ok hp
      intro k' hm
      simp [dkeys] at hm
      rcases hm with rfl | ⟨fi', hm⟩
      · exact ⟨v, hk⟩
      · exact ih hb k' (by simp [dkeys]; exact ⟨fi', hm⟩)

theorem dget_named (fmt : FDict) (d : VDict) (k : Str) :
    dget (named fmt d) k = if k ∈ dkeys fmt then dget d k else none := by
  induction fmt with
  | nil => simp [named, dkeys]
  | cons kf t ih =>
    obtain ⟨k', fi⟩ := kf
    unfold named at ih ⊢
    rw [List.filterMap_cons]
    rcases hk : dget d k' with _ | v
    · simp only [Option.map_none]
      rw [ih, dkeys_cons]
      by_cases h : k' = k
      · subst h; rw [hk]; simp
      · simp [List.mem_cons, Ne.symm h]
    · simp only [Option.map_some]
      rw [dget_cons, ih, dkeys_cons]
      by_cases h : k' = k
      · subst h; rw [hk]; simp
      · simp [List.mem_cons, h, Ne.symm h]

theorem dkeys_named {fmt : FDict} {d : VDict} (h : ∀ k ∈ dkeys fmt, ∃ v, dget d k = some v) :
    dkeys (named fmt d) = dkeys fmt := by
  induction fmt with
  | nil => rfl
  | cons kf t ih =>
    obtain ⟨k, fi⟩ := kf
    obtain ⟨v, hv⟩ := h k (by simp [dkeys])
    have := ih (fun k' hk' => h k' (by simp [dkeys] at hk' ⊢; exact Or.inr hk'))
    simp [named, hv, dkeys] at this ⊢
    exact this

/-- A read record has exactly the names of the format, in order. -/
theorem readDict_dkeys {fmt : FDict} {r : Bytes} {d : VDict} {N : Nat}
    (h : prs (readDict fmt) r = (.ok d, N)) : dkeys d = dkeys fmt := by
  induction fmt generalizing r d N with
  | nil => simp [readDict, prs_pure] at h; obtain ⟨rfl, _⟩ := h; rfl
  | cons kf t ih =>
    obtain ⟨k, fi⟩ := kf
    unfold readDict at h
    obtain ⟨v, n1, m, h1, h2, rfl⟩ :=
      prs_bind_ok (fun _ => (Reader.readDict t).bind (fun _ => Reader.pure _)) (Reader.readFI _) h
    obtain ⟨vs, n2, m2, h3, h4, rfl⟩ := prs_bind_ok (fun _ => Reader.pure _) (Reader.readDict t) h2
    rw [prs_pure] at h4; simp at h4
    obtain ⟨rfl, _⟩ := h4
    have := ih h3
    simp [dkeys] at this ⊢
    exact this

/-- Inversion of a successful read of a nonempty format. -/
theorem readDict_cons_ok {k : Str} {fi : FI} {t : FDict} {r : Bytes} {d : VDict} {N : Nat}
    (h : prs (readDict ((k, fi) :: t)) r = (.ok d, N)) :
    ∃ v vs n1 n2, d = (k, v) :: vs ∧ prs (readFI fi) r = (.ok v, n1) ∧
      prs (readDict t) (r.drop n1) = (.ok vs, n2) ∧ N = n1 + n2 := by
  unfold readDict at h
  obtain ⟨v, n1, m, h1, h2, rfl⟩ :=
    prs_bind_ok (fun _ => (Reader.readDict t).bind (fun _ => Reader.pure _)) (Reader.readFI _) h
  obtain ⟨vs, n2, m2, h3, h4, rfl⟩ := prs_bind_ok (fun _ => Reader.pure _) (Reader.readDict t) h2
  rw [prs_pure] at h4; simp at h4
  obtain ⟨rfl, rfl⟩ := h4
  exact ⟨v, vs, n1, n2, rfl, h1, h3, rfl⟩

/-- A value read under a plain instruction passes the format check. -/
theorem checkField_read {fi : FI} (hp : fi.plain = true) {r : Bytes} {v : Val} {n : Nat}
    (h : prs (readFI fi) r = (.ok v, n)) {d : VDict} {k : Str} (hk : dget d k = some v) :
    checkField d k fi = pure () := by
  unfold checkField
  rw [hk]
  rcases FI.plain_cases hp with ⟨p, rfl⟩ | ⟨big, sz, sg, rfl, h0, h8⟩
  · obtain ⟨b, hb, -⟩ := prs_readPascal_ok h
    have : p.matchesVal v = true := by
      cases p <;> simp [decodePrim] at hb
      · subst hb; rfl
      · unfold bytesDecode at hb
        split at hb <;> simp [Except.map] at hb
        subst hb; rfl
      · subst hb; rfl
    simp [this]
  · have := (packFI_of_read (FI.plain_simple hp) h (by simp [FI.prim?])).1
    simp [packFI] at this
    simp [this]

theorem checkDict_read {fmt : FDict} (hp : plainFmt fmt = true) {r : Bytes} {d : VDict} {n : Nat}
    (h : prs (readDict fmt) r = (.ok d, n)) : checkDict d fmt = pure () := by
  have key : ∀ (fmt : FDict), plainFmt fmt = true → ∀ (r : Bytes) (d : VDict) (n : Nat),
      prs (readDict fmt) r = (.ok d, n) → ∀ D : VDict, (∀ k v, (k, v) ∈ d → dget D k = some v) →
      checkDict D fmt = pure () := by
    intro fmt
    induction fmt with
    | nil => intros; rfl
    | cons kf t ih =>
      obtain ⟨k, fi⟩ := kf
      intro hp r d n h D hD
      obtain ⟨h1, h2, h3⟩ := plainFmt_cons hp
      obtain ⟨v, vs, n1, n2, rfl, hr, ht, rfl⟩ := readDict_cons_ok h
      unfold checkDict
      rw [checkField_read h1 hr (hD k v (by simp))]
      rw [Eff.pure_bind]
      exact ih h3 _ _ _ ht D (fun k' v' hm => hD k' v' (by simp [hm]))
  refine key fmt hp r d n h d ?_
  intro k v hm
  refine dget_of_mem ?_ hm
  rw [readDict_dkeys h]
  simp [plainFmt] at hp
  exact hp.2

/-- A byte string read under a plain format is shorter than what was consumed. -/
theorem readDict_bytes_le {fmt : FDict} (hp : plainFmt fmt = true) {r : Bytes} {d : VDict} {N : Nat}
    (h : prs (readDict fmt) r = (.ok d, N)) {k : Str} {x : Bytes} (hx : dget d k = some (.bytes x)) :
    x.length + 4 ≤ N := by
  induction fmt generalizing r d N with
  | nil => simp [readDict, prs_pure] at h; obtain ⟨rfl, _⟩ := h; simp at hx
  | cons kf t ih =>
    obtain ⟨k', fi⟩ := kf
    obtain ⟨h1, h2, h3⟩ := plainFmt_cons hp
    obtain ⟨v, vs, n1, n2, rfl, hr, ht, rfl⟩ := readDict_cons_ok h
    rw [dget_cons] at hx
    split at hx
    · simp at hx; subst hx
      rcases FI.plain_cases h1 with ⟨p, rfl⟩ | ⟨big, sz, sg, rfl, h0, h8⟩
      · obtain ⟨b, hb, h0, hn, -⟩ := prs_readPascal_ok hr
        cases p <;> simp [decodePrim] at hb
        · subst hb; simp [defaultLengthSize] at hn; omega
        · unfold bytesDecode at hb
          split at hb <;> simp [Except.map] at hb
      · exfalso
        simp only [readFI] at hr
        obtain ⟨b, n, m, h4, h5, -⟩ := prs_bind_ok (fun _ => Reader.pure _) (Reader.readFixed _) hr
        rw [prs_pure] at h5
        simp [SFmt.unpack, unpackItems, SCode.unpack, structResult] at h5
    · have := ih h3 ht hx; omega

/-- Re-packing a value that was read: it works, takes no more room, and is byte-identical unless an
MPINT was stored in a longer form than necessary; the only obstacle is an unwritable negative MPINT. -/
theorem packFI_read_plain {fi : FI} (hp : fi.plain = true) {r : Bytes} {v : Val} {n : Nat}
    (h : prs (readFI fi) r = (.ok v, n)) :
    (packFI fi v = .error .overflowError ∧ fi = .pascal .mpint ∧ ∃ i, v = .int i ∧ NeedsSignByte i) ∨
    (∃ w, packFI fi v = .ok w ∧ w.length ≤ n ∧ (∀ i, fi = .pascal .mpint → v = .int i → ¬ NeedsSignByte i) ∧
      ((fi = .pascal .mpint → Minimal ((r.drop 4).take (digitSum (r.take 4)))) → w = r.take n)) := by
  by_cases hm : fi = .pascal .mpint
  · subst hm
    obtain ⟨b, hb, h0, hn, hl, htk, hle⟩ := prs_readPascal_ok h
    simp [decodePrim] at hb
    simp [defaultLengthSize] at hn hl htk
    have hpay : (r.drop 4).take (digitSum (r.take 4)) = b := by
      have e1 : r.take 4 = natToBE 4 b.length := by
        have := congrArg (List.take 4) htk
        rw [List.take_take, List.take_append_of_le_length (by simp)] at this
        rw [(by omega : min 4 n = 4)] at this
        rw [this, List.take_of_length_le (by simp)]
      have e2 : digitSum (r.take 4) = b.length := by
        rw [e1, digitSum_eq, beNat_natToBE_of_lt hl]
      rw [e2]
      have := congrArg (List.drop 4) htk
      rw [List.drop_append_of_le_length (by simp), List.drop_take,
        List.drop_of_length_le (l := natToBE 4 b.length) (by simp), List.nil_append] at this
      rw [(by omega : n - 4 = b.length)] at this
      exact this
    by_cases hw : ∃ w, toBytesSigned (mpintLength (beInt b)) (beInt b) = .ok w
    · right
      have hns := (mpint_writable_iff _).1 hw
      obtain ⟨w, hw⟩ := hw
      have hwl : w.length ≤ b.length := by
        rw [(toBytesSigned_ok hw).1]; exact mpintLength_le rfl
      refine ⟨natToBE 4 w.length ++ w, ?_, by simp; omega, ?_, ?_⟩
      · subst hb
        exact packPascal_eq (by decide) hw (by simp [defaultLengthSize]; omega)
      · intro i _ hi; subst hb; simp at hi; subst hi; exact hns
      · intro hc
        rw [hpay] at hc
        have h1 := hc rfl
        have h2 : b.length ≤ w.length := by
          apply h1
          rw [tcVal_eq, tcVal_eq, (toBytesSigned_ok hw).2]
        have h3 : w = b := by
          have e : toBytesSigned b.length (beInt b) = .ok b := toBytesSigned_beInt b
          have hl' : mpintLength (beInt b) = b.length := by
            rw [← (toBytesSigned_ok hw).1]; omega
          rw [hl', e] at hw
          simpa using hw.symm
        rw [h3, htk]
    · left
      refine ⟨?_, rfl, _, hb.symm, ?_⟩
      · rcases he : toBytesSigned (mpintLength (beInt b)) (beInt b) with e | w
        · have := toBytesSigned_error he
          subst this
          subst hb
          simp [packFI, packPascal, encodePrim, he]
        · exact absurd ⟨w, he⟩ hw
      · by_contra hc; exact hw ((mpint_writable_iff _).2 hc)
  · right
    have := packFI_of_read (FI.plain_simple hp) h (by
      intro size i b hpr
      exfalso
      cases fi <;> simp [FI.prim?] at hpr
      · apply hm; rw [hpr.1]
      · simp [FI.plain] at hp)
    refine ⟨_, this.1, by simp, fun i h => absurd h hm, fun _ => rfl⟩

theorem packDict_read_plain {fmt : FDict} (hp : plainFmt fmt = true) {r : Bytes} {d : VDict} {N : Nat}
    (h : prs (readDict fmt) r = (.ok d, N)) :
    (packDict fmt d = .error .overflowError ∧
      ∃ k i, (k, FI.pascal .mpint) ∈ fmt ∧ dget d k = some (.int i) ∧ NeedsSignByte i) ∨
    (∃ w, packDict fmt d = .ok w ∧ w.length ≤ N ∧
      (∀ k i, (k, FI.pascal .mpint) ∈ fmt → dget d k = some (.int i) → ¬ NeedsSignByte i) ∧
      (CanonicalInts fmt r → w = r.take N)) := by
  induction fmt generalizing r d N with
  | nil =>
    right
    simp [readDict, prs_pure] at h
    obtain ⟨rfl, rfl⟩ := h
    exact ⟨[], rfl, by simp, by simp, by simp⟩
  | cons kf t ih =>
    obtain ⟨k, fi⟩ := kf
    obtain ⟨h1, h2, h3⟩ := plainFmt_cons hp
    obtain ⟨v, vs, n1, n2, rfl, hr, ht, rfl⟩ := readDict_cons_ok h
    have hcong : packDict t ((k, v) :: vs) = packDict t vs := by
      apply packDict_congr
      intro k' fi' hm
      rw [dget_cons_ne]
      rintro rfl
      exact h2 (List.mem_map.2 ⟨_, hm, rfl⟩)
    have hpk : packDict ((k, fi) :: t) ((k, v) :: vs) = catE (packFI fi v) (packDict t vs) := by
      rw [packDict]; simp [getItem, hcong]
    rw [hpk]
    rcases packFI_read_plain h1 hr with ⟨he, rfl, i, rfl, hi⟩ | ⟨w1, hw1, hl1, hns, hc1⟩
    · left
      refine ⟨by rw [he]; rfl, k, i, by simp, by simp, hi⟩
    · rw [hw1]
      rcases ih h3 ht with ⟨he, k', i, hm, hk', hi⟩ | ⟨w2, hw2, hl2, hns2, hc2⟩
      · left
        refine ⟨by rw [he]; rfl, k', i, by simp [hm], ?_, hi⟩
        rw [dget_cons_ne]
        · exact hk'
        · rintro rfl; exact h2 (List.mem_map.2 ⟨_, hm, rfl⟩)
      · right
        rw [hw2]
        refine ⟨w1 ++ w2, rfl, by simp; omega, ?_, ?_⟩
        · intro k' i hm hk'
          simp at hm
          rw [dget_cons] at hk'
          rcases hm with ⟨rfl, rfl⟩ | hm
          · simp at hk'; exact hns i rfl hk'
          · rw [if_neg] at hk'
            · exact hns2 k' i hm hk'
            · rintro rfl; exact h2 (List.mem_map.2 ⟨_, hm, rfl⟩)
        · intro hc
          have hspan : ∀ p, fi = .pascal p → n1 = 4 + digitSum (r.take 4) := by
            rintro p rfl
            obtain ⟨b, hb, h0, hn, hl, htk, hle⟩ := prs_readPascal_ok hr
            simp [defaultLengthSize] at hn hl htk
            have e1 : r.take 4 = natToBE 4 b.length := by
              have := congrArg (List.take 4) htk
              rw [List.take_take, List.take_append_of_le_length (by simp)] at this
              rw [(by omega : min 4 n1 = 4)] at this
              rw [this, List.take_of_length_le (by simp)]
            rw [e1, digitSum_eq, beNat_natToBE_of_lt hl]; omega
          rw [List.take_add]
          rcases FI.plain_cases h1 with ⟨p, rfl⟩ | ⟨big, sz, sg, rfl, h0, h8⟩
          · have hn := hspan p rfl
            simp only [CanonicalInts] at hc
            rw [hc1 (fun hp => hc.1 (by simpa using hp)), hc2 (by rw [hn]; exact hc.2)]
          · simp only [CanonicalInts] at hc
            have hn : n1 = SFmt.calcsize ⟨big, [.int sz sg]⟩ := by
              simp only [readFI] at hr
              obtain ⟨b, n, m, h4, h5, rfl⟩ := prs_bind_ok (fun _ => Reader.pure _) (Reader.readFixed _) hr
              have h6 := (prs_readFixed_ok (n := SFmt.calcsize ⟨big, [.int sz sg]⟩) h4).1
              rw [prs_pure] at h5
              have := congrArg Prod.snd h5
              simp only at this
              rw [h6, ← this, Nat.add_zero]
            rw [hc1 (by simp), hc2 (by rw [hn]; exact hc)]

end OSK
