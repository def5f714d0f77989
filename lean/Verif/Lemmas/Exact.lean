import Verif.Lemmas.StdReverse
import Verif.Props.Change
import Verif.Props.Tamper
/-
Fields, keys and options in the one form that they are written in.
-/
namespace OSK
open Spec

theorem tight_iff {fi : FI} {w : Bytes} {v : Val} : Tight fi w v ↔ Stores fi v w := by
  constructor
  · intro h
    cases h with
    | bytes h => exact .bytes h
    | text h => exact .text h
    | mpint h hm hs => exact .mpint hs ⟨rfl, hm⟩ h
    | uint => exact .uint
  · intro h
    cases h with
    | bytes h => exact .bytes h
    | text h => exact .text h
    | mpint hs hm h =>
      obtain ⟨rfl, hm⟩ := hm
      exact .mpint h hm hs
    | uint => exact .uint

theorem tight_encodes {fi : FI} {w : Bytes} {v : Val} (h : Tight fi w v) : Encodes fi w v := by
  cases h with
  | bytes h => exact .bytes h
  | text h => exact .text h
  | mpint h hm hs => exact .mpint h
  | uint => exact .uint

theorem tightAll_encodes {fmt : FDict} {w : Bytes} {d : VDict} (h : TightAll fmt w d) : EncodesAll fmt w d := by
  induction h with
  | nil => exact .nil
  | cons h _ ih => exact .cons (tight_encodes h) ih

theorem storesAll_congr {d d' : VDict} {fmt : FDict} {w : Bytes} (h : StoresAll d fmt w) (he : ∀ k ∈ dkeys fmt, dget d k = dget d' k) :
    StoresAll d' fmt w := by
  induction h with
  | nil => exact .nil
  | @cons k fi t v w w' hv hs _ ih =>
    exact .cons (by rw [← he k (by simp [dkeys])]; exact hv) hs (ih fun k' hk => he k' (by simp [dkeys] at hk ⊢; exact .inr hk))

theorem tightAll_iff {fmt : FDict} (hn : (dkeys fmt).Nodup) {w : Bytes} {d : VDict} :
    TightAll fmt w d ↔ dkeys d = dkeys fmt ∧ StoresAll d fmt w := by
  induction fmt generalizing w d with
  | nil =>
    constructor
    · intro h
      cases h
      exact ⟨rfl, .nil⟩
    · rintro ⟨hk, h⟩
      cases h
      cases d with
      | nil => exact .nil
      | cons => simp [dkeys] at hk
  | cons e t ih =>
    obtain ⟨k, fi⟩ := e
    have hn' := List.nodup_cons.1 (show (k :: dkeys t).Nodup from hn)
    have skip : ∀ (d : VDict) (v : Val), ∀ k' ∈ dkeys t, dget ((k, v) :: d) k' = dget d k' := by
      intro d v k' hk'
      rw [dget_cons, if_neg]
      rintro rfl
      exact hn'.1 hk'
    constructor
    · intro h
      cases h with
      | cons h1 h2 =>
        obtain ⟨hk, h3⟩ := (ih hn'.2).1 h2
        refine ⟨by simpa [dkeys] using hk, .cons (by rw [dget_cons, if_pos rfl]) (tight_iff.1 h1) (storesAll_congr h3 fun k' hk' => ?_)⟩
        rw [skip _ _ k' hk']
    · rintro ⟨hk, h⟩
      cases h with
      | cons hv h1 h2 =>
        cases d with
        | nil => simp [dkeys] at hk
        | cons e d =>
          obtain ⟨k', v'⟩ := e
          have hk : k' :: dkeys d = k :: dkeys t := hk
          obtain ⟨rfl, hkt⟩ := List.cons.inj hk
          rw [dget_cons, if_pos rfl] at hv
          cases hv
          exact .cons (tight_iff.2 h1) ((ih hn'.2).2 ⟨hkt, storesAll_congr h2 fun k'' hk'' => skip _ _ k'' hk''⟩)

theorem keyTight_pub {b rest w : Bytes} {k : Key} (h : KeyReads .pub b k rest) : KeyTight .pub w k ↔ PublicBytes k w := by
  obtain ⟨t, ⟨fmt, wt, wp, wf, hf, h1, h2, h3, -⟩, -, -, hh, -⟩ := h
  have hg : dget k.header (py! "key_type") = some (.str t) := by rw [hh]; simp
  cases h3f : k.footer with
  | cons e l => rw [h3f] at h3; cases h3
  | nil =>
    constructor
    · rintro ⟨t', fmt', wt', wp', wf', hh', hf', h1', h2', h3', rfl⟩
      rw [hh] at hh'
      cases hh'
      rw [h3f] at h3'
      cases h3'
      rw [List.append_nil]
      exact ⟨t, fmt', wt', wp', hg, hf', tight_iff.1 h1', ((tightAll_iff (fields_nodup hf')).1 h2').2, rfl⟩
    · rintro ⟨t', fmt', wt', wp', hg', hf', h1', h2', rfl⟩
      rw [hg] at hg'
      cases hg'
      have e : fieldsOf .pub t = some fmt' := hf'
      rw [hf] at e
      cases e
      exact ⟨t, fmt, wt', wp', [], hh, hf, tight_iff.2 h1', (tightAll_iff (fields_nodup hf)).2 ⟨encodesAll_dkeys h2, h2'⟩,
        by rw [h3f]; exact .nil, by rw [List.append_nil]⟩

theorem keyTight_priv {b rest w : Bytes} {k : Key} (h : KeyReads .priv b k rest) : KeyTight .priv w k ↔ PrivateBytes k w := by
  obtain ⟨t, ⟨fmt, wt, wp, wf, hf, h1, h2, h3, -⟩, -, -, hh, -⟩ := h
  have hg : dget k.header (py! "key_type") = some (.str t) := by rw [hh]; simp
  have hn : (dkeys (afterFields .priv)).Nodup := by decide
  constructor
  · rintro ⟨t', fmt', wt', wp', wf', hh', hf', h1', h2', h3', rfl⟩
    rw [hh] at hh'
    cases hh'
    exact ⟨t, fmt', wt', wp', wf', hg, hf', tight_iff.1 h1', ((tightAll_iff (fields_nodup hf')).1 h2').2,
      ((tightAll_iff hn).1 h3').2, rfl⟩
  · rintro ⟨t', fmt', wt', wp', wf', hg', hf', h1', h2', h3', rfl⟩
    rw [hg] at hg'
    cases hg'
    have e : fieldsOf .priv t = some fmt' := hf'
    rw [hf] at e
    cases e
    exact ⟨t, fmt, wt', wp', wf', hh, hf, tight_iff.2 h1', (tightAll_iff (fields_nodup hf)).2 ⟨encodesAll_dkeys h2, h2'⟩,
      (tightAll_iff hn).2 ⟨encodesAll_dkeys h3, h3'⟩, rfl⟩

/-- The options of `bcrypt` are written as their field. -/
theorem bcrypt_stores {salt w : Bytes} {rounds : Nat} :
    StoresAll (bcryptOptions salt rounds).data [(py! "salt", .pascal .bytes), (py! "rounds", .struct ⟨true, [.int 4 false]⟩)] w ↔
      BcryptField salt rounds w := by
  constructor
  · intro h
    cases h with
    | cons hv h1 h2 =>
      cases h2 with
      | cons hv' h3 h4 =>
        cases h4
        have e1 : dget (bcryptOptions salt rounds).data (py! "salt") = some (.bytes salt) := by simp [bcryptOptions]
        have e2 : dget (bcryptOptions salt rounds).data (py! "rounds") = some (.int rounds) := by
          simp [bcryptOptions, dget_cons]
        rw [e1] at hv
        rw [e2] at hv'
        cases hv
        cases hv'
        cases h1 with
        | bytes h1 =>
          generalize hfi : FI.struct ⟨true, [.int 4 false]⟩ = fi at h3
          generalize hr : Val.int (rounds : Int) = r at h3
          cases h3 with
          | uint =>
            simp at hfi hr
            exact ⟨_, _, h1, hfi.symm, by omega, by rw [List.append_nil]⟩
          | _ => cases hfi
  · rintro ⟨a, b, h1, h2, rfl, rfl⟩
    have : StoresAll (bcryptOptions salt (digitSum b)).data
        [(py! "salt", .pascal .bytes), (py! "rounds", .struct ⟨true, [.int 4 false]⟩)] (a ++ (b ++ [])) := by
      refine .cons (v := .bytes salt) (by simp [bcryptOptions]) (.bytes h1) (.cons (v := .int (digitSum b)) (by simp [bcryptOptions, dget_cons]) ?_ .nil)
      have := Stores.uint (w := b)
      rw [h2] at this
      exact this
    simpa using this

end OSK
