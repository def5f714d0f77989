import Verif.Lemmas.ListRead
/-
The layout of a key file can be read in only one way.
-/
namespace OSK
open Spec

theorem prefixed_unique {a a' x x' r r' : Bytes} (h : Prefixed 4 a x) (h' : Prefixed 4 a' x')
    (e : x ++ r = x' ++ r') : a = a' ∧ x = x' ∧ r = r' := by
  have h1 := prs_bytes h r
  have h2 := prs_bytes h' r'
  rw [e, h2] at h1
  simp only [Prod.mk.injEq, Except.ok.injEq, Val.bytes.injEq] at h1
  obtain ⟨h3, h4⟩ := List.append_inj e h1.2.symm
  exact ⟨h1.1.symm, h3, h4⟩

theorem strOf_inj {a b : List Char} (h : strOf a = strOf b) : a = b := by
  unfold strOf at h
  exact List.map_injective_iff.2 (fun x y hxy => Char.toNat_inj.1 hxy) h

theorem utf8_inj {a b : List Char} (h : utf8 a = utf8 b) : a = b := by
  have h1 := utf8Decode?_utf8 a
  rw [h, utf8Decode?_utf8 b] at h1
  exact strOf_inj (by simpa using h1.symm)

theorem fieldsIn_unique {l l' : List Bytes} {x x' r r' : Bytes} (hl : l.length = l'.length)
    (h : FieldsIn l x) (h' : FieldsIn l' x') (e : x ++ r = x' ++ r') : l = l' ∧ x = x' ∧ r = r' := by
  induction l generalizing l' x x' with
  | nil =>
    have : l' = [] := List.length_eq_zero_iff.1 hl.symm
    subst this
    have h1 : x = [] := h
    have h2 : x' = [] := h'
    subst h1 h2
    exact ⟨rfl, rfl, e⟩
  | cons b t ih =>
    obtain ⟨b', t', rfl⟩ : ∃ b' t', l' = b' :: t' := by
      cases l' with
      | nil => simp at hl
      | cons b' t' => exact ⟨b', t', rfl⟩
    obtain ⟨y, z, hy, hz, rfl⟩ := h
    obtain ⟨y', z', hy', hz', rfl⟩ := h'
    rw [List.append_assoc, List.append_assoc] at e
    obtain ⟨rfl, rfl, e2⟩ := prefixed_unique hy hy' e
    obtain ⟨rfl, rfl, rfl⟩ := ih (by simpa using hl) hz hz' e2
    exact ⟨rfl, rfl, rfl⟩

theorem front_unique {f f' : KeyFile} {x x' r r' : Bytes} (h : f.Front x) (h' : f'.Front x')
    (e : x ++ r = x' ++ r') :
    f.cipher = f'.cipher ∧ f.kdf = f'.kdf ∧ f.options = f'.options ∧ f.pubs = f'.pubs ∧ x = x' ∧ r = r' := by
  obtain ⟨wc, wk, wo, wn, wp, h1, h2, h3, h4, h5, -, h7, rfl⟩ := h
  obtain ⟨wc', wk', wo', wn', wp', h1', h2', h3', h4', h5', -, h7', rfl⟩ := h'
  simp only [List.append_assoc] at e
  obtain ⟨ec, rfl, g1⟩ := prefixed_unique h1 h1' (List.append_cancel_left e)
  obtain ⟨ek, rfl, g2⟩ := prefixed_unique h2 h2' g1
  obtain ⟨eo, rfl, g3⟩ := prefixed_unique h3 h3' g2
  obtain ⟨rfl, g4⟩ := List.append_inj g3 (by omega)
  obtain ⟨ep, rfl, rfl⟩ := fieldsIn_unique (by omega) h7 h7' g4
  exact ⟨utf8_inj ec, utf8_inj ek, eo, ep, rfl, rfl⟩

theorem lays_unique {f f' : KeyFile} {x x' r r' : Bytes} (h : f.Lays x) (h' : f'.Lays x')
    (ht : f.cipher = f'.cipher → f.tag.length = f'.tag.length) (e : x ++ r = x' ++ r') :
    f = f' ∧ x = x' ∧ r = r' := by
  obtain ⟨y, wb, hf, hb, rfl⟩ := h
  obtain ⟨y', wb', hf', hb', rfl⟩ := h'
  simp only [List.append_assoc] at e
  obtain ⟨e1, e2, e3, e4, rfl, g1⟩ := front_unique hf hf' e
  obtain ⟨e5, rfl, g2⟩ := prefixed_unique hb hb' g1
  obtain ⟨e6, rfl⟩ := List.append_inj g2 (ht e1)
  obtain ⟨c, k, o, p, b, t⟩ := f
  obtain ⟨c', k', o', p', b', t'⟩ := f'
  simp only at e1 e2 e3 e4 e5 e6
  subst e1 e2 e3 e4 e5 e6
  exact ⟨rfl, rfl, rfl⟩

/-! ### Sizes of the ciphers -/

theorem sizes_table : ∀ e ∈ cipherMapping, cipherSizes e.1 =
    some (e.2.blockSize, if e.2.isIntegrity then e.2.tagLength else 0) := by
  decide +kernel

theorem tagLength_table (c : CipherCls) : (if c.isIntegrity then c.tagLength else 0) = c.tagLength := by
  cases c <;> rfl

theorem cipher_sizes {s : Str} {c : CipherCls} (h : getCipherClass (.str s) = .ok c) :
    cipherSizes s = some (c.blockSize, c.tagLength) := by
  unfold getCipherClass at h
  simp only at h
  split at h
  · rename_i c' hc
    cases h
    have := sizes_table _ (dget_mem hc)
    rw [this, tagLength_table]
  · cases h

theorem tagFits_iff {c : CipherCls} {tag : Bytes} : TagFits c tag ↔ tag.length = c.tagLength := by
  unfold TagFits
  rw [tagLength_table]

end OSK
