import Verif.Lemmas.Clear
import Verif.Lemmas.FileUnique
/-
C121: what a key file says in the clear, and when the passphrase is asked for.
-/
namespace OSK
open Spec

theorem listFromBytes_prefix {ext : Ext} {cr : Crypto} {inp : Inputs} {b : Bytes} {passphrase : Option Str} :
    (∀ e, (clearPart ext b).res = .error e →
      listFromBytes ext cr inp b passphrase = ⟨(clearPart ext b).log, .error (listExcept e)⟩) ∧
    (∀ x, (clearPart ext b).res = .ok x → ∃ rest, (listFromBytes ext cr inp b passphrase).log =
      (clearPart ext b).log ++ (choosePassphrase inp (x.2.2.2.1 = .none) passphrase).log ++ rest ∧ .prompt ∉ rest) := by
  have key : ∀ y : Eff KeyList, (Eff.tryCatch y (fun e => some (Eff.throw (listExcept e)))).log = y.log := by
    intro y
    unfold Eff.tryCatch
    rcases h : y.res with e | a <;> simp
  constructor
  · intro e h
    unfold listFromBytes
    rw [listFromBytesBody_parts]
    have hb : (clearPart ext b >>= fun x => choosePassphrase inp (x.2.2.2.1 = .none) passphrase >>= fun p =>
        hiddenPart ext cr b p x) = ⟨(clearPart ext b).log, .error e⟩ := by
      generalize clearPart ext b = y at h ⊢
      obtain ⟨l, r⟩ := y
      simp only at h
      subst h
      rfl
    rw [hb]
    simp [Eff.tryCatch, Eff.throw]
  · intro x h
    unfold listFromBytes
    rw [key, listFromBytesBody_parts, Eff.bind_log_ok h]
    generalize hc : choosePassphrase inp (x.2.2.2.1 = .none) passphrase = c
    rcases hr : c.res with e | p
    · refine ⟨[], ?_, by simp⟩
      obtain ⟨l, r⟩ := c
      simp only at hr
      subst hr
      simp only [List.append_nil]
      rfl
    · refine ⟨(hiddenPart ext cr b p x).log, ?_, ?_⟩
      · rw [Eff.bind_log_ok hr, List.append_assoc]
      · have := Prompts.hiddenPart ext cr b p x
        unfold Prompts at this
        rwa [Nat.le_zero, List.count_eq_zero] at this

/-- **C121** (the same for everyone). Whatever passphrases are given and whatever the cryptographic functions do, two lists read from one file
have the same header, encrypted bytes, options and public keys. -/
theorem C121_same (ext : Ext) (cr cr' : Crypto) (inp inp' : Inputs) (b : Bytes) (passphrase passphrase' : Option Str)
    (kl kl' : KeyList) (h : (listFromBytes ext cr inp b passphrase).res = .ok kl)
    (h' : (listFromBytes ext cr' inp' b passphrase').res = .ok kl') : SameClear kl kl' := by
  obtain ⟨p⟩ := listFromBytes_parse h
  obtain ⟨p'⟩ := listFromBytes_parse h'
  obtain ⟨hf, -, -⟩ := lays_unique (r := p.post) (r' := p'.post) p.lays p'.lays (fun hc => by
    have e1 := p.cipher
    rw [hc, p'.cipher] at e1
    have e2 : p'.cc = p.cc := by injection e1
    have t1 := p.tag
    have t2 := p'.tag
    rw [e2] at t2
    unfold TagFits at t1 t2
    split at t1
    · rw [if_pos (by assumption)] at t2; rw [t1, t2]
    · rw [if_neg (by assumption)] at t2; rw [t1, t2]) (by rw [← p.input, ← p'.input])
  have hk : p.kc = p'.kc := by
    have e1 := p.kdf
    rw [hf, p'.kdf] at e1
    injection e1 with e1
    exact e1.symm
  have ho : p.od = p'.od := by
    have e1 := p.options
    rw [hf, hk, p'.options] at e1
    simp only [Prod.mk.injEq, Except.ok.injEq] at e1
    exact e1.1.symm
  have hp : p.ks = p'.ks := by
    have e1 := p.pubs
    have e2 := p'.pubs
    rw [hf] at e1
    generalize p.ks = x at e1
    generalize p'.ks = y at e2
    generalize p'.f.pubs = l at e1 e2
    clear * - e1 e2
    induction e1 generalizing y with
    | nil => cases e2; rfl
    | cons a1 _ ih =>
      cases e2 with
      | cons b1 b2 =>
        rw [a1] at b1
        rw [ih _ b2]
        simp only [Except.ok.injEq] at b1
        rw [b1]
  refine ⟨?_, ?_, ?_, ?_, ?_⟩
  · rw [p.list, p'.list]
  · rw [p.list, p'.list, hf]
  · rw [p.list, p'.list, hf]
  · rw [p.list, p'.list, hk, ho]
  · rw [p.pairs, p'.pairs, hp]

/-- **C121** (refused before asking). A file whose clear part is not in order is refused with one and the same `ValueError`, whatever the
passphrase and the cryptographic functions are, and nobody is asked for a passphrase. The full claim, for the tag after the encrypted
section as well, is `C121_full`. -/
theorem C121_refused_partial (ext : Ext) (b : Bytes) (h : ¬ ∃ f, ClearPart b f) :
    ∃ log e, .prompt ∉ log ∧ e.isValueError = true ∧
      ∀ cr inp passphrase, listFromBytes ext cr inp b passphrase = ⟨log, .error e⟩ := by
  rcases hr : (clearPart ext b).res with e | x
  · have hl : ∀ cr inp passphrase, listFromBytes ext cr inp b passphrase = ⟨(clearPart ext b).log, .error (listExcept e)⟩ :=
      fun cr inp passphrase => listFromBytes_prefix.1 e hr
    refine ⟨_, _, ?_, ?_, hl⟩
    · have := Prompts.clearPart ext b
      unfold Prompts at this
      rwa [Nat.le_zero, List.count_eq_zero] at this
    · exact C27_only_value_error ext toyCrypto exInputs b none _ (by rw [hl])
  · exact absurd (clearPart_ok hr) h

/-- **C121** (asked). If the clear part is in order, the warnings of its public keys come first, then the question if the file needs a
passphrase and none was given, and there is no other question. -/
theorem C121_asked (ext : Ext) (cr : Crypto) (inp : Inputs) (b : Bytes) (passphrase : Option Str) (f : KeyFile) (h : ClearPart b f) :
    ∃ rest, (listFromBytes ext cr inp b passphrase).log =
      f.pubs.flatMap (fun p => (fromBytes ext .pub p none).log) ++
        (if strOf f.kdf = py! "bcrypt" ∧ passphrase = none then [.prompt] else []) ++ rest ∧ .prompt ∉ rest := by
  obtain ⟨ks, kc, o, cc, s, hx, hk, -⟩ := clearPart_reads (ext := ext) h
  obtain ⟨rest, h1, h2⟩ := (listFromBytes_prefix (ext := ext) (cr := cr) (inp := inp) (b := b) (passphrase := passphrase)).2 _
    (by rw [hx])
  refine ⟨rest, ?_, h2⟩
  rw [h1, hx, choosePassphrase_log]
  rcases getKdfClass_iff.1 hk with ⟨hk', hkc⟩ | ⟨hk', hkc⟩
  · have : strOf f.kdf ≠ py! "bcrypt" := by rw [hk']; decide
    simp [hkc, hk']
  · simp [hkc, hk']

/-- The full claim: nobody is asked for the passphrase of a file that cannot be read with any passphrase, whatever the cryptographic functions. -/
def C121_full : Prop := ∀ (ext : Ext) (b : Bytes),
  (∀ cr inp passphrase, ¬ ∃ kl, (listFromBytes ext cr inp b passphrase).res = .ok kl) →
    ∀ cr inp passphrase, .prompt ∉ (listFromBytes ext cr inp b passphrase).log

/-- A file for AES-GCM that ends before the tag. -/
def exTaglessBytes : Bytes :=
  pb! "openssh-key-v1" ++ [0] ++ ([0, 0, 0, 22] ++ pb! "aes256-gcm@openssh.com") ++ ([0, 0, 0, 6] ++ pb! "bcrypt") ++
    ([0, 0, 0, 9] ++ [0, 0, 0, 1, 9, 0, 0, 0, 16]) ++ [0, 0, 0, 1] ++
    ([0, 0, 0, 51] ++ ([0, 0, 0, 11] ++ pb! "ssh-ed25519" ++ [0, 0, 0, 32] ++ List.replicate 32 7)) ++
    ([0, 0, 0, 16] ++ List.replicate 16 5)

theorem exTagless_clear : ∃ x, (clearPart exExt exTaglessBytes).res = .ok x ∧ x.2.2.2.1 = .bcrypt ∧
    (readTag x.2.2.2.2.2.1 x.2.2.1 x.2.2.2.2.2.2).res.toOption = none := by
  have h : ((clearPart exExt exTaglessBytes).res.toOption.map (fun x =>
      (decide (x.2.2.2.1 = .bcrypt) && (readTag x.2.2.2.2.2.1 x.2.2.1 x.2.2.2.2.2.2).res.toOption.isNone))) = some true := by
    decide +kernel
  rcases hr : (clearPart exExt exTaglessBytes).res with e | x
  · rw [hr] at h; cases h
  · rw [hr] at h
    simp only [Except.toOption, Option.map_some, Option.some.injEq, Bool.and_eq_true, decide_eq_true_eq] at h
    exact ⟨x, rfl, h.1, by simpa [Except.toOption] using h.2⟩

/-- **C121**, the full claim, is false: the passphrase is chosen before the tag is read (private_key_list.py:273-281). -/
theorem C121_false : ¬ C121_full := by
  intro h
  obtain ⟨x, hx, hk, ht⟩ := exTagless_clear
  have h1 := h exExt exTaglessBytes (fun cr inp passphrase ⟨kl, hkl⟩ => by
    rw [listFromBytes_body, listFromBytesBody_parts] at hkl
    obtain ⟨y, hy, hkl⟩ := Eff.bind_res_ok_iff.1 hkl
    rw [hx] at hy
    injection hy with hy
    subst hy
    obtain ⟨p, -, hkl⟩ := Eff.bind_res_ok_iff.1 hkl
    obtain ⟨header, pubs, cb, kc, o, cc, s⟩ := x
    unfold hiddenPart at hkl
    obtain ⟨t, ht', -⟩ := Eff.bind_res_ok_iff.1 hkl
    simp only at ht
    rw [ht'] at ht
    cases ht) toyCrypto exInputs none
  obtain ⟨rest, hl, -⟩ := (listFromBytes_prefix (ext := exExt) (cr := toyCrypto) (inp := exInputs) (b := exTaglessBytes)
    (passphrase := none)).2 _ hx
  apply h1
  rw [hl, choosePassphrase_log, hk]
  simp

/-! ### The hypotheses can be met -/

/-- Two passphrases that open the same file, which is not encrypted. -/
example : parses exOddFile none = true ∧ parses exOddFile (some (py! "pw")) = true := by decide +kernel

/-- The clear part of the encrypted file above is in order, and so is that of the tagless file. -/
example : (∃ f, ClearPart exFile f) ∧ ∃ f, ClearPart exTaglessBytes f := by
  constructor
  · have h : (clearPart exExt exFile).res.toOption.isSome = true := by decide +kernel
    rcases hr : (clearPart exExt exFile).res with e | x
    · rw [hr] at h; cases h
    · exact clearPart_ok hr
  · obtain ⟨x, hx, -⟩ := exTagless_clear
    exact clearPart_ok hx

/-- It is not in order when the file ends in it, and there is no question then. -/
example : (¬ ∃ f, ClearPart (exFile.take 40) f) ∧ (listFromBytes exExt toyCrypto exInputs (exFile.take 40) none).log = [] ∧
    .prompt ∈ (listFromBytes exExt toyCrypto exInputs exFile none).log := by
  refine ⟨?_, by decide +kernel, by decide +kernel⟩
  rintro ⟨f, hf⟩
  obtain ⟨ks, kc, o, cc, s, hx, -⟩ := clearPart_reads (ext := exExt) hf
  have h : (clearPart exExt (exFile.take 40)).res.toOption.isSome = false := by decide +kernel
  rw [hx] at h
  cases h

end OSK
