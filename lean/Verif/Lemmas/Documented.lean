import Verif.Spec.Documented
import Verif.Props.Cli
import Verif.Props.ListText
import Verif.Lemmas.KeyExn
/-
Which classes of exceptions the modelled methods raise.
-/
namespace OSK
open Spec

theorem excClass_value {e : Exn} : excClass e = .value ↔ e.isValueError = true := by
  cases e <;> simp [excClass, Exn.isValueError]

theorem excClass_eof {e : Exn} : excClass e = .eof ↔ e.isEOFError = true := by
  cases e <;> simp [excClass, Exn.isEOFError]

/-- The class of the exception is listed. -/
def Among (l : List ExcClass) (e : Exn) : Prop := excClass e ∈ l

/-! ### Reading -/

section
variable {α : Type} {P Q : Exn → Prop}

theorem SMExn.mono {x : SM α} (h : SMExn P x) (hPQ : ∀ e, P e → Q e) : SMExn Q x :=
  fun s e s' hx => hPQ e (h s e s' hx)

theorem SMExn.throw {e : Exn} (h : P e) : SMExn P (SM.throw e : SM α) := by
  intro s e' s' he
  simp at he
  rw [← he.1]
  exact h

theorem SMExn.fst {x : SM α} (h : SMExn P x) {s : Stream} {e : Exn} (he : (x s).1 = .error e) : P e := by
  rcases hx : x s with ⟨r, s'⟩
  rw [hx] at he
  exact h s e s' (by rw [hx]; simp at he; rw [he])

end

theorem readFixed_among (n : Int) : SMExn (Among [.eof, .overflow]) (readFixed n) := by
  unfold readFixed
  refine SMExn.bind ?_ fun b => ?_
  · intro s e s' h
    unfold bytesIORead at h
    split at h
    · split at h
      · simp at h; rw [← h.1]; simp [Among, excClass]
      · simp at h
    · split at h
      · simp at h; rw [← h.1]; simp [Among, excClass]
      · simp at h
  · split
    · split
      · exact SMExn.throw (by simp [Among, excClass])
      · exact SMExn.throw (by simp [Among, excClass])
    · exact SMExn.pure _

theorem among_three {e : Exn} (h : Among [.eof, .overflow] e) : Among [.eof, .value, .overflow] e := by
  simp [Among] at h ⊢
  rcases h with h | h <;> simp [h]

theorem readPascalBytes_among (n : Int) : SMExn (Among [.eof, .value, .overflow]) (readPascalBytes n) := by
  unfold readPascalBytes
  split
  · exact SMExn.throw (by simp [Among, excClass])
  · exact ((readFixed_among n).mono fun _ => among_three).bind fun b => (readFixed_among _).mono fun _ => among_three

theorem decodePrim_among (p : Prim) (b : Bytes) : SMExn (Among [.eof, .value, .overflow]) (SM.lift (decodePrim p b)) := by
  apply SMExn.lift
  intro e he
  cases p <;> simp [decodePrim] at he
  unfold bytesDecode at he
  split at he <;> simp [Except.map] at he
  rw [← he]
  simp [Among, excClass]

theorem readFI_among (fi : FI) : SMExn (Among [.eof, .value, .overflow]) (readFI fi) := by
  cases fi with
  | struct f => exact ((readFixed_among _).mono fun _ => among_three).bind fun b => SMExn.pure _
  | pascal p => exact (readPascalBytes_among _).bind fun b => decodePrim_among p b
  | pascalSized p n => exact (readPascalBytes_among _).bind fun b => decodePrim_among p b
  | unrecognised => exact SMExn.throw (by simp [Among, excClass])

theorem readDict_among (fmt : FDict) : SMExn (Among [.eof, .value, .overflow]) (readDict fmt) := by
  induction fmt with
  | nil => exact SMExn.pure _
  | cons kf t ih => exact (readFI_among _).bind fun _ => ih.bind fun _ => SMExn.pure _

theorem readRepeatedlyFuel_among {fmt : FDict} {fuel : Nat} {s s' : Stream} {e : Exn}
    (h : readRepeatedlyFuel fmt fuel s = some (.error e, s')) : Among [.eof, .value, .overflow] e := by
  unfold readRepeatedlyFuel at h
  split at h
  · simp at h
    rw [← h.1]
    simp [Among, excClass]
  · generalize ([] : List VDict) = acc at h
    induction fuel generalizing acc s with
    | zero => simp [readRepeatedlyLoop] at h
    | succ n ih =>
      unfold readRepeatedlyLoop at h
      rcases hr : readDict fmt s with ⟨e' | d, s1⟩
      · rw [hr] at h
        have hp := readDict_among fmt s e' s1 hr
        split at h
        · rename_i heq; simp at heq
        · simp at h
        · rename_i heq
          simp at heq h
          rw [← h.1, ← heq.1]
          exact hp
      · rw [hr] at h
        exact ih _ h

/-! ### Writing -/

theorem packPascal_among {p : Prim} {size : Int} {v : Val} {e : Exn} (h : packPascal p size v = .error e) :
    Among [.value, .overflow, .struct] e := by
  unfold packPascal at h
  split at h
  · rename_i e' he
    simp at h
    subst h
    unfold encodePrim at he
    split at he
    · simp at he
    · simp at he; subst he; simp [Among, excClass]
    · unfold strEncode at he
      split at he <;> simp at he
      subst he; simp [Among, excClass]
    · simp at he; subst he; simp [Among, excClass]
    · unfold toBytesSigned at he
      split at he
      · split at he <;> simp at he
        subst he; simp [Among, excClass]
      · split at he <;> simp at he
        subst he; simp [Among, excClass]
    · simp at he; subst he; simp [Among, excClass]
  · split at h
    · rename_i e' he
      simp at h
      subst h
      unfold toBytesUnsigned at he
      split at he
      · simp at he; subst he; simp [Among, excClass]
      · split at he <;> simp at he
        subst he; simp [Among, excClass]
    · simp at h

theorem structPack_among {f : SFmt} {v : Val} {e : Exn} (h : structPack f v = .error e) : e = .structError := by
  unfold structPack at h
  split at h
  · unfold SFmt.pack1 at h
    split at h
    · unfold SCode.pack at h
      split at h
      · split at h <;> simp at h
        exact h.symm
      · simp at h
      · simp at h; exact h.symm
    · simp at h; exact h.symm
  · simp at h; exact h.symm

theorem packFI_among {fi : FI} {v : Val} {e : Exn} (h : packFI fi v = .error e) : Among [.value, .overflow, .struct] e := by
  cases fi with
  | struct f => rw [structPack_among h]; simp [Among, excClass]
  | pascal p => exact packPascal_among h
  | pascalSized p n => exact packPascal_among h
  | unrecognised => simp [packFI] at h; subst h; simp [Among, excClass]

theorem writeFI_among (fi : FI) (v : Val) : SMExn (Among [.value, .overflow, .struct]) (writeFI fi v) := by
  refine SMExn.bind (SMExn.lift fun e he => packFI_among he) fun b => ?_
  intro s e s' h
  rw [bytesIOWrite_eq] at h
  simp at h

theorem among_key {e : Exn} (h : Among [.value, .overflow, .struct] e) : Among [.key, .value, .overflow, .struct] e := by
  simp [Among] at h ⊢
  exact .inr h

theorem getItem_key {d : VDict} {k : Str} {e : Exn} (h : getItem d k = .error e) : excClass e = .key := by
  unfold getItem at h
  split at h <;> simp at h
  subst h
  rfl

theorem writeDict_among (fmt : FDict) (d : VDict) : SMExn (Among [.key, .value, .overflow, .struct]) (writeDict fmt d) := by
  induction fmt with
  | nil => exact SMExn.pure _
  | cons kf t ih =>
    refine (SMExn.lift fun e he => ?_).bind fun v => ((writeFI_among _ _).mono fun _ => among_key).bind fun _ => ih
    simp [Among, getItem_key he]

theorem writeRepeatedly_among (fmt : FDict) (l : List VDict) :
    SMExn (Among [.key, .value, .overflow, .struct]) (writeRepeatedly fmt l) := by
  induction l with
  | nil => exact SMExn.pure _
  | cons d t ih => exact (writeDict_among fmt d).bind fun _ => ih

theorem checkDict_among {d : VDict} {fmt : FDict} {e : Exn} (h : (checkDict d fmt).res = .error e) : Among [.value] e := by
  induction fmt with
  | nil => simp [checkDict] at h
  | cons kf t ih =>
    obtain ⟨k, fi⟩ := kf
    unfold checkDict at h
    rcases Eff.bind_res_error_iff.1 h with h | ⟨_, _, h⟩
    · unfold checkField at h
      split at h
      · simp at h
      · split at h
        · split at h
          · simp at h
          · simp at h
          · rename_i hne he
            exact absurd (structPack_among he) (by intro h2; subst h2; exact hne rfl)
        · split at h <;> simp at h
        · split at h <;> simp at h
        · simp at h; subst h; simp [Among, excClass]
    · exact ih h

/-! ### Lookups -/

theorem lookupType_among {t : Val} {e : Exn} (h : lookupType t = .error e) : excClass e = .key := by
  unfold lookupType at h
  split at h
  · split at h <;> simp at h
    subst h; rfl
  · simp at h; subst h; rfl

theorem getPublicClass_among {t : Val} {e : Exn} (h : getPublicClass t = .error e) : excClass e = .key := by
  unfold getPublicClass at h
  split at h
  · rename_i he
    simp at h; subst h
    exact lookupType_among he
  · simp at h

theorem getPrivateClass_among {t : Val} {e : Exn} (h : getPrivateClass t = .error e) : excClass e = .key := by
  unfold getPrivateClass at h
  split at h
  · rename_i he
    simp at h; subst h
    exact lookupType_among he
  · split at h <;> simp at h
    subst h; rfl

theorem getCipherClass_among {t : Val} {e : Exn} (h : getCipherClass t = .error e) : excClass e = .key := by
  unfold getCipherClass at h
  split at h
  · split at h <;> simp at h
    subst h; rfl
  · simp at h; subst h; rfl

theorem getKdfClass_among {t : Val} {e : Exn} (h : getKdfClass t = .error e) : excClass e = .key := by
  unfold getKdfClass at h
  split at h
  · split at h <;> simp at h
    subst h; rfl
  · simp at h; subst h; rfl

/-! ### Keys and lists -/

theorem parseExn_among {e : Exn} (h : ParseExn e) : Among [.eof, .value, .key] e := by
  rcases h with ⟨k, rfl⟩ | rfl | h
  · simp [Among, excClass]
  · simp [Among, excClass]
  · simp [Among, excClass_eof.2 h]

theorem fromString_among {ext : Ext} {kind : Kind} {s : Str} {e : Exn} (h : (fromString ext kind s).res = .error e) :
    Among [.eof, .value, .key, .index] e := by
  rcases fromString_exn h with ⟨rfl, -⟩ | ⟨k, rfl⟩ | h | h
  · simp [Among, excClass]
  · simp [Among, excClass]
  · simp [Among, excClass_value.2 h]
  · simp [Among, excClass_eof.2 h]

theorem listFromString_among {ext : Ext} {cr : Crypto} {inp : Inputs} {s : Str} {p : Option Str} {e : Exn}
    (h : (listFromString ext cr inp s p).res = .error e) : Among [.value, .index] e := by
  by_cases hs : s = []
  · subst hs
    rw [(C28_false ext cr inp p).1] at h
    simp at h; subst h; simp [Among, excClass]
  · simp [Among, excClass_value.2 (C28_only_value_error_partial ext cr inp s p e hs h)]

theorem checkItems_among {items : List Item} {e : Exn} (h : checkItems items = .error e) : excClass e = .value := by
  induction items with
  | nil => simp [checkItems] at h
  | cons i t ih =>
    unfold checkItems at h
    split at h
    · simp at *
    · rename_i heq
      simp at heq
      obtain ⟨-, rfl⟩ := heq
      split at h
      · split at h
        · simp at h
        · rename_i he
          simp at h; subst h
          exact ih he
      · simp at h; subst h; rfl
    · simp at h; subst h; rfl

/-! ### Packing lists -/

theorem refuses_among {fi : FI} {v : Val} {e : Exn} (h : Refuses fi v e) : Among [.index, .key, .value, .overflow, .struct] e := by
  cases h <;> simp [Among, excClass]

theorem refusesAt_among {d : VDict} {fmt : FDict} {e : Exn} (h : RefusesAt d fmt e) :
    Among [.index, .key, .value, .overflow, .struct] e := by
  induction h with
  | missing _ => simp [Among, excClass]
  | here _ h => exact refuses_among h
  | later _ _ _ ih => exact ih

theorem publicsFail_among {l : List Pair} {override : Bool} {is : List Int} {e : Exn} (h : PublicsFail l override is e) :
    Among [.index, .key, .value, .overflow, .struct] e := by
  induction h with
  | index _ => simp [Among, excClass]
  | key _ h => obtain ⟨_, _, _, _, h⟩ := h; exact refusesAt_among h
  | long _ _ _ => simp [Among, excClass]
  | later _ _ _ _ ih => exact ih

theorem privatesFail_among {l : List Pair} {e : Exn} (h : PrivatesFail l e) :
    Among [.index, .key, .value, .overflow, .struct] e := by
  induction h with
  | key h =>
    obtain ⟨_, _, _, _, h | ⟨_, h⟩⟩ := h
    · exact refusesAt_among h
    · exact refusesAt_among h
  | later _ _ ih => exact ih

theorem unprepared_among {inp : Inputs} {l : KeyList} {indices : Option (List Int)} {override retain : Bool} {e : Exn}
    (h : Unprepared inp l indices override retain e) : Among [.index, .key, .value, .overflow, .struct] e := by
  cases h with
  | kdf _ _ => simp [Among, excClass]
  | options _ _ _ h => exact refusesAt_among h
  | cipher _ h => exact refuses_among h
  | longOptions _ _ _ => simp [Among, excClass]
  | count _ _ _ _ => simp [Among, excClass]
  | publics _ h => exact publicsFail_among h
  | privates _ h => exact privatesFail_among h
  | unknown _ _ _ => simp [Among, excClass]

theorem finishes_among {cr : Crypto} (hv : ValueErrors cr) {inp : Inputs} {p : Str} {cipher : List Char} {kdf : Str}
    {opts : VDict} {ob : Bytes} {pubs : List Bytes} {plain : Bytes} {e : Exn}
    (h : Finishes cr inp (some p) cipher kdf opts ob pubs plain (.error e)) :
    Among [.index, .key, .value, .overflow, .struct] e := by
  cases h with
  | noPassphrase h => unfold passphraseFor at h; split at h <;> simp at h
  | encryption _ h =>
    cases h with
    | noKey _ h =>
      generalize hr : (Except.error e : Except Exn Bytes) = r at h
      cases h with
      | none _ => simp at hr
      | surrogate _ _ => simp at hr; subst hr; simp [Among, excClass]
      | bcrypt _ _ _ => simp [Among, excClass_value.2 (hv.kdf hr.symm)]
    | refused hs _ h => simp [Among, excClass_value.2 (hv.enc hs h)]
  | long _ _ _ => simp [Among, excClass]

theorem packKeyList_among {ext : Ext} {cr : Crypto} (hl : CryptoLaws cr) (hv : ValueErrors cr) {inp : Inputs} {l : KeyList} {p : Str}
    {indices : Option (List Int)} {override retain : Bool} {e : Exn} (hc : AllConstructed ext l.pairs)
    (hi : inp.checkInt < 2 ^ 32) (h : (packKeyList cr inp l (some p) indices override retain).res = .error e) :
    Among [.index, .key, .value, .overflow, .struct] e := by
  rcases C91_complete ext inp l indices override retain hc hi with ⟨e', he⟩ | ⟨cipher, kdf, opts, ob, pubs, plain, hp⟩
  · rw [C91_unprepared ext cr inp l (some p) indices override retain e' hc hi he] at h
    simp at h; subst h
    exact unprepared_among he
  · exact finishes_among hv (((C91_prepared ext cr hl inp l (some p) indices override retain cipher kdf opts ob pubs plain
      hc hi hp).2 _).1 h)

theorem packListString_error {cr : Crypto} {inp : Inputs} {l : KeyList} {p : Option Str} {indices : Option (List Int)}
    {override retain : Bool} {e : Exn} : (packListString cr inp l p indices override retain).res = .error e ↔
      (packKeyList cr inp l p indices override retain).res = .error e := by
  unfold packListString
  rw [Eff.bind_res_error_iff]
  simp

/-! ### Certificates -/

theorem optionGuard_among {d : VDict} {o : OptArg} {e : Exn} (h : optionGuard d o = .error e) : Among [.value, .key] e := by
  unfold optionGuard at h
  split at h
  · simp at h
  · split at h
    · rename_i he
      simp at h; subst h
      unfold getType at he
      split at he
      · rename_i hg
        simp at he; subst he
        simp [Among, getItem_key hg]
      · split at he
        · simp at he
        · split at he <;> simp at he
          subst he; simp [Among, excClass]
    · split at h <;> simp at h
      subst h; simp [Among, excClass]

theorem getOptionValues_among {d : VDict} {param : Str} {e : Exn} (h : (getOptionValues d param).res = .error e) :
    Among [.value, .key, .eof, .type] e := by
  rcases hb : dget d param with _ | v
  · unfold getOptionValues getItem at h
    rw [hb] at h
    simp at h; subst h; simp [Among, excClass]
  · by_cases hv : ∃ b, v = .bytes b
    · obtain ⟨b, rfl⟩ := hv
      rcases (options_within (b := b) (by unfold bytesOf?; rw [hb])).exn e h with h | rfl
      · simp [Among, excClass_eof.2 h]
      · simp [Among, excClass]
    · have ha : asBuffer v = .error .typeError := by
        cases v <;> first | rfl | exact absurd ⟨_, rfl⟩ hv
      unfold getOptionValues getItem at h
      rw [hb] at h
      simp [ha] at h; subst h; simp [Among, excClass]

theorem getOption_among {d : VDict} {param : Str} {o : OptArg} {e : Exn} (h : (getOption d param o).res = .error e) :
    Among [.value, .key, .eof, .type] e := by
  unfold getOption at h
  rcases Eff.bind_res_error_iff.1 h with h | ⟨_, _, h⟩
  · have := optionGuard_among (by simpa using h)
    simp [Among] at this ⊢
    rcases this with h | h <;> simp [h]
  · rcases Eff.bind_res_error_iff.1 h with h | ⟨m, _, h⟩
    · exact getOptionValues_among h
    · simp at h

theorem packOptions_among {m : VDict} {e : Exn} (h : packOptions m .bytes = .error e) : Among [.key, .value, .overflow, .struct] e := by
  unfold packOptions written at h
  split at h
  · simp at h
  · rename_i hw
    simp at h; subst h
    exact writeRepeatedly_among _ _ _ _ _ hw

/-- The records written for options have all fields, so nothing is missing, and no field is a `struct`. -/
theorem packDicts_options {l : VDict} {e : Exn} (h : packDicts optionFmt (l.map optRec) = .error e) : Among [.value, .overflow] e := by
  induction l with
  | nil => simp [packDicts] at h
  | cons x t ih =>
    simp only [List.map_cons, packDicts] at h
    have hx : ∀ e, packDict optionFmt (optRec x) = .error e → Among [.value, .overflow] e := by
      intro e he
      have := ((record_iff (fmt := optionFmt) (by decide) _).2 e).1 he
      cases this with
      | missing h => simp [optRec, dget] at h
      | here _ h => cases h <;> simp [Among, excClass]
      | later _ _ h =>
        cases h with
        | missing h => simp [optRec, dget] at h
        | here _ h => cases h <;> simp [Among, excClass]
        | later _ _ h => cases h
    rcases h1 : packDict optionFmt (optRec x) with e1 | w
    · rw [h1] at h
      simp [catE] at h; subst h
      exact hx _ h1
    · rw [h1] at h
      exact ih ((catE_ok_left.2 e).1 h)

theorem setOption_among {d : VDict} {param : Str} {o : OptArg} {v : Val} {e : Exn}
    (h : (setOption d param o v).1.res = .error e) : Among [.value, .key, .eof, .type, .overflow] e := by
  have key : ∀ {x : Eff Bytes}, (match x.res with
      | .ok b => ((⟨x.log, .ok ()⟩ : Eff Unit), dset d param (.bytes b))
      | .error e => ((⟨x.log, .error e⟩ : Eff Unit), d)).1.res = .error e → x.res = .error e := by
    intro x hx
    split at hx
    · simp at hx
    · rename_i he; simp at hx; rw [he, hx]
  have h2 := key h
  rcases Eff.bind_res_error_iff.1 h2 with h | ⟨_, _, h⟩
  · have := optionGuard_among (by simpa using h)
    simp [Among] at this ⊢
    rcases this with h | h <;> simp [h]
  · rcases Eff.bind_res_error_iff.1 h with h | ⟨m, _, h⟩
    · have := getOptionValues_among h
      simp [Among] at this ⊢
      rcases this with h | h | h | h <;> simp [h]
    · have h' : packOptions (dset m o.key v) .bytes = .error e := by simpa using h
      rw [packOptions_eq] at h'
      have := packDicts_options h'
      simp [Among] at this ⊢
      rcases this with h | h <;> simp [h]

theorem getSignatureKey_among {ext : Ext} {d : VDict} {e : Exn} (h : (getSignatureKey ext d).res = .error e) :
    Among [.eof, .value, .key, .type] e := by
  unfold getSignatureKey getSignatureKeyWith at h
  rcases Eff.bind_res_error_iff.1 h with h | ⟨v, _, h⟩
  · simp [Among, getItem_key (by simpa using h)]
  · rcases Eff.bind_res_error_iff.1 h with h | ⟨b, _, h⟩
    · have : asBuffer v = .error e := by simpa using h
      cases v <;> simp [asBuffer] at this <;> (subst this; simp [Among, excClass])
    · rcases Eff.bind_res_error_iff.1 h with h | ⟨k, _, h⟩
      · have := parseExn_among ((caFromBytes_within ext b).exn e h)
        simp [Among] at this ⊢
        rcases this with h | h | h <;> simp [h]
      · split at h <;> (simp only [Eff.bind_res_error_iff] at h; simp at h)

/-- Public fields other than those of certificates all have a length. -/
theorem plain_public_fields : ∀ e ∈ keyTypeMapping, e.2.1.isSubclass .certPub = false →
    (formatOf e.2.1).all (fun f => match f.2 with | .pascal _ => true | _ => false) = true := by decide +kernel

theorem no_private_cert : ∀ e ∈ keyTypeMapping, e.2.2.isSome = true → e.2.1.isSubclass .certPub = false := by decide +kernel

theorem refusesAt_pascal {d : VDict} {fmt : FDict} {e : Exn}
    (hf : fmt.all (fun f => match f.2 with | .pascal _ => true | _ => false) = true) (h : RefusesAt d fmt e) :
    Among [.value, .key, .overflow] e := by
  induction h with
  | missing _ => simp [Among, excClass]
  | here _ h =>
    simp at hf
    cases h <;> simp [Among, excClass] <;> simp at hf
  | later _ _ _ ih =>
    simp only [List.all_cons, Bool.and_eq_true] at hf
    exact ih hf.2

theorem publicClass_entry {t : Str} {c : Cls} (h : paramsClass .pub (.str t) = .ok c) :
    ∃ e ∈ keyTypeMapping, e.1 = t ∧ e.2.1 = c := by
  simp only [paramsClass, getPublicClass] at h
  split at h
  · simp at h
  · rename_i r hr
    obtain ⟨s, hs, hm⟩ := lookupType_mem hr
    simp at hs h; subst hs h
    exact ⟨_, hm, rfl, rfl⟩

theorem setSignatureKey_among {ext : Ext} {d : VDict} {k : Key} {e : Exn} (hk : Constructed ext k)
    (h : (setSignatureKey d k).1 = .error e) : Among [.value, .key, .overflow] e := by
  unfold setSignatureKey at h
  split at h
  · simp at h; subst h; simp [Among, excClass]
  · rename_i hn
    split at h
    · simp at h
    · rename_i he
      simp at h; subst h
      obtain ⟨t, fmt, h1, h2, -, h4⟩ := C90_public ext k hk
      obtain ⟨t', g1, g2⟩ := constructed_ok hk
      rw [h1] at g1; cases g1
      refine refusesAt_pascal ?_ ((h4 _).1 he)
      rcases hkind : k.kind with _ | _
      · rw [hkind] at g2
        have hf := publicFields_eq g2
        rw [h2] at hf; cases hf
        obtain ⟨x, hx, -, hc⟩ := publicClass_entry g2
        rw [← hc] at hn ⊢
        exact plain_public_fields x hx (by simpa using hn)
      · rw [hkind] at g2
        simp only [paramsClass, getPrivateClass] at g2
        split at g2
        · simp at g2
        · rename_i r hr
          obtain ⟨s, hs, hm⟩ := lookupType_mem hr
          simp at hs; subst hs
          split at g2
          · simp at g2
          · rename_i c hc
            have hp : paramsClass .pub (.str t) = .ok r.1 := by simp [paramsClass, getPublicClass, hr]
            have hf := publicFields_eq hp
            rw [h2] at hf; cases hf
            have hs : r.2.isSome = true := by rw [hc]; rfl
            exact plain_public_fields (t, r) hm (no_private_cert (t, r) hm hs)

theorem deriveKey_among {cr : Crypto} (hv : ValueErrors cr) {o : KdfOptions} {p : Str} {n : Nat} {e : Exn}
    (h : deriveKey cr o p n = .error e) : Among [.value, .key, .type] e := by
  unfold deriveKey at h
  split at h
  · simp at h
  · rcases h1 : strEncode p with e1 | pw
    · rw [h1] at h
      simp only [bind, Except.bind] at h
      simp at h; subst h
      unfold strEncode at h1
      split at h1 <;> simp at h1
      subst h1; simp [Among, excClass]
    · rcases h2 : getItem o.data (py! "salt") with e2 | salt
      · rw [h1, h2] at h
        simp only [bind, Except.bind] at h
        simp at h; subst h
        simp [Among, getItem_key h2]
      · rcases h3 : getItem o.data (py! "rounds") with e3 | rounds
        · rw [h1, h2, h3] at h
          simp only [bind, Except.bind] at h
          simp at h; subst h
          simp [Among, getItem_key h3]
        · rw [h1, h2, h3] at h
          simp only [bind, Except.bind] at h
          split at h
          · simp [Among, excClass_value.2 (hv.kdf h)]
          · simp at h; subst h; simp [Among, excClass]

end OSK
