import Verif.Spec.Filtered
/-
An operation under a warning filter is the operation, cut off at the first warning that is raised.
-/
namespace OSK
open Spec

/-- The events up to the first raised warning, with that warning. -/
def firstRaised (raises : Warning → Bool) : List Event → Option (List Event × Warning)
  | [] => none
  | .prompt :: t => (firstRaised raises t).map (fun r => (.prompt :: r.1, r.2))
  | .warn w :: t =>
    if raises w then some ([], w) else (firstRaised raises t).map (fun r => (.warn w :: r.1, r.2))

/-- `x` cut off at the first raised warning. -/
def Eff.cut {α : Type} (raises : Warning → Bool) (exn : Warning → Exn) (x : Eff α) : Eff α :=
  match firstRaised raises x.log with
  | none => x
  | some (before, w) => ⟨before, .error (exn w)⟩

theorem firstRaised_append (f : Warning → Bool) (a b : List Event) :
    firstRaised f (a ++ b) = match firstRaised f a with
      | some r => some r
      | none => (firstRaised f b).map (fun r => (a ++ r.1, r.2)) := by
  induction a with
  | nil => simp [firstRaised]
  | cons e t ih =>
    cases e with
    | prompt =>
      rw [List.cons_append, firstRaised, ih, firstRaised]
      cases firstRaised f t <;> cases firstRaised f b <;> rfl
    | warn w =>
      rw [List.cons_append, firstRaised, ih, firstRaised]
      cases f w
      · cases firstRaised f t <;> cases firstRaised f b <;> rfl
      · rfl

theorem firstRaised_none (f : Warning → Bool) (l : List Event)
    (h : ∀ w, .warn w ∈ l → f w = false) : firstRaised f l = none := by
  induction l with
  | nil => rfl
  | cons e t ih =>
    have ht := ih (fun w hw => h w (List.mem_cons_of_mem _ hw))
    cases e with
    | prompt => rw [firstRaised, ht]; rfl
    | warn w => rw [firstRaised, h w List.mem_cons_self, ht]; rfl

theorem cut_raises {α : Type} (f : Warning → Bool) (g : Warning → Exn) (x : Eff α) :
    Raises f g x (x.cut f g) := by
  refine ⟨fun h => ?_, fun a w b h hw ha => ?_⟩
  · rw [Eff.cut, firstRaised_none f _ h]
  · rw [Eff.cut, h, firstRaised_append, firstRaised_none f a ha]
    simp [firstRaised, hw]

section
variable {α β : Type} {f : Warning → Bool} {g : Warning → Exn}

theorem cut_pure (a : α) : (pure a : Eff α).cut f g = pure a := rfl
theorem cut_throw (e : Exn) : (Eff.throw e : Eff α).cut f g = Eff.throw e := rfl
theorem cut_lift (r : Except Exn α) : (Eff.lift r).cut f g = Eff.lift r := rfl

theorem cut_bind (x : Eff α) (k : α → Eff β) :
    (x >>= k).cut f g = (x.cut f g >>= fun a => (k a).cut f g) := by
  obtain ⟨l, r⟩ := x
  cases r with
  | error e =>
    rw [Eff.mk_bind_error]
    cases h : firstRaised f l with
    | none => simp [Eff.cut, h]
    | some p => simp [Eff.cut, h]
  | ok a =>
    rw [Eff.mk_bind_ok]
    cases h : firstRaised f l with
    | none =>
      have hx : (⟨l, .ok a⟩ : Eff α).cut f g = ⟨l, .ok a⟩ := by simp [Eff.cut, h]
      rw [hx, Eff.mk_bind_ok]
      simp only [Eff.cut, firstRaised_append, h]
      cases firstRaised f (k a).log <;> rfl
    | some p => simp [Eff.cut, h, firstRaised_append]

theorem cut_tryCatch (x : Eff α) (h : Exn → Option (Eff α)) (hg : ∀ w, h (g w) = none) :
    (x.tryCatch h).cut f g = (x.cut f g).tryCatch (fun e => (h e).map (Eff.cut f g)) := by
  obtain ⟨l, r⟩ := x
  cases hl : firstRaised f l with
  | some p =>
    have hx : (⟨l, r⟩ : Eff α).cut f g = ⟨p.1, .error (g p.2)⟩ := by simp [Eff.cut, hl]
    rw [hx]
    simp only [Eff.tryCatch, hg, Option.map_none]
    cases r with
    | ok a => exact hx
    | error e =>
      dsimp only
      cases h e with
      | none => exact hx
      | some y => simp [Eff.cut, hl, firstRaised_append]
  | none =>
    have hx : (⟨l, r⟩ : Eff α).cut f g = ⟨l, r⟩ := by simp [Eff.cut, hl]
    rw [hx]
    simp only [Eff.tryCatch]
    cases r with
    | ok a => exact hx
    | error e =>
      dsimp only
      cases h e with
      | none => exact hx
      | some y =>
        simp only [Eff.cut, firstRaised_append, hl, Option.map_some]
        cases firstRaised f y.log <;> rfl

theorem cut_ite (c : Prop) [Decidable c] (x y : Eff α) :
    (if c then x else y).cut f g = if c then x.cut f g else y.cut f g := by
  split <;> rfl

/-- A catch-all handler replaces the exception. -/
theorem cut_except (x : Eff α) (r : Exn → Exn) :
    (x.tryCatch (fun e => some (Eff.throw (r e)))).cut f (fun w => r (g w)) =
      (x.cut f g).tryCatch (fun e => some (Eff.throw (r e))) := by
  obtain ⟨l, o⟩ := x
  cases hl : firstRaised f l with
  | some p =>
    cases o <;> simp [Eff.cut, Eff.tryCatch, hl]
  | none =>
    cases o <;> simp [Eff.cut, Eff.tryCatch, hl]

end

namespace Filtered
variable [Filter]

/-- Cut off at the first warning that the filter raises. -/
abbrev cutAt {α : Type} (x : Eff α) : Eff α := x.cut Filter.raises Exn.userWarning

theorem warn_cut (w : Warning) : Eff.warn w = cutAt (OSK.Eff.warn w) := by
  unfold Eff.warn cutAt Eff.cut
  rw [Eff.warn_log]
  unfold firstRaised
  split <;> rfl

theorem checkField_cut (d : VDict) (k : Str) (fi : FI) :
    checkField d k fi = cutAt (OSK.checkField d k fi) := by
  unfold checkField OSK.checkField
  rcases dget d k with _ | v
  · exact warn_cut _
  · cases fi with
    | struct f =>
      dsimp only
      rcases structPack f v with e | b
      · cases e <;> first | exact warn_cut _ | rfl
      · rfl
    | pascal p => dsimp only; split <;> first | exact warn_cut _ | rfl
    | pascalSized p n => dsimp only; split <;> first | exact warn_cut _ | rfl
    | unrecognised => rfl

theorem checkDict_cut (d : VDict) (fmt : FDict) : checkDict d fmt = cutAt (OSK.checkDict d fmt) := by
  induction fmt with
  | nil => rfl
  | cons p t ih =>
    unfold checkDict OSK.checkDict
    simp only [cut_bind, checkField_cut, ih]

theorem collectOptions_cut (param : Str) (acc : VDict) (l : List VDict) :
    collectOptions param acc l = cutAt (OSK.collectOptions param acc l) := by
  induction l generalizing acc with
  | nil => rfl
  | cons r t ih =>
    unfold collectOptions OSK.collectOptions
    rcases dget r (py! "option") with _ | o
    · rfl
    · cases o <;> try rfl
      rcases dget r (py! "value") with _ | v
      · rfl
      · simp only [cut_bind, cut_ite, warn_cut, ih]

theorem getOptionValues_cut (d : VDict) (param : Str) :
    getOptionValues d param = cutAt (OSK.getOptionValues d param) := by
  simp only [getOptionValues, OSK.getOptionValues, cut_bind, cut_lift, collectOptions_cut]

theorem getOption_cut (d : VDict) (param : Str) (o : OptArg) :
    getOption d param o = cutAt (OSK.getOption d param o) := by
  simp only [getOption, OSK.getOption, cut_bind, cut_lift, cut_pure, getOptionValues_cut]

theorem getSignatureKeyWith_cut (ca : Bytes → Eff Key) (d : VDict) :
    getSignatureKeyWith (fun b => cutAt (ca b)) d = cutAt (OSK.getSignatureKeyWith ca d) := by
  simp only [getSignatureKeyWith, OSK.getSignatureKeyWith, cut_bind, cut_lift, cut_pure, cut_ite, warn_cut]

theorem eofWarns_cut {α : Type} (x : Eff α) (w : Warning) :
    eofWarns (cutAt x) w = cutAt (OSK.eofWarns x w) := by
  unfold eofWarns OSK.eofWarns
  refine Eq.trans ?_ (cut_tryCatch _ _ (fun _ => rfl)).symm
  simp only [cut_bind, cut_pure]
  congr 1
  funext e
  split <;> simp [warn_cut]

theorem certTypeCheck_cut (d : VDict) : certTypeCheck d = cutAt (OSK.certTypeCheck d) := by
  unfold certTypeCheck OSK.certTypeCheck
  split
  · refine Eq.trans ?_ (cut_tryCatch _ _ (fun _ => rfl)).symm
    simp only [cut_bind, cut_pure, cut_lift]
    congr 1
    funext e
    split <;> simp [warn_cut]
  · rfl

theorem certPrincipalsCheck_cut (d : VDict) : certPrincipalsCheck d = cutAt (OSK.certPrincipalsCheck d) := by
  unfold certPrincipalsCheck OSK.certPrincipalsCheck
  split
  · exact eofWarns_cut (Eff.lift _) _
  · rfl

theorem certOptionsCheck_cut (d : VDict) (param : Str) (w : Warning) :
    certOptionsCheck d param w = cutAt (OSK.certOptionsCheck d param w) := by
  unfold certOptionsCheck OSK.certOptionsCheck
  split
  · rw [getOptionValues_cut]; exact eofWarns_cut _ _
  · rfl

theorem certCaCheck_cut (ca : Bytes → Eff Key) (d : VDict) :
    certCaCheck (fun b => cutAt (ca b)) d = cutAt (OSK.certCaCheck ca d) := by
  unfold certCaCheck OSK.certCaCheck
  split
  · refine Eq.trans ?_ (cut_tryCatch _ _ (fun _ => rfl)).symm
    simp only [cut_bind, cut_pure, getSignatureKeyWith_cut]
    congr 1
    funext e
    split <;> simp [warn_cut]
  · rfl

theorem certLocalCheck_cut (ca : Bytes → Eff Key) (d : VDict) :
    certLocalCheck (fun b => cutAt (ca b)) d = cutAt (OSK.certLocalCheck ca d) := by
  simp only [certLocalCheck, OSK.certLocalCheck, cut_bind, certTypeCheck_cut, certPrincipalsCheck_cut,
    certOptionsCheck_cut, certCaCheck_cut]

theorem ed25519PubLocalCheck_cut (d : VDict) :
    ed25519PubLocalCheck d = cutAt (OSK.ed25519PubLocalCheck d) := by
  unfold ed25519PubLocalCheck OSK.ed25519PubLocalCheck
  rcases bytesOf? d (py! "public") with _ | p
  · rfl
  · dsimp only; split <;> first | exact warn_cut _ | rfl

theorem ed25519PrivLocalCheck_cut (d : VDict) :
    ed25519PrivLocalCheck d = cutAt (OSK.ed25519PrivLocalCheck d) := by
  unfold ed25519PrivLocalCheck OSK.ed25519PrivLocalCheck
  rcases bytesOf? d (py! "private_public") with _ | a
  · rfl
  · rcases bytesOf? d (py! "public") with _ | b
    · rfl
    · simp only [cut_bind, cut_ite, cut_pure, warn_cut]

theorem ecdsaLocalCheck_cut (ext : Ext) (T : Cls) (d : VDict) :
    ecdsaLocalCheck ext T d = cutAt (OSK.ecdsaLocalCheck ext T d) := by
  unfold ecdsaLocalCheck OSK.ecdsaLocalCheck
  rcases dget d (py! "identifier") with _ | i
  · rfl
  · rcases bytesOf? d (py! "q") with _ | q <;> simp only [cut_bind, cut_ite, cut_pure, warn_cut]

theorem localCheck_cut (ext : Ext) (ca : Bytes → Eff Key) (T : Cls) (d : VDict) (D : Cls) :
    localCheck ext (fun b => cutAt (ca b)) T d D = cutAt (OSK.localCheck ext ca T d D) := by
  cases D <;> first
    | rfl
    | exact checkDict_cut _ _
    | exact ed25519PubLocalCheck_cut _
    | exact ed25519PrivLocalCheck_cut _
    | exact ecdsaLocalCheck_cut _ _ _
    | exact certLocalCheck_cut _ _

theorem runChecks_cut (f : Cls → Eff Unit) (l : List Cls) :
    runChecks (fun D => cutAt (f D)) l = cutAt (runChecks f l) := by
  induction l with
  | nil => rfl
  | cons D t ih =>
    unfold runChecks
    simp only [cut_bind, ih]

theorem newParamsWith_cut (ext : Ext) (ca : Bytes → Eff Key) (c : Cls) (d : VDict) :
    newParamsWith ext (fun b => cutAt (ca b)) c d = cutAt (OSK.newParamsWith ext ca c d) := by
  unfold newParamsWith OSK.newParamsWith
  rw [show localCheck ext (fun b => cutAt (ca b)) c d = fun D => cutAt (OSK.localCheck ext ca c d D) from
    funext (localCheck_cut ext ca c d), runChecks_cut]
  simp only [cut_bind, cut_pure]

theorem mkKeyWith_cut (ext : Ext) (ca : Bytes → Eff Key) (kind : Kind) (h p f : VDict) (clear : Option VDict) :
    mkKeyWith ext (fun b => cutAt (ca b)) kind h p f clear = cutAt (OSK.mkKeyWith ext ca kind h p f clear) := by
  simp only [mkKeyWith, OSK.mkKeyWith, cut_bind, cut_lift, cut_pure, checkDict_cut, newParamsWith_cut]

theorem fromByteStreamWith_cut (ext : Ext) (ca : Bytes → Eff Key) (kind : Kind) (clear : Option VDict) (s : Stream) :
    fromByteStreamWith ext (fun b => cutAt (ca b)) kind clear s =
      (cutAt (OSK.fromByteStreamWith ext ca kind clear s).1, (OSK.fromByteStreamWith ext ca kind clear s).2) := by
  unfold fromByteStreamWith OSK.fromByteStreamWith
  rcases readKey kind s with ⟨e | r, s'⟩
  · rfl
  · dsimp only; rw [mkKeyWith_cut]

theorem fromBytesWith_cut (ext : Ext) (ca : Bytes → Eff Key) (kind : Kind) (b : Bytes) (clear : Option VDict) :
    fromBytesWith ext (fun b => cutAt (ca b)) kind b clear = cutAt (OSK.fromBytesWith ext ca kind b clear) := by
  simp only [fromBytesWith, OSK.fromBytesWith, fromByteStreamWith_cut, cut_bind, cut_ite, cut_pure, warn_cut]

theorem pubFromBytesFuel_cut (ext : Ext) (n : Nat) (b : Bytes) :
    pubFromBytesFuel ext n b = cutAt (OSK.pubFromBytesFuel ext n b) := by
  induction n generalizing b with
  | zero => rfl
  | succ n ih =>
    unfold pubFromBytesFuel OSK.pubFromBytesFuel
    rw [show pubFromBytesFuel ext n = fun b => cutAt (OSK.pubFromBytesFuel ext n b) from funext ih,
      fromBytesWith_cut]

theorem caFromBytes_cut (ext : Ext) : caFromBytes ext = fun b => cutAt (OSK.caFromBytes ext b) :=
  funext fun _ => pubFromBytesFuel_cut ext _ _

theorem newParams_cut (ext : Ext) (c : Cls) (d : VDict) : newParams ext c d = cutAt (OSK.newParams ext c d) := by
  unfold newParams OSK.newParams
  rw [caFromBytes_cut, newParamsWith_cut]

theorem mkKey_cut (ext : Ext) (kind : Kind) (h p f : VDict) (clear : Option VDict) :
    mkKey ext kind h p f clear = cutAt (OSK.mkKey ext kind h p f clear) := by
  unfold mkKey OSK.mkKey
  rw [caFromBytes_cut, mkKeyWith_cut]

theorem fromByteStream_cut (ext : Ext) (kind : Kind) (clear : Option VDict) (s : Stream) :
    fromByteStream ext kind clear s =
      (cutAt (OSK.fromByteStream ext kind clear s).1, (OSK.fromByteStream ext kind clear s).2) := by
  unfold fromByteStream OSK.fromByteStream
  rw [caFromBytes_cut, fromByteStreamWith_cut]

theorem fromBytes_cut (ext : Ext) (kind : Kind) (b : Bytes) (clear : Option VDict) :
    fromBytes ext kind b clear = cutAt (OSK.fromBytes ext kind b clear) := by
  unfold fromBytes OSK.fromBytes
  rw [caFromBytes_cut, fromBytesWith_cut]

theorem fromString_cut (ext : Ext) (kind : Kind) (s : Str) :
    fromString ext kind s = cutAt (OSK.fromString ext kind s) := by
  simp only [fromString, OSK.fromString, cut_bind, cut_lift, cut_ite, cut_pure, warn_cut, fromBytes_cut]

theorem getSignatureKey_cut (ext : Ext) (d : VDict) :
    getSignatureKey ext d = cutAt (OSK.getSignatureKey ext d) := by
  unfold getSignatureKey OSK.getSignatureKey
  rw [caFromBytes_cut, getSignatureKeyWith_cut]

theorem newKdf_cut (c : KdfCls) (d : VDict) : newKdf c d = cutAt (OSK.newKdf c d) := by
  simp only [newKdf, OSK.newKdf, cut_bind, cut_pure, checkDict_cut]

theorem generateKdf_cut (t : Nat → Bytes) (c : KdfCls) : generateKdf t c = cutAt (OSK.generateKdf t c) := by
  cases c <;> exact newKdf_cut _ _

theorem onStream_cut {α : Type} (x : SM α) (s : Stream) : onStream x s = cutAt (onStream x s) := by
  unfold onStream
  split <;> rfl

theorem bind_cut {α β : Type} {x y : Eff α} {k l : α → Eff β} (h : x = cutAt y) (hk : ∀ a, k a = cutAt (l a)) :
    (x >>= k) = cutAt (y >>= l) := by
  rw [h, funext hk]; exact (cut_bind _ _).symm

theorem readPublicKeys_cut (ext : Ext) (n : Nat) (s : Stream) :
    readPublicKeys ext n s = cutAt (OSK.readPublicKeys ext n s) := by
  induction n generalizing s with
  | zero => rfl
  | succ n ih =>
    unfold readPublicKeys OSK.readPublicKeys
    refine bind_cut (onStream_cut _ _) (fun ⟨v, s⟩ => ?_)
    refine bind_cut rfl (fun b => ?_)
    refine bind_cut (fromBytes_cut _ _ _ _) (fun k => ?_)
    exact bind_cut (ih _) (fun ⟨ks, s⟩ => rfl)

theorem checkPairType_cut (i : Nat) (a b : Key) : checkPairType i a b = cutAt (OSK.checkPairType i a b) := by
  simp only [checkPairType, OSK.checkPairType, cut_bind, cut_lift, cut_ite, cut_pure, warn_cut]

theorem checkPairValues_cut (i : Nat) (a b : Key) : checkPairValues i a b = cutAt (OSK.checkPairValues i a b) := by
  simp only [checkPairValues, OSK.checkPairValues, cut_ite, cut_pure, warn_cut]

theorem readPairs_cut (ext : Ext) (pubs : List Key) (i : Nat) (s : Stream) :
    readPairs ext pubs i s = cutAt (OSK.readPairs ext pubs i s) := by
  induction pubs generalizing i s with
  | nil => rfl
  | cons p t ih =>
    unfold readPairs OSK.readPairs
    simp only [fromByteStream_cut]
    refine bind_cut rfl (fun q => ?_)
    refine bind_cut (checkPairType_cut _ _ _) (fun _ => ?_)
    refine bind_cut (checkPairValues_cut _ _ _) (fun _ => ?_)
    exact bind_cut (ih _ _) (fun ⟨ks, s⟩ => rfl)

theorem checkCheckInts_cut (h : VDict) : checkCheckInts h = cutAt (OSK.checkCheckInts h) := by
  simp only [checkCheckInts, OSK.checkCheckInts, cut_bind, cut_lift, cut_ite, cut_pure, warn_cut]

theorem checkPadding_cut (n : Nat) (w p : Bytes) : checkPadding n w p = cutAt (OSK.checkPadding n w p) := by
  simp only [checkPadding, OSK.checkPadding, cut_ite, cut_pure, warn_cut]

theorem readPrivateSection_cut (ext : Ext) (c : CipherCls) (pubs : List Key) (plain : Bytes) :
    readPrivateSection ext c pubs plain = cutAt (OSK.readPrivateSection ext c pubs plain) := by
  unfold readPrivateSection OSK.readPrivateSection
  refine bind_cut (onStream_cut _ _) (fun ⟨dh, s⟩ => ?_)
  refine bind_cut (checkCheckInts_cut _) (fun _ => ?_)
  refine bind_cut (readPairs_cut _ _ _ _) (fun ⟨pairs, s⟩ => ?_)
  refine bind_cut (onStream_cut _ _) (fun ⟨padding, s⟩ => ?_)
  exact bind_cut (checkPadding_cut _ _ _) (fun _ => rfl)

theorem choosePassphrase_cut (inp : Inputs) (b : Bool) (p : Option Str) :
    choosePassphrase inp b p = cutAt (choosePassphrase inp b p) := by
  cases b <;> cases p <;> rfl

theorem readTag_cut (c : CipherCls) (b : Bytes) (s : Stream) : readTag c b s = cutAt (readTag c b s) := by
  unfold readTag
  split
  · exact bind_cut (onStream_cut _ _) (fun ⟨_, _⟩ => rfl)
  · rfl

theorem listFromBytesBody_cut (ext : Ext) (cr : Crypto) (inp : Inputs) (b : Bytes) (p : Option Str) :
    listFromBytesBody ext cr inp b p = cutAt (OSK.listFromBytesBody ext cr inp b p) := by
  unfold listFromBytesBody OSK.listFromBytesBody
  refine bind_cut (onStream_cut _ _) (fun ⟨header, s⟩ => ?_)
  refine bind_cut rfl (fun magic => ?_)
  dsimp only
  split
  · rfl
  refine bind_cut rfl (fun nv => ?_)
  refine bind_cut rfl (fun n => ?_)
  split
  · rfl
  refine bind_cut (readPublicKeys_cut _ _ _) (fun ⟨pubs, s⟩ => ?_)
  refine bind_cut (onStream_cut _ _) (fun ⟨cv, s⟩ => ?_)
  refine bind_cut rfl (fun _ => ?_)
  refine bind_cut rfl (fun _ => ?_)
  refine bind_cut rfl (fun _ => ?_)
  refine bind_cut rfl (fun _ => ?_)
  refine bind_cut rfl (fun _ => ?_)
  refine bind_cut (onStream_cut _ _) (fun ⟨od, _⟩ => ?_)
  refine bind_cut (newKdf_cut _ _) (fun _ => ?_)
  refine bind_cut rfl (fun _ => ?_)
  refine bind_cut rfl (fun _ => ?_)
  refine bind_cut (choosePassphrase_cut _ _ _) (fun _ => ?_)
  refine bind_cut (readTag_cut _ _ _) (fun ⟨_, _⟩ => ?_)
  refine bind_cut (newKdf_cut _ _) (fun _ => ?_)
  refine bind_cut rfl (fun _ => ?_)
  exact bind_cut (readPrivateSection_cut _ _ _ _) (fun ⟨_, _, _⟩ => rfl)

/-- Cut off at the first warning that the filter raises, which `PrivateKeyList.from_bytes` replaces. -/
abbrev cutList {α : Type} (x : Eff α) : Eff α :=
  x.cut Filter.raises (fun _ => .valueError "Unexpected error condition reached.")

theorem listFromBytes_cut (ext : Ext) (cr : Crypto) (inp : Inputs) (b : Bytes) (p : Option Str) :
    listFromBytes ext cr inp b p = cutList (OSK.listFromBytes ext cr inp b p) := by
  unfold listFromBytes OSK.listFromBytes
  rw [listFromBytesBody_cut]
  exact (cut_except (g := Exn.userWarning) _ listExcept).symm

theorem listFromString_cut (ext : Ext) (cr : Crypto) (inp : Inputs) (t : Str) (p : Option Str) :
    listFromString ext cr inp t p = cutList (OSK.listFromString ext cr inp t p) := by
  simp only [listFromString, OSK.listFromString, cut_bind, cut_lift, cut_ite, cut_throw, listFromBytes_cut]

theorem chooseKdfOptions_cut (inp : Inputs) (o : Option KdfOptions) (kdf : Val) (retain : Bool) :
    chooseKdfOptions inp o kdf retain = cutAt (OSK.chooseKdfOptions inp o kdf retain) := by
  unfold chooseKdfOptions OSK.chooseKdfOptions
  cases retain <;> cases o <;>
    simp only [cut_bind, cut_lift, cut_pure, generateKdf_cut]

theorem writePublicKeys_cut (self : List Pair) (o : Bool) (l : List Int) (s : Stream) :
    writePublicKeys self o l s = cutAt (writePublicKeys self o l s) := by
  induction l generalizing s with
  | nil => rfl
  | cons i t ih =>
    unfold writePublicKeys
    refine bind_cut rfl (fun _ => ?_)
    refine bind_cut rfl (fun _ => ?_)
    exact bind_cut (onStream_cut _ _) (fun ⟨_, _⟩ => ih _)

theorem writePrivateKeys_cut (self : List Pair) (l : List Int) (s : Stream) :
    writePrivateKeys self l s = cutAt (writePrivateKeys self l s) := by
  induction l generalizing s with
  | nil => rfl
  | cons i t ih =>
    unfold writePrivateKeys
    refine bind_cut rfl (fun _ => ?_)
    refine bind_cut rfl (fun _ => ?_)
    exact bind_cut (onStream_cut _ _) (fun ⟨_, _⟩ => ih _)

theorem writePrivateSection_cut (inp : Inputs) (self : List Pair) (l : List Int) (c : Val) :
    writePrivateSection inp self l c = cutAt (writePrivateSection inp self l c) := by
  unfold writePrivateSection
  refine bind_cut (onStream_cut _ _) (fun ⟨_, _⟩ => ?_)
  refine bind_cut (writePrivateKeys_cut _ _ _) (fun _ => ?_)
  refine bind_cut rfl (fun _ => ?_)
  exact bind_cut (onStream_cut _ _) (fun ⟨_, _⟩ => rfl)

theorem writeCipherBytes_cut (c : CipherCls) (b : Bytes) (s : Stream) :
    writeCipherBytes c b s = cutAt (writeCipherBytes c b s) := by
  unfold writeCipherBytes
  split
  · refine bind_cut (onStream_cut _ _) (fun ⟨_, _⟩ => ?_)
    exact bind_cut (onStream_cut _ _) (fun ⟨_, _⟩ => rfl)
  · exact bind_cut (onStream_cut _ _) (fun ⟨_, _⟩ => rfl)

theorem packKeyList_cut (cr : Crypto) (inp : Inputs) (self : KeyList) (p : Option Str) (is : Option (List Int))
    (override retain : Bool) :
    packKeyList cr inp self p is override retain = cutAt (OSK.packKeyList cr inp self p is override retain) := by
  unfold packKeyList OSK.packKeyList
  refine bind_cut (chooseKdfOptions_cut _ _ _ _) (fun _ => ?_)
  refine bind_cut rfl (fun _ => ?_)
  refine bind_cut rfl (fun _ => ?_)
  refine bind_cut (onStream_cut _ _) (fun ⟨_, _⟩ => ?_)
  refine bind_cut (writePublicKeys_cut _ _ _ _) (fun _ => ?_)
  refine bind_cut (writePrivateSection_cut _ _ _ _) (fun _ => ?_)
  refine bind_cut (choosePassphrase_cut _ _ _) (fun _ => ?_)
  refine bind_cut rfl (fun _ => ?_)
  refine bind_cut (newKdf_cut _ _) (fun _ => ?_)
  refine bind_cut rfl (fun _ => ?_)
  exact bind_cut (writeCipherBytes_cut _ _ _) (fun _ => rfl)

theorem packListString_cut (cr : Crypto) (inp : Inputs) (self : KeyList) (p : Option Str) (is : Option (List Int))
    (override retain : Bool) :
    packListString cr inp self p is override retain =
      cutAt (OSK.packListString cr inp self p is override retain) := by
  simp only [packListString, OSK.packListString, cut_bind, cut_pure, packKeyList_cut]

theorem generatePair_cut (ext : Ext) (t c : Str) (d : VDict) :
    generatePair ext t c d = cutAt (OSK.generatePair ext t c d) := by
  simp only [generatePair, OSK.generatePair, cut_bind, cut_lift, cut_pure, mkKey_cut]

theorem instantiate_cut (ext : Ext) (c : Cls) (d : VDict) :
    instantiate ext c d = cutAt (OSK.instantiate ext c d) := by
  simp only [instantiate, OSK.instantiate, cut_ite, cut_throw, newParams_cut]

theorem trySubclasses_cut (rec : Cls → Eff Params) (l : List Cls) :
    trySubclasses (fun s => cutAt (rec s)) l = cutAt (trySubclasses rec l) := by
  induction l with
  | nil => rfl
  | cons s t ih =>
    unfold trySubclasses
    refine bind_cut ?_ (fun r => by cases r <;> first | rfl | exact ih)
    refine Eq.trans ?_ (cut_tryCatch _ _ (fun _ => rfl)).symm
    simp only [cut_bind, cut_pure]
    congr 1
    funext e
    split <;> simp [cut_pure]

theorem tryConcrete_cut (rec : Cls → Eff Params) (l : List Cls) :
    tryConcrete (fun s => cutAt (rec s)) l = cutAt (tryConcrete rec l) := by
  induction l with
  | nil => rfl
  | cons s t ih =>
    unfold tryConcrete
    split
    · exact ih
    refine bind_cut ?_ (fun r => by cases r <;> first | rfl | exact ih)
    refine Eq.trans ?_ (cut_tryCatch _ _ (fun _ => rfl)).symm
    simp only [cut_bind, cut_pure]
    congr 1
    funext e
    split <;> simp [cut_pure]

theorem convertFromBase_cut (lib : Lib) (ext : Ext) (rec : Cls → Eff Params) (c : Cls) (o : KeyObj) :
    convertFromBase lib ext (fun s => cutAt (rec s)) c o = cutAt (OSK.convertFromBase lib ext rec c o) := by
  unfold convertFromBase OSK.convertFromBase
  refine bind_cut rfl (fun own => ?_)
  rcases own with _ | d
  · refine bind_cut (trySubclasses_cut _ _) (fun m => ?_)
    rcases m with _ | d
    · rfl
    · exact bind_cut rfl (fun _ => instantiate_cut _ _ _)
  · exact bind_cut (x := pure (some d)) (y := pure (some d)) rfl
      (fun m => by
        rcases m with _ | d
        · rfl
        · exact bind_cut rfl (fun _ => instantiate_cut _ _ _))

theorem convertFromEcdsa_cut (lib : Lib) (ext : Ext) (rec : Cls → Eff Params) (c : Cls) (o : KeyObj) :
    convertFromEcdsa lib ext (fun s => cutAt (rec s)) c o = cutAt (OSK.convertFromEcdsa lib ext rec c o) := by
  unfold convertFromEcdsa OSK.convertFromEcdsa
  dsimp only
  split
  · refine bind_cut (tryConcrete_cut _ _) (fun r => ?_)
    rcases r with _ | p
    · exact convertFromBase_cut _ _ _ _ _
    · rfl
  · refine bind_cut rfl (fun r => ?_)
    rcases r with _ | p
    · exact convertFromBase_cut _ _ _ _ _
    · rfl

theorem convertFromFuel_cut (lib : Lib) (ext : Ext) (n : Nat) (c : Cls) (o : KeyObj) :
    convertFromFuel lib ext n c o = cutAt (OSK.convertFromFuel lib ext n c o) := by
  induction n generalizing c with
  | zero => rfl
  | succ n ih =>
    unfold convertFromFuel OSK.convertFromFuel
    rw [show (fun s => convertFromFuel lib ext n s o) = fun s => cutAt (OSK.convertFromFuel lib ext n s o) from
      funext ih]
    split
    · exact convertFromEcdsa_cut _ _ _ _ _
    · exact convertFromBase_cut _ _ _ _ _

theorem convertFrom_cut (lib : Lib) (ext : Ext) (c : Cls) (o : KeyObj) :
    convertFrom lib ext c o = cutAt (OSK.convertFrom lib ext c o) := convertFromFuel_cut _ _ _ _ _

theorem generateParams_cut (ext : Ext) (lib : Lib) (gen : Gen) (c : Cls) (kw : VDict) :
    generateParams ext lib gen c kw = cutAt (OSK.generateParams ext lib gen c kw) := by
  unfold generateParams OSK.generateParams
  rcases c.resolve generateDef with _ | D
  · rfl
  · cases D <;> first
      | rfl
      | exact instantiate_cut _ _ _
      | exact bind_cut rfl (fun _ => instantiate_cut _ _ _)
      | exact bind_cut rfl (fun ⟨_, _, _⟩ => instantiate_cut _ _ _)

theorem generate_cut (ext : Ext) (lib : Lib) (gen : Gen) (t c : Str) (kw : VDict) :
    generate ext lib gen t c kw = cutAt (OSK.generate ext lib gen t c kw) := by
  simp only [generate, OSK.generate, cut_bind, cut_lift, generateParams_cut, generatePair_cut]

theorem generateKdfWith_cut (t : Val → Except Exn Bytes) (kw : VDict) (c : KdfCls) :
    generateKdfWith t kw c = cutAt (OSK.generateKdfWith t kw c) := by
  cases c
  · exact newKdf_cut _ _
  · exact bind_cut rfl (fun _ => newKdf_cut _ _)

theorem cliLine_cut (ext : Ext) (i : Nat) (l : Str) : cliLine ext i l = cutAt (OSK.cliLine ext i l) := by
  unfold cliLine OSK.cliLine
  refine Eq.trans ?_ (cut_tryCatch _ _ (fun _ => rfl)).symm
  simp only [cut_bind, cut_pure, fromString_cut]
  congr 1
  funext e
  split <;> simp [warn_cut, cut_bind, cut_pure]

theorem cliLines_cut (ext : Ext) (i : Nat) (l : List Str) : cliLines ext i l = cutAt (OSK.cliLines ext i l) := by
  induction l generalizing i with
  | nil => rfl
  | cons a t ih =>
    unfold cliLines OSK.cliLines
    simp only [cut_bind, cut_pure, cliLine_cut, ih]

theorem cliParse_list (ext : Ext) (cr : Crypto) (inp : Inputs) (t : Str) (p : Option Str)
    (h : startsWith t pemHeader) : cliParse ext cr inp t p = cutList (OSK.cliParse ext cr inp t p) := by
  simp only [cliParse, OSK.cliParse, if_pos h, cut_bind, cut_pure, listFromString_cut]

theorem cliParse_lines (ext : Ext) (cr : Crypto) (inp : Inputs) (t : Str) (p : Option Str)
    (h : ¬ startsWith t pemHeader) : cliParse ext cr inp t p = cutAt (OSK.cliParse ext cr inp t p) := by
  simp only [cliParse, OSK.cliParse, if_neg h, cut_bind, cut_pure, cliLines_cut]
end Filtered
end OSK
