import Verif.Model.KeyList
import Verif.Spec.KeyFile
import Verif.Lemmas.Wire
import Verif.Lemmas.Cipher
/-
`PrivateKeyList.from_bytes` in terms of the fields of the file.
-/
namespace OSK
open Spec

/-! ### Readers inside effectful code -/

theorem onStream_reader {α : Type} {x : SM α} (hx : Reader x) (s : Stream) :
    onStream x s = match prs x s.rest with
      | (.ok a, n) => pure (a, ⟨s.buf, s.pos + n⟩)
      | (.error e, _) => Eff.throw e := by
  unfold onStream
  rw [hx.shift s]
  rcases prs x s.rest with ⟨e | a, n⟩ <;> rfl

theorem onStream_ok {α : Type} {x : SM α} (hx : Reader x) {s : Stream} {a : α} {n : Nat}
    (h : prs x s.rest = (.ok a, n)) : onStream x s = pure (a, ⟨s.buf, s.pos + n⟩) := by
  rw [onStream_reader hx, h]

theorem onStream_res_ok {α : Type} {x : SM α} (hx : Reader x) {s s' : Stream} {a : α}
    (h : (onStream x s).res = .ok (a, s')) :
    ∃ n, prs x s.rest = (.ok a, n) ∧ s' = ⟨s.buf, s.pos + n⟩ := by
  rw [onStream_reader hx] at h
  rcases hp : prs x s.rest with ⟨e | b, n⟩
  · rw [hp] at h; simp at h
  · rw [hp] at h; simp at h
    obtain ⟨rfl, rfl⟩ := h
    exact ⟨n, rfl, rfl⟩

@[simp] theorem Stream.rest_of (b : Bytes) : (Stream.of b).rest = b := by simp [Stream.of, Stream.rest]

theorem Stream.rest_advance (s : Stream) (n : Nat) : (⟨s.buf, s.pos + n⟩ : Stream).rest = s.rest.drop n := by
  simp [Stream.rest]

/-- A length-prefixed byte string, both ways. -/
theorem prs_bytes {b w : Bytes} (h : Prefixed 4 b w) (post : Bytes) :
    prs (readFI (.pascal .bytes)) (w ++ post) = (.ok (.bytes b), w.length) :=
  prs_readFI (packFI_bytes_iff.2 ⟨b, rfl, h⟩) trivial
    (packFI_plain_length (fi := .pascal .bytes) rfl (packFI_bytes_iff.2 ⟨b, rfl, h⟩)) post

theorem prs_bytes_ok {r : Bytes} {v : Val} {n : Nat} (h : prs (readFI (.pascal .bytes)) r = (.ok v, n)) :
    ∃ b w, v = .bytes b ∧ Prefixed 4 b w ∧ n = w.length ∧ r = w ++ r.drop n := by
  obtain ⟨h1, -, h3⟩ := packFI_of_read (fi := .pascal .bytes) trivial h (by simp [FI.prim?])
  obtain ⟨b, rfl, hb⟩ := packFI_bytes_iff.1 h1
  exact ⟨b, r.take n, rfl, hb, by simp; omega, (List.take_append_drop n r).symm⟩

theorem prs_string_ok {r : Bytes} {v : Val} {n : Nat} (h : prs (readFI (.pascal .string)) r = (.ok v, n)) :
    ∃ cs w, v = .str (strOf cs) ∧ Prefixed 4 (utf8 cs) w ∧ n = w.length ∧ r = w ++ r.drop n := by
  obtain ⟨h1, -, h3⟩ := packFI_of_read (fi := .pascal .string) trivial h (by simp [FI.prim?])
  obtain ⟨cs, rfl, hb⟩ := packFI_string_iff.1 h1
  exact ⟨cs, r.take n, rfl, hb, by simp; omega, (List.take_append_drop n r).symm⟩

/-! ### The header -/

/-- The fields after the magic. -/
def headerTail : FDict :=
  [(py! "cipher", .pascal .string), (py! "kdf", .pascal .string),
   (py! "kdf_options", .pascal .bytes), (py! "num_keys", .struct fmtBEi)]

theorem magic_eq : authMagic = magic := by decide

theorem prs_magic (m : Bytes) (hm : m.length = 15) (post : Bytes) :
    prs (readFI (.struct fmt15s)) (m ++ post) = (.ok (.bytes m), 15) := by
  unfold readFI
  have e : ((fmt15s.calcsize : Nat) : Int) = ((15 : Nat) : Int) := rfl
  rw [prs_bind (fun _ => Reader.pure _) (Reader.readFixed _), e, prs_readFixed, if_neg (by decide),
    if_neg (by simp; omega)]
  simp only [prs_pure]
  have : (m ++ post).take 15 = m := by rw [← hm, List.take_left]
  rw [this]
  have e2 : structResult (fmt15s.unpack m) = .bytes m := by
    simp [SFmt.unpack, fmt15s, unpackItems, SCode.unpack, SCode.size, structResult]
    rw [← hm]; exact List.take_length
  rw [e2]

theorem prs_magic_ok {r : Bytes} {v : Val} {n : Nat} (h : prs (readFI (.struct fmt15s)) r = (.ok v, n)) :
    ∃ m, v = .bytes m ∧ m.length = 15 ∧ n = 15 ∧ r = m ++ r.drop 15 := by
  have hb := (Reader.readFI (.struct fmt15s)).bound r
  have hl : 15 ≤ r.length := by
    unfold readFI at h
    obtain ⟨a, n1, m, h1, h2, rfl⟩ := prs_bind_ok (fun _ => Reader.pure _) (Reader.readFixed _) h
    exact (prs_readFixed_ok h1).2.2.1
  have := prs_magic (r.take 15) (by simp; omega) (r.drop 15)
  rw [List.take_append_drop, h] at this
  simp at this
  exact ⟨r.take 15, this.1, by simp; omega, this.2, (List.take_append_drop 15 r).symm⟩

theorem pack_int {i : Int} {w : Bytes} : packFI (.struct fmtBEi) (.int i) = .ok w ↔
    (-(2 ^ 31 : Int) ≤ i ∧ i < 2 ^ 31) ∧ w = natToBE 4 (i % 2 ^ 32).toNat := by
  have e : packFI (.struct fmtBEi) (.int i) =
      if SCode.inIntRange 4 true i then .ok (natToBE 4 (i % (256 : Int) ^ 4).toNat) else .error .structError := by
    simp only [packFI, structPack, Val.toSVal, SFmt.pack1, fmtBEi, SCode.pack]
    split <;> rfl
  have e2 : SCode.inIntRange 4 true i ↔ (-(2 ^ 31 : Int) ≤ i ∧ i < 2 ^ 31) := by
    unfold SCode.inIntRange
    simp
    omega
  rw [e]
  by_cases h : SCode.inIntRange 4 true i
  · rw [if_pos h]
    have h' := e2.1 h
    simp only [Except.ok.injEq, h', true_and]
    rw [show (256 : Int) ^ 4 = 2 ^ 32 by norm_num]
    simp [eq_comm]
  · rw [if_neg h]
    have h' := fun hh => h (e2.2 hh)
    simp only [reduceCtorEq, false_iff]
    exact fun hh => h' hh.1

theorem count_wire {n : Nat} (hn : n < 2 ^ 31) {wn : Bytes} (hl : wn.length = 4) (hd : digitSum wn = n) :
    packFI (.struct fmtBEi) (.int n) = .ok wn := by
  rw [pack_int]
  refine ⟨by omega, ?_⟩
  have e : ((n : Int) % 2 ^ 32).toNat = n := by omega
  rw [e]
  have := natToBE_beNat wn
  rw [hl, ← digitSum_eq, hd] at this
  exact this.symm

/-- The header of a file, from the wire. -/
theorem prs_header {cipher kdf : List Char} {opts wc wk wo wn : Bytes} {n : Nat}
    (h1 : Prefixed 4 (utf8 cipher) wc) (h2 : Prefixed 4 (utf8 kdf) wk) (h3 : Prefixed 4 opts wo)
    (h4 : wn.length = 4) (h5 : digitSum wn = n) (h6 : n < 2 ^ 31) (post : Bytes) :
    prs (readDict listHeaderFmt) (magic ++ wc ++ wk ++ wo ++ wn ++ post) =
      (.ok (listHeader (.str (strOf cipher)) (.str (strOf kdf)) opts n), (magic ++ wc ++ wk ++ wo ++ wn).length) := by
  have e : listHeaderFmt = (py! "auth_magic", .struct fmt15s) :: headerTail := rfl
  have hp : packDict headerTail (listHeader (.str (strOf cipher)) (.str (strOf kdf)) opts n) =
      .ok (wc ++ wk ++ wo ++ wn) := by
    have g1 : dget (listHeader (.str (strOf cipher)) (.str (strOf kdf)) opts n) (py! "cipher")
      = some (.str (strOf cipher)) := rfl
    have g2 : dget (listHeader (.str (strOf cipher)) (.str (strOf kdf)) opts n) (py! "kdf")
      = some (.str (strOf kdf)) := rfl
    have g3 : dget (listHeader (.str (strOf cipher)) (.str (strOf kdf)) opts n) (py! "kdf_options")
      = some (.bytes opts) := rfl
    have g4 : dget (listHeader (.str (strOf cipher)) (.str (strOf kdf)) opts n) (py! "num_keys")
      = some (.int n) := rfl
    unfold headerTail
    rw [packDict_cons_ok_iff]
    refine ⟨_, wc, wk ++ (wo ++ wn), g1, packFI_string_iff.2 ⟨_, rfl, h1⟩, ?_, by simp⟩
    rw [packDict_cons_ok_iff]
    refine ⟨_, wk, wo ++ wn, g2, packFI_string_iff.2 ⟨_, rfl, h2⟩, ?_, rfl⟩
    rw [packDict_cons_ok_iff]
    refine ⟨_, wo, wn, g3, packFI_bytes_iff.2 ⟨_, rfl, h3⟩, ?_, rfl⟩
    rw [packDict_cons_ok_iff]
    exact ⟨_, wn, [], g4, count_wire h6 h4 h5, rfl, by simp⟩
  have hr := prs_readDict_plain (fmt := headerTail) (by decide) hp post
  have hn : named headerTail (listHeader (.str (strOf cipher)) (.str (strOf kdf)) opts n) =
      (listHeader (.str (strOf cipher)) (.str (strOf kdf)) opts n).tail := rfl
  rw [hn] at hr
  rw [e]
  show prs (do let v ← readFI _; let vs ← readDict headerTail; pure ((py! "auth_magic", v) :: vs)) _ = _
  rw [prs_bind (fun _ => (Reader.readDict _).bind fun _ => Reader.pure _) (Reader.readFI _)]
  rw [show magic ++ wc ++ wk ++ wo ++ wn ++ post = magic ++ (wc ++ wk ++ wo ++ wn ++ post) by simp,
    prs_magic _ rfl]
  simp only
  have e15 : (magic ++ (wc ++ wk ++ wo ++ wn ++ post)).drop 15 = wc ++ wk ++ wo ++ wn ++ post :=
    List.drop_left' rfl
  rw [e15, prs_bind (fun _ => Reader.pure _) (Reader.readDict _), hr]
  simp only [prs_pure]
  refine Prod.ext ?_ ?_
  · show Except.ok _ = Except.ok _
    rw [← magic_eq]; rfl
  · simp [magic]; omega

theorem prs_count_ok {r : Bytes} {v : Val} {n : Nat} (h : prs (readFI (.struct fmtBEi)) r = (.ok v, n)) :
    ∃ w, v = .int (tcVal w) ∧ w.length = 4 ∧ n = 4 ∧ r = w ++ r.drop 4 := by
  unfold readFI at h
  obtain ⟨x, n', m', r6, r7, rfl⟩ := prs_bind_ok (fun _ => Reader.pure _) (Reader.readFixed _) h
  obtain ⟨rfl, rfl, hle, -⟩ := prs_readFixed_ok r6
  rw [prs_pure] at r7
  simp only [Prod.mk.injEq, Except.ok.injEq] at r7
  obtain ⟨rfl, rfl⟩ := r7
  have ecs : fmtBEi.calcsize = 4 := rfl
  rw [ecs] at hle ⊢
  refine ⟨r.take 4, ?_, by simp; omega, rfl, (List.take_append_drop 4 r).symm⟩
  have e4 : (r.take 4).take 4 = r.take 4 := by rw [List.take_take]; rfl
  simp only [SFmt.unpack, fmtBEi, unpackItems, SCode.unpack, SCode.size, structResult, e4, tcVal_eq, if_true]

/-- Inversion of reading the header. -/
theorem prs_header_ok {b : Bytes} {h : VDict} {N : Nat} (hr : prs (readDict listHeaderFmt) b = (.ok h, N)) :
    ∃ m cipher kdf opts wc wk wo wn n, m.length = 15 ∧
      h = [(py! "auth_magic", .bytes m), (py! "cipher", .str (strOf cipher)), (py! "kdf", .str (strOf kdf)),
        (py! "kdf_options", .bytes opts), (py! "num_keys", .int n)] ∧
      Prefixed 4 (utf8 cipher) wc ∧ Prefixed 4 (utf8 kdf) wk ∧ Prefixed 4 opts wo ∧
      wn.length = 4 ∧ n = tcVal wn ∧
      b = m ++ wc ++ wk ++ wo ++ wn ++ b.drop N ∧ N = (m ++ wc ++ wk ++ wo ++ wn).length := by
  unfold listHeaderFmt at hr
  obtain ⟨v1, d1, n1, N1, rfl, r1, q1, rfl⟩ := readDict_cons_ok hr
  obtain ⟨v2, d2, n2, N2, rfl, r2, q2, rfl⟩ := readDict_cons_ok q1
  obtain ⟨v3, d3, n3, N3, rfl, r3, q3, rfl⟩ := readDict_cons_ok q2
  obtain ⟨v4, d4, n4, N4, rfl, r4, q4, rfl⟩ := readDict_cons_ok q3
  obtain ⟨v5, d5, n5, N5, rfl, r5, q5, rfl⟩ := readDict_cons_ok q4
  simp [readDict, prs_pure] at q5
  obtain ⟨rfl, rfl⟩ := q5
  obtain ⟨m, rfl, hm, rfl, e1⟩ := prs_magic_ok r1
  obtain ⟨cipher, wc, rfl, hc, rfl, e2⟩ := prs_string_ok r2
  obtain ⟨kdf, wk, rfl, hk, rfl, e3⟩ := prs_string_ok r3
  obtain ⟨opts, wo, rfl, ho, rfl, e4⟩ := prs_bytes_ok r4
  obtain ⟨wn, rfl, hl, rfl, e5⟩ := prs_count_ok r5
  clear r1 r2 r3 r4 r5 q1 q2 q3 q4 hr
  refine ⟨m, cipher, kdf, opts, wc, wk, wo, wn, tcVal wn, hm, rfl, hc, hk, ho, hl, rfl, ?_,
    by simp; omega⟩
  have ed : b.drop (15 + (wc.length + (wk.length + (wo.length + (4 + 0))))) =
      ((((b.drop 15).drop wc.length).drop wk.length).drop wo.length).drop 4 := by
    rw [List.drop_drop, List.drop_drop, List.drop_drop, List.drop_drop]
  rw [ed]
  calc b = m ++ b.drop 15 := e1
    _ = m ++ (wc ++ (wk ++ (wo ++ (wn ++ ((((b.drop 15).drop wc.length).drop wk.length).drop wo.length).drop 4)))) := by
      rw [← e5, ← e4, ← e3, ← e2]
    _ = _ := by simp only [List.append_assoc]

/-! ### The public keys -/

/-- The public keys are parsed one after another. -/
def parsePubs (ext : Ext) : List Bytes → Eff (List Key)
  | [] => pure []
  | b :: t => do
    let k ← fromBytes ext .pub b none
    let ks ← parsePubs ext t
    pure (k :: ks)

theorem readPublicKeys_eq (ext : Ext) {pubs : List Bytes} {w : Bytes} (h : FieldsIn pubs w) {s : Stream}
    {post : Bytes} (hs : s.rest = w ++ post) :
    readPublicKeys ext pubs.length s =
      (do let ks ← parsePubs ext pubs; pure (ks, ⟨s.buf, s.pos + w.length⟩)) := by
  induction pubs generalizing s w with
  | nil =>
    have : w = [] := h
    subst this
    rfl
  | cons b t ih =>
    obtain ⟨x, y, hx, hy, rfl⟩ := h
    rw [List.append_assoc] at hs
    have h1 := onStream_ok (Reader.readFI (.pascal .bytes)) (s := s) (by rw [hs]; exact prs_bytes hx _)
    show (do
      let (v, s) ← onStream (readFI (.pascal .bytes)) s
      let b ← Eff.lift (asBytes v)
      let k ← fromBytes ext .pub b none
      let (ks, s) ← readPublicKeys ext t.length s
      pure (k :: ks, s)) = _
    rw [h1]
    simp only [Eff.pure_bind, asBytes, Eff.lift_ok_bind]
    rw [ih hy (s := ⟨s.buf, s.pos + x.length⟩) (by rw [Stream.rest_advance, hs, List.drop_left])]
    simp only [parsePubs, Eff.bind_assoc, Eff.pure_bind, List.length_append, Nat.add_assoc]

theorem readPublicKeys_ok {ext : Ext} {n : Nat} {s s' : Stream} {ks : List Key}
    (h : (readPublicKeys ext n s).res = .ok (ks, s')) :
    ∃ pubs w, pubs.length = n ∧ FieldsIn pubs w ∧ s.rest = w ++ s'.rest ∧
      s' = ⟨s.buf, s.pos + w.length⟩ := by
  induction n generalizing s ks with
  | zero =>
    unfold readPublicKeys at h
    simp at h
    obtain ⟨-, rfl⟩ := h
    exact ⟨[], [], rfl, rfl, rfl, rfl⟩
  | succ n ih =>
    unfold readPublicKeys at h
    obtain ⟨⟨v, s1⟩, h1, h⟩ := Eff.bind_res_ok_iff.1 h
    obtain ⟨b, h2, h⟩ := Eff.bind_res_ok_iff.1 h
    obtain ⟨k, h3, h⟩ := Eff.bind_res_ok_iff.1 h
    obtain ⟨⟨ks', s2⟩, h4, h⟩ := Eff.bind_res_ok_iff.1 h
    simp only [Eff.pure_res, Except.ok.injEq, Prod.mk.injEq] at h
    obtain ⟨-, rfl⟩ := h
    obtain ⟨m, hm, rfl⟩ := onStream_res_ok (Reader.readFI _) h1
    obtain ⟨b', w, rfl, hw, rfl, he⟩ := prs_bytes_ok hm
    obtain ⟨pubs, w', hl, hf, hr, rfl⟩ := ih h4
    refine ⟨b' :: pubs, w ++ w', by simp [hl], ⟨w, w', hw, hf, rfl⟩, ?_, by simp [Nat.add_assoc]⟩
    rw [he, List.append_assoc, ← hr, Stream.rest_advance]

/-! ### The whole file -/

/-- The header dict of a file. -/
def fileHeader (f : KeyFile) : VDict :=
  listHeader (.str (strOf f.cipher)) (.str (strOf f.kdf)) f.options f.pubs.length

/-- What is done with the fields of the file. -/
def parseFields (ext : Ext) (cr : Crypto) (inp : Inputs) (passphrase : Option Str) (f : KeyFile)
    (kc : KdfCls) (cc : CipherCls) (b : Bytes) : Eff KeyList := do
  let pubs ← parsePubs ext f.pubs
  let (od, _) ← onStream (readDict (kdfFmt kc)) (Stream.of f.options)
  let options ← newKdf kc od
  let pass ← choosePassphrase inp (kc = .none) passphrase
  let options' ← newKdf kc options.data
  let plain ← Eff.lift (decrypt cr cc options' pass (f.body ++ f.tag))
  let (pairs, dh, padding) ← readPrivateSection ext cc pubs plain
  pure ⟨pairs, some b, some (fileHeader f), some (f.body ++ f.tag), some options, some plain, some dh,
    some padding⟩

/-- The tag has the length that the cipher asks for. -/
def TagFits (cc : CipherCls) (tag : Bytes) : Prop :=
  tag.length = if cc.isIntegrity then cc.tagLength else 0

theorem readTag_eq {cc : CipherCls} {tag body : Bytes} (h : TagFits cc tag) {s : Stream} {post : Bytes}
    (hs : s.rest = tag ++ post) :
    readTag cc body s = pure (body ++ tag, ⟨s.buf, s.pos + tag.length⟩) := by
  unfold readTag
  unfold TagFits at h
  by_cases hi : cc.isIntegrity = true
  · rw [if_pos hi] at h ⊢
    have hp : prs (readFixed (cc.tagLength : Int)) s.rest = (.ok tag, cc.tagLength) := by
      rw [prs_readFixed, if_neg (by have : cc.tagLength ≤ 16 := by cases cc <;> decide
                                    have e3 : pyMaxSize = 9223372036854775807 := by decide
                                    omega),
        if_neg (by rw [hs]; simp; omega), hs, ← h, List.take_left]
    rw [onStream_ok (Reader.readFixed _) hp]
    simp [h]
  · rw [if_neg hi] at h ⊢
    have : tag = [] := List.length_eq_zero_iff.1 h
    subst this
    simp

theorem readTag_ok {cc : CipherCls} {body x : Bytes} {s s' : Stream}
    (h : (readTag cc body s).res = .ok (x, s')) :
    ∃ tag, x = body ++ tag ∧ TagFits cc tag ∧ s.rest = tag ++ s'.rest := by
  unfold readTag at h
  by_cases hi : cc.isIntegrity = true
  · rw [if_pos hi] at h
    obtain ⟨⟨tag, s1⟩, h1, h⟩ := Eff.bind_res_ok_iff.1 h
    simp only [Eff.pure_res, Except.ok.injEq, Prod.mk.injEq] at h
    obtain ⟨rfl, rfl⟩ := h
    obtain ⟨n, hn, rfl⟩ := onStream_res_ok (Reader.readFixed _) h1
    obtain ⟨rfl, rfl, hl, -⟩ := prs_readFixed_ok hn
    refine ⟨_, rfl, ?_, ?_⟩
    · unfold TagFits; rw [if_pos hi]; simp; omega
    · rw [Stream.rest_advance, List.take_append_drop]
  · rw [if_neg hi] at h
    simp only [Eff.pure_res, Except.ok.injEq, Prod.mk.injEq] at h
    obtain ⟨rfl, rfl⟩ := h
    exact ⟨[], by simp, by unfold TagFits; rw [if_neg hi]; rfl, rfl⟩

/-- Parsing a file that is laid out as `f`, with anything after it. -/
theorem listFromBytesBody_eq (ext : Ext) (cr : Crypto) (inp : Inputs) (passphrase : Option Str) {f : KeyFile}
    {w : Bytes} (hf : f.Lays w) {kc : KdfCls} {cc : CipherCls} (hk : getKdfClass (.str (strOf f.kdf)) = .ok kc)
    (hc : getCipherClass (.str (strOf f.cipher)) = .ok cc) (ht : TagFits cc f.tag) (post : Bytes) :
    listFromBytesBody ext cr inp (w ++ post) passphrase =
      parseFields ext cr inp passphrase f kc cc (w ++ post) := by
  obtain ⟨front, wb, ⟨wc, wk, wo, wn, wp, h1, h2, h3, h4, h5, h6, h7, rfl⟩, h8, rfl⟩ := hf
  generalize hb : magic ++ wc ++ wk ++ wo ++ wn ++ wp ++ wb ++ f.tag ++ post = b
  have hb1 : b = magic ++ wc ++ wk ++ wo ++ wn ++ (wp ++ (wb ++ (f.tag ++ post))) := by
    rw [← hb]; simp only [List.append_assoc]
  have e1 : onStream (readDict listHeaderFmt) (Stream.of b) =
      pure (fileHeader f, ⟨b, (magic ++ wc ++ wk ++ wo ++ wn).length⟩) := by
    rw [onStream_ok (Reader.readDict _) (by rw [Stream.rest_of, hb1]; exact prs_header h1 h2 h3 h4 h5 h6 _)]
    simp [Stream.of, fileHeader]
  have e2 := readPublicKeys_eq ext h7 (s := ⟨b, (magic ++ wc ++ wk ++ wo ++ wn).length⟩)
    (post := wb ++ (f.tag ++ post)) (by
      show b.drop _ = _
      rw [hb1, List.drop_left])
  have e3 : onStream (readFI (.pascal .bytes)) ⟨b, (magic ++ wc ++ wk ++ wo ++ wn).length + wp.length⟩ =
      pure (.bytes f.body, ⟨b, (magic ++ wc ++ wk ++ wo ++ wn).length + wp.length + wb.length⟩) := by
    apply onStream_ok (Reader.readFI _)
    have : (⟨b, (magic ++ wc ++ wk ++ wo ++ wn).length + wp.length⟩ : Stream).rest = wb ++ (f.tag ++ post) := by
      show b.drop _ = _
      rw [hb1, ← List.length_append, ← List.append_assoc (_ ++ wn), List.drop_left]
    rw [this]
    exact prs_bytes h8 _
  have e4 : readTag cc f.body ⟨b, (magic ++ wc ++ wk ++ wo ++ wn).length + wp.length + wb.length⟩ =
      pure (f.body ++ f.tag,
        ⟨b, (magic ++ wc ++ wk ++ wo ++ wn).length + wp.length + wb.length + f.tag.length⟩) := by
    apply readTag_eq ht (post := post)
    show b.drop _ = _
    rw [hb1, ← List.length_append, ← List.length_append, ← List.append_assoc (_ ++ wn),
      ← List.append_assoc (_ ++ wn ++ wp), List.drop_left]
  have g1 : getItem (fileHeader f) (py! "auth_magic") = .ok (.bytes authMagic) := rfl
  have g2 : getItem (fileHeader f) (py! "num_keys") = .ok (.int f.pubs.length) := rfl
  have g3 : getItem (fileHeader f) (py! "kdf") = .ok (.str (strOf f.kdf)) := rfl
  have g4 : getItem (fileHeader f) (py! "cipher") = .ok (.str (strOf f.cipher)) := rfl
  have g5 : getItem (fileHeader f) (py! "kdf_options") = .ok (.bytes f.options) := rfl
  unfold listFromBytesBody parseFields
  rw [e1]
  simp only [Eff.pure_bind, g1, Eff.lift_ok_bind, ne_eq, not_true_eq_false, if_false, g2, asInt]
  rw [if_neg (by omega), Int.toNat_natCast, e2]
  simp only [Eff.bind_assoc, Eff.pure_bind, e3, asBytes, Eff.lift_ok_bind, g3, hk, g4, hc, g5, e4]

/-- A file that is accepted is laid out as some `f`, perhaps with something after it. -/
theorem listFromBytesBody_ok {ext : Ext} {cr : Crypto} {inp : Inputs} {passphrase : Option Str} {b : Bytes}
    {kl : KeyList} (h : (listFromBytesBody ext cr inp b passphrase).res = .ok kl) :
    ∃ f w post kc cc, b = w ++ post ∧ KeyFile.Lays f w ∧ getKdfClass (.str (strOf f.kdf)) = .ok kc ∧
      getCipherClass (.str (strOf f.cipher)) = .ok cc ∧ TagFits cc f.tag := by
  unfold listFromBytesBody at h
  obtain ⟨⟨hd, s1⟩, h1, h⟩ := Eff.bind_res_ok_iff.1 h
  obtain ⟨n1, hn1, rfl⟩ := onStream_res_ok (Reader.readDict _) h1
  rw [Stream.rest_of] at hn1
  obtain ⟨m, cipher, kdf, opts, wc, wk, wo, wn, n, hm, rfl, hc, hk, ho, hwn, hn, hb, hN⟩ := prs_header_ok hn1
  have g1 : getItem [(py! "auth_magic", Val.bytes m), (py! "cipher", .str (strOf cipher)),
    (py! "kdf", .str (strOf kdf)), (py! "kdf_options", .bytes opts), (py! "num_keys", .int n)]
      (py! "auth_magic") = .ok (.bytes m) := rfl
  have g2 : getItem [(py! "auth_magic", Val.bytes m), (py! "cipher", .str (strOf cipher)),
    (py! "kdf", .str (strOf kdf)), (py! "kdf_options", .bytes opts), (py! "num_keys", .int n)]
      (py! "num_keys") = .ok (.int n) := rfl
  have g3 : getItem [(py! "auth_magic", Val.bytes m), (py! "cipher", .str (strOf cipher)),
    (py! "kdf", .str (strOf kdf)), (py! "kdf_options", .bytes opts), (py! "num_keys", .int n)]
      (py! "kdf") = .ok (.str (strOf kdf)) := rfl
  have g4 : getItem [(py! "auth_magic", Val.bytes m), (py! "cipher", .str (strOf cipher)),
    (py! "kdf", .str (strOf kdf)), (py! "kdf_options", .bytes opts), (py! "num_keys", .int n)]
      (py! "cipher") = .ok (.str (strOf cipher)) := rfl
  simp only [g1, Eff.lift_ok_bind, g2, asInt, g3, g4] at h
  split at h
  · simp at h
  rename_i hmag
  split at h
  · simp at h
  rename_i hneg
  obtain ⟨⟨ks, s2⟩, h2, h⟩ := Eff.bind_res_ok_iff.1 h
  obtain ⟨⟨cv, s3⟩, h3, h⟩ := Eff.bind_res_ok_iff.1 h
  obtain ⟨cb, h4, h⟩ := Eff.bind_res_ok_iff.1 h
  obtain ⟨kc, h5, h⟩ := Eff.bind_res_ok_iff.1 h
  obtain ⟨ov, -, h⟩ := Eff.bind_res_ok_iff.1 h
  obtain ⟨ob, -, h⟩ := Eff.bind_res_ok_iff.1 h
  obtain ⟨od, -, h⟩ := Eff.bind_res_ok_iff.1 h
  obtain ⟨opts', -, h⟩ := Eff.bind_res_ok_iff.1 h
  obtain ⟨cc, h6, h⟩ := Eff.bind_res_ok_iff.1 h
  obtain ⟨pass, -, h⟩ := Eff.bind_res_ok_iff.1 h
  obtain ⟨⟨cb', s4⟩, h7, h⟩ := Eff.bind_res_ok_iff.1 h
  clear h
  simp only [Eff.lift_res] at h5 h6
  obtain ⟨pubs, wp, hl, hf, hr2, rfl⟩ := readPublicKeys_ok h2
  obtain ⟨n3, hn3, rfl⟩ := onStream_res_ok (Reader.readFI _) h3
  obtain ⟨body, wb, rfl, hwb, rfl, he3⟩ := prs_bytes_ok hn3
  obtain ⟨tag, -, htf, hr4⟩ := readTag_ok h7
  simp only [ne_eq, Decidable.not_not] at hmag
  have hm' : m = magic := by rw [← magic_eq]; injection hmag
  subst hm'
  have hn31 : n < 2 ^ 31 ∧ digitSum wn = n.toNat := by
    have hne : wn ≠ [] := by intro hc; rw [hc] at hwn; simp at hwn
    have h1 := beInt_range wn hne
    rw [hwn, ← tcVal_eq, ← hn] at h1
    have h2 := beNat_lt wn
    refine ⟨by omega, ?_⟩
    rw [digitSum_eq]
    have h3 : n = beInt wn := by rw [hn, tcVal_eq]
    rw [beInt_eq] at h3
    rw [hwn] at h2 h3
    split at h3 <;> omega
  refine ⟨⟨cipher, kdf, opts, pubs, body, tag⟩, magic ++ wc ++ wk ++ wo ++ wn ++ wp ++ wb ++ tag, s4.rest,
    kc, cc, ?_, ⟨_, wb, ⟨wc, wk, wo, wn, wp, hc, hk, ho, hwn, by rw [hn31.2, hl], by rw [hl]; omega, hf, rfl⟩,
      hwb, rfl⟩, h5, h6, htf⟩
  have e1 : (⟨(Stream.of b).buf, (Stream.of b).pos + n1⟩ : Stream).rest = b.drop n1 := by
    rw [Stream.rest_advance, Stream.rest_of]
  rw [e1] at hr2
  rw [Stream.rest_advance] at hr4
  clear h2 h3 h7 hn3
  generalize (⟨(Stream.of b).buf, (Stream.of b).pos + n1 + wp.length⟩ : Stream).rest = X at *
  calc b = magic ++ wc ++ wk ++ wo ++ wn ++ (wp ++ (wb ++ (tag ++ s4.rest))) := by
        rw [← hr4, ← he3, ← hr2]; exact hb
    _ = _ := by simp only [List.append_assoc]

end OSK
