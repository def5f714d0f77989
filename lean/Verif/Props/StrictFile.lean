import Verif.Spec.StrictFile
import Verif.Props.Strict
import Verif.Props.OpenSSH
/-
Property C99: which key files are read if every warning is raised.
-/
namespace OSK
open Spec

theorem keyInOrder_reads {ext : Ext} {kind : Kind} {b rest : Bytes} {k : Key} (h : KeyInOrder ext kind b k rest) :
    KeyReads kind b k rest := by
  obtain ⟨t, h1, -, h3, h4, h5, h6, -⟩ := h
  exact ⟨t, h1, fun ht => ((certInOrder_iff h1 ht).1 (h3 ht)).1 ht, h4, h5, h6⟩

theorem keyInOrder_iff {ext : Ext} {kind : Kind} {b rest : Bytes} {k : Key} (h : KeyReads kind b k rest) :
    KeyInOrder ext kind b k rest ↔ k.clear = [] ∧ ∀ v, ¬ ValueFault ext kind k v := by
  obtain ⟨t, h1, h2, h4, h5, h6⟩ := h
  have ht : dget k.header (py! "key_type") = some (.str t) := by rw [h5]; simp [dget]
  constructor
  · rintro ⟨t', g1, g2, g3, -, g5, -, g7⟩
    refine ⟨g7, ?_⟩
    rintro v ⟨t'', ht'', hv⟩
    rw [h5] at g5
    simp only [List.cons.injEq, Prod.mk.injEq, Val.str.injEq, true_and, and_true] at g5
    subst g5
    rw [ht] at ht''
    cases ht''
    rcases hv with ⟨w, -, hw⟩ | ⟨hct, hv⟩
    · exact (material_iff g1).1 g2 w hw
    · exact ((certInOrder_iff g1 hct).1 (g3 hct)).2 v hv
  · rintro ⟨g1, g2⟩
    refine ⟨t, h1, (material_iff h1).2 fun w hw => g2 _ ⟨t, ht, .inl ⟨w, rfl, hw⟩⟩, fun hct => ?_, h4, h5, h6, g1⟩
    exact (certInOrder_iff h1 hct).2 ⟨h2, fun v hv => g2 v ⟨t, ht, .inr ⟨hct, hv⟩⟩⟩

theorem keysInOrder_iff {ext : Ext} {ks : List Key} {b pad : Bytes} :
    KeysInOrder ext ks b pad ↔ KeysIn ks b pad ∧ ∀ k ∈ ks, ∀ v, ¬ ValueFault ext .priv k v := by
  constructor
  · intro h
    induction h with
    | nil => exact ⟨.nil, by simp⟩
    | cons h1 _ ih =>
      have hr := keyInOrder_reads h1
      obtain ⟨g1, g2⟩ := (keyInOrder_iff hr).1 h1
      refine ⟨.cons hr g1 ih.1, fun k hk => ?_⟩
      rcases List.mem_cons.1 hk with rfl | hk
      · exact g2
      · exact ih.2 k hk
  · rintro ⟨h, hq⟩
    induction h with
    | nil => exact .nil
    | cons h1 h2 _ ih =>
      exact .cons ((keyInOrder_iff h1).2 ⟨h2, hq _ List.mem_cons_self⟩) (ih fun k hk => hq k (List.mem_cons_of_mem _ hk))

theorem pairInOrder_iff {p : Pair} {b b' r r' : Bytes} (h : KeyReads .pub b p.pub r) (h' : KeyReads .priv b' p.priv r') :
    PairInOrder p ↔ ¬ TypesDiffer p ∧ ¬ ValuesDiffer p := by
  obtain ⟨t, -, -, -, h5, -⟩ := h
  obtain ⟨t', -, -, -, h5', -⟩ := h'
  constructor
  · rintro ⟨h1, h2⟩
    exact ⟨fun hd => hd (by rw [h1]), fun ⟨n, x, y, hx, hy, hne⟩ => hne (h2 n x y hx hy)⟩
  · rintro ⟨h1, h2⟩
    refine ⟨?_, fun n x y hx hy => ?_⟩
    · unfold TypesDiffer at h1
      rw [h5, h5'] at h1 ⊢
      simp [dget] at h1
      rw [h1]
    · by_contra hne
      exact h2 ⟨n, x, y, hx, hy, hne⟩

theorem keysIn_mem {ks : List Key} {b pad : Bytes} (h : KeysIn ks b pad) {k : Key} (hk : k ∈ ks) :
    ∃ b r, KeyReads .priv b k r := by
  induction h with
  | nil => simp at hk
  | cons h1 _ _ ih =>
    rcases List.mem_cons.1 hk with rfl | hk
    · exact ⟨_, _, h1⟩
    · exact ih hk

theorem keysIn_clear {ks : List Key} {b pad : Bytes} (h : KeysIn ks b pad) {k : Key} (hk : k ∈ ks) : k.clear = [] := by
  induction h with
  | nil => simp at hk
  | cons _ h1 _ ih =>
    rcases List.mem_cons.1 hk with rfl | hk
    · exact h1
    · exact ih hk

theorem forall₂_mem {α β : Type} {R S : α → β → Prop} {l : List α} {m : List β} (h : List.Forall₂ R l m)
    (hs : ∀ a, ∀ b ∈ m, R a b → S a b) : List.Forall₂ S l m := by
  induction h with
  | nil => exact .nil
  | cons h1 _ ih => exact .cons (hs _ _ List.mem_cons_self h1) (ih fun a b hb => hs a b (List.mem_cons_of_mem _ hb))

theorem prefix_countUp {pad : Bytes} {n : Nat} : pad <+: countUp n ↔ ∃ m ≤ n, pad = countUp m := by
  constructor
  · intro h
    refine ⟨pad.length, by simpa [countUp] using h.length_le, ?_⟩
    rw [List.prefix_iff_eq_take.1 h]
    simp [countUp, ← List.map_take, List.take_range]
  · rintro ⟨m, hm, rfl⟩
    exact countUp_prefix.2 hm

theorem keyFault_warn {ext : Ext} {kind : Kind} {k : Key} {v : Event} (h : KeyFault ext kind k v) : ∃ w, v = .warn w := by
  rcases h with ⟨t, -, ⟨w, rfl, -⟩ | ⟨-, hv⟩⟩ | ⟨rfl, -⟩
  · exact ⟨w, rfl⟩
  · cases v with
    | warn w => exact ⟨w, rfl⟩
    | prompt =>
      generalize hp : Event.prompt = v at hv
      cases hv <;> cases hp
      exact absurd ‹_› ((fromBytes_within ext .pub _ none).ev _)
  · exact ⟨_, rfl⟩

/-- What is reported about a file that is read is nothing but, perhaps, the prompt exactly if the file is in order. -/
theorem file_quiet (ext : Ext) {cr : Crypto} (hl : ∀ {p s n r k}, cr.bcryptKdf p s n r = .ok k → k.length = n)
    (inp : Inputs) (passphrase : Option Str) (b : Bytes) (kl : KeyList) :
    ((listFromBytes ext cr inp b passphrase).res = .ok kl ∧ ∀ w, .warn w ∉ (listFromBytes ext cr inp b passphrase).log) ↔
      ∃ post, FileInOrder ext cr inp passphrase b post kl := by
  constructor
  · rintro ⟨hr, hq⟩
    obtain ⟨header, cipher, kdf, block', tag', plain', pad', nums, ws, q1, q2, q3, q4, q5, q6, q7, q8, -, hlog⟩ :=
      C73_list_warnings ext cr inp b passphrase kl hr
    obtain ⟨f, w, post, plain, c1, c2, keys, pad, o, block, rfl, hf, hs, ho, hd, rfl, l1, l2, hp, hk, e1, e2, e3, e4, e5,
      e6, e7⟩ := ((C75_accepts ext hl inp passphrase b kl).1 hr).parts
    rw [e2] at q1; cases q1
    rw [e5] at q5; cases q5
    rw [e7] at q6; cases q6
    have : strOf f.cipher = cipher := by simpa [dget] using q2
    subst this
    rw [hs] at q4; cases q4
    have hn : c1 ++ c2 = nums := List.append_inj_left (by simpa using q8) (by simp [l1, l2, q7])
    subst hn
    have hc : c1 = c2 := by
      by_contra hne
      refine hq .checkNumbers ((hlog _).2 (.inr (.inl ⟨rfl, ?_⟩)))
      rwa [List.take_left' l1, List.drop_left' l1]
    subst hc
    obtain ⟨g1, g2⟩ : GoodPadding block' (c1 ++ c1 ++ keys) pad' := by
      by_contra hne
      exact hq .padding ((hlog _).2 (.inr (.inr (.inl ⟨rfl, hne⟩))))
    obtain ⟨m, hm, rfl⟩ := prefix_countUp.1 g2
    have fault : ∀ p ∈ kl.pairs, ¬ TypesDiffer p ∧ ¬ ValuesDiffer p ∧ (∀ v, ¬ KeyFault ext .pub p.pub v) ∧
        ∀ v, ¬ KeyFault ext .priv p.priv v := by
      intro p hp
      obtain ⟨i, hi⟩ := List.mem_iff_getElem?.1 hp
      have hx : ∀ w, ¬ _ := fun w hx => hq w ((hlog _).2 (.inr (.inr (.inr ⟨i, p, hi, hx⟩))))
      refine ⟨fun h => hx _ (.inl ⟨rfl, h⟩), fun h => hx _ (.inr (.inl ⟨rfl, h⟩)), fun v h => ?_, fun v h => ?_⟩
      · obtain ⟨w, rfl⟩ := keyFault_warn h
        exact hx _ (.inr (.inr (.inl h)))
      · obtain ⟨w, rfl⟩ := keyFault_warn h
        exact hx _ (.inr (.inr (.inr h)))
    have hpub : List.Forall₂ (fun b p => KeyInOrder ext .pub b p.pub []) f.pubs kl.pairs := by
      refine forall₂_mem hp fun b p hp ⟨rest, hr, hcl⟩ => ?_
      obtain ⟨-, -, hf, -⟩ := fault p hp
      have hrest : rest = [] := by
        by_contra hne
        rw [if_neg hne] at hcl
        exact hf _ (.inr ⟨rfl, by rw [hcl]; simp [dget]⟩)
      subst hrest
      exact (keyInOrder_iff hr).2 ⟨hcl, fun v hv => hf v (.inl hv)⟩
    have hpriv : KeysInOrder ext (kl.pairs.map Pair.priv) keys (countUp m) := by
      refine keysInOrder_iff.2 ⟨hk, fun k hk v hv => ?_⟩
      obtain ⟨p, hp, rfl⟩ := List.mem_map.1 hk
      exact (fault p hp).2.2.2 v (.inl hv)
    refine ⟨post, ⟨f, w, c1, keys, o, block', m, rfl, hf, hs, ho, hd, l1, hpub, hpriv, hm, g1, fun p hp => ?_, e1, e2, e3, e4, e5,
      e6, e7⟩⟩
    obtain ⟨b, -, hb⟩ := forall₂_right hpub hp
    obtain ⟨b', r', hb'⟩ := keysIn_mem hk (List.mem_map_of_mem hp)
    exact (pairInOrder_iff (keyInOrder_reads hb) hb').2 ⟨(fault p hp).1, (fault p hp).2.1⟩
  · rintro ⟨post, ⟨f, w, c, keys, o, block, m, rfl, hf, hs, ho, hd, l1, hpub, hpriv, hm, g1, hpairs, e1, e2, e3, e4, e5, e6, e7⟩⟩
    have hr := (C75_accepts ext hl inp passphrase (w ++ post) kl).2 ⟨f, w, post, _, c, c, keys, countUp m, o, block, rfl, hf, hs,
      ho, hd, rfl, l1, l1, hpub.imp fun _ _ h => ⟨[], keyInOrder_reads h, by
        rw [if_pos rfl]; exact ((keyInOrder_iff (keyInOrder_reads h)).1 h).1⟩, (keysInOrder_iff.1 hpriv).1, e1, e2, e3, e4, e5, e6, e7⟩
    refine ⟨hr, fun x hx => ?_⟩
    obtain ⟨header, cipher, kdf, block', tag', plain', pad', nums, ws, q1, q2, q3, q4, q5, q6, q7, q8, -, hlog⟩ :=
      C73_list_warnings ext cr inp _ passphrase kl hr
    rw [e2] at q1; cases q1
    rw [e5] at q5; cases q5
    rw [e7] at q6; cases q6
    have : strOf f.cipher = cipher := by simpa [dget] using q2
    subst this
    rw [hs] at q4; cases q4
    have hn : c ++ c = nums := List.append_inj_left (by simpa using q8) (by simp [l1, q7])
    subst hn
    rcases (hlog _).1 hx with ⟨h, -⟩ | ⟨-, h⟩ | ⟨-, h⟩ | ⟨i, p, hp, h⟩
    · cases h
    · rw [List.take_left' l1, List.drop_left' l1] at h
      exact h rfl
    · exact h ⟨g1, prefix_countUp.2 ⟨m, hm, rfl⟩⟩
    · have hp := List.mem_of_getElem? hp
      obtain ⟨b, -, hb⟩ := forall₂_right hpub hp
      obtain ⟨b', r', hb'⟩ := keysIn_mem (keysInOrder_iff.1 hpriv).1 (List.mem_map_of_mem hp)
      obtain ⟨t1, t2⟩ := (pairInOrder_iff (keyInOrder_reads hb) hb').1 (hpairs p hp)
      obtain ⟨k1, k2⟩ := (keyInOrder_iff (keyInOrder_reads hb)).1 hb
      rcases h with ⟨-, h⟩ | ⟨-, h⟩ | h | h
      · exact t1 h
      · exact t2 h
      · rcases h with h | ⟨-, h⟩
        · exact k2 _ h
        · rw [k1] at h; cases h
      · rcases h with h | ⟨-, h⟩
        · exact (keysInOrder_iff.1 hpriv).2 _ (List.mem_map_of_mem hp) _ h
        · rw [keysIn_clear (keysInOrder_iff.1 hpriv).1 (List.mem_map_of_mem hp)] at h; cases h

theorem strict_log {α : Type} (x : Eff α) : (∀ w, .warn w ∈ x.log → exStrict.raises w = false) ↔ ∀ w, .warn w ∉ x.log :=
  forall_congr' fun _ => ⟨fun h hm => (by cases h hm), fun h hm => absurd hm h⟩

/-- **C99.**  If every warning is raised, exactly the files in order are read, and the result is the list that is in the file; something
may still come after the file. -/
theorem C99_files_partial (ext : Ext) {cr : Crypto} (hl : ∀ {p s n r k}, cr.bcryptKdf p s n r = .ok k → k.length = n)
    (inp : Inputs) (passphrase : Option Str) (b : Bytes) (kl : KeyList) :
    (@Filtered.listFromBytes exStrict ext cr inp b passphrase).res = .ok kl ↔
      ∃ post, FileInOrder ext cr inp passphrase b post kl := by
  rw [(C97_success (F := exStrict) ((C97_lists (F := exStrict) ext cr inp).1 b passphrase) kl).1, strict_log,
    file_quiet ext hl]

/-- **C99** (texts).  If every warning is raised, a text is read exactly if its first line is the begin marker, its last one the end
marker, and the lines between, put together, are base64 text of a file in order (with perhaps something after it). -/
theorem C99_texts_partial (ext : Ext) {cr : Crypto} (hl : ∀ {p s n r k}, cr.bcryptKdf p s n r = .ok k → k.length = n)
    (inp : Inputs) (passphrase : Option Str) (s : Str) (kl : KeyList) :
    (@Filtered.listFromString exStrict ext cr inp s passphrase).res = .ok kl ↔
      ∃ ls b post, LinesOf (beginMarker :: (ls ++ [endMarker])) s ∧ TextReads ls.flatten b ∧
        FileInOrder ext cr inp passphrase b post kl := by
  rw [(C97_success (F := exStrict) ((C97_lists (F := exStrict) ext cr inp).2 s passphrase) kl).1, strict_log,
    C75_texts ext hl]
  have run : ∀ {ls b}, LinesOf (beginMarker :: (ls ++ [endMarker])) s → TextReads ls.flatten b →
      listFromString ext cr inp s passphrase = listFromBytes ext cr inp b passphrase := by
    intro ls b h1 h2
    rw [listFromString_lines ext cr inp s passphrase ls (linesOf_iff.2 h1), textReads_iff.2 h2, Eff.lift_ok_bind]
  constructor
  · rintro ⟨⟨ls, b, h1, h2, h3⟩, hq⟩
    rw [run h1 h2] at hq
    obtain ⟨post, h⟩ := (file_quiet ext hl inp passphrase b kl).1 ⟨(C75_accepts ext hl inp passphrase b kl).2 h3, hq⟩
    exact ⟨ls, b, post, h1, h2, h⟩
  · rintro ⟨ls, b, post, h1, h2, h3⟩
    obtain ⟨h, hq⟩ := (file_quiet ext hl inp passphrase b kl).2 ⟨post, h3⟩
    rw [run h1 h2]
    exact ⟨⟨ls, b, h1, h2, (C75_accepts ext hl inp passphrase b kl).1 h⟩, hq⟩

/-- Reading without a warning is reading with every warning raised. -/
theorem strict_file {ext : Ext} {cr : Crypto} {inp : Inputs} {passphrase : Option Str} {b : Bytes} {kl : KeyList}
    (hr : (listFromBytes ext cr inp b passphrase).res = .ok kl) (hlog : (listFromBytes ext cr inp b passphrase).log = []) :
    (@Filtered.listFromBytes exStrict ext cr inp b passphrase).res = .ok kl :=
  (C97_success (F := exStrict) ((C97_lists (F := exStrict) ext cr inp).1 b passphrase) kl).1.2 ⟨hr, by simp [hlog]⟩

theorem exSshFile_strict (post : Bytes) (hq : (listFromBytes exExt toyCrypto exInputs (exSshFile exSshType 109 101 3 ++ post) none).log = [])
    (hr : (listFromBytes exExt toyCrypto exInputs (exSshFile exSshType 109 101 3 ++ post) none).res.toOption.isSome = true) :
    ∃ kl, (@Filtered.listFromBytes exStrict exExt toyCrypto exInputs (exSshFile exSshType 109 101 3 ++ post) none).res = .ok kl := by
  rcases e : (listFromBytes exExt toyCrypto exInputs (exSshFile exSshType 109 101 3 ++ post) none).res with x | kl
  · rw [e] at hr; cases hr
  · exact ⟨kl, strict_file e hq⟩

/-- Non-vacuous: a file with an Ed25519 key is in order. -/
example : ∃ post kl, FileInOrder exExt toyCrypto exInputs none (exSshFile exSshType 109 101 3) post kl := by
  obtain ⟨kl, h⟩ := exSshFile_strict [] (by decide +kernel) (by decide +kernel)
  rw [List.append_nil] at h
  obtain ⟨post, h⟩ := (C99_files_partial exExt toyCrypto_laws.kdf_length exInputs none _ kl).1 h
  exact ⟨post, kl, h⟩

/-- The one with short keys is not. -/
example : ¬ ∃ post kl, FileInOrder exExt toyCrypto exInputs none exFile post kl := by
  rintro ⟨post, kl, h⟩
  have h1 := (C99_files_partial exExt toyCrypto_laws.kdf_length exInputs none exFile kl).2 ⟨post, h⟩
  rw [((@C97_lists exStrict exExt toyCrypto exInputs).1 _ _).first [] .ed25519PublicLength _ exFile_log rfl (by simp)] at h1
  cases h1

/-- **C99** with nothing after the file is false: bytes after the file are ignored, and no warning is raised. -/
theorem C99_false : ¬ ∀ (ext : Ext) (cr : Crypto) (inp : Inputs) (passphrase : Option Str) (b : Bytes) (kl : KeyList),
    CryptoLaws cr → (@Filtered.listFromBytes exStrict ext cr inp b passphrase).res = .ok kl →
      FileInOrder ext cr inp passphrase b [] kl := by
  intro h
  obtain ⟨kl, hk⟩ := exSshFile_strict [1] (by decide +kernel) (by decide +kernel)
  obtain ⟨kl', hk'⟩ := exSshFile_strict [] (by decide +kernel) (by decide +kernel)
  rw [List.append_nil] at hk'
  obtain ⟨f, w, c, keys, o, block, pad, e, hf, hs, -⟩ := (h exExt toyCrypto exInputs none _ kl toyCrypto_laws hk).parts
  obtain ⟨f', w', c', keys', o', block', pad', e', hf', hs', -⟩ :=
    (h exExt toyCrypto exInputs none _ kl' toyCrypto_laws hk').parts
  rw [List.append_nil] at e e'
  subst e e'
  obtain ⟨-, -, hx⟩ := lays_unique (r := [1]) (r' := []) hf' hf (fun hc => by
    rw [hc, hs] at hs'
    simp at hs'
    omega) (by simp)
  cases hx

end OSK
