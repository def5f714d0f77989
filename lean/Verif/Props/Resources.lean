import Mathlib.Algebra.Order.BigOperators.Group.Finset
import Mathlib.Algebra.BigOperators.Intervals
import Verif.Lemmas.ResourcesText
import Verif.Lemmas.ResourcesWork
import Verif.Props.Cli
import Verif.Props.Depth
import Verif.Props.ListWarnings
import Verif.Props.StdCrypto
import Verif.Props.Text
/-
Property C110: what parsing produces and looks at is bounded by the size of the input; the number of rounds
of the key derivation is not.
-/
namespace OSK
open Spec

/-! ### C110: sizes -/

/-- **C110** (sizes): all that a parsed key holds is not larger than the bytes it was parsed from. -/
theorem C110_key (ext : Ext) (kind : Kind) (b : Bytes) (k : Key) (h : (fromBytes ext kind b none).res = .ok k) :
    keySize k ≤ b.length :=
  (fromBytes_least h).1

/-- **C110** (sizes): the same for a line of text. -/
theorem C110_line (ext : Ext) (kind : Kind) (s : Str) (k : Key) (h : (fromString ext kind s).res = .ok k) :
    keySize k ≤ s.length :=
  fromString_size h

/-- **C110** (sizes): all keys of a private key file together are not larger than the file, which has at least
50 bytes for each pair: the number of keys that the file announces does not matter. -/
theorem C110_list {cr : Crypto} (hd : DecryptLengths cr) (ext : Ext) (inp : Inputs) (passphrase : Option Str) (b : Bytes)
    (kl : KeyList) (h : (listFromBytes ext cr inp b passphrase).res = .ok kl) :
    pairsSize kl.pairs ≤ b.length ∧ 50 * kl.pairs.length ≤ b.length :=
  listFromBytes_size hd h

/-- **C110** (sizes): the same for the text form. -/
theorem C110_list_text {cr : Crypto} (hd : DecryptLengths cr) (ext : Ext) (inp : Inputs) (passphrase : Option Str) (s : Str)
    (kl : KeyList) (h : (listFromString ext cr inp s passphrase).res = .ok kl) :
    pairsSize kl.pairs ≤ s.length ∧ 50 * kl.pairs.length ≤ s.length :=
  listFromString_size hd h

/-- **C110** (sizes): the public keys that the command line finds in a text are together not larger than it. -/
theorem C110_lines (ext : Ext) (s : Str) (ks : List Key) (h : (cliLines ext 0 (splitLines s)).res = .ok ks) :
    (ks.map keySize).sum ≤ s.length :=
  ((cliLines_log_le ext (splitLines s) 0).2 ks h).trans (splitLines_sum s)

/-- The laws about lengths hold for the standard algorithms. -/
example : DecryptLengths Std.crypto := C104_lengths

/-- A line with its size and the size of its key; a file with two keys; a text with one key among its lines. -/
example : (fromString exExt .pub exRsaLine).res.toOption.map keySize = some 24 ∧ exRsaLine.length = 48 := by decide +kernel
example : (listFromBytes exExt toyCrypto exInputs exFile none).res.toOption.map (fun kl => (kl.pairs.length, pairsSize kl.pairs)) =
    some (2, 55) ∧ exFile.length = 209 := by decide +kernel
example : (cliLines exExt 0 (splitLines exPublicFile)).res.toOption.map (fun ks => ks.map keySize) = some [23] ∧
    exPublicFile.length = 71 := by decide +kernel

/-! ### C110: warnings -/

/-- **C110** (warnings): parsing emits at most one warning for each byte, whether it succeeds or not. -/
theorem C110_warnings (ext : Ext) (kind : Kind) (b : Bytes) (clear : Option VDict) :
    (fromBytes ext kind b clear).log.length ≤ b.length :=
  fromBytes_log_le ext kind b clear

/-- **C110** (warnings): the same for text, for private key files and for the command line. -/
theorem C110_warnings_all {cr : Crypto} (hd : DecryptLengths cr) (ext : Ext) (inp : Inputs) (passphrase : Option Str) :
    (∀ kind s, (fromString ext kind s).log.length ≤ s.length) ∧
    (∀ b, (listFromBytes ext cr inp b passphrase).log.length ≤ b.length) ∧
    (∀ s, (listFromString ext cr inp s passphrase).log.length ≤ s.length) ∧
    ∀ s, (cliParse ext cr inp s passphrase).log.length ≤ s.length :=
  ⟨fun kind s => (fromString_log_le ext kind s).1, fun b => listFromBytes_log_le hd inp b passphrase,
    fun s => listFromString_log_le hd inp s passphrase, fun s => cliParse_log_le hd inp s passphrase⟩

/-- Warnings there are. -/
example : (fromString exExt .pub exMismatchLine).log.length = 1 ∧
    (listFromBytes exExt toyCrypto exInputs exFile none).log.length = 5 := by decide +kernel

/-! ### C110: nested keys -/

/-- **C110** (work): the meter changes nothing. -/
theorem C110_meter (ext : Ext) (b : Bytes) : unmetered (metered ext b) = fromBytes ext .pub b none := by
  rw [← caFromBytes_eq]
  exact metered_erases ext _ b

theorem work_bound (ext : Ext) (n : Nat) : ∀ b : Bytes,
    200 * (meteredFuel ext n b).log.count .prompt ≤ (b.length + 50) ^ 2 := by
  induction n with
  | zero => intro b; simp [meteredFuel]
  | succ n ih =>
    intro b
    rcases metered_step ext n b with ⟨-, h⟩ | ⟨x, -, hx, h⟩
    · rw [h]
      zify
      nlinarith [sq_nonneg ((b.length : ℤ) - 50)]
    · rw [h]
      obtain ⟨d, hd⟩ := Nat.exists_eq_add_of_le hx
      have := ih x
      rw [hd]
      nlinarith

/-- **C110** (work): the bytes that the parsing functions are given, counting a nested authority again at each level,
are at most quadratic in the size. -/
theorem C110_work (ext : Ext) (b : Bytes) : 200 * workOf ext b ≤ (b.length + 50) ^ 2 :=
  work_bound ext _ b

theorem levels_bound (ext : Ext) (n : Nat) : ∀ b : Bytes,
    (meteredFuel ext n b).log.count .prompt ≤ ∑ i ∈ Finset.range n, (b.length - 100 * i) := by
  induction n with
  | zero => intro b; simp [meteredFuel]
  | succ n ih =>
    intro b
    rw [Finset.sum_range_succ', Nat.add_comm (∑ _ ∈ _, _)]
    rcases metered_step ext n b with ⟨-, h⟩ | ⟨x, -, hx, h⟩
    · rw [h]
      exact Nat.le_add_right _ _
    · rw [h]
      refine Nat.add_le_add_left ((ih x).trans (Finset.sum_le_sum fun i _ => ?_)) _
      omega

/-- **C110** (work): more exactly, there is at most one key in each key, and it is 100 bytes shorter. -/
theorem C110_levels (ext : Ext) (b : Bytes) :
    workOf ext b ≤ ∑ i ∈ Finset.range (b.length + 1), (b.length - 100 * i) :=
  levels_bound ext _ b

theorem work_nest (ext : Ext) (k : Nat) : ∀ n, 100 * n < 2 ^ 32 →
    (meteredFuel ext k (nest n)).log.count .prompt = ∑ i ∈ Finset.range k, ((nest n).length - 100 * i) := by
  induction k with
  | zero => intro n _; simp [meteredFuel]
  | succ k ih =>
    rintro (_ | n) h
    · have := levels_bound ext (k + 1) (nest 0)
      have e : ∑ i ∈ Finset.range (k + 1), ((nest 0).length - 100 * i) = 0 :=
        Finset.sum_eq_zero fun i _ => by rw [nest_length]; omega
      omega
    have ho := nest_opens (n := n) (by omega)
    rcases metered_step ext k (nest (n + 1)) with ⟨hno, -⟩ | ⟨x, hx, -, he⟩
    · exact absurd ho (hno _)
    · obtain rfl : nest n = x := by
        have := (opens_fun (nest_read (by omega)) hx).1
        exact Val.bytes.inj (Option.some.inj this)
      rw [he, ih n (by omega), Finset.sum_range_succ', Nat.add_comm (∑ _ ∈ _, _)]
      congr 1
      refine Finset.sum_congr rfl fun i _ => ?_
      rw [nest_length, nest_length]
      omega

/-- **C110** (work): the bound is reached, by certificates of 100 bytes a level (`nest_parses`: they are accepted). -/
theorem C110_work_reached (ext : Ext) (n : Nat) (h : 100 * n < 2 ^ 32) : (nest n).length = 100 * n ∧
    workOf ext (nest n) = ∑ i ∈ Finset.range ((nest n).length + 1), ((nest n).length - 100 * i) :=
  ⟨nest_length n, work_nest ext _ n h⟩

/-- Three levels of certificates: 300 bytes, of which 600 are looked at. -/
example (ext : Ext) : workOf ext (nest 3) = 600 ∧ ∃ k, (fromBytes ext .pub (nest 3) none).res = .ok k := by
  refine ⟨?_, nest_parses ext (by norm_num) (by norm_num)⟩
  rw [(C110_work_reached ext 3 (by norm_num)).2, nest_length]
  decide +kernel

/-! ### C110: key derivation -/

/-- **C110** (key derivation): whatever is in a file, parsing it depends on the result of one key derivation at most, of
at most 64 bytes, with a salt not longer than the file and less than `2^32` rounds. -/
theorem C110_one_derivation_partial (ext : Ext) (inp : Inputs) (b : Bytes) (passphrase : Option Str) :
    ∃ password salt length rounds, length ≤ 64 ∧ salt.length ≤ b.length ∧ 0 ≤ rounds ∧ rounds < 2 ^ 32 ∧
      ∀ cr cr', SameBut password salt length rounds cr cr' →
        listFromBytes ext cr inp b passphrase = listFromBytes ext cr' inp b passphrase :=
  list_derivation ext inp b passphrase

/-- A file without keys that asks for this many rounds. -/
def slowFile (rounds : Nat) : Bytes :=
  pb! "openssh-key-v1" ++ [0] ++ ([0, 0, 0, 10] ++ pb! "aes256-ctr") ++ ([0, 0, 0, 6] ++ pb! "bcrypt") ++
    ([0, 0, 0, 24] ++ ([0, 0, 0, 16] ++ List.replicate 16 7 ++ natToBE 4 rounds)) ++ [0, 0, 0, 0] ++ [] ++
    ([0, 0, 0, 16] ++ ([0, 0, 0, 0, 0, 0, 0, 0, 1, 2, 3, 4, 5, 6, 7, 8] : Bytes)) ++ []

theorem slowFile_length (rounds : Nat) : (slowFile rounds).length = 91 := by
  unfold slowFile
  simp only [List.length_append, natToBE_length, List.length_replicate]
  decide +kernel

/-- What parsing `slowFile` does. -/
theorem slowFile_parse (ext : Ext) (cr : Crypto) (inp : Inputs) {rounds : Nat} (h : rounds < 2 ^ 32) (pass : List Char) :
    (∀ e, cr.bcryptKdf (utf8 pass) (List.replicate 16 7) 48 rounds = .error e →
      ∃ e', (listFromBytes ext cr inp (slowFile rounds) (some (strOf pass))).res = .error e') ∧
    ∀ key, cr.bcryptKdf (utf8 pass) (List.replicate 16 7) 48 rounds = .ok key →
      (∀ k iv, cr.symDec .aes .ctr k iv [0, 0, 0, 0, 0, 0, 0, 0, 1, 2, 3, 4, 5, 6, 7, 8] =
        .ok [0, 0, 0, 0, 0, 0, 0, 0, 1, 2, 3, 4, 5, 6, 7, 8]) →
      ∃ kl, (listFromBytes ext cr inp (slowFile rounds) (some (strOf pass))).res = .ok kl := by
  have d1 : digitSum [0, 0, 0, 10] = (utf8 "aes256-ctr".toList).length := by decide +kernel
  have d2 : digitSum [0, 0, 0, 6] = (utf8 "bcrypt".toList).length := by decide +kernel
  have d3 : digitSum [0, 0, 0, 0] = ([] : List Bytes).length := by decide +kernel
  have d4 : digitSum [0, 0, 0, 16] = ([0, 0, 0, 0, 0, 0, 0, 0, 1, 2, 3, 4, 5, 6, 7, 8] : Bytes).length := by decide +kernel
  have d5 : getKdfClass (.str (strOf "bcrypt".toList)) = .ok .bcrypt := by decide +kernel
  have d6 : getCipherClass (.str (strOf "aes256-ctr".toList)) = .ok .aes256Ctr := by decide +kernel
  have d7 : utf8 "aes256-ctr".toList = pb! "aes256-ctr" := by decide +kernel
  have d8 : utf8 "bcrypt".toList = pb! "bcrypt" := by decide +kernel
  let f : KeyFile := ⟨"aes256-ctr".toList, "bcrypt".toList, [0, 0, 0, 16] ++ List.replicate 16 7 ++ natToBE 4 rounds, [],
    [0, 0, 0, 0, 0, 0, 0, 0, 1, 2, 3, 4, 5, 6, 7, 8], []⟩
  have hol : f.options.length = 24 := by
    simp only [f, List.length_append, natToBE_length, List.length_replicate]
    rfl
  have hl : f.Lays (slowFile rounds) := by
    refine ⟨_, _, ⟨_, _, _, _, _, ⟨[0, 0, 0, 10], rfl, d1, rfl⟩, ⟨[0, 0, 0, 6], rfl, d2, rfl⟩,
      ⟨[0, 0, 0, 24], rfl, by rw [hol]; decide +kernel, rfl⟩, (rfl : ([0, 0, 0, 0] : Bytes).length = 4), d3, by show 0 < 2 ^ 31; norm_num, rfl, rfl⟩,
      ⟨[0, 0, 0, 16], rfl, d4, rfl⟩, ?_⟩
    show _ = magic ++ ([0, 0, 0, 10] ++ utf8 "aes256-ctr".toList) ++ ([0, 0, 0, 6] ++ utf8 "bcrypt".toList) ++ _ ++ _ ++ _ ++ _ ++ _
    rw [d7, d8]
    rfl
  have e0 := listFromBytesBody_eq ext cr inp (some (strOf pass)) hl (kc := .bcrypt) (cc := .aes256Ctr) d5 d6 rfl []
  rw [List.append_nil] at e0
  have hopt : prs (readDict (kdfFmt .bcrypt)) f.options =
      (.ok (bcryptOptions (List.replicate 16 7) rounds).data, f.options.length) := by
    have := (readDict_ok_iff (fmt := kdfFmt .bcrypt) (by decide)).2 ⟨f.options, [], bcrypt_fields.2 ⟨List.replicate 16 7, rounds,
      ⟨[0, 0, 0, 16] ++ List.replicate 16 7, natToBE 4 rounds, ⟨[0, 0, 0, 16], rfl, by decide +kernel, rfl⟩, by simp,
        by rw [digitSum_eq, beNat_natToBE_of_lt (by omega)], rfl⟩, rfl⟩, (List.append_nil _).symm, rfl⟩
    exact this
  have e1 : onStream (readDict (kdfFmt .bcrypt)) (Stream.of f.options) =
      pure ((bcryptOptions (List.replicate 16 7) rounds).data, ⟨f.options, f.options.length⟩) := by
    rw [onStream_ok (Reader.readDict _) (by rw [Stream.rest_of]; exact hopt)]
    simp [Stream.of]
  have e2 : listFromBytesBody ext cr inp (slowFile rounds) (some (strOf pass)) = (do
      let plain ← Eff.lift (decrypt cr .aes256Ctr (bcryptOptions (List.replicate 16 7) rounds) (strOf pass) (f.body ++ f.tag))
      let (pairs, dh, padding) ← readPrivateSection ext .aes256Ctr [] plain
      pure ⟨pairs, some (slowFile rounds), some (fileHeader f), some (f.body ++ f.tag),
        some (bcryptOptions (List.replicate 16 7) rounds), some plain, some dh, some padding⟩) := by
    rw [e0]
    unfold parseFields
    have hp : parsePubs ext f.pubs = pure [] := rfl
    have hk : newKdf .bcrypt (bcryptOptions (List.replicate 16 7) rounds).data =
        pure (bcryptOptions (List.replicate 16 7) rounds) := newKdf_read hopt
    have hch : choosePassphrase inp (decide (KdfCls.bcrypt = .none)) (some (strOf pass)) = pure (strOf pass) := rfl
    rw [hp, Eff.pure_bind, e1, Eff.pure_bind]
    dsimp only
    rw [hk, Eff.pure_bind, hch, Eff.pure_bind, hk, Eff.pure_bind]
  have g1 : getItem (bcryptOptions (List.replicate 16 7) rounds).data (py! "salt") = .ok (.bytes (List.replicate 16 7)) := rfl
  have g2 : getItem (bcryptOptions (List.replicate 16 7) rounds).data (py! "rounds") = .ok (.int rounds) := rfl
  have hdk : deriveKey cr (bcryptOptions (List.replicate 16 7) rounds) (strOf pass) 48 =
      cr.bcryptKdf (utf8 pass) (List.replicate 16 7) 48 rounds := by
    have e : bcryptOptions (List.replicate 16 7) rounds = ⟨.bcrypt, (bcryptOptions (List.replicate 16 7) rounds).data⟩ := rfl
    rw [e]
    simp only [deriveKey, strEncode_strOf, g1, g2, bind, Except.bind]
  have hdec : decrypt cr .aes256Ctr (bcryptOptions (List.replicate 16 7) rounds) (strOf pass) (f.body ++ f.tag) = (do
      let r ← cr.bcryptKdf (utf8 pass) (List.replicate 16 7) 48 rounds
      cr.symDec .aes .ctr (splitKeyIv .aes256Ctr r).1 (splitKeyIv .aes256Ctr r).2
        [0, 0, 0, 0, 0, 0, 0, 0, 1, 2, 3, 4, 5, 6, 7, 8]) := by
    rw [← hdk]
    rfl
  unfold listFromBytes
  rw [e2, hdec]
  constructor
  · intro e he
    rw [he]
    exact ⟨_, rfl⟩
  · intro key hk hs
    rw [hk]
    have hr : ∀ ext, (readPrivateSection ext .aes256Ctr [] [0, 0, 0, 0, 0, 0, 0, 0, 1, 2, 3, 4, 5, 6, 7, 8]).res =
        .ok ([], [(py! "check_int_1", .int 0), (py! "check_int_2", .int 0)], [1, 2, 3, 4, 5, 6, 7, 8]) := by
      intro ext
      unfold readPrivateSection
      rfl
    have : (do
      let r ← (Except.ok key : Except Exn Bytes)
      cr.symDec .aes .ctr (splitKeyIv .aes256Ctr r).1 (splitKeyIv .aes256Ctr r).2
        [0, 0, 0, 0, 0, 0, 0, 0, 1, 2, 3, 4, 5, 6, 7, 8]) = .ok [0, 0, 0, 0, 0, 0, 0, 0, 1, 2, 3, 4, 5, 6, 7, 8] := hs _ _
    rw [this]
    obtain ⟨kl, hkl⟩ : ∃ kl, (do
        let plain ← Eff.lift (Except.ok [0, 0, 0, 0, 0, 0, 0, 0, 1, 2, 3, 4, 5, 6, 7, 8])
        let (pairs, dh, padding) ← readPrivateSection ext .aes256Ctr [] plain
        pure (⟨pairs, some (slowFile rounds), some (fileHeader f), some (f.body ++ f.tag),
          some (bcryptOptions (List.replicate 16 7) rounds), some plain, some dh, some padding⟩ : KeyList) : Eff KeyList).res = .ok kl := by
      rw [Eff.lift_ok_bind, Eff.bind_ok (hr ext)]
      exact ⟨_, rfl⟩
    rw [Eff.tryCatch_res, hkl]
    exact ⟨kl, rfl⟩

/-- **C110 fails** for the time that parsing takes: the number of rounds is taken from the file, so files of 91 bytes can
ask for any number.  Two libraries that differ only in key derivations with that number of rounds give different
outcomes, whatever the passphrase. -/
theorem C110_false (ext : Ext) (inp : Inputs) (pass : List Char) (rounds : Nat) (h : rounds < 2 ^ 32) :
    ∃ b cr cr', b.length = 91 ∧
      (∀ password salt length (r : Int), r ≠ rounds → SameBut password salt length r cr cr') ∧
      (listFromBytes ext cr inp b (some (strOf pass))).res ≠ (listFromBytes ext cr' inp b (some (strOf pass))).res := by
  let cr : Crypto := ⟨fun _ _ n _ => .ok (List.replicate n 0), fun _ _ _ _ x => .ok x, fun _ _ _ _ x => .ok x,
    fun _ _ x => .ok x, fun _ _ x => .ok x, fun _ _ => .ok (fun _ => 0), fun _ _ => []⟩
  let cr' : Crypto := { cr with bcryptKdf := fun _ _ n r => if r = rounds then .error .systemError else .ok (List.replicate n 0) }
  refine ⟨slowFile rounds, cr, cr', slowFile_length rounds, ?_, ?_⟩
  · intro password salt length r hr
    exact ⟨rfl, rfl, rfl, rfl, (if_neg hr).symm⟩
  · obtain ⟨kl, h1⟩ := (slowFile_parse ext cr inp h pass).2 _ rfl (fun _ _ => rfl)
    obtain ⟨e, h2⟩ := (slowFile_parse ext cr' inp h pass).1 _ (if_pos rfl)
    rw [h1, h2]
    exact nofun

/-- With the largest number. -/
example (pass : List Char) := C110_false exExt exInputs pass (2 ^ 32 - 1) (by norm_num)

end OSK
