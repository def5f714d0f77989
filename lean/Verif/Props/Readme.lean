import Verif.Lemmas.ReadmeMain
import Verif.Lemmas.ReadmePairs
import Verif.Model.Args
import Verif.Props.Change
import Verif.Props.Json
/-
C111: the first example of the README.
-/
namespace OSK
open Spec

theorem program_runs {digit : Nat → Bool} {files : Str → Except Exn Bytes} {ext : Ext} {cr : Crypto} {inp : Inputs} {n : Nat}
    {args : List Str} {f : Str} {p : Option Str} {b : Bytes} (ha : parseArgs digit args = .ok (f, p)) (hf : files f = .ok b) :
    cliProgram digit files ext cr inp n args = .ok (cliMain ext cr inp n b p) := by
  unfold cliProgram
  rw [ha]
  simp only [bind, Except.bind, hf]
  rfl

theorem main_public (ext : Ext) (cr : Crypto) (inp : Inputs) :
    cliMain ext cr inp 4300 readmePublicFile none = ⟨[], .ok readmePublicOutput⟩ := by
  kernel_rfl

/-- **C111** (private key file, partial).  Full claim: `python -m openssh_key test_id_ed25519 --passphrase secret_passphrase` prints
what the README shows.  It does not (`C111_false`): the README shows the key derivation options without the object they are in.
Proved: it prints all the rest, without a warning or a prompt, and the options as the `data` of that object. -/
theorem C111_private_partial (digit : Nat → Bool) (files : Str → Except Exn Bytes) (ext : Ext) {cr : Crypto} (h : Deciphers cr)
    (inp : Inputs) (hf : files (py! "test_id_ed25519") = .ok readmeFile) :
    cliProgram digit files ext cr inp 4300 [py! "test_id_ed25519", py! "--passphrase", py! "secret_passphrase"] =
      .ok ⟨[], .ok (readmeBefore ++ printedOptions ++ readmeAfter)⟩ := by
  have ha : parseArgs digit [py! "test_id_ed25519", py! "--passphrase", py! "secret_passphrase"] =
      .ok (py! "test_id_ed25519", some (py! "secret_passphrase")) := by kernel_rfl
  rw [program_runs ha hf, main_private ext h inp]

/-- **C111** (public key file).  `python -m openssh_key test_id_ed25519.pub` prints what the README shows, without a warning. -/
theorem C111_public (digit : Nat → Bool) (files : Str → Except Exn Bytes) (ext : Ext) (cr : Crypto) (inp : Inputs)
    (hf : files (py! "test_id_ed25519.pub") = .ok readmePublicFile) :
    cliProgram digit files ext cr inp 4300 [py! "test_id_ed25519.pub"] = .ok ⟨[], .ok readmePublicOutput⟩ := by
  have ha : parseArgs digit [py! "test_id_ed25519.pub"] = .ok (py! "test_id_ed25519.pub", none) := by kernel_rfl
  rw [program_runs ha hf, main_public ext cr inp]

/-- The program does not print what the README shows. -/
theorem C111_false (digit : Nat → Bool) (files : Str → Except Exn Bytes) (ext : Ext) {cr : Crypto} (h : Deciphers cr)
    (inp : Inputs) (hf : files (py! "test_id_ed25519") = .ok readmeFile) :
    cliProgram digit files ext cr inp 4300 [py! "test_id_ed25519", py! "--passphrase", py! "secret_passphrase"] ≠
      .ok ⟨[], .ok readmeOutput⟩ := by
  rw [C111_private_partial digit files ext h inp hf]
  have : readmeBefore ++ printedOptions ++ readmeAfter ≠ readmeOutput := by decide +kernel
  intro e
  exact this (by simpa using e)

theorem eff_map_ok {α β : Type} {f : α → β} {x : Eff α} {y : β} (h : f <$> x = ⟨[], .ok y⟩) : ∃ a, x = ⟨[], .ok a⟩ ∧ f a = y := by
  obtain ⟨l, r⟩ := x
  cases r with
  | error e =>
    have : Except.error e = (Except.ok y : Except Exn β) := congrArg Eff.res h
    cases this
  | ok a =>
    have h1 : l ++ [] = [] := congrArg Eff.log h
    have h2 : Except.ok (f a) = (Except.ok y : Except Exn β) := congrArg Eff.res h
    rw [List.append_nil] at h1
    exact ⟨a, by rw [h1], by simpa using h2⟩

/-- **C111** (manipulating the file).  The list that is read has the one pair, with the comment `my_comment`.  When the comment is
replaced and the list is written with the new passphrase, the text is read with that passphrase as the same pair with the new
comment.  The public key that is written has no comment, as the comment is with the private key only. -/
theorem C111_modified (ext : Ext) {cr : Crypto} (hl : CryptoLaws cr) (h : Deciphers cr) (inp inp1 inp2 : Inputs) :
    ∃ kl, listFromString ext cr inp (readmeFile.map UInt8.toNat) (some (py! "secret_passphrase")) = ⟨[], .ok kl⟩ ∧
      kl.pairs = [readmePair] ∧
      packPublicString ext readmePair.pub true true =
        .ok (py! "ssh-ed25519 AAAAC3NzaC1lZDI1NTE5AAAAINCWf80CS47+KcHRcAC9z+P26JHJhPWerEzgnC8yaThS\n") ∧
      ∀ s, (packListString cr inp1 (withComments kl ["new_comment".toList]) (some (py! "new_secret_passphrase")) none false false).res =
          .ok s →
        ∃ kl2, (listFromString ext cr inp2 s (some (py! "new_secret_passphrase"))).res = .ok kl2 ∧
          kl2.pairs = [{ readmePair with priv := { readmePair.priv with footer := [(py! "comment", .str (py! "new_comment"))] } }] := by
  obtain ⟨kl, h1, h2⟩ := eff_map_ok (readme_pairs ext h inp)
  refine ⟨kl, h1, h2, by kernel_rfl, ?_⟩
  intro s hs
  have hr := congrArg Eff.res h1
  obtain ⟨ls, b, -, -, hb⟩ := (C75_texts ext hl.kdf_length inp _ _ kl).1 hr
  have hb := (C75_accepts ext hl.kdf_length inp _ b kl).2 hb
  obtain ⟨w, hw, e, -⟩ := C36_round_trip ext cr inp1 inp2 (withComments kl ["new_comment".toList]) _
    (some (py! "new_secret_passphrase")) none false false s hs
  obtain ⟨kl2, g1, g2, -⟩ := C108_reads (ext := ext) hl inp inp1 inp2 _ _ (some (py! "new_secret_passphrase")) b w kl _ false hb
    (fun p hp => .inl (by rcases hp with hp | ⟨hp, -⟩; exacts [hp, by cases hp])) hw
  refine ⟨kl2, by rw [e]; exact g1, ?_⟩
  rw [g2, h2]
  decide +kernel

/-- The standard algorithms, and a key derivation function that is known for the example only. -/
def readmeCrypto : Crypto :=
  { Std.crypto with bcryptKdf := fun p s n r =>
      if p = pb! "secret_passphrase" ∧ s = readmeSalt ∧ n = 48 ∧ r = 16 then .ok readmeKey else Std.crypto.bcryptKdf p s n r }

theorem laws_kdf {cr : Crypto} (hl : CryptoLaws cr) (f : Bytes → Bytes → Nat → Int → Except Exn Bytes)
    (hf : ∀ {p s n r k}, f p s n r = .ok k → k.length = n) : CryptoLaws { cr with bcryptKdf := f } :=
  ⟨hl.sym_inv, hl.sym_length, hl.gcm_inv, hl.gcm_length, hl.poly_length, hf, hl.sym_empty, hl.gcm_empty, hl.chacha_empty⟩

/-- The hypotheses hold. -/
example : Deciphers readmeCrypto ∧ CryptoLaws readmeCrypto := by
  refine ⟨⟨by kernel_rfl, fun _ _ _ => by kernel_rfl⟩, laws_kdf C104_laws _ ?_⟩
  intro p s n r k h
  split at h
  · rename_i hh
    obtain ⟨-, -, rfl, -⟩ := hh
    simp only [Except.ok.injEq] at h
    rw [← h]
    decide
  · exact C104_laws.kdf_length h

end OSK
