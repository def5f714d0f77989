import Verif.Lemmas.ReadmeDecrypt
import Verif.Lemmas.KernelRfl
import Verif.Model.Json
/-
What is printed for the private key file of the README.
-/
namespace OSK
open Spec

theorem main_private (ext : Ext) {cr : Crypto} (h : Deciphers cr) (inp : Inputs) :
    cliMain ext cr inp 4300 readmeFile (some (py! "secret_passphrase")) =
      ⟨[], .ok (readmeBefore ++ printedOptions ++ readmeAfter)⟩ := by
  rw [deciphers_eq h]
  kernel_rfl

end OSK
