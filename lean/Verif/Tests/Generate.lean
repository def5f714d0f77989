import Verif.Props.Generate
/-
The tests with keyword arguments in tests/test_kdf.py and tests/test_private_key_list.py, on the model, for every
source of random values.
-/
namespace OSK
open Spec

/-- test_kdf.py:44-54 -/
theorem C115_kdf_bcrypt_generate_options_salt_length (tok : Val → Except Exn Bytes) (salt : Bytes) (h : tok (.int 32) = .ok salt) :
    generateKdfWith tok [(py! "salt_length", .int 32)] .bcrypt =
      ⟨[], .ok ⟨.bcrypt, [(py! "salt", .bytes salt), (py! "rounds", .int 16)]⟩⟩ := by
  have e : kwarg [(py! "salt_length", .int 32)] (py! "salt_length") (.int bcryptSaltLength) = .int 32 := by decide +kernel
  unfold generateKdfWith
  rw [e, h]
  rfl

/-- test_kdf.py:57-67 -/
theorem C115_kdf_bcrypt_generate_options_rounds (tok : Val → Except Exn Bytes) (salt : Bytes) (h : tok (.int 16) = .ok salt) :
    generateKdfWith tok [(py! "rounds", .int 32)] .bcrypt =
      ⟨[], .ok ⟨.bcrypt, [(py! "salt", .bytes salt), (py! "rounds", .int 32)]⟩⟩ := by
  have e : kwarg [(py! "rounds", .int 32)] (py! "salt_length") (.int bcryptSaltLength) = .int 16 := by decide +kernel
  unfold generateKdfWith
  rw [e, h]
  rfl

/-- test_private_key_list.py:42-51: the generator is asked for 2048 bits, and its numbers are the key's.  (C60: the library's key
object has the same numbers.) -/
theorem C115_list_public_private_key_pair_generate_kwargs (ext : Ext) (lib : Lib) (gen : Gen) (hl : GenLaws ext lib gen)
    (k : RsaNumbers) (h : gen.rsa (.int 65537) (.int 2048) = .ok k) :
    ∃ p, generate ext lib gen (py! "ssh-rsa") [] [(py! "key_size", .int 2048)] = ⟨[], .ok p⟩ ∧ p.priv.params.cls = .rsaPriv ∧
      dget p.priv.params.data (py! "n") = some (.int k.n) ∧ dget p.priv.params.data (py! "e") = some (.int k.e) ∧
      dget p.priv.params.data (py! "d") = some (.int k.d) := by
  have ha : asked gen [(py! "key_size", .int 2048)] .rsa = .ok (.rsaPrivate k.p k.q k.d k.dmp1 k.dmq1 k.iqmp k.e k.n) := by
    have e1 : (dget [(py! "key_size", Val.int 2048)] (py! "e")).getD (Val.int 65537) = Val.int 65537 := by decide +kernel
    have e2 : (dget [(py! "key_size", Val.int 2048)] (py! "key_size")).getD (Val.int 4096) = Val.int 2048 := by decide +kernel
    unfold asked
    dsimp only
    rw [e1, e2, h]
  have hg := C65_generate ext lib gen hl .rsa [] [(py! "key_size", .int 2048)]
  rw [ha] at hg
  obtain ⟨v, cpub, cpriv, hv, -, hc, hg⟩ := hg
  have hc' : cpriv = .rsaPriv := by
    have : getPrivateClass (.str PlainType.rsa.name) = .ok .rsaPriv := by decide +kernel
    rw [this] at hc
    exact (Except.ok.inj hc).symm
  cases hv
  subst hc'
  exact ⟨_, hg, rfl, rfl, rfl, rfl⟩

end OSK
