import Verif.Tests.Pack
/-
The tests of `pack_string` in tests/test_private_key_list.py, on the model.
-/
namespace OSK
open Spec

/-- test_private_key_list.py:1905-1946 -/
theorem C115_list_pack_string_one_key_none :
    packStringTest testCrypto { list := listFromList [tPair0] (py! "none") (py! "none") (some ⟨.none, []⟩) } 0 (py! "none") (py! "none") [tPair0] [] := by
  decide +kernel

/-- test_private_key_list.py:2005-2050 -/
theorem C115_list_pack_string_one_key_bcrypt_aes256_ctr :
    packGenerated testCrypto { list := listFromList [tPair0] (py! "aes256-ctr") (py! "bcrypt") (some ⟨.bcrypt, tBcrypt⟩) } 1 1 (py! "aes256-ctr") (py! "bcrypt") [tPair0] true := by
  decide +kernel

/-- test_private_key_list.py:2053-2094 -/
theorem C115_list_pack_string_two_keys_include_indices :
    packStringTest testCrypto { list := listFromList [tPair0] (py! "none") (py! "none") (some ⟨.none, []⟩) } 0 (py! "none") (py! "none") [tPair0] [] := by
  decide +kernel

/-- test_private_key_list.py:2097-2131 -/
theorem C115_list_pack_string_two_keys_invalid_include_indices :
    raises (packListString testCrypto tInputs (listFromList [tPair0] (py! "none") (py! "none") (some ⟨.none, []⟩)) none (some [2]) false false).res isIndexError := by
  decide +kernel

/-- test_private_key_list.py:2134-2190 -/
theorem C115_list_pack_string_override_public_with_private :
    packStringTest testCrypto { list := listFromList [⟨tRsaPublicKey, tPrivateKey⟩] (py! "none") (py! "none") (some ⟨.none, []⟩), override := true } 0 (py! "none") (py! "none") [tPair0] [] := by
  decide +kernel

/-- test_private_key_list.py:2193-2236 -/
theorem C115_list_pack_string_no_override_public_with_private :
    packStringTest testCrypto { list := listFromList [⟨tRsaPublicKey, tPrivateKey⟩] (py! "none") (py! "none") (some ⟨.none, []⟩), override := false } 0 (py! "none") (py! "none") [⟨tRsaPublicKey, tPrivateKey⟩] [] := by
  decide +kernel

/-- test_private_key_list.py:2239-2282 -/
theorem C115_list_pack_string_one_key_retain_kdf_options :
    packStringTest testCrypto { list := listFromList [tPair0] (py! "aes256-ctr") (py! "bcrypt") (some ⟨.bcrypt, tBcrypt⟩), retain := true } 1 (py! "aes256-ctr") (py! "bcrypt") [tPair0] tBcrypt := by
  decide +kernel

/-- test_private_key_list.py:2285-2330 -/
theorem C115_list_pack_string_passphrase :
    packGenerated testCrypto { list := listFromList [tPair0] (py! "aes256-ctr") (py! "bcrypt") (some ⟨.bcrypt, tBcrypt⟩), passphrase := some (py! "passphrase") } 0 1 (py! "aes256-ctr") (py! "bcrypt") [tPair0] true := by
  decide +kernel

end OSK
