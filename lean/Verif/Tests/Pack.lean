import Verif.Tests.List
/-
The tests of `pack_bytes` in tests/test_private_key_list.py, on the model.
-/
namespace OSK
open Spec

/-- test_private_key_list.py:1313-1354 -/
theorem C115_list_pack_bytes_one_key_none :
    packTest testCrypto { list := listFromList [tPair0] (py! "none") (py! "none") (some ⟨.none, []⟩) } 0 (py! "none") (py! "none") [tPair0] [] := by
  decide +kernel

/-- test_private_key_list.py:1357-1410 -/
theorem C115_list_pack_bytes_two_keys_none :
    packTest testCrypto { list := listFromList [tPair0, tPair1] (py! "none") (py! "none") (some ⟨.none, []⟩) } 0 (py! "none") (py! "none") [tPair0, tPair1] [] := by
  decide +kernel

/-- test_private_key_list.py:1413-1458 -/
theorem C115_list_pack_bytes_one_key_bcrypt_aes256_ctr :
    packGenerated testCrypto { list := listFromList [tPair0] (py! "aes256-ctr") (py! "bcrypt") (some ⟨.bcrypt, tBcrypt⟩) } 1 1 (py! "aes256-ctr") (py! "bcrypt") [tPair0] false := by
  decide +kernel

/-- test_private_key_list.py:1461-1506 -/
theorem C115_list_pack_bytes_one_key_bcrypt_aes256_gcm :
    packGenerated testCrypto { list := listFromList [tPair0] (py! "aes256-gcm@openssh.com") (py! "bcrypt") (some ⟨.bcrypt, tBcrypt⟩) } 1 1 (py! "aes256-gcm@openssh.com") (py! "bcrypt") [tPair0] false := by
  decide +kernel

/-- test_private_key_list.py:1509-1550 -/
theorem C115_list_pack_bytes_two_keys_include_indices :
    packTest testCrypto { list := listFromList [tPair0] (py! "none") (py! "none") (some ⟨.none, []⟩), indices := some [0] } 0 (py! "none") (py! "none") [tPair0] [] := by
  decide +kernel

/-- test_private_key_list.py:1553-1585 -/
theorem C115_list_pack_bytes_two_keys_invalid_include_indices :
    raises (packKeyList testCrypto tInputs (listFromList [tPair0] (py! "none") (py! "none") (some ⟨.none, []⟩)) none (some [2]) false false).res isIndexError := by
  decide +kernel

/-- test_private_key_list.py:1588-1642 -/
theorem C115_list_pack_bytes_override_public_with_private :
    packTest testCrypto { list := listFromList [⟨tRsaPublicKey, tPrivateKey⟩] (py! "none") (py! "none") (some ⟨.none, []⟩), override := true } 0 (py! "none") (py! "none") [tPair0] [] := by
  decide +kernel

/-- test_private_key_list.py:1645-1687 -/
theorem C115_list_pack_bytes_no_override_public_with_private :
    packTest testCrypto { list := listFromList [⟨tRsaPublicKey, tPrivateKey⟩] (py! "none") (py! "none") (some ⟨.none, []⟩), override := false } 0 (py! "none") (py! "none") [⟨tRsaPublicKey, tPrivateKey⟩] [] := by
  decide +kernel

/-- test_private_key_list.py:1690-1722 -/
theorem C115_list_pack_bytes_header_none :
    packTest testCrypto { list := { newKeyList [tPair0] with header := none } } 0 (py! "none") (py! "none") [tPair0] [] := by
  decide +kernel

/-- test_private_key_list.py:1725-1757 -/
theorem C115_list_pack_bytes_header_no_cipher :
    packTest testCrypto { list := { newKeyList [tPair0] with header := some [(py! "kdf", .str (py! "bcrypt"))] } } 0 (py! "none") (py! "none") [tPair0] [] := by
  decide +kernel

/-- test_private_key_list.py:1760-1795 -/
theorem C115_list_pack_bytes_header_no_kdf :
    packTest testCrypto { list := { newKeyList [tPair0] with header := some [(py! "cipher", .str (py! "aes256-ctr"))] } } 0 (py! "none") (py! "none") [tPair0] [] := by
  decide +kernel

/-- test_private_key_list.py:1798-1841 -/
theorem C115_list_pack_bytes_header_retain_kdf_options :
    packTest testCrypto { list := listFromList [tPair0] (py! "aes256-ctr") (py! "bcrypt") (some ⟨.bcrypt, tBcrypt⟩), retain := true } 1 (py! "aes256-ctr") (py! "bcrypt") [tPair0] tBcrypt := by
  decide +kernel

/-- test_private_key_list.py:1844-1889 -/
theorem C115_list_pack_bytes_passphrase :
    packGenerated testCrypto { list := listFromList [tPair0] (py! "aes256-ctr") (py! "bcrypt") (some ⟨.bcrypt, tBcrypt⟩), passphrase := some (py! "passphrase") } 0 1 (py! "aes256-ctr") (py! "bcrypt") [tPair0] false := by
  decide +kernel

end OSK
