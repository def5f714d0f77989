# Formal model of openssh_key_parser in Lean 4 — design and trusted base

The Python sources in `/repo/openssh_key` were read as text and translated by hand, function by function.  They were
never run here (none of the project's dependencies are installed).

## 1. Shape

* `lean/Verif/Py/*` — the Python runtime pieces the code relies on (exceptions as values, `int.to_bytes`/`from_bytes`,
  UTF-8, `struct`, `base64`, `str.splitlines`/`split`, insertion-ordered dicts).
* `lean/Verif/Model/*` — the repository's code, function by function; each definition cites file and lines.
* `lean/Verif/Spec/*` — small stand-alone specifications (two's complement, RFC 4251 integers, UTF-8, PEM layout,
  field tables, the `openssh-key-v1` file layout …).  They are written from the formats, not from the model's helpers.
* `lean/Verif/Lemmas/*` — helper lemmas.  Nothing in here is a claim.
* `lean/Verif/Props/*` — the property theorems `Cnn_…`, one file per group, each followed by concrete examples that
  meet the hypotheses.
* `tools/` — checks of the translation that need no project dependency (section 6).
* `seeded/LOG.jsonl` — mutation testing of the theorems (section 7).

### Representation choices

* `bytes` = `List UInt8`; `str` = `List Nat` of code points (so lone surrogates exist and fail to encode, as in
  Python); `int` = `Int`, unbounded.
* A Python value in a parameter dictionary is `Val`: `bytes`, `str`, `int`, the tuple that `struct.unpack` gives for a
  format with several items, or `other n` for an object of any other type.
* Exceptions are values of `Exn`; `Exn.isValueError`, `Exn.isEOFError` are the subclass relations needed by the
  `except` clauses.
* Warnings and `getpass` prompts are events in a log that survives exceptions: `Eff α = {log, res : Except Exn α}`.
* A byte stream is `{buf, pos}`; reading and writing are state transformers whose state survives exceptions
  (a failed write may have written a prefix, as in Python).
* Python's class graph is a table of bases; the MRO is computed by C3 linearisation and method resolution follows it.
* Everything that comes from outside the repository is a parameter: `Crypto` (bcrypt, AES, 3DES, GCM, ChaCha20,
  Poly1305), `Ext` (point-on-curve test, `str()` of non-strings), `Lib` (constructors of key objects in `cryptography`
  and `nacl`), `Inputs` (passphrase, random numbers), `Gen` (key generators), `Clock` (`datetime`).  The model assumes nothing about them;
  theorems that need a law take it as an explicit hypothesis (section 4).  `Std.crypto` (`Verif/Std`) is the `Crypto` of the standards:
  AES (FIPS 197), triple DES (FIPS 46-3), CBC and CTR (SP 800-38A), GCM (SP 800-38D), ChaCha20 and Poly1305 (RFC 8439), SHA-512
  (FIPS 180-4), Blowfish and `bcrypt_pbkdf`; C104 shows that it obeys the laws.  `Std.validPoint` (`Std/Curves.lean`) is the test of points
  on the curves P-256, P-384 and P-521; C107 is about it.  `Std.lib` (`Std/Keys.lean`, with the groups of the curves in `Std/Ec.lean` and Ed25519
  in `Std/Ed25519.lean`) is a `Lib` with the checks of the real libraries; C109 is about it.
* Recursion through nested certificate authority keys uses a depth argument.  `C52` shows that the depth used by the
  model is always enough and that the result does not depend on it beyond that.

## 2. What is modelled

| file | functions | model |
|---|---|---|
| `pascal_style_byte_stream.py` | all | `Model/Stream.lean` (`PascalStyleDict.__init__`/`check_params_are_valid`: `Model/Key.lean`) |
| `key_params/factory.py`, class statements and `FORMAT_INSTRUCTIONS_DICT`s of all `key_params/*.py` | all | `Model/Classes.lean` |
| `key_params/rsa.py`, `dss.py`, `ed25519.py`, `ecdsa.py`, `sk.py`, `common.py` | checks | `Model/Key.lean` |
| | `convert_from`, `convert_to`, `conversion_functions` | `Model/Convert.lean` |
| | `generate_private_params` and its accessors | `Model/Generate.lean` |
| | security key flags | `Model/Sk.lean` |
| `key_params/cert.py` | options, principals, types, guards, signed bytes | `Model/Cert.lean` |
| | validity dates | `Model/Validity.lean` |
| | authority key, `check_params_are_valid` | `Model/Key.lean` |
| `key.py` | all | `Model/Key.lean` |
| `cipher/*.py`, `kdf_options/*.py` | all | `Model/Cipher.lean` |
| `pascal_style_byte_stream.py` | format instructions that are strings | `Model/StructText.lean` |
| `utils.py`, `PascalStyleDict` | dictionary operations inherited from `collections.UserDict` | `Model/UserDict.lean` |
| `utils.py` | class statements in general, method resolution order, `is_abstract`, `readonly_static_property` | `Model/Utils.lean` |
| `key.py`, `private_key_list.py` | identity of the dictionaries and keys: constructors on a store of cells | `Model/Store.lean` |
| `private_key_list.py`, `utils.py` | all | `Model/KeyList.lean` |
| | list operations inherited from `collections.UserList`, `==`, the check of items in `from_list` | `Model/UserList.lean` |
| `__main__.py` | the command line, decoding the file, choice between list and lines, the loop over lines, JSON output | `Model/Args.lean`, `Model/Cli.lean`, `Model/Json.lean` |
| `tests/fuzzer/*.py` | both fuzz targets | `Model/Fuzz.lean` |
| all of these with a section `Raises` | what their documentation says they raise | `Spec/Documented.lean` |
| all of these that can warn | the same under a filter that raises warnings | `Model/Filtered.lean` (generated) |

`tools/coverage.py` lists the functions whose lines no comment in the Lean sources cites.  What it prints are abstract
methods without a body and accessors that return a constant whose value is in the tables.

### What is not modelled

* `__main__.py`: failure to write to the terminal; the texts of the help and of the messages about arguments.  What a file contains, or
  that it cannot be opened or read, is given (`files` of `cliProgram`).
* Docstrings, type annotations, `typing` casts, `__init__.py` (version number).
* The insides of `bcrypt` and `cryptography` (what they should compute is in `Verif/Std`; that they do is trusted), `nacl`, `getpass`,
  `secrets`.  Format strings of `struct` are parsed in `Model/StructText.lean`, with every code, native sizes and alignment (64-bit
  little-endian Linux); only floating point numbers are abstract there.  The rest of the model has the formats already parsed, and
  `C105_used` says that the strings the code uses, `15s`, `>i`, `>I`, `>Q` and `>B`, mean what it has.
* `warnings` filters, other than in C97 to C99: elsewhere a warning is an event and never an exception.  `Model/Filtered.lean`
  repeats every definition that can warn, word for word, with a filter that may raise any set of warnings; filters that ignore
  a warning or show it once only change what is printed, and whether a warning is raised does not depend on earlier ones.
* `KeyboardInterrupt` elsewhere than at the prompt (C106 is about the prompt), `MemoryError` and other exceptions that are not raised by
  the code itself.
* Python's recursion limit, other than in C92: nested certificate authority keys are parsed recursively, so a deep nesting
  in the input gives `RecursionError` in CPython.  C92 says when, in terms of levels; all other theorems about parsing hold for
  runs that stay within the limit.
* `bool` is identified with its `int` value, `float`s are `other`; Python's `True == 1` and `1.0 == 1` make the
  `cert_type` test accept `True`/`1.0`; the model covers the former only.
* Subclassing by users of the library, assignments to private attributes, threads, time and memory use of the interpreter (C110 bounds the
  sizes of results, the number of warnings, and the bytes that are parsed).
* Key objects of other packages are an instance of exactly one of the classes the code knows.

Simplifications of single definitions are stated in the comment of the definition ("Simplification: …").

## 3. Properties the code does not have

For these the full claim is false of the code.  Each has a theorem `Cnn_false…` with a concrete witness, and theorems
with suffix `_partial` for what does hold (mostly the exact set of inputs on which the claim holds).

| id | witness | what happens |
|---|---|---|
| C05 | `C05_false` | negative integers that need a sign byte (−129, …) raise `OverflowError` in `write_from_format_instruction`: the length is computed from the absolute value only |
| C13 | `C13_false` | `read_repeatedly_from_format_instructions_dict` catches the `EOFError` of an incomplete last record cut at a field boundary or within a length prefix and silently drops it |
| C12 | `C12_zero_size_diverges` | with a format that consumes no bytes the same function never returns, so the hypothesis of C12 is needed |
| C17 | `C17_false` | consequence of C05: a public key with such a negative integer parses but cannot be packed |
| C22 | `C22_false` | a comment that is written as `ssh-… AAAA… comment` comes back with a newline appended |
| C28 | `C28_false` | `PrivateKeyList.from_string('')` raises `IndexError` |
| C35 | `C35_false` | kdf `bcrypt` with cipher `none` asks for a passphrase and then writes the private keys in the clear |
| C39 | `C39_false` | `from_list(kdf='bcrypt')` without options fails with `KeyError` when packed with `retain_kdf_options_if_present` |
| C48 | `C48_false` | consequence of C13: non-empty principals such as `00 00 00 05` read as the empty list, i.e. "any principal" |
| C53 | `C53_false` | an authority key of unknown type raises `KeyError` out of the certificate's constructor |
| C57 | `C57_false` | the public key object of a generated pair holds the private values in its `params` |
| C58 | `C58_false` | a line without a space (`IndexError`) or with an unknown key type (`KeyError`) ends the program |
| C62 | `C62_false`, `C62_false_abstract` | certificate and security key classes raise `KeyError` for a public object of the base type; `PublicKeyParams.convert_from` raises `TypeError` |
| C77 | `C77_false` | `CertExtension.PERMIT_X11_FORWARDING` is named `permit-x11-forwarding`; OpenSSH (PROTOCOL.certkeys, output of `ssh-keygen`) uses `permit-X11-forwarding`, so setting the member has no effect on OpenSSH and getting it from a real certificate returns nothing |
| C78 | `C78_false` | `pack_signed_bytes` omits the key type, and an RSA and an Ed25519 certificate can have the same signed bytes |
| C82 | `C82_false` | since Python 3.11 converting an `int` of more than 4300 digits to text raises `ValueError`, so that files with longer numbers, e.g. RSA moduli of 16384 bits, which OpenSSH allows, parse but are not printed |
| C85 | `C85_false` | `PrivateKeyList` inherits from `collections.UserList` the operations that call `self.__class__(data)`: a slice, a concatenation, a repetition or a `copy()` of a passphrase-protected list has neither header nor KDF options and is packed in the clear, ignoring the passphrase that is given |
| C89 | `C89_false` | a certificate and a security key run the checks of their base class twice (by `super()` and by the unbound call), a certificate of a security key four times, and `Ed25519PrivateKeyParams` checks the fields twice: the same warning is issued 2 or 4 times |
| C92 | `C92_false` | certificate authorities that are certificates are parsed recursively before the warning that they are not allowed; 100 bytes per level suffice, so that a public key of some 15 KB gives `RecursionError`, which `check_params_are_valid` does not catch |
| C93 | `C93_false` | a comment that is not UTF-8 (OpenSSH stores the bytes of the terminal or of `-C` as they are) makes the whole file unreadable: `UnicodeDecodeError`, reported as `ValueError` |
| C93 | `C93_false` | OpenSSH takes `Ed25519`, `rsa`, `rsa-sha2-256` … as names of key types, and ignores one zero byte at the end of a name or text; the package takes only the official names |
| C93 | `C93_text_false` | OpenSSH ignores what follows the end marker; `from_string` refuses the text because its last line is not the end marker |
| C94 | `C94_false` | the package packs lists of any length, OpenSSH reads only files with exactly one key; and it no longer knows the cipher `rijndael-cbc@lysator.liu.se` (`C94_rijndael`) |
| C95 | `C95_false` | the same names of key types in public keys: OpenSSH takes `Ed25519`, the package refuses it as an unknown key type |
| C95 | `C95_lines_false` | `from_string` splits at single spaces only: a line with two spaces or a leading space is refused |
| C95 | `C95_lines_false` | a line `ssh-ed25519<TAB>A B c`, with base64 text `A` and `B` of two keys, is key `A` to OpenSSH and key `B` to the package (with a warning that the type differs): the two disagree about which key a line is |
| C96 | `C96_false` | negative numbers are packed (as the documentation of `mpint` allows), OpenSSH refuses them |
| C96 | `C96_false` | `pack_public_string` writes comments as they are: a line feed in a comment makes two lines (the second one may be another key) |
| C97 | `C97_false` | under `python -W error` (or a filter for one message) `PrivateKeyList.from_bytes` raises `ValueError('Unexpected error condition reached.')` instead of the `UserWarning` its documentation lists: `except BaseException` catches it |
| C98 | `C98_false` | even with every warning raised, a certificate's list of principals may end with a length and no principal, and an option list with a name and no value: `read_repeatedly_from_format_instructions_dict` ends at any `EOFError` |
| C99 | `C99_false` | even with every warning raised, bytes after the key file are ignored: `PrivateKeyList.from_bytes` never asks whether the stream has ended |
| C101 | `C101_false` | a passphrase that starts with `-` is refused after `--passphrase` (exit status 2), and so is a file name that does; `--passphrase=…` and `-- …` work for all of them (`C101_always`) |
| C105 | `C105_false` | a string that is no format, such as `'Z'`, raises `struct.error` from `read_from_format_instruction` and `write_from_format_instruction`, not the `ValueError` of the documentation |
| C106 | `C106_false` | Ctrl-C at the passphrase prompt of `from_bytes` becomes `ValueError('Unexpected error condition reached.')`, and the end of the input there is reported as `Premature EOF detected while parsing key.`: `from_bytes` catches `BaseException` and takes every `EOFError` for one of the file |
| C108 | `C108_false` | A file with an RSA key whose exponent is -129 (`FF 7F`) is read, but after setting the comment it can not be written: `OverflowError` (C05 at the level of files); `C108_writes_partial` says exactly when writing succeeds |
| C109 | `C109_false` | An Ed25519 private key with the public half of another key is taken without warning and converted; the public half is never compared with the one that the private half gives, and `convert_from` of the result has another (for RSA, DSA and ECDSA the library compares, `C109_convert_partial`) |
| C110 | `C110_false` | The number of rounds of the key derivation is taken from the file, up to `2^32 - 1`: for every number there is a file of 91 bytes that asks for it, before anything shows whether the passphrase is right (everything else that parsing does is bounded by the size of the input) |
| C111 | `C111_false` | The README shows the key derivation options of a private key file as an object with `salt` and `rounds`; they are an object of a class since version 0.0.4, and the program prints them one level deeper, as the `data` of that object |
| C112 | `C112_false` | `set_valid_after` with a local time that is skipped when clocks are put forward (02:30 on 31 March 2024 in Paris) stores another one (03:30); fractions of a second are lost, and a date with a time zone is read back as local time without one, which is not equal to it (`C112_same_iff` says exactly which dates are kept) |
| C113 | `C113_false` | most functions raise exceptions that the `Raises` sections of their documentation do not name: reading fields `ValueError` and `OverflowError`, `Key.from_string` `IndexError` and others, `PrivateKeyList.from_string` of the empty string `IndexError`, `pack_bytes` `struct.error` (`C113_raises` has the exact list for each of 25 functions) |
| C114 | `C114_false` | with the ciphers `aes*-ctr`, the default of OpenSSH, an encrypted file can be changed without its passphrase so that it is read without any warning, with the same public keys but another private key: nothing compares the private key with the public key. The same change works for every passphrase (`C114_secret`: any bits of an Ed25519 secret can be inverted).  With the ciphers in CBC mode an Ed25519 secret can be changed as well, though not to a chosen value (`C114_chain`) |
| C115 | `C115_cipher_vector2_false` … `C115_cipher_vector7_false` | the tests' vectors for `aes128-ctr` and `aes192-ctr` (`tests/test_cipher.py`) have a 12-byte initialization vector (the nonce and IV of RFC 3686 without the counter), so the code takes the last four bytes of the key into the IV and computes something else than the stated texts.  The tests pass because `test_encrypt` and `test_decrypt` `return` the comparison instead of asserting it |
| C116 | `C116_false`, `C116_text_false` | both fuzz targets of `tests/fuzzer` test nothing: `fuzz_b64.py` passes bytes to `from_string`, whose first line is never equal to the text of the marker (and given as a text, `openssh-key-v1` stands where its base64 form should); `fuzz_valid_magic.py` never uses its data |
| C117 | `C117_false` | a file that names the key derivation function `bcrypt` and the cipher `none` asks for a passphrase, and then accepts any, without a warning (so does `ssh-keygen`, if the passphrase is not empty).  With `aes*-ctr` a wrong passphrase goes unnoticed exactly if two key streams happen to agree in how they differ (`C117_counter_partial`), in CBC mode exactly if a block happens to begin with the same four bytes twice (`C117_chain_partial`) |
| C118 | `C118_false`, `C118_set` | `readonly_static_property` is not read-only: it has no `__set__`, so that `obj.WRAP_COL = 3` or `PrivateKeyList.WRAP_COL = 3` is accepted, and from then on is what the code uses |
| C119 | `C119_false` | a file that is read and written with the same passphrase, options and check number may change without a warning: bytes after the end of the file, bytes in the options field though the key derivation function is `none`, needless zero bytes before an integer, and whole blocks of padding are dropped.  Files of `ssh-keygen` are reproduced (section 6) |
| C120 | `C120_false`, `C120_again` | no public key line is reproduced: `from_string` keeps a line feed at the end as part of the comment and `pack_public_string` adds one, so that a line grows by a line feed each time that it is read and written.  The first word, bytes after the key, and ignored characters in the base64 text are dropped as well |
| C121 | `C121_false` | a file for AES-GCM that ends before the tag cannot be read with any passphrase, but the passphrase is asked for first: the tag is read after the question.  Everything else in the clear is read before it (C121_refused_partial) |
| C122 | `C122_false` | with `retain_kdf_options_if_present=True` two files under one passphrase have the same key and initialisation vector; for the ciphers in counter mode `steal`, which xors the ends of the two files with the private section of the first, gives the private section of the second, whatever the passphrase.  The docstring (private_key_list.py:492-495, 623-626) describes the option the wrong way round, so that who follows it to get new options retains the old ones |
| C124 | `C124_false` | the number of rounds in a file is handed to `bcrypt.kdf` as it is (kdf_options/bcrypt_options.py:63-69): a file of 76 bytes asks for 4294967295 rounds.  Otherwise the function is used as it should be: once, with what the file says (C124_once_partial) |

Further observations made while modelling:

* The example of the README that generates a key uses a name, `generated_pk_key`, that it does not define; and its example that changes a
  comment writes a public key file without any comment (`C111_modified`), as only the private key of a pair has one.
* In native mode (no byte order, or `@`) `struct` reads a C `_Bool`: a byte other than 0 and 1 is undefined behaviour, and CPython 3.11.10 as
  installed here takes the lowest bit, while `=?` takes every byte but 0 for true.  The model leaves it open (`Floats.odd`).  The code uses no `?`.
* `read_from_format_instruction` returns a tuple for a format with other than one value, which `write_from_format_instruction` never writes
  (`C105_pack`: only formats with one place).

* Tests that depend on chance: the case 'Public key does not match' of `test_ed25519.py` compares with a random public key, and
  `kdf_options != generated_kdf_options` of the key list tests with a random salt; several tests called `two_keys_include_indices` have one key.
* A key list with kdf `none` and a real cipher can neither be packed nor parsed (`ValueError`): see `C35_none`.
* The documentation of `override_public_with_private` and of the retain flag in `private_key_list.py` reads the other
  way round than the code acts.
* `pack_signed_bytes` of a certificate does not contain the key type string that OpenSSH signs (C49 states what it contains).
* In the last hours of the year 9999 a validity date can be read in time zones east of Greenwich but `set_valid_before` of it raises
  `ValueError` (example in `Props/Datetime.lean`; CPython computes the offset at the local time taken as UTC, which is in the year 10000).  A date
  of the year 2514 or later with 999999 microseconds is stored a second late, since its timestamp is rounded to a `float`.  A date before 1970 can
  be set, but the certificate can then not be packed (`C112_before_1970`).
* `get_valid_before` on `2^64-1` ("forever", the usual value) raises `OverflowError`, see `C70_forever`.
* Malformed UTF-8 in principals or options raises `UnicodeDecodeError` out of the constructor; only `EOFError` is turned
  into a warning (C53 gives the exact set).
* A certificate whose option list ends after an option's name, or within the length prefix that follows, is accepted and
  the option is silently absent (`C74_lists`; OpenSSH rejects such a certificate).
* The checks of security key classes run the check of fields several times, so warnings are repeated (example in
  `Props/Checks.lean`).
* Key equality compares header, parameters' contents and footer, not the parameter class.
* `ECDSA…PrivateKeyParams.convert_to` does not check the curve identifier, the public class does.
* `rsa_crt_dmp1` is used for `dmq1` (harmless: it is the same function of its arguments).
* `EllipticCurvePublicKey.from_encoded_point` accepts compressed points, so converting to an object and back can replace
  the point by its uncompressed form (hypothesis of C60).  OpenSSH reads uncompressed points only, and refuses those with a coordinate of
  at most half the bits of the order or not less than the order less one; keys with such points are constructed, parsed and
  packed here without a warning (`C107_openssh`; confirmed with `ssh-keygen`).
* The docstring of `retain_kdf_options_if_present` says the opposite of what the code does with it, and that of `pack_bytes` names only
  `IndexError` of the exceptions that it raises.

## 4. Hypotheses about code outside the repository

* `CryptoLaws cr` (`Spec/Cipher.lean`): decryption undoes encryption, lengths of ciphertexts, tags and derived keys, no
  cipher accepts the empty key.  `C104_laws` shows that the standard algorithms obey them, so that for them the theorems hold without this
  hypothesis (as `C104_file` says of packing and reading); `toyCrypto_laws` is used in examples.  C100 also assumes `DecryptLengths` (`Spec/Both.lean`):
  decryption gives as many bytes as were encrypted (`C104_lengths`).
* `Genuine lib obj` (`Spec/Convert.lean`): the constructor of the library accepts the object's own numbers and the
  redundant numbers agree.  Examples with a concrete `Lib` are in `Props/Convert.lean`.
* `GenLaws ext lib gen` (`Spec/Generate.lean`): object identifiers name their curves, Ed25519 keys have 32 bytes, generated
  points are on their curve.  `exGen_laws` meets them, and `C109_laws` derives them for `Std.lib` from `Generates` (`Spec/KeyPairs.lean`: the numbers of
  generated keys belong together; `exPairGen_generates` is an example); `C107_assumed` shows the part about points for the points of the standard's curves, and
  likewise the part of `Genuine` about them.
* `ClockLaws clock` (`Spec/Validity.lean`): a date made from a number of seconds has that timestamp (or none, in the last days of the
  year 9999); there are no dates after the year 9999.  `C112_laws` proves them of CPython's `datetime` (`Std/Datetime.lean`) in every time
  zone with `ZoneLaws` (`Spec/Datetime.lean`: at most a day off UTC, at most one change in three days, by at most a day).
* `CounterMode cr` (`Spec/Tamper.lean`, for C114_counter and C114_secret): AES in counter mode xors a key stream that does not
  depend on the data. Proved of the standard's algorithms (`std_counterMode`).
* `ReverseLaws cr` (`Spec/Exact.lean`, for C119): encryption undoes decryption.  Proved of the standard's algorithms (`C119_laws`).
* `ValueErrors cr` (`Spec/Documented.lean`, for C113): bad arguments of the key derivation and of the ciphers are refused with
  `ValueError`s.  `std_valueErrors` proves it of the standard algorithms.
* `Spec.Constructed ext k`: `k` was returned by one of the constructors.
* No secrecy or unforgeability claim is made about the primitives; C21, C35, C37, C43 are statements about what the code
  writes or returns as a function of the primitives (non-interference), not computational claims.

## 5. Trusted base

* The Lean 4.33.0 kernel and the Mathlib modules imported.
* The standard axioms `propext`, `Classical.choice`, `Quot.sound` and no others.  No `sorry`, no own axioms, no
  `native_decide`, no `bv_decide`.  `decide +kernel` is used for finite tables (class graph, format tables) and for
  concrete examples.  Section 9 lists the axioms of every property theorem.
* The hand translation from Python to Lean, and the models of Python's built-ins in `Verif/Py`.
* For C93–C96: that `Spec/OpenSSH.lean` and `Spec/OpenSSHPublic.lean` say what OpenSSH reads (its source is not part of this repository; see section 6).
* For C112: that `Std/Datetime.lean` says what CPython's `datetime` computes (written from memory of its source; compared in section 6).
* For C109: that `Std/Keys.lean` says what `cryptography` 3 (with OpenSSL 1.1.1) and PyNaCl check (written from memory of their sources, which are
  not part of this repository), and that OpenSSL's tests of primality are right.  The Ed25519 group is not proved to be one: `Std.edPublicOf` is
  the algorithm of RFC 8032 and agrees with its test vectors.
* The reading of the English statements in `properties.jsonl` into Lean statements in `Props/`.

## 6. Checks of the translation

The model was compared line by line with the sources.  In addition:

* `tools/stdlib_check.py` compares the definitions of `Verif/Py` with CPython on random and edge-case inputs (base64,
  UTF-8, `splitlines`, `split`, line-break table for all code points, slices and indices, int to and from bytes,
  `bit_length`, `struct`, string order, dict update and equality, padding) and of `Model/Json.lean` (JSON, `repr` of bytes,
  decimal digits, universal newlines) `Model/Args.lean` (argparse), `Model/UserDict.lean` (`UserDict`) and `Model/StructText.lean` (`struct` format strings): 31,596 cases, no disagreement.
* `tools/class_graph_check.py` rebuilds the class statements of `/repo` with empty bodies and compares MRO, subclass
  relation, abstractness and defining class of each method with the model's table: no disagreement in anything the
  model asks for.
* `tools/openssh_check.py` makes real keys, certificates and encrypted key files with `ssh-keygen` (every key type it
  supports, 10 ciphers), feeds them to the executable model and compares: 194 checks, all as expected.  It also
  confirms that OpenSSH's signature covers the type string followed by what `pack_signed_bytes` returns.
* `tools/ssh_accepts_check.py` gives `ssh-keygen` (OpenSSH 9.6) key files and texts at the edges of the relations `SshReads`
  and `SshText` of C93 and C94 (comments, padding, check numbers, key derivation without cipher, numbers with leading zeros
  or a sign, curves, names of types and ciphers, zero bytes at the end of names and texts, security keys, white space, text
  after the end marker): 296 checks, all as expected.
* `tools/ssh_public_check.py` has the relations `SshPublic` and `SshLine` of C95 and C96 as Python functions and compares them
  with `ssh-keygen` on random public keys, certificates (signed, so that only their form decides) and lines with faults in
  names, values, lists, options, authorities, blanks and base64 text: 1,500 checks, 578 of them read, no disagreement.
* `tools/crypto_check.py` compares `Verif/Std` with `hashlib` and `openssl` on 76 random vectors (SHA-512, AES, triple DES, ChaCha20,
  Poly1305), and end to end with `ssh-keygen`: 50 keys, of five types and encrypted with ten ciphers, are read by the model, are equal to
  the unencrypted copies, are not read with a wrong passphrase, and are packed again and read by `ssh-keygen`: no disagreement.
* `tools/curve_check.py` compares `Std.decodePoint` with `openssl` and `SshPoint` of C107 with `ssh-keygen` on 1,311 encodings (random
  points, small and large coordinates, coordinates that are not reduced, wrong lengths and forms): no disagreement.
* `tools/exact_check.py` has the model read and write 50 files of `ssh-keygen` (five types of keys with comments of 0 to 8 letters, and five
  ciphers): all are reproduced, letter for letter (C119); and so are the lines in the public key files, read without their line feed (C120).
* `C118_package` executes the class statements of the package with a general model of Python's classes and compares order and abstractness with
  the class table that the rest of the model uses.
* `Verif/Tests` has the repository's own tests as theorems about the model (C115): a difference between model and code that the authors'
  tests would notice is excluded by proof.  The texts were made from the test files with Python's `ast`.
* `tools/filtered_model.py` checks that `Model/Filtered.lean` is the model's text, apart from the function that warns.
* `tools/zone_check.py` checks that all 498 time zones of the tz database installed here have `ZoneLaws`, and that `Std/Datetime.lean` (C112)
  agrees with the `datetime` module on some 37,000 moments and local times near changes of clocks, and at the ends of the calendar.
* `tools/readme_check.py` checks that `Spec/Readme.lean` (C111) has the texts of the README, word for word.  `ssh-keygen` opens the file
  of the example with the passphrase of the README and shows the fingerprint of the README; `#eval` of `Std.crypto.bcryptKdf` gives `readmeKey`.
* `tools/coverage.py` lists functions of `/repo` that no Lean comment cites.

## 7. Mutation testing

Realistic bugs (wrong boundary, missed case, swapped argument, dropped update) are put into a scratch copy of the model,
one at a time; the whole project (for the last runs, V01 onwards, only the modules with the claims and what they import) is rebuilt, and the theorems that stop proving are compared with the claims that the
bug makes false.  A theorem in the list may fail because its proof uses a lemma about the changed definition although
its statement still holds; what matters is that at least one theorem whose English claim is false fails.  Results and
the theorems tightened in response are in `seeded/LOG.jsonl`.

## 8. Properties

| id | title | status | theorems |
|---|---|---|---|
| C01 | Length-prefixed bytes round-trip | proved | `C01_bytes_roundtrip`, `C01_bytes_roundtrip_default` |
| C02 | Length-prefixed text round-trip | proved | `C02_text_roundtrip`, `C02_text_unencodable`, `C02_text_read`, `C02_text_reencode` |
| C03 | Multi-precision integer round-trip | proved | `C03_mpint_roundtrip`, `C03_mpint_nonneg_writable` |
| C04 | MPINT wire form is the RFC 4251 canonical one | proved | `C04_mpint_canonical`, `C04_mpint_canonical_leading` |
| C05 | Every int can be written as MPINT | partial | `C05_every_int_writable_partial`, `C05_false` |
| C06 | Fixed-width struct fields round-trip and are range-checked | proved | `C06_struct_int`, `C06_struct_bytes` |
| C07 | Record round-trip | proved | `C07_record_roundtrip`, `C07_extra_keys_ignored` |
| C08 | Reads are local and non-destructive | proved | `C08_reads_local`, `C08_reads_local_single` |
| C09 | Truncated records are rejected | proved | `C09_truncated_record`, `C09_truncated_written_record` |
| C10 | Read errors do not leak stream contents (CVE-2022-31124) | proved | `C10_no_leak_fixed`, `C10_no_leak_record` |
| C11 | Repeated record round-trip | proved | `C11_repeated_roundtrip` |
| C12 | Repeated reading terminates | proved | `C12_repeated_terminates`, `C12_empty_format`, `C12_zero_size_diverges` |
| C13 | Repeated reading rejects an incomplete last record | partial | `C13_repeated_incomplete_partial`, `C13_repeated_single_struct_partial`, `C13_false` |
| C14 | Value checking predicts writability | proved | `C14_check_silent_iff`, `C14_warning_write_raises`, `C14_silent_write_fails_only_unencodable` |
| C15 | Public key round-trip | proved | `C15_public_key_roundtrip`, `C15_public_key_roundtrip_eq` |
| C16 | Parse-pack-parse stability | proved | `C16_parse_pack_parse`, `C16_pack_succeeds` |
| C17 | Canonical public keys are reproduced byte for byte | partial | `C17_canonical_partial`, `C17_canonical_nonneg`, `C17_false` |
| C18 | Excess bytes are reported and preserved | proved | `C18_excess_split`, `C18_excess_appended` |
| C19 | Unsupported key types are rejected | proved | `C19_supported_names`, `C19_unsupported_construct`, `C19_unsupported_parse` |
| C20 | Private key round-trip inside a stream | proved | `C20_private_keys_in_stream` |
| C21 | Public packing never reveals private parameters | proved | `C21_public_bytes_noninterference`, `C21_public_string_noninterference` |
| C22 | Public key line round-trip | partial | `C22_line`, `C22_roundtrip_partial`, `C22_false` |
| C23 | Base64 layer is lossless and ignores line breaks | proved | `C23_encode_rfc4648`, `C23_decode`, `C23_decode_str`, `C23_roundtrip_str` |
| C24 | Cleartext/encoded key type mismatch is reported | proved | `C24_type_mismatch` |
| C25 | Key list round-trip | proved | `C25_round_trip` |
| C26 | Packed key lists parse without structural warnings | proved | `C26_no_warnings` |
| C27 | from_bytes fails only with ValueError | proved | `C27_only_value_error` |
| C28 | from_string fails only with ValueError | partial | `C28_false`, `C28_only_value_error_partial` |
| C29 | Truncated key lists are rejected | proved | `C29_truncated` |
| C30 | Only the declared extent of a key list matters | proved | `C30_suffix` |
| C31 | Padding discipline | proved | `C31_padding_warning`, `C31_pack` |
| C32 | Check numbers | proved | `C32_check_warning`, `C32_pack` |
| C33 | include_indices selects exactly those keys | proved | `C33_selects`, `C33_count`, `C33_out_of_range` |
| C34 | Passphrase prompting | proved | `C34_parse_prompts`, `C34_parse_prompts_iff`, `C34_parse_none`, `C34_pack_prompts`, `C34_pack_prompts_iff`, `C34_pack_none` |
| C35 | A passphrase protects the private section | partial | `C35_false`, `C35_sealed_partial`, `C35_none` |
| C36 | PEM text round-trip and wrapping | proved | `C36_parse`, `C36_layout`, `C36_failure`, `C36_round_trip`, `C36_keys` |
| C37 | The cleartext part of a key list reveals no private parameter | proved | `C37_front` |
| C38 | Magic and count validation | proved | `C38_magic`, `C38_negative`, `C38_count` |
| C39 | KDF options are retained or regenerated as requested | partial | `C39_retained`, `C39_fresh`, `C39_repacked`, `C39_false`, `C39_from_list_partial` |
| C40 | Inconsistent pairs are reported | proved | `C40_pair_warnings` |
| C41 | Key/IV split | proved | `C41_key_iv_split`, `C41_names` |
| C42 | decrypt inverts encrypt | proved | `C42_decrypt_encrypt`, `C42_chacha` |
| C43 | ChaCha20-Poly1305 releases plaintext only for a valid tag | proved | `C43_tag`, `C43_rejects` |
| C44 | Authentication tag placement | proved | `C44_tag` |
| C45 | Certificate options behave like a map | proved | `C45_get_after_set`, `C45_set_twice`, `C45_commute`, `C45_set_succeeds_iff`, `C45_sequences` |
| C46 | Packed options are sorted and unique | proved | `C46_sorted_unique`, `C46_bytewise` |
| C47 | Principals round-trip | proved | `C47_principals_roundtrip`, `C47_rejected` |
| C48 | A non-empty principals field never reads as 'any principal' | partial | `C48_empty_principals_partial`, `C48_false` |
| C49 | Signed bytes are the certificate minus type and signature | proved | `C49_signed_bytes` |
| C50 | Principal type and option guards | proved | `C50_type`, `C50_option_guard`, `C50_failed_set` |
| C51 | Certificate authority key | proved | `C51_rejects_certificates`, `C51_roundtrip` |
| C52 | Nested certificate parsing terminates | proved | `C52_nesting_bounded` |
| C53 | A malformed certificate authority field only warns | partial | `C53_authority_partial`, `C53_false` |
| C54 | Security key flags | proved | `C54_set_get`, `C54_idempotent`, `C54_sequences`, `C54_errors` |
| C55 | Ed25519 parameter check | proved | `C55_ed25519_check`, `C55_warnings` |
| C56 | Format tables | proved | `C56_format_tables`, `C56_private_contains_public`, `C56_mro_defined` |
| C57 | Generated public keys carry no private parameters | partial | `C57_false`, `C57_packed_partial` |
| C58 | CLI survives unparseable public key lines | partial | `C58_false`, `C58_lines_partial`, `C58_aborts` |
| C59 | convert_from extracts exactly the values of the key | proved | `C59_convert_from`, `C59_public_of_private` |
| C60 | convert_to then convert_from returns the same parameters | proved | `C60_private_round_trip`, `C60_public_round_trip` |
| C61 | convert_from then convert_to returns the same key object | proved | `C61_private_object`, `C61_public_object` |
| C62 | convert_from fails only with ValueError | partial | `C62_false`, `C62_false_abstract`, `C62_plain_partial`, `C62_derived`, `C62_depth` |
| C63 | convert_to returns an instance of the destination class | proved | `C63_instance`, `C63_unsupported`, `C63_public_destination` |
| C64 | The abstract ECDSA classes choose the class of the curve | proved | `C64_curve_class` |
| C65 | Generated pairs are what was asked for | proved | `C65_generate`, `C65_as_converted`, `C65_default_curve` |
| C66 | Unsupported types are not generated | proved | `C66_refused` |
| C67 | Generated pairs can be packed and come back | proved | `C67_keys_pack`, `C67_list_round_trip` |
| C68 | Generated key derivation options | proved | `C68_generate_options`, `C68_defaults` |
| C69 | Packing a key list succeeds when it can | proved | `C69_succeeds` |
| C70 | Validity dates | proved | `C70_set`, `C70_set_after_get`, `C70_forever` |
| C71 | Checks of key parameters are exact | proved | `C71_checks`, `C71_certificate_checks` |
| C72 | Warnings of parsing a key are exact | proved | `C72_parse_warnings` |
| C73 | Warnings of parsing a key list are exact | proved | `C73_list_warnings`, `C73_packed_list`, `C73_generated_list` |
| C74 | Exactly which byte strings parse as keys | proved | `C74_unambiguous`, `C74_accepts`, `C74_end_of_data`, `C74_not_text`, `C74_unknown`, `C74_lists`, `C74_certificate_faults` |
| C75 | Exactly which key files parse | proved | `C75_accepts`, `C75_rejects`, `C75_unambiguous`, `C75_texts` |
| C76 | Exactly which lines parse as keys | proved | `C76_accepts`, `C76_errors` |
| C77 | Certificate options have OpenSSH's names | partial | `C77_false`, `C77_names_partial`, `C77_x11_not_set` |
| C78 | Signed bytes determine the certificate | partial | `C78_false`, `C78_same_type_partial`, `C78_with_type_partial` |
| C79 | Packed bytes determine the key | proved | `C79_public`, `C79_private`, `C79_lists` |
| C80 | Equality of keys | proved | `C80_equivalence`, `C80_congruence` |
| C81 | Printed output | proved | `C81_layout`, `C81_output`, `C81_unambiguous` |
| C82 | Every file that parses is printed | partial | `C82_outcome_partial`, `C82_false`, `C82_usual_partial` |
| C83 | Nothing is lost in the output | proved | `C83_determined` |
| C84 | Line ends do not matter | proved | `C84_line_ends`, `C84_files` |
| C85 | Lists derived from a protected list stay protected | partial | `C85_false`, `C85_in_place_partial` |
| C86 | List operations do exactly what they say | proved | `C86_changes`, `C86_new_lists` |
| C87 | from_list takes pairs of keys only | proved | `C87_from_list` |
| C88 | Equality of key lists | proved | `C88_equivalence`, `C88_congruence` |
| C89 | Each fault is reported once | partial | `C89_count_partial`, `C89_false` |
| C90 | Exactly what packing a key writes, and how it fails | proved | `C90_field`, `C90_public`, `C90_private` |
| C91 | Exactly what packing a key list writes, and how it fails | proved | `C91_unprepared`, `C91_prepared`, `C91_complete` |
| C92 | Nesting of certificates never makes parsing fail | partial | `C92_limit_partial`, `C92_false` |
| C93 | Every private key file that OpenSSH reads is read, as the same key | partial | `C93_reads_partial`, `C93_text_partial`, `C93_false`, `C93_text_false` |
| C94 | OpenSSH reads every key file that the package writes | partial | `C94_written_partial`, `C94_count`, `C94_rijndael`, `C94_false`, `C94_text` |
| C95 | Every public key, certificate and public key line that OpenSSH reads is read, as the same key | partial | `C95_keys_partial`, `C95_lines_partial`, `C95_false`, `C95_lines_false` |
| C96 | OpenSSH reads every public key line that the package writes | partial | `C96_keys_partial`, `C96_principals`, `C96_options`, `C96_authority`, `C96_lines_partial`, `C96_false` |
| C97 | A warning filter that raises warnings only cuts an operation short at the first raised warning | partial | `C97_keys_partial`, `C97_stream`, `C97_set_option`, `C97_pack`, `C97_lists`, `C97_program`, `C97_success`, `C97_false` |
| C98 | With every warning raised exactly the keys in order are read | partial | `C98_keys_partial`, `C98_lines_partial`, `C98_false` |
| C99 | With every warning raised exactly the key files in order are read | partial | `C99_files_partial`, `C99_texts_partial`, `C99_false` |
| C100 | Which keys, certificates and files in order OpenSSH reads as well | proved | `C100_keys`, `C100_files` |
| C101 | The command line names the file and the passphrase | partial | `C101_exact`, `C101_program`, `C101_help`, `C101_always`, `C101_usual_partial`, `C101_false` |
| C102 | Dictionary operations of parameter objects | proved | `C102_changes`, `C102_combine`, `C102_certificates`, `C102_entries`, `C102_copies` |
| C103 | Keys share no state | proved | `C103_values`, `C103_change`, `C103_make`, `C103_lists`, `C103_popitem`, `C103_derive` |
| C104 | The standard algorithms obey the laws that are assumed of them | proved | `C104_blowfish_vectors`, `C104_blowfish_salt`, `C104_bcrypt_layout`, `C104_bcrypt_vector`, `C104_laws`, `C104_lengths`, `C104_kdf`, `C104_encrypts`, `C104_file`, `C104_blowfish_pi`, `C104_sbox`, `C104_inv_sbox`, `C104_sha_k`, `C104_sha_h`, `C104_aes_vectors`, `C104_mode_vectors`, `C104_des_vectors`, `C104_gcm_vectors`, `C104_chacha_vectors`, `C104_sha_vectors`, `C104_pi_digits`, `C104_blowfish_rounds` |
| C105 | Format instructions that are strings | partial | `C105_formats`, `C105_determined`, `C105_unpack`, `C105_unpack_size`, `C105_pack`, `C105_round_trip`, `C105_parsed`, `C105_used`, `C105_read`, `C105_short`, `C105_read_total`, `C105_check`, `C105_not_format`, `C105_unsupported_partial`, `C105_false` |
| C106 | A failure at the passphrase prompt ends the operation with that failure | partial | `C106_pack`, `C106_parse_partial`, `C106_text_partial`, `C106_program_partial`, `C106_false` |
| C107 | The check of an elliptic curve point is exact | proved | `C107_primes`, `C107_decode`, `C107_valid`, `C107_one_point`, `C107_two`, `C107_warning`, `C107_certificate`, `C107_assumed`, `C107_openssh` |
| C108 | A key file can be rewritten with another comment and passphrase | partial | `C108_reads`, `C108_writes_partial`, `C108_readme_partial`, `C108_false` |
| C109 | The halves of a private key belong together | partial | `C109_convert_partial`, `C109_ed25519`, `C109_false`, `C109_rsa`, `C109_ec`, `C109_laws`, `C109_generated`, `C109_ec_generate` |
| C110 | Parsing stays within the size of the input | partial | `C110_key`, `C110_line`, `C110_list`, `C110_list_text`, `C110_lines`, `C110_warnings`, `C110_warnings_all`, `C110_meter`, `C110_work`, `C110_levels`, `C110_work_reached`, `C110_one_derivation_partial`, `C110_false` |
| C111 | The examples of the README | partial | `C111_private_partial`, `C111_public`, `C111_false`, `C111_modified` |
| C112 | Validity dates and the time zone of the machine | partial | `C112_laws`, `C112_get`, `C112_set`, `C112_set_get_partial`, `C112_skipped`, `C112_same_iff`, `C112_aware`, `C112_before_1970`, `C112_table`, `C112_false` |
| C113 | Only documented exceptions are raised | partial | `C113_raises`, `C113_documented_partial`, `C113_says`, `C113_false`, `C113_reading_partial` |
| C114 | A key file changed without its passphrase is noticed or gives the same keys | partial | `C114_chain`, `C114_clear_partial`, `C114_counter`, `C114_secret`, `C114_tag`, `C114_false` |
| C115 | The checks of the repository's own tests hold of the code | partial | `C115_cipher_vector14`, `C115_cipher_vector15`, `C115_cipher_vector16`, `C115_cipher_vector17`, `C115_cert_type`, `C115_cert_valid_principals`, `C115_cert_valid_after`, `C115_cert_valid_before`, `C115_cert_get_critical_option_str_option`, `C115_cert_get_critical_option_str_option_nonexistent`, `C115_cert_get_critical_option_enum_option`, `C115_cert_get_critical_option_enum_option_wrong_type`, `C115_cert_get_critical_option_duplicate_option`, `C115_cert_set_critical_option_different_option_before`, `C115_cert_set_critical_option_different_option_after`, `C115_cert_set_critical_option_same_option`, `C115_cert_set_critical_option_enum_option`, `C115_cert_set_critical_option_enum_option_wrong_type`, `C115_cert_get_extension_str_option`, `C115_cert_get_extension_str_option_nonexistent`, `C115_cert_get_extension_enum_option`, `C115_cert_get_extension_enum_option_wrong_type`, `C115_cert_get_extension_duplicate_option`, `C115_cert_set_extension_different_option_before`, `C115_cert_set_extension_different_option_after`, `C115_cert_set_extension_same_option`, `C115_cert_set_extension_enum_option`, `C115_cert_set_extension_enum_option_wrong_type`, `C115_cert_pack_signed_bytes`, `C115_cert_get_signature_key`, `C115_cert_set_signature_key`, `C115_cert_set_signature_key_cert`, `C115_sk_flag`, `C115_cipher_vector18`, `C115_cipher_vector0`, `C115_cipher_vector1`, `C115_cipher_vector2_false`, `C115_cipher_vector2_partial`, `C115_cipher_vector3_false`, `C115_cipher_vector3_partial`, `C115_cipher_vector4_false`, `C115_cipher_vector4_partial`, `C115_cipher_vector5_false`, `C115_cipher_vector5_partial`, `C115_cipher_vector6_false`, `C115_cipher_vector6_partial`, `C115_cipher_vector7_false`, `C115_cipher_vector7_partial`, `C115_cipher_vector8`, `C115_cipher_vector9`, `C115_cipher_vector10`, `C115_cipher_vector11`, `C115_cipher_vector12`, `C115_cipher_vector13`, `C115_cipher_factory`, `C115_cipher_none`, `C115_rsa_public_convert_from_unknown`, `C115_rsa_public_convert_from_cryptography_public`, `C115_rsa_public_convert_from_cryptography_private`, `C115_rsa_public_convert_to_cryptography_public`, `C115_rsa_private_generate_private_params`, `C115_rsa_private_generate_private_params_valid_public_exponent`, `C115_rsa_private_generate_private_params_invalid_public_exponent`, `C115_rsa_private_generate_private_params_valid_key_size`, `C115_rsa_private_generate_private_params_invalid_key_size`, `C115_rsa_private_convert_from_unknown`, `C115_rsa_private_convert_from_cryptography_private`, `C115_rsa_private_convert_to_cryptography_private`, `C115_rsa_private_convert_to_cryptography_public`, `C115_rsa_public_convert_to_not_implemented`, `C115_convert_to_not_class`, `C115_dss_public_convert_from_unknown`, `C115_dss_public_convert_from_cryptography_public`, `C115_dss_public_convert_from_cryptography_private`, `C115_dss_public_convert_to_cryptography_public`, `C115_dss_private_convert_from_unknown`, `C115_dss_private_convert_from_cryptography_private`, `C115_dss_private_convert_to_cryptography_private`, `C115_dss_private_convert_to_cryptography_public`, `C115_dss_public_convert_to_not_implemented`, `C115_ed25519_public_convert_from_unknown`, `C115_ed25519_public_convert_from_cryptography_public`, `C115_ed25519_public_convert_from_bytes_public`, `C115_ed25519_public_convert_from_pynacl_public`, `C115_ed25519_public_convert_from_cryptography_private`, `C115_ed25519_public_convert_from_pynacl_private`, `C115_ed25519_public_convert_to_cryptography_public`, `C115_ed25519_public_convert_to_bytes_public`, `C115_ed25519_public_convert_to_pynacl_public`, `C115_ed25519_public_convert_to_missing_pynacl`, `C115_ed25519_private_generate_private_params`, `C115_ed25519_private_convert_from_unknown`, `C115_ed25519_private_convert_from_cryptography_private`, `C115_ed25519_private_convert_from_bytes_private`, `C115_ed25519_private_convert_from_pynacl_private`, `C115_ed25519_private_convert_to_cryptography_private`, `C115_ed25519_private_convert_to_cryptography_public`, `C115_ed25519_private_convert_to_bytes_private`, `C115_ed25519_private_convert_to_pynacl_private`, `C115_ed25519_private_convert_to_pynacl_public`, `C115_ed25519_private_convert_to_missing_pynacl`, `C115_ed25519_public_convert_to_not_implemented`, `C115_ecdsa_public_convert_from_unknown`, `C115_ecdsa_public_convert_from_cryptography_public`, `C115_ecdsa_public_convert_from_cryptography_private`, `C115_ecdsa_public_convert_from_cryptography_public_different_curve`, `C115_ecdsa_public_convert_to_cryptography_public`, `C115_ecdsa_public_convert_to_cryptography_public_bad_curve_identifier`, `C115_ecdsa_private_generate_private_params`, `C115_ecdsa_private_generate_private_params_specific_curve`, `C115_ecdsa_private_convert_from_unknown`, `C115_ecdsa_private_convert_from_cryptography_private`, `C115_ecdsa_private_convert_from_cryptography_private_different_curve`, `C115_ecdsa_private_convert_to_cryptography_private`, `C115_ecdsa_private_convert_to_cryptography_public`, `C115_ecdsa_public_convert_to_not_implemented`, `C115_kdf_bcrypt_generate_options_salt_length`, `C115_kdf_bcrypt_generate_options_rounds`, `C115_list_public_private_key_pair_generate_kwargs`, `C115_key_public_key_header_format_instructions_dict`, `C115_key_public_key_footer_format_instructions_dict`, `C115_key_private_key_header_format_instructions_dict`, `C115_key_private_key_footer_format_instructions_dict`, `C115_key_public_key_init`, `C115_key_public_key_from_byte_stream`, `C115_key_public_key_from_bytes`, `C115_key_public_key_from_bytes_remainder`, `C115_key_public_key_from_string`, `C115_key_public_key_from_string_inconsistent_key_type`, `C115_key_public_key_from_string_not_a_key`, `C115_key_public_key_pack_public_bytes`, `C115_key_public_key_pack_public_string`, `C115_key_public_key_pack_public_string_clear_comment`, `C115_key_public_key_pack_public_string_no_clear_comment`, `C115_key_private_key_init`, `C115_key_private_key_init_invalid_footer`, `C115_key_private_key_from_byte_stream`, `C115_key_private_key_from_bytes`, `C115_key_private_key_pack_public`, `C115_key_private_key_pack_private_bytes`, `C115_key_private_key_pack_public_string`, `C115_key_private_key_pack_public_string_footer_comment`, `C115_key_private_key_pack_public_string_no_footer_comment`, `C115_key_rsa`, `C115_list_public_private_key_pair_generate`, `C115_list_public_private_key_pair_generate_comment`, `C115_list_header_format_instructions_dict`, `C115_list_decipher_bytes_format_instructions_dict`, `C115_list_from_bytes_invalid_auth_magic`, `C115_list_from_bytes_negative_num_keys`, `C115_list_from_bytes_one_key_none`, `C115_list_from_bytes_one_key_bcrypt_aes256ctr`, `C115_list_from_bytes_one_key_bcrypt_aes256gcm`, `C115_list_from_bytes_two_keys_bcrypt_aes256ctr`, `C115_list_from_bytes_two_keys_bcrypt_aes256gcm`, `C115_list_from_bytes_one_key_none_extra_bytes_public_key`, `C115_list_from_bytes_one_key_none_bad_decipher_bytes_header`, `C115_list_from_bytes_one_key_none_inconsistent_key_types`, `C115_list_from_bytes_one_key_none_inconsistent_key_params`, `C115_list_from_bytes_one_key_none_unexpected_padding_bytes`, `C115_list_from_bytes_one_key_none_excess_padding_bytes`, `C115_list_from_bytes_one_key_none_no_padding_bytes`, `C115_list_from_bytes_one_key_none_insufficient_padding_bytes`, `C115_list_from_bytes_passphrase`, `C115_list_from_string`, `C115_list_from_string_incorrect_header`, `C115_list_from_string_incorrect_footer`, `C115_list_from_string_passphrase`, `C115_list_from_list_one_key`, `C115_list_from_list_two_keys`, `C115_list_from_list_bcrypt_aes256_ctr`, `C115_list_from_list_invalid_private_key`, `C115_list_from_list_invalid_public_key`, `C115_list_from_list_invalid_key_pair`, `C115_kdf_factory_none`, `C115_kdf_factory_bcrypt`, `C115_kdf_none_format_instructions_dict`, `C115_kdf_none_generate_options`, `C115_kdf_bcrypt_format_instructions_dict`, `C115_kdf_bcrypt_generate_options`, `C115_kdf_none`, `C115_kdf_bcrypt_calls_lib`, `C115_list_pack_bytes_one_key_none`, `C115_list_pack_bytes_two_keys_none`, `C115_list_pack_bytes_one_key_bcrypt_aes256_ctr`, `C115_list_pack_bytes_one_key_bcrypt_aes256_gcm`, `C115_list_pack_bytes_two_keys_include_indices`, `C115_list_pack_bytes_two_keys_invalid_include_indices`, `C115_list_pack_bytes_override_public_with_private`, `C115_list_pack_bytes_no_override_public_with_private`, `C115_list_pack_bytes_header_none`, `C115_list_pack_bytes_header_no_cipher`, `C115_list_pack_bytes_header_no_kdf`, `C115_list_pack_bytes_header_retain_kdf_options`, `C115_list_pack_bytes_passphrase`, `C115_list_pack_string_one_key_none`, `C115_list_pack_string_one_key_bcrypt_aes256_ctr`, `C115_list_pack_string_two_keys_include_indices`, `C115_list_pack_string_two_keys_invalid_include_indices`, `C115_list_pack_string_override_public_with_private`, `C115_list_pack_string_no_override_public_with_private`, `C115_list_pack_string_one_key_retain_kdf_options`, `C115_list_pack_string_passphrase`, `C115_params_rsaPub`, `C115_params_rsaPriv`, `C115_params_ed25519Pub`, `C115_params_ed25519Priv`, `C115_params_dssPub`, `C115_params_dssPriv`, `C115_params_ec256Pub`, `C115_params_ec256Priv`, `C115_params_ec384Pub`, `C115_params_ec384Priv`, `C115_params_ec521Pub`, `C115_params_ec521Priv`, `C115_params_skEc256Pub`, `C115_params_skEc256Priv`, `C115_params_skEd25519Pub`, `C115_params_skEd25519Priv`, `C115_params_certRsa`, `C115_params_certEd25519`, `C115_params_certDss`, `C115_params_certEc256`, `C115_params_certEc384`, `C115_params_certEc521`, `C115_params_certSkEd25519`, `C115_params_certSkEc256`, `C115_params_factory`, `C115_stream_read_fixed_bytes`, `C115_stream_read_fixed_bytes_underfull_nonempty`, `C115_stream_read_fixed_bytes_underfull_empty`, `C115_stream_read_fixed_bytes_overfull`, `C115_stream_read_fixed_bytes_zero`, `C115_stream_read_pascal_bytes`, `C115_stream_read_negative_pascal_bytes`, `C115_stream_read_pascal_bytes_underfull_length`, `C115_stream_read_pascal_bytes_underfull_string`, `C115_stream_read_pascal_bytes_overfull`, `C115_stream_read_from_struct_single_format_instruction`, `C115_stream_read_from_struct_multiple_format_instruction`, `C115_stream_read_from_string_format_instruction`, `C115_stream_read_from_bytes_format_instruction`, `C115_stream_read_from_pos_mpint_format_instruction`, `C115_stream_read_from_neg_mpint_format_instruction`, `C115_stream_read_from_zero_mpint_format_instruction`, `C115_stream_read_from_string_format_instruction_length`, `C115_stream_read_from_pascal_underfull_length`, `C115_stream_read_from_pascal_underfull_string`, `C115_stream_read_from_pascal_overfull`, `C115_stream_read_from_bad_format_instruction`, `C115_stream_read_from_format_instructions_dict`, `C115_stream_read_from_empty_format_instructions_dict`, `C115_stream_read_from_format_instructions_dict_underfull`, `C115_stream_read_from_format_instructions_dict_overfull`, `C115_stream_read_from_format_instructions_dict_length`, `C115_stream_read_repeatedly_from_format_instructions_dict`, `C115_stream_read_repeatedly_from_format_instructions_dict_empty_stream`, `C115_stream_read_repeatedly_from_empty_format_instructions_dict`, `C115_stream_read_repeatedly_from_format_instructions_dict_underfull`, `C115_stream_read_repeatedly_from_format_instructions_dict_overfull`, `C115_stream_read_repeatedly_from_format_instructions_dict_length`, `C115_stream_write_from_struct_format_instruction`, `C115_stream_write_from_bytes_format_instruction`, `C115_stream_write_from_string_format_instruction`, `C115_stream_write_from_string_format_instruction_string_length_size`, `C115_stream_write_from_pos_no_prefix_mpint_format_instruction`, `C115_stream_write_from_pos_with_prefix_mpint_format_instruction`, `C115_stream_write_from_neg_mpint_format_instruction`, `C115_stream_write_from_zero_mpint_format_instruction`, `C115_stream_write_from_bytes_format_instruction_bad_class_str`, `C115_stream_write_from_bytes_format_instruction_bad_class_int`, `C115_stream_write_from_str_format_instruction_bad_class_bytes`, `C115_stream_write_from_str_format_instruction_bad_class_int`, `C115_stream_write_from_mpint_format_instruction_bad_class_bytes`, `C115_stream_write_from_mpint_format_instruction_bad_class_str`, `C115_stream_write_from_bad_format_instruction`, `C115_stream_write_from_format_instructions_dict`, `C115_stream_write_from_empty_format_instructions_dict`, `C115_stream_write_from_format_instructions_dict_missing_key`, `C115_stream_write_from_format_instructions_dict_length`, `C115_stream_write_repeatedly_from_format_instructions_dict`, `C115_stream_write_repeatedly_from_format_instructions_dict_empty_list`, `C115_stream_write_repeatedly_from_empty_format_instructions_dict`, `C115_stream_write_repeatedly_from_format_instructions_dict_missing_key`, `C115_stream_write_repeatedly_from_format_instructions_dict_length`, `C115_stream_check_dict_str`, `C115_stream_check_dict_bytes`, `C115_stream_check_dict_mpint`, `C115_stream_check_dict_incorrect_type`, `C115_stream_check_dict_format_string`, `C115_stream_check_dict_format_string_too_large`, `C115_stream_check_dict_two_attributes`, `C115_stream_check_dict_missing_attribute`, `C115_stream_check_dict_extra_attribute`, `C115_stream_check_dict_length`, `C115_stream_check_dict_length_incorrect_type`, `C115_stream_check_dict_bad_format_instruction`, `C115_utils_is_abstract_not_abstract`, `C115_utils_is_abstract_abstract`, `C115_utils_is_abstract_concrete`, `C115_utils_readonly_static_property_manual_get_call`, `C115_utils_readonly_static_property_same_class`, `C115_utils_readonly_static_property_subclass_overrides`, `C115_utils_readonly_static_property_subclass_inherits` |
| C116 | The fuzz targets exercise the parser and find nothing | partial | `C116_false`, `C116_silent`, `C116_text`, `C116_lines`, `C116_text_false`, `C116_magic_partial` |
| C117 | A wrong passphrase is noticed | partial | `C117_chain_partial`, `C117_counter_partial`, `C117_tag_partial`, `C117_false` |
| C118 | Static properties and abstract classes follow the class hierarchy, and static properties are read-only | partial | `C118_mro`, `C118_abstract`, `C118_definable`, `C118_static_partial`, `C118_get`, `C118_override`, `C118_inherit`, `C118_false`, `C118_set`, `C118_package`, `C118_missing`, `C118_curves`, `C118_sizes` |
| C119 | Key files are reproduced byte for byte | partial | `C119_laws`, `C119_exact_partial`, `C119_again`, `C119_text_partial`, `C119_false` |
| C120 | Public key lines are reproduced | partial | `C120_form`, `C120_false`, `C120_exact_partial`, `C120_again` |
| C121 | What a key file says in the clear does not depend on the passphrase, and a file that cannot be read is refused without asking for it | partial | `C121_same`, `C121_refused_partial`, `C121_asked`, `C121_false` |
| C122 | Packing a second file under the same passphrase does not reveal its contents to someone who knows those of the first | partial | `C122_difference`, `C122_retained`, `C122_fresh_partial`, `C122_false` |
| C123 | The size of a packed file | proved | `C123_bytes`, `C123_same`, `C123_text` |
| C124 | The key derivation function is used at most once in reading or packing a file, with what the file says, and its cost is limited | partial | `C124_unused`, `C124_once_partial`, `C124_needed`, `C124_pack_unused`, `C124_pack_once`, `C124_false` |
| C125 | Files in cipher block chaining mode with the same options | proved | `C125_visible`, `C125_moved` |

## 9. Axioms of each theorem

Obtained with `#print axioms`.

### no axioms (15 theorems)

`C77_false`, `C104_pi_digits`, `C115_key_public_key_header_format_instructions_dict`, `C115_key_public_key_footer_format_instructions_dict`, `C115_key_private_key_header_format_instructions_dict`, `C115_key_private_key_footer_format_instructions_dict`, `C115_list_header_format_instructions_dict`, `C115_list_decipher_bytes_format_instructions_dict`, `C115_kdf_none_format_instructions_dict`, `C115_kdf_bcrypt_format_instructions_dict`, `C115_stream_read_fixed_bytes`, `C115_stream_read_fixed_bytes_overfull`, `C115_stream_read_fixed_bytes_zero`, `C115_stream_read_pascal_bytes`, `C115_stream_read_negative_pascal_bytes`

### `propext` (166 theorems)

`C01_bytes_roundtrip_default`, `C05_false`, `C07_extra_keys_ignored`, `C12_empty_format`, `C13_false`, `C22_false`, `C48_false`, `C50_failed_set`, `C53_false`, `C54_errors`, `C56_private_contains_public`, `C56_mro_defined`, `C62_false`, `C62_false_abstract`, `C63_instance`, `C68_defaults`, `C78_false`, `C89_false`, `C104_sbox`, `C104_inv_sbox`, `C105_check`, `C115_cert_type`, `C115_cert_valid_principals`, `C115_cert_get_critical_option_str_option`, `C115_cert_get_critical_option_str_option_nonexistent`, `C115_cert_get_critical_option_enum_option`, `C115_cert_get_critical_option_enum_option_wrong_type`, `C115_cert_get_critical_option_duplicate_option`, `C115_cert_set_critical_option_different_option_before`, `C115_cert_set_critical_option_different_option_after`, `C115_cert_set_critical_option_same_option`, `C115_cert_set_critical_option_enum_option`, `C115_cert_set_critical_option_enum_option_wrong_type`, `C115_cert_get_extension_str_option`, `C115_cert_get_extension_str_option_nonexistent`, `C115_cert_get_extension_enum_option`, `C115_cert_get_extension_enum_option_wrong_type`, `C115_cert_get_extension_duplicate_option`, `C115_cert_set_extension_different_option_before`, `C115_cert_set_extension_different_option_after`, `C115_cert_set_extension_same_option`, `C115_cert_set_extension_enum_option`, `C115_cert_set_extension_enum_option_wrong_type`, `C115_cert_pack_signed_bytes`, `C115_cert_get_signature_key`, `C115_cert_set_signature_key`, `C115_cert_set_signature_key_cert`, `C115_sk_flag`, `C115_cipher_factory`, `C115_ecdsa_public_convert_from_unknown`, `C115_ecdsa_private_convert_from_unknown`, `C115_kdf_bcrypt_generate_options_salt_length`, `C115_kdf_bcrypt_generate_options_rounds`, `C115_key_public_key_init`, `C115_key_public_key_from_byte_stream`, `C115_key_public_key_from_bytes`, `C115_key_public_key_from_bytes_remainder`, `C115_key_public_key_from_string`, `C115_key_public_key_from_string_inconsistent_key_type`, `C115_key_public_key_from_string_not_a_key`, `C115_key_public_key_pack_public_bytes`, `C115_key_public_key_pack_public_string`, `C115_key_public_key_pack_public_string_clear_comment`, `C115_key_public_key_pack_public_string_no_clear_comment`, `C115_key_private_key_init`, `C115_key_private_key_init_invalid_footer`, `C115_key_private_key_from_byte_stream`, `C115_key_private_key_from_bytes`, `C115_key_private_key_pack_public`, `C115_key_private_key_pack_private_bytes`, `C115_key_private_key_pack_public_string`, `C115_key_private_key_pack_public_string_footer_comment`, `C115_key_private_key_pack_public_string_no_footer_comment`, `C115_key_rsa`, `C115_list_public_private_key_pair_generate`, `C115_list_public_private_key_pair_generate_comment`, `C115_list_from_list_one_key`, `C115_list_from_list_two_keys`, `C115_list_from_list_bcrypt_aes256_ctr`, `C115_list_from_list_invalid_private_key`, `C115_list_from_list_invalid_public_key`, `C115_list_from_list_invalid_key_pair`, `C115_kdf_factory_none`, `C115_kdf_factory_bcrypt`, `C115_kdf_none_generate_options`, `C115_kdf_bcrypt_generate_options`, `C115_kdf_none`, `C115_kdf_bcrypt_calls_lib`, `C115_params_factory`, `C115_stream_read_fixed_bytes_underfull_nonempty`, `C115_stream_read_fixed_bytes_underfull_empty`, `C115_stream_read_pascal_bytes_underfull_length`, `C115_stream_read_pascal_bytes_underfull_string`, `C115_stream_read_pascal_bytes_overfull`, `C115_stream_read_from_struct_single_format_instruction`, `C115_stream_read_from_struct_multiple_format_instruction`, `C115_stream_read_from_string_format_instruction`, `C115_stream_read_from_bytes_format_instruction`, `C115_stream_read_from_pos_mpint_format_instruction`, `C115_stream_read_from_neg_mpint_format_instruction`, `C115_stream_read_from_zero_mpint_format_instruction`, `C115_stream_read_from_string_format_instruction_length`, `C115_stream_read_from_pascal_underfull_length`, `C115_stream_read_from_pascal_underfull_string`, `C115_stream_read_from_pascal_overfull`, `C115_stream_read_from_bad_format_instruction`, `C115_stream_read_from_format_instructions_dict`, `C115_stream_read_from_empty_format_instructions_dict`, `C115_stream_read_from_format_instructions_dict_underfull`, `C115_stream_read_from_format_instructions_dict_overfull`, `C115_stream_read_from_format_instructions_dict_length`, `C115_stream_read_repeatedly_from_format_instructions_dict`, `C115_stream_read_repeatedly_from_format_instructions_dict_empty_stream`, `C115_stream_read_repeatedly_from_empty_format_instructions_dict`, `C115_stream_read_repeatedly_from_format_instructions_dict_underfull`, `C115_stream_read_repeatedly_from_format_instructions_dict_overfull`, `C115_stream_read_repeatedly_from_format_instructions_dict_length`, `C115_stream_write_from_struct_format_instruction`, `C115_stream_write_from_bytes_format_instruction`, `C115_stream_write_from_string_format_instruction`, `C115_stream_write_from_string_format_instruction_string_length_size`, `C115_stream_write_from_pos_no_prefix_mpint_format_instruction`, `C115_stream_write_from_pos_with_prefix_mpint_format_instruction`, `C115_stream_write_from_neg_mpint_format_instruction`, `C115_stream_write_from_zero_mpint_format_instruction`, `C115_stream_write_from_bytes_format_instruction_bad_class_str`, `C115_stream_write_from_bytes_format_instruction_bad_class_int`, `C115_stream_write_from_str_format_instruction_bad_class_bytes`, `C115_stream_write_from_str_format_instruction_bad_class_int`, `C115_stream_write_from_mpint_format_instruction_bad_class_bytes`, `C115_stream_write_from_mpint_format_instruction_bad_class_str`, `C115_stream_write_from_bad_format_instruction`, `C115_stream_write_from_format_instructions_dict`, `C115_stream_write_from_empty_format_instructions_dict`, `C115_stream_write_from_format_instructions_dict_missing_key`, `C115_stream_write_from_format_instructions_dict_length`, `C115_stream_write_repeatedly_from_format_instructions_dict`, `C115_stream_write_repeatedly_from_format_instructions_dict_empty_list`, `C115_stream_write_repeatedly_from_empty_format_instructions_dict`, `C115_stream_write_repeatedly_from_format_instructions_dict_missing_key`, `C115_stream_write_repeatedly_from_format_instructions_dict_length`, `C115_stream_check_dict_str`, `C115_stream_check_dict_bytes`, `C115_stream_check_dict_mpint`, `C115_stream_check_dict_incorrect_type`, `C115_stream_check_dict_format_string`, `C115_stream_check_dict_format_string_too_large`, `C115_stream_check_dict_two_attributes`, `C115_stream_check_dict_missing_attribute`, `C115_stream_check_dict_extra_attribute`, `C115_stream_check_dict_length`, `C115_stream_check_dict_length_incorrect_type`, `C115_stream_check_dict_bad_format_instruction`, `C115_utils_is_abstract_not_abstract`, `C115_utils_is_abstract_abstract`, `C115_utils_is_abstract_concrete`, `C115_utils_readonly_static_property_manual_get_call`, `C115_utils_readonly_static_property_same_class`, `C115_utils_readonly_static_property_subclass_overrides`, `C115_utils_readonly_static_property_subclass_inherits`, `C116_text`, `C118_false`, `C118_set`, `C118_missing`, `C118_curves`, `C118_sizes`

### `propext, Quot.sound` (221 theorems)

`C10_no_leak_fixed`, `C10_no_leak_record`, `C19_unsupported_construct`, `C23_encode_rfc4648`, `C23_decode`, `C23_decode_str`, `C23_roundtrip_str`, `C27_only_value_error`, `C28_false`, `C35_false`, `C36_failure`, `C39_false`, `C50_type`, `C50_option_guard`, `C51_rejects_certificates`, `C55_ed25519_check`, `C56_format_tables`, `C57_false`, `C58_false`, `C59_convert_from`, `C59_public_of_private`, `C60_private_round_trip`, `C60_public_round_trip`, `C61_private_object`, `C61_public_object`, `C62_plain_partial`, `C63_unsupported`, `C63_public_destination`, `C64_curve_class`, `C65_generate`, `C65_as_converted`, `C65_default_curve`, `C66_refused`, `C70_forever`, `C87_from_list`, `C95_lines_false`, `C97_keys_partial`, `C97_stream`, `C97_pack`, `C97_lists`, `C97_program`, `C97_false`, `C101_false`, `C102_changes`, `C102_entries`, `C102_copies`, `C103_popitem`, `C104_kdf`, `C104_encrypts`, `C104_sha_k`, `C104_sha_h`, `C104_aes_vectors`, `C104_mode_vectors`, `C104_des_vectors`, `C104_gcm_vectors`, `C104_chacha_vectors`, `C104_sha_vectors`, `C104_blowfish_rounds`, `C108_false`, `C111_private_partial`, `C111_public`, `C111_false`, `C114_counter`, `C115_cipher_vector14`, `C115_cipher_vector15`, `C115_cipher_vector16`, `C115_cipher_vector17`, `C115_cert_valid_after`, `C115_cert_valid_before`, `C115_cipher_vector18`, `C115_cipher_vector0`, `C115_cipher_vector1`, `C115_cipher_vector2_false`, `C115_cipher_vector2_partial`, `C115_cipher_vector3_false`, `C115_cipher_vector3_partial`, `C115_cipher_vector4_false`, `C115_cipher_vector4_partial`, `C115_cipher_vector5_false`, `C115_cipher_vector5_partial`, `C115_cipher_vector6_false`, `C115_cipher_vector6_partial`, `C115_cipher_vector7_false`, `C115_cipher_vector7_partial`, `C115_cipher_vector8`, `C115_cipher_vector9`, `C115_cipher_vector10`, `C115_cipher_vector11`, `C115_cipher_vector12`, `C115_cipher_vector13`, `C115_cipher_none`, `C115_rsa_public_convert_from_unknown`, `C115_rsa_public_convert_from_cryptography_public`, `C115_rsa_public_convert_from_cryptography_private`, `C115_rsa_public_convert_to_cryptography_public`, `C115_rsa_private_generate_private_params`, `C115_rsa_private_generate_private_params_valid_public_exponent`, `C115_rsa_private_generate_private_params_invalid_public_exponent`, `C115_rsa_private_generate_private_params_valid_key_size`, `C115_rsa_private_generate_private_params_invalid_key_size`, `C115_rsa_private_convert_from_unknown`, `C115_rsa_private_convert_from_cryptography_private`, `C115_rsa_private_convert_to_cryptography_private`, `C115_rsa_private_convert_to_cryptography_public`, `C115_convert_to_not_class`, `C115_dss_public_convert_from_unknown`, `C115_dss_public_convert_from_cryptography_public`, `C115_dss_public_convert_from_cryptography_private`, `C115_dss_public_convert_to_cryptography_public`, `C115_dss_private_convert_from_unknown`, `C115_dss_private_convert_from_cryptography_private`, `C115_dss_private_convert_to_cryptography_private`, `C115_dss_private_convert_to_cryptography_public`, `C115_ed25519_public_convert_from_unknown`, `C115_ed25519_public_convert_from_cryptography_public`, `C115_ed25519_public_convert_from_bytes_public`, `C115_ed25519_public_convert_from_pynacl_public`, `C115_ed25519_public_convert_from_cryptography_private`, `C115_ed25519_public_convert_from_pynacl_private`, `C115_ed25519_public_convert_to_cryptography_public`, `C115_ed25519_public_convert_to_bytes_public`, `C115_ed25519_public_convert_to_pynacl_public`, `C115_ed25519_public_convert_to_missing_pynacl`, `C115_ed25519_private_generate_private_params`, `C115_ed25519_private_convert_from_unknown`, `C115_ed25519_private_convert_from_cryptography_private`, `C115_ed25519_private_convert_from_bytes_private`, `C115_ed25519_private_convert_from_pynacl_private`, `C115_ed25519_private_convert_to_cryptography_private`, `C115_ed25519_private_convert_to_cryptography_public`, `C115_ed25519_private_convert_to_bytes_private`, `C115_ed25519_private_convert_to_pynacl_private`, `C115_ed25519_private_convert_to_pynacl_public`, `C115_ed25519_private_convert_to_missing_pynacl`, `C115_ed25519_public_convert_to_not_implemented`, `C115_ecdsa_public_convert_from_cryptography_public`, `C115_ecdsa_public_convert_from_cryptography_private`, `C115_ecdsa_public_convert_from_cryptography_public_different_curve`, `C115_ecdsa_public_convert_to_cryptography_public`, `C115_ecdsa_public_convert_to_cryptography_public_bad_curve_identifier`, `C115_ecdsa_private_generate_private_params`, `C115_ecdsa_private_generate_private_params_specific_curve`, `C115_ecdsa_private_convert_from_cryptography_private`, `C115_ecdsa_private_convert_from_cryptography_private_different_curve`, `C115_ecdsa_private_convert_to_cryptography_private`, `C115_ecdsa_private_convert_to_cryptography_public`, `C115_ecdsa_public_convert_to_not_implemented`, `C115_list_public_private_key_pair_generate_kwargs`, `C115_list_from_bytes_invalid_auth_magic`, `C115_list_from_bytes_negative_num_keys`, `C115_list_from_bytes_one_key_none`, `C115_list_from_bytes_one_key_bcrypt_aes256ctr`, `C115_list_from_bytes_one_key_bcrypt_aes256gcm`, `C115_list_from_bytes_two_keys_bcrypt_aes256ctr`, `C115_list_from_bytes_two_keys_bcrypt_aes256gcm`, `C115_list_from_bytes_one_key_none_extra_bytes_public_key`, `C115_list_from_bytes_one_key_none_bad_decipher_bytes_header`, `C115_list_from_bytes_one_key_none_inconsistent_key_types`, `C115_list_from_bytes_one_key_none_inconsistent_key_params`, `C115_list_from_bytes_one_key_none_unexpected_padding_bytes`, `C115_list_from_bytes_one_key_none_excess_padding_bytes`, `C115_list_from_bytes_one_key_none_no_padding_bytes`, `C115_list_from_bytes_one_key_none_insufficient_padding_bytes`, `C115_list_from_bytes_passphrase`, `C115_list_from_string`, `C115_list_from_string_incorrect_header`, `C115_list_from_string_incorrect_footer`, `C115_list_from_string_passphrase`, `C115_list_pack_bytes_one_key_none`, `C115_list_pack_bytes_two_keys_none`, `C115_list_pack_bytes_one_key_bcrypt_aes256_ctr`, `C115_list_pack_bytes_one_key_bcrypt_aes256_gcm`, `C115_list_pack_bytes_two_keys_include_indices`, `C115_list_pack_bytes_two_keys_invalid_include_indices`, `C115_list_pack_bytes_override_public_with_private`, `C115_list_pack_bytes_no_override_public_with_private`, `C115_list_pack_bytes_header_none`, `C115_list_pack_bytes_header_no_cipher`, `C115_list_pack_bytes_header_no_kdf`, `C115_list_pack_bytes_header_retain_kdf_options`, `C115_list_pack_bytes_passphrase`, `C115_list_pack_string_one_key_none`, `C115_list_pack_string_one_key_bcrypt_aes256_ctr`, `C115_list_pack_string_two_keys_include_indices`, `C115_list_pack_string_two_keys_invalid_include_indices`, `C115_list_pack_string_override_public_with_private`, `C115_list_pack_string_no_override_public_with_private`, `C115_list_pack_string_one_key_retain_kdf_options`, `C115_list_pack_string_passphrase`, `C115_params_rsaPub`, `C115_params_rsaPriv`, `C115_params_ed25519Pub`, `C115_params_ed25519Priv`, `C115_params_dssPub`, `C115_params_dssPriv`, `C115_params_ec256Pub`, `C115_params_ec256Priv`, `C115_params_ec384Pub`, `C115_params_ec384Priv`, `C115_params_ec521Pub`, `C115_params_ec521Priv`, `C115_params_skEc256Pub`, `C115_params_skEc256Priv`, `C115_params_skEd25519Pub`, `C115_params_skEd25519Priv`, `C115_params_certRsa`, `C115_params_certEd25519`, `C115_params_certDss`, `C115_params_certEc256`, `C115_params_certEc384`, `C115_params_certEc521`, `C115_params_certSkEd25519`, `C115_params_certSkEc256`, `C116_false`, `C116_silent`, `C118_static_partial`, `C118_get`, `C118_package`, `C119_false`, `C124_pack_unused`, `C124_false`

### `propext, Classical.choice, Quot.sound` (323 theorems)

`C01_bytes_roundtrip`, `C02_text_roundtrip`, `C02_text_unencodable`, `C02_text_read`, `C02_text_reencode`, `C03_mpint_roundtrip`, `C03_mpint_nonneg_writable`, `C04_mpint_canonical`, `C04_mpint_canonical_leading`, `C05_every_int_writable_partial`, `C06_struct_int`, `C06_struct_bytes`, `C07_record_roundtrip`, `C08_reads_local`, `C08_reads_local_single`, `C09_truncated_record`, `C09_truncated_written_record`, `C11_repeated_roundtrip`, `C12_repeated_terminates`, `C12_zero_size_diverges`, `C13_repeated_incomplete_partial`, `C13_repeated_single_struct_partial`, `C14_check_silent_iff`, `C14_warning_write_raises`, `C14_silent_write_fails_only_unencodable`, `C15_public_key_roundtrip`, `C15_public_key_roundtrip_eq`, `C16_parse_pack_parse`, `C16_pack_succeeds`, `C17_canonical_partial`, `C17_canonical_nonneg`, `C17_false`, `C18_excess_split`, `C18_excess_appended`, `C19_supported_names`, `C19_unsupported_parse`, `C20_private_keys_in_stream`, `C21_public_bytes_noninterference`, `C21_public_string_noninterference`, `C22_line`, `C22_roundtrip_partial`, `C24_type_mismatch`, `C25_round_trip`, `C26_no_warnings`, `C28_only_value_error_partial`, `C29_truncated`, `C30_suffix`, `C31_padding_warning`, `C31_pack`, `C32_check_warning`, `C32_pack`, `C33_selects`, `C33_count`, `C33_out_of_range`, `C34_parse_prompts`, `C34_parse_prompts_iff`, `C34_parse_none`, `C34_pack_prompts`, `C34_pack_prompts_iff`, `C34_pack_none`, `C35_sealed_partial`, `C35_none`, `C36_parse`, `C36_layout`, `C36_round_trip`, `C36_keys`, `C37_front`, `C38_magic`, `C38_negative`, `C38_count`, `C39_retained`, `C39_fresh`, `C39_repacked`, `C39_from_list_partial`, `C40_pair_warnings`, `C41_key_iv_split`, `C41_names`, `C42_decrypt_encrypt`, `C42_chacha`, `C43_tag`, `C43_rejects`, `C44_tag`, `C45_get_after_set`, `C45_set_twice`, `C45_commute`, `C45_set_succeeds_iff`, `C45_sequences`, `C46_sorted_unique`, `C46_bytewise`, `C47_principals_roundtrip`, `C47_rejected`, `C48_empty_principals_partial`, `C49_signed_bytes`, `C51_roundtrip`, `C52_nesting_bounded`, `C53_authority_partial`, `C54_set_get`, `C54_idempotent`, `C54_sequences`, `C55_warnings`, `C57_packed_partial`, `C58_lines_partial`, `C58_aborts`, `C62_derived`, `C62_depth`, `C67_keys_pack`, `C67_list_round_trip`, `C68_generate_options`, `C69_succeeds`, `C70_set`, `C70_set_after_get`, `C71_checks`, `C71_certificate_checks`, `C72_parse_warnings`, `C73_list_warnings`, `C73_packed_list`, `C73_generated_list`, `C74_unambiguous`, `C74_accepts`, `C74_end_of_data`, `C74_not_text`, `C74_unknown`, `C74_lists`, `C74_certificate_faults`, `C75_accepts`, `C75_rejects`, `C75_unambiguous`, `C75_texts`, `C76_accepts`, `C76_errors`, `C77_names_partial`, `C77_x11_not_set`, `C78_same_type_partial`, `C78_with_type_partial`, `C79_public`, `C79_private`, `C79_lists`, `C80_equivalence`, `C80_congruence`, `C81_layout`, `C81_output`, `C81_unambiguous`, `C82_outcome_partial`, `C82_false`, `C82_usual_partial`, `C83_determined`, `C84_line_ends`, `C84_files`, `C85_false`, `C85_in_place_partial`, `C86_changes`, `C86_new_lists`, `C88_equivalence`, `C88_congruence`, `C89_count_partial`, `C90_field`, `C90_public`, `C90_private`, `C91_unprepared`, `C91_prepared`, `C91_complete`, `C92_limit_partial`, `C92_false`, `C93_reads_partial`, `C93_text_partial`, `C93_false`, `C93_text_false`, `C94_written_partial`, `C94_count`, `C94_rijndael`, `C94_false`, `C94_text`, `C95_keys_partial`, `C95_lines_partial`, `C95_false`, `C96_keys_partial`, `C96_principals`, `C96_options`, `C96_authority`, `C96_lines_partial`, `C96_false`, `C97_set_option`, `C97_success`, `C98_keys_partial`, `C98_lines_partial`, `C98_false`, `C99_files_partial`, `C99_texts_partial`, `C99_false`, `C100_keys`, `C100_files`, `C101_exact`, `C101_program`, `C101_help`, `C101_always`, `C101_usual_partial`, `C102_combine`, `C102_certificates`, `C103_values`, `C103_change`, `C103_make`, `C103_lists`, `C103_derive`, `C104_blowfish_vectors`, `C104_blowfish_salt`, `C104_bcrypt_layout`, `C104_bcrypt_vector`, `C104_laws`, `C104_lengths`, `C104_file`, `C104_blowfish_pi`, `C105_formats`, `C105_determined`, `C105_unpack`, `C105_unpack_size`, `C105_pack`, `C105_round_trip`, `C105_parsed`, `C105_used`, `C105_read`, `C105_short`, `C105_read_total`, `C105_not_format`, `C105_unsupported_partial`, `C105_false`, `C106_pack`, `C106_parse_partial`, `C106_text_partial`, `C106_program_partial`, `C106_false`, `C107_primes`, `C107_decode`, `C107_valid`, `C107_one_point`, `C107_two`, `C107_warning`, `C107_certificate`, `C107_assumed`, `C107_openssh`, `C108_reads`, `C108_writes_partial`, `C108_readme_partial`, `C109_convert_partial`, `C109_ed25519`, `C109_false`, `C109_rsa`, `C109_ec`, `C109_laws`, `C109_generated`, `C109_ec_generate`, `C110_key`, `C110_line`, `C110_list`, `C110_list_text`, `C110_lines`, `C110_warnings`, `C110_warnings_all`, `C110_meter`, `C110_work`, `C110_levels`, `C110_work_reached`, `C110_one_derivation_partial`, `C110_false`, `C111_modified`, `C112_laws`, `C112_get`, `C112_set`, `C112_set_get_partial`, `C112_skipped`, `C112_same_iff`, `C112_aware`, `C112_before_1970`, `C112_table`, `C112_false`, `C113_raises`, `C113_documented_partial`, `C113_says`, `C113_false`, `C113_reading_partial`, `C114_chain`, `C114_clear_partial`, `C114_secret`, `C114_tag`, `C114_false`, `C115_rsa_public_convert_to_not_implemented`, `C115_dss_public_convert_to_not_implemented`, `C116_lines`, `C116_text_false`, `C116_magic_partial`, `C117_chain_partial`, `C117_counter_partial`, `C117_tag_partial`, `C117_false`, `C118_mro`, `C118_abstract`, `C118_definable`, `C118_override`, `C118_inherit`, `C119_laws`, `C119_exact_partial`, `C119_again`, `C119_text_partial`, `C120_form`, `C120_false`, `C120_exact_partial`, `C120_again`, `C121_same`, `C121_refused_partial`, `C121_asked`, `C121_false`, `C122_difference`, `C122_retained`, `C122_fresh_partial`, `C122_false`, `C123_bytes`, `C123_same`, `C123_text`, `C124_unused`, `C124_once_partial`, `C124_needed`, `C124_pack_once`, `C125_visible`, `C125_moved`
