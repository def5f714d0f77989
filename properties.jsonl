{"id": "C01", "title": "Length-prefixed bytes round-trip", "statement": "Writing a bytes value with the BYTES instruction and any positive length-prefix size n succeeds exactly when its length is < 256^n; reading it back with the same instruction returns the identical value, consumes exactly the bytes written, and is unaffected by whatever precedes or follows in the stream.", "quantifier": "every byte string, every prefix size n>=1, every surrounding stream content", "why_tests_cant": "The set of inputs is infinite (unbounded lengths/values); a test suite only samples it.", "anchors": ["openssh_key/pascal_style_byte_stream.py:write_from_format_instruction", "openssh_key/pascal_style_byte_stream.py:read_from_format_instruction", "openssh_key/pascal_style_byte_stream.py:read_pascal_bytes"]}
{"id": "C02", "title": "Length-prefixed text round-trip", "statement": "A str written with the STRING instruction is stored as strict UTF-8 and read back as the identical str; a str that has no UTF-8 encoding (lone surrogate) raises UnicodeEncodeError and nothing is written; a stored byte string that is not strict UTF-8 (overlong, surrogate, > U+10FFFF, truncated) raises UnicodeDecodeError; and decoding then encoding reproduces the stored bytes.", "quantifier": "every str (list of code points) and every byte string", "why_tests_cant": "The set of inputs is infinite (unbounded lengths/values); a test suite only samples it.", "anchors": ["openssh_key/pascal_style_byte_stream.py:write_from_format_instruction", "openssh_key/pascal_style_byte_stream.py:read_from_format_instruction"]}
{"id": "C03", "title": "Multi-precision integer round-trip", "statement": "Whenever an int can be written with the MPINT instruction, reading it back yields the identical int; every non-negative int (of representable size) can be written.", "quantifier": "every Python int", "why_tests_cant": "The set of inputs is infinite (unbounded lengths/values); a test suite only samples it.", "anchors": ["openssh_key/pascal_style_byte_stream.py:write_from_format_instruction", "openssh_key/pascal_style_byte_stream.py:read_from_format_instruction"]}
{"id": "C04", "title": "MPINT wire form is the RFC 4251 canonical one", "statement": "The bytes written for an int are its shortest big-endian two's-complement form: zero is the empty string, positive numbers get a leading 00 only if the top bit would be set, negative numbers have no redundant leading FF; hence the encoding of an int is unique.", "quantifier": "every int that can be written", "why_tests_cant": "The set of inputs is infinite (unbounded lengths/values); a test suite only samples it.", "anchors": ["openssh_key/pascal_style_byte_stream.py:write_from_format_instruction"]}
{"id": "C05", "title": "Every int can be written as MPINT", "statement": "write_from_format_instruction(MPINT, v) succeeds for every int v whose encoding fits the length prefix, as the docstring (signed big-endian int) promises.", "quantifier": "every int, in particular every negative int", "why_tests_cant": "The set of inputs is infinite (unbounded lengths/values); a test suite only samples it. The failing values (e.g. -129) are sparse.", "anchors": ["openssh_key/pascal_style_byte_stream.py:write_from_format_instruction"]}
{"id": "C06", "title": "Fixed-width struct fields round-trip and are range-checked", "statement": "A struct-format field accepts exactly the ints of its width and signedness (others raise struct.error and write nothing), occupies exactly calcsize bytes and reads back as the identical int; an 'Ns' field reads back identically when given exactly N bytes.", "quantifier": "every single-value integer/bytes struct format, every value", "why_tests_cant": "The set of inputs is infinite (unbounded lengths/values); a test suite only samples it.", "anchors": ["openssh_key/pascal_style_byte_stream.py:write_from_format_instruction", "openssh_key/pascal_style_byte_stream.py:read_from_format_instruction"]}
{"id": "C07", "title": "Record round-trip", "statement": "Writing a dict of values under a dict of format instructions and reading it with the same format instructions returns exactly the named values, in format order, consuming exactly what was written; extra keys in the values dict do not affect the bytes.", "quantifier": "every format-instruction dict (any number and mix of instructions) and every values dict", "why_tests_cant": "The set of inputs is infinite (unbounded lengths/values); a test suite only samples it.", "anchors": ["openssh_key/pascal_style_byte_stream.py:write_from_format_instructions_dict", "openssh_key/pascal_style_byte_stream.py:read_from_format_instructions_dict"]}
{"id": "C08", "title": "Reads are local and non-destructive", "statement": "Reading (any instruction or record) never changes the stream's contents, never moves the position backwards, never depends on bytes before the position or, when it succeeds, on bytes after what it consumed.", "quantifier": "every stream content, position, format and trailing data", "why_tests_cant": "The set of inputs is infinite (unbounded lengths/values); a test suite only samples it.", "anchors": ["openssh_key/pascal_style_byte_stream.py:read_from_format_instruction", "openssh_key/pascal_style_byte_stream.py:read_from_format_instructions_dict", "openssh_key/pascal_style_byte_stream.py:read_fixed_bytes"]}
{"id": "C09", "title": "Truncated records are rejected", "statement": "Reading a record from any proper prefix of a valid encoding of that record raises EOFError; it never returns a (wrong) value.", "quantifier": "every record encoding and every truncation point", "why_tests_cant": "The set of inputs is infinite (unbounded lengths/values); a test suite only samples it. Every cut position of every record must be covered.", "anchors": ["openssh_key/pascal_style_byte_stream.py:read_from_format_instructions_dict", "openssh_key/pascal_style_byte_stream.py:read_fixed_bytes"]}
{"id": "C10", "title": "Read errors do not leak stream contents (CVE-2022-31124)", "statement": "The exception raised when the stream is too short depends only on how many bytes were available and requested, never on the byte values.", "quantifier": "every pair of equally long stream contents", "why_tests_cant": "Non-interference is a statement about pairs of runs.", "anchors": ["openssh_key/pascal_style_byte_stream.py:read_fixed_bytes"]}
{"id": "C11", "title": "Repeated record round-trip", "statement": "write_repeatedly followed by read_repeatedly returns the same list of records, for lists of any length.", "quantifier": "every non-empty format with at least one byte per record, every list of records", "why_tests_cant": "The set of inputs is infinite (unbounded lengths/values); a test suite only samples it.", "anchors": ["openssh_key/pascal_style_byte_stream.py:write_repeatedly_from_format_instructions_dict", "openssh_key/pascal_style_byte_stream.py:read_repeatedly_from_format_instructions_dict"]}
{"id": "C12", "title": "Repeated reading terminates", "statement": "read_repeatedly terminates on every stream as long as a record of the given format occupies at least one byte, after at most (remaining bytes + 1) iterations; an empty format dict raises ValueError.", "quantifier": "every stream and every format whose records are never empty", "why_tests_cant": "Termination is a liveness statement over all inputs; a hanging input cannot be found by passing tests.", "anchors": ["openssh_key/pascal_style_byte_stream.py:read_repeatedly_from_format_instructions_dict"]}
{"id": "C13", "title": "Repeated reading rejects an incomplete last record", "statement": "read_repeatedly raises EOFError whenever the stream ends inside a record (its docstring), so that a truncated list is never mistaken for a shorter one.", "quantifier": "every stream content and format", "why_tests_cant": "The set of inputs is infinite (unbounded lengths/values); a test suite only samples it. The accepted bad cases are exactly those cut at an internal field boundary.", "anchors": ["openssh_key/pascal_style_byte_stream.py:read_repeatedly_from_format_instructions_dict", "openssh_key/pascal_style_byte_stream.py:read_fixed_bytes"]}
{"id": "C14", "title": "Value checking predicts writability", "statement": "check_dict_matches_format_instructions_dict emits no warning exactly when every field is present and has the class (or struct-packability) the format asks for; if it warns, writing the dict raises; if it is silent, writing can only fail because a value cannot be encoded at all (integer/length overflow or unencodable text).", "quantifier": "every values dict and every format dict", "why_tests_cant": "The set of inputs is infinite (unbounded lengths/values); a test suite only samples it.", "anchors": ["openssh_key/pascal_style_byte_stream.py:check_dict_matches_format_instructions_dict", "openssh_key/pascal_style_byte_stream.py:write_from_format_instructions_dict"]}
{"id": "C15", "title": "Public key round-trip", "statement": "For each of the 16 supported key types, a public key object whose parameters can be packed is recovered by from_bytes(pack_public_bytes()): same key type, same parameter class, same parameter values, no remainder.", "quantifier": "every supported key type and all parameter values", "why_tests_cant": "The set of inputs is infinite (unbounded lengths/values); a test suite only samples it.", "anchors": ["openssh_key/key.py:Key.pack_public_bytes", "openssh_key/key.py:Key.from_bytes", "openssh_key/key_params/factory.py"]}
{"id": "C16", "title": "Parse-pack-parse stability", "statement": "If a byte string parses as a public key and the result can be packed again, parsing the packed bytes gives the same key; packing succeeds for every parsed key all of whose integers are writable.", "quantifier": "every byte string", "why_tests_cant": "The set of inputs is infinite (unbounded lengths/values); a test suite only samples it.", "anchors": ["openssh_key/key.py:Key.from_bytes", "openssh_key/key.py:Key.pack_public_bytes"]}
{"id": "C17", "title": "Canonical public keys are reproduced byte for byte", "statement": "If a byte string parses as a public key with no excess bytes and every integer in it is in RFC 4251 canonical form, packing the parsed key returns the original byte string.", "quantifier": "every byte string", "why_tests_cant": "The set of inputs is infinite (unbounded lengths/values); a test suite only samples it.", "anchors": ["openssh_key/key.py:Key.from_bytes", "openssh_key/key.py:Key.pack_public_bytes"]}
{"id": "C18", "title": "Excess bytes are reported and preserved", "statement": "from_bytes on key bytes followed by extra bytes emits the 'Excess bytes in key' warning exactly when there are extra bytes, stores exactly those bytes as clear['remainder'], and parses the key as if they were absent.", "quantifier": "every parseable key and every trailing byte string", "why_tests_cant": "The set of inputs is infinite (unbounded lengths/values); a test suite only samples it.", "anchors": ["openssh_key/key.py:Key.from_bytes"]}
{"id": "C19", "title": "Unsupported key types are rejected", "statement": "A key type name outside the 16 supported names raises KeyError when parsing or constructing a key, and certificate types have no private key class.", "quantifier": "every key type name", "why_tests_cant": "The set of inputs is infinite (unbounded lengths/values); a test suite only samples it.", "anchors": ["openssh_key/key_params/factory.py:get_public_key_params_class", "openssh_key/key_params/factory.py:get_private_key_params_class"]}
{"id": "C20", "title": "Private key round-trip inside a stream", "statement": "Any number of private keys (of the 8 private types, any mix) packed with pack_private_bytes back to back are read one after another by from_byte_stream as the same keys, including comments.", "quantifier": "every list of packable private keys", "why_tests_cant": "The set of inputs is infinite (unbounded lengths/values); a test suite only samples it.", "anchors": ["openssh_key/key.py:PrivateKey.pack_private_bytes", "openssh_key/key.py:Key.from_byte_stream"]}
{"id": "C21", "title": "Public packing never reveals private parameters", "statement": "pack_public_bytes/pack_public_string of a private key depend only on the key type, the public parameters (and the comment for the string): changing any private parameter leaves the output unchanged, and the output equals that of the corresponding public key.", "quantifier": "every pair of private keys agreeing on public parameters", "why_tests_cant": "Non-interference is a statement about pairs of runs.", "anchors": ["openssh_key/key.py:Key.pack_public_bytes", "openssh_key/key.py:Key.pack_public_string"]}
{"id": "C22", "title": "Public key line round-trip", "statement": "PublicKey.from_string(pack_public_string()) recovers the key type and parameters and the comment; parsing a line of the form 'type base64 comment' keeps the comment verbatim, including spaces.", "quantifier": "every packable public key and every comment", "why_tests_cant": "The set of inputs is infinite (unbounded lengths/values); a test suite only samples it.", "anchors": ["openssh_key/key.py:Key.from_string", "openssh_key/key.py:Key.pack_public_string"]}
{"id": "C23", "title": "Base64 layer is lossless and ignores line breaks", "statement": "Decoding an encoded byte string gives it back, even with newline or other non-alphabet characters interspersed.", "quantifier": "every byte string and every placement of non-alphabet characters", "why_tests_cant": "The set of inputs is infinite (unbounded lengths/values); a test suite only samples it.", "anchors": ["openssh_key/key.py:Key.from_string", "openssh_key/private_key_list.py:PrivateKeyList.from_string", "openssh_key/private_key_list.py:PrivateKeyList.pack_string"]}
{"id": "C24", "title": "Cleartext/encoded key type mismatch is reported", "statement": "from_string warns about inconsistent key types exactly when the first word of the line differs from the encoded key type.", "quantifier": "every parseable line", "why_tests_cant": "The set of inputs is infinite (unbounded lengths/values); a test suite only samples it.", "anchors": ["openssh_key/key.py:Key.from_string"]}
{"id": "C25", "title": "Key list round-trip", "statement": "A list of key pairs packed with a supported cipher/KDF and passphrase is recovered by from_bytes with the same passphrase: same pairs, in order, with the same types, parameters and comments.", "quantifier": "every list of packable key pairs, every supported cipher and KDF combination that packs, every passphrase, salt and check number", "why_tests_cant": "The set of inputs is infinite (unbounded lengths/values); a test suite only samples it. Also ranges over all randomness.", "anchors": ["openssh_key/private_key_list.py:PrivateKeyList.pack_bytes", "openssh_key/private_key_list.py:PrivateKeyList.from_bytes"]}
{"id": "C26", "title": "Packed key lists parse without structural warnings", "statement": "Re-parsing a packed list emits none of: check-number mismatch, key type or value inconsistency, padding warning, excess bytes.", "quantifier": "as C25", "why_tests_cant": "The set of inputs is infinite (unbounded lengths/values); a test suite only samples it.", "anchors": ["openssh_key/private_key_list.py:PrivateKeyList.pack_bytes", "openssh_key/private_key_list.py:PrivateKeyList.from_bytes"]}
{"id": "C27", "title": "from_bytes fails only with ValueError", "statement": "For every byte string, passphrase and cryptographic outcome, PrivateKeyList.from_bytes either returns or raises ValueError (or a subclass); truncated, corrupted, wrongly decrypted or hostile input never escapes as another exception.", "quantifier": "every byte string, every passphrase, every decryption result", "why_tests_cant": "The set of inputs is infinite (unbounded lengths/values); a test suite only samples it. Fuzzing samples only.", "anchors": ["openssh_key/private_key_list.py:PrivateKeyList.from_bytes"]}
{"id": "C28", "title": "from_string fails only with ValueError", "statement": "For every string, PrivateKeyList.from_string either returns or raises ValueError.", "quantifier": "every string", "why_tests_cant": "The set of inputs is infinite (unbounded lengths/values); a test suite only samples it.", "anchors": ["openssh_key/private_key_list.py:PrivateKeyList.from_string"]}
{"id": "C29", "title": "Truncated key lists are rejected", "statement": "Every proper prefix of a packed key list makes from_bytes raise ValueError.", "quantifier": "every packed list and every truncation point", "why_tests_cant": "The set of inputs is infinite (unbounded lengths/values); a test suite only samples it.", "anchors": ["openssh_key/private_key_list.py:PrivateKeyList.from_bytes", "openssh_key/private_key_list.py:PrivateKeyList.pack_bytes"]}
{"id": "C30", "title": "Only the declared extent of a key list matters", "statement": "Appending bytes after the encrypted section (and tag) changes nothing in the parse result except the recorded original byte string.", "quantifier": "every byte string that parses, every suffix", "why_tests_cant": "The set of inputs is infinite (unbounded lengths/values); a test suite only samples it.", "anchors": ["openssh_key/private_key_list.py:PrivateKeyList.from_bytes"]}
{"id": "C31", "title": "Padding discipline", "statement": "The encrypted section packed is a whole number of cipher blocks ending in the bytes 1,2,..,k with k < block size; when parsing, the padding warning is emitted exactly when the decrypted length is not a multiple of the block size or the bytes after the last key are not an initial segment of 1,2,..,block size.", "quantifier": "every list, cipher; every decrypted byte string", "why_tests_cant": "The set of inputs is infinite (unbounded lengths/values); a test suite only samples it.", "anchors": ["openssh_key/private_key_list.py:PrivateKeyList.pack_bytes", "openssh_key/private_key_list.py:PrivateKeyList.from_bytes"]}
{"id": "C32", "title": "Check numbers", "statement": "Packing writes the same random number twice at the start of the decrypted section; parsing warns exactly when the two numbers differ.", "quantifier": "every random number, every decrypted byte string", "why_tests_cant": "The set of inputs is infinite (unbounded lengths/values); a test suite only samples it.", "anchors": ["openssh_key/private_key_list.py:PrivateKeyList.pack_bytes", "openssh_key/private_key_list.py:PrivateKeyList.from_bytes"]}
{"id": "C33", "title": "include_indices selects exactly those keys", "statement": "pack_bytes(include_indices=I) produces the same bytes as packing the list [self[i] for i in I] (any order, repetition, negative Python indices); an out-of-range index raises IndexError; the declared key count is len(I).", "quantifier": "every list and every index list", "why_tests_cant": "The set of inputs is infinite (unbounded lengths/values); a test suite only samples it.", "anchors": ["openssh_key/private_key_list.py:PrivateKeyList.pack_bytes"]}
{"id": "C34", "title": "Passphrase prompting", "statement": "The passphrase is prompted for (at most once) only when the KDF is not 'none' and no passphrase was given; packing or parsing with KDF 'none' ignores the passphrase entirely.", "quantifier": "every list/byte string, KDF and passphrase argument", "why_tests_cant": "Statement over all executions, and over pairs of runs with different passphrases.", "anchors": ["openssh_key/private_key_list.py:PrivateKeyList.pack_bytes", "openssh_key/private_key_list.py:PrivateKeyList.from_bytes"]}
{"id": "C35", "title": "A passphrase protects the private section", "statement": "If a list is packed with a KDF other than 'none' (so a passphrase is required), the private section is not written in the clear; and with KDF 'none' no cipher other than 'none' can be used.", "quantifier": "every cipher/KDF combination", "why_tests_cant": "The set of inputs is infinite (unbounded lengths/values); a test suite only samples it.", "anchors": ["openssh_key/private_key_list.py:PrivateKeyList.pack_bytes", "openssh_key/cipher/factory.py", "openssh_key/cipher/none.py"]}
{"id": "C36", "title": "PEM text round-trip and wrapping", "statement": "pack_string output starts with the BEGIN line, ends with the END line and a newline, every body line has between 1 and 70 characters, all but the last exactly 70; from_string of it gives the same result as from_bytes of the packed bytes, also if line endings are changed to CRLF.", "quantifier": "every packed byte string", "why_tests_cant": "The set of inputs is infinite (unbounded lengths/values); a test suite only samples it.", "anchors": ["openssh_key/private_key_list.py:PrivateKeyList.pack_string", "openssh_key/private_key_list.py:PrivateKeyList.from_string"]}
{"id": "C37", "title": "The cleartext part of a key list reveals no private parameter", "statement": "Everything in the packed bytes before the encrypted section depends only on cipher, KDF, KDF options, key types and public parameters, not on private parameters, comments, passphrase or check number.", "quantifier": "every pair of lists agreeing on public data", "why_tests_cant": "Non-interference is a statement about pairs of runs.", "anchors": ["openssh_key/private_key_list.py:PrivateKeyList.pack_bytes"]}
{"id": "C38", "title": "Magic and count validation", "statement": "from_bytes raises ValueError whenever the byte string does not start with the 15 bytes 'openssh-key-v1\\0' or declares a negative key count; on success the list has exactly the declared number of pairs.", "quantifier": "every byte string", "why_tests_cant": "The set of inputs is infinite (unbounded lengths/values); a test suite only samples it.", "anchors": ["openssh_key/private_key_list.py:PrivateKeyList.from_bytes"]}
{"id": "C39", "title": "KDF options are retained or regenerated as requested", "statement": "With retain_kdf_options_if_present the packed KDF options are those of the list (so pack/parse/pack keeps salt and rounds), otherwise fresh ones (16-byte salt, 16 rounds for bcrypt); from_list without explicit options can be packed in both modes.", "quantifier": "every list, option set and mode", "why_tests_cant": "The set of inputs is infinite (unbounded lengths/values); a test suite only samples it.", "anchors": ["openssh_key/private_key_list.py:PrivateKeyList.pack_bytes", "openssh_key/private_key_list.py:PrivateKeyList.from_list", "openssh_key/kdf_options/bcrypt_options.py"]}
{"id": "C40", "title": "Inconsistent pairs are reported", "statement": "Parsing warns for key i exactly when the public and private key types differ, and exactly when some parameter name common to both has different values.", "quantifier": "every byte string that parses, every index i", "why_tests_cant": "The set of inputs is infinite (unbounded lengths/values); a test suite only samples it.", "anchors": ["openssh_key/private_key_list.py:PrivateKeyList.from_bytes"]}
{"id": "C41", "title": "Key/IV split", "statement": "For every IV-based cipher the KDF is asked for key length + IV length bytes; the cipher key is the first part and, when the IV length is positive, key and IV are disjoint and together are the whole KDF output.", "quantifier": "every cipher class and every KDF output of the requested length", "why_tests_cant": "The set of inputs is infinite (unbounded lengths/values); a test suite only samples it.", "anchors": ["openssh_key/cipher/common.py:InitializationVectorCipher.encrypt"]}
{"id": "C42", "title": "decrypt inverts encrypt", "statement": "For every supported cipher, decrypt(kdf, passphrase, encrypt(kdf, passphrase, x)) = x for every block-aligned plaintext for which encryption succeeds; for ChaCha20-Poly1305 this follows from the composition in the code alone (any keystream, any 16-byte tag function).", "quantifier": "every cipher, options, passphrase, plaintext", "why_tests_cant": "The set of inputs is infinite (unbounded lengths/values); a test suite only samples it.", "anchors": ["openssh_key/cipher/integrity.py", "openssh_key/cipher/confidentiality.py", "openssh_key/cipher/none.py"]}
{"id": "C43", "title": "ChaCha20-Poly1305 releases plaintext only for a valid tag", "statement": "decrypt returns only if the last 16 bytes equal the Poly1305 tag of the rest under the key derived from keystream block 0; otherwise it raises, and from_bytes reports ValueError.", "quantifier": "every ciphertext, tag and key", "why_tests_cant": "The set of inputs is infinite (unbounded lengths/values); a test suite only samples it.", "anchors": ["openssh_key/cipher/integrity.py:ChaCha20Poly1305Cipher.decrypt_with_key_iv"]}
{"id": "C44", "title": "Authentication tag placement", "statement": "For authenticated ciphers the packed file carries ciphertext (same length as the plaintext) inside the length-prefixed field and exactly the 16-byte tag after it; for other ciphers nothing follows the length-prefixed field.", "quantifier": "every list and cipher", "why_tests_cant": "The set of inputs is infinite (unbounded lengths/values); a test suite only samples it.", "anchors": ["openssh_key/private_key_list.py:PrivateKeyList.pack_bytes"]}
{"id": "C45", "title": "Certificate options behave like a map", "statement": "After set_critical_option/set_extension_value(name, v), getting name returns v and getting any other name returns what it returned before; setting the same option twice equals setting the last value; sets of different names commute, byte for byte.", "quantifier": "every certificate whose option blob parses, all option names and values, all operation sequences", "why_tests_cant": "The set of inputs is infinite (unbounded lengths/values); a test suite only samples it. Histories of any length.", "anchors": ["openssh_key/key_params/cert.py:_set_option_for_param", "openssh_key/key_params/cert.py:_get_option_from_param"]}
{"id": "C46", "title": "Packed options are sorted and unique", "statement": "The option blob written by a set operation lists option names in strictly increasing (code point) order.", "quantifier": "every certificate and every set operation", "why_tests_cant": "The set of inputs is infinite (unbounded lengths/values); a test suite only samples it.", "anchors": ["openssh_key/key_params/cert.py:pack_options"]}
{"id": "C47", "title": "Principals round-trip", "statement": "get_valid_principals after set_valid_principals(l) returns l; the empty list is stored as the empty byte string.", "quantifier": "every list of encodable strings", "why_tests_cant": "The set of inputs is infinite (unbounded lengths/values); a test suite only samples it.", "anchors": ["openssh_key/key_params/cert.py:set_valid_principals", "openssh_key/key_params/cert.py:get_valid_principals"]}
{"id": "C48", "title": "A non-empty principals field never reads as 'any principal'", "statement": "get_valid_principals returns the empty list (certificate valid for any principal) only when the stored field is empty.", "quantifier": "every stored principals byte string", "why_tests_cant": "The set of inputs is infinite (unbounded lengths/values); a test suite only samples it.", "anchors": ["openssh_key/key_params/cert.py:get_valid_principals", "openssh_key/pascal_style_byte_stream.py:read_repeatedly_from_format_instructions_dict"]}
{"id": "C49", "title": "Signed bytes are the certificate minus type and signature", "statement": "For a certificate key, pack_public_bytes = length-prefixed key type ++ pack_signed_bytes ++ length-prefixed signature.", "quantifier": "every certificate type and parameter values", "why_tests_cant": "The set of inputs is infinite (unbounded lengths/values); a test suite only samples it.", "anchors": ["openssh_key/key_params/cert.py:pack_signed_bytes", "openssh_key/key.py:Key.pack_public_bytes"]}
{"id": "C50", "title": "Principal type and option guards", "statement": "get_type returns USER/HOST exactly for stored 1/2 and otherwise raises ValueError; get after set returns what was set; using a typed option on a certificate whose principal type is not listed for it raises ValueError and leaves the certificate unchanged.", "quantifier": "every stored type value and every option", "why_tests_cant": "The set of inputs is infinite (unbounded lengths/values); a test suite only samples it.", "anchors": ["openssh_key/key_params/cert.py:get_type", "openssh_key/key_params/cert.py:set_type", "openssh_key/key_params/cert.py:_set_option_for_param"]}
{"id": "C51", "title": "Certificate authority key", "statement": "set_signature_key rejects certificates with ValueError without changing anything; otherwise get_signature_key returns the key that was set.", "quantifier": "every public key", "why_tests_cant": "The set of inputs is infinite (unbounded lengths/values); a test suite only samples it.", "anchors": ["openssh_key/key_params/cert.py:set_signature_key", "openssh_key/key_params/cert.py:get_signature_key"]}
{"id": "C52", "title": "Nested certificate parsing terminates", "statement": "Parsing a key whose certificate authority field contains another certificate (and so on) terminates, with nesting depth bounded by the number of bytes.", "quantifier": "every byte string", "why_tests_cant": "Termination over all inputs.", "anchors": ["openssh_key/key_params/cert.py:check_params_are_valid", "openssh_key/key_params/cert.py:get_signature_key"]}
{"id": "C53", "title": "A malformed certificate authority field only warns", "statement": "Constructing certificate parameters with any bytes as signature_key never raises; an invalid authority key yields the warning 'Certificate authority is not a valid key'.", "quantifier": "every byte string in the signature_key field", "why_tests_cant": "The set of inputs is infinite (unbounded lengths/values); a test suite only samples it.", "anchors": ["openssh_key/key_params/cert.py:check_params_are_valid"]}
{"id": "C54", "title": "Security key flags", "statement": "set_flag(f, b) makes get_flag(f) return b, leaves the other flags unchanged, is idempotent, set_flag(f, get_flag(f)) changes nothing, and a one-byte flags value stays a one-byte value.", "quantifier": "every flags value, flag and boolean; every sequence of set_flag calls", "why_tests_cant": "The set of inputs is infinite (unbounded lengths/values); a test suite only samples it.", "anchors": ["openssh_key/key_params/sk.py:set_flag", "openssh_key/key_params/sk.py:get_flag"]}
{"id": "C55", "title": "Ed25519 parameter check", "statement": "For byte-valued parameters, an Ed25519 private parameter object is warning-free exactly when public is 32 bytes and private_public is 64 bytes ending in public.", "quantifier": "every pair of byte strings", "why_tests_cant": "The set of inputs is infinite (unbounded lengths/values); a test suite only samples it.", "anchors": ["openssh_key/key_params/ed25519.py:Ed25519PrivateKeyParams.check_params_are_valid"]}
{"id": "C56", "title": "Format tables", "statement": "Each of the 24 parameter classes resolved by the factory has the documented field list in the documented order; each private class contains every field of the public class that pack_public_bytes selects for it.", "quantifier": "all key types (complete finite table, resolved through Python's MRO)", "why_tests_cant": "The selection depends on C3 linearisation of the class graph; tests pin a few classes.", "anchors": ["openssh_key/key_params/*.py", "openssh_key/key.py:Key.pack_public_bytes"]}
{"id": "C57", "title": "Generated public keys carry no private parameters", "statement": "The public key of PublicPrivateKeyPair.generate holds only public parameters.", "quantifier": "every generated parameter set", "why_tests_cant": "The set of inputs is infinite (unbounded lengths/values); a test suite only samples it.", "anchors": ["openssh_key/private_key_list.py:PublicPrivateKeyPair.generate", "openssh_key/key.py:PublicKey.create_key_params"]}
{"id": "C58", "title": "CLI survives unparseable public key lines", "statement": "For a file that is not a private key, every line either yields a key or the warning 'Could not parse line i'; no line aborts the program.", "quantifier": "every file content", "why_tests_cant": "The set of inputs is infinite (unbounded lengths/values); a test suite only samples it.", "anchors": ["openssh_key/__main__.py"]}
{"id": "C59", "title": "convert_from extracts exactly the values of the key", "statement": "For every plain key type, convert_from of its public or private class returns the parameters object holding exactly the format fields with the values of the given key object (for a private key object and a public class: those of its public key), and raises ValueError for every object that is not a key of that type.", "quantifier": "every key object of every supported class, every key type", "why_tests_cant": "Key objects and parameter values are unbounded integers and byte strings, and every class below the called one takes part; tests sample a few keys per class.", "anchors": ["openssh_key/key_params/common.py:PublicKeyParams.convert_from", "openssh_key/key_params/rsa.py", "openssh_key/key_params/dss.py", "openssh_key/key_params/ed25519.py", "openssh_key/key_params/ecdsa.py"]}
{"id": "C60", "title": "convert_to then convert_from returns the same parameters", "statement": "Parameters of a key converted to any supported object class and back are unchanged (the public ones, if the object class is public).", "quantifier": "every consistent parameters object of a plain key type, every destination class", "why_tests_cant": "Key objects and parameter values are unbounded integers and byte strings, and every class below the called one takes part; tests sample a few keys per class.", "anchors": ["openssh_key/key_params/common.py:PublicKeyParams.convert_to", "openssh_key/key_params/common.py:PublicKeyParams.convert_from"]}
{"id": "C61", "title": "convert_from then convert_to returns the same key object", "statement": "A key object converted to parameters and back to its own class is the same key; converted to the class of its public key it is its public key.", "quantifier": "every key object that the library constructs", "why_tests_cant": "Key objects and parameter values are unbounded integers and byte strings, and every class below the called one takes part; tests sample a few keys per class.", "anchors": ["openssh_key/key_params/common.py:PublicKeyParams.convert_to", "openssh_key/key_params/common.py:PublicKeyParams.convert_from"]}
{"id": "C62", "title": "convert_from fails only with ValueError", "statement": "As documented, convert_from raises no exception other than ValueError, for any parameters class and any object.", "quantifier": "every parameters class, every key object", "why_tests_cant": "Key objects and parameter values are unbounded integers and byte strings, and every class below the called one takes part; tests sample a few keys per class.", "anchors": ["openssh_key/key_params/common.py:PublicKeyParams.convert_from"]}
{"id": "C63", "title": "convert_to returns an instance of the destination class", "statement": "Whatever convert_to returns is an instance of the destination class; unsupported destinations raise ValueError; conversion to a public class does not depend on private values.", "quantifier": "every parameters object, every destination class", "why_tests_cant": "Key objects and parameter values are unbounded integers and byte strings, and every class below the called one takes part; tests sample a few keys per class.", "anchors": ["openssh_key/key_params/common.py:PublicKeyParams.convert_to"]}
{"id": "C64", "title": "The abstract ECDSA classes choose the class of the curve", "statement": "ECDSAPublicKeyParams.convert_from and ECDSAPrivateKeyParams.convert_from return an object of the concrete class whose curve is that of the key.", "quantifier": "every elliptic curve key object on a supported curve", "why_tests_cant": "Key objects and parameter values are unbounded integers and byte strings, and every class below the called one takes part; tests sample a few keys per class.", "anchors": ["openssh_key/key_params/ecdsa.py:ECDSAPublicKeyParams.convert_from"]}
{"id": "C65", "title": "Generated pairs are what was asked for", "statement": "PublicPrivateKeyPair.generate asks the library for exactly the key of the given type with the given or default parameters, and returns, without warnings, a pair of that type holding the values of the generated key, with the comment in the private key's footer; the values are those convert_from gives. The common class of the elliptic curve types generates P-256 keys.", "quantifier": "every plain key type, comment, keyword arguments and generator", "why_tests_cant": "Key values, comments and sizes are unbounded and key generation is random; tests see a few generated keys.", "anchors": ["openssh_key/private_key_list.py:PublicPrivateKeyPair.generate", "openssh_key/key_params/rsa.py:RSAPrivateKeyParams.generate_private_params", "openssh_key/key_params/ecdsa.py:ECDSAPrivateKeyParams.generate_private_params"]}
{"id": "C66", "title": "Unsupported types are not generated", "statement": "generate raises NotImplementedError for security key types and KeyError for every name without a private class, and asks nothing of the library.", "quantifier": "every type name that is not a plain key type", "why_tests_cant": "Key values, comments and sizes are unbounded and key generation is random; tests see a few generated keys.", "anchors": ["openssh_key/private_key_list.py:PublicPrivateKeyPair.generate", "openssh_key/key_params/sk.py:SecurityKey_PrivateKeyParams.generate_private_params"]}
{"id": "C67", "title": "Generated pairs can be packed and come back", "statement": "The keys of generated pairs can be packed, both keys of a pair give the same public bytes, and a list of generated pairs packs and parses back to the same keys without structural warnings, encrypted or not.", "quantifier": "every list of generated pairs within the size limits of the format, every cipher", "why_tests_cant": "Key values, comments and sizes are unbounded and key generation is random; tests see a few generated keys.", "anchors": ["openssh_key/private_key_list.py:PublicPrivateKeyPair.generate", "openssh_key/private_key_list.py:PrivateKeyList.pack_bytes"]}
{"id": "C68", "title": "Generated key derivation options", "statement": "generate_options uses a salt of the length asked for, by default 16 bytes, and the rounds asked for, by default 16, and warns only about rounds that cannot be written.", "quantifier": "every keyword arguments and random source", "why_tests_cant": "Key values, comments and sizes are unbounded and key generation is random; tests see a few generated keys.", "anchors": ["openssh_key/kdf_options/bcrypt_options.py:BcryptKDFOptions.generate_options", "openssh_key/kdf_options/none.py:NoneKDFOptions.generate_options"]}
{"id": "C69", "title": "Packing a key list succeeds when it can", "statement": "pack_bytes succeeds whenever the selected indices exist, the keys can be packed, everything fits its length field, and options, passphrase and cipher accept.", "quantifier": "every key list, selection, flags, cipher and key derivation function", "why_tests_cant": "Success for all lists cannot be tested; round-trip theorems would be vacuous if packing failed.", "anchors": ["openssh_key/private_key_list.py:PrivateKeyList.pack_bytes"]}
{"id": "C70", "title": "Validity dates", "statement": "Setting a validity date stores its whole seconds and changes nothing else, reading gives the date of the stored seconds, setting what was read changes nothing, and values after the year 9999 (such as the one for certificates that never expire) raise when read as a date.", "quantifier": "every certificate, date and time zone", "why_tests_cant": "Dates and stored values are unbounded and the behaviour depends on the time zone.", "anchors": ["openssh_key/key_params/cert.py:CertPublicKeyParams.get_valid_after", "openssh_key/key_params/cert.py:CertPublicKeyParams.set_valid_after", "openssh_key/key_params/cert.py:CertPublicKeyParams.get_valid_before", "openssh_key/key_params/cert.py:CertPublicKeyParams.set_valid_before"]}
{"id": "C71", "title": "Checks of key parameters are exact", "statement": "Constructing the parameters of a key that is not a certificate always succeeds. The warnings are exactly: a field is missing; a value does not fit its field; the key names another curve than its type; the point is not on the curve; an Ed25519 public key has not 32 bytes; the bytes after an Ed25519 secret are not the public key or not 32 bytes. For certificates whose construction succeeds the warnings are exactly these and the faults of the certificate's own fields.", "quantifier": "every key type, public and private, and every dictionary of values", "why_tests_cant": "The dictionaries are unbounded, and that nothing else is reported cannot be tested.", "anchors": ["openssh_key/pascal_style_byte_stream.py:PascalStyleDict.check_params_are_valid", "openssh_key/key_params/ecdsa.py:ECDSAPublicKeyParams.check_params_are_valid", "openssh_key/key_params/ed25519.py:Ed25519PublicKeyParams.check_params_are_valid", "openssh_key/key_params/ed25519.py:Ed25519PrivateKeyParams.check_params_are_valid", "openssh_key/key_params/cert.py:CertPublicKeyParams.check_params_are_valid"]}
{"id": "C72", "title": "Warnings of parsing a key are exact", "statement": "The warnings of parsing a key that parses are exactly: faults of its key material, faults of a certificate's own fields, and one warning if bytes are left over.", "quantifier": "every byte string and key kind", "why_tests_cant": "Byte strings are unbounded, and that no fault is left out and nothing else is reported cannot be tested.", "anchors": ["openssh_key/key.py:Key.from_bytes"]}
{"id": "C73", "title": "Warnings of parsing a key list are exact", "statement": "What is reported while parsing a key list that parses is exactly: a prompt, if a passphrase is needed and none was given; different check numbers; wrong padding; for each pair different types, different common values, and the faults of both keys. For a list that was packed from consistent keys it is exactly the prompt and what is wrong with the values of these keys; for generated keys it is the prompt or nothing.", "quantifier": "every file, passphrase, cipher and key derivation function; every packed list", "why_tests_cant": "Files are unbounded, and that nothing else is reported cannot be tested.", "anchors": ["openssh_key/private_key_list.py:PrivateKeyList.from_bytes"]}
{"id": "C74", "title": "Exactly which byte strings parse as keys", "statement": "Parsing bytes as a public or private key succeeds exactly if they start with a supported type string, the fields of that type in order, and for private keys a comment; for certificates also principals and option lists must be readable and the type of the authority's key supported. The key then holds exactly these values. Otherwise the error says what is wrong: EOFError if the data ends inside a field (with its first argument telling whether nothing of that field is there), UnicodeDecodeError if a text is not UTF-8, KeyError for an unsupported type. No byte string can be read in two ways.", "quantifier": "every byte string and key kind", "why_tests_cant": "Byte strings are unbounded; that nothing else is accepted and that every rejection has the stated cause cannot be tested.", "anchors": ["openssh_key/key.py:Key.from_byte_stream", "openssh_key/key.py:Key.from_bytes", "openssh_key/pascal_style_byte_stream.py:PascalStyleByteStream.read_from_format_instructions_dict", "openssh_key/key_params/cert.py:CertPublicKeyParams"]}
{"id": "C75", "title": "Exactly which key files parse", "statement": "PrivateKeyList.from_bytes succeeds exactly if the bytes start with a key file: magic, a known cipher, a known key derivation function with usable options, as many public key blobs as counted, each a readable key, and an encrypted section whose tag has the size of the cipher's and which decrypts under the given or entered passphrase to two 4-byte numbers and one readable private key per public key, followed by anything. The list then holds exactly these values. Everything else is rejected with ValueError, and no byte string can be read in two ways. from_string succeeds exactly if the text's lines are the begin marker, base64 text of such bytes, and the end marker.", "quantifier": "every byte string, text, passphrase, cipher implementation and key derivation function that returns as many bytes as asked for", "why_tests_cant": "Byte strings and texts are unbounded; that nothing else is accepted cannot be tested.", "anchors": ["openssh_key/private_key_list.py:PrivateKeyList.from_bytes", "openssh_key/private_key_list.py:PrivateKeyList.from_string"]}
{"id": "C76", "title": "Exactly which lines parse as keys", "statement": "Key.from_string succeeds exactly if the line has a first word, a space, and a second word that is base64 text of bytes that start with a key; characters outside the alphabet are skipped, and decoding stops at the padding. The first word is kept but not compared with the key's type; everything after the second space is the comment. Without a space the error is IndexError; with characters outside ASCII in the second word ValueError; if that word is not base64 text, binascii.Error; otherwise it is the error of parsing the decoded bytes.", "quantifier": "every text and key kind", "why_tests_cant": "Texts are unbounded; that nothing else is accepted and that every rejection has the stated cause cannot be tested.", "anchors": ["openssh_key/key.py:Key.from_string"]}
{"id": "C77", "title": "Certificate options have OpenSSH's names", "statement": "Each member of CertCriticalOption and CertExtension stands for the option that OpenSSH knows under the documented name, so that setting it through the member sets what OpenSSH looks at.", "quantifier": "every option member, certificate and value", "why_tests_cant": "Tests compare the library with itself; a name that is wrong in the table is wrong in the expected output as well.", "anchors": ["openssh_key/key_params/cert.py:CertCriticalOption", "openssh_key/key_params/cert.py:CertExtension"]}
{"id": "C78", "title": "Signed bytes determine the certificate", "statement": "Two certificates with the same signed bytes have the same type and, apart from the signature, the same values, so that a signature over these bytes stands for one certificate only.", "quantifier": "every pair of certificates of any types", "why_tests_cant": "It is a statement about all pairs of certificates.", "anchors": ["openssh_key/key_params/cert.py:CertPublicKeyParams.pack_signed_bytes"]}
{"id": "C79", "title": "Packed bytes determine the key", "statement": "Keys with the same packed public bytes have the same type and public values; private keys with the same private bytes have the same type, values and comment; no packed key is a proper prefix of another one. Key lists packed with the same passphrase to the same bytes hold the same keys in the same order.", "quantifier": "every pair of constructed keys and of key lists", "why_tests_cant": "It is a statement about all pairs of keys.", "anchors": ["openssh_key/key.py:Key.pack_public_bytes", "openssh_key/key.py:PrivateKey.pack_private_bytes", "openssh_key/private_key_list.py:PrivateKeyList.pack_bytes"]}
{"id": "C80", "title": "Equality of keys", "statement": "Comparing keys is an equivalence relation that does not depend on the order of dictionary entries; keys that compare equal have the same class of parameters and the same packed public and private bytes and lines.", "quantifier": "all keys; for the second part all constructed keys", "why_tests_cant": "It is a statement about all pairs and triples of keys.", "anchors": ["openssh_key/key.py:Key.__eq__"]}
{"id": "C81", "title": "Printed output", "statement": "What the command line program prints is a JSON document, in printable ASCII, that shows the result of parsing the text of the file: all attributes of the key list or keys, numbers in decimal, bytes as Python bytes literals, in order. No text is a JSON document for two different values.", "quantifier": "every file (any bytes), every passphrase, every limit on the number of digits", "why_tests_cant": "Escaping and nesting have too many combinations to try.", "anchors": ["openssh_key/__main__.py"]}
{"id": "C82", "title": "Every file that parses is printed", "statement": "The program prints the result for every file that is UTF-8 text and can be parsed, with exactly the warnings of parsing; otherwise it fails with the exception of decoding or parsing.", "quantifier": "every file (any bytes), every passphrase", "why_tests_cant": "No finite set of files covers all outcomes, and keys of ordinary size never reach the limit.", "anchors": ["openssh_key/__main__.py"]}
{"id": "C83", "title": "Nothing is lost in the output", "statement": "Two files for which the program prints the same text have been parsed to the same result.", "quantifier": "every pair of files, passphrases and systems", "why_tests_cant": "It is a statement about all pairs of files.", "anchors": ["openssh_key/__main__.py"]}
{"id": "C84", "title": "Line ends do not matter", "statement": "Files with the same lines give the same output, warnings and prompts from the program, however the lines end and whether or not the last line ends.", "quantifier": "every pair of texts with the same lines", "why_tests_cant": "All combinations of line ends cannot be enumerated.", "anchors": ["openssh_key/__main__.py", "openssh_key/private_key_list.py:PrivateKeyList.from_string"]}
{"id": "C85", "title": "Lists derived from a protected list stay protected", "statement": "A key list made from a passphrase-protected list (a slice, a concatenation, a repetition, a copy, or the list after changes in place) is packed with the same cipher and key derivation function.", "quantifier": "every list, operation, sequence of operations, cipher, passphrase and selection", "why_tests_cant": "Whether a file is encrypted is seen only for the operations and inputs a test has.", "anchors": ["openssh_key/private_key_list.py:PrivateKeyList", "openssh_key/private_key_list.py:PrivateKeyList.pack_bytes"]}
{"id": "C86", "title": "List operations do exactly what they say", "statement": "Appending, inserting, removing, replacing, repeating, reversing and clearing change the sequence of pairs exactly as specified and nothing else of the key list; they fail exactly if an index is out of range or no equal pair is there. Slicing, concatenating and copying give exactly the specified pairs.", "quantifier": "every key list, operation, index and argument", "why_tests_cant": "Unbounded lists and indices, positive and negative.", "anchors": ["openssh_key/private_key_list.py:PrivateKeyList"]}
{"id": "C87", "title": "from_list takes pairs of keys only", "statement": "from_list succeeds exactly for lists whose items are all pairs of a public and a private key; the result has these pairs in this order, the given cipher and key derivation function, the given or empty options and no other data; otherwise it raises ValueError.", "quantifier": "every list of items of any type, cipher, key derivation function and options", "why_tests_cant": "Unbounded lists with the wrong item anywhere.", "anchors": ["openssh_key/private_key_list.py:PrivateKeyList.from_list"]}
{"id": "C88", "title": "Equality of key lists", "statement": "Comparison of key lists is an equivalence relation that depends on the pairs only, and equal lists with equal headers and options are packed to the same bytes, with the same prompts or the same exception.", "quantifier": "every triple of key lists, every packing", "why_tests_cant": "A statement about all pairs of lists.", "anchors": ["openssh_key/private_key_list.py:PublicPrivateKeyPair.__eq__", "openssh_key/private_key_list.py:PrivateKeyList.pack_bytes"]}
{"id": "C89", "title": "Each fault is reported once", "statement": "Constructing the parameters of a key issues one warning for each fault of the given values, no matter by how many classes the faulty value is inherited.", "quantifier": "every key type, public or private, every dictionary of values, every warning", "why_tests_cant": "The number of calls of warnings.warn depends on the whole method resolution order of each class and on unbound calls between classes; tests look for the presence of a warning.", "anchors": ["openssh_key/key_params/cert.py:check_params_are_valid", "openssh_key/key_params/sk.py:check_params_are_valid", "openssh_key/key_params/ed25519.py:check_params_are_valid", "openssh_key/pascal_style_byte_stream.py:check_dict_matches_format_instructions_dict"]}
{"id": "C90", "title": "Exactly what packing a key writes, and how it fails", "statement": "The public bytes of a key are the type name followed by the public fields in order, each in its one form (length-prefixed bytes, length-prefixed UTF-8, length-prefixed shortest two's complement, fixed-width unsigned); the private bytes are the same with the private fields and the comment. Packing fails exactly if a field is missing or refused, with the exception of the first such field: KeyError, ValueError with its text, UnicodeEncodeError, OverflowError or struct.error.", "quantifier": "every constructed key, whatever its values, every byte string, every exception", "why_tests_cant": "The values range over all Python objects, numbers of any size, strings with surrogates and bytes of more than 4 GiB.", "anchors": ["openssh_key/pascal_style_byte_stream.py:write_from_format_instruction", "openssh_key/pascal_style_byte_stream.py:write_from_format_instructions_dict", "openssh_key/key.py:PublicKey.pack_public_bytes", "openssh_key/key.py:PrivateKey.pack_private_bytes"]}
{"id": "C91", "title": "Exactly what packing a key list writes, and how it fails", "statement": "Packing a key list goes through fixed stages: key derivation function, its options, cipher name, length of the options, number of keys, public keys in order of the indices, private keys in that order, cipher. The first of these that cannot be done determines the exception, and then nothing is asked. If all can be done, the passphrase is asked for exactly if a key derivation function is in use and no passphrase was given, and the outcome is: the failure of the prompt, of the derivation or of the encryption, OverflowError for a body of 4 GiB or more, or the key file laid out with these names, options, public keys, the encrypted section and its tag. Packing issues no warning.", "quantifier": "every list of constructed keys with any header and options, every selection of indices, every passphrase, every outcome", "why_tests_cant": "The header and options hold any values and the keys any number of faults at once; which exception wins, and that no passphrase is asked for in vain, depends on the order of all stages.", "anchors": ["openssh_key/private_key_list.py:PrivateKeyList.pack_bytes", "openssh_key/cipher/common.py", "openssh_key/kdf_options/common.py"]}
{"id": "C92", "title": "Nesting of certificates never makes parsing fail", "statement": "If the interpreter allows public keys to be parsed n levels deep, parsing gives what it gives without a limit unless more than n levels of authority keys are looked at; nesting never is the reason that parsing a key fails.", "quantifier": "every byte string, every limit", "why_tests_cant": "The depth of nesting is unbounded; a test sees one or two levels.", "anchors": ["openssh_key/key_params/cert.py:CertPublicKeyParams.check_params_are_valid", "openssh_key/key_params/cert.py:CertPublicKeyParams.get_signature_key", "openssh_key/key.py:PublicKey.from_bytes"]}
{"id": "C93", "title": "Every private key file that OpenSSH reads is read, as the same key", "statement": "Every key file that OpenSSH reads with a passphrase is read by the package with that passphrase, as one pair of keys with the type, values and comment that OpenSSH finds; the warnings are only: the padding is longer than a block, the Ed25519 secret does not end with the public key, a zero byte follows the name of the curve or makes public and private texts differ. Every text that OpenSSH reads as the bytes of a key file is read as these bytes.", "quantifier": "every byte string and text, every passphrase, every key type and cipher", "why_tests_cant": "Tests use files that ssh-keygen happened to write; the files OpenSSH accepts are an infinite set with freedom in padding, comments, options and white space.", "anchors": ["openssh_key/private_key_list.py:PrivateKeyList.from_bytes", "openssh_key/private_key_list.py:PrivateKeyList.from_string", "openssh_key/key.py:PrivateKey.from_byte_stream"]}
{"id": "C94", "title": "OpenSSH reads every key file that the package writes", "statement": "What pack_bytes writes is read by OpenSSH with the passphrase that was given, as the key that was packed, and what pack_string writes is a text that OpenSSH reads as these bytes.", "quantifier": "every list, every selection, every passphrase, every cipher, every random salt and check number", "why_tests_cant": "Tests can give a few files to ssh-keygen; whether all keys, options and lengths give acceptable files (padding, sizes, order of fields) needs an argument for all of them.", "anchors": ["openssh_key/private_key_list.py:PrivateKeyList.pack_bytes", "openssh_key/private_key_list.py:PrivateKeyList.pack_string"]}
{"id": "C95", "title": "Every public key, certificate and public key line that OpenSSH reads is read, as the same key", "statement": "Every public key and certificate that OpenSSH reads is read by the package, with the type and values that OpenSSH finds; the warnings are only: a zero byte follows the name of the curve (of the key or of its authority), an option is given twice, a text of the authority's key is not UTF-8. Every line that OpenSSH reads as a public key is read as that key.", "quantifier": "every byte string and every line, every key type and certificate type", "why_tests_cant": "Tests use lines that ssh-keygen happened to write; the keys, certificates and lines that OpenSSH accepts are an infinite set with freedom in names, lists, options and blanks.", "anchors": ["openssh_key/key.py:PublicKey.from_bytes", "openssh_key/key.py:PublicKey.from_string", "openssh_key/cert.py:CertPublicKeyParams.check_params_are_valid"]}
{"id": "C96", "title": "OpenSSH reads every public key line that the package writes", "statement": "What pack_public_bytes writes is read by OpenSSH as a key of the same type with the same values, also with principals, options and an authority that were set with the package's methods, and what pack_public_string writes is a line that OpenSSH reads as these bytes.", "quantifier": "every key and certificate that was constructed, every comment, every list of principals and options", "why_tests_cant": "Tests can give a few lines to ssh-keygen; that every key, certificate and comment gives an acceptable line needs an argument for all of them.", "anchors": ["openssh_key/key.py:PublicKey.pack_public_bytes", "openssh_key/key.py:PublicKey.pack_public_string", "openssh_key/cert.py:CertPublicKeyParams.set_valid_principals"]}
{"id": "C97", "title": "A warning filter that raises warnings only cuts an operation short at the first raised warning", "statement": "Whichever warnings the warning filter turns into exceptions (python -W error, simplefilter('error'), a filter for single messages): an operation that emits none of them does exactly what it does under the default filter; otherwise it ends at the first of them, after the same events, the UserWarning reaches the caller, streams are left at the same place and certificates unchanged.", "quantifier": "every set of warnings that is raised, every operation that can warn, every input", "why_tests_cant": "Tests run under one filter; the claim is about all filters and all inputs, including what handlers in the code do with the exception.", "anchors": ["openssh_key/private_key_list.py:PrivateKeyList.from_bytes", "openssh_key/key.py:PublicKey.__init__", "openssh_key/key_params/cert.py:CertPublicKeyParams", "openssh_key/pascal_style_byte_stream.py:PascalStyleDict.check_params_are_valid"]}
{"id": "C98", "title": "With every warning raised exactly the keys in order are read", "statement": "If every warning is raised, from_bytes returns a key exactly for the bytes that are the layout of a key type with nothing after it, whose key material is what the type says (curve and point, lengths, equal public keys), and whose certificate fields are in order (type 1 or 2, lists of whole records, no option twice, an authority's key in order that is no certificate); from_string exactly for the lines whose second word is base64 text of such a key and whose first word is its type.", "quantifier": "every byte string and every text, public and private keys, every key type and certificate type", "why_tests_cant": "The claim is an equivalence over all byte strings: nothing else is accepted silently, nothing in order is refused.", "anchors": ["openssh_key/key.py:PublicKey.from_bytes", "openssh_key/key.py:PublicKey.from_string", "openssh_key/key_params/cert.py:CertPublicKeyParams.check_params_are_valid", "openssh_key/key_params/ed25519.py", "openssh_key/key_params/ecdsa.py"]}
{"id": "C99", "title": "With every warning raised exactly the key files in order are read", "statement": "If every warning is raised, PrivateKeyList.from_bytes returns a list exactly for the bytes that are a key file in order with nothing after it: a known cipher with a tag of its size, a usable key derivation function, public keys in order and nothing after each, and an encrypted section that decrypts to twice the same check number, the private keys, in order and agreeing with the public ones, and the padding 1, 2, 3, … up to the block size; from_string exactly for the armored texts of such files.", "quantifier": "every byte string and every text, every passphrase, every cipher, any number of keys", "why_tests_cant": "The claim is an equivalence over all byte strings: nothing else is accepted silently, no file in order is refused.", "anchors": ["openssh_key/private_key_list.py:PrivateKeyList.from_bytes", "openssh_key/private_key_list.py:PrivateKeyList.from_string", "openssh_key/key.py:PrivateKey.from_byte_stream"]}
{"id": "C100", "title": "Which keys, certificates and files in order OpenSSH reads as well", "statement": "A public key or certificate that is read with every warning raised is one that OpenSSH reads exactly if no number is negative and no text has a zero character before its end, and, for a certificate, its lists are whole, it has at most 256 principals without such zero characters, and its authority's key meets the same conditions.  A key file that is read with every warning raised is one that OpenSSH reads exactly if nothing comes after it, it holds one key that meets these conditions, the comment does too, the cipher is not rijndael-cbc@lysator.liu.se, there is a key derivation function if there is a cipher, and the passphrase is not empty (and the derivation works) if there is a key derivation function.", "quantifier": "every byte string, every key type, cipher, passphrase and number of keys", "why_tests_cant": "The claim is an equivalence over all byte strings; tests compare single files.", "anchors": ["openssh_key/private_key_list.py:PrivateKeyList.from_bytes", "openssh_key/key.py:PublicKey.from_bytes", "openssh_key/key_params/cert.py:CertPublicKeyParams"]}
{"id": "C101", "title": "The command line names the file and the passphrase", "statement": "For every file name f and passphrase p, the command line `f --passphrase p` makes the program read the file f with the passphrase p; the command lines accepted are exactly those with one file name and passphrase options, the last of which counts; with any other the program ends before it opens a file.", "quantifier": "every list of arguments, every file name and passphrase", "why_tests_cant": "The claim is an equivalence over all lists of strings, and argparse takes some file names and passphrases for options.", "anchors": ["openssh_key/__main__.py:14-20"]}
{"id": "C102", "title": "Dictionary operations of parameter objects", "statement": "Setting, deleting, popping, clearing, updating and setting defaults change exactly the entries they name, keep the class of the object and the order of the other entries, and check nothing; where a key is missing they raise KeyError and change nothing.  `|` makes a new object of the same class with the entries of both, those of the right one in case of doubt, and warns exactly about what is wrong with them; copies have the same class and entries and are not checked; fromkeys always raises TypeError.", "quantifier": "every parameters object, every operation, every key and value", "why_tests_cant": "The claim is about all sequences of operations on objects with any entries; the methods are inherited, and no test calls them.", "anchors": ["openssh_key/pascal_style_byte_stream.py:PascalStyleDict", "openssh_key/utils.py:BaseDict"]}
{"id": "C103", "title": "Keys share no state", "statement": "A key made from dictionaries (those of the program, or parts of other keys), from bytes or from a line has dictionaries of its own: making it changes nothing that existed, and no later change of a dictionary or of a part of a key can be seen in any other dictionary or key.  A program that makes, changes, packs and compares keys sees what it would see if dictionaries and keys were values.  Lists hold the keys themselves, also lists derived from others: a change of a key is seen in every list that has it, at exactly its places.", "quantifier": "every program made of these operations, every dictionary, byte string and line", "why_tests_cant": "Whether two objects share a dictionary shows only in some later change; the claim is about all sequences of operations of any length.", "anchors": ["openssh_key/key.py:Key.__init__", "openssh_key/key.py:Key.from_bytes", "openssh_key/key.py:Key.from_string", "openssh_key/pascal_style_byte_stream.py:PascalStyleDict", "openssh_key/private_key_list.py:PrivateKeyList.from_list"]}
{"id": "C104", "title": "The standard algorithms obey the laws that are assumed of them", "statement": "AES in CBC, CTR and GCM mode, triple DES in CBC mode, ChaCha20 with Poly1305 and bcrypt_pbkdf, as the standards define them, obey the laws that other properties assume of the cryptographic functions: what is encrypted is decrypted to the same bytes, ciphertexts, tags and derived keys have the right lengths, and empty keys are refused.  So a list of keys is encrypted with any of the ciphers, any salt, any number of rounds and any passphrase but the empty one, and is read again with the same passphrase, with no assumption.  The tables of AES, SHA-512 and Blowfish are what the standards describe, and the algorithms give the published answers.", "quantifier": "every cipher, key, initialisation vector and text; every list of keys, passphrase, salt and number of rounds", "why_tests_cant": "Test vectors cover some keys and texts; that decryption undoes encryption is a statement about all keys and all texts of any length.", "anchors": ["openssh_key/cipher/confidentiality.py", "openssh_key/cipher/integrity.py", "openssh_key/cipher/common.py", "openssh_key/kdf_options/bcrypt_options.py:BcryptKDFOptions.derive_key", "openssh_key/private_key_list.py:PrivateKeyList.pack_bytes"]}
{"id": "C105", "title": "Format instructions that are strings", "statement": "A string is a struct format exactly if it follows the documented grammar (byte order, then repeated codes with counts and blanks) and is not too large.  Reading with it reads exactly its size, holds each value at its place (sizes, alignment, byte order) and returns it, or a tuple; too few bytes raise EOFError.  Writing one value writes it at the only place and zeros elsewhere, and reading gives it back.  The check of a dictionary is silent exactly for values that can be written.  The strings that the code uses mean the formats that the other properties speak about.  As documented, a string that is no format raises ValueError.", "quantifier": "every string, every value, every byte string", "why_tests_cant": "There are infinitely many format strings, with counts and alignment that interact.", "anchors": ["openssh_key/pascal_style_byte_stream.py:PascalStyleByteStream.read_from_format_instruction", "openssh_key/pascal_style_byte_stream.py:PascalStyleByteStream.write_from_format_instruction", "openssh_key/pascal_style_byte_stream.py:PascalStyleByteStream.check_dict_matches_format_instructions_dict"]}
{"id": "C106", "title": "A failure at the passphrase prompt ends the operation with that failure", "statement": "If the passphrase prompt raises an exception (Ctrl-C, end of input, undecodable input), parsing or packing a key list raises that exception, and nothing else is done or reported after the prompt.", "quantifier": "every file, list and choice of arguments, every exception at the prompt", "why_tests_cant": "Tests replace the prompt by one that answers; which exceptions are caught around it, at which point and for which files, is a matter of all paths.", "anchors": ["openssh_key/private_key_list.py:PrivateKeyList.from_bytes", "openssh_key/private_key_list.py:PrivateKeyList.from_string", "openssh_key/private_key_list.py:PrivateKeyList.pack_bytes", "openssh_key/__main__.py"]}
{"id": "C107", "title": "The check of an elliptic curve point is exact", "statement": "For the three curves of the key types, with the numbers of SP 800-186: a byte string is accepted as the point of an ECDSA key exactly if it is one of the two encodings (uncompressed, compressed) of a point that satisfies the curve equation; decoding gives that point; and constructing a key warns that the point is not on the curve exactly if it is not accepted.", "quantifier": "all byte strings of any length, all three curves, all key types with a curve, all parameter dictionaries", "why_tests_cant": "Tests have a handful of points; that nothing else is accepted, and that every compressed point is decoded to the right root, rests on the primality of the fields and on arithmetic over 2^521 values.", "anchors": ["openssh_key/key_params/ecdsa.py:ECDSAPublicKeyParams.check_params_are_valid", "openssh_key/key_params/ecdsa.py:ECDSAPublicKeyParams.conversion_functions", "openssh_key/key_params/ecdsa.py:ECDSAPrivateKeyParams.conversion_functions"]}
{"id": "C108", "title": "A key file can be rewritten with another comment and passphrase", "statement": "Whatever key list was read can be written again after its comments were set to other texts, under another passphrase that is not empty, and what is written is read with the new passphrase as exactly the same keys in the same order, with the new comments, and with the same cipher and key derivation function (the workflow of the README).", "quantifier": "all byte strings and texts that are read, all new comments, all old and new passphrases (given or entered), salt and rounds kept or fresh, all ciphers, with the standard algorithms", "why_tests_cant": "Tests rewrite a few files that ssh-keygen made. The claim is about every file that is accepted, including files no other program writes, for which reading and writing may disagree: and it is false for some of them.", "anchors": ["openssh_key/private_key_list.py:PrivateKeyList.from_bytes", "openssh_key/private_key_list.py:PrivateKeyList.pack_bytes", "openssh_key/private_key_list.py:PrivateKeyList.from_string", "openssh_key/private_key_list.py:PrivateKeyList.pack_string", "README.md"]}
{"id": "C109", "title": "The halves of a private key belong together", "statement": "A private key of a plain type is turned into a key object only if its public half is that of its private half: for RSA the modulus is the product of two odd primes, the exponents undo each other and the coefficient is the inverse; for DSA the public value is the power of the generator; for ECDSA the point is the multiple of the base point, in the group of the curve; for Ed25519 both copies of the public key are the one RFC 8032 computes. Generated keys belong together, and every key that does can be converted.", "quantifier": "all values of private keys, all six plain key types, with and without PyNaCl, all arguments of generate", "why_tests_cant": "Tests convert keys that were generated by the same library. Whether a key with halves of two keys is refused depends on checks in the library that the code relies on, and the claim is about all numbers: points are related by the group law of the curve, which no finite set of keys shows. It is false for Ed25519.", "anchors": ["openssh_key/key_params/rsa.py:RSAPrivateKeyParams.conversion_functions", "openssh_key/key_params/dss.py:DSSPrivateKeyParams.conversion_functions", "openssh_key/key_params/ed25519.py:Ed25519PrivateKeyParams.conversion_functions", "openssh_key/key_params/ecdsa.py:ECDSAPrivateKeyParams.conversion_functions", "openssh_key/key_params/ed25519.py:Ed25519PrivateKeyParams.check_params_are_valid"]}
{"id": "C110", "title": "Parsing stays within the size of the input", "statement": "Whatever a key, key file or text contains (lengths and counts that lie, nested certificates), parsing it produces nothing larger than the input: all values of all keys together are at most as large as the input, a file has at least 50 bytes for each key that is returned, and there is at most one warning for each byte. Each nested authority key is parsed once, so that the bytes parsed are at most quadratic in the size, (n + 50)^2 / 200. At most one key is derived from the passphrase, and the cost of that is bounded by the size of the file.", "quantifier": "all byte strings and texts, accepted or not, all passphrases, all kinds of keys, any cryptographic functions that keep lengths", "why_tests_cant": "Resource bounds are about the worst input of every size; tests and fuzzing only show particular inputs. That no key is parsed twice at a level (which would be exponential) and that the number of keys a header announces does not matter are statements about all nestings and all counts. The last part is false, and whether a test notices depends on its patience.", "anchors": ["openssh_key/key.py:PublicKey.from_bytes", "openssh_key/key.py:PublicKey.from_string", "openssh_key/private_key_list.py:PrivateKeyList.from_bytes", "openssh_key/key_params/cert.py:CertPublicKeyParams.get_signature_key", "openssh_key/kdf_options/bcrypt_options.py:BcryptKDFOptions.derive_key", "openssh_key/__main__.py"]}
{"id": "C111", "title": "The examples of the README", "statement": "For the two files of the first example of the README, the program prints what the README shows, with the passphrase on the command line and without a prompt or a warning; and the second example, which replaces the comment and writes the list with another passphrase, gives a file that is read with that passphrase as the same key with the new comment.", "quantifier": "every crypto library that derives the key of the example and computes AES in counter mode (and obeys the laws of ciphers), every file system with these files, all random inputs", "why_tests_cant": "The README is not run by the tests, and its output is of an earlier version; that the program prints exactly this text for any correct library is a statement about the whole program from the arguments to the printed characters.", "anchors": ["README.md:41-157", "openssh_key/__main__.py:14-45", "openssh_key/private_key_list.py:204-416", "openssh_key/kdf_options/common.py:1-55"]}
{"id": "C112", "title": "Validity dates and the time zone of the machine", "statement": "A validity date that is set is read back as the same date. Reading gives what the clocks on the wall show at the stored moment, with fold set just if they have shown the same before; setting a date stores the moment at which they show it, the first or, with fold, the last.", "quantifier": "every time zone whose clocks are at most a day off UTC and are changed at most once in any three days by at most a day (all zones of the tz database); every certificate; every date at least three days inside the years 1 to 9999", "why_tests_cant": "Tests run in one time zone and with few dates; the failures need a change of clocks, a fraction of a second, or the last days of the calendar.", "anchors": ["openssh_key/key_params/cert.py:CertPublicKeyParams.get_valid_after", "openssh_key/key_params/cert.py:CertPublicKeyParams.set_valid_after", "openssh_key/key_params/cert.py:CertPublicKeyParams.get_valid_before", "openssh_key/key_params/cert.py:CertPublicKeyParams.set_valid_before"]}
{"id": "C113", "title": "Only documented exceptions are raised", "statement": "A function whose documentation has a section `Raises` raises no exceptions but those named there (subclasses included), and each of those is raised by some call.", "quantifier": "all calls of 25 documented functions: reading, writing and checking fields; looking up classes; parsing keys and lists; packing lists of constructed keys with a given passphrase; options and authority key of certificates; key derivation; every crypto library that obeys the laws of ciphers and refuses bad arguments with ValueError", "why_tests_cant": "A test shows one exception for one call. That no other class of exception is possible is a statement about all calls, through all the functions that are called.", "anchors": ["openssh_key/pascal_style_byte_stream.py:PascalStyleByteStream", "openssh_key/key.py:Key.from_bytes", "openssh_key/key.py:Key.from_string", "openssh_key/private_key_list.py:PrivateKeyList", "openssh_key/key_params/factory.py", "openssh_key/key_params/cert.py:CertPublicKeyParams", "openssh_key/cipher/factory.py", "openssh_key/kdf_options/factory.py", "openssh_key/kdf_options/bcrypt_options.py:BcryptKDFOptions.derive_key"]}
{"id": "C114", "title": "A key file changed without its passphrase is noticed or gives the same keys", "statement": "If an encrypted file is changed, by anyone who does not know the passphrase, then reading it with the passphrase fails, warns, or gives the same keys.", "quantifier": "all byte strings that are read with neither failure nor warning before and after the change, all passphrases; for the witness and for ciphers with a tag the standard's algorithms, for counter mode every library that xors a key stream", "why_tests_cant": "A test changes some bytes of some file. Which parts of a file may be changed in any way, and which bits can be inverted unnoticed in every file, is a statement about all files and all changes.", "anchors": ["openssh_key/private_key_list.py:PrivateKeyList.from_bytes", "openssh_key/cipher/confidentiality.py:CTRCipher", "openssh_key/cipher/integrity.py:AES_GCMCipher", "openssh_key/cipher/integrity.py:ChaCha20Poly1305Cipher", "openssh_key/key.py:PrivateKey"]}
{"id": "C115", "title": "The checks of the repository's own tests hold of the code", "statement": "Every comparison that the repository's tests make on the byte streams, the keys, the key lists, the KDFs, the ciphers, the parameter classes and the certificates holds: reading and writing by format instructions, from_bytes/from_string/pack_*, the warnings and exceptions that the tests expect, the cipher test vectors (key, IV, plaintext, ciphertext, block size), the valid and invalid values of each parameter class, the conversions from and to key objects of other packages, the generation of parameters, and the accessors of certificates and flags.", "quantifier": "for each of the test functions and test cases of tests/ that is transcribed; in the tests of the cipher vectors, with the ciphers as their standards define them; in the tests of the validity dates, for every clock that returns the timestamps 4 to 7 unchanged; in the tests of conversions and of generating parameters, for all keys, and every library that accepts the numbers of the keys that it made", "why_tests_cant": "The tests say what the authors expect of the code, but whether a comparison is looked at at all, and whether it is true, are two things: test_encrypt and test_decrypt of test_cipher.py return the comparison instead of asserting it, so that pytest passes whatever it is. Proving the comparisons of the model both checks the model against the authors' expectations and shows which of them are false.", "anchors": ["tests/test_pascal_style_byte_stream.py", "tests/test_key.py", "tests/test_private_key_list.py", "tests/test_kdf.py", "tests/test_cipher.py", "tests/key_params/test_cert.py", "tests/key_params/test_sk.py", "tests/key_params/test_rsa.py", "tests/key_params/test_dss.py", "tests/key_params/test_ed25519.py", "tests/key_params/test_ecdsa.py", "openssh_key/cipher/common.py:InitializationVectorCipher"]}
{"id": "C116", "title": "The fuzz targets exercise the parser and find nothing", "statement": "The fuzz targets fuzz_b64.py and fuzz_valid_magic.py give the parser of private key files inputs that depend on the data of the fuzzer, among them inputs that are parsed, and for no data does an exception leave them.", "quantifier": "for all data the fuzzer may give (no bound on its length)", "why_tests_cant": "A fuzz target that never gets to the code under test reports no failure, as does one that tests well: running it does not tell the two apart, and no number of runs shows that no data exist that would get further.", "anchors": ["tests/fuzzer/fuzz_b64.py", "tests/fuzzer/fuzz_valid_magic.py", "openssh_key/private_key_list.py:PrivateKeyList.from_string", "openssh_key/private_key_list.py:PrivateKeyList.from_bytes"]}
{"id": "C117", "title": "A wrong passphrase is noticed", "statement": "If a key file that asks for a passphrase is read with another passphrase than its own, then reading fails or there is a warning that the check numbers differ.", "quantifier": "for all key files, all pairs of different passphrases and all key derivation options; ciphers and bcrypt as their standards define them", "why_tests_cant": "The tests try one wrong passphrase on one file, with a stand-in for the cipher. Whether a wrong passphrase slips through depends on two key streams agreeing in how they differ, which no test will ever hit, and on the combination of cipher and key derivation function named in the file.", "anchors": ["openssh_key/private_key_list.py:PrivateKeyList.from_bytes", "openssh_key/cipher/confidentiality.py:CTRCipher", "openssh_key/cipher/none.py:NoneCipher", "openssh_key/kdf_options/bcrypt_options.py:BcryptKDFOptions"]}
{"id": "C118", "title": "Static properties and abstract classes follow the class hierarchy, and static properties are read-only", "statement": "A readonly_static_property of a class or object gives the value of the first method of its name in the method resolution order; it cannot be changed by assigning to it. is_abstract says of a class exactly whether a method found along this order is abstract. The order of every class has each class that it is derived from once, begins with the class and keeps the order of the bases and of their own orders.", "quantifier": "for all sequences of class statements (any number of classes, bases, methods and properties), all names, and for the classes of the package", "why_tests_cant": "The tests have seven hierarchies of one or two classes with a single base. The package has classes with several bases up to six levels deep, and users may derive more.", "anchors": ["openssh_key/utils.py:is_abstract", "openssh_key/utils.py:readonly_static_property.__get__", "openssh_key/pascal_style_byte_stream.py:PascalStyleDict"]}
{"id": "C119", "title": "Key files are reproduced byte for byte", "statement": "Reading a key file and packing the list with the same passphrase, the key derivation options retained and the check number of the file gives the file that was read; so do files that the package wrote itself.", "quantifier": "for all byte strings and texts that are read, all passphrases, all cryptographic algorithms for which encryption and decryption undo each other (and so for the standard ones)", "why_tests_cant": "The tests pack lists and compare with what they expect of a handful of files; which of all files that can be read are reproduced, and which are changed without a warning, depends on every field of the format at once.", "anchors": ["openssh_key/private_key_list.py:PrivateKeyList.from_bytes", "openssh_key/private_key_list.py:PrivateKeyList.pack_bytes", "openssh_key/private_key_list.py:PrivateKeyList.pack_string"]}
{"id": "C120", "title": "Public key lines are reproduced", "statement": "Reading a public key line with PublicKey.from_string and writing the key with pack_public_string gives the line that was read; reading and writing it any number of times does not change it further.", "quantifier": "for all lines that are read, and any number of repetitions", "why_tests_cant": "The tests compare single lines with what pack_public_string gives for a key built from parameters; they do not read and write the same line twice, and do not say which lines are changed.", "anchors": ["openssh_key/key.py:PublicKey.from_string", "openssh_key/key.py:PublicKey.pack_public_string"]}
{"id": "C121", "title": "What a key file says in the clear does not depend on the passphrase, and a file that cannot be read is refused without asking for it", "statement": "Two lists read from the same file, with any passphrases and any cryptographic functions, have the same header, encrypted bytes, key derivation options and public keys. A file that no passphrase opens, because what stands in the clear is defective, is refused with ValueError before anyone is asked for a passphrase; otherwise the passphrase is asked for exactly once, when the file needs one and none was given, after the warnings about the public keys.", "quantifier": "for all files, passphrases, answers and cryptographic functions", "why_tests_cant": "The tests read each file with one passphrase and patch the question away; that nothing of the clear part depends on the passphrase, and that the question is not reached for a defective file, are statements about all files and all passphrases.", "anchors": ["openssh_key/private_key_list.py:PrivateKeyList.from_bytes"]}
{"id": "C122", "title": "Packing a second file under the same passphrase does not reveal its contents to someone who knows those of the first", "statement": "Of two key files packed under the same passphrase, the private section of one cannot be computed from the two files and the private section of the other. With freshly generated key derivation options the salts differ unless the same random bytes are drawn twice; with retained options (retain_kdf_options_if_present) the files have the same key and initialisation vector, so for ciphers in counter mode, AES-GCM and ChaCha20-Poly1305 their encrypted sections differ by exactly what the private sections differ by.", "quantifier": "for all pairs of files, key lists, passphrases and options", "why_tests_cant": "A relation between two files for every passphrase, salt and pair of private sections; the tests look at one file at a time and only check that it can be read again.", "anchors": ["openssh_key/private_key_list.py:PrivateKeyList.pack_bytes", "openssh_key/cipher/confidentiality.py", "openssh_key/cipher/integrity.py", "openssh_key/kdf_options/bcrypt_options.py:BcryptKDFOptions.generate_options"]}
{"id": "C123", "title": "The size of a packed file", "statement": "The number of bytes that packing a key list writes is determined by the names of cipher and key derivation function, the size of the salt, the sizes of the packed public keys, and the total size of the packed private keys rounded up to whole cipher blocks; it does not depend on the passphrase or on anything else about the keys. The number of characters of the packed text is determined by that number of bytes.", "quantifier": "for all key lists, selections, passphrases, options and ciphers", "why_tests_cant": "The exact size for every list and every cipher, and the absence of any other influence on it, are statements about all pairs of lists; the tests compare single files.", "anchors": ["openssh_key/private_key_list.py:PrivateKeyList.pack_bytes", "openssh_key/private_key_list.py:PrivateKeyList.pack_string"]}
{"id": "C124", "title": "The key derivation function is used at most once in reading or packing a file, with what the file says, and its cost is limited", "statement": "Reading a key file uses the key derivation function only if the clear part is in order and names a cipher and bcrypt, and then for one argument only: the passphrase entered, the salt and the rounds in the file, and the number of bytes that the cipher needs. If it fails there, reading fails. Packing uses it for one argument too: the passphrase entered and the options written. A file cannot ask for an arbitrary number of rounds.", "quantifier": "for all files, key lists, passphrases and key derivation functions", "why_tests_cant": "That nothing but one argument of the function matters compares reading with all functions that agree there, for all files; the tests use one function and a few files with 16 rounds.", "anchors": ["openssh_key/private_key_list.py:PrivateKeyList.from_bytes", "openssh_key/cipher/common.py", "openssh_key/kdf_options/bcrypt_options.py:BcryptKDFOptions.derive_key", "openssh_key/private_key_list.py:PrivateKeyList.pack_bytes"]}
{"id": "C125", "title": "Files in cipher block chaining mode with the same options", "statement": "Of two files that are encrypted with the same cipher in cipher block chaining mode, the same passphrase and the same options of the key derivation function, the encrypted sections agree in the first blocks exactly if the private sections do. A block of one encrypted section that occurs in the other is decrypted there to what it was, xor'ed with what the blocks before it differ by.", "quantifier": "for all pairs of files that are read with the standards' algorithms, all passphrases, all ciphers in this mode, and all places of blocks", "why_tests_cant": "It relates two files at all places, and says of every pair of private sections what can be seen without the passphrase; the tests encrypt and decrypt single byte strings.", "anchors": ["openssh_key/private_key_list.py:PrivateKeyList.from_bytes", "openssh_key/cipher/confidentiality.py:CBCCipher", "openssh_key/private_key_list.py:PrivateKeyList.pack_bytes"]}
