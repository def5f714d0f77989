{
 "claims": [
  {
   "property": "C01",
   "status": "proved",
   "theorems": [
    "OSK.C01_bytes_roundtrip",
    "OSK.C01_bytes_roundtrip_default"
   ],
   "note": ""
  },
  {
   "property": "C02",
   "status": "proved",
   "theorems": [
    "OSK.C02_text_roundtrip",
    "OSK.C02_text_unencodable",
    "OSK.C02_text_read",
    "OSK.C02_text_reencode"
   ],
   "note": ""
  },
  {
   "property": "C03",
   "status": "proved",
   "theorems": [
    "OSK.C03_mpint_roundtrip",
    "OSK.C03_mpint_nonneg_writable"
   ],
   "note": ""
  },
  {
   "property": "C04",
   "status": "proved",
   "theorems": [
    "OSK.C04_mpint_canonical",
    "OSK.C04_mpint_canonical_leading"
   ],
   "note": ""
  },
  {
   "property": "C05",
   "status": "partial",
   "theorems": [
    "OSK.C05_every_int_writable_partial",
    "OSK.C05_false"
   ],
   "note": "False in full: negative ints that need a sign byte (-129, ...) raise OverflowError (C05_false). Proved: the exact set of writable ints."
  },
  {
   "property": "C06",
   "status": "proved",
   "theorems": [
    "OSK.C06_struct_int",
    "OSK.C06_struct_bytes"
   ],
   "note": ""
  },
  {
   "property": "C07",
   "status": "proved",
   "theorems": [
    "OSK.C07_record_roundtrip",
    "OSK.C07_extra_keys_ignored"
   ],
   "note": ""
  },
  {
   "property": "C08",
   "status": "proved",
   "theorems": [
    "OSK.C08_reads_local",
    "OSK.C08_reads_local_single"
   ],
   "note": ""
  },
  {
   "property": "C09",
   "status": "proved",
   "theorems": [
    "OSK.C09_truncated_record",
    "OSK.C09_truncated_written_record"
   ],
   "note": ""
  },
  {
   "property": "C10",
   "status": "proved",
   "theorems": [
    "OSK.C10_no_leak_fixed",
    "OSK.C10_no_leak_record"
   ],
   "note": ""
  },
  {
   "property": "C11",
   "status": "proved",
   "theorems": [
    "OSK.C11_repeated_roundtrip"
   ],
   "note": ""
  },
  {
   "property": "C12",
   "status": "proved",
   "theorems": [
    "OSK.C12_repeated_terminates",
    "OSK.C12_empty_format",
    "OSK.C12_zero_size_diverges"
   ],
   "note": "Also proved: zero-size formats loop forever (C12_zero_size_diverges), so the hypothesis is needed."
  },
  {
   "property": "C13",
   "status": "partial",
   "theorems": [
    "OSK.C13_repeated_incomplete_partial",
    "OSK.C13_repeated_single_struct_partial",
    "OSK.C13_false"
   ],
   "note": "False in full (C13_false): a record cut at a field boundary or right after a length prefix is dropped silently. Proved: outcome is EOFError or exactly the complete records; full claim for single fixed-size-field formats."
  },
  {
   "property": "C14",
   "status": "proved",
   "theorems": [
    "OSK.C14_check_silent_iff",
    "OSK.C14_warning_write_raises",
    "OSK.C14_silent_write_fails_only_unencodable"
   ],
   "note": ""
  },
  {
   "property": "C15",
   "status": "proved",
   "theorems": [
    "OSK.C15_public_key_roundtrip",
    "OSK.C15_public_key_roundtrip_eq"
   ],
   "note": ""
  },
  {
   "property": "C16",
   "status": "proved",
   "theorems": [
    "OSK.C16_parse_pack_parse",
    "OSK.C16_pack_succeeds"
   ],
   "note": ""
  },
  {
   "property": "C17",
   "status": "partial",
   "theorems": [
    "OSK.C17_canonical_partial",
    "OSK.C17_canonical_nonneg",
    "OSK.C17_false"
   ],
   "note": "False in full (C17_false): a key whose mpint is negative and needs a sign byte parses but raises OverflowError when packed. Proved without that case, and in full for records without such integers."
  },
  {
   "property": "C18",
   "status": "proved",
   "theorems": [
    "OSK.C18_excess_split",
    "OSK.C18_excess_appended"
   ],
   "note": ""
  },
  {
   "property": "C19",
   "status": "proved",
   "theorems": [
    "OSK.C19_supported_names",
    "OSK.C19_unsupported_construct",
    "OSK.C19_unsupported_parse"
   ],
   "note": ""
  },
  {
   "property": "C20",
   "status": "proved",
   "theorems": [
    "OSK.C20_private_keys_in_stream"
   ],
   "note": ""
  },
  {
   "property": "C21",
   "status": "proved",
   "theorems": [
    "OSK.C21_public_bytes_noninterference",
    "OSK.C21_public_string_noninterference"
   ],
   "note": ""
  },
  {
   "property": "C22",
   "status": "partial",
   "theorems": [
    "OSK.C22_line",
    "OSK.C22_roundtrip_partial",
    "OSK.C22_false"
   ],
   "note": "False in full (C22_false): the parsed comment gets a trailing newline. Proved: the rendered line, and what comes back for every key and comment."
  },
  {
   "property": "C23",
   "status": "proved",
   "theorems": [
    "OSK.C23_encode_rfc4648",
    "OSK.C23_decode",
    "OSK.C23_decode_str",
    "OSK.C23_roundtrip_str"
   ],
   "note": ""
  },
  {
   "property": "C24",
   "status": "proved",
   "theorems": [
    "OSK.C24_type_mismatch"
   ],
   "note": ""
  },
  {
   "property": "C25",
   "status": "proved",
   "theorems": [
    "OSK.C25_round_trip"
   ],
   "note": ""
  },
  {
   "property": "C26",
   "status": "proved",
   "theorems": [
    "OSK.C26_no_warnings"
   ],
   "note": ""
  },
  {
   "property": "C27",
   "status": "proved",
   "theorems": [
    "OSK.C27_only_value_error"
   ],
   "note": ""
  },
  {
   "property": "C28",
   "status": "partial",
   "theorems": [
    "OSK.C28_false",
    "OSK.C28_only_value_error_partial"
   ],
   "note": "False in full (C28_false): the empty string raises IndexError. Proved for every non-empty string."
  },
  {
   "property": "C29",
   "status": "proved",
   "theorems": [
    "OSK.C29_truncated"
   ],
   "note": ""
  },
  {
   "property": "C30",
   "status": "proved",
   "theorems": [
    "OSK.C30_suffix"
   ],
   "note": ""
  },
  {
   "property": "C31",
   "status": "proved",
   "theorems": [
    "OSK.C31_padding_warning",
    "OSK.C31_pack"
   ],
   "note": ""
  },
  {
   "property": "C32",
   "status": "proved",
   "theorems": [
    "OSK.C32_check_warning",
    "OSK.C32_pack"
   ],
   "note": ""
  },
  {
   "property": "C33",
   "status": "proved",
   "theorems": [
    "OSK.C33_selects",
    "OSK.C33_count",
    "OSK.C33_out_of_range"
   ],
   "note": ""
  },
  {
   "property": "C34",
   "status": "proved",
   "theorems": [
    "OSK.C34_parse_prompts",
    "OSK.C34_parse_prompts_iff",
    "OSK.C34_parse_none",
    "OSK.C34_pack_prompts",
    "OSK.C34_pack_prompts_iff",
    "OSK.C34_pack_none"
   ],
   "note": ""
  },
  {
   "property": "C35",
   "status": "partial",
   "theorems": [
    "OSK.C35_false",
    "OSK.C35_sealed_partial",
    "OSK.C35_none"
   ],
   "note": "False in full (C35_false): with kdf bcrypt and cipher none the private keys are written in the clear. Proved: with every other cipher the section is sealed under the bcrypt key; without a kdf only cipher none packs."
  },
  {
   "property": "C36",
   "status": "proved",
   "theorems": [
    "OSK.C36_parse",
    "OSK.C36_layout",
    "OSK.C36_failure",
    "OSK.C36_round_trip",
    "OSK.C36_keys"
   ],
   "note": ""
  },
  {
   "property": "C37",
   "status": "proved",
   "theorems": [
    "OSK.C37_front"
   ],
   "note": ""
  },
  {
   "property": "C38",
   "status": "proved",
   "theorems": [
    "OSK.C38_magic",
    "OSK.C38_negative",
    "OSK.C38_count"
   ],
   "note": ""
  },
  {
   "property": "C39",
   "status": "partial",
   "theorems": [
    "OSK.C39_retained",
    "OSK.C39_fresh",
    "OSK.C39_repacked",
    "OSK.C39_false",
    "OSK.C39_from_list_partial"
   ],
   "note": "False in full (C39_false): from_list(kdf=\"bcrypt\") without options raises KeyError when packed with retain_kdf_options_if_present. Proved: retained, regenerated and re-packed options, and from_list in the other cases."
  },
  {
   "property": "C40",
   "status": "proved",
   "theorems": [
    "OSK.C40_pair_warnings"
   ],
   "note": ""
  },
  {
   "property": "C41",
   "status": "proved",
   "theorems": [
    "OSK.C41_key_iv_split",
    "OSK.C41_names"
   ],
   "note": ""
  },
  {
   "property": "C42",
   "status": "proved",
   "theorems": [
    "OSK.C42_decrypt_encrypt",
    "OSK.C42_chacha"
   ],
   "note": ""
  },
  {
   "property": "C43",
   "status": "proved",
   "theorems": [
    "OSK.C43_tag",
    "OSK.C43_rejects"
   ],
   "note": ""
  },
  {
   "property": "C44",
   "status": "proved",
   "theorems": [
    "OSK.C44_tag"
   ],
   "note": ""
  },
  {
   "property": "C45",
   "status": "proved",
   "theorems": [
    "OSK.C45_get_after_set",
    "OSK.C45_set_twice",
    "OSK.C45_commute",
    "OSK.C45_set_succeeds_iff",
    "OSK.C45_sequences"
   ],
   "note": ""
  },
  {
   "property": "C46",
   "status": "proved",
   "theorems": [
    "OSK.C46_sorted_unique",
    "OSK.C46_bytewise"
   ],
   "note": ""
  },
  {
   "property": "C47",
   "status": "proved",
   "theorems": [
    "OSK.C47_principals_roundtrip",
    "OSK.C47_rejected"
   ],
   "note": ""
  },
  {
   "property": "C48",
   "status": "partial",
   "theorems": [
    "OSK.C48_empty_principals_partial",
    "OSK.C48_false"
   ],
   "note": "False in full (C48_false): trailing bytes that are not a whole record are dropped, so principals b\"\\0\\0\\0\\5\" read as the empty list. Proved: which byte strings read as the empty list."
  },
  {
   "property": "C49",
   "status": "proved",
   "theorems": [
    "OSK.C49_signed_bytes"
   ],
   "note": ""
  },
  {
   "property": "C50",
   "status": "proved",
   "theorems": [
    "OSK.C50_type",
    "OSK.C50_option_guard",
    "OSK.C50_failed_set"
   ],
   "note": ""
  },
  {
   "property": "C51",
   "status": "proved",
   "theorems": [
    "OSK.C51_rejects_certificates",
    "OSK.C51_roundtrip"
   ],
   "note": ""
  },
  {
   "property": "C52",
   "status": "proved",
   "theorems": [
    "OSK.C52_nesting_bounded"
   ],
   "note": ""
  },
  {
   "property": "C53",
   "status": "partial",
   "theorems": [
    "OSK.C53_authority_partial",
    "OSK.C53_false"
   ],
   "note": "False in full (C53_false): an authority key of an unsupported type raises KeyError. Proved: exactly which exceptions can escape, and when the warning is emitted."
  },
  {
   "property": "C54",
   "status": "proved",
   "theorems": [
    "OSK.C54_set_get",
    "OSK.C54_idempotent",
    "OSK.C54_sequences",
    "OSK.C54_errors"
   ],
   "note": ""
  },
  {
   "property": "C55",
   "status": "proved",
   "theorems": [
    "OSK.C55_ed25519_check",
    "OSK.C55_warnings"
   ],
   "note": ""
  },
  {
   "property": "C56",
   "status": "proved",
   "theorems": [
    "OSK.C56_format_tables",
    "OSK.C56_private_contains_public",
    "OSK.C56_mro_defined"
   ],
   "note": ""
  },
  {
   "property": "C57",
   "status": "partial",
   "theorems": [
    "OSK.C57_false",
    "OSK.C57_packed_partial"
   ],
   "note": "False in full (C57_false): the public key object of a generated pair keeps the private parameters. Proved: its packed forms depend only on the public parameters."
  },
  {
   "property": "C58",
   "status": "partial",
   "theorems": [
    "OSK.C58_false",
    "OSK.C58_lines_partial",
    "OSK.C58_aborts"
   ],
   "note": "False in full (C58_false): a line without a space (IndexError) or with an unsupported key type (KeyError) aborts the program. Proved: the behaviour for all other files, and exactly when it aborts (C58_aborts)."
  },
  {
   "property": "C59",
   "status": "proved",
   "theorems": [
    "OSK.C59_convert_from",
    "OSK.C59_public_of_private"
   ],
   "note": ""
  },
  {
   "property": "C60",
   "status": "proved",
   "theorems": [
    "OSK.C60_private_round_trip",
    "OSK.C60_public_round_trip"
   ],
   "note": "Hypotheses: the values are those of a key object the library would construct (Genuine); where the result is a byte string, that the library accepts it."
  },
  {
   "property": "C61",
   "status": "proved",
   "theorems": [
    "OSK.C61_private_object",
    "OSK.C61_public_object"
   ],
   "note": "Hypothesis Genuine: the constructors of the library accept the key and its redundant numbers agree."
  },
  {
   "property": "C62",
   "status": "partial",
   "theorems": [
    "OSK.C62_false",
    "OSK.C62_false_abstract",
    "OSK.C62_plain_partial",
    "OSK.C62_derived",
    "OSK.C62_depth"
   ],
   "note": "False in full (C62_false, C62_false_abstract): certificate and security key classes raise KeyError for public keys of their base type; PublicKeyParams.convert_from raises TypeError. Proved: plain key types, and the exact behaviour of the derived ones."
  },
  {
   "property": "C63",
   "status": "proved",
   "theorems": [
    "OSK.C63_instance",
    "OSK.C63_unsupported",
    "OSK.C63_public_destination"
   ],
   "note": ""
  },
  {
   "property": "C64",
   "status": "proved",
   "theorems": [
    "OSK.C64_curve_class"
   ],
   "note": ""
  },
  {
   "property": "C65",
   "status": "proved",
   "theorems": [
    "OSK.C65_generate",
    "OSK.C65_as_converted",
    "OSK.C65_default_curve"
   ],
   "note": "Hypothesis GenLaws: object identifiers name their curves, Ed25519 keys have 32 bytes, generated points are on their curve."
  },
  {
   "property": "C66",
   "status": "proved",
   "theorems": [
    "OSK.C66_refused"
   ],
   "note": ""
  },
  {
   "property": "C67",
   "status": "proved",
   "theorems": [
    "OSK.C67_keys_pack",
    "OSK.C67_list_round_trip"
   ],
   "note": "Hypotheses: GenLaws; values and comment within a size bound, integers not negative; for lists CryptoLaws and Ready (what encryption needs is there)."
  },
  {
   "property": "C68",
   "status": "proved",
   "theorems": [
    "OSK.C68_generate_options",
    "OSK.C68_defaults"
   ],
   "note": ""
  },
  {
   "property": "C69",
   "status": "proved",
   "theorems": [
    "OSK.C69_succeeds"
   ],
   "note": "Hypothesis CryptoLaws; Ready says that the cipher accepts the derived key."
  },
  {
   "property": "C70",
   "status": "proved",
   "theorems": [
    "OSK.C70_set",
    "OSK.C70_set_after_get",
    "OSK.C70_forever"
   ],
   "note": "Hypothesis ClockLaws about datetime: dates have the timestamp they were made from (or none in the last days of the year 9999), and there are none after the year 9999. C112_laws proves it of the clock of any time zone."
  },
  {
   "property": "C71",
   "status": "proved",
   "theorems": [
    "OSK.C71_checks",
    "OSK.C71_certificate_checks"
   ],
   "note": "For certificates the faults are given as Spec.CertFault; when construction raises instead is in C50 to C53."
  },
  {
   "property": "C72",
   "status": "proved",
   "theorems": [
    "OSK.C72_parse_warnings"
   ],
   "note": ""
  },
  {
   "property": "C73",
   "status": "proved",
   "theorems": [
    "OSK.C73_list_warnings",
    "OSK.C73_packed_list",
    "OSK.C73_generated_list"
   ],
   "note": "C73_packed_list: hypotheses CryptoLaws, constructed keys that agree pairwise (or override). C73_generated_list: GenLaws."
  },
  {
   "property": "C74",
   "status": "proved",
   "theorems": [
    "OSK.C74_unambiguous",
    "OSK.C74_accepts",
    "OSK.C74_end_of_data",
    "OSK.C74_not_text",
    "OSK.C74_unknown",
    "OSK.C74_lists",
    "OSK.C74_certificate_faults"
   ],
   "note": "The grammar is Spec/Grammar.lean (KeyIn, KeyFails, Records); it does not mention streams or reading functions."
  },
  {
   "property": "C75",
   "status": "proved",
   "theorems": [
    "OSK.C75_accepts",
    "OSK.C75_rejects",
    "OSK.C75_unambiguous",
    "OSK.C75_texts"
   ],
   "note": "The grammar is Spec/FileGrammar.lean (FileReads, KeyReads, LinesOf) and Spec/Base64.lean (TextReads); it does not mention streams or reading functions. Only hypothesis: bcrypt returns as many bytes as asked for."
  },
  {
   "property": "C76",
   "status": "proved",
   "theorems": [
    "OSK.C76_accepts",
    "OSK.C76_errors"
   ],
   "note": "Words, lineClear and TextReads are stated without the reading functions."
  },
  {
   "property": "C77",
   "status": "partial",
   "theorems": [
    "OSK.C77_false",
    "OSK.C77_names_partial",
    "OSK.C77_x11_not_set"
   ],
   "note": "False of the code: the member for X11 forwarding is named permit-x11-forwarding, OpenSSH knows permit-X11-forwarding only (C77_false). All other names are right (C77_names_partial); C77_x11_not_set shows the effect."
  },
  {
   "property": "C78",
   "status": "partial",
   "theorems": [
    "OSK.C78_false",
    "OSK.C78_same_type_partial",
    "OSK.C78_with_type_partial"
   ],
   "note": "False of the code, because the key type is not among the signed bytes: C78_false gives an RSA and an Ed25519 certificate, both accepted without a warning, with the same signed bytes. True within a type and with the type prepended (C78_same_type_partial, C78_with_type_partial)."
  },
  {
   "property": "C79",
   "status": "proved",
   "theorems": [
    "OSK.C79_public",
    "OSK.C79_private",
    "OSK.C79_lists"
   ],
   "note": ""
  },
  {
   "property": "C80",
   "status": "proved",
   "theorems": [
    "OSK.C80_equivalence",
    "OSK.C80_congruence"
   ],
   "note": ""
  },
  {
   "property": "C81",
   "status": "proved",
   "theorems": [
    "OSK.C81_layout",
    "OSK.C81_output",
    "OSK.C81_unambiguous"
   ],
   "note": "C81_output: output is a Document (grammar of RFC 8259 in Spec/Json.lean) of a value that ResultShows relates to the parsed result, in printable ASCII and line feeds. C81_layout: the layout of the text, in lines with four blanks for each level. C81_unambiguous: a text is a document for at most one value."
  },
  {
   "property": "C82",
   "status": "partial",
   "theorems": [
    "OSK.C82_outcome_partial",
    "OSK.C82_false",
    "OSK.C82_usual_partial"
   ],
   "note": "False as stated: C82_false gives, for every digit limit (4300 by default since Python 3.11), a flawless one-key file for which printing raises ValueError. C82_outcome_partial is the complete list of outcomes; C82_usual_partial covers numbers of at most 14284 bits. Missing: numbers with more digits than the limit."
  },
  {
   "property": "C83",
   "status": "proved",
   "theorems": [
    "OSK.C83_determined"
   ],
   "note": "C83_determined: equal outputs come from equal results, via the grammar of C81; the two runs may use different systems, inputs, passphrases and limits."
  },
  {
   "property": "C84",
   "status": "proved",
   "theorems": [
    "OSK.C84_line_ends",
    "OSK.C84_files"
   ],
   "note": "C84_line_ends for the parsed text, C84_files for the whole program, with the grammar LinesOf of C75/C76."
  },
  {
   "property": "C85",
   "status": "partial",
   "theorems": [
    "OSK.C85_false",
    "OSK.C85_in_place_partial"
   ],
   "note": "False as stated: C85_false shows for every list and every operation of collections.UserList that makes a new list (slice, +, *, copy) that packing the result writes each private key in the clear, asks for no passphrase and ignores a given one. C85_in_place_partial: changes in place and copy.copy keep the protection. Missing: new lists."
  },
  {
   "property": "C86",
   "status": "proved",
   "theorems": [
    "OSK.C86_changes",
    "OSK.C86_new_lists"
   ],
   "note": "C86_changes: success iff the independent relation Changes holds, errors iff no change exists; C86_new_lists for operations that make lists (step 1 slices)."
  },
  {
   "property": "C87",
   "status": "proved",
   "theorems": [
    "OSK.C87_from_list"
   ],
   "note": "C87_from_list, over items of any type."
  },
  {
   "property": "C88",
   "status": "proved",
   "theorems": [
    "OSK.C88_equivalence",
    "OSK.C88_congruence"
   ],
   "note": "C88_equivalence, C88_congruence (keys that were constructed, i.e. not altered after construction, as in C80)."
  },
  {
   "property": "C89",
   "status": "partial",
   "theorems": [
    "OSK.C89_count_partial",
    "OSK.C89_false"
   ],
   "note": "False as stated: C89_false gives a security key with a short public key, reported twice. C89_count_partial is the exact number of times that each warning is issued: once, twice for certificates and security keys, four times for certificates of security keys, twice for the fields of private Ed25519 keys. Counted are calls of warnings.warn, before any filter of the warnings module. Missing: that the numbers are one."
  },
  {
   "property": "C90",
   "status": "proved",
   "theorems": [
    "OSK.C90_field",
    "OSK.C90_public",
    "OSK.C90_private"
   ],
   "note": "C90_field, C90_public, C90_private, against the relations Stores, Refuses, StoresAll and RefusesAt of Spec/Pack.lean. Constructed keys are those that the constructor returned, not altered afterwards."
  },
  {
   "property": "C91",
   "status": "proved",
   "theorems": [
    "OSK.C91_unprepared",
    "OSK.C91_prepared",
    "OSK.C91_complete"
   ],
   "note": "C91_unprepared, C91_prepared and C91_complete, against the stages of Spec/PackList.lean; C91_complete says that exactly these cases exist. Assumed: CryptoLaws, constructed keys, a 32-bit check integer (secrets.randbits(32))."
  },
  {
   "property": "C92",
   "status": "partial",
   "theorems": [
    "OSK.C92_limit_partial",
    "OSK.C92_false"
   ],
   "note": "False as stated: C92_false gives, for every limit n, a key of 100 n bytes that fails with RecursionError at this limit and parses without one (the except clause of the authority check does not catch RecursionError). C92_limit_partial is the exact outcome under a limit, and that fewer than 100 n bytes never meet it. Missing: deeper nesting. How many Python frames a level takes (about 7) is not modelled."
  },
  {
   "property": "C93",
   "status": "partial",
   "theorems": [
    "OSK.C93_reads_partial",
    "OSK.C93_text_partial",
    "OSK.C93_false",
    "OSK.C93_text_false"
   ],
   "note": "False as stated: C93_false gives a file with a comment that is not UTF-8 and a file that names the key type `Ed25519`, C93_text_false a text with something after the end marker; ssh-keygen accepts all of them, the package refuses them. C93_reads_partial is exact: of the files that OpenSSH reads, the package reads those with plain names and UTF-8 texts and no others, as the same key, with exactly the listed warnings; C93_text_partial: every text without anything after the end marker. The relations SshReads and SshText (Spec/OpenSSH.lean) are a transcription of sshkey.c, compared with ssh-keygen by tools/ssh_accepts_check.py; certificates, size limits and arithmetic checks of OpenSSH are left out. Missing: the files and texts that are refused."
  },
  {
   "property": "C94",
   "status": "partial",
   "theorems": [
    "OSK.C94_written_partial",
    "OSK.C94_count",
    "OSK.C94_rijndael",
    "OSK.C94_false",
    "OSK.C94_text"
   ],
   "note": "False as stated: C94_false gives a list of two keys (C94_count: any number but one is never read; C94_rijndael: the cipher rijndael-cbc@lysator.liu.se is never read). C94_written_partial: one pair with equal public values, no negative numbers, sound key material, no zero character in texts, another cipher, and a passphrase that is not empty if one is used, is read by OpenSSH, as the same key, up to the size limits and arithmetic checks of OpenSSH that the relation leaves open. C94_text for the text, without conditions. Missing: the excluded lists."
  },
  {
   "property": "C95",
   "status": "partial",
   "theorems": [
    "OSK.C95_keys_partial",
    "OSK.C95_lines_partial",
    "OSK.C95_false",
    "OSK.C95_lines_false"
   ],
   "note": "False as stated: C95_false gives a key that names its type `Ed25519`; C95_lines_false gives a line with two spaces, which is refused, and a line with a tab, which OpenSSH reads as one key and the package as another one (from the comment). C95_keys_partial is exact: of the keys and certificates that OpenSSH reads, the package reads those with plain names and UTF-8 texts and lists and no others, as the same key, with exactly the warnings listed. C95_lines_partial: lines with one space between name and key (tabs around it). Missing: other names, other encodings of text, other blanks. Assumed: Spec/OpenSSHPublic.lean says what OpenSSH reads (checked with tools/ssh_public_check.py); limits on sizes and the check of the signature are an arbitrary predicate."
  },
  {
   "property": "C96",
   "status": "partial",
   "theorems": [
    "OSK.C96_keys_partial",
    "OSK.C96_principals",
    "OSK.C96_options",
    "OSK.C96_authority",
    "OSK.C96_lines_partial",
    "OSK.C96_false"
   ],
   "note": "False as stated: C96_false gives a key with a negative number and a comment with a line feed. C96_keys_partial and C96_lines_partial: keys with sound material, no negative number, no zero character in texts, certificates whose fields are acceptable, comments without line feeds and zero characters. C96_principals, C96_options, C96_authority: fields set with the package's methods are acceptable. Missing: the excluded values."
  },
  {
   "property": "C97",
   "status": "partial",
   "theorems": [
    "OSK.C97_keys_partial",
    "OSK.C97_stream",
    "OSK.C97_set_option",
    "OSK.C97_pack",
    "OSK.C97_lists",
    "OSK.C97_program",
    "OSK.C97_success",
    "OSK.C97_false"
   ],
   "note": "False as stated for key lists: C97_false gives a file for which the raised UserWarning reaches the caller as ValueError('Unexpected error condition reached.'), since from_bytes catches BaseException, although its documentation lists UserWarning. C97_lists is the exact behaviour there. C97_keys_partial, C97_stream, C97_set_option, C97_pack, C97_program cover everything else that can warn; C97_success follows for all of them. Model/Filtered.lean repeats the model's definitions word for word with a warn that may raise; tools/filtered_model.py writes and checks it. Missing: the exception of PrivateKeyList.from_bytes/from_string."
  },
  {
   "property": "C98",
   "status": "partial",
   "theorems": [
    "OSK.C98_keys_partial",
    "OSK.C98_lines_partial",
    "OSK.C98_false"
   ],
   "note": "False as stated for certificates: C98_false gives one whose list of principals ends with a length after which nothing follows, and no warning is raised. C98_keys_partial and C98_lines_partial are exact, with lists that may end in front of a part of a record (CertInOrder). Missing: whole lists."
  },
  {
   "property": "C99",
   "status": "partial",
   "theorems": [
    "OSK.C99_files_partial",
    "OSK.C99_texts_partial",
    "OSK.C99_false"
   ],
   "note": "False as stated: C99_false gives a file in order followed by one more byte, which is read, and no warning is raised (from_bytes does not look at what comes after the tag). C99_files_partial and C99_texts_partial are exact, with something that may come after the file. Only hypothesis: bcrypt returns as many bytes as asked for. Missing: that nothing comes after the file."
  },
  {
   "property": "C100",
   "status": "proved",
   "theorems": [
    "OSK.C100_keys",
    "OSK.C100_files"
   ],
   "note": "C100_keys and C100_files, up to the limits on sizes and the arithmetic checks of OpenSSH (predicate `limits`, here always true), against Spec/Strict.lean, Spec/StrictFile.lean, Spec/OpenSSH.lean, Spec/OpenSSHPublic.lean, Spec/Both.lean. keyInOrder_strict and C99_files_partial say that keys and files in order are those that are read with every warning raised. Hypotheses for files: bcrypt returns as many bytes as asked for; decryption gives as many bytes as were encrypted (DecryptLengths; met by toyCrypto)."
  },
  {
   "property": "C101",
   "status": "partial",
   "theorems": [
    "OSK.C101_exact",
    "OSK.C101_program",
    "OSK.C101_help",
    "OSK.C101_always",
    "OSK.C101_usual_partial",
    "OSK.C101_false"
   ],
   "note": "False as stated: C101_false gives the passphrase `-secret`. C101_usual_partial is exact: the usual command line works exactly for the file names and passphrases that argparse does not take for options (Word). C101_exact says which command lines are accepted, with which file name and passphrase, and no others; C101_program what the program does with them; C101_help exactly when the help is shown (and the program ends without an error); C101_always that any file name and passphrase can be given as `--passphrase=p -- f`. Model/Args.lean is argparse of CPython 3.11.10 for this parser (compared by tools/stdlib_check.py); which characters beyond ASCII are digits is abstract. Missing: the names and passphrases taken for options, which are refused."
  },
  {
   "property": "C102",
   "status": "proved",
   "theorems": [
    "OSK.C102_changes",
    "OSK.C102_combine",
    "OSK.C102_certificates",
    "OSK.C102_entries",
    "OSK.C102_copies"
   ],
   "note": "C102_changes: all operations that change a parameters object, against Spec/UserDict.lean (Does, Fails); hypothesis: the keys are unique, which Python's dictionaries guarantee and every operation preserves. C102_combine, C102_certificates, C102_entries: `|` in both directions, with the warnings of C71. C102_copies: copies and fromkeys. The operations are CPython 3.11.10's, compared by tools/stdlib_check.py."
  },
  {
   "property": "C103",
   "status": "proved",
   "theorems": [
    "OSK.C103_values",
    "OSK.C103_change",
    "OSK.C103_make",
    "OSK.C103_lists",
    "OSK.C103_popitem",
    "OSK.C103_derive"
   ],
   "note": "Model/Store.lean has the dictionaries as cells of a store and keys as references to them, with the copies that the code makes. C103_values: refinement, for all programs, by the program in which they are values (Spec/Store.lean), by the invariant that all references are different. C103_change, C103_make: the same said directly. C103_lists: lists share their keys. C103_derive: what is in slices, sums, multiples and copies of lists. C103_popitem: which item popitem takes."
  },
  {
   "property": "C104",
   "status": "proved",
   "theorems": [
    "OSK.C104_blowfish_vectors",
    "OSK.C104_blowfish_salt",
    "OSK.C104_bcrypt_layout",
    "OSK.C104_bcrypt_vector",
    "OSK.C104_laws",
    "OSK.C104_lengths",
    "OSK.C104_kdf",
    "OSK.C104_encrypts",
    "OSK.C104_file",
    "OSK.C104_blowfish_pi",
    "OSK.C104_sbox",
    "OSK.C104_inv_sbox",
    "OSK.C104_sha_k",
    "OSK.C104_sha_h",
    "OSK.C104_aes_vectors",
    "OSK.C104_mode_vectors",
    "OSK.C104_des_vectors",
    "OSK.C104_gcm_vectors",
    "OSK.C104_chacha_vectors",
    "OSK.C104_sha_vectors",
    "OSK.C104_pi_digits",
    "OSK.C104_blowfish_rounds"
   ],
   "note": "C104_laws and C104_lengths: the algorithms of Verif/Std obey CryptoLaws and DecryptLengths. C104_kdf and C104_encrypts: when they succeed. C104_file: packing and reading with them, with no hypothesis about cryptography. C104_sbox, C104_inv_sbox, C104_sha_k, C104_sha_h and C104_blowfish_pi: the tables are what the standards describe (the tables of Blowfish are the digits of the real number pi). C104_blowfish_vectors and C104_blowfish_salt: known answers of Blowfish and of the salted key schedule. C104_bcrypt_vector: a known answer of bcrypt_pbkdf as a whole; C104_bcrypt_layout: where its bytes come from. C104_aes_vectors and the others: known answers of the other algorithms. The rest of the agreement with the standards is checked by tools/crypto_check.py against openssl and ssh-keygen; that the packages compute it is trusted."
  },
  {
   "property": "C105",
   "status": "partial",
   "theorems": [
    "OSK.C105_formats",
    "OSK.C105_determined",
    "OSK.C105_unpack",
    "OSK.C105_unpack_size",
    "OSK.C105_pack",
    "OSK.C105_round_trip",
    "OSK.C105_parsed",
    "OSK.C105_used",
    "OSK.C105_read",
    "OSK.C105_short",
    "OSK.C105_read_total",
    "OSK.C105_check",
    "OSK.C105_not_format",
    "OSK.C105_unsupported_partial",
    "OSK.C105_false"
   ],
   "note": "False as stated: C105_false gives 'Z', which raises struct.error, no ValueError (the documentation of both functions promises ValueError). C105_unsupported_partial: strings with a character beyond ASCII (UnicodeEncodeError is a ValueError). Everything else holds: C105_formats and C105_determined (which strings are formats, against the grammar IsFormat of Spec/StructText.lean), C105_unpack, C105_unpack_size, C105_pack, C105_round_trip, C105_read, C105_read_total, C105_short, C105_check; C105_parsed and C105_used tie the strings to the parsed formats of the rest of the model. Compared with CPython 3.11.10 by tools/stdlib_check.py; floating point numbers are abstract. Missing: the exception for the other strings."
  },
  {
   "property": "C106",
   "status": "partial",
   "theorems": [
    "OSK.C106_pack",
    "OSK.C106_parse_partial",
    "OSK.C106_text_partial",
    "OSK.C106_program_partial",
    "OSK.C106_false"
   ],
   "note": "False as stated: C106_false gives a whole file for which KeyboardInterrupt and EOFError at the prompt become ValueErrors that say something else. C106_parse_partial, C106_text_partial and C106_program_partial are exact: what is raised at the prompt is raised unchanged exactly if it is a ValueError, and nothing happens after the prompt. C106_pack: packing raises it unchanged. Missing: other exceptions at the prompt of parsing."
  },
  {
   "property": "C107",
   "status": "proved",
   "theorems": [
    "OSK.C107_primes",
    "OSK.C107_decode",
    "OSK.C107_valid",
    "OSK.C107_one_point",
    "OSK.C107_two",
    "OSK.C107_warning",
    "OSK.C107_certificate",
    "OSK.C107_assumed",
    "OSK.C107_openssh"
   ],
   "note": "Std.validPoint and Std.decodePoint follow from_encoded_point and the functions of OpenSSL it calls (trusted, compared by tools/curve_check.py). The primality of the three fields is proved (Pratt certificates checked by the kernel; Lucas-Lehmer). C107_decode and C107_valid are the exact characterisation, C107_warning and C107_certificate the warning, C107_one_point and C107_two say how points and encodings correspond, C107_assumed discharges what C60, C61, C65 and C67 assume of points, and C107_openssh notes that OpenSSH takes fewer encodings."
  },
  {
   "property": "C108",
   "status": "partial",
   "theorems": [
    "OSK.C108_reads",
    "OSK.C108_writes_partial",
    "OSK.C108_readme_partial",
    "OSK.C108_false"
   ],
   "note": "False as stated: C108_false gives a file with a negative integer that is read but can not be written (the defect of C05). C108_writes_partial: writing succeeds exactly if no integer of a key needs a sign byte; assumed are sizes (the comments do not take the section over 4 GB), a passphrase that is not empty, a check number and a salt of their sizes. C108_reads: whatever is written is read back exactly as claimed, for any cryptographic functions that obey the laws; bytes after a public key are dropped. C108_readme_partial puts both together for texts. Missing: lists with such an integer."
  },
  {
   "property": "C109",
   "status": "partial",
   "theorems": [
    "OSK.C109_convert_partial",
    "OSK.C109_ed25519",
    "OSK.C109_false",
    "OSK.C109_rsa",
    "OSK.C109_ec",
    "OSK.C109_laws",
    "OSK.C109_generated",
    "OSK.C109_ec_generate"
   ],
   "note": "False as stated: C109_false gives an Ed25519 key with the public half of another, which is taken without warning and converted; the public half changes on the way. C109_convert_partial: exact for RSA, DSA and ECDSA, with the library's checks as Std/Keys.lean describes them (trusted) and the group law of Mathlib for the curves. C109_ed25519 says what happens for Ed25519. C109_rsa: the exponents undo each other for every message. C109_ec: every private value of the three curves has a point and no two have the same (the orders are proved prime). C109_laws and C109_generated: generated keys, for any library whose keys belong together; C109_ec_generate: computing the point is enough for that. DSA: nothing checks that the parameters are primes. Missing: Ed25519, where it is false."
  },
  {
   "property": "C110",
   "status": "partial",
   "theorems": [
    "OSK.C110_key",
    "OSK.C110_line",
    "OSK.C110_list",
    "OSK.C110_list_text",
    "OSK.C110_lines",
    "OSK.C110_warnings",
    "OSK.C110_warnings_all",
    "OSK.C110_meter",
    "OSK.C110_work",
    "OSK.C110_levels",
    "OSK.C110_work_reached",
    "OSK.C110_one_derivation_partial",
    "OSK.C110_false"
   ],
   "note": "False as stated in its last part: C110_false gives, for every number of rounds below 2^32, a file of 91 bytes whose outcome depends on a key derivation with that number of rounds, whatever the passphrase (the number is taken from the file and not limited). C110_one_derivation_partial: the outcome of parsing depends on one key derivation at most, of at most 64 bytes, with less than 2^32 rounds. C110_key, C110_line, C110_list, C110_list_text, C110_lines: sizes. C110_warnings, C110_warnings_all: warnings, also when parsing fails. C110_meter, C110_work, C110_levels, C110_work_reached: the bytes given to PublicKey.from_bytes, at all levels, counted by a metered copy of the recursion that C110_meter ties to the model; the bound is reached. Sizes are those of the values; time and memory of the interpreter are not modelled. Missing: a bound on the rounds."
  },
  {
   "property": "C111",
   "status": "partial",
   "theorems": [
    "OSK.C111_private_partial",
    "OSK.C111_public",
    "OSK.C111_false",
    "OSK.C111_modified"
   ],
   "note": "False in full (C111_false): the README shows the key derivation options of the private key file directly, the program prints them within an object, as its data. Proved: everything else is printed exactly as shown (C111_private_partial), the public key file is (C111_public), and the second example works (C111_modified; the public key file that it writes has no comment). That bcrypt_pbkdf derives the key of the example is a hypothesis; Std.crypto evaluates to it, and ssh-keygen opens the file."
  },
  {
   "property": "C112",
   "status": "partial",
   "theorems": [
    "OSK.C112_laws",
    "OSK.C112_get",
    "OSK.C112_set",
    "OSK.C112_set_get_partial",
    "OSK.C112_skipped",
    "OSK.C112_same_iff",
    "OSK.C112_aware",
    "OSK.C112_before_1970",
    "OSK.C112_table",
    "OSK.C112_false"
   ],
   "note": "False in full (C112_false): dates that the clocks skip, that have a fraction of a second or a time zone are not read back as they were set. Proved: exactly which dates are (C112_same_iff), what happens to the others, and that the clock has the laws supposed in C70. Time zones are any with ZoneLaws; tools/zone_check.py checks those of the tz database. CPython datetime is modelled in Std/Datetime.lean."
  },
  {
   "property": "C113",
   "status": "partial",
   "theorems": [
    "OSK.C113_raises",
    "OSK.C113_documented_partial",
    "OSK.C113_says",
    "OSK.C113_false",
    "OSK.C113_reading_partial"
   ],
   "note": "False in full: C113_documented_partial says that exactly six of the 25 functions raise only what their documentation says (the lookups of classes, PrivateKeyList.from_bytes and from_list); C113_false shows four of the others. C113_raises is exact for all of them: the classes of exceptions in the table Documented.raises, no others, each raised by a call; C113_says: nothing is documented in vain. C113_reading_partial: with index-sized numbers and lengths of at most seven bytes three more functions agree with their documentation. Warnings are left out (C97). Missing: the functions that raise more than is documented."
  },
  {
   "property": "C114",
   "status": "partial",
   "theorems": [
    "OSK.C114_chain",
    "OSK.C114_clear_partial",
    "OSK.C114_counter",
    "OSK.C114_secret",
    "OSK.C114_tag",
    "OSK.C114_false"
   ],
   "note": "False in full: C114_false has, for every passphrase, a file encrypted with aes256-ctr and a change of it that is the same for all passphrases, read without warning before and after, with the same public keys but another private key (real AES and bcrypt). C114_secret: in any file with a cipher in counter mode any bits of the secret of an Ed25519 key can be inverted like this; C114_counter: the plain text can be replaced by any other of its length by whoever knows it. True: C114_clear_partial, if the encrypted section, cipher name and options are unchanged then whatever else was changed the keys are the same or there is an error or a warning (this covers the public keys, the padding, the bytes after the file); C114_tag, files with AES-GCM or ChaCha20-Poly1305 are read only with the tag of the standard. Counter mode is a hypothesis, proved of the standard's AES (std_counterMode). C114_chain: in any file with a cipher in CBC mode and an Ed25519 key some bytes can be changed at will, with another secret and no warning. Missing: that tags cannot be forged is not stated here."
  },
  {
   "property": "C115",
   "status": "partial",
   "theorems": [
    "OSK.C115_cipher_vector14",
    "OSK.C115_cipher_vector15",
    "OSK.C115_cipher_vector16",
    "OSK.C115_cipher_vector17",
    "OSK.C115_cert_type",
    "OSK.C115_cert_valid_principals",
    "OSK.C115_cert_valid_after",
    "OSK.C115_cert_valid_before",
    "OSK.C115_cert_get_critical_option_str_option",
    "OSK.C115_cert_get_critical_option_str_option_nonexistent",
    "OSK.C115_cert_get_critical_option_enum_option",
    "OSK.C115_cert_get_critical_option_enum_option_wrong_type",
    "OSK.C115_cert_get_critical_option_duplicate_option",
    "OSK.C115_cert_set_critical_option_different_option_before",
    "OSK.C115_cert_set_critical_option_different_option_after",
    "OSK.C115_cert_set_critical_option_same_option",
    "OSK.C115_cert_set_critical_option_enum_option",
    "OSK.C115_cert_set_critical_option_enum_option_wrong_type",
    "OSK.C115_cert_get_extension_str_option",
    "OSK.C115_cert_get_extension_str_option_nonexistent",
    "OSK.C115_cert_get_extension_enum_option",
    "OSK.C115_cert_get_extension_enum_option_wrong_type",
    "OSK.C115_cert_get_extension_duplicate_option",
    "OSK.C115_cert_set_extension_different_option_before",
    "OSK.C115_cert_set_extension_different_option_after",
    "OSK.C115_cert_set_extension_same_option",
    "OSK.C115_cert_set_extension_enum_option",
    "OSK.C115_cert_set_extension_enum_option_wrong_type",
    "OSK.C115_cert_pack_signed_bytes",
    "OSK.C115_cert_get_signature_key",
    "OSK.C115_cert_set_signature_key",
    "OSK.C115_cert_set_signature_key_cert",
    "OSK.C115_sk_flag",
    "OSK.C115_cipher_vector18",
    "OSK.C115_cipher_vector0",
    "OSK.C115_cipher_vector1",
    "OSK.C115_cipher_vector2_false",
    "OSK.C115_cipher_vector2_partial",
    "OSK.C115_cipher_vector3_false",
    "OSK.C115_cipher_vector3_partial",
    "OSK.C115_cipher_vector4_false",
    "OSK.C115_cipher_vector4_partial",
    "OSK.C115_cipher_vector5_false",
    "OSK.C115_cipher_vector5_partial",
    "OSK.C115_cipher_vector6_false",
    "OSK.C115_cipher_vector6_partial",
    "OSK.C115_cipher_vector7_false",
    "OSK.C115_cipher_vector7_partial",
    "OSK.C115_cipher_vector8",
    "OSK.C115_cipher_vector9",
    "OSK.C115_cipher_vector10",
    "OSK.C115_cipher_vector11",
    "OSK.C115_cipher_vector12",
    "OSK.C115_cipher_vector13",
    "OSK.C115_cipher_factory",
    "OSK.C115_cipher_none",
    "OSK.C115_rsa_public_convert_from_unknown",
    "OSK.C115_rsa_public_convert_from_cryptography_public",
    "OSK.C115_rsa_public_convert_from_cryptography_private",
    "OSK.C115_rsa_public_convert_to_cryptography_public",
    "OSK.C115_rsa_private_generate_private_params",
    "OSK.C115_rsa_private_generate_private_params_valid_public_exponent",
    "OSK.C115_rsa_private_generate_private_params_invalid_public_exponent",
    "OSK.C115_rsa_private_generate_private_params_valid_key_size",
    "OSK.C115_rsa_private_generate_private_params_invalid_key_size",
    "OSK.C115_rsa_private_convert_from_unknown",
    "OSK.C115_rsa_private_convert_from_cryptography_private",
    "OSK.C115_rsa_private_convert_to_cryptography_private",
    "OSK.C115_rsa_private_convert_to_cryptography_public",
    "OSK.C115_rsa_public_convert_to_not_implemented",
    "OSK.C115_convert_to_not_class",
    "OSK.C115_dss_public_convert_from_unknown",
    "OSK.C115_dss_public_convert_from_cryptography_public",
    "OSK.C115_dss_public_convert_from_cryptography_private",
    "OSK.C115_dss_public_convert_to_cryptography_public",
    "OSK.C115_dss_private_convert_from_unknown",
    "OSK.C115_dss_private_convert_from_cryptography_private",
    "OSK.C115_dss_private_convert_to_cryptography_private",
    "OSK.C115_dss_private_convert_to_cryptography_public",
    "OSK.C115_dss_public_convert_to_not_implemented",
    "OSK.C115_ed25519_public_convert_from_unknown",
    "OSK.C115_ed25519_public_convert_from_cryptography_public",
    "OSK.C115_ed25519_public_convert_from_bytes_public",
    "OSK.C115_ed25519_public_convert_from_pynacl_public",
    "OSK.C115_ed25519_public_convert_from_cryptography_private",
    "OSK.C115_ed25519_public_convert_from_pynacl_private",
    "OSK.C115_ed25519_public_convert_to_cryptography_public",
    "OSK.C115_ed25519_public_convert_to_bytes_public",
    "OSK.C115_ed25519_public_convert_to_pynacl_public",
    "OSK.C115_ed25519_public_convert_to_missing_pynacl",
    "OSK.C115_ed25519_private_generate_private_params",
    "OSK.C115_ed25519_private_convert_from_unknown",
    "OSK.C115_ed25519_private_convert_from_cryptography_private",
    "OSK.C115_ed25519_private_convert_from_bytes_private",
    "OSK.C115_ed25519_private_convert_from_pynacl_private",
    "OSK.C115_ed25519_private_convert_to_cryptography_private",
    "OSK.C115_ed25519_private_convert_to_cryptography_public",
    "OSK.C115_ed25519_private_convert_to_bytes_private",
    "OSK.C115_ed25519_private_convert_to_pynacl_private",
    "OSK.C115_ed25519_private_convert_to_pynacl_public",
    "OSK.C115_ed25519_private_convert_to_missing_pynacl",
    "OSK.C115_ed25519_public_convert_to_not_implemented",
    "OSK.C115_ecdsa_public_convert_from_unknown",
    "OSK.C115_ecdsa_public_convert_from_cryptography_public",
    "OSK.C115_ecdsa_public_convert_from_cryptography_private",
    "OSK.C115_ecdsa_public_convert_from_cryptography_public_different_curve",
    "OSK.C115_ecdsa_public_convert_to_cryptography_public",
    "OSK.C115_ecdsa_public_convert_to_cryptography_public_bad_curve_identifier",
    "OSK.C115_ecdsa_private_generate_private_params",
    "OSK.C115_ecdsa_private_generate_private_params_specific_curve",
    "OSK.C115_ecdsa_private_convert_from_unknown",
    "OSK.C115_ecdsa_private_convert_from_cryptography_private",
    "OSK.C115_ecdsa_private_convert_from_cryptography_private_different_curve",
    "OSK.C115_ecdsa_private_convert_to_cryptography_private",
    "OSK.C115_ecdsa_private_convert_to_cryptography_public",
    "OSK.C115_ecdsa_public_convert_to_not_implemented",
    "OSK.C115_kdf_bcrypt_generate_options_salt_length",
    "OSK.C115_kdf_bcrypt_generate_options_rounds",
    "OSK.C115_list_public_private_key_pair_generate_kwargs",
    "OSK.C115_key_public_key_header_format_instructions_dict",
    "OSK.C115_key_public_key_footer_format_instructions_dict",
    "OSK.C115_key_private_key_header_format_instructions_dict",
    "OSK.C115_key_private_key_footer_format_instructions_dict",
    "OSK.C115_key_public_key_init",
    "OSK.C115_key_public_key_from_byte_stream",
    "OSK.C115_key_public_key_from_bytes",
    "OSK.C115_key_public_key_from_bytes_remainder",
    "OSK.C115_key_public_key_from_string",
    "OSK.C115_key_public_key_from_string_inconsistent_key_type",
    "OSK.C115_key_public_key_from_string_not_a_key",
    "OSK.C115_key_public_key_pack_public_bytes",
    "OSK.C115_key_public_key_pack_public_string",
    "OSK.C115_key_public_key_pack_public_string_clear_comment",
    "OSK.C115_key_public_key_pack_public_string_no_clear_comment",
    "OSK.C115_key_private_key_init",
    "OSK.C115_key_private_key_init_invalid_footer",
    "OSK.C115_key_private_key_from_byte_stream",
    "OSK.C115_key_private_key_from_bytes",
    "OSK.C115_key_private_key_pack_public",
    "OSK.C115_key_private_key_pack_private_bytes",
    "OSK.C115_key_private_key_pack_public_string",
    "OSK.C115_key_private_key_pack_public_string_footer_comment",
    "OSK.C115_key_private_key_pack_public_string_no_footer_comment",
    "OSK.C115_key_rsa",
    "OSK.C115_list_public_private_key_pair_generate",
    "OSK.C115_list_public_private_key_pair_generate_comment",
    "OSK.C115_list_header_format_instructions_dict",
    "OSK.C115_list_decipher_bytes_format_instructions_dict",
    "OSK.C115_list_from_bytes_invalid_auth_magic",
    "OSK.C115_list_from_bytes_negative_num_keys",
    "OSK.C115_list_from_bytes_one_key_none",
    "OSK.C115_list_from_bytes_one_key_bcrypt_aes256ctr",
    "OSK.C115_list_from_bytes_one_key_bcrypt_aes256gcm",
    "OSK.C115_list_from_bytes_two_keys_bcrypt_aes256ctr",
    "OSK.C115_list_from_bytes_two_keys_bcrypt_aes256gcm",
    "OSK.C115_list_from_bytes_one_key_none_extra_bytes_public_key",
    "OSK.C115_list_from_bytes_one_key_none_bad_decipher_bytes_header",
    "OSK.C115_list_from_bytes_one_key_none_inconsistent_key_types",
    "OSK.C115_list_from_bytes_one_key_none_inconsistent_key_params",
    "OSK.C115_list_from_bytes_one_key_none_unexpected_padding_bytes",
    "OSK.C115_list_from_bytes_one_key_none_excess_padding_bytes",
    "OSK.C115_list_from_bytes_one_key_none_no_padding_bytes",
    "OSK.C115_list_from_bytes_one_key_none_insufficient_padding_bytes",
    "OSK.C115_list_from_bytes_passphrase",
    "OSK.C115_list_from_string",
    "OSK.C115_list_from_string_incorrect_header",
    "OSK.C115_list_from_string_incorrect_footer",
    "OSK.C115_list_from_string_passphrase",
    "OSK.C115_list_from_list_one_key",
    "OSK.C115_list_from_list_two_keys",
    "OSK.C115_list_from_list_bcrypt_aes256_ctr",
    "OSK.C115_list_from_list_invalid_private_key",
    "OSK.C115_list_from_list_invalid_public_key",
    "OSK.C115_list_from_list_invalid_key_pair",
    "OSK.C115_kdf_factory_none",
    "OSK.C115_kdf_factory_bcrypt",
    "OSK.C115_kdf_none_format_instructions_dict",
    "OSK.C115_kdf_none_generate_options",
    "OSK.C115_kdf_bcrypt_format_instructions_dict",
    "OSK.C115_kdf_bcrypt_generate_options",
    "OSK.C115_kdf_none",
    "OSK.C115_kdf_bcrypt_calls_lib",
    "OSK.C115_list_pack_bytes_one_key_none",
    "OSK.C115_list_pack_bytes_two_keys_none",
    "OSK.C115_list_pack_bytes_one_key_bcrypt_aes256_ctr",
    "OSK.C115_list_pack_bytes_one_key_bcrypt_aes256_gcm",
    "OSK.C115_list_pack_bytes_two_keys_include_indices",
    "OSK.C115_list_pack_bytes_two_keys_invalid_include_indices",
    "OSK.C115_list_pack_bytes_override_public_with_private",
    "OSK.C115_list_pack_bytes_no_override_public_with_private",
    "OSK.C115_list_pack_bytes_header_none",
    "OSK.C115_list_pack_bytes_header_no_cipher",
    "OSK.C115_list_pack_bytes_header_no_kdf",
    "OSK.C115_list_pack_bytes_header_retain_kdf_options",
    "OSK.C115_list_pack_bytes_passphrase",
    "OSK.C115_list_pack_string_one_key_none",
    "OSK.C115_list_pack_string_one_key_bcrypt_aes256_ctr",
    "OSK.C115_list_pack_string_two_keys_include_indices",
    "OSK.C115_list_pack_string_two_keys_invalid_include_indices",
    "OSK.C115_list_pack_string_override_public_with_private",
    "OSK.C115_list_pack_string_no_override_public_with_private",
    "OSK.C115_list_pack_string_one_key_retain_kdf_options",
    "OSK.C115_list_pack_string_passphrase",
    "OSK.C115_params_rsaPub",
    "OSK.C115_params_rsaPriv",
    "OSK.C115_params_ed25519Pub",
    "OSK.C115_params_ed25519Priv",
    "OSK.C115_params_dssPub",
    "OSK.C115_params_dssPriv",
    "OSK.C115_params_ec256Pub",
    "OSK.C115_params_ec256Priv",
    "OSK.C115_params_ec384Pub",
    "OSK.C115_params_ec384Priv",
    "OSK.C115_params_ec521Pub",
    "OSK.C115_params_ec521Priv",
    "OSK.C115_params_skEc256Pub",
    "OSK.C115_params_skEc256Priv",
    "OSK.C115_params_skEd25519Pub",
    "OSK.C115_params_skEd25519Priv",
    "OSK.C115_params_certRsa",
    "OSK.C115_params_certEd25519",
    "OSK.C115_params_certDss",
    "OSK.C115_params_certEc256",
    "OSK.C115_params_certEc384",
    "OSK.C115_params_certEc521",
    "OSK.C115_params_certSkEd25519",
    "OSK.C115_params_certSkEc256",
    "OSK.C115_params_factory",
    "OSK.C115_stream_read_fixed_bytes",
    "OSK.C115_stream_read_fixed_bytes_underfull_nonempty",
    "OSK.C115_stream_read_fixed_bytes_underfull_empty",
    "OSK.C115_stream_read_fixed_bytes_overfull",
    "OSK.C115_stream_read_fixed_bytes_zero",
    "OSK.C115_stream_read_pascal_bytes",
    "OSK.C115_stream_read_negative_pascal_bytes",
    "OSK.C115_stream_read_pascal_bytes_underfull_length",
    "OSK.C115_stream_read_pascal_bytes_underfull_string",
    "OSK.C115_stream_read_pascal_bytes_overfull",
    "OSK.C115_stream_read_from_struct_single_format_instruction",
    "OSK.C115_stream_read_from_struct_multiple_format_instruction",
    "OSK.C115_stream_read_from_string_format_instruction",
    "OSK.C115_stream_read_from_bytes_format_instruction",
    "OSK.C115_stream_read_from_pos_mpint_format_instruction",
    "OSK.C115_stream_read_from_neg_mpint_format_instruction",
    "OSK.C115_stream_read_from_zero_mpint_format_instruction",
    "OSK.C115_stream_read_from_string_format_instruction_length",
    "OSK.C115_stream_read_from_pascal_underfull_length",
    "OSK.C115_stream_read_from_pascal_underfull_string",
    "OSK.C115_stream_read_from_pascal_overfull",
    "OSK.C115_stream_read_from_bad_format_instruction",
    "OSK.C115_stream_read_from_format_instructions_dict",
    "OSK.C115_stream_read_from_empty_format_instructions_dict",
    "OSK.C115_stream_read_from_format_instructions_dict_underfull",
    "OSK.C115_stream_read_from_format_instructions_dict_overfull",
    "OSK.C115_stream_read_from_format_instructions_dict_length",
    "OSK.C115_stream_read_repeatedly_from_format_instructions_dict",
    "OSK.C115_stream_read_repeatedly_from_format_instructions_dict_empty_stream",
    "OSK.C115_stream_read_repeatedly_from_empty_format_instructions_dict",
    "OSK.C115_stream_read_repeatedly_from_format_instructions_dict_underfull",
    "OSK.C115_stream_read_repeatedly_from_format_instructions_dict_overfull",
    "OSK.C115_stream_read_repeatedly_from_format_instructions_dict_length",
    "OSK.C115_stream_write_from_struct_format_instruction",
    "OSK.C115_stream_write_from_bytes_format_instruction",
    "OSK.C115_stream_write_from_string_format_instruction",
    "OSK.C115_stream_write_from_string_format_instruction_string_length_size",
    "OSK.C115_stream_write_from_pos_no_prefix_mpint_format_instruction",
    "OSK.C115_stream_write_from_pos_with_prefix_mpint_format_instruction",
    "OSK.C115_stream_write_from_neg_mpint_format_instruction",
    "OSK.C115_stream_write_from_zero_mpint_format_instruction",
    "OSK.C115_stream_write_from_bytes_format_instruction_bad_class_str",
    "OSK.C115_stream_write_from_bytes_format_instruction_bad_class_int",
    "OSK.C115_stream_write_from_str_format_instruction_bad_class_bytes",
    "OSK.C115_stream_write_from_str_format_instruction_bad_class_int",
    "OSK.C115_stream_write_from_mpint_format_instruction_bad_class_bytes",
    "OSK.C115_stream_write_from_mpint_format_instruction_bad_class_str",
    "OSK.C115_stream_write_from_bad_format_instruction",
    "OSK.C115_stream_write_from_format_instructions_dict",
    "OSK.C115_stream_write_from_empty_format_instructions_dict",
    "OSK.C115_stream_write_from_format_instructions_dict_missing_key",
    "OSK.C115_stream_write_from_format_instructions_dict_length",
    "OSK.C115_stream_write_repeatedly_from_format_instructions_dict",
    "OSK.C115_stream_write_repeatedly_from_format_instructions_dict_empty_list",
    "OSK.C115_stream_write_repeatedly_from_empty_format_instructions_dict",
    "OSK.C115_stream_write_repeatedly_from_format_instructions_dict_missing_key",
    "OSK.C115_stream_write_repeatedly_from_format_instructions_dict_length",
    "OSK.C115_stream_check_dict_str",
    "OSK.C115_stream_check_dict_bytes",
    "OSK.C115_stream_check_dict_mpint",
    "OSK.C115_stream_check_dict_incorrect_type",
    "OSK.C115_stream_check_dict_format_string",
    "OSK.C115_stream_check_dict_format_string_too_large",
    "OSK.C115_stream_check_dict_two_attributes",
    "OSK.C115_stream_check_dict_missing_attribute",
    "OSK.C115_stream_check_dict_extra_attribute",
    "OSK.C115_stream_check_dict_length",
    "OSK.C115_stream_check_dict_length_incorrect_type",
    "OSK.C115_stream_check_dict_bad_format_instruction",
    "OSK.C115_utils_is_abstract_not_abstract",
    "OSK.C115_utils_is_abstract_abstract",
    "OSK.C115_utils_is_abstract_concrete",
    "OSK.C115_utils_readonly_static_property_manual_get_call",
    "OSK.C115_utils_readonly_static_property_same_class",
    "OSK.C115_utils_readonly_static_property_subclass_overrides",
    "OSK.C115_utils_readonly_static_property_subclass_inherits"
   ],
   "note": "The test functions and cases of tests/, on the model, one theorem each (Verif/Tests). False in full: C115_cipher_vector2_false to C115_cipher_vector7_false, the vectors for aes128-ctr and aes192-ctr in test_cipher.py have an initialization vector of 12 bytes, so that the code takes four bytes of the key with it and does not give the stated texts; pytest does not notice as test_encrypt and test_decrypt return the comparison instead of asserting it. C115_cipher_vector2_partial to _vector7_partial: with the counter of RFC 3686 they hold. All the others hold, with the standard's ciphers (Std.crypto) in the vectors, and a cheap stand-in for bcrypt and AES in the tests of key lists, where only reading back what was packed matters. Random values of the tests are replaced by fixed ones. In the tests of convert_to, convert_from and generate_private_params keys are made by the library; there the theorems are for all keys and every library that accepts the numbers of the keys its own generators make (Genuine, GenLaws). Not transcribed: of test_private_key_list, the bad passphrase (whether it raises depends on the random salt; C117 has what is guaranteed) and pack_string with two keys."
  },
  {
   "property": "C116",
   "status": "partial",
   "theorems": [
    "OSK.C116_false",
    "OSK.C116_silent",
    "OSK.C116_text",
    "OSK.C116_lines",
    "OSK.C116_text_false",
    "OSK.C116_magic_partial"
   ],
   "note": "False in full: C116_false, fuzz_b64.py gives bytes to from_string and gets the same ValueError for all data, fuzz_valid_magic.py does not use its data at all and its only input ends before the end of the magic; C116_text_false, even given as a text no data of fuzz_b64.py is a key file, as the magic stands there in place of its base64 form. C116_silent: no exception leaves them. C116_magic_partial: with the data appended to the magic, as the variable's name says, fuzz_valid_magic.py would reach every key file and no exception would leave it. Missing: the targets as written. (bytes != str is taken to be True; under python -bb it raises.)"
  },
  {
   "property": "C117",
   "status": "partial",
   "theorems": [
    "OSK.C117_chain_partial",
    "OSK.C117_counter_partial",
    "OSK.C117_tag_partial",
    "OSK.C117_false"
   ],
   "note": "False in full: C117_false, a file with the key derivation function bcrypt and the cipher none asks for a passphrase and is read with every passphrase without a warning (checked with ssh-keygen: OpenSSH does the same, with any passphrase that is not empty). C117_counter_partial, exact for aes*-ctr with the standard's AES: if the file can be read with the other passphrase at all, the warning is missing if and only if the two key streams differ in bytes 4 to 7 as in bytes 0 to 3; this depends on passphrases, salt and rounds only, not on the keys in the file (exNoKeys: not vacuous). C117_tag_partial: with AES-GCM and ChaCha20-Poly1305 the file then has the standard's tag under both passphrases. C117_chain_partial, exact for the ciphers in CBC mode: the warning is missing if and only if the first block, encrypted with the one key and decrypted with the other, begins with the same four bytes twice (exNoKeysChain: not vacuous). Missing: that the coincidences are improbable is not stated here."
  },
  {
   "property": "C118",
   "status": "partial",
   "theorems": [
    "OSK.C118_mro",
    "OSK.C118_abstract",
    "OSK.C118_definable",
    "OSK.C118_static_partial",
    "OSK.C118_get",
    "OSK.C118_override",
    "OSK.C118_inherit",
    "OSK.C118_false",
    "OSK.C118_set",
    "OSK.C118_package",
    "OSK.C118_missing",
    "OSK.C118_curves",
    "OSK.C118_sizes"
   ],
   "note": "False in one part: C118_false, C118_set, objects and classes take another value when it is assigned to them, as readonly_static_property has no __set__. The rest holds, for all sequences of class statements: C118_mro (order), C118_definable (a class can be defined if and only if there is a suitable order at all), C118_abstract, C118_static_partial, C118_override, C118_inherit; C118_package, C118_curves and C118_sizes for the classes of the package, which also shows that the class table of the rest of the model is what executing the class statements gives. Hypothesis Tidy (abstract methods only in classes with the metaclass ABCMeta, not bound to a property elsewhere) is met by the package; examples show that it is needed."
  },
  {
   "property": "C119",
   "status": "partial",
   "theorems": [
    "OSK.C119_laws",
    "OSK.C119_exact_partial",
    "OSK.C119_again",
    "OSK.C119_text_partial",
    "OSK.C119_false"
   ],
   "note": "False: C119_false has four files that are read without a warning and written differently. C119_exact_partial says exactly which files are reproduced (FileTight: integers in the shortest form and none that C05 cannot write, no bytes that nothing asks for, the least padding), C119_text_partial the same for texts; C119_again that every file the package wrote, whatever the list, is reproduced. Hypotheses CryptoLaws and ReverseLaws hold of the standard algorithms (C104_laws, C119_laws)."
  },
  {
   "property": "C120",
   "status": "partial",
   "theorems": [
    "OSK.C120_form",
    "OSK.C120_false",
    "OSK.C120_exact_partial",
    "OSK.C120_again"
   ],
   "note": "False of every line (C120_false): pack_public_string ends the line with a line feed, from_string takes a line feed as part of the comment, so that each reading and writing adds one (C120_again). C120_form says what is written for any line, C120_exact_partial exactly which lines are the same but for the line feed."
  },
  {
   "property": "C121",
   "status": "partial",
   "theorems": [
    "OSK.C121_same",
    "OSK.C121_refused_partial",
    "OSK.C121_asked",
    "OSK.C121_false"
   ],
   "note": "The clear part never depends on the passphrase (C121_same), a file defective before the tag is refused without a question (C121_refused_partial), and C121_asked says when there is one. The full claim is false (C121_false): the tag of an AES-GCM file is read after the question, so a file without it, which no passphrase opens, asks first."
  },
  {
   "property": "C122",
   "status": "partial",
   "theorems": [
    "OSK.C122_difference",
    "OSK.C122_retained",
    "OSK.C122_fresh_partial",
    "OSK.C122_false"
   ],
   "note": "C122_difference: equal cipher, options and passphrase mean that the encrypted sections differ by what the private sections differ by; C122_retained: two lists with the same options, retained, give such files. The full claim is false (C122_false, with the standard's algorithms): one fixed function of three byte strings computes the second private section, of any keys under any passphrase, if the options are retained and the sections are equally long. C122_fresh_partial: without retaining, the salts differ unless the same bytes are drawn."
  },
  {
   "property": "C123",
   "status": "proved",
   "theorems": [
    "OSK.C123_bytes",
    "OSK.C123_same",
    "OSK.C123_text"
   ],
   "note": "C123_bytes gives the size of a packed file, C123_same that two lists with the same sizes, private keys rounded up, give files of the same size, and C123_text the number of characters of the text."
  },
  {
   "property": "C124",
   "status": "partial",
   "theorems": [
    "OSK.C124_unused",
    "OSK.C124_once_partial",
    "OSK.C124_needed",
    "OSK.C124_pack_unused",
    "OSK.C124_pack_once",
    "OSK.C124_false"
   ],
   "note": "C124_unused, C124_once_partial and C124_needed: the function is used for no file without need and for one argument otherwise; C124_pack_unused and C124_pack_once say the same of packing. The full claim, with a limit on the rounds, is false (C124_false): the number in the file is handed on as it is, so that 76 bytes ask for 4294967295 rounds of bcrypt."
  },
  {
   "property": "C125",
   "status": "proved",
   "theorems": [
    "OSK.C125_visible",
    "OSK.C125_moved"
   ],
   "note": "C125_visible (first blocks) and C125_moved (a block anywhere), for the algorithms of the standards. Together with C122, which has the ciphers that xor a stream, all ciphers are treated."
  }
 ]
}