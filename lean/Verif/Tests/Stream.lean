import Verif.Model.Stream
import Batteries.Lean.Except
/-
The tests of tests/test_pascal_style_byte_stream.py, on the model.
-/
namespace OSK

/-- `pytest.raises`: an exception of a class is raised. -/
def raises {α : Type} (x : Except Exn α) (p : Exn → Bool) : Bool :=
  match x with
  | .ok _ => false
  | .error e => p e

/-- `isinstance(e, KeyError)` -/
def isKeyError : Exn → Bool
  | .keyError _ => true
  | _ => false

/-- test_pascal_style_byte_stream.py:7-11 -/
theorem C115_stream_read_fixed_bytes :
    (readFixed 4 (Stream.of [1, 2, 3, 4])).1 = .ok ([1, 2, 3, 4]) := by
  decide +kernel

/-- test_pascal_style_byte_stream.py:14-19 -/
theorem C115_stream_read_fixed_bytes_underfull_nonempty :
    raises (readFixed 5 (Stream.of [1, 2, 3, 4])).1 Exn.isEOFError := by
  decide +kernel

/-- test_pascal_style_byte_stream.py:22-27 -/
theorem C115_stream_read_fixed_bytes_underfull_empty :
    raises (readFixed 5 (Stream.of [])).1 Exn.isEOFError := by
  decide +kernel

/-- test_pascal_style_byte_stream.py:30-34 -/
theorem C115_stream_read_fixed_bytes_overfull :
    ((do let _ ← readFixed 3; bytesIORead (-1)) (Stream.of [1, 2, 3, 4])).1 = .ok ([4]) := by
  decide +kernel

/-- test_pascal_style_byte_stream.py:37-41 -/
theorem C115_stream_read_fixed_bytes_zero :
    ((do let _ ← readFixed 0; bytesIORead (-1)) (Stream.of [1, 2, 3, 4])).1 = .ok ([1, 2, 3, 4]) := by
  decide +kernel

/-- test_pascal_style_byte_stream.py:44-48 -/
theorem C115_stream_read_pascal_bytes :
    (readPascalBytes 4 (Stream.of [0, 0, 0, 1, 2])).1 = .ok ([2]) := by
  decide +kernel

/-- test_pascal_style_byte_stream.py:51-58 -/
theorem C115_stream_read_negative_pascal_bytes :
    (readPascalBytes (-1) (Stream.of [0, 0, 0, 1, 2])).1 = .error (.valueError "string_length_size must be positive") := by
  decide +kernel

/-- test_pascal_style_byte_stream.py:61-66 -/
theorem C115_stream_read_pascal_bytes_underfull_length :
    raises (readFI (.pascal .string) (Stream.of [0, 0, 0])).1 Exn.isEOFError := by
  decide +kernel

/-- test_pascal_style_byte_stream.py:69-74 -/
theorem C115_stream_read_pascal_bytes_underfull_string :
    raises (readFI (.pascal .string) (Stream.of [0, 0, 0, 4, 0, 0, 0])).1 Exn.isEOFError := by
  decide +kernel

/-- test_pascal_style_byte_stream.py:77-82 -/
theorem C115_stream_read_pascal_bytes_overfull :
    ((do let _ ← readFI (.pascal .string); bytesIORead (-1)) (Stream.of [0, 0, 0, 4, 97, 98, 99, 100, 0])).1 = .ok ([0]) := by
  decide +kernel

/-- test_pascal_style_byte_stream.py:85-89 -/
theorem C115_stream_read_from_struct_single_format_instruction :
    (readFI (.struct fmtBEI) (Stream.of [0, 0, 0, 1])).1 = .ok (.int 1) := by
  decide +kernel

/-- test_pascal_style_byte_stream.py:92-96 -/
theorem C115_stream_read_from_struct_multiple_format_instruction :
    (readFI (.struct ⟨true, [.int 4 false, .int 4 false]⟩) (Stream.of [0, 0, 0, 1, 0, 0, 0, 2])).1 = .ok (.tuple [.int 1, .int 2]) := by
  decide +kernel

/-- test_pascal_style_byte_stream.py:99-104 -/
theorem C115_stream_read_from_string_format_instruction :
    (readFI (.pascal .string) (Stream.of [0, 0, 0, 4, 97, 98, 99, 100])).1 = .ok (.str (py! "abcd")) := by
  decide +kernel

/-- test_pascal_style_byte_stream.py:107-112 -/
theorem C115_stream_read_from_bytes_format_instruction :
    (readFI (.pascal .bytes) (Stream.of [0, 0, 0, 4, 1, 2, 3, 4])).1 = .ok (.bytes [1, 2, 3, 4]) := by
  decide +kernel

/-- test_pascal_style_byte_stream.py:115-120 -/
theorem C115_stream_read_from_pos_mpint_format_instruction :
    (readFI (.pascal .mpint) (Stream.of [0, 0, 0, 1, 127])).1 = .ok (.int 127) := by
  decide +kernel

/-- test_pascal_style_byte_stream.py:123-128 -/
theorem C115_stream_read_from_neg_mpint_format_instruction :
    (readFI (.pascal .mpint) (Stream.of [0, 0, 0, 1, 128])).1 = .ok (.int (-128)) := by
  decide +kernel

/-- test_pascal_style_byte_stream.py:131-136 -/
theorem C115_stream_read_from_zero_mpint_format_instruction :
    (readFI (.pascal .mpint) (Stream.of [0, 0, 0, 0])).1 = .ok (.int 0) := by
  decide +kernel

/-- test_pascal_style_byte_stream.py:139-146 -/
theorem C115_stream_read_from_string_format_instruction_length :
    (readFI (.pascalSized .string 8) (Stream.of [0, 0, 0, 0, 0, 0, 0, 4, 97, 98, 99, 100])).1 = .ok (.str (py! "abcd")) := by
  decide +kernel

/-- test_pascal_style_byte_stream.py:149-154 -/
theorem C115_stream_read_from_pascal_underfull_length :
    raises (readFI (.pascal .string) (Stream.of [0, 0, 0])).1 Exn.isEOFError := by
  decide +kernel

/-- test_pascal_style_byte_stream.py:157-162 -/
theorem C115_stream_read_from_pascal_underfull_string :
    raises (readFI (.pascal .string) (Stream.of [0, 0, 0, 4, 0, 0, 0])).1 Exn.isEOFError := by
  decide +kernel

/-- test_pascal_style_byte_stream.py:165-170 -/
theorem C115_stream_read_from_pascal_overfull :
    ((do let _ ← readFI (.pascal .string); bytesIORead (-1)) (Stream.of [0, 0, 0, 4, 97, 98, 99, 100, 0])).1 = .ok ([0]) := by
  decide +kernel

/-- test_pascal_style_byte_stream.py:173-178 -/
theorem C115_stream_read_from_bad_format_instruction :
    raises (readFI (.unrecognised) (Stream.of [0, 0, 0, 4, 97, 98, 99, 100, 0])).1 Exn.isValueError := by
  decide +kernel

/-- test_pascal_style_byte_stream.py:181-192 -/
theorem C115_stream_read_from_format_instructions_dict :
    (readDict [(py! "first", .pascal .bytes), (py! "second", .struct fmtBEI)] (Stream.of [0, 0, 0, 1, 0, 0, 0, 0, 2])).1 = .ok ([(py! "first", .bytes [0]), (py! "second", .int 2)]) := by
  decide +kernel

/-- test_pascal_style_byte_stream.py:195-200 -/
theorem C115_stream_read_from_empty_format_instructions_dict :
    (readDict [] (Stream.of [0, 0, 0, 1, 0, 0, 0, 0, 2])).1 = .ok ([]) := by
  decide +kernel

/-- test_pascal_style_byte_stream.py:203-211 -/
theorem C115_stream_read_from_format_instructions_dict_underfull :
    raises (readDict [(py! "first", .pascal .bytes), (py! "second", .struct fmtBEI)] (Stream.of [0, 0, 0, 1, 0, 0, 0, 0])).1 Exn.isEOFError := by
  decide +kernel

/-- test_pascal_style_byte_stream.py:214-223 -/
theorem C115_stream_read_from_format_instructions_dict_overfull :
    ((do let _ ← readDict [(py! "first", .pascal .bytes), (py! "second", .struct fmtBEI)]; bytesIORead (-1)) (Stream.of [0, 0, 0, 1, 0, 0, 0, 0, 2, 3])).1 = .ok ([3]) := by
  decide +kernel

/-- test_pascal_style_byte_stream.py:226-237 -/
theorem C115_stream_read_from_format_instructions_dict_length :
    (readDict [(py! "first", .pascalSized .bytes 1)] (Stream.of [1, 0])).1 = .ok ([(py! "first", .bytes [0])]) := by
  decide +kernel

/-- test_pascal_style_byte_stream.py:240-259 -/
theorem C115_stream_read_repeatedly_from_format_instructions_dict :
    (readRepeatedly [(py! "first", .pascal .bytes), (py! "second", .struct fmtBEI)] (Stream.of [0, 0, 0, 1, 0, 0, 0, 0, 2, 0, 0, 0, 1, 3, 0, 0, 0, 4])).1 = .ok ([[(py! "first", .bytes [0]), (py! "second", .int 2)], [(py! "first", .bytes [3]), (py! "second", .int 4)]]) := by
  decide +kernel

/-- test_pascal_style_byte_stream.py:262-268 -/
theorem C115_stream_read_repeatedly_from_format_instructions_dict_empty_stream :
    (readRepeatedly [(py! "first", .pascal .bytes), (py! "second", .struct fmtBEI)] (Stream.new)).1 = .ok ([]) := by
  decide +kernel

/-- test_pascal_style_byte_stream.py:271-279 -/
theorem C115_stream_read_repeatedly_from_empty_format_instructions_dict :
    (readRepeatedly [] (Stream.of [0, 0, 0, 1, 0, 0, 0, 0, 2])).1 = .error (.valueError "format_instructions_dict cannot be empty") := by
  decide +kernel

/-- test_pascal_style_byte_stream.py:282-292 -/
theorem C115_stream_read_repeatedly_from_format_instructions_dict_underfull :
    raises (readRepeatedly [(py! "first", .pascal .bytes), (py! "second", .struct fmtBEI)] (Stream.of [0, 0, 0, 1, 0, 0, 0, 0, 2, 0, 0, 0, 1, 3, 0, 0, 0])).1 Exn.isEOFError := by
  decide +kernel

/-- test_pascal_style_byte_stream.py:295-308 -/
theorem C115_stream_read_repeatedly_from_format_instructions_dict_overfull :
    raises ((do let _ ← readDict [(py! "first", .pascal .bytes), (py! "second", .struct fmtBEI)]; readRepeatedly [(py! "first", .pascal .bytes), (py! "second", .struct fmtBEI)]) (Stream.of [0, 0, 0, 1, 0, 0, 0, 0, 2, 3])).1 Exn.isEOFError := by
  decide +kernel

/-- test_pascal_style_byte_stream.py:311-327 -/
theorem C115_stream_read_repeatedly_from_format_instructions_dict_length :
    (readRepeatedly [(py! "first", .pascalSized .bytes 1)] (Stream.of [1, 0, 2, 1, 2])).1 = .ok ([[(py! "first", .bytes [0])], [(py! "first", .bytes [1, 2])]]) := by
  decide +kernel

/-- test_pascal_style_byte_stream.py:330-334 -/
theorem C115_stream_write_from_struct_format_instruction :
    (writeFI (.struct fmtBEI) (.int 1) (Stream.new)).2.buf = [0, 0, 0, 1] ∧ (writeFI (.struct fmtBEI) (.int 1) (Stream.new)).1 = .ok () := by
  decide +kernel

/-- test_pascal_style_byte_stream.py:337-344 -/
theorem C115_stream_write_from_bytes_format_instruction :
    (writeFI (.pascal .bytes) (.bytes [0]) (Stream.new)).2.buf = [0, 0, 0, 1, 0] ∧ (writeFI (.pascal .bytes) (.bytes [0]) (Stream.new)).1 = .ok () := by
  decide +kernel

/-- test_pascal_style_byte_stream.py:347-354 -/
theorem C115_stream_write_from_string_format_instruction :
    (writeFI (.pascal .string) (.str (py! "abcd")) (Stream.new)).2.buf = [0, 0, 0, 4, 97, 98, 99, 100] ∧ (writeFI (.pascal .string) (.str (py! "abcd")) (Stream.new)).1 = .ok () := by
  decide +kernel

/-- test_pascal_style_byte_stream.py:357-366 -/
theorem C115_stream_write_from_string_format_instruction_string_length_size :
    (writeFI (.pascalSized .string 8) (.str (py! "abcd")) (Stream.new)).2.buf = [0, 0, 0, 0, 0, 0, 0, 4, 97, 98, 99, 100] ∧ (writeFI (.pascalSized .string 8) (.str (py! "abcd")) (Stream.new)).1 = .ok () := by
  decide +kernel

/-- test_pascal_style_byte_stream.py:369-376 -/
theorem C115_stream_write_from_pos_no_prefix_mpint_format_instruction :
    (writeFI (.pascal .mpint) (.int 4096) (Stream.new)).2.buf = [0, 0, 0, 2, 16, 0] ∧ (writeFI (.pascal .mpint) (.int 4096) (Stream.new)).1 = .ok () := by
  decide +kernel

/-- test_pascal_style_byte_stream.py:379-386 -/
theorem C115_stream_write_from_pos_with_prefix_mpint_format_instruction :
    (writeFI (.pascal .mpint) (.int 32768) (Stream.new)).2.buf = [0, 0, 0, 3, 0, 128, 0] ∧ (writeFI (.pascal .mpint) (.int 32768) (Stream.new)).1 = .ok () := by
  decide +kernel

/-- test_pascal_style_byte_stream.py:389-396 -/
theorem C115_stream_write_from_neg_mpint_format_instruction :
    (writeFI (.pascal .mpint) (.int (-32768)) (Stream.new)).2.buf = [0, 0, 0, 2, 128, 0] ∧ (writeFI (.pascal .mpint) (.int (-32768)) (Stream.new)).1 = .ok () := by
  decide +kernel

/-- test_pascal_style_byte_stream.py:399-406 -/
theorem C115_stream_write_from_zero_mpint_format_instruction :
    (writeFI (.pascal .mpint) (.int 0) (Stream.new)).2.buf = [0, 0, 0, 0] ∧ (writeFI (.pascal .mpint) (.int 0) (Stream.new)).1 = .ok () := by
  decide +kernel

/-- test_pascal_style_byte_stream.py:409-419 -/
theorem C115_stream_write_from_bytes_format_instruction_bad_class_str :
    (writeFI (.pascal .bytes) (.str (py! "random")) (Stream.new)).1 = .error (.valueError "value must be a bytes instance for bytes format instruction") := by
  decide +kernel

/-- test_pascal_style_byte_stream.py:422-432 -/
theorem C115_stream_write_from_bytes_format_instruction_bad_class_int :
    (writeFI (.pascal .bytes) (.int 1) (Stream.new)).1 = .error (.valueError "value must be a bytes instance for bytes format instruction") := by
  decide +kernel

/-- test_pascal_style_byte_stream.py:435-445 -/
theorem C115_stream_write_from_str_format_instruction_bad_class_bytes :
    (writeFI (.pascal .string) (.bytes [114, 97, 110, 100, 111, 109]) (Stream.new)).1 = .error (.valueError "value must be a str instance for string format instruction") := by
  decide +kernel

/-- test_pascal_style_byte_stream.py:448-458 -/
theorem C115_stream_write_from_str_format_instruction_bad_class_int :
    (writeFI (.pascal .string) (.int 1) (Stream.new)).1 = .error (.valueError "value must be a str instance for string format instruction") := by
  decide +kernel

/-- test_pascal_style_byte_stream.py:461-471 -/
theorem C115_stream_write_from_mpint_format_instruction_bad_class_bytes :
    (writeFI (.pascal .mpint) (.bytes [114, 97, 110, 100, 111, 109]) (Stream.new)).1 = .error (.valueError "value must be an int instance for mpint format instruction") := by
  decide +kernel

/-- test_pascal_style_byte_stream.py:474-484 -/
theorem C115_stream_write_from_mpint_format_instruction_bad_class_str :
    (writeFI (.pascal .mpint) (.str (py! "random")) (Stream.new)).1 = .error (.valueError "value must be an int instance for mpint format instruction") := by
  decide +kernel

/-- test_pascal_style_byte_stream.py:487-494 -/
theorem C115_stream_write_from_bad_format_instruction :
    raises (writeFI (.unrecognised) (.str (py! "random")) (Stream.new)).1 Exn.isValueError := by
  decide +kernel

/-- test_pascal_style_byte_stream.py:497-507 -/
theorem C115_stream_write_from_format_instructions_dict :
    (writeDict [(py! "first", .pascal .bytes), (py! "second", .struct fmtBEI)] [(py! "first", .bytes [0]), (py! "second", .int 2)] (Stream.new)).2.buf = [0, 0, 0, 1, 0, 0, 0, 0, 2] ∧ (writeDict [(py! "first", .pascal .bytes), (py! "second", .struct fmtBEI)] [(py! "first", .bytes [0]), (py! "second", .int 2)] (Stream.new)).1 = .ok () := by
  decide +kernel

/-- test_pascal_style_byte_stream.py:510-516 -/
theorem C115_stream_write_from_empty_format_instructions_dict :
    (writeDict [] [(py! "first", .bytes [0]), (py! "second", .int 2)] (Stream.new)).2.buf = [] ∧ (writeDict [] [(py! "first", .bytes [0]), (py! "second", .int 2)] (Stream.new)).1 = .ok () := by
  decide +kernel

/-- test_pascal_style_byte_stream.py:519-527 -/
theorem C115_stream_write_from_format_instructions_dict_missing_key :
    raises (writeDict [(py! "missing", .struct fmtBEI)] [(py! "first", .bytes [0]), (py! "second", .int 2)] (Stream.new)).1 isKeyError := by
  decide +kernel

/-- test_pascal_style_byte_stream.py:530-540 -/
theorem C115_stream_write_from_format_instructions_dict_length :
    (writeDict [(py! "first", .pascalSized .bytes 2)] [(py! "first", .bytes [0])] (Stream.new)).2.buf = [0, 1, 0] ∧ (writeDict [(py! "first", .pascalSized .bytes 2)] [(py! "first", .bytes [0])] (Stream.new)).1 = .ok () := by
  decide +kernel

/-- test_pascal_style_byte_stream.py:543-564 -/
theorem C115_stream_write_repeatedly_from_format_instructions_dict :
    (writeRepeatedly [(py! "first", .pascal .bytes), (py! "second", .struct fmtBEI)] [[(py! "first", .bytes [0]), (py! "second", .int 2)], [(py! "first", .bytes [1, 2]), (py! "second", .int 3)]] (Stream.new)).2.buf = [0, 0, 0, 1, 0, 0, 0, 0, 2, 0, 0, 0, 2, 1, 2, 0, 0, 0, 3] ∧ (writeRepeatedly [(py! "first", .pascal .bytes), (py! "second", .struct fmtBEI)] [[(py! "first", .bytes [0]), (py! "second", .int 2)], [(py! "first", .bytes [1, 2]), (py! "second", .int 3)]] (Stream.new)).1 = .ok () := by
  decide +kernel

/-- test_pascal_style_byte_stream.py:567-576 -/
theorem C115_stream_write_repeatedly_from_format_instructions_dict_empty_list :
    (writeRepeatedly [(py! "first", .pascal .bytes), (py! "second", .struct fmtBEI)] [] (Stream.new)).2.buf = [] ∧ (writeRepeatedly [(py! "first", .pascal .bytes), (py! "second", .struct fmtBEI)] [] (Stream.new)).1 = .ok () := by
  decide +kernel

/-- test_pascal_style_byte_stream.py:579-594 -/
theorem C115_stream_write_repeatedly_from_empty_format_instructions_dict :
    (writeRepeatedly [] [[(py! "first", .bytes [0]), (py! "second", .int 2)], [(py! "first", .bytes [3]), (py! "second", .int 4)]] (Stream.new)).2.buf = [] ∧ (writeRepeatedly [] [[(py! "first", .bytes [0]), (py! "second", .int 2)], [(py! "first", .bytes [3]), (py! "second", .int 4)]] (Stream.new)).1 = .ok () := by
  decide +kernel

/-- test_pascal_style_byte_stream.py:597-615 -/
theorem C115_stream_write_repeatedly_from_format_instructions_dict_missing_key :
    raises (writeRepeatedly [(py! "missing", .struct fmtBEI)] [[(py! "first", .bytes [0]), (py! "second", .int 2)], [(py! "first", .bytes [3]), (py! "second", .int 4)]] (Stream.new)).1 isKeyError := by
  decide +kernel

/-- test_pascal_style_byte_stream.py:618-637 -/
theorem C115_stream_write_repeatedly_from_format_instructions_dict_length :
    (writeRepeatedly [(py! "first", .pascalSized .bytes 2)] [[(py! "first", .bytes [0])], [(py! "first", .bytes [1, 2])]] (Stream.new)).2.buf = [0, 1, 0, 0, 2, 1, 2] ∧ (writeRepeatedly [(py! "first", .pascalSized .bytes 2)] [[(py! "first", .bytes [0])], [(py! "first", .bytes [1, 2])]] (Stream.new)).1 = .ok () := by
  decide +kernel

/-- test_pascal_style_byte_stream.py:640-650 -/
theorem C115_stream_check_dict_str :
    (checkDict [(py! "a", .str (py! "string"))] [(py! "a", .pascal .string)]).log = [] ∧ (checkDict [(py! "a", .str (py! "string"))] [(py! "a", .pascal .string)]).res = .ok () := by
  decide +kernel

/-- test_pascal_style_byte_stream.py:653-663 -/
theorem C115_stream_check_dict_bytes :
    (checkDict [(py! "a", .bytes [0])] [(py! "a", .pascal .bytes)]).log = [] ∧ (checkDict [(py! "a", .bytes [0])] [(py! "a", .pascal .bytes)]).res = .ok () := by
  decide +kernel

/-- test_pascal_style_byte_stream.py:666-676 -/
theorem C115_stream_check_dict_mpint :
    (checkDict [(py! "a", .int 1)] [(py! "a", .pascal .mpint)]).log = [] ∧ (checkDict [(py! "a", .int 1)] [(py! "a", .pascal .mpint)]).res = .ok () := by
  decide +kernel

/-- test_pascal_style_byte_stream.py:679-688 -/
theorem C115_stream_check_dict_incorrect_type :
    .warn (.shouldBeOfClass (py! "a")) ∈ (checkDict [(py! "a", .str (py! "string"))] [(py! "a", .pascal .mpint)]).log := by
  decide +kernel

/-- test_pascal_style_byte_stream.py:691-701 -/
theorem C115_stream_check_dict_format_string :
    (checkDict [(py! "a", .int 1)] [(py! "a", .struct fmtBEi)]).log = [] ∧ (checkDict [(py! "a", .int 1)] [(py! "a", .struct fmtBEi)]).res = .ok () := by
  decide +kernel

/-- test_pascal_style_byte_stream.py:704-713 -/
theorem C115_stream_check_dict_format_string_too_large :
    .warn (.shouldBeFormatted (py! "a")) ∈ (checkDict [(py! "a", .int 8589934592)] [(py! "a", .struct fmtBEi)]).log := by
  decide +kernel

/-- test_pascal_style_byte_stream.py:716-728 -/
theorem C115_stream_check_dict_two_attributes :
    (checkDict [(py! "a", .int 1), (py! "b", .int 2)] [(py! "a", .pascal .mpint), (py! "b", .pascal .mpint)]).log = [] ∧ (checkDict [(py! "a", .int 1), (py! "b", .int 2)] [(py! "a", .pascal .mpint), (py! "b", .pascal .mpint)]).res = .ok () := by
  decide +kernel

/-- test_pascal_style_byte_stream.py:731-741 -/
theorem C115_stream_check_dict_missing_attribute :
    .warn (.missing (py! "b")) ∈ (checkDict [(py! "a", .int 1)] [(py! "a", .pascal .mpint), (py! "b", .pascal .mpint)]).log := by
  decide +kernel

/-- test_pascal_style_byte_stream.py:744-757 -/
theorem C115_stream_check_dict_extra_attribute :
    (checkDict [(py! "a", .int 1), (py! "b", .int 2), (py! "c", .int 3)] [(py! "a", .pascal .mpint), (py! "b", .pascal .mpint)]).log = [] ∧ (checkDict [(py! "a", .int 1), (py! "b", .int 2), (py! "c", .int 3)] [(py! "a", .pascal .mpint), (py! "b", .pascal .mpint)]).res = .ok () := by
  decide +kernel

/-- test_pascal_style_byte_stream.py:760-773 -/
theorem C115_stream_check_dict_length :
    (checkDict [(py! "a", .str (py! "string"))] [(py! "a", .pascalSized .string 1)]).log = [] ∧ (checkDict [(py! "a", .str (py! "string"))] [(py! "a", .pascalSized .string 1)]).res = .ok () := by
  decide +kernel

/-- test_pascal_style_byte_stream.py:776-788 -/
theorem C115_stream_check_dict_length_incorrect_type :
    .warn (.shouldBeOfClass (py! "a")) ∈ (checkDict [(py! "a", .str (py! "string"))] [(py! "a", .pascalSized .mpint 1)]).log := by
  decide +kernel

/-- test_pascal_style_byte_stream.py:791-800 -/
theorem C115_stream_check_dict_bad_format_instruction :
    raises (checkDict [(py! "a", .str (py! "string"))] [(py! "a", .unrecognised)]).res Exn.isValueError := by
  decide +kernel

end OSK
