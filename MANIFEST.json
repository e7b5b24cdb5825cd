{
 "claims": [
  {
   "property": "C01",
   "status": "proved",
   "theorems": [
    "Urn.C01_parse_returns",
    "Urn.C01_machine_returns"
   ],
   "note": ""
  },
  {
   "property": "C02",
   "status": "proved",
   "theorems": [
    "Urn.C02_linear"
   ],
   "note": ""
  },
  {
   "property": "C03",
   "status": "proved",
   "theorems": [
    "Urn.C03_buffer_restored",
    "Urn.C03_buffer_restored_machine"
   ],
   "note": ""
  },
  {
   "property": "C04",
   "status": "proved",
   "theorems": [
    "Urn.C04_sound"
   ],
   "note": ""
  },
  {
   "property": "C05",
   "status": "proved",
   "theorems": [
    "Urn.C05_exact",
    "Urn.C05_complete",
    "Urn.C05_refuted"
   ],
   "note": "Acceptance of every well-formed URN is false of the code (C05_refuted); the exact exception is proved (C05_exact)."
  },
  {
   "property": "C06",
   "status": "proved",
   "theorems": [
    "Urn.C06_pieces"
   ],
   "note": ""
  },
  {
   "property": "C07",
   "status": "proved",
   "theorems": [
    "Urn.C07_round_trip"
   ],
   "note": ""
  },
  {
   "property": "C08",
   "status": "proved",
   "theorems": [
    "Urn.C08_normalize"
   ],
   "note": ""
  },
  {
   "property": "C09",
   "status": "proved",
   "theorems": [
    "Urn.C09_exact"
   ],
   "note": ""
  },
  {
   "property": "C10",
   "status": "proved",
   "theorems": [
    "Urn.C10_pieces"
   ],
   "note": ""
  },
  {
   "property": "C11",
   "status": "proved",
   "theorems": [
    "Urn.C11_scim_is_2141"
   ],
   "note": ""
  },
  {
   "property": "C12",
   "status": "proved",
   "theorems": [
    "Urn.C12_exact"
   ],
   "note": ""
  },
  {
   "property": "C13",
   "status": "proved",
   "theorems": [
    "Urn.C13_pieces"
   ],
   "note": ""
  },
  {
   "property": "C14",
   "status": "proved",
   "theorems": [
    "Urn.C14_text",
    "Urn.C14_exact",
    "Urn.C14_round_trip",
    "Urn.C14_refuted"
   ],
   "note": "Unconditional round trip is false of the code (C14_refuted); the exact condition is proved (C14_exact)."
  },
  {
   "property": "C15",
   "status": "proved",
   "theorems": [
    "Urn.C15_stable"
   ],
   "note": ""
  },
  {
   "property": "C16",
   "status": "proved",
   "theorems": [
    "Urn.C16_equivalence"
   ],
   "note": ""
  },
  {
   "property": "C17",
   "status": "proved",
   "theorems": [
    "Urn.C17_lexical"
   ],
   "note": ""
  },
  {
   "property": "C18",
   "status": "proved",
   "theorems": [
    "Urn.C18_components",
    "Urn.C18_remove",
    "Urn.C18_prefix"
   ],
   "note": ""
  },
  {
   "property": "C19",
   "status": "proved",
   "theorems": [
    "Urn.C19_refuted",
    "Urn.C19_id_stable"
   ],
   "note": "Idempotence is false of the code for every parsed URN; that is what C19_refuted proves."
  },
  {
   "property": "C20",
   "status": "proved",
   "theorems": [
    "Urn.C20_reparse",
    "Urn.C20_canonical",
    "Urn.C20_scim_refuted"
   ],
   "note": "Between SCIM and RFC 2141 results equal normalized texts do not imply Equal; the property says so."
  },
  {
   "property": "C21",
   "status": "proved",
   "theorems": [
    "Urn.C21_neither_history",
    "Urn.C21_never_both",
    "Urn.C21_exactly_one",
    "Urn.C21_neither_8141",
    "Urn.C21_neither_unknown",
    "Urn.C21_refuted"
   ],
   "note": "'Exactly one' is false of the code in RFC 8141 mode (C21_refuted); the exact set is proved (C21_neither_8141)."
  },
  {
   "property": "C22",
   "status": "proved",
   "theorems": [
    "Urn.C22_ok_iff",
    "Urn.C22_urn_ok",
    "Urn.C22_nil_true",
    "Urn.C22_8141",
    "Urn.C22_unknown",
    "Urn.C22_refuted"
   ],
   "note": "See C21; C22_refuted is a witness."
  },
  {
   "property": "C23",
   "status": "proved",
   "theorems": [
    "Urn.C23_history",
    "Urn.C23_reuse",
    "Urn.C23_after"
   ],
   "note": ""
  },
  {
   "property": "C24",
   "status": "proved",
   "theorems": [
    "Urn.C24_error",
    "Urn.C24_error_calls",
    "Urn.C24_initially_nil",
    "Urn.C24_returned"
   ],
   "note": ""
  },
  {
   "property": "C25",
   "status": "proved",
   "theorems": [
    "Urn.C25_default",
    "Urn.C25_last_wins",
    "Urn.C25_last_wins_parse",
    "Urn.C25_left_to_right"
   ],
   "note": ""
  },
  {
   "property": "C26",
   "status": "proved",
   "theorems": [
    "Urn.C26_kind"
   ],
   "note": ""
  },
  {
   "property": "C27",
   "status": "proved",
   "theorems": [
    "Urn.C27_round_trip"
   ],
   "note": ""
  },
  {
   "property": "C28",
   "status": "proved",
   "theorems": [
    "Urn.C28_urn",
    "Urn.C28_scim"
   ],
   "note": ""
  },
  {
   "property": "C29",
   "status": "proved",
   "theorems": [
    "Urn.C29_text",
    "Urn.C29_round_trip_built",
    "Urn.C29_round_trip",
    "Urn.C29_no_panic"
   ],
   "note": ""
  },
  {
   "property": "C30",
   "status": "proved",
   "theorems": [
    "Urn.C30_round_trip",
    "Urn.C30_unmarshal",
    "Urn.C30_refuted",
    "Urn.C30_nil_iff",
    "Urn.C30_panics"
   ],
   "note": "The result can hold a nil URN (C30_refuted); the exact set of texts is proved (C30_nil_iff)."
  },
  {
   "property": "C31",
   "status": "proved",
   "theorems": [
    "Urn.C31_types"
   ],
   "note": ""
  },
  {
   "property": "C32",
   "status": "proved",
   "theorems": [
    "Urn.C32_columns"
   ],
   "note": ""
  },
  {
   "property": "C33",
   "status": "proved",
   "theorems": [
    "Urn.C33_exact_8141",
    "Urn.C33_first_offending_2141",
    "Urn.C33_reserved_2141",
    "Urn.C33_first_offending_7643",
    "Urn.C33_first_offending_8141"
   ],
   "note": ""
  },
  {
   "property": "C34",
   "status": "proved",
   "theorems": [
    "Urn.C34_printable",
    "Urn.C34_printable_any"
   ],
   "note": ""
  },
  {
   "property": "C35",
   "status": "proved",
   "theorems": [
    "Urn.C35_lengths",
    "Urn.C35_attained"
   ],
   "note": ""
  },
  {
   "property": "C36",
   "status": "proved",
   "theorems": [
    "Urn.C36_agree",
    "Urn.C36_inclusion"
   ],
   "note": ""
  },
  {
   "property": "C37",
   "status": "proved",
   "theorems": [
    "Urn.C37_local",
    "Urn.C37_local_machine"
   ],
   "note": ""
  },
  {
   "property": "C38",
   "status": "proved",
   "theorems": [
    "Urn.C38_independent",
    "Urn.C38_disjoint",
    "Urn.C38_shared",
    "Urn.C38_same_buffer_refuted",
    "Urn.C38_corrupted_refuted"
   ],
   "note": "Independence on a shared buffer is false of the code in general (C38_*_refuted); the exact condition for safety is proved."
  },
  {
   "property": "C39",
   "status": "proved",
   "theorems": [
    "Urn.C39_alone",
    "Urn.C39_writes",
    "Urn.C39_writes_accepted",
    "Urn.C39_moment",
    "Urn.C39_never_written"
   ],
   "note": ""
  },
  {
   "property": "C40",
   "status": "proved",
   "theorems": [
    "Urn.C40_case",
    "Urn.C40_colons"
   ],
   "note": ""
  },
  {
   "property": "C41",
   "status": "proved",
   "theorems": [
    "Urn.C41_escapes"
   ],
   "note": ""
  },
  {
   "property": "C42",
   "status": "proved",
   "theorems": [
    "Urn.C42_text",
    "Urn.C42_8141",
    "Urn.C42_2141",
    "Urn.C42_refuted"
   ],
   "note": "The RFC 2141 part has the exception of C05 (C42_refuted), stated exactly in C42_2141."
  },
  {
   "property": "C43",
   "status": "proved",
   "theorems": [
    "Urn.C43_injective",
    "Urn.C43_injective_8141",
    "Urn.C43_concat",
    "Urn.C43_concat_refuted",
    "Urn.C43_concat_8141"
   ],
   "note": "The RFC 2141 part on concatenation has the exception of C05 (C43_concat_refuted), stated exactly in C43_concat."
  },
  {
   "property": "C44",
   "status": "proved",
   "theorems": [
    "Urn.C44_refuted",
    "Urn.C44_unknown_refuted",
    "Urn.C44_default"
   ],
   "note": "Default behaving as DefaultParsingMode is false of the code (C44_refuted)."
  },
  {
   "property": "C45",
   "status": "proved",
   "theorems": [
    "Urn.C45_7643",
    "Urn.C45_2141",
    "Urn.C45_8141_outcome",
    "Urn.C45_same",
    "Urn.C45_8141",
    "Urn.C45_refuted"
   ],
   "note": "'No change' is false of the code (C45_refuted); the exact change is proved for each mode."
  },
  {
   "property": "C46",
   "status": "proved",
   "theorems": [
    "Urn.C46_2141",
    "Urn.C46_7643",
    "Urn.C46_8141",
    "Urn.C46_text"
   ],
   "note": ""
  },
  {
   "property": "C47",
   "status": "proved",
   "theorems": [
    "Urn.C47_assign",
    "Urn.C47_edited_refuted",
    "Urn.C47_built",
    "Urn.C47_built_ascii",
    "Urn.C47_built_parsed"
   ],
   "note": "Disagrees with what a caller may expect of exported fields: C47_edited_refuted and C47_built show that values with different SS are Equal."
  },
  {
   "property": "C48",
   "status": "proved",
   "theorems": [
    "Urn.C48_exact",
    "Urn.C48_sound",
    "Urn.C48_assigned",
    "Urn.C48_complete",
    "Urn.C48_refuted"
   ],
   "note": "C48_refuted gives a namestring rejected for each restriction and an accepted text with a non-hexadecimal escape. The rejection of urn-x agrees with section 5.2 of the RFC, which reserves these NIDs; the other two are limitations of the code."
  },
  {
   "property": "C49",
   "status": "proved",
   "theorems": [
    "Urn.C49_exact",
    "Urn.C49_sound",
    "Urn.C49_refuted"
   ],
   "note": "C49_refuted: reserved characters are rejected (as section 2.3 of the RFC asks); NIDs such as uci are rejected although they are in the RFC's grammar; escapes need not be hexadecimal."
  },
  {
   "property": "C50",
   "status": "proved",
   "theorems": [
    "Urn.C50_exact",
    "Urn.C50_sound",
    "Urn.C50_refuted"
   ],
   "note": "C50_refuted: urn:IETF:... and names with other characters than letters and digits are rejected although RFC 7643 allows them."
  },
  {
   "property": "C51",
   "status": "proved",
   "theorems": [
    "Urn.Tools.C51_exact",
    "Urn.Tools.C51_no_comment",
    "Urn.Tools.C51_code_kept",
    "Urn.Tools.C51_unchanged",
    "Urn.Tools.C51_idempotent",
    "Urn.Tools.C51_only_comments",
    "Urn.Tools.C51_refuted"
   ],
   "note": "Disagrees with the documentation of commentLineRegex: C51_refuted and C51_only_comments, blank lines before a comment line are removed too. Go matches runes, this model bytes; comment_replace and snake_findAll in RegexRuneAux.lean prove that it is the same for these expressions."
  },
  {
   "property": "C52",
   "status": "proved",
   "theorems": [
    "Urn.Tools.C52_terminates",
    "Urn.Tools.C52_exact",
    "Urn.Tools.C52_fuel",
    "Urn.Tools.C52_no_snake",
    "Urn.Tools.C52_unchanged",
    "Urn.Tools.C52_idempotent",
    "Urn.Tools.C52_squeezed",
    "Urn.Tools.C52_refuted",
    "Urn.Tools.C52_pipeline"
   ],
   "note": "C52_refuted: a_b and aB become the same name."
  },
  {
   "property": "C53",
   "status": "proved",
   "theorems": [
    "Urn.Tools.C53_complete",
    "Urn.Tools.C53_crash",
    "Urn.Tools.C53_any_prefix",
    "Urn.Tools.C53_refuted"
   ],
   "note": "Steps of os.WriteFile: open with truncation, then write in any number of pieces. C53_refuted: not atomic."
  },
  {
   "property": "C54",
   "status": "proved",
   "theorems": [
    "Urn.C54_urn",
    "Urn.C54_scim",
    "Urn.C54_8141",
    "Urn.C54_any_value",
    "Urn.C54_text",
    "Urn.C54_null"
   ],
   "note": "With the model of encoding/json on strings in Json.lean (UTF-8, surrogates, HTML escapes). C54_null disagrees with the convention of encoding/json that UnmarshalJSON(null) is a no-op."
  },
  {
   "property": "C55",
   "status": "proved",
   "theorems": [
    "Urn.C55_machine",
    "Urn.C55_parse",
    "Urn.C55_default",
    "Urn.C55_unknown"
   ],
   "note": "Grammar.lean transcribes machine.go.rl; Ragel.lean gives the operators the meaning of the Ragel guide (trusted reading; minimisation is not modelled). The pairs of states of both automata are checked by the kernel, then a simulation by induction over the steps."
  },
  {
   "property": "C56",
   "status": "proved",
   "theorems": [
    "Urn.C56_machine",
    "Urn.C56_calls",
    "Urn.C56_parse",
    "Urn.C56_go"
   ],
   "note": "Word.lean is the parser with w-bit integers; invariant over the steps: the cursor stays between -1 and the length, and the only look-ahead (p+3) happens within the scheme, at p <= 4."
  },
  {
   "property": "C57",
   "status": "proved",
   "theorems": [
    "Urn.C57_serial",
    "Urn.C57_mixed_refuted",
    "Urn.C57_fails_refuted",
    "Urn.C57_panic_refuted",
    "Urn.C57_mode_refuted"
   ],
   "note": "Shared.lean: two goroutines, one machine, interleaved at the steps of the loop; the disagreements are proved with concrete schedules (C57_*_refuted)."
  },
  {
   "property": "C58",
   "status": "proved",
   "theorems": [
    "Urn.C58_nil",
    "Urn.C58_valid",
    "Urn.C58_parse",
    "Urn.C58_options"
   ],
   "note": "Heap.lean models pointers, struct copies and nil; C58_valid: a program has only nil and valid pointers; C58_nil: exactly which actions panic."
  },
  {
   "property": "C59",
   "status": "proved",
   "theorems": [
    "Urn.C59_result_private",
    "Urn.C59_others_private",
    "Urn.C59_parse_value",
    "Urn.C59_text",
    "Urn.C59_copy_refuted",
    "Urn.C59_scim_refuted"
   ],
   "note": "Frame argument over Heap.Runs (everything a client can do with the pointers it has); sharing through copies and in-place decoding is proved as a disagreement."
  },
  {
   "property": "C60",
   "status": "proved",
   "theorems": [
    "Urn.C60_options",
    "Urn.C60_origin",
    "Urn.C60_kinds",
    "Urn.C60_text"
   ],
   "note": "Invariant over Heap.Runs; C60_options reduces arbitrary options to the three known modes."
  },
  {
   "property": "C61",
   "status": "proved",
   "theorems": [
    "Urn.C61_reads",
    "Urn.C61_scim",
    "Urn.C61_scim_reads",
    "Urn.C61_unmarshal",
    "Urn.C61_scim_unmarshal",
    "Urn.C61_parse",
    "Urn.C61_normalize",
    "Urn.C61_unmarshal8141",
    "Urn.C61_assign",
    "Urn.C61_scim_assign",
    "Urn.C61_new"
   ],
   "note": "Refinement between Heap.lean (objects and pointers) and Urn.lean (values)."
  },
  {
   "property": "C62",
   "status": "proved",
   "theorems": [
    "Urn.C62_serial",
    "Urn.C62_finishes",
    "Urn.C62_linearizable"
   ],
   "note": "The positive side of C57: interleaving at the labels of the generated code, with a lock around each call (the lock is the client's, it is not in the package)."
  },
  {
   "property": "C63",
   "status": "proved",
   "theorems": [
    "Urn.GoLang.C63_program",
    "Urn.GoLang.C63_new",
    "Urn.GoLang.C63_parse",
    "Urn.GoLang.C63_linear",
    "Urn.GoLang.C63_methods",
    "Urn.GoLang.C63_history"
   ],
   "note": "From the text of the files (GoSource.lean, a copy made by tools/source.py) by a lexer, a parser and an interpreter written in Lean. Trusted instead of the hand translation: that lexer, parser and interpreter."
  },
  {
   "property": "C64",
   "status": "proved",
   "theorems": [
    "Urn.GoLang.C64_parse",
    "Urn.GoLang.C64_exact_2141",
    "Urn.GoLang.C64_exact_7643",
    "Urn.GoLang.C64_exact_8141"
   ],
   "note": "As C63; the exact languages are those of C05, C09 and C12."
  },
  {
   "property": "C65",
   "status": "proved",
   "theorems": [
    "Urn.GoLang.C65_reads",
    "Urn.GoLang.C65_normalize",
    "Urn.GoLang.C65_equal",
    "Urn.GoLang.C65_scim",
    "Urn.GoLang.C65_round_trip"
   ],
   "note": "As C63; strings.ToLower is a parameter on texts that are not ASCII."
  },
  {
   "property": "C66",
   "status": "proved",
   "theorems": [
    "Urn.GoLang.C66_marshal",
    "Urn.GoLang.C66_unmarshal",
    "Urn.GoLang.C66_unmarshal_scim",
    "Urn.GoLang.C66_unmarshal_8141"
   ],
   "note": "As C63; encoding/json is a parameter."
  },
  {
   "property": "C67",
   "status": "proved",
   "theorems": [
    "Urn.GoLang.C67_client_program",
    "Urn.GoLang.C67_calls",
    "Urn.GoLang.C67_panics",
    "Urn.GoLang.C67_returns",
    "Urn.GoLang.C67_nil",
    "Urn.GoLang.C67_addresses"
   ],
   "note": "As C63. The client is made of Go functions too (GoClient.lean), read by the same parser and run by the same interpreter; it is trusted that they are what clients do."
  },
  {
   "property": "C68",
   "status": "proved",
   "theorems": [
    "Urn.RlLang.C68_file",
    "Urn.RlLang.C68_grammar",
    "Urn.RlLang.C68_difference",
    "Urn.RlLang.C68_no_error",
    "Urn.RlLang.C68_actions",
    "Urn.RlLang.C68_action_names",
    "Urn.RlLang.C68_rest",
    "Urn.RlLang.C68_parse"
   ],
   "note": "The lexer, parser and expansion of RlSyntax are the meaning of the text and are trusted, as are the meanings of the operators in Ragel.lean (see C55). That the constants in RlSource are machine.go.rl is checked by tools/source.py --check. The tables that Ragel writes are related to the grammar by C55."
  },
  {
   "property": "C69",
   "status": "proved",
   "theorems": [
    "Urn.GoLang.C69_program",
    "Urn.GoLang.C69_unchanged",
    "Urn.GoLang.C69_independent",
    "Urn.GoLang.C69_reports",
    "Urn.GoLang.C69_exclusive",
    "Urn.GoLang.C69_round_trip",
    "Urn.GoLang.C69_pieces",
    "Urn.GoLang.C69_pieces_8141",
    "Urn.GoLang.C69_scim",
    "Urn.GoLang.C69_agree",
    "Urn.GoLang.C69_stable",
    "Urn.GoLang.C69_equivalence",
    "Urn.GoLang.C69_normal",
    "Urn.GoLang.C69_canonical",
    "Urn.GoLang.C69_reuse",
    "Urn.GoLang.C69_last",
    "Urn.GoLang.C69_json",
    "Urn.GoLang.C69_unmarshal",
    "Urn.GoLang.C69_built",
    "Urn.GoLang.C69_names"
   ],
   "note": "The checks are an internal file of the package (package urn), run by callClient of GoClient.lean in the interpreter of GoSem.lean."
  },
  {
   "property": "C70",
   "status": "proved",
   "theorems": [
    "Urn.ToolLang.C70_deterministic",
    "Urn.ToolLang.C70_usage",
    "Urn.ToolLang.C70_read_error",
    "Urn.ToolLang.C70_removecomments",
    "Urn.ToolLang.C70_snake2camel",
    "Urn.ToolLang.C70_pipeline",
    "Urn.ToolLang.C70_machine"
   ],
   "note": "The interpreter is ToolSem.lean, with ToolSyntax.lean (Go) and RegexRune.lean (reading and matching regular expressions, on runes)."
  },
  {
   "property": "C71",
   "status": "proved",
   "theorems": [
    "Urn.ToolLang.C71_removecomments",
    "Urn.ToolLang.C71_snake2camel"
   ],
   "note": ""
  },
  {
   "property": "C72",
   "status": "proved",
   "theorems": [
    "Urn.C72_linear",
    "Urn.C72_default",
    "Urn.C72_bound",
    "Urn.C72_bound_linear",
    "Urn.C72_quadratic",
    "Urn.C72_not_linear",
    "Urn.GoLang.C72_jumps",
    "Urn.GoLang.C72_jumps_parse"
   ],
   "note": "Linear work is false of the code in RFC 8141 mode: C72_quadratic and C72_not_linear are the refutation, C72_linear, C72_default, C72_bound and C72_bound_linear what holds. C72_jumps and C72_jumps_parse are about the text of the package."
  },
  {
   "property": "C73",
   "status": "proved",
   "theorems": [
    "Urn.GoLang.C73_fields",
    "Urn.GoLang.C73_assign",
    "Urn.GoLang.C73_clash",
    "Urn.GoLang.C73_exact",
    "Urn.GoLang.C73_simple",
    "Urn.GoLang.C73_order",
    "Urn.GoLang.C73_alone",
    "Urn.GoLang.C73_race_free",
    "Urn.GoLang.C73_shared",
    "Urn.GoLang.C73_readers",
    "Urn.GoLang.C73_writer",
    "Urn.GoLang.C73_within",
    "Urn.GoLang.C73_parse",
    "Urn.GoLang.C73_same_slice",
    "Urn.GoLang.C73_checks"
   ],
   "note": "About the text of the package, run by the interpreter as a tree of accesses to memory. C73_writer, C73_order, C73_assign, C73_clash and C73_same_slice show races; the others say when there are none. An access is to a whole struct (when it is copied), to a field of a struct, or to some bytes of an array; C73_shared is stated with whole URNs and SCIM structs, C73_fields with their fields: uses says which fields a call may use, and its text is checked to use no others. does says which fields a call uses in any case; where the two agree, C73_exact says exactly when goroutines race. Synchronisation is not modelled."
  },
  {
   "property": "C74",
   "status": "proved",
   "theorems": [
    "Urn.GoLang.C74_2141",
    "Urn.GoLang.C74_7643",
    "Urn.GoLang.C74_8141",
    "Urn.GoLang.C74_rejected",
    "Urn.GoLang.C74_normalize",
    "Urn.GoLang.C74_equal",
    "Urn.GoLang.C74_json_2141",
    "Urn.GoLang.C74_json_7643",
    "Urn.GoLang.C74_json_8141",
    "Urn.GoLang.C74_json_rejected",
    "Urn.GoLang.C74_error",
    "Urn.GoLang.C74_column"
   ],
   "note": "About the text of the package; the model is not in the statements, only the interpreter and the grammars. The JSON theorems are for the encoding/json of Json.lean. C74_8141 and the rejected cases show the defects of C14, C22 and C30."
  },
  {
   "property": "C75",
   "status": "proved",
   "theorems": [
    "Urn.GoLang.C75_writes",
    "Urn.GoLang.C75_letters",
    "Urn.GoLang.C75_shared",
    "Urn.GoLang.C75_lower",
    "Urn.GoLang.C75_same",
    "Urn.GoLang.C75_accepted",
    "Urn.GoLang.C75_races",
    "Urn.GoLang.C75_races_letters"
   ],
   "note": "About the text of the package (C73 has the case of slices without common bytes). For texts that are rejected there is no claim that slices with common bytes race, only that they do not, but for goroutines that parse the same slice."
  },
  {
   "property": "C76",
   "status": "proved",
   "theorems": [
    "Urn.GoLang.C76_alone",
    "Urn.GoLang.C76_free",
    "Urn.GoLang.C76_lower",
    "Urn.GoLang.C76_machine",
    "Urn.GoLang.C76_races",
    "Urn.GoLang.C76_own"
   ],
   "note": "About the text of the package. An access is to a field of a struct or to some bytes of an array. C76_free treats Parse and WithParsingMode of an unknown mode as mixing, although they race only if the text has a bad percent escape; C76_races is exact and asks for accepted texts and known modes. C76_own is the last part of the statement."
  },
  {
   "property": "C77",
   "status": "proved",
   "theorems": [
    "Urn.GoLang.C77_8141",
    "Urn.GoLang.C77_assigned",
    "Urn.GoLang.C77_2141",
    "Urn.GoLang.C77_7643",
    "Urn.GoLang.C77_equal_2141",
    "Urn.GoLang.C77_equal_8141",
    "Urn.GoLang.C77_refuted"
   ],
   "note": "About the text of the package. The grammars are in SpecRfc.lean, the equivalences in SpecEquiv.lean; Parts8141 and Restricted, in PropsRfc.lean, name the parts of a namestring and the restrictions. C77_refuted has URNs of the RFCs that are rejected."
  },
  {
   "property": "C78",
   "status": "proved",
   "theorems": [
    "Urn.GoLang.C78_serial",
    "Urn.GoLang.C78_machine",
    "Urn.GoLang.C78_linearizable",
    "Urn.GoLang.C78_clients"
   ],
   "note": "About the text of the package; the counterpart of C62. The lock is not in the package; GoLock.lean says what it does. C78_serial holds whatever goroutines do with the lock held; C78_machine and C78_linearizable are about a machine, C78_clients about URNs and SCIM structs."
  }
 ]
}