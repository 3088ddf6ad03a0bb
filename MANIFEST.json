{
 "claims": [
  {
   "property": "C01",
   "status": "proved",
   "theorems": [
    "Asn1go.Props.C01_returns",
    "Asn1go.Props.C01_rounds",
    "Asn1go.Props.C01_no_panic"
   ],
   "note": "Includes a linear bound on the number of parser rounds; table and stack accesses in range also for failing readers."
  },
  {
   "property": "C02",
   "status": "proved",
   "theorems": [
    "Asn1go.Props.C02_module_or_error",
    "Asn1go.Props.C02_never_nil"
   ],
   "note": ""
  },
  {
   "property": "C03",
   "status": "proved",
   "theorems": [
    "Asn1go.Props.C03_sound"
   ],
   "note": ""
  },
  {
   "property": "C04",
   "status": "proved",
   "theorems": [
    "Asn1go.Props.C04_exact",
    "Asn1go.Props.C04_value",
    "Asn1go.Props.C04_erased"
   ],
   "note": "C04_exact: exact, with all pointers followed as a caller does (Spec/Exact.lean). C04_value, C04_erased: equality with the meant value up to DEFAULT pointers and references stored as pointer into the parser stack, as the property says."
  },
  {
   "property": "C05",
   "status": "partial",
   "theorems": [
    "Asn1go.Props.C05_presence_partial",
    "Asn1go.Props.C05_kept_partial",
    "Asn1go.Props.C05_false",
    "Asn1go.Props.C05_witness"
   ],
   "note": "False (C05_false): DEFAULT 5, 6, 7 come out as nil, 7, 7. Proved: defaults are present exactly where written; values are as written whenever no stack place pointed to is used again (C05_kept_partial); the exact value in every case is given by C07_module."
  },
  {
   "property": "C06",
   "status": "partial",
   "theorems": [
    "Asn1go.Props.C06_others_partial",
    "Asn1go.Props.C05_kept_partial",
    "Asn1go.Props.C06_false",
    "Asn1go.Props.C06_witness"
   ],
   "note": "False (C06_false): first references x, y, z come out as empty, z, z. Proved: references not stored this way are as written, the others whenever their stack place is not used again (C05_kept_partial); the exact result in every case is given by C07_module."
  },
  {
   "property": "C07",
   "status": "proved",
   "theorems": [
    "Asn1go.Props.C07_module",
    "Asn1go.Props.C07_complete",
    "Asn1go.Props.C07_exact",
    "Asn1go.Props.C07_exact_value"
   ],
   "note": "C07_module: ParseString returns m iff the text has a preferred derivation t and m = t.exact, the value of the derivation with stack pointers followed after the parse. That this value differs from the meant one for some texts is C05/C06."
  },
  {
   "property": "C08",
   "status": "proved",
   "theorems": [
    "Asn1go.Props.C08_unique",
    "Asn1go.Props.C08_ambiguous"
   ],
   "note": "C08_ambiguous: without the rules the grammar is ambiguous."
  },
  {
   "property": "C09",
   "status": "proved",
   "theorems": [
    "Asn1go.Props.C09_lexical_errors"
   ],
   "note": ""
  },
  {
   "property": "C10",
   "status": "proved",
   "theorems": [
    "Asn1go.Props.C10_progress",
    "Asn1go.Props.C10_returns",
    "Asn1go.Props.C10_token_count"
   ],
   "note": "Consuming exactly the token is part of C11_faithful."
  },
  {
   "property": "C11",
   "status": "proved",
   "theorems": [
    "Asn1go.Props.C11_faithful",
    "Asn1go.Props.C11_end",
    "Asn1go.Props.C11_unique"
   ],
   "note": "Against the declarative relations SkipTo/Lexeme of Spec/Lexical.lean."
  },
  {
   "property": "C12",
   "status": "proved",
   "theorems": [
    "Asn1go.Props.C12_identifiers"
   ],
   "note": ""
  },
  {
   "property": "C13",
   "status": "proved",
   "theorems": [
    "Asn1go.Props.C13_reserved_words",
    "Asn1go.Props.C13_keyword_spelling"
   ],
   "note": ""
  },
  {
   "property": "C14",
   "status": "proved",
   "theorems": [
    "Asn1go.Props.C14_value",
    "Asn1go.Props.C14_digits"
   ],
   "note": ""
  },
  {
   "property": "C15",
   "status": "proved",
   "theorems": [
    "Asn1go.Props.C15_layout",
    "Asn1go.Props.C15_white_space"
   ],
   "note": ""
  },
  {
   "property": "C16",
   "status": "partial",
   "theorems": [
    "Asn1go.Props.C16_line_comment_partial",
    "Asn1go.Props.C16_end_unique",
    "Asn1go.Props.C16_three_hyphens",
    "Asn1go.Props.C16_false",
    "Asn1go.Props.C16_exact_partial"
   ],
   "note": "False for comments starting with three hyphens (C16_false); what happens is proved for every text (C16_exact_partial)."
  },
  {
   "property": "C17",
   "status": "partial",
   "theorems": [
    "Asn1go.Props.C17_block_comment_partial",
    "Asn1go.Props.C17_end_unique",
    "Asn1go.Props.C17_false",
    "Asn1go.Props.C17_slash",
    "Asn1go.Props.C18_exact_partial"
   ],
   "note": "False for comments starting with /*/ (C17_false); what happens is proved for every text (C18_exact_partial)."
  },
  {
   "property": "C18",
   "status": "partial",
   "theorems": [
    "Asn1go.Props.C18_unterminated_partial",
    "Asn1go.Props.C18_false",
    "Asn1go.Props.C18_exact_partial",
    "Asn1go.Props.C18_line_exact_partial"
   ],
   "note": "False for comments starting with --- or /*/ (C18_false); what happens is proved for every text."
  },
  {
   "property": "C19",
   "status": "proved",
   "theorems": [
    "Asn1go.Props.C19_lines",
    "Asn1go.Props.C19_parse_errors"
   ],
   "note": ""
  },
  {
   "property": "C20",
   "status": "proved",
   "theorems": [
    "Asn1go.Props.C20_printed"
   ],
   "note": "All tokens but the exponent marker, which is only recognised directly after a number."
  },
  {
   "property": "C21",
   "status": "partial",
   "theorems": [
    "Asn1go.Props.C21_exactly_partial",
    "Asn1go.Props.C21_false",
    "Asn1go.Props.C21_witness",
    "Asn1go.Props.C21_texts",
    "Asn1go.Props.C21_float_partial"
   ],
   "note": "False (C21_false): 1.1 is read as 2. Proved: exactly which literals have their decimal value, in exact arithmetic, and that with up to 13 digits after the dot and no overflow or underflow the float64 of these is within 2^-49 of it."
  },
  {
   "property": "C22",
   "status": "proved",
   "theorems": [
    "Asn1go.Props.C22_header",
    "Asn1go.Props.C22_default"
   ],
   "note": ""
  },
  {
   "property": "C23",
   "status": "proved",
   "theorems": [
    "Asn1go.Props.C23_assignments"
   ],
   "note": ""
  },
  {
   "property": "C24",
   "status": "proved",
   "theorems": [
    "Asn1go.Props.C24_round_trip",
    "Asn1go.Props.C24_injective",
    "Asn1go.Props.C24_notation",
    "Asn1go.Props.C24_general",
    "Asn1go.Props.C24_notation_general"
   ],
   "note": "The fragment: modules that Print.module true (Spec/Print.lean) prints, i.e. all modules with a notation but without DEFAULT and without object identifier values that start with a reference and have further components (see C64_printable). For modules with these C24_general gives the module back but for what the pointers of DEFAULT and such references point to (C05, C06)."
  },
  {
   "property": "C25",
   "status": "partial",
   "theorems": [
    "Asn1go.Props.C25_read_errors_partial",
    "Asn1go.Props.C25_false",
    "Asn1go.Props.C25_lex",
    "Asn1go.Props.C25_hang",
    "Asn1go.Props.C25_stuck",
    "Asn1go.Props.C25_exact_partial",
    "Asn1go.Props.C25_after"
   ],
   "note": "False: a read error inside a comment, or after : or . loops for ever (C25_false). Proved: a failing reader never yields a module; a call of Lex does not return exactly on stuck text; ParseStream does not return on every stuck text after tokens that can be gone on from, and on no other text without illegal text (C25_exact_partial). Missing: which texts with illegal text before the stuck text hang (there are both, C25_after)."
  },
  {
   "property": "C26",
   "status": "partial",
   "theorems": [
    "Asn1go.Props.C26_exact",
    "Asn1go.Props.C26_identified_partial",
    "Asn1go.Props.C26_false"
   ],
   "note": "False (C26_false): only the last module may lack an identifier. C26_exact: a list of imports is accepted exactly if all modules but the last have identifiers; then the imports are the ones written."
  },
  {
   "property": "C27",
   "status": "proved",
   "theorems": [
    "Asn1go.Props.C27_text",
    "Asn1go.Props.C27_names",
    "Asn1go.Props.C27_shifted",
    "Asn1go.Props.C27_continues",
    "Asn1go.Props.C27_all",
    "Asn1go.Props.C27_not_all",
    "Asn1go.Props.C27_hidden"
   ],
   "note": "C27_shifted: in the state of the message the parser shifts every listed token. C27_continues: every text with a syntax error in which text that is no token was not met before has a beginning after which each listed token, however written, leads to a text that parses. After text that is no token the parser goes on (C27_hidden); there only C27_shifted applies. The list need not be complete (C27_not_all)."
  },
  {
   "property": "C28",
   "status": "proved",
   "theorems": [
    "Asn1go.Props.C28_tokens_only"
   ],
   "note": ""
  },
  {
   "property": "C30",
   "status": "proved",
   "theorems": [
    "Asn1go.Props.C30_automatic",
    "Asn1go.Props.C30_only_automatic"
   ],
   "note": ""
  },
  {
   "property": "C31",
   "status": "proved",
   "theorems": [
    "Asn1go.Props.C31_all_or_nothing",
    "Asn1go.Props.C31_outcome"
   ],
   "note": "Errors from go/printer itself may come after part of the text; those are the only exception."
  },
  {
   "property": "C32",
   "status": "partial",
   "theorems": [
    "Asn1go.Props.C32_terminates_partial",
    "Asn1go.Props.C32_false",
    "Asn1go.Props.cyclic_none",
    "Asn1go.Props.C32_exact_partial"
   ],
   "note": "False: alias cycles recurse without end (C32_false). C32_exact_partial: it returns if and only if there is no alias cycle (or tagging is AUTOMATIC)."
  },
  {
   "property": "C33",
   "status": "proved",
   "theorems": [
    "Asn1go.Props.C33_supported"
   ],
   "note": "Both directions, no acyclicity assumption."
  },
  {
   "property": "C34",
   "status": "proved",
   "theorems": [
    "Asn1go.Props.C34_declarations"
   ],
   "note": "DeclsFor relates every declaration to its assignment, including the full translation of types."
  },
  {
   "property": "C35",
   "status": "proved",
   "theorems": [
    "Asn1go.Props.C35_fields",
    "Asn1go.Props.C35_sequence"
   ],
   "note": ""
  },
  {
   "property": "C36",
   "status": "partial",
   "theorems": [
    "Asn1go.Props.C36_meaning_partial",
    "Asn1go.Props.C36_single_tag_partial",
    "Asn1go.Props.C36_universal_false",
    "Asn1go.Props.C36_nested_false",
    "Asn1go.Props.C36_alias_false"
   ],
   "note": "False for UNIVERSAL tags, nested tags and aliases of string types; exact meaning of every generated tag proved, faithful for single non-UNIVERSAL tags."
  },
  {
   "property": "C37",
   "status": "proved",
   "theorems": [
    "Asn1go.Props.C37_optional"
   ],
   "note": "Under the assumption that the numbers fit a 64-bit int."
  },
  {
   "property": "C38",
   "status": "partial",
   "theorems": [
    "Asn1go.Props.C38_imported_partial",
    "Asn1go.Props.C38_raw_false",
    "Asn1go.Props.C38_big_false",
    "Asn1go.Props.C38_exact_partial",
    "Asn1go.Props.C38_uses",
    "Asn1go.Props.C38_asn1_exact_partial"
   ],
   "note": "False for asn1.RawValue and big.NewInt. C38_exact_partial: a package is imported if and only if something else of it is used."
  },
  {
   "property": "C39",
   "status": "proved",
   "theorems": [
    "Asn1go.Props.C39_imports"
   ],
   "note": ""
  },
  {
   "property": "C40",
   "status": "proved",
   "theorems": [
    "Asn1go.Props.C40_distinct",
    "Asn1go.Props.C40_case_needed"
   ],
   "note": "Type references among each other and identifiers among each other."
  },
  {
   "property": "C41",
   "status": "proved",
   "theorems": [
    "Asn1go.Props.C41_exported"
   ],
   "note": ""
  },
  {
   "property": "C42",
   "status": "partial",
   "theorems": [
    "Asn1go.Props.C42_marked_partial",
    "Asn1go.Props.C42_sets",
    "Asn1go.Props.C42_false"
   ],
   "note": "False: SEQUENCE OF SET and single-alternative CHOICE leak the naming. Exact condition proved."
  },
  {
   "property": "C43",
   "status": "proved",
   "theorems": [
    "Asn1go.Props.C43_references",
    "Asn1go.Props.C43_unique"
   ],
   "note": ""
  },
  {
   "property": "C44",
   "status": "proved",
   "theorems": [
    "Asn1go.Props.C44_named_numbers"
   ],
   "note": ""
  },
  {
   "property": "C45",
   "status": "proved",
   "theorems": [
    "Asn1go.Props.C45_choice",
    "Asn1go.Props.C45_declared"
   ],
   "note": ""
  },
  {
   "property": "C46",
   "status": "proved",
   "theorems": [
    "Asn1go.Props.C46_package"
   ],
   "note": ""
  },
  {
   "property": "C47",
   "status": "partial",
   "theorems": [
    "Asn1go.Props.C47_default",
    "Asn1go.Props.C47_integer",
    "Asn1go.Props.C47_unknown_partial",
    "Asn1go.Props.C47_false"
   ],
   "note": "False for INTEGER inside a multi-alternative CHOICE, which is not translated; proved for every INTEGER at a translated place."
  },
  {
   "property": "C48",
   "status": "partial",
   "theorems": [
    "Asn1go.Props.C48_generalized_partial",
    "Asn1go.Props.C48_false",
    "Asn1go.Props.C48_utc_partial",
    "Asn1go.Props.C48_utc_refused"
   ],
   "note": "False for UTCTime, which is refused in every module that does not define it (C48_utc_refused)."
  },
  {
   "property": "C49",
   "status": "partial",
   "theorems": [
    "Asn1go.Props.C49_module_partial",
    "Asn1go.Props.C49_false",
    "Asn1go.Props.C49_kept_partial"
   ],
   "note": "False end to end because the parser loses defaults (see C05); C49_kept_partial: it holds for every text in which no default is overwritten (Spec/Kept.lean)."
  },
  {
   "property": "C50",
   "status": "proved",
   "theorems": [
    "Asn1go.Props.C50_function"
   ],
   "note": ""
  },
  {
   "property": "C51",
   "status": "proved",
   "theorems": [
    "Asn1go.Props.C51_variable",
    "Asn1go.Props.C51_nothing"
   ],
   "note": ""
  },
  {
   "property": "C52",
   "status": "proved",
   "theorems": [
    "Asn1go.Props.C52_get",
    "Asn1go.Props.C52_get_type",
    "Asn1go.Props.C52_get_value"
   ],
   "note": "Get returns exactly the first assignment of the name; GetType and GetValue exactly that one if it is of the kind. A nil assignment in the list (never made by the parser) is given the empty name instead of panicking."
  },
  {
   "property": "C53",
   "status": "proved",
   "theorems": [
    "Asn1go.Props.C53_round_trip"
   ],
   "note": "Any lines with labels, any gap, any number of bytes per line, capital or small digits."
  },
  {
   "property": "C54",
   "status": "proved",
   "theorems": [
    "Asn1go.Props.C54_panics",
    "Asn1go.Props.C54_value",
    "Asn1go.Props.C54_fields_exist"
   ],
   "note": "Against a description of lines and fields that every text has in exactly one way."
  },
  {
   "property": "C55",
   "status": "proved",
   "theorems": [
    "Asn1go.Props.C55_lines",
    "Asn1go.Props.C55_labels"
   ],
   "note": ""
  },
  {
   "property": "C56",
   "status": "partial",
   "theorems": [
    "Asn1go.Props.C56_false",
    "Asn1go.Props.C56_partial",
    "Asn1go.Props.C56_emptied"
   ],
   "note": "False: the output is truncated before the input is read; C56_false gives a run. C56_partial: runs that stop earlier keep all files; C56_emptied: in every other run the old contents are lost."
  },
  {
   "property": "C57",
   "status": "proved",
   "theorems": [
    "Asn1go.Props.C57_success",
    "Asn1go.Props.example_run"
   ],
   "note": ""
  },
  {
   "property": "C58",
   "status": "proved",
   "theorems": [
    "Asn1go.Props.C58_status_one",
    "Asn1go.Props.C58_flags"
   ],
   "note": "Against a description of command lines that covers package flag; also status 2 for wrong options and 0 for help."
  },
  {
   "property": "C59",
   "status": "proved",
   "theorems": [
    "Asn1go.Props.C59_marshal"
   ],
   "note": "asn1.Marshal and the amount written before a write error are parameters."
  },
  {
   "property": "C60",
   "status": "proved",
   "theorems": [
    "Asn1go.Props.C60_reading",
    "Asn1go.Props.C60_round_trip",
    "Asn1go.Props.C60_parse"
   ],
   "note": ""
  },
  {
   "property": "C61",
   "status": "proved",
   "theorems": [
    "Asn1go.Props.C61_parse_file"
   ],
   "note": ""
  },
  {
   "property": "C62",
   "status": "proved",
   "theorems": [
    "Asn1go.Props.C62_ws2bin"
   ],
   "note": ""
  },
  {
   "property": "C63",
   "status": "proved",
   "theorems": [
    "Asn1go.Props.C63_accepted",
    "Asn1go.Props.C63_determined",
    "Asn1go.Props.C63_returned"
   ],
   "note": "Against the relation ModuleText of Spec/Notation.lean, which mentions neither the parser nor its actions or grammar rules. The value is exact up to the pointers of C05 and C06, as the property says."
  },
  {
   "property": "C64",
   "status": "proved",
   "theorems": [
    "Asn1go.Props.C64_reprint",
    "Asn1go.Props.C64_accepted",
    "Asn1go.Props.C64_printable"
   ],
   "note": "C64_reprint for texts without DEFAULT and without object identifier values that start with a reference and have further components; C64_accepted for all accepted texts, in terms of the module the text is notation for."
  },
  {
   "property": "C65",
   "status": "proved",
   "theorems": [
    "Asn1go.Props.C65_first",
    "Asn1go.Props.C65_exclusive"
   ],
   "note": "Every failing text; the bad-token case and the refused-token case exclude each other."
  },
  {
   "property": "C66",
   "status": "partial",
   "theorems": [
    "Asn1go.Props.C66_declared_partial",
    "Asn1go.Props.C66_false",
    "Asn1go.Props.C66_exact_partial"
   ],
   "note": "False for named numbers that refer to a value without literal assignment; proved for every other name. C66_exact_partial: these are the only cases."
  },
  {
   "property": "C67",
   "status": "partial",
   "theorems": [
    "Asn1go.Props.C67_distinct_partial",
    "Asn1go.Props.C67_false",
    "Asn1go.Props.C67_val_needed",
    "Asn1go.Props.C67_exact_partial"
   ],
   "note": "False: SET type A also declares ASET. C67_exact_partial: exactly if two things of the module get the same Go name; C67_distinct_partial: not if no type is named like a SET type followed by SET and no type name contains Val."
  },
  {
   "property": "C68",
   "status": "proved",
   "theorems": [
    "Asn1go.Props.C68_fields"
   ],
   "note": ""
  },
  {
   "property": "C69",
   "status": "partial",
   "theorems": [
    "Asn1go.Props.C69_recursion_partial",
    "Asn1go.Props.C69_false",
    "Asn1go.Props.C69_alias_false",
    "Asn1go.Props.C69_exact_partial"
   ],
   "note": "False for A ::= SEQUENCE { a A OPTIONAL } and A ::= SEQUENCE OF A. C69_exact_partial: exactly when types of the module contain or mention themselves in these ways, references taken for a time type aside."
  },
  {
   "property": "C70",
   "status": "partial",
   "theorems": [
    "Asn1go.Props.C70_typed_partial",
    "Asn1go.Props.C70_false",
    "Asn1go.Props.C70_big_false",
    "Asn1go.Props.C70_exact_partial",
    "Asn1go.Props.C70_overflow_false",
    "Asn1go.Props.C70_time_false"
   ],
   "note": "False for infinities, for literals such as 1E309 that are infinite in float64, for whole REAL values with big.Int, and for values of a type the module names GeneralizedTime or UTCTime; C70_exact_partial: exactly these."
  },
  {
   "property": "C71",
   "status": "partial",
   "theorems": [
    "Asn1go.Props.C71_compiles_partial",
    "Asn1go.Props.C71_false",
    "Asn1go.Props.C71_demo",
    "Asn1go.Props.C71_exact_partial"
   ],
   "note": "False because of C38, C67, C69, C70. C71_exact_partial: for modules that obey the rules of ASN.1, the file obeys the rules of Go exactly outside these cases."
  },
  {
   "property": "C72",
   "status": "proved",
   "theorems": [
    "Asn1go.Props.C72_names",
    "Asn1go.Props.C72_notation",
    "Asn1go.Props.C72_unreserved"
   ],
   "note": "Zero values, which the pointers of C05 and C06 can point to, have no names."
  },
  {
   "property": "C73",
   "status": "proved",
   "theorems": [
    "Asn1go.Props.C73_tables",
    "Asn1go.Props.C73_tokens"
   ],
   "note": ""
  },
  {
   "property": "C74",
   "status": "proved",
   "theorems": [
    "Asn1go.Props.C74_exported",
    "Asn1go.Props.C74_imports",
    "Asn1go.Props.C74_asn",
    "Asn1go.Props.C74_tags",
    "Asn1go.Props.C74_encoding"
   ],
   "note": "C74_imports has the exceptions of C38; C74_tags says of tags what C36_meaning_partial says. C74_encoding: what C75–C77 and C82–C84 ask of names holds for parsed modules with different names, unless a type is named as a SET type with SET after it."
  },
  {
   "property": "C75",
   "status": "partial",
   "theorems": [
    "Asn1go.Props.C75_ber_partial",
    "Asn1go.Props.C75_false",
    "Asn1go.Props.C75_tag_lost",
    "Asn1go.Props.C75_set_as_sequence",
    "Asn1go.Props.C75_string_kind",
    "Asn1go.Props.C75_visible_string",
    "Asn1go.Props.C75_time_kind",
    "Asn1go.Props.C75_sequence_of_set_of",
    "Asn1go.Props.C75_element_tag",
    "Asn1go.Props.C75_default_true",
    "Asn1go.Props.C75_default_name",
    "Asn1go.Props.C75_universal_class",
    "Asn1go.Props.C75_nested_tags",
    "Asn1go.Props.C75_choice_tag",
    "Asn1go.Props.C75_raw_tag",
    "Asn1go.Props.C75_tag_never",
    "Asn1go.Props.C75_set_never",
    "Asn1go.Props.C75_string_exact",
    "Asn1go.Props.C75_time_exact",
    "Asn1go.Props.C75_sequence_of",
    "Asn1go.Props.C75_set_of",
    "Asn1go.Props.C75_sequence_of_never",
    "Asn1go.Props.C75_set_of_element_never",
    "Asn1go.Props.C75_sequence",
    "Asn1go.Props.C75_struct",
    "Asn1go.Props.C75_component",
    "Asn1go.Props.C75_component_tag",
    "Asn1go.Props.C75_universal_never",
    "Asn1go.Props.C75_reference_tag_never",
    "Asn1go.Props.C75_choice_tag_never",
    "Asn1go.Props.C75_raw_tag_only",
    "Asn1go.Props.C75_component_string",
    "Asn1go.Props.C75_visible_never",
    "Asn1go.Props.C75_component_set_only",
    "Asn1go.Props.C75_component_set"
   ],
   "note": "False in the twelve ways shown. C75_ber_partial: for types outside these cases (Spec/Encodable.lean) every Go value is written, as an encoding of its abstract value; so are CHOICE types of several alternatives, held in interfaces, except as OPTIONAL components (C77_optional_choice) and with SEQUENCE or SET written in place, and CHOICE types with tagged alternatives, held in asn1.RawValue, except under another tag (C75_raw_tag). An asn1.RawValue stands for a value if it holds an encoding of it. ANY is not covered. encoding/asn1 is specified in Spec/Marshal.lean. For all modules, not only the examples (Spec/Written.lean): tags of types outside components, and SETs outside components, are never written rightly (C75_tag_never, C75_set_never); strings and times exactly when C75_string_exact, C75_component_string and C75_time_exact say; lists exactly if the type is not confused with SET OF and each element is right (C75_sequence_of, C75_set_of); a SEQUENCE without DEFAULT exactly if each component is right (C75_sequence); tags of components only if C75_component_tag holds, never if it was UNIVERSAL, a reference with a tag inside, or around a CHOICE without EXPLICIT and with a primitive value. SETs as components without tags are right only in place, not under a name (C75_component_set_only), and there by BER if each component is (C75_component_set). Missing: such exact laws for components with DEFAULT, the order of components of SET by DER, and tagged strings."
  },
  {
   "property": "C76",
   "status": "partial",
   "theorems": [
    "Asn1go.Props.C76_der_partial",
    "Asn1go.Props.C76_false",
    "Asn1go.Props.C76_big_default",
    "Asn1go.Props.C76_set_order",
    "Asn1go.Props.C76_packet",
    "Asn1go.Props.C76_options",
    "Asn1go.Props.C76_raw"
   ],
   "note": "As C75, and components of SET in order of tags, and integers with DEFAULT as int64. The laws of C75 are proved for DER too."
  },
  {
   "property": "C77",
   "status": "partial",
   "theorems": [
    "Asn1go.Props.C77_written_partial",
    "Asn1go.Props.C77_nil",
    "Asn1go.Props.C77_false",
    "Asn1go.Props.C77_optional",
    "Asn1go.Props.C77_real",
    "Asn1go.Props.C77_packet",
    "Asn1go.Props.C77_options",
    "Asn1go.Props.C77_optional_choice",
    "Asn1go.Props.C77_raw"
   ],
   "note": "False for zero values of OPTIONAL components, for OPTIONAL components held in interfaces, and for REAL. For types of C75_ber_partial whose OPTIONAL components have finite zero values, proved exactly which values can be written: those whose numbers fit and whose OPTIONAL components are not zero. CHOICE types held in asn1.RawValue are covered if their tag numbers have 31 bits; nothing is demanded of the numbers inside them (C77_raw)."
  },
  {
   "property": "C78",
   "status": "proved",
   "theorems": [
    "Asn1go.Props.C78_round",
    "Asn1go.Props.C78_close",
    "Asn1go.Props.C78_any",
    "Asn1go.Props.C78_power"
   ],
   "note": "math.Log10 is a parameter of which an error bound (2^-46) and the value at 1 are assumed."
  },
  {
   "property": "C79",
   "status": "partial",
   "theorems": [
    "Asn1go.Props.C79_finite_partial",
    "Asn1go.Props.C79_range_partial",
    "Asn1go.Props.C79_over",
    "Asn1go.Props.C79_under",
    "Asn1go.Props.C79_under_witness",
    "Asn1go.Props.C79_false",
    "Asn1go.Props.C79_texts"
   ],
   "note": "False (C79_false): 0E309 is NaN and 1E309 infinite. Proved: exponents up to 288 are fine, exponents over 308 never; between them the value decides, up to a relative gap at the limit of float64."
  },
  {
   "property": "C80",
   "status": "proved",
   "theorems": [
    "Asn1go.Props.C80_reads",
    "Asn1go.Props.C80_panics",
    "Asn1go.Props.C80_total",
    "Asn1go.Props.C80_unambiguous"
   ],
   "note": ""
  },
  {
   "property": "C81",
   "status": "proved",
   "theorems": [
    "Asn1go.Props.C81_order",
    "Asn1go.Props.C81_different"
   ],
   "note": ""
  },
  {
   "property": "C82",
   "status": "partial",
   "theorems": [
    "Asn1go.Props.C82_read_partial",
    "Asn1go.Props.C82_exact_partial",
    "Asn1go.Props.C82_typed",
    "Asn1go.Props.C82_unique",
    "Asn1go.Props.C82_false",
    "Asn1go.Props.C82_string_kind",
    "Asn1go.Props.C82_explicit_empty",
    "Asn1go.Props.C82_enumerated",
    "Asn1go.Props.C82_optional_needed",
    "Asn1go.Props.C82_raw_optional",
    "Asn1go.Props.C82_interface_nil",
    "Asn1go.Props.C82_interface_lost",
    "Asn1go.Props.C82_interface_list",
    "Asn1go.Props.C82_never",
    "Asn1go.Props.C82_real",
    "Asn1go.Props.C82_never_list"
   ],
   "note": "False: components that can be absent are confused with those that follow, OPTIONAL components held in asn1.RawValue take any element, numbers of enumerations beyond 32 bits are not read, of CHOICE types held in interfaces tagged and constructed alternatives are silently read as nil (C82_interface_lost), and lists of them are never read (C82_interface_list). For types of C76_der_partial whose components can be told apart and for values held in interfaces that are not tagged and not BOOLEAN, proved exactly which values are read: those whose numbers fit, whose OPTIONAL components that are present are not zero, and whose interfaces hold INTEGER, OCTET STRING, BIT STRING, OBJECT IDENTIFIER or PrintableString values (C82_exact_partial); asn1.RawValue is covered for tag numbers of 31 bits (C77_raw). REAL and what needs a value of it, or of such a list, is never read (C82_never)."
  },
  {
   "property": "C83",
   "status": "partial",
   "theorems": [
    "Asn1go.Props.C83_round_partial",
    "Asn1go.Props.C83_exact_partial",
    "Asn1go.Props.C83_blank",
    "Asn1go.Props.C83_false",
    "Asn1go.Props.C83_packet",
    "Asn1go.Props.C83_text_partial",
    "Asn1go.Props.C83_note",
    "Asn1go.Props.C83_options_lost",
    "Asn1go.Props.C83_answers",
    "Asn1go.Props.C83_replies_unread"
   ],
   "note": "False as C82, and for values held in interfaces (C83_options_lost, C83_replies_unread). Proved for types of C76_der_partial whose components can be told apart, and values whose interfaces hold alternatives given back as they are (C83_answers), with no condition on OPTIONAL components: exactly the values whose enumerations have 32 bits, whose subidentifiers have 31, and whose interfaces hold such alternatives (C83_exact_partial). C83_text_partial starts from an ASCII text."
  },
  {
   "property": "C84",
   "status": "partial",
   "theorems": [
    "Asn1go.Props.C84_again_partial",
    "Asn1go.Props.C84_der_unique",
    "Asn1go.Props.C84_packet",
    "Asn1go.Props.C84_false",
    "Asn1go.Props.C84_raw_again",
    "Asn1go.Props.C84_raw"
   ],
   "note": "False for OPTIONAL components present with the zero value. Proved under the conditions of C82_read_partial, for encodings up to the largest Go length; alternatives of CHOICE types held in asn1.RawValue must have distinct names. That DER has one encoding for each value is proved for all types whose CHOICE alternatives have distinct names."
  },
  {
   "property": "C85",
   "status": "proved",
   "theorems": [
    "Asn1go.Props.C85_order",
    "Asn1go.Props.C85_needed"
   ],
   "note": "For every fuel, so modules for which Generate does not return are the same too. C85_needed: with a name assigned twice the order matters."
  },
  {
   "property": "C86",
   "status": "proved",
   "theorems": [
    "Asn1go.Props.C86_added",
    "Asn1go.Props.C86_needed",
    "Asn1go.Props.C86_parsed"
   ],
   "note": "The assignments added must not define GeneralizedTime or UTCTime, which are reserved in ASN.1; C86_needed shows that such a definition changes declarations of others. Parsed modules never do (C86_parsed)."
  },
  {
   "property": "C87",
   "status": "proved",
   "theorems": [
    "Asn1go.Props.C87_bare",
    "Asn1go.Props.C87_same",
    "Asn1go.Props.C87_parsed",
    "Asn1go.Props.C87_needed"
   ],
   "note": "For modules in which a type is present within each constraint around an assigned type, which holds for all parsed modules (C87_parsed). Errors are compared as in the model, which keeps what is unsupported and not its text. C87_needed: the tagging itself does matter."
  },
  {
   "property": "C88",
   "status": "proved",
   "theorems": [
    "Asn1go.Props.C88_renamed",
    "Asn1go.Props.C88_rename",
    "Asn1go.Props.C88_parsed",
    "Asn1go.Props.C88_time_needed",
    "Asn1go.Props.C88_different_needed"
   ],
   "note": "C88_renamed relates the results for any two modules that are renamings of each other (Spec/Renamed.lean); C88_rename: every module without missing assignments has them, so every parsed module (C88_parsed). C88_time_needed, C88_different_needed: the conditions are needed."
  },
  {
   "property": "C89",
   "status": "proved",
   "theorems": [
    "Asn1go.Props.C89_integers"
   ],
   "note": "Related as Spec/Integers.lean says. Errors are compared as in the model, which keeps what is unsupported and not its text."
  },
  {
   "property": "C90",
   "status": "proved",
   "theorems": [
    "Asn1go.Props.C90_reworded",
    "Asn1go.Props.C90_generated",
    "Asn1go.Props.C90_time_needed"
   ],
   "note": "reworded (Spec/Reworded.lean) replaces the names at every place of a module. The two texts may be read under different Unicode tables in C90_reworded. C90_time_needed: the names of the time types, which are keywords as well, must stay."
  },
  {
   "property": "C91",
   "status": "proved",
   "theorems": [
    "Asn1go.Props.C91_codes"
   ],
   "note": "Lines in messages may differ, as the layout may."
  },
  {
   "property": "C92",
   "status": "proved",
   "theorems": [
    "Asn1go.Props.C92_joined"
   ],
   "note": "unpointed leaves out the values of DEFAULT and the first references of object identifier values, which are not as written (C05_witness, C06_false)."
  },
  {
   "property": "C93",
   "status": "partial",
   "theorems": [
    "Asn1go.Props.C93_added_partial",
    "Asn1go.Props.C93_false",
    "Asn1go.Props.C93_witness"
   ],
   "note": "False: the pointer to a DEFAULT value is overwritten when a later assignment is parsed, so a type put after another one can remove a default from the Go tags of the first (C93_witness: default:5 is lost when B ::= SET { y A } is added). Proved for texts without DEFAULT."
  },
  {
   "property": "C94",
   "status": "proved",
   "theorems": [
    "Asn1go.Props.C94_older_reads",
    "Asn1go.Props.C94_older_understands",
    "Asn1go.Props.C94_newer_encodes",
    "Asn1go.Props.C94_newer_understands",
    "Asn1go.Props.C94_example",
    "Asn1go.Props.C94_needed"
   ],
   "note": "C94_older_reads holds for all octets. The two on values have the conditions of C82, which are known to be needed. That added components can be absent is needed (C94_needed). Both versions are in one module."
  },
  {
   "property": "C95",
   "status": "proved",
   "theorems": [
    "Asn1go.Props.C95_used",
    "Asn1go.Props.C95_truncated",
    "Asn1go.Props.C95_stream",
    "Asn1go.Props.C95_encodings",
    "Asn1go.Props.C95_packets",
    "Asn1go.Props.C95_short"
   ],
   "note": "C95_used holds for all Go types. The two next have the conditions under which what is read is unique (C82_unique), C95_encodings those of C82, which are known to be needed."
  },
  {
   "property": "C96",
   "status": "proved",
   "theorems": [
    "Asn1go.Props.C96_reads",
    "Asn1go.Props.C96_both",
    "Asn1go.Props.C96_writes",
    "Asn1go.Props.C96_packet"
   ],
   "note": "For any two modules that are renamings of each other (Spec/Renamed.lean, as in C88), with NamesOk for the first and WellNamed for the second, and a renaming of components that keeps the names of fields exported. That the second module has a file is C88."
  },
  {
   "property": "C97",
   "status": "partial",
   "theorems": [
    "Asn1go.Props.C97_reads",
    "Asn1go.Props.C97_back",
    "Asn1go.Props.C97_writes_partial",
    "Asn1go.Props.C97_numbers",
    "Asn1go.Props.C97_zero"
   ],
   "note": "Reading is proved in full, both ways. Writing is false for OPTIONAL and DEFAULT components: 0 or the default is left out with int64 and written with *big.Int, and nil under DEFAULT is an error (C97_zero). Proved for all values in which each such component is there with both representations or with none (C97_writes_partial)."
  },
  {
   "property": "C98",
   "status": "proved",
   "theorems": [
    "Asn1go.Props.C98_order",
    "Asn1go.Props.C98_added",
    "Asn1go.Props.C98_text",
    "Asn1go.Props.C98_packet",
    "Asn1go.Props.C98_alone",
    "Asn1go.Props.C98_wide",
    "Asn1go.Props.C98_wide_reads"
   ],
   "note": "C98_order for modules in which different assignments have different names (needed: C85_needed) and the first has proper names, for all Go types. C98_added for modules as in C86, the larger one with the names under which what is read is unique (C82_unique). C98_text for assignments put after those of a text, under the condition of C93. Cases: C98_packet, C98_alone, and C98_wide for two texts."
  },
  {
   "property": "C99",
   "status": "proved",
   "theorems": [
    "Asn1go.Props.C99_order",
    "Asn1go.Props.C99_added",
    "Asn1go.Props.C99_text",
    "Asn1go.Props.C99_packet",
    "Asn1go.Props.C99_wide"
   ],
   "note": "Under the conditions of C98. That values in interfaces have to be excepted is shown by C99_wide: with `B ::= SET OF A` added to `A ::= CHOICE { x INTEGER, y BOOLEAN }`, the interface A can hold a BSET. That what is written is the same needs no proof: `marshal` looks at values and not at files."
  },
  {
   "property": "C100",
   "status": "partial",
   "theorems": [
    "Asn1go.Props.C100_same_partial",
    "Asn1go.Props.C100_iff_partial",
    "Asn1go.Props.C100_held_partial",
    "Asn1go.Props.C100_packet",
    "Asn1go.Props.C100_false"
   ],
   "note": "False of the code (C100_false): tags of assigned types are lost, and in `A ::= SEQUENCE { a T OPTIONAL, b U OPTIONAL }` with `T ::= [0] INTEGER`, `U ::= [1] INTEGER` the values { a 5 } and { b 5 } are written with the same octets. C100_same_partial: same values give same octets for types for which no known defect applies (those of C76). C100_iff_partial: and only these, if no CHOICE is held in an interface or an asn1.RawValue, under the conditions of C83. C100_held_partial: with such CHOICE types, values with the same octets are, up to order, what one Go value stands for; missing there is that this Go value stands for one value only."
  },
  {
   "property": "C101",
   "status": "partial",
   "theorems": [
    "Asn1go.Props.C101_exact",
    "Asn1go.Props.C101_value_partial",
    "Asn1go.Props.C101_again_partial",
    "Asn1go.Props.C101_unknown",
    "Asn1go.Props.C101_proper",
    "Asn1go.Props.C101_string",
    "Asn1go.Props.C101_bits",
    "Asn1go.Props.C101_false"
   ],
   "note": "False of the code (C101_false): into `A ::= PrintableString` an IA5String `@` is read, and then written as a UTF8String (C101_string); into a BIT STRING with named bits, bits with zeros at the end are read (C101_bits). C101_exact: for types to which no known defect applies (those of C76), with CHOICE types of one alternative only, what is read, from any octets, stands for a value exactly if its strings have only characters of their types and its named bits no zeros at the end; so always if all strings are UTF8Strings and bits have no names (C101_value_partial). C101_again_partial: it is then written as DER demands, and read again as the same value. Missing are CHOICE types held in interfaces or raw values."
  },
  {
   "property": "C102",
   "status": "partial",
   "theorems": [
    "Asn1go.Props.C102_der_partial",
    "Asn1go.Props.C102_kept",
    "Asn1go.Props.C102_settles_partial",
    "Asn1go.Props.C102_unknown",
    "Asn1go.Props.C102_false"
   ],
   "note": "False of the code (C102_false): bits with names and zeros at the end are written again as they were read, but are not DER. C102_der_partial: true, for types to which no known defect applies (those of C76, CHOICE types with one alternative), of every value that is read whose strings have only characters of their types and whose named bits no zeros at the end, which C101_exact shows to be those that stand for something. C102_kept needs no such condition. C102_settles_partial: what is written is read to its end and then written again unchanged, if components that can be absent can be told from those that follow. Missing are CHOICE types held in interfaces or raw values."
  },
  {
   "property": "C103",
   "status": "proved",
   "theorems": [
    "Asn1go.Props.C103_kerberos",
    "Asn1go.Props.C103_writes",
    "Asn1go.Props.C103_key"
   ],
   "note": "The conditions of C76 and C101 (proper names, no known defect, no strings of few characters) are decided by programs with proofs of soundness (namesCheck_sound, check_encodable, certain_of_check), run by the kernel on the module and the 26 types. The module is given as the parser's result (Tests/KerberosData.lean); that the parser gives it for the text of examples/rfc4120.asn1 was evaluated, not proved. Octets read are fewer than 10^18, octets written at most 2^63-1. The other types of RFC 4120, apart from KerberosTime, have GeneralStrings or tags of their own, in them or below, and are not among those of C76."
  }
 ]
}