# Formal model of chemikadze/asn1go

The Lean 4 project in `lean/` models the Go code in `/repo` and proves the properties of `properties.jsonl` about the model.
`MANIFEST.json` maps each property to its theorems; it is made from `tools/claims.json` by `tools/manifest.py`.

| Directory | Contents |
|---|---|
| `lean/Verif/Model/` | the Go code, function by function; every definition cites file and lines |
| `lean/Verif/Spec/` | specifications that do not use the code of the model (grammar, trees, notation, lexical rules, printer, struct tags, UTF-8, …) |
| `lean/Verif/Proofs/` | lemmas and certificates |
| `lean/Verif/Props/` | the property theorems `Cnn_…`, and beside each a concrete case that meets its hypotheses |
| `tools/` | Python programs that made the generated Lean files (nothing they compute is trusted except copying tables and token codes) |
| `seeded/` | wrong variants of the model (`mutants.json`) and which theorems they break (`LOG.jsonl`) |

## What is modelled

| Go code | Model | Left out or simplified |
|---|---|---|
| `lexer.go` (all) | `Model/Lexer.lean`, `Model/Tokens.lean` | Text is the list of runes still to be read, ending in EOF or in a read error that persists. Package `unicode` is a parameter (`Unicode`, `Casing`), of which only ASCII behaviour and a few structural facts are assumed. |
| `bufio.Reader.ReadRune` | `Model/Utf8.lean` | How bytes are cut into buffers. |
| `y.go` driver and tables (all) | `Model/Parser.lean`, `Model/Tables.lean` (copied by program; `Model/Listing.lean` has the same lines as the file) | Debug output (`yyDebug = 0`). Array growth never fails. |
| `y.go` actions = `asn1.y` actions (all 291) | `Model/Actions.lean` | `Exclusions` is represented by the `Elements` it holds. |
| `y.go` `yyTokname`, `yyErrorMessage` | `Model/Message.lean` | – |
| pointers `&$3`, `&$2` into the parser stack | `Model/Parser.lean`: every stack array ever used, by generation | – |
| `ast.go` (all) | `Model/Ast.lean` | nil and empty slices are the same; `valueType` fields that are never set are dropped; slices made by the parser are used linearly, so shared backing arrays cannot be observed. |
| `parser.go` (all) | `Model/Parser.lean`, `Model/Real.lean`, `Model/Float.lean`, `Model/Commands.lean` | REAL values are symbolic (digits as numbers, exponent) in the syntax tree; `GoReal.float` is the float64 they stand for, with IEEE 754 rounding (`C78_round`: to the nearest) and `math.Pow10` as in Go's library. `math.Log10` differs between machines and is a parameter: an error of at most 2^-46 and `Log10(1) = 0` are assumed. The sign of zero is left out. |
| `codegen.go` (all) | `Model/Codegen.lean` | `go/ast` values are modelled by the constructors used. `go/printer` is a parameter. The context is a log of calls, replayed at the end, because it is never read in between. Recursion that need not end takes fuel; `none` means more is needed. Texts of error messages are constructors. |
| `marshal.go` | `Model/Commands.lean` | `asn1.Marshal` is a parameter. |
| `cmd/asn1go/main.go`, `cmd/ws2bin/main.go`, package `flag` as used | `Model/Commands.lean` | Files are inodes with contents and permissions; no dangling links, no other processes. |
| `internal/utils/dump.go` `ParseWiresharkHex` | `Model/Dump.lean` | – |
| `internal/utils/dump.go` `ParseWiresharkTime`, `time.Parse` on its layout, `time.Date` | `Model/WsTime.lean` | The chunks of the layout are given instead of found. A `time.Time` is its seconds and nanoseconds since 1970. |

Not modelled: `RunCommandForResult`, `RunCommand`, `CreateTestTemp` in
`internal/utils` (start processes, make directories; used by tests only), the text `go/printer` writes.

## The project's own tests

`tools/cites.py` checks that every definition of the model cites lines that exist.
`Tests/` holds the project's test suites, run on the model as a check that the model behaves like the code: `lexer_test.go` (`tools/lexertests.py` writes
`Tests/Lexer.lean`), `parser_test.go`, `codegen_test.go`, `dump_test.go`, `examples_test.go` and the messages of `rfc4120_test.go`. They all
pass. They are tests of the model and no claim rests on them, but for C103, which is about the module and the file in `Tests/KerberosData.lean`. `Tests/Texts.lean` has the texts of `examples/` (`tools/examples.py`),
`Tests/KerberosData.lean` and `Tests/X509Data.lean` the modules and generated files of RFC 4120 and RFC 5280 (`tools/emit.sh`).
`Proofs/Codegen/GoDecide.lean` has a program `goCheck` that decides the rules of Go of `Spec/GoCheck.lean`, with a proof that what it accepts
keeps them (`goCheck_sound`); it accepts both files.

## How the main results are obtained

* **Soundness of the parser** (C01–C04, C09). `Proofs/LR/Cert.lean` lists for each state the states that can stand below it. The
  kernel checks the list against the whole tables (`Check.lean`). From that follows an invariant of the driver (`Inv.lean`): the stack is a
  path of the automaton that carries derivation trees. A potential bounds the number of rounds.
* **Completeness** (C07, C08). `Machine.lean` is a machine without data that runs in step with the driver. `Items.lean` is a certificate of item sets
  checked by the kernel. `Spec/Preferred.lean` says which derivation is meant when there are several; the certificate proves
  that exactly these are found.
* **Values** (C04–C07). `Tree.eval` is the value of a derivation, bottom up. `Tree.exact` (`Spec/Exact.lean`) is the value when the pointers into the stack are followed after
  the parse: each node has a place, writing order is post-order, arrays double. `C07_module` says that `ParseString` gives `m` if and only if the
  text has a preferred derivation `t` and `m = t.exact`. Both functions use the actions of the model at each node: an action is a function
  from the children's fields to the fields of `$$`, in the specification as in asn1.y. The notation below does not use them.
* **Notation** (C63, C26). `Spec/Notation.lean` is an inductive description of the ASN.1 notation in terms of tokens and abstract syntax
  alone. `C63_accepted`: accepted texts are exactly those that stand for a module.
* **Printing** (C24, C64). `Spec/Print.lean` prints modules; what it prints parses back, and every accepted text has a
  module that can be printed.
* **Error messages** (C27, C65). Reachability certificates show for each state a continuation that is accepted after each listed token.
* **Lexer** (C10–C20). Declarative relations `SkipTo`, `Lexeme`, `Tokens` (`Spec/Lexical.lean`) are proved equal to the scanner.
* **Code generator** (C30–C51). Induction over the abstract syntax against declarative relations (`Spec/Codegen.lean`, `Spec/GoFile.lean`); tags are read by a
  model of `encoding/asn1`'s own tag reader (`Spec/StructTag.lean`).
* **Pairs of runs** (C85–C89). The generator reads other assignments through `unwrapToLeafType` only, so runs on modules with assignments in another order, or with
  further ones, are compared assignment by assignment (`Proofs/Codegen/Order.lean`). `Spec/Bare.lean` leaves out constraints and extension markers and writes out
  the tagging; every function of the generator gives the same for the result (`Proofs/Codegen/Bare.lean`).
  `Spec/Renamed.lean` relates modules, expressions, declarations and errors that differ in names only; each function maps related arguments to related results
  (`Proofs/Codegen/Renamed.lean`); in the same way runs with the two representations of integers are compared (`Proofs/Codegen/Integers.lean`).
* **Pairs of texts** (C90–C93). Two parser runs on tokens of the same codes shift and reduce in step (`Proofs/LR/Codes.lean`). Each of the 291 grammar actions commutes
  with replacing names (`Proofs/LR/NewRules.lean`, written by `tools/gen_new.py`, one theorem per action), hence so do values of parse trees, and by C07 the parser.
  That modules can be joined (C92) follows from the notation (C63), and with C86 and C88 (for the identity) what happens to the Go file (C93).
* **Versions of a type** (C94, `Props/Versions.lean`). The fields of a SEQUENCE come one by one from its components, so a type with components added at the end has a struct with
  fields added at the end; encoding/asn1 reads fields from left to right and does not mind what is left over in a struct, so octets of the newer type are read into the older one.
  The other direction needs added components that can be absent.
* **Streams** (C95, `Props/Stream.lean`). Each function that parses headers uses some octets and does not look at those that follow (`parseHeader_cut`), so reading at top level
  depends on the octets used only; with uniqueness (C82) this refuses truncated encodings and makes concatenated ones readable one by one.
* **Names and octets** (C96, `Proofs/Codegen/Wire.lean`, `Props/Wire.lean`). For two modules that differ in names, runs without errors give types in which declared names are
  replaced one by one (`decls_good`, which keeps track of which names are assigned; C88 alone does not tell `B` from `b`, both `B` in Go); reading a type and writing a value then
  go in step in both files (`decodes_new`, `makeField_new`).
* **Integers and octets** (C97, `Props/IntWire.lean`). From C89, the two files of a module declare the same names with types that differ in integers only; reading goes in step
  in both directions (`decodes_big`, `decodes_back`), and so does writing as long as no component is left out by one and not by the other (`makeField_big`).
* **Parts of files** (C98, `Props/Part.lean`). Reading looks at declarations only through `Declares`, so it goes on working with more of them (`decodes_more`); the other way
  needs that the declarations of the smaller file use no others (`Part.closed`, from `typeIdents`) and that no name is declared twice (C67). The same for the values
  of types (C99, `Props/PartValues.lean`: `typed_more`, `typed_less`), where values in interfaces have to be excepted.
* **Octets and values** (C100, `Props/Canonical.lean`). Same values have same octets since DER is unique (C84_der_unique); the other way, what is read from the octets is one
  Go value (C82_unique), which stands for one value (`means_unique` in `Proofs/Decoding/Determined.lean`), and being the same is symmetric and transitive.
* **Whatever is read** (C101, `Props/ReadValue.lean`). Induction over the reading of any octets shows that what is read is `Sound` (`reads_sound`: bits with zero padding, object
  identifiers with possible arcs, dates in the calendar, nil only where a component may be absent); induction over the typing of the Go value shows that sound values stand for values
  if strings and named bits in them are `Proper` (`stood`); the converse is by induction over the parts of the value (`means_proper`). That octets are DER exactly if they are written again
  as they were read (C102, `Props/DerCheck.lean`) follows with the uniqueness of DER (C84).
* **Kerberos** (C103, `Props/Kerberos.lean`). `namesCheck`, `encCheck` and `certainCheck` (`Props/NamesDecide.lean`, `Props/EncodeDecide.lean`) decide, with proofs of soundness, the conditions
  of C76 and C101 for modules and types; the kernel runs them on RFC 4120.
* **Generated files as Go programs** (C66–C71). Rules of Go on declarations, types and initial values in `Spec/GoCheck.lean`; cycles of Go types are
  mapped to cycles of ASN.1 types, names to the assignments they come from.
* **From text to file** (C72–C74). Every name and number of a parsed module comes from a token (`Proofs/Names.lean`), also those behind pointers, since every
  write to the parser's stack does (`Proofs/Names2.lean`); so conditions of C36–C39, C41, C71 on names and numbers hold for parsed modules,
  and those of C75–C77, C82–C84 and C86 (`Props/Whole.lean`, where also a text is followed to octets and back).
* **Encoding** (C75–C77). `Spec/Der.lean` describes BER and DER encodings (X.690) of abstract values of ASN.1 types, `Spec/GoValue.lean` the values of Go types,
  `Spec/Marshal.lean` what `encoding/asn1` writes for them, `Spec/Encodable.lean` which abstract value a Go value stands for. Induction over these (`Proofs/Encoding/`)
  shows generator and library together write right encodings, outside the cases for which counterexamples are given.
  `Props/Lost.lean` turns the counterexamples into laws for all modules: when tags, strings, times, lists and components are written rightly, and when never.
* **Decoding** (C82–C84). `Spec/Unmarshal.lean` describes what `encoding/asn1` reads into Go types, `Spec/Decodable.lean` for which types and values that can
  succeed. Induction over encodings (`Proofs/Decoding/`) shows that DER encodings, and so what was written before, are read as the same values;
  and that DER has one encoding for each value (`Proofs/Decoding/Canon2.lean`), so that what was read is written again unchanged.

`decide +kernel` is used over whole tables (all states, all rules, all tokens), which proves the statement for all inputs, and for concrete examples.

## Properties

P: proved as stated. F: false of the code; a theorem `…_false` gives the witness and the `…_partial` theorems say exactly or most nearly when it holds.

| Id | Property | | Theorems (in `Asn1go.Props`) | Remarks |
|---|---|---|---|---|
| C01 | Parsing always returns | P | `C01_returns`, `C01_rounds`, `C01_no_panic` | Includes a linear bound on the number of parser rounds; table and stack accesses in range also for failing readers. |
| C02 | Exactly one of module and error | P | `C02_module_or_error`, `C02_never_nil` |  |
| C03 | Accepted text conforms to the grammar | P | `C03_sound` |  |
| C04 | The returned module is the value of its derivation | P | `C04_exact`, `C04_value`, `C04_erased` | C04_exact: exact, with all pointers followed as a caller does (Spec/Exact.lean). C04_value, C04_erased: equality with the meant value up to DEFAULT pointers and references stored as pointer into the parser stack, as the property says. |
| C05 | DEFAULT values survive parsing | F | `C05_presence_partial`, `C05_kept_partial`, `C05_false`, `C05_witness` | False (C05_false): DEFAULT 5, 6, 7 come out as nil, 7, 7. Proved: defaults are present exactly where written; values are as written whenever no stack place pointed to is used again (C05_kept_partial); the exact value in every case is given by C07_module. |
| C06 | First component of an object identifier value survives parsing | F | `C06_others_partial`, `C05_kept_partial`, `C06_false`, `C06_witness` | False (C06_false): first references x, y, z come out as empty, z, z. Proved: references not stored this way are as written, the others whenever their stack place is not used again (C05_kept_partial); the exact result in every case is given by C07_module. |
| C07 | Every disambiguated derivation is parsed | P | `C07_module`, `C07_complete`, `C07_exact`, `C07_exact_value` | C07_module: ParseString returns m iff the text has a preferred derivation t and m = t.exact, the value of the derivation with stack pointers followed after the parse. That this value differs from the meant one for some texts is C05/C06. |
| C08 | Disambiguated derivations are unique | P | `C08_unique`, `C08_ambiguous` | C08_ambiguous: without the rules the grammar is ambiguous. |
| C09 | Lexical errors are never lost | P | `C09_lexical_errors` |  |
| C10 | Every lexer call makes progress | P | `C10_progress`, `C10_returns`, `C10_token_count` | Consuming exactly the token is part of C11_faithful. |
| C11 | Tokenisation is faithful to the text | P | `C11_faithful`, `C11_end`, `C11_unique` | Against the declarative relations SkipTo/Lexeme of Spec/Lexical.lean. |
| C12 | Identifiers are well formed | P | `C12_identifiers` |  |
| C13 | Reserved words are exactly the table | P | `C13_reserved_words`, `C13_keyword_spelling` |  |
| C14 | Number tokens have their decimal value | P | `C14_value`, `C14_digits` |  |
| C15 | Layout does not matter | P | `C15_layout`, `C15_white_space` |  |
| C16 | A line comment ends at the next double hyphen or line end | F | `C16_line_comment_partial`, `C16_end_unique`, `C16_three_hyphens`, `C16_false`, `C16_exact_partial` | False for comments starting with three hyphens (C16_false); what happens is proved for every text (C16_exact_partial). |
| C17 | Block comments nest | F | `C17_block_comment_partial`, `C17_end_unique`, `C17_false`, `C17_slash`, `C18_exact_partial` | False for comments starting with /*/ (C17_false); what happens is proved for every text (C18_exact_partial). |
| C18 | Unterminated comments act as end of input | F | `C18_unterminated_partial`, `C18_false`, `C18_exact_partial`, `C18_line_exact_partial` | False for comments starting with --- or /*/ (C18_false); what happens is proved for every text. |
| C19 | Reported line numbers | P | `C19_lines`, `C19_parse_errors` |  |
| C20 | Printed tokens lex back | P | `C20_printed` | All tokens but the exponent marker, which is only recognised directly after a number. |
| C21 | Real literals have their decimal value | F | `C21_exactly_partial`, `C21_false`, `C21_witness`, `C21_texts`, `C21_float_partial` | False (C21_false): 1.1 is read as 2. Proved: exactly which literals have their decimal value, in exact arithmetic, and that with up to 13 digits after the dot and no overflow or underflow the float64 of these is within 2^-49 of it. |
| C22 | Module header is reported as written | P | `C22_header`, `C22_default` |  |
| C23 | Assignments are reported completely and in order | P | `C23_assignments` |  |
| C24 | Printing and parsing a module round-trips | P | `C24_round_trip`, `C24_injective`, `C24_notation`, `C24_general`, `C24_notation_general` | The fragment: modules that Print.module true (Spec/Print.lean) prints, i.e. all modules with a notation but without DEFAULT and without object identifier values that start with a reference and have further components (see C64_printable). For modules with these C24_general gives the module back but for what the pointers of DEFAULT and such references point to (C05, C06). |
| C25 | Read errors are reported | F | `C25_read_errors_partial`, `C25_false`, `C25_lex`, `C25_hang`, `C25_stuck`, `C25_exact_partial`, `C25_after` | False: a read error inside a comment, or after : or . loops for ever (C25_false). Proved: a failing reader never yields a module; a call of Lex does not return exactly on stuck text; ParseStream does not return on every stuck text after tokens that can be gone on from, and on no other text without illegal text (C25_exact_partial). Missing: which texts with illegal text before the stuck text hang (there are both, C25_after). |
| C26 | Imports from several modules are accepted | F | `C26_exact`, `C26_identified_partial`, `C26_false` | False (C26_false): only the last module may lack an identifier. C26_exact: a list of imports is accepted exactly if all modules but the last have identifiers; then the imports are the ones written. |
| C27 | Suggested tokens are accepted | P | `C27_text`, `C27_names`, `C27_shifted`, `C27_continues`, `C27_all`, `C27_not_all`, `C27_hidden` | C27_shifted: in the state of the message the parser shifts every listed token. C27_continues: every text with a syntax error in which text that is no token was not met before has a beginning after which each listed token, however written, leads to a text that parses. After text that is no token the parser goes on (C27_hidden); there only C27_shifted applies. The list need not be complete (C27_not_all). |
| C28 | Parsing depends only on the tokens | P | `C28_tokens_only` |  |
| C30 | AUTOMATIC tagging is rejected | P | `C30_automatic`, `C30_only_automatic` |  |
| C31 | Generation is all or nothing | P | `C31_all_or_nothing`, `C31_outcome` | Errors from go/printer itself may come after part of the text; those are the only exception. |
| C32 | Generation terminates | F | `C32_terminates_partial`, `C32_false`, `cyclic_none`, `C32_exact_partial` | False: alias cycles recurse without end (C32_false). C32_exact_partial: it returns if and only if there is no alias cycle (or tagging is AUTOMATIC). |
| C33 | Generation succeeds exactly on supported modules | P | `C33_supported` | Both directions, no acyclicity assumption. |
| C34 | One declaration per assignment, in order | P | `C34_declarations` | DeclsFor relates every declaration to its assignment, including the full translation of types. |
| C35 | Struct fields mirror components | P | `C35_fields`, `C35_sequence` |  |
| C36 | Field tags mean what the ASN.1 says | F | `C36_meaning_partial`, `C36_single_tag_partial`, `C36_universal_false`, `C36_nested_false`, `C36_alias_false` | False for UNIVERSAL tags, nested tags and aliases of string types; exact meaning of every generated tag proved, faithful for single non-UNIVERSAL tags. |
| C37 | Optional marking | P | `C37_optional` | Under the assumption that the numbers fit a 64-bit int. |
| C38 | All used packages are imported | F | `C38_imported_partial`, `C38_raw_false`, `C38_big_false`, `C38_exact_partial`, `C38_uses`, `C38_asn1_exact_partial` | False for asn1.RawValue and big.NewInt. C38_exact_partial: a package is imported if and only if something else of it is used. |
| C39 | Imports are used and unique | P | `C39_imports` |  |
| C40 | Different names stay different | P | `C40_distinct`, `C40_case_needed` | Type references among each other and identifiers among each other. |
| C41 | Generated names are exported identifiers | P | `C41_exported` |  |
| C42 | SET types are marked for encoding/asn1 | F | `C42_marked_partial`, `C42_sets`, `C42_false` | False: SEQUENCE OF SET and single-alternative CHOICE leak the naming. Exact condition proved. |
| C43 | Aliases of time and bit string types | P | `C43_references`, `C43_unique` |  |
| C44 | Named numbers become variables | P | `C44_named_numbers` |  |
| C45 | CHOICE mapping | P | `C45_choice`, `C45_declared` |  |
| C46 | Package name | P | `C46_package` |  |
| C47 | Integer representation | F | `C47_default`, `C47_integer`, `C47_unknown_partial`, `C47_false` | False for INTEGER inside a multi-alternative CHOICE, which is not translated; proved for every INTEGER at a translated place. |
| C48 | Useful types resolve | F | `C48_generalized_partial`, `C48_false`, `C48_utc_partial`, `C48_utc_refused` | False for UTCTime, which is refused in every module that does not define it (C48_utc_refused). |
| C49 | Default values reach the generated code | F | `C49_module_partial`, `C49_false`, `C49_kept_partial` | False end to end because the parser loses defaults (see C05); C49_kept_partial: it holds for every text in which no default is overwritten (Spec/Kept.lean). |
| C50 | Generation is a function of module and parameters | P | `C50_function` |  |
| C51 | Value assignments | P | `C51_variable`, `C51_nothing` |  |
| C52 | Lookup returns the first match | P | `C52_get`, `C52_get_type`, `C52_get_value` | Get returns exactly the first assignment of the name; GetType and GetValue exactly that one if it is of the kind. A nil assignment in the list (never made by the parser) is given the empty name instead of panicking. |
| C53 | Hex dumps round-trip | P | `C53_round_trip` | Any lines with labels, any gap, any number of bytes per line, capital or small digits. |
| C54 | Hex dump failure is exactly malformed bytes | P | `C54_panics`, `C54_value`, `C54_fields_exist` | Against a description of lines and fields that every text has in exactly one way. |
| C55 | Hex dump lines are independent | P | `C55_lines`, `C55_labels` |  |
| C56 | A failed run leaves the output file alone | F | `C56_false`, `C56_partial`, `C56_emptied` | False: the output is truncated before the input is read; C56_false gives a run. C56_partial: runs that stop earlier keep all files; C56_emptied: in every other run the old contents are lost. |
| C57 | A successful run writes exactly the generated file | P | `C57_success`, `example_run` |  |
| C58 | The command exits nonzero exactly on failure | P | `C58_status_one`, `C58_flags` | Against a description of command lines that covers package flag; also status 2 for wrong options and 0 for help. |
| C59 | Marshal errors do not touch the file | P | `C59_marshal` | asn1.Marshal and the amount written before a write error are parameters. |
| C60 | Input bytes are read as UTF-8 | P | `C60_reading`, `C60_round_trip`, `C60_parse` |  |
| C61 | ParseFile is ParseStream of the contents | P | `C61_parse_file` |  |
| C62 | ws2bin writes the bytes of the dump | P | `C62_ws2bin` |  |
| C63 | Accepted texts are exactly the notation for modules | P | `C63_accepted`, `C63_determined`, `C63_returned` | Against the relation ModuleText of Spec/Notation.lean, which mentions neither the parser nor its actions or grammar rules. The value is exact up to the pointers of C05 and C06, as the property says. |
| C64 | Parsing, printing and parsing again gives the same module | P | `C64_reprint`, `C64_accepted`, `C64_printable` | C64_reprint for texts without DEFAULT and without object identifier values that start with a reference and have further components; C64_accepted for all accepted texts, in terms of the module the text is notation for. |
| C65 | Errors are found at the first token they can be found at | P | `C65_first`, `C65_exclusive` | Every failing text; the bad-token case and the refused-token case exclude each other. |
| C66 | Names used in generated files are declared | F | `C66_declared_partial`, `C66_false`, `C66_exact_partial` | False for named numbers that refer to a value without literal assignment; proved for every other name. C66_exact_partial: these are the only cases. |
| C67 | Generated names are declared once | F | `C67_distinct_partial`, `C67_false`, `C67_val_needed`, `C67_exact_partial` | False: SET type A also declares ASET. C67_exact_partial: exactly if two things of the module get the same Go name; C67_distinct_partial: not if no type is named like a SET type followed by SET and no type name contains Val. |
| C68 | Struct fields have different names | P | `C68_fields` |  |
| C69 | Generated types do not contain themselves | F | `C69_recursion_partial`, `C69_false`, `C69_alias_false`, `C69_exact_partial` | False for A ::= SEQUENCE { a A OPTIONAL } and A ::= SEQUENCE OF A. C69_exact_partial: exactly when types of the module contain or mention themselves in these ways, references taken for a time type aside. |
| C70 | Initial values have the types of their variables | F | `C70_typed_partial`, `C70_false`, `C70_big_false`, `C70_exact_partial`, `C70_overflow_false`, `C70_time_false` | False for infinities, for literals such as 1E309 that are infinite in float64, for whole REAL values with big.Int, and for values of a type the module names GeneralizedTime or UTCTime; C70_exact_partial: exactly these. |
| C71 | Generated files obey the rules of Go | F | `C71_compiles_partial`, `C71_false`, `C71_demo`, `C71_exact_partial` | False because of C38, C67, C69, C70. C71_exact_partial: for modules that obey the rules of ASN.1, the file obeys the rules of Go exactly outside these cases. |
| C72 | Names and numbers in parsed modules | P | `C72_names`, `C72_notation`, `C72_unreserved` | Zero values, which the pointers of C05 and C06 can point to, have no names. |
| C73 | ASCII texts do not depend on Unicode tables | P | `C73_tables`, `C73_tokens` |  |
| C74 | From ASCII texts to Go files | P | `C74_exported`, `C74_imports`, `C74_asn`, `C74_tags`, `C74_encoding` | C74_imports has the exceptions of C38; C74_tags says of tags what C36_meaning_partial says. C74_encoding: what C75–C77 and C82–C84 ask of names holds for parsed modules with different names, unless a type is named as a SET type with SET after it. |
| C75 | Values of generated types are encoded as BER demands | F | `C75_ber_partial`, `C75_false`, `C75_tag_lost`, `C75_set_as_sequence`, `C75_string_kind`, `C75_visible_string`, `C75_time_kind`, `C75_sequence_of_set_of`, `C75_element_tag`, `C75_default_true`, `C75_default_name`, `C75_universal_class`, `C75_nested_tags`, `C75_choice_tag`, `C75_raw_tag`, `C75_tag_never`, `C75_set_never`, `C75_string_exact`, `C75_time_exact`, `C75_sequence_of`, `C75_set_of`, `C75_sequence_of_never`, `C75_set_of_element_never`, `C75_sequence`, `C75_struct`, `C75_component`, `C75_component_tag`, `C75_universal_never`, `C75_reference_tag_never`, `C75_choice_tag_never`, `C75_raw_tag_only`, `C75_component_string`, `C75_visible_never`, `C75_component_set_only`, `C75_component_set` | False in the twelve ways shown. C75_ber_partial: for types outside these cases (Spec/Encodable.lean) every Go value is written, as an encoding of its abstract value; so are CHOICE types of several alternatives, held in interfaces, except as OPTIONAL components (C77_optional_choice) and with SEQUENCE or SET written in place, and CHOICE types with tagged alternatives, held in asn1.RawValue, except under another tag (C75_raw_tag). An asn1.RawValue stands for a value if it holds an encoding of it. ANY is not covered. encoding/asn1 is specified in Spec/Marshal.lean. For all modules, not only the examples (Spec/Written.lean): tags of types outside components, and SETs outside components, are never written rightly (C75_tag_never, C75_set_never); strings and times exactly when C75_string_exact, C75_component_string and C75_time_exact say; lists exactly if the type is not confused with SET OF and each element is right (C75_sequence_of, C75_set_of); a SEQUENCE without DEFAULT exactly if each component is right (C75_sequence); tags of components only if C75_component_tag holds, never if it was UNIVERSAL, a reference with a tag inside, or around a CHOICE without EXPLICIT and with a primitive value. SETs as components without tags are right only in place, not under a name (C75_component_set_only), and there by BER if each component is (C75_component_set). Missing: such exact laws for components with DEFAULT, the order of components of SET by DER, and tagged strings. |
| C76 | Values of generated types are encoded as DER demands | F | `C76_der_partial`, `C76_false`, `C76_big_default`, `C76_set_order`, `C76_packet`, `C76_options`, `C76_raw` | As C75, and components of SET in order of tags, and integers with DEFAULT as int64. The laws of C75 are proved for DER too. |
| C77 | Every abstract value can be written with the generated types | F | `C77_written_partial`, `C77_nil`, `C77_false`, `C77_optional`, `C77_real`, `C77_packet`, `C77_options`, `C77_optional_choice`, `C77_raw` | False for zero values of OPTIONAL components, for OPTIONAL components held in interfaces, and for REAL. For types of C75_ber_partial whose OPTIONAL components have finite zero values, proved exactly which values can be written: those whose numbers fit and whose OPTIONAL components are not zero. CHOICE types held in asn1.RawValue are covered if their tag numbers have 31 bits; nothing is demanded of the numbers inside them (C77_raw). |
| C78 | REAL literals in float64 | P | `C78_round`, `C78_close`, `C78_any`, `C78_power` | math.Log10 is a parameter of which an error bound (2^-46) and the value at 1 are assumed. |
| C79 | REAL literals are numbers | F | `C79_finite_partial`, `C79_range_partial`, `C79_over`, `C79_under`, `C79_under_witness`, `C79_false`, `C79_texts` | False (C79_false): 0E309 is NaN and 1E309 infinite. Proved: exponents up to 288 are fine, exponents over 308 never; between them the value decides, up to a relative gap at the limit of float64. |
| C80 | Times of packet listings | P | `C80_reads`, `C80_panics`, `C80_total`, `C80_unambiguous` |  |
| C81 | Times of packet listings keep their order | P | `C81_order`, `C81_different` |  |
| C82 | DER encodings are read into generated types | F | `C82_read_partial`, `C82_exact_partial`, `C82_typed`, `C82_unique`, `C82_false`, `C82_string_kind`, `C82_explicit_empty`, `C82_enumerated`, `C82_optional_needed`, `C82_raw_optional`, `C82_interface_nil`, `C82_interface_lost`, `C82_interface_list`, `C82_never`, `C82_real`, `C82_never_list` | False: components that can be absent are confused with those that follow, OPTIONAL components held in asn1.RawValue take any element, numbers of enumerations beyond 32 bits are not read, of CHOICE types held in interfaces tagged and constructed alternatives are silently read as nil (C82_interface_lost), and lists of them are never read (C82_interface_list). For types of C76_der_partial whose components can be told apart and for values held in interfaces that are not tagged and not BOOLEAN, proved exactly which values are read: those whose numbers fit, whose OPTIONAL components that are present are not zero, and whose interfaces hold INTEGER, OCTET STRING, BIT STRING, OBJECT IDENTIFIER or PrintableString values (C82_exact_partial); asn1.RawValue is covered for tag numbers of 31 bits (C77_raw). REAL and what needs a value of it, or of such a list, is never read (C82_never). |
| C83 | Values of generated types are read as they were written | F | `C83_round_partial`, `C83_exact_partial`, `C83_blank`, `C83_false`, `C83_packet`, `C83_text_partial`, `C83_note`, `C83_options_lost`, `C83_answers`, `C83_replies_unread` | False as C82, and for values held in interfaces (C83_options_lost, C83_replies_unread). Proved for types of C76_der_partial whose components can be told apart, and values whose interfaces hold alternatives given back as they are (C83_answers), with no condition on OPTIONAL components: exactly the values whose enumerations have 32 bits, whose subidentifiers have 31, and whose interfaces hold such alternatives (C83_exact_partial). C83_text_partial starts from an ASCII text. |
| C84 | DER read into generated types is written again unchanged | F | `C84_again_partial`, `C84_der_unique`, `C84_packet`, `C84_false`, `C84_raw_again`, `C84_raw` | False for OPTIONAL components present with the zero value. Proved under the conditions of C82_read_partial, for encodings up to the largest Go length; alternatives of CHOICE types held in asn1.RawValue must have distinct names. That DER has one encoding for each value is proved for all types whose CHOICE alternatives have distinct names. |
| C85 | The order of assignments does not matter | P | `C85_order`, `C85_needed` | For every fuel, so modules for which Generate does not return are the same too. C85_needed: with a name assigned twice the order matters. |
| C86 | Assignments that are added do not change the declarations of the others | P | `C86_added`, `C86_needed`, `C86_parsed` | The assignments added must not define GeneralizedTime or UTCTime, which are reserved in ASN.1; C86_needed shows that such a definition changes declarations of others. Parsed modules never do (C86_parsed). |
| C87 | Constraints, extension markers and default tagging are notation only | P | `C87_bare`, `C87_same`, `C87_parsed`, `C87_needed` | For modules in which a type is present within each constraint around an assigned type, which holds for all parsed modules (C87_parsed). Errors are compared as in the model, which keeps what is unsupported and not its text. C87_needed: the tagging itself does matter. |
| C88 | Names are names only | P | `C88_renamed`, `C88_rename`, `C88_parsed`, `C88_time_needed`, `C88_different_needed` | C88_renamed relates the results for any two modules that are renamings of each other (Spec/Renamed.lean); C88_rename: every module without missing assignments has them, so every parsed module (C88_parsed). C88_time_needed, C88_different_needed: the conditions are needed. |
| C89 | The integer representation concerns integers only | P | `C89_integers` | Related as Spec/Integers.lean says. Errors are compared as in the model, which keeps what is unsupported and not its text. |
| C90 | Other names in a text are other names in the module and in the file | P | `C90_reworded`, `C90_generated`, `C90_time_needed` | reworded (Spec/Reworded.lean) replaces the names at every place of a module. The two texts may be read under different Unicode tables in C90_reworded. C90_time_needed: the names of the time types, which are keywords as well, must stay. |
| C91 | Only the codes of tokens decide whether a text is accepted | P | `C91_codes` | Lines in messages may differ, as the layout may. |
| C92 | Assignments of two modules can be put in one | P | `C92_joined` | unpointed leaves out the values of DEFAULT and the first references of object identifier values, which are not as written (C05_witness, C06_false). |
| C93 | Assignments put after a text leave its Go declarations as they are | F | `C93_added_partial`, `C93_false`, `C93_witness` | False: the pointer to a DEFAULT value is overwritten when a later assignment is parsed, so a type put after another one can remove a default from the Go tags of the first (C93_witness: default:5 is lost when B ::= SET { y A } is added). Proved for texts without DEFAULT. |
| C94 | Older and newer versions of a SEQUENCE type understand each other | P | `C94_older_reads`, `C94_older_understands`, `C94_newer_encodes`, `C94_newer_understands`, `C94_example`, `C94_needed` | C94_older_reads holds for all octets. The two on values have the conditions of C82, which are known to be needed. That added components can be absent is needed (C94_needed). Both versions are in one module. |
| C95 | Encodings end where they end: truncated ones are refused, concatenated ones are read one by one | P | `C95_used`, `C95_truncated`, `C95_stream`, `C95_encodings`, `C95_packets`, `C95_short` | C95_used holds for all Go types. The two next have the conditions under which what is read is unique (C82_unique), C95_encodings those of C82, which are known to be needed. |
| C96 | Names do not matter for the octets | P | `C96_reads`, `C96_both`, `C96_writes`, `C96_packet` | For any two modules that are renamings of each other (Spec/Renamed.lean, as in C88), with NamesOk for the first and WellNamed for the second, and a renaming of components that keeps the names of fields exported. That the second module has a file is C88. |
| C97 | The integer representation does not change the octets | F | `C97_reads`, `C97_back`, `C97_writes_partial`, `C97_numbers`, `C97_zero` | Reading is proved in full, both ways. Writing is false for OPTIONAL and DEFAULT components: 0 or the default is left out with int64 and written with *big.Int, and nil under DEFAULT is an error (C97_zero). Proved for all values in which each such component is there with both representations or with none (C97_writes_partial). |
| C98 | What is read depends on the assignments used only, not on their order or on other assignments | P | `C98_order`, `C98_added`, `C98_text`, `C98_packet`, `C98_alone`, `C98_wide`, `C98_wide_reads` | C98_order for modules in which different assignments have different names (needed: C85_needed) and the first has proper names, for all Go types. C98_added for modules as in C86, the larger one with the names under which what is read is unique (C82_unique). C98_text for assignments put after those of a text, under the condition of C93. Cases: C98_packet, C98_alone, and C98_wide for two texts. |
| C99 | The Go values of a type depend on the assignments used only | P | `C99_order`, `C99_added`, `C99_text`, `C99_packet`, `C99_wide` | Under the conditions of C98. That values in interfaces have to be excepted is shown by C99_wide: with `B ::= SET OF A` added to `A ::= CHOICE { x INTEGER, y BOOLEAN }`, the interface A can hold a BSET. That what is written is the same needs no proof: `marshal` looks at values and not at files. |
| C100 | Same octets exactly for same values | F | `C100_same_partial`, `C100_iff_partial`, `C100_held_partial`, `C100_packet`, `C100_false` | False of the code (C100_false): tags of assigned types are lost, and in `A ::= SEQUENCE { a T OPTIONAL, b U OPTIONAL }` with `T ::= [0] INTEGER`, `U ::= [1] INTEGER` the values { a 5 } and { b 5 } are written with the same octets. C100_same_partial: same values give same octets for types for which no known defect applies (those of C76). C100_iff_partial: and only these, if no CHOICE is held in an interface or an asn1.RawValue, under the conditions of C83. C100_held_partial: with such CHOICE types, values with the same octets are, up to order, what one Go value stands for; missing there is that this Go value stands for one value only. |
| C101 | Whatever is read is a value of the type | F | `C101_exact`, `C101_value_partial`, `C101_again_partial`, `C101_unknown`, `C101_proper`, `C101_string`, `C101_bits`, `C101_false` | False of the code (C101_false): into `A ::= PrintableString` an IA5String `@` is read, and then written as a UTF8String (C101_string); into a BIT STRING with named bits, bits with zeros at the end are read (C101_bits). C101_exact: for types to which no known defect applies (those of C76), with CHOICE types of one alternative only, what is read, from any octets, stands for a value exactly if its strings have only characters of their types and its named bits no zeros at the end; so always if all strings are UTF8Strings and bits have no names (C101_value_partial). C101_again_partial: it is then written as DER demands, and read again as the same value. Missing are CHOICE types held in interfaces or raw values. |
| C102 | Octets are DER exactly if they are written again as they were read | F | `C102_der_partial`, `C102_kept`, `C102_settles_partial`, `C102_unknown`, `C102_false` | False of the code (C102_false): bits with names and zeros at the end are written again as they were read, but are not DER. C102_der_partial: true, for types to which no known defect applies (those of C76, CHOICE types with one alternative), of every value that is read whose strings have only characters of their types and whose named bits no zeros at the end, which C101_exact shows to be those that stand for something. C102_kept needs no such condition. C102_settles_partial: what is written is read to its end and then written again unchanged, if components that can be absent can be told from those that follow. Missing are CHOICE types held in interfaces or raw values. |
| C103 | Keys, checksums and encrypted data of Kerberos are read and written rightly | P | `C103_kerberos`, `C103_writes`, `C103_key` | The conditions of C76 and C101 (proper names, no known defect, no strings of few characters) are decided by programs with proofs of soundness (namesCheck_sound, check_encodable, certain_of_check), run by the kernel on the module and the 26 types. The module is given as the parser's result (Tests/KerberosData.lean); that the parser gives it for the text of examples/rfc4120.asn1 was evaluated, not proved. Octets read are fewer than 10^18, octets written at most 2^63-1. The other types of RFC 4120, apart from KerberosTime, have GeneralStrings or tags of their own, in them or below, and are not among those of C76. |

## Defects and oddities found

Each is a theorem or an example in `Props/`, or is visible in the model where marked (m).

Parser values
1. DEFAULT values are kept as pointers into the parser stack and are overwritten: `DEFAULT 5`, `6`, `7` in one SEQUENCE come out as nil, 7, 7 (C05, C49); a type put after another one can remove its default (C93).
2. First components of object identifier values likewise: `{x 1}`, `{y 1}`, `{z 1}` come out with empty, z, z (C06).
3. `1.1` and `1.10` are read as 2, `1.05` as 1.5 (C21); for `1.10` float64 may also give 1.1 (C78_power). `1E309` is read as infinity, `0E309` as NaN, `1000000E-325` as 0 (C79).
4. `r REAL ::= 1` gives an integer value. Rules 45, 113, 191 are never used, 136 is dead, and 137, 165, 171 cannot be reached.
5. Contents of `[[ ]]` and of exceptions are dropped (Spec/Notation).

Accepted texts
6. A list of imports from several modules is refused unless all but the last have identifiers (C26).
7. Nothing can follow `...` in ENUMERATED; a second `...` in SEQUENCE, SET, CHOICE is refused unless nothing else is there (C63).
8. A word directly followed by a comment is an error: `BEGIN--x--END` (C15 excludes it).
9. A line comment starting `---` and a block comment starting `/*/` end at the wrong place (C16, C17). An unterminated comment ends the input without error (C18).
10. CR LF counts as two lines (C19).

Errors
11. After text that is no token the parser goes on; the first message may be replaced by a later one (C27_hidden).
12. The list of expected tokens may be incomplete: `A DEFINITIONS B` lists only `::=` (C27_not_all).
13. A read error inside a comment, or with less than two characters after `:` or `.`, makes the lexer loop for ever (C25; exactly then,
    when no illegal text comes before).

Code generator
14. Alias cycles recurse without end (C32).
15. `asn1.RawValue` and `big.NewInt` are used without import in some cases (C38).
16. `[UNIVERSAL n]` becomes a context tag; of nested tags the last wins; tags and string kinds are lost through aliases (C36).
17. SET names leak to, or are missing at, nested types (C42).
18. UTCTime does not resolve (C48); a type named GeneralizedTime declared in the module still becomes `time.Time` (C43).
19. Names that differ only in the case of the first letter collide (C40_case_needed). There is no check for duplicate definitions.
20. NULL, COMPONENTS OF and some other types give an error (C33).
21. Recursive types do not compile: `A ::= SEQUENCE { a A OPTIONAL }` becomes a struct holding itself, `A ::= SEQUENCE OF A` becomes `type A = []A` (C69).
22. A named number `a(b)` uses a variable `ValB` even if `b` is not assigned (C66). SET type `A` and type `ASET`, or value `x` and type `ValX`, are declared twice (C67).
23. `PLUS-INFINITY` is written as the literal `+Inf`, and so is `1E309`; with big.Int, `x REAL ::= 1` gets a `big.NewInt`; with `GeneralizedTime ::= INTEGER` in the module, `x GeneralizedTime ::= 5` becomes a `time.Time` (C70).
24. Encodings are wrong (C75): tags of assigned types and of elements are lost; an assigned SET is written as SEQUENCE; assigned strings and VisibleString as PrintableString;
   an assigned GeneralizedTime as UTCTime; SEQUENCE OF SET OF as SET; `DEFAULT TRUE` is taken for FALSE, named numbers after DEFAULT for 0; tags of CHOICE types as IMPLICIT, and lost if alternatives are tagged (`asn1.RawValue`).
   Different values can have the same octets as a consequence: `{ a 5 }` and `{ b 5 }` of `SEQUENCE { a T OPTIONAL, b U OPTIONAL }` with assigned tagged types T and U (C100).
25. DER is broken (C76): `*big.Int` components with their default value are written, and nil for such a component is an error (C97_zero); SET components keep their textual order.
26. FALSE, 0, the empty string cannot be written for OPTIONAL components (C77); an OPTIONAL CHOICE of several alternatives (`interface{}`) cannot be left out, since nil
   is an error; REAL cannot be written at all.
27. Values are lost (C82, C83): an IA5String is taken for an absent PrintableString before it; after an absent component with an explicit tag an empty last
   element is an error; an OPTIONAL component held in an `asn1.RawValue` takes any element that follows; enumerations beyond 32 bits can be written but not read;
   in a CHOICE held in an `interface{}` a tagged alternative, or a SEQUENCE, is read as nil without an error, and a SEQUENCE OF such a CHOICE, or of REAL, is never read, nor is REAL.
   Strings of other kinds are read into PrintableString, and characters that it has not with them; they are then written as UTF8String. BIT STRINGs with named bits are read with zeros at the end (C101).

Commands
28. The output file is truncated before the input is parsed; if input and output are the same file it is emptied (C56).
29. The error message is used as a format string in `main` (m).
30. `ParseWiresharkHex` accepts signed numbers and panics on bad ones (C54).

## Checking the theorems against wrong programs

`tools/mutate.py` applies one edit of `seeded/mutants.json` at a time to a copy of the project outside `/verif`, builds the edited definition and what
depends on it, and records which theorems no longer compile. `seeded/LOG.jsonl` has one line per attempt, with theorems tightened as a result.

## Trusted base

* The Lean 4.33.0 kernel. Every theorem named in the manifest uses at most the axioms `propext`, `Classical.choice`, `Quot.sound`; no other axiom, no `sorry`, no
  `native_decide`, no `bv_decide`. Fewer axioms:
  * none: `C42_sets`, `C47_default`.
  * `Quot.sound` and `propext`: `C16_end_unique`, `C20_printed`, `C27_names`, `C36_single_tag_partial`, `C45_choice`, `C47_integer`, `C48_generalized_partial`, `C52_get`, `C54_fields_exist`, `C61_parse_file`, `C72_notation`, `C87_bare`, `C87_same`, `C96_writes`, `cyclic_none`.
  * `propext`: `C08_ambiguous`, `C17_end_unique`, `C27_text`, `C30_automatic`, `C30_only_automatic`, `C31_all_or_nothing`, `C31_outcome`, `C46_package`, `C52_get_type`, `C52_get_value`, `C55_lines`, `C73_tokens`, `C88_rename`.
  * All others use the three.
* That `Verif/Model` says what the Go code does. Tables and token codes were copied by program; `Model/Listing.lean` has them line by line as in y.go, and the
  kernel checks that lookup gives the same numbers. The rest was transcribed by hand with citations.
* Go semantics as used: 64-bit `int`, copying of structs on assignment, `append` and `copy`, `strconv`, `strings`, `bufio.Reader` as a source of runes, `flag`.
* For C75–C77, C82–C84, C94–C103, that `Spec/Marshal.lean` and `Spec/Unmarshal.lean` say what Go's `encoding/asn1` does; it is not part of `/repo` and was written from knowledge of its source. Go values are as
  package `reflect` shows them; strings are valid UTF-8, times have whole seconds.
* That the specifications say what is meant; they are short and kept apart from the model.
