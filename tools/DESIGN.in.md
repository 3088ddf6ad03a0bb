# Formal model of chemikadze/asn1go

The Lean 4 project in `lean/` models the Go code in `/repo` and proves the properties of `properties.jsonl` about the model.
`MANIFEST.json` maps each property to its theorems; it is made from `tools/claims.json` by `tools/manifest.py`.

| Directory | Contents |
|---|---|
| `lean/Verif/Model/` | the Go code, function by function; every definition cites file and lines |
| `lean/Verif/Spec/` | specifications that do not use the code of the model (grammar, trees, notation, lexical rules, printer, struct tags, UTF-8, …) |
| `lean/Verif/Proofs/` | lemmas and certificates |
| `lean/Verif/Props/` | the property theorems `Cnn_…`, and beside each a concrete case that meets its hypotheses |
| `tools/` | Python programs that made the generated Lean files (nothing they compute is trusted except copying tables and token codes) |
| `seeded/` | wrong variants of the model (`mutants.json`) and which theorems they break (`LOG.jsonl`) |

## What is modelled

| Go code | Model | Left out or simplified |
|---|---|---|
| `lexer.go` (all) | `Model/Lexer.lean`, `Model/Tokens.lean` | Text is the list of runes still to be read, ending in EOF or in a read error that persists. Package `unicode` is a parameter (`Unicode`, `Casing`), of which only ASCII behaviour and a few structural facts are assumed. |
| `bufio.Reader.ReadRune` | `Model/Utf8.lean` | How bytes are cut into buffers. |
| `y.go` driver and tables (all) | `Model/Parser.lean`, `Model/Tables.lean` (copied by program; `Model/Listing.lean` has the same lines as the file) | Debug output (`yyDebug = 0`). Array growth never fails. |
| `y.go` actions = `asn1.y` actions (all 291) | `Model/Actions.lean` | `Exclusions` is represented by the `Elements` it holds. |
| `y.go` `yyTokname`, `yyErrorMessage` | `Model/Message.lean` | – |
| pointers `&$3`, `&$2` into the parser stack | `Model/Parser.lean`: every stack array ever used, by generation | – |
| `ast.go` (all) | `Model/Ast.lean` | nil and empty slices are the same; `valueType` fields that are never set are dropped; slices made by the parser are used linearly, so shared backing arrays cannot be observed. |
| `parser.go` (all) | `Model/Parser.lean`, `Model/Real.lean`, `Model/Float.lean`, `Model/Commands.lean` | REAL values are symbolic (digits as numbers, exponent) in the syntax tree; `GoReal.float` is the float64 they stand for, with IEEE 754 rounding (`C78_round`: to the nearest) and `math.Pow10` as in Go's library. `math.Log10` differs between machines and is a parameter: an error of at most 2^-46 and `Log10(1) = 0` are assumed. The sign of zero is left out. |
| `codegen.go` (all) | `Model/Codegen.lean` | `go/ast` values are modelled by the constructors used. `go/printer` is a parameter. The context is a log of calls, replayed at the end, because it is never read in between. Recursion that need not end takes fuel; `none` means more is needed. Texts of error messages are constructors. |
| `marshal.go` | `Model/Commands.lean` | `asn1.Marshal` is a parameter. |
| `cmd/asn1go/main.go`, `cmd/ws2bin/main.go`, package `flag` as used | `Model/Commands.lean` | Files are inodes with contents and permissions; no dangling links, no other processes. |
| `internal/utils/dump.go` `ParseWiresharkHex` | `Model/Dump.lean` | – |
| `internal/utils/dump.go` `ParseWiresharkTime`, `time.Parse` on its layout, `time.Date` | `Model/WsTime.lean` | The chunks of the layout are given instead of found. A `time.Time` is its seconds and nanoseconds since 1970. |

Not modelled: `RunCommandForResult`, `RunCommand`, `CreateTestTemp` in
`internal/utils` (start processes, make directories; used by tests only), the text `go/printer` writes.

## The project's own tests

`tools/cites.py` checks that every definition of the model cites lines that exist.
`Tests/` holds the project's test suites, run on the model as a check that the model behaves like the code: `lexer_test.go` (`tools/lexertests.py` writes
`Tests/Lexer.lean`), `parser_test.go`, `codegen_test.go`, `dump_test.go`, `examples_test.go` and the messages of `rfc4120_test.go`. They all
pass. They are tests of the model and no claim rests on them, but for C103, which is about the module and the file in `Tests/KerberosData.lean`. `Tests/Texts.lean` has the texts of `examples/` (`tools/examples.py`),
`Tests/KerberosData.lean` and `Tests/X509Data.lean` the modules and generated files of RFC 4120 and RFC 5280 (`tools/emit.sh`).
`Proofs/Codegen/GoDecide.lean` has a program `goCheck` that decides the rules of Go of `Spec/GoCheck.lean`, with a proof that what it accepts
keeps them (`goCheck_sound`); it accepts both files.

## How the main results are obtained

* **Soundness of the parser** (C01–C04, C09). `Proofs/LR/Cert.lean` lists for each state the states that can stand below it. The
  kernel checks the list against the whole tables (`Check.lean`). From that follows an invariant of the driver (`Inv.lean`): the stack is a
  path of the automaton that carries derivation trees. A potential bounds the number of rounds.
* **Completeness** (C07, C08). `Machine.lean` is a machine without data that runs in step with the driver. `Items.lean` is a certificate of item sets
  checked by the kernel. `Spec/Preferred.lean` says which derivation is meant when there are several; the certificate proves
  that exactly these are found.
* **Values** (C04–C07). `Tree.eval` is the value of a derivation, bottom up. `Tree.exact` (`Spec/Exact.lean`) is the value when the pointers into the stack are followed after
  the parse: each node has a place, writing order is post-order, arrays double. `C07_module` says that `ParseString` gives `m` if and only if the
  text has a preferred derivation `t` and `m = t.exact`. Both functions use the actions of the model at each node: an action is a function
  from the children's fields to the fields of `$$`, in the specification as in asn1.y. The notation below does not use them.
* **Notation** (C63, C26). `Spec/Notation.lean` is an inductive description of the ASN.1 notation in terms of tokens and abstract syntax
  alone. `C63_accepted`: accepted texts are exactly those that stand for a module.
* **Printing** (C24, C64). `Spec/Print.lean` prints modules; what it prints parses back, and every accepted text has a
  module that can be printed.
* **Error messages** (C27, C65). Reachability certificates show for each state a continuation that is accepted after each listed token.
* **Lexer** (C10–C20). Declarative relations `SkipTo`, `Lexeme`, `Tokens` (`Spec/Lexical.lean`) are proved equal to the scanner.
* **Code generator** (C30–C51). Induction over the abstract syntax against declarative relations (`Spec/Codegen.lean`, `Spec/GoFile.lean`); tags are read by a
  model of `encoding/asn1`'s own tag reader (`Spec/StructTag.lean`).
* **Pairs of runs** (C85–C89). The generator reads other assignments through `unwrapToLeafType` only, so runs on modules with assignments in another order, or with
  further ones, are compared assignment by assignment (`Proofs/Codegen/Order.lean`). `Spec/Bare.lean` leaves out constraints and extension markers and writes out
  the tagging; every function of the generator gives the same for the result (`Proofs/Codegen/Bare.lean`).
  `Spec/Renamed.lean` relates modules, expressions, declarations and errors that differ in names only; each function maps related arguments to related results
  (`Proofs/Codegen/Renamed.lean`); in the same way runs with the two representations of integers are compared (`Proofs/Codegen/Integers.lean`).
* **Pairs of texts** (C90–C93). Two parser runs on tokens of the same codes shift and reduce in step (`Proofs/LR/Codes.lean`). Each of the 291 grammar actions commutes
  with replacing names (`Proofs/LR/NewRules.lean`, written by `tools/gen_new.py`, one theorem per action), hence so do values of parse trees, and by C07 the parser.
  That modules can be joined (C92) follows from the notation (C63), and with C86 and C88 (for the identity) what happens to the Go file (C93).
* **Versions of a type** (C94, `Props/Versions.lean`). The fields of a SEQUENCE come one by one from its components, so a type with components added at the end has a struct with
  fields added at the end; encoding/asn1 reads fields from left to right and does not mind what is left over in a struct, so octets of the newer type are read into the older one.
  The other direction needs added components that can be absent.
* **Streams** (C95, `Props/Stream.lean`). Each function that parses headers uses some octets and does not look at those that follow (`parseHeader_cut`), so reading at top level
  depends on the octets used only; with uniqueness (C82) this refuses truncated encodings and makes concatenated ones readable one by one.
* **Names and octets** (C96, `Proofs/Codegen/Wire.lean`, `Props/Wire.lean`). For two modules that differ in names, runs without errors give types in which declared names are
  replaced one by one (`decls_good`, which keeps track of which names are assigned; C88 alone does not tell `B` from `b`, both `B` in Go); reading a type and writing a value then
  go in step in both files (`decodes_new`, `makeField_new`).
* **Integers and octets** (C97, `Props/IntWire.lean`). From C89, the two files of a module declare the same names with types that differ in integers only; reading goes in step
  in both directions (`decodes_big`, `decodes_back`), and so does writing as long as no component is left out by one and not by the other (`makeField_big`).
* **Parts of files** (C98, `Props/Part.lean`). Reading looks at declarations only through `Declares`, so it goes on working with more of them (`decodes_more`); the other way
  needs that the declarations of the smaller file use no others (`Part.closed`, from `typeIdents`) and that no name is declared twice (C67). The same for the values
  of types (C99, `Props/PartValues.lean`: `typed_more`, `typed_less`), where values in interfaces have to be excepted.
* **Octets and values** (C100, `Props/Canonical.lean`). Same values have same octets since DER is unique (C84_der_unique); the other way, what is read from the octets is one
  Go value (C82_unique), which stands for one value (`means_unique` in `Proofs/Decoding/Determined.lean`), and being the same is symmetric and transitive.
* **Whatever is read** (C101, `Props/ReadValue.lean`). Induction over the reading of any octets shows that what is read is `Sound` (`reads_sound`: bits with zero padding, object
  identifiers with possible arcs, dates in the calendar, nil only where a component may be absent); induction over the typing of the Go value shows that sound values stand for values
  if strings and named bits in them are `Proper` (`stood`); the converse is by induction over the parts of the value (`means_proper`). That octets are DER exactly if they are written again
  as they were read (C102, `Props/DerCheck.lean`) follows with the uniqueness of DER (C84).
* **Kerberos** (C103, `Props/Kerberos.lean`). `namesCheck`, `encCheck` and `certainCheck` (`Props/NamesDecide.lean`, `Props/EncodeDecide.lean`) decide, with proofs of soundness, the conditions
  of C76 and C101 for modules and types; the kernel runs them on RFC 4120.
* **Generated files as Go programs** (C66–C71). Rules of Go on declarations, types and initial values in `Spec/GoCheck.lean`; cycles of Go types are
  mapped to cycles of ASN.1 types, names to the assignments they come from.
* **From text to file** (C72–C74). Every name and number of a parsed module comes from a token (`Proofs/Names.lean`), also those behind pointers, since every
  write to the parser's stack does (`Proofs/Names2.lean`); so conditions of C36–C39, C41, C71 on names and numbers hold for parsed modules,
  and those of C75–C77, C82–C84 and C86 (`Props/Whole.lean`, where also a text is followed to octets and back).
* **Encoding** (C75–C77). `Spec/Der.lean` describes BER and DER encodings (X.690) of abstract values of ASN.1 types, `Spec/GoValue.lean` the values of Go types,
  `Spec/Marshal.lean` what `encoding/asn1` writes for them, `Spec/Encodable.lean` which abstract value a Go value stands for. Induction over these (`Proofs/Encoding/`)
  shows generator and library together write right encodings, outside the cases for which counterexamples are given.
  `Props/Lost.lean` turns the counterexamples into laws for all modules: when tags, strings, times, lists and components are written rightly, and when never.
* **Decoding** (C82–C84). `Spec/Unmarshal.lean` describes what `encoding/asn1` reads into Go types, `Spec/Decodable.lean` for which types and values that can
  succeed. Induction over encodings (`Proofs/Decoding/`) shows that DER encodings, and so what was written before, are read as the same values;
  and that DER has one encoding for each value (`Proofs/Decoding/Canon2.lean`), so that what was read is written again unchanged.

`decide +kernel` is used over whole tables (all states, all rules, all tokens), which proves the statement for all inputs, and for concrete examples.

## Properties

P: proved as stated. F: false of the code; a theorem `…_false` gives the witness and the `…_partial` theorems say exactly or most nearly when it holds.

@@TABLE@@

## Defects and oddities found

Each is a theorem or an example in `Props/`, or is visible in the model where marked (m).

Parser values
1. DEFAULT values are kept as pointers into the parser stack and are overwritten: `DEFAULT 5`, `6`, `7` in one SEQUENCE come out as nil, 7, 7 (C05, C49); a type put after another one can remove its default (C93).
2. First components of object identifier values likewise: `{x 1}`, `{y 1}`, `{z 1}` come out with empty, z, z (C06).
3. `1.1` and `1.10` are read as 2, `1.05` as 1.5 (C21); for `1.10` float64 may also give 1.1 (C78_power). `1E309` is read as infinity, `0E309` as NaN, `1000000E-325` as 0 (C79).
4. `r REAL ::= 1` gives an integer value. Rules 45, 113, 191 are never used, 136 is dead, and 137, 165, 171 cannot be reached.
5. Contents of `[[ ]]` and of exceptions are dropped (Spec/Notation).

Accepted texts
6. A list of imports from several modules is refused unless all but the last have identifiers (C26).
7. Nothing can follow `...` in ENUMERATED; a second `...` in SEQUENCE, SET, CHOICE is refused unless nothing else is there (C63).
8. A word directly followed by a comment is an error: `BEGIN--x--END` (C15 excludes it).
9. A line comment starting `---` and a block comment starting `/*/` end at the wrong place (C16, C17). An unterminated comment ends the input without error (C18).
10. CR LF counts as two lines (C19).

Errors
11. After text that is no token the parser goes on; the first message may be replaced by a later one (C27_hidden).
12. The list of expected tokens may be incomplete: `A DEFINITIONS B` lists only `::=` (C27_not_all).
13. A read error inside a comment, or with less than two characters after `:` or `.`, makes the lexer loop for ever (C25; exactly then,
    when no illegal text comes before).

Code generator
14. Alias cycles recurse without end (C32).
15. `asn1.RawValue` and `big.NewInt` are used without import in some cases (C38).
16. `[UNIVERSAL n]` becomes a context tag; of nested tags the last wins; tags and string kinds are lost through aliases (C36).
17. SET names leak to, or are missing at, nested types (C42).
18. UTCTime does not resolve (C48); a type named GeneralizedTime declared in the module still becomes `time.Time` (C43).
19. Names that differ only in the case of the first letter collide (C40_case_needed). There is no check for duplicate definitions.
20. NULL, COMPONENTS OF and some other types give an error (C33).
21. Recursive types do not compile: `A ::= SEQUENCE { a A OPTIONAL }` becomes a struct holding itself, `A ::= SEQUENCE OF A` becomes `type A = []A` (C69).
22. A named number `a(b)` uses a variable `ValB` even if `b` is not assigned (C66). SET type `A` and type `ASET`, or value `x` and type `ValX`, are declared twice (C67).
23. `PLUS-INFINITY` is written as the literal `+Inf`, and so is `1E309`; with big.Int, `x REAL ::= 1` gets a `big.NewInt`; with `GeneralizedTime ::= INTEGER` in the module, `x GeneralizedTime ::= 5` becomes a `time.Time` (C70).
24. Encodings are wrong (C75): tags of assigned types and of elements are lost; an assigned SET is written as SEQUENCE; assigned strings and VisibleString as PrintableString;
   an assigned GeneralizedTime as UTCTime; SEQUENCE OF SET OF as SET; `DEFAULT TRUE` is taken for FALSE, named numbers after DEFAULT for 0; tags of CHOICE types as IMPLICIT, and lost if alternatives are tagged (`asn1.RawValue`).
   Different values can have the same octets as a consequence: `{ a 5 }` and `{ b 5 }` of `SEQUENCE { a T OPTIONAL, b U OPTIONAL }` with assigned tagged types T and U (C100).
25. DER is broken (C76): `*big.Int` components with their default value are written, and nil for such a component is an error (C97_zero); SET components keep their textual order.
26. FALSE, 0, the empty string cannot be written for OPTIONAL components (C77); an OPTIONAL CHOICE of several alternatives (`interface{}`) cannot be left out, since nil
   is an error; REAL cannot be written at all.
27. Values are lost (C82, C83): an IA5String is taken for an absent PrintableString before it; after an absent component with an explicit tag an empty last
   element is an error; an OPTIONAL component held in an `asn1.RawValue` takes any element that follows; enumerations beyond 32 bits can be written but not read;
   in a CHOICE held in an `interface{}` a tagged alternative, or a SEQUENCE, is read as nil without an error, and a SEQUENCE OF such a CHOICE, or of REAL, is never read, nor is REAL.
   Strings of other kinds are read into PrintableString, and characters that it has not with them; they are then written as UTF8String. BIT STRINGs with named bits are read with zeros at the end (C101).

Commands
28. The output file is truncated before the input is parsed; if input and output are the same file it is emptied (C56).
29. The error message is used as a format string in `main` (m).
30. `ParseWiresharkHex` accepts signed numbers and panics on bad ones (C54).

## Checking the theorems against wrong programs

`tools/mutate.py` applies one edit of `seeded/mutants.json` at a time to a copy of the project outside `/verif`, builds the edited definition and what
depends on it, and records which theorems no longer compile. `seeded/LOG.jsonl` has one line per attempt, with theorems tightened as a result.

## Trusted base

* The Lean 4.33.0 kernel. Every theorem named in the manifest uses at most the axioms `propext`, `Classical.choice`, `Quot.sound`; no other axiom, no `sorry`, no
  `native_decide`, no `bv_decide`. @@AXIOMS@@
* That `Verif/Model` says what the Go code does. Tables and token codes were copied by program; `Model/Listing.lean` has them line by line as in y.go, and the
  kernel checks that lookup gives the same numbers. The rest was transcribed by hand with citations.
* Go semantics as used: 64-bit `int`, copying of structs on assignment, `append` and `copy`, `strconv`, `strings`, `bufio.Reader` as a source of runes, `flag`.
* For C75–C77, C82–C84, C94–C103, that `Spec/Marshal.lean` and `Spec/Unmarshal.lean` say what Go's `encoding/asn1` does; it is not part of `/repo` and was written from knowledge of its source. Go values are as
  package `reflect` shows them; strings are valid UTF-8, times have whole seconds.
* That the specifications say what is meant; they are short and kept apart from the model.
