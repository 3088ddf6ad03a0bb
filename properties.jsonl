{"id": "C01", "title": "Parsing always returns", "statement": "ParseString returns for every input string: it never loops forever and never indexes a parser table or the parser stack out of range.", "quantifier": "every input string", "why_tests_cant": "Non-termination and index panics are about all inputs and all parser states; tests sample a few dozen modules.", "anchors": ["parser.go:ParseString", "y.go:Parse", "lexer.go:Lex"]}
{"id": "C02", "title": "Exactly one of module and error", "statement": "ParseString returns either a non-nil module and a nil error, or a nil module and a non-nil error; never both nil and never both set.", "quantifier": "every input string", "why_tests_cant": "A (nil, nil) return would make the command dereference nil; only a proof over all runs excludes it.", "anchors": ["parser.go:ParseStream", "y.go:Parse"]}
{"id": "C03", "title": "Accepted text conforms to the grammar", "statement": "If ParseString succeeds, then the complete token sequence of the input (nothing skipped, nothing trailing) is derivable from ModuleDefinition in the grammar of asn1.y.", "quantifier": "every input string", "why_tests_cant": "The parser is a compressed LALR table; agreement with the grammar for all inputs needs an invariant over the automaton.", "anchors": ["asn1.y", "y.go:yyAct,yyPact,yyPgo,yyR1,yyR2,yyChk,yyDef,yyExca"]}
{"id": "C04", "title": "The returned module is the value of its derivation", "statement": "If ParseString succeeds, the returned module is what the actions written in asn1.y compute from the derivation tree of the input, except for the contents of DEFAULT pointers and of the Reference pointer of the first component of an OBJECT IDENTIFIER value.", "quantifier": "every input string", "why_tests_cant": "The semantic stack is an untyped struct whose fields go stale; only an invariant shows that no action ever reads a stale field.", "anchors": ["y.go:Parse", "asn1.y"]}
{"id": "C05", "title": "DEFAULT values survive parsing", "statement": "If a component is written `DEFAULT v`, then after ParseString returns, the component's Default points at v.", "quantifier": "every input string containing a DEFAULT component", "why_tests_cant": "The outcome depends on what is parsed later and on the depth of the parser stack; the existing tests contain no DEFAULT check.", "anchors": ["asn1.y:ComponentType", "y.go:case 152", "ast.go:NamedComponentType"]}
{"id": "C06", "title": "First component of an object identifier value survives parsing", "statement": "If an object identifier value starts with a reference and has further components, then after ParseString returns its first component's Reference points at that reference.", "quantifier": "every input string containing such a value", "why_tests_cant": "As for C05: depends on later input and stack depth; the single existing test ends right after the value.", "anchors": ["asn1.y:ObjectIdentifierValue", "y.go:case 188"]}
{"id": "C07", "title": "Every disambiguated derivation is parsed", "statement": "Every token sequence with a derivation in the grammar that respects a fixed, explicit list of disambiguation rules is accepted, and the resulting module is the value of that derivation.", "quantifier": "every token sequence and derivation tree", "why_tests_cant": "Completeness of an LALR table for an ambiguous grammar quantifies over all derivations.", "anchors": ["asn1.y", "y.go"]}
{"id": "C08", "title": "Disambiguated derivations are unique", "statement": "A token sequence has at most one derivation that respects the disambiguation rules.", "quantifier": "every token sequence", "why_tests_cant": "Ambiguity is a statement about all pairs of derivations.", "anchors": ["asn1.y"]}
{"id": "C09", "title": "Lexical errors are never lost", "statement": "If any part of the text consumed during parsing is rejected by the lexer, ParseString returns an error, even if the parser itself goes on and accepts.", "quantifier": "every input string", "why_tests_cant": "The parser re-reads after a lexical error; that no path forgets the error needs an invariant over all runs.", "anchors": ["lexer.go:Error,Lex", "y.go:yylex1", "parser.go:ParseStream"]}
{"id": "C10", "title": "Every lexer call makes progress", "statement": "Each call of Lex consumes at least one character or reports end of input, and it never consumes text beyond the token it reports; hence the number of tokens is at most the number of characters.", "quantifier": "every input string and position", "why_tests_cant": "Progress is an all-inputs claim.", "anchors": ["lexer.go:Lex"]}
{"id": "C11", "title": "Tokenisation is faithful to the text", "statement": "The text consumed by one Lex call is blank space and comments followed by exactly the spelling of the reported token, and the token is the longest word, number or symbol that starts there.", "quantifier": "every input string and position", "why_tests_cant": "Lossless, longest-match tokenisation quantifies over all texts.", "anchors": ["lexer.go:Lex,consumeWord,consumeNumber,consumeSingleSymbol"]}
{"id": "C12", "title": "Identifiers are well formed", "statement": "Every name returned by the lexer starts with a letter, contains only letters, digits and hyphens, does not end in a hyphen and has no two hyphens in a row; it is a type/module reference exactly if its first letter is upper case.", "quantifier": "every input string", "why_tests_cant": "All-inputs claim.", "anchors": ["lexer.go:consumeWord"]}
{"id": "C13", "title": "Reserved words are exactly the table", "statement": "A word is reported as a keyword exactly if it is one of the reserved words, and then with that keyword's token; a reserved word is never reported as a reference.", "quantifier": "every word", "why_tests_cant": "All-words claim.", "anchors": ["lexer.go:RESERVED_WORDS,Lex"]}
{"id": "C14", "title": "Number tokens have their decimal value", "statement": "A run of decimal digits is reported as a number with exactly its decimal value if that fits a 64-bit int, and as an error otherwise; no number token is negative or wrapped.", "quantifier": "every digit string", "why_tests_cant": "Overflow behaviour needs all lengths.", "anchors": ["lexer.go:consumeNumber"]}
{"id": "C15", "title": "Layout does not matter", "statement": "Two inputs whose texts differ only in the amount and kind of white space between tokens are parsed to the same module (an exponent marker directly after a number excepted).", "quantifier": "every token sequence and every choice of white space", "why_tests_cant": "Quantifies over all layouts.", "anchors": ["lexer.go:Lex", "parser.go:ParseString"]}
{"id": "C16", "title": "A line comment ends at the next double hyphen or line end", "statement": "After `--` the lexer resumes exactly after the next `--` or line end, whichever is first.", "quantifier": "every input string", "why_tests_cant": "All-inputs claim; the corner case is a comment that begins with a hyphen.", "anchors": ["lexer.go:skipLineComment"]}
{"id": "C17", "title": "Block comments nest", "statement": "After `/*` the lexer resumes exactly after the matching `*/`, nested comments being balanced.", "quantifier": "every input string", "why_tests_cant": "All nesting depths.", "anchors": ["lexer.go:skipBlockComment"]}
{"id": "C18", "title": "Unterminated comments act as end of input", "statement": "If a comment is not terminated, the lexer reports end of input: it neither fails nor hangs.", "quantifier": "every input string", "why_tests_cant": "All-inputs claim.", "anchors": ["lexer.go:skipLineComment,skipBlockComment"]}
{"id": "C19", "title": "Reported line numbers", "statement": "The line number in every error is one plus the number of line-end characters consumed so far.", "quantifier": "every input string and every history of Lex calls", "why_tests_cant": "Line counting is adjusted on unread; an invariant over all histories is needed.", "anchors": ["lexer.go:readRune,unreadRune,Error"]}
{"id": "C20", "title": "Printed tokens lex back", "statement": "Printing any sequence of tokens separated by single spaces and lexing the text yields the same sequence.", "quantifier": "every token sequence", "why_tests_cant": "All sequences.", "anchors": ["lexer.go:Lex"]}
{"id": "C21", "title": "Real literals have their decimal value", "statement": "A REAL literal i.f or i.fEe denotes the number with integer part i, fractional digits f and decimal exponent e.", "quantifier": "every literal", "why_tests_cant": "The value depends on all digit strings; the tests try a handful.", "anchors": ["parser.go:parseRealNumber", "asn1.y:realnumber"]}
{"id": "C22", "title": "Module header is reported as written", "statement": "In the module returned by ParseString the name, tag default and extensibility flag are the ones written in the header; with no tag default written it is EXPLICIT.", "quantifier": "every input string", "why_tests_cant": "All inputs.", "anchors": ["asn1.y:ModuleDefinition,TagDefault,ExtensionDefault"]}
{"id": "C23", "title": "Assignments are reported completely and in order", "statement": "The assignment list of the returned module has one entry per assignment in the text, in textual order, with the assigned name.", "quantifier": "every input string", "why_tests_cant": "All list lengths.", "anchors": ["asn1.y:AssignmentList"]}
{"id": "C24", "title": "Printing and parsing a module round-trips", "statement": "For every module within the printable fragment, parsing its printed form yields the module again.", "quantifier": "every module of the fragment", "why_tests_cant": "Unbounded nesting and list lengths.", "anchors": ["parser.go:ParseString", "ast.go"]}
{"id": "C25", "title": "Read errors are reported", "statement": "If the reader given to ParseStream fails with an error, ParseStream returns an error.", "quantifier": "every text read before the failure", "why_tests_cant": "Depends on where the failure happens.", "anchors": ["parser.go:ParseStream", "lexer.go"]}
{"id": "C26", "title": "Imports from several modules are accepted", "statement": "A module importing symbols from several modules is accepted whether or not the imported modules carry object identifiers.", "quantifier": "every import list", "why_tests_cant": "All lists; the existing test imports from one module only.", "anchors": ["asn1.y:SymbolsFromModuleList,AssignedIdentifier"]}
{"id": "C27", "title": "Suggested tokens are accepted", "statement": "Every token a syntax error message lists as expected is one the parser would have accepted at that point.", "quantifier": "every input string that fails to parse", "why_tests_cant": "All parser states and tokens.", "anchors": ["y.go:yyErrorMessage"]}
{"id": "C28", "title": "Parsing depends only on the tokens", "statement": "ParseString's module is a function of the token sequence: two inputs with equal token sequences give the same outcome up to error line numbers.", "quantifier": "every pair of inputs", "why_tests_cant": "Relational all-inputs claim.", "anchors": ["y.go:Parse", "lexer.go:Lex"]}
{"id": "C30", "title": "AUTOMATIC tagging is rejected", "statement": "Generate on a module with AUTOMATIC TAGS returns an error and writes nothing.", "quantifier": "every module and writer", "why_tests_cant": "All modules.", "anchors": ["codegen.go:Generate"]}
{"id": "C31", "title": "Generation is all or nothing", "statement": "If Generate reports an error found while translating the module, nothing has been written to the writer.", "quantifier": "every module", "why_tests_cant": "All error combinations.", "anchors": ["codegen.go:Generate"]}
{"id": "C32", "title": "Generation terminates", "statement": "Generate returns for every module.", "quantifier": "every module", "why_tests_cant": "Non-termination by alias cycles is invisible to finite tests.", "anchors": ["codegen.go:unwrapToLeafType,resolveTypeReference"]}
{"id": "C33", "title": "Generation succeeds exactly on supported modules", "statement": "Generate succeeds exactly if the module is not AUTOMATIC tagged and no type used for output contains an unsupported construct (NULL, named element type, COMPONENTS OF, unresolved reference, non-literal tag number, unknown integer mode).", "quantifier": "every module", "why_tests_cant": "Completeness of error detection at all depths.", "anchors": ["codegen.go:generateTypeBody,structFromComponents,asn1TagFromType"]}
{"id": "C34", "title": "One declaration per assignment, in order", "statement": "The generated file declares the assigned types and literal values in module order: one type declaration per type assignment (plus its named numbers) and one variable per literal value assignment.", "quantifier": "every module", "why_tests_cant": "All lists.", "anchors": ["codegen.go:generateDeclarations"]}
{"id": "C35", "title": "Struct fields mirror components", "statement": "The struct generated for a SEQUENCE or SET has one field per component, in order, root components first, named by the component.", "quantifier": "every SEQUENCE or SET type", "why_tests_cant": "All lists and nesting.", "anchors": ["codegen.go:structFromComponents,generateStructField"]}
{"id": "C36", "title": "Field tags mean what the ASN.1 says", "statement": "The asn1 struct tag of a generated field, read by encoding/asn1's rules, yields the class, tag number, explicitness, optionality, default and string/time/set kind written in the module.", "quantifier": "every component", "why_tests_cant": "All combinations of wrappers.", "anchors": ["codegen.go:asn1TagFromType"]}
{"id": "C37", "title": "Optional marking", "statement": "A generated field is marked optional exactly if its component is OPTIONAL or has a DEFAULT, and exactly once; it carries default:n exactly if the default is the number n.", "quantifier": "every component", "why_tests_cant": "All combinations.", "anchors": ["codegen.go:asn1TagFromType"]}
{"id": "C38", "title": "All used packages are imported", "statement": "Every package qualifier used in the generated file is imported by it.", "quantifier": "every module", "why_tests_cant": "All modules; the failing case is a CHOICE with tagged alternatives.", "anchors": ["codegen.go:requireModule,generateChoiceType"]}
{"id": "C39", "title": "Imports are used and unique", "statement": "The generated file imports no package twice and imports only packages out of encoding/asn1, math/big and time that the translation asked for.", "quantifier": "every module", "why_tests_cant": "All modules.", "anchors": ["codegen.go:requireModule,Generate"]}
{"id": "C40", "title": "Different names stay different", "statement": "Distinct type references are given distinct Go names, and so are distinct component identifiers.", "quantifier": "all pairs of ASCII names accepted by the lexer", "why_tests_cant": "All pairs.", "anchors": ["codegen.go:goifyName"]}
{"id": "C41", "title": "Generated names are exported identifiers", "statement": "The Go name of every ASCII ASN.1 name is a valid exported Go identifier.", "quantifier": "every ASCII name accepted by the lexer", "why_tests_cant": "All names.", "anchors": ["codegen.go:goifyName"]}
{"id": "C42", "title": "SET types are marked for encoding/asn1", "statement": "A type assignment is generated with the SET naming convention exactly if its type, after removing tags and constraints, is a SET or SET OF.", "quantifier": "every type", "why_tests_cant": "All nestings.", "anchors": ["codegen.go:generateTypeDecl,generateTypeBody"]}
{"id": "C43", "title": "Aliases of time and bit string types", "statement": "A reference that leads through any chain of aliases, tags and constraints to GeneralizedTime or BIT STRING is generated as time.Time or asn1.BitString.", "quantifier": "every module and alias chain", "why_tests_cant": "All chain lengths.", "anchors": ["codegen.go:resolveTypeReference,generateSpecialCase,unwrapToLeafType"]}
{"id": "C44", "title": "Named numbers become variables", "statement": "For every assigned INTEGER type with named numbers one variable per named number is declared, in order, with the number's value.", "quantifier": "every such type", "why_tests_cant": "All lists.", "anchors": ["codegen.go:generateAssociatedValuesIfNeeded"]}
{"id": "C45", "title": "CHOICE mapping", "statement": "A CHOICE becomes asn1.RawValue if any alternative is (an alias of) a tagged type, otherwise the type of its single alternative, otherwise an empty interface.", "quantifier": "every CHOICE type and module", "why_tests_cant": "All alternatives and alias chains.", "anchors": ["codegen.go:generateChoiceType,hasTaggedAlternatives,taggedChoiceTypeAlternative"]}
{"id": "C46", "title": "Package name", "statement": "The package clause is the requested package name, or the Go form of the module name if none is requested.", "quantifier": "every module and parameters", "why_tests_cant": "All inputs.", "anchors": ["codegen.go:Generate"]}
{"id": "C47", "title": "Integer representation", "statement": "INTEGER types are generated as int64 or *big.Int according to the parameter, int64 by default, and any other parameter value makes every module that uses INTEGER fail.", "quantifier": "every module and parameter value", "why_tests_cant": "All modules.", "anchors": ["codegen.go:NewCodeGenerator,generateTypeBody"]}
{"id": "C48", "title": "Useful types resolve", "statement": "GeneralizedTime and UTCTime can be used in every module.", "quantifier": "every module", "why_tests_cant": "All modules; UTCTime is the failing case.", "anchors": ["codegen.go:resolveTypeReference", "ast.go:USEFUL_TYPES"]}
{"id": "C49", "title": "Default values reach the generated code", "statement": "For a component `DEFAULT n` in a parsed module, the field generated from it carries default:n.", "quantifier": "every input text", "why_tests_cant": "End-to-end over parser history.", "anchors": ["asn1.y:ComponentType", "codegen.go:asn1TagFromType"]}
{"id": "C50", "title": "Generation is a function of module and parameters", "statement": "Generating twice from the same generator and module writes the same text and returns the same error.", "quantifier": "every module, every number of repetitions", "why_tests_cant": "All histories.", "anchors": ["codegen.go:Generate"]}
{"id": "C51", "title": "Value assignments", "statement": "A value assignment with a literal number, boolean or real value yields one variable with that value and the type's translation, any other value yields nothing.", "quantifier": "every value assignment", "why_tests_cant": "All values.", "anchors": ["codegen.go:tryGenerateValueAssignment"]}
{"id": "C52", "title": "Lookup returns the first match", "statement": "AssignmentList.Get returns the first assignment with the name; GetType and GetValue return it exactly if it is of that kind.", "quantifier": "every assignment list and name", "why_tests_cant": "All lists.", "anchors": ["ast.go:Get,GetType,GetValue"]}
{"id": "C53", "title": "Hex dumps round-trip", "statement": "ParseWiresharkHex applied to the usual dump text of any bytes returns the bytes.", "quantifier": "every byte string and line width", "why_tests_cant": "All byte strings.", "anchors": ["internal/utils/dump.go:ParseWiresharkHex"]}
{"id": "C54", "title": "Hex dump failure is exactly malformed bytes", "statement": "ParseWiresharkHex panics exactly if some non-empty field after the first of its line is not a signed hexadecimal number between -100 and ff.", "quantifier": "every text", "why_tests_cant": "All texts.", "anchors": ["internal/utils/dump.go:ParseWiresharkHex"]}
{"id": "C55", "title": "Hex dump lines are independent", "statement": "ParseWiresharkHex of two texts joined by a newline is the concatenation of the results; the first field of each line never matters.", "quantifier": "every pair of texts", "why_tests_cant": "All texts.", "anchors": ["internal/utils/dump.go:ParseWiresharkHex"]}
{"id": "C56", "title": "A failed run leaves the output file alone", "statement": "If the asn1go command fails, an existing output file keeps its contents.", "quantifier": "every file system, input and argument list", "why_tests_cant": "The order of truncation and parsing matters at every failure point.", "anchors": ["cmd/asn1go/main.go:main,openChannels"]}
{"id": "C57", "title": "A successful run writes exactly the generated file", "statement": "If the command exits successfully, the output file (or standard output) holds exactly the generated text for the input, and no other file changed.", "quantifier": "every file system and argument list", "why_tests_cant": "All states.", "anchors": ["cmd/asn1go/main.go:main"]}
{"id": "C58", "title": "The command exits nonzero exactly on failure", "statement": "The command exits with status 1 exactly if there are more than two arguments, a file cannot be opened, parsing fails or generation fails.", "quantifier": "every run", "why_tests_cant": "All states.", "anchors": ["cmd/asn1go/main.go:main,parseFlags,openChannels"]}
{"id": "C59", "title": "Marshal errors do not touch the file", "statement": "MarshalToFile writes the file only if marshalling succeeded.", "quantifier": "every value and file state", "why_tests_cant": "All failure points.", "anchors": ["marshal.go:MarshalToFile"]}
{"id": "C60", "title": "Input bytes are read as UTF-8", "statement": "The lexer sees each encoded character of the input as itself and U+FFFD for each byte at which no encoded character starts; so parsing the UTF-8 encoding of a text is parsing the text.", "quantifier": "every byte string", "why_tests_cant": "Byte strings are infinitely many and include all cut and overlong sequences.", "anchors": ["lexer.go:readRune,peekRune,peekRunes", "parser.go:ParseStream"]}
{"id": "C61", "title": "ParseFile is ParseStream of the contents", "statement": "ParseFile returns the error of os.Open exactly if the file cannot be opened for reading, and otherwise the result of ParseStream on its contents.", "quantifier": "every file system and name", "why_tests_cant": "Tests use one file.", "anchors": ["parser.go:ParseFile"]}
{"id": "C62", "title": "ws2bin writes the bytes of the dump", "statement": "ws2bin exits with status 1 exactly if standard input cannot be read; otherwise it writes exactly the bytes that the fields stand for and exits with 0, or panics if a field is malformed.", "quantifier": "every standard input", "why_tests_cant": "The command has no tests, and inputs are infinitely many.", "anchors": ["cmd/ws2bin/main.go:main"]}
{"id": "C63", "title": "Accepted texts are exactly the notation for modules", "statement": "ParseString accepts a text exactly if its tokens are notation for some module, in the sense of a direct description of the notation in terms of the AST. The notation determines that module, and the module returned equals it up to what DEFAULT pointers and the first reference of OBJECT IDENTIFIER values point to.", "quantifier": "every input string", "why_tests_cant": "Both directions quantify over all texts and all modules; the actions of 291 grammar rules are involved.", "anchors": ["asn1.y", "y.go:Parse", "ast.go"]}
{"id": "C64", "title": "Parsing, printing and parsing again gives the same module", "statement": "For every accepted text without DEFAULT and without object identifier values starting with a reference followed by further components, the parsed module can be printed and the printed text parses to the same module; the modules that can be printed are exactly those some text is notation for.", "quantifier": "all texts", "why_tests_cant": "A formatter test can only try some texts; the statement covers every nesting of types, constraints, tags and imports.", "anchors": ["parser.go:ParseString", "ast.go", "asn1.y"]}
{"id": "C65", "title": "Errors are found at the first token they can be found at", "statement": "A text that fails to parse starts with tokens after which some continuation parses; what comes next is either no token, or it is the token (or end of input) named in the message and no text that parses has it at that place.", "quantifier": "every input string that fails to parse", "why_tests_cant": "Both halves quantify over all continuations of all texts; the parser's tables use default reductions before an error is noticed.", "anchors": ["y.go:yyErrorMessage", "y.go:Parse", "lexer.go:Lex"]}
{"id": "C66", "title": "Names used in generated files are declared", "statement": "Every identifier used in a generated file is a predeclared type, declared in the same file, or qualified by a package name.", "quantifier": "all modules, parameters and Unicode tables", "why_tests_cant": "Names are made in one place and used in others (types, SET names, variables of named numbers); a test sees only the references in its modules.", "anchors": ["codegen.go:generateTypeDecl", "codegen.go:generateAssociatedValuesIfNeeded", "codegen.go:valueRefToIdent", "codegen.go:generateTypeBody"]}
{"id": "C67", "title": "Generated names are declared once", "statement": "If the types, the values and the named numbers of each type of a module have different ASCII names, no Go name is declared twice in its file.", "quantifier": "all modules, parameters and Unicode tables", "why_tests_cant": "Three ways of making names (plain, ...SET, ...Val...) must not meet for any choice of names.", "anchors": ["codegen.go:goifyName", "codegen.go:generateTypeDecl", "codegen.go:tryGenerateValueAssignment", "codegen.go:generateAssociatedValuesIfNeeded"]}
{"id": "C68", "title": "Struct fields have different names", "statement": "If the components of every SEQUENCE and SET have different ASCII names, the fields of every struct in the file, at any depth, have different names.", "quantifier": "all modules, parameters and Unicode tables", "why_tests_cant": "Any names and any depth of nesting.", "anchors": ["codegen.go:structFromComponents", "codegen.go:generateStructField", "codegen.go:goifyName"]}
{"id": "C69", "title": "Generated types do not contain themselves", "statement": "No type of a generated file contains itself as field of a field, and no alias refers to itself through aliases, both of which Go rejects.", "quantifier": "all modules, parameters and Unicode tables", "why_tests_cant": "Cycles can have any length and go through any nesting of constructed types.", "anchors": ["codegen.go:generateTypeDecl", "codegen.go:generateTypeBody", "codegen.go:structFromComponents"]}
{"id": "C70", "title": "Initial values have the types of their variables", "statement": "If all literal values of a module are of their types (integers fit 64 bits), the initial value of every variable in its file can be assigned to the variable's type.", "quantifier": "all modules, parameters and Unicode tables", "why_tests_cant": "Types of values are found through chains of references of any length; numbers are any 64 bit integers.", "anchors": ["codegen.go:tryGenerateValueAssignment", "codegen.go:numberToExpr", "codegen.go:generateAssociatedValuesIfNeeded"]}
{"id": "C71", "title": "Generated files obey the rules of Go", "statement": "The file for a module that obeys the rules of ASN.1 on names and values has all names declared once, all packages imported once and used, distinct fields, no self-containing types and well-typed initial values.", "quantifier": "all modules, parameters and Unicode tables", "why_tests_cant": "Combination of C38, C39, C66 to C70 over all modules.", "anchors": ["codegen.go:Generate"]}
{"id": "C72", "title": "Names and numbers in parsed modules", "statement": "Every name in a parsed module is an ASN.1 word starting with a capital where the notation wants one and with another letter elsewhere; every number fits 64 bits. No assigned type has a reserved word for its name.", "quantifier": "all texts and all Unicode tables", "why_tests_cant": "Names and numbers stand at any depth of any of the infinitely many texts.", "anchors": ["lexer.go:consumeWord", "lexer.go:consumeNumber", "asn1.y"]}
{"id": "C73", "title": "ASCII texts do not depend on Unicode tables", "statement": "An ASCII text is accepted or not, and gives the same module, whatever the Unicode version of the Go toolchain says about other characters.", "quantifier": "all ASCII texts, all pairs of Unicode tables", "why_tests_cant": "Tables of future Unicode versions do not exist yet.", "anchors": ["lexer.go:isWhitespace", "lexer.go:isIdentifierChar", "lexer.go:Lex"]}
{"id": "C74", "title": "From ASCII texts to Go files", "statement": "In the file for an ASCII text all declared names, field names and the default package name are exported Go identifiers; and the conditions on the shape of names that other properties ask of modules hold for every module parsed.", "quantifier": "all ASCII texts, parameters and casings", "why_tests_cant": "Combines parser and generator over all texts.", "anchors": ["codegen.go:Generate", "codegen.go:goifyName", "parser.go:ParseString"]}
{"id": "C75", "title": "Values of generated types are encoded as BER demands", "statement": "What encoding/asn1 writes for a value of a generated Go type is a BER encoding (X.690) of the abstract value it stands for, of the ASN.1 type in the module.", "quantifier": "all modules, all generated types, all Go values of them", "why_tests_cant": "Modules, types and values are unbounded; tests compare a few packets.", "anchors": ["codegen.go:generateDeclarations", "codegen.go:asn1TagFromType", "codegen.go:generateTypeBody"]}
{"id": "C76", "title": "Values of generated types are encoded as DER demands", "statement": "What encoding/asn1 writes for a value of a generated Go type is the DER encoding (X.690) of the abstract value it stands for.", "quantifier": "all modules, all generated types, all Go values of them", "why_tests_cant": "Modules, types and values are unbounded; order of SET components and defaults are rarely tested.", "anchors": ["codegen.go:generateDeclarations", "codegen.go:asn1TagFromType"]}
{"id": "C77", "title": "Every abstract value can be written with the generated types", "statement": "Every value of an ASN.1 type that has an encoding has a Go value of the generated type that encoding/asn1 writes as an encoding of it.", "quantifier": "all modules, all generated types, all abstract values with an encoding", "why_tests_cant": "A claim that Go values exist for infinitely many abstract values; the zero value of OPTIONAL components is the gap.", "anchors": ["codegen.go:generateTypeBody", "codegen.go:asn1TagFromType"]}
{"id": "C78", "title": "REAL literals in float64", "statement": "The float64 that parseRealNumber computes differs from the value that the same steps give in exact arithmetic by at most 2^-49 of it, if the digits after the dot are 0, 1, or a number below 10^13 that is no power of ten, the exponent is from -307 to 308 and the value is 0 or from 2^-1021 to 2^1023.", "quantifier": "all literals with these numbers, all implementations of math.Log10 with error at most 2^-46", "why_tests_cant": "The rounding errors of six operations add up differently for each of some 10^30 literals; a test sees single ones.", "anchors": ["parser.go:parseRealNumber"]}
{"id": "C79", "title": "REAL literals are numbers", "statement": "Every REAL literal whose numbers fit 64 bits is read as a finite float64.", "quantifier": "all whole parts, fractions and exponents that fit 64 bits", "why_tests_cant": "Overflow depends on the exponent and all digits; the tests use exponents of one digit.", "anchors": ["parser.go:parseRealNumber", "codegen.go:tryGenerateValueAssignment"]}
{"id": "C80", "title": "Times of packet listings", "statement": "ParseWiresharkTime reads a date of the Gregorian calendar up to year 9999 with a time of day, written like 2006-01-02 15:04:05 (any number of spaces, hours of one or two digits, perhaps a fraction of a second), as the seconds counted from 1970-01-01 00:00:00 and the nanoseconds; on every other text it panics.", "quantifier": "every text", "why_tests_cant": "There are 3652425 days in the range, leap years follow rules of period 400, and the function has no test.", "anchors": ["internal/utils/dump.go:ParseWiresharkTime"]}
{"id": "C81", "title": "Times of packet listings keep their order", "statement": "Of two texts that ParseWiresharkTime accepts, the one with the earlier date and time of day gives the earlier time, and two of them give the same time exactly if they stand for the same date, time of day and nanosecond.", "quantifier": "every pair of accepted texts", "why_tests_cant": "All pairs of times.", "anchors": ["internal/utils/dump.go:ParseWiresharkTime"]}
{"id": "C82", "title": "DER encodings are read into generated types", "statement": "From the DER encoding of a value of an assigned ASN.1 type, whatever follows it, encoding/asn1 reads into the generated Go type a value that stands for the same abstract value (up to the order of SET OF), and leaves what follows; it reads at most one value.", "quantifier": "all modules, all generated types, all abstract values, all encodings and octets after them", "why_tests_cant": "Modules, types, values and octets are unbounded; which component an element is taken for depends on combinations of OPTIONAL, DEFAULT and tags.", "anchors": ["codegen.go:generateTypeBody", "codegen.go:asn1TagFromType"]}
{"id": "C83", "title": "Values of generated types are read as they were written", "statement": "From what encoding/asn1 writes for a Go value of a generated type it reads a Go value of the type that stands for the same abstract value.", "quantifier": "all modules, all generated types, all Go values of them", "why_tests_cant": "A round trip over unboundedly many types and values, through two algorithms that treat tags and defaults differently.", "anchors": ["codegen.go:generateTypeBody", "codegen.go:asn1TagFromType", "codegen.go:generateDeclarations"]}
{"id": "C84", "title": "DER read into generated types is written again unchanged", "statement": "If encoding/asn1 reads a Go value of a generated type from the DER encoding of an abstract value, then what it writes for that Go value is the same sequence of octets.", "quantifier": "all modules, all generated types, all abstract values, all DER encodings and octets after them", "why_tests_cant": "Octet-for-octet equality over unboundedly many types and values rests on the uniqueness of DER encodings, which is a statement about all pairs of encodings.", "anchors": ["codegen.go:generateTypeBody", "codegen.go:asn1TagFromType"]}
{"id": "C85", "title": "The order of assignments does not matter", "statement": "If two modules with distinct assigned names differ in the order of their assignments only, Generate makes the same declarations for both, up to order, or reports the same errors, or does not return for either.", "quantifier": "all modules, all orders of their assignments, all generator parameters", "why_tests_cant": "The number of orders grows as the factorial of the number of assignments, and the claim must hold for every module and every one of them.", "anchors": ["codegen.go:Generate", "codegen.go:generateDeclarations", "codegen.go:resolveTypeReference", "codegen.go:unwrapToLeafType"]}
{"id": "C86", "title": "Assignments that are added do not change the declarations of the others", "statement": "If assignments with new names are added anywhere in a module and files are made for both modules, all declarations of the first file are in the second one, those of assignments in the same order.", "quantifier": "all modules, all assignments added to them at any place, all generator parameters", "why_tests_cant": "It relates two runs over unboundedly many pairs of modules; references are followed through chains of any length, each of which could end at an assignment that was added.", "anchors": ["codegen.go:Generate", "codegen.go:generateDeclarations", "codegen.go:unwrapToLeafType", "codegen.go:generateSpecialCase"]}
{"id": "C87", "title": "Constraints, extension markers and default tagging are notation only", "statement": "If all constraints and extension markers are left out of a module and the tagging of each tag is written out (IMPLICIT or EXPLICIT as the module's default says), Generate gives the same file or the same errors, whatever default tagging other than AUTOMATIC is then put in the module.", "quantifier": "all modules, all constraints at any depth, all generator parameters", "why_tests_cant": "Constraints can stand around any type at any depth, on chains of references of any length; a place where one is not looked through shows only for the types that need it.", "anchors": ["codegen.go:generateTypeBody", "codegen.go:asn1TagFromType", "codegen.go:removeWrapperTypes", "codegen.go:taggedChoiceTypeAlternative", "codegen.go:structFromComponents"]}
{"id": "C88", "title": "Names are names only", "statement": "If types, values, components and named numbers of a module are given other names, consistently, so that different types and values keep different names and GeneralizedTime and UTCTime keep theirs, Generate makes the same declarations with the Go names of the new names in place of those of the old, and the same imports and struct tags; or it reports the same errors; or it does not return in either case. Names of alternatives, bits and enumerations, constraints and the module's own name have no effect on declarations at all.", "quantifier": "all modules, all renamings, all generator parameters", "why_tests_cant": "A name that is treated specially by mistake (a prefix or suffix test, a comparison in the wrong letter case, a clash with a predeclared name) shows only for the modules that use it; tests use a handful of names.", "anchors": ["codegen.go:generateTypeBody", "codegen.go:goifyName", "codegen.go:unwrapToLeafType", "codegen.go:asn1TagFromType", "codegen.go:generateSpecialCase", "ast.go:GetType"]}
{"id": "C89", "title": "The integer representation concerns integers only", "statement": "With integers represented as int64 and as big.Int, Generate reports the same errors, or makes files with the same declarations in the same order, the same names, struct tags and aliases, in which int64 in the one is *big.Int in the other, a number n as initial value is big.NewInt(n), and the imports are the same but for math/big; or it does not return in either case.", "quantifier": "all modules, all package names", "why_tests_cant": "Each use of the parameter deep in a type could change more than the integer itself; tests compare the two outputs for a few modules at most.", "anchors": ["codegen.go:generateTypeBody", "codegen.go:numberToExpr", "codegen.go:requireModule", "codegen.go:tryGenerateValueAssignment", "codegen.go:generateAssociatedValuesIfNeeded"]}
{"id": "C90", "title": "Other names in a text are other names in the module and in the file", "statement": "If the tokens of one text are those of another with every name w (type, value, field or module name) replaced by f w, where f leaves GeneralizedTime and UTCTime as they are, then the module parsed from it is the other module with every name w replaced by f w in every place, and nothing else changed; or both texts are rejected with the same message. If f also gives different names to different names, the generated files are related as in C88.", "quantifier": "all texts, all functions on names", "why_tests_cant": "There are 291 grammar actions, and each could drop, swap or misplace a name for a combination of constructs no test contains; tests compare a few parsed texts with modules written by hand.", "anchors": ["asn1.y", "parser.go:ParseString", "lexer.go:Lex", "codegen.go:Generate"]}
{"id": "C91", "title": "Only the codes of tokens decide whether a text is accepted", "statement": "If the tokens of two texts have the same codes in the same order (so that they differ in names, numbers, strings and layout only), both are accepted, or both are rejected with the same message.", "quantifier": "all pairs of texts", "why_tests_cant": "An action that looks at the value of a token and fails, or a parser that reads a value in place of a code, shows for particular names and numbers only.", "anchors": ["parser.go:ParseString", "asn1.y", "lexer.go:Lex"]}
{"id": "C92", "title": "Assignments of two modules can be put in one", "statement": "If the texts of two modules are accepted and the second has nothing but assignments between BEGIN and END, then the text of the first with the assignments of the second put after its own is accepted, and the module parsed has the header and imports of the first, the assignments of the first and then those of the second, up to the values of DEFAULT and the first references of object identifier values (C05, C06).", "quantifier": "all pairs of texts", "why_tests_cant": "The end of an assignment is found by looking at the start of the next one; a conflict of the grammar can make two particular constructs merge or fail when they stand side by side, and there are infinitely many pairs.", "anchors": ["asn1.y", "parser.go:ParseString"]}
{"id": "C93", "title": "Assignments put after a text leave its Go declarations as they are", "statement": "If assignments with new names, none of them a time type, are put after those of an accepted text and files are generated for both texts, every declaration of the first file is in the second, in the same order.", "quantifier": "all texts, all added assignments, all generator parameters", "why_tests_cant": "Parser and generator must both be free of effects between assignments, for all of the infinitely many texts and additions; tests parse each text once and never compare the files of two texts.", "anchors": ["asn1.y", "y.go", "parser.go:ParseString", "codegen.go:Generate", "codegen.go:asn1TagFromType"]}
{"id": "C94", "title": "Older and newer versions of a SEQUENCE type understand each other", "statement": "Let a module with proper names have a SEQUENCE type Old and a SEQUENCE type New with the components of Old and then others. Whatever octets encoding/asn1 reads into the Go type of New, it reads into that of Old too, with the first fields equal and the same octets left. For types to which no known defect applies, what Old reads from a DER encoding of a value of New stands for that value without the added components; and if the added ones are OPTIONAL or have DEFAULT values, what New reads from a DER encoding of a value of Old stands for that value with the added ones absent or with their DEFAULT values.", "quantifier": "all modules, all such pairs of types, all octets, all values", "why_tests_cant": "The components, the added components and the octets are unbounded; no test decodes octets of one version with another.", "anchors": ["codegen.go:Generate", "codegen.go:structFromComponents", "codegen.go:asn1TagFromType"]}
{"id": "C95", "title": "Encodings end where they end: truncated ones are refused, concatenated ones are read one by one", "statement": "If encoding/asn1 reads a value of a generated Go type from some octets and leaves some, then the octets used are not empty, and whatever other octets follow them the same value is read and those are left. For a module with proper names, no proper prefix of octets that are read completely is read into the same type, and octets that are each read completely, put one after the other, are read as exactly the list of their values. For types to which no known defect applies, DER encodings put one after the other are read as values that stand for the encoded ones, in order.", "quantifier": "all modules, all Go types of the generated file, all octets, all numbers of messages", "why_tests_cant": "Octets, what follows and the number of messages are unbounded; the project's tests never decode truncated octets or more than one value with generated types.", "anchors": ["codegen.go:Generate", "codegen.go:structFromComponents", "codegen.go:asn1TagFromType"]}
{"id": "C96", "title": "Names do not matter for the octets", "statement": "If types, values, components and named numbers of a module with proper names are given other proper names (different ones staying different, time types keeping theirs), then whatever encoding/asn1 reads into a Go type of the first module's file it reads from the same octets into the Go type with the new name of the second module's file, leaving the same octets; the values are equal but for the names of struct fields and slice types, and encoding/asn1 writes the same octets for both. If the renaming can be undone, the same octets are read into both.", "quantifier": "all pairs of modules that differ in names, all their types, all octets, all values", "why_tests_cant": "Names reach the encoder through Go type names (the suffix SET), exported field names, name resolution and struct tags, and modules, renamings and octets are unbounded; no test encodes with two namings of a module.", "anchors": ["codegen.go:Generate", "codegen.go:goifyName", "codegen.go:generateTypeDecl", "codegen.go:structFromComponents", "codegen.go:asn1TagFromType", "codegen.go:resolveTypeReference"]}
{"id": "C97", "title": "The integer representation does not change the octets", "statement": "For a module with proper names, whatever encoding/asn1 reads into a Go type of the file generated with int64 it reads from the same octets into the type of the same name of the file generated with big.Int, leaving the same octets and giving the same numbers (nil where nothing was there to read); and whatever it reads into a type of the latter file without numbers beyond int64 it reads into that of the former. encoding/asn1 writes the same octets for values with the same numbers in both representations.", "quantifier": "all modules with proper names, all their types, all octets, all values", "why_tests_cant": "Modules, nesting, octets and numbers are unbounded; tests compare generated text for the two settings of the flag and never encode or decode with both.", "anchors": ["codegen.go:Generate", "codegen.go:generateTypeBody", "codegen.go:structFromComponents", "codegen.go:asn1TagFromType"]}
{"id": "C98", "title": "What is read depends on the assignments used only, not on their order or on other assignments", "statement": "If the assignments of a module are put in another order, encoding/asn1 reads the same values from the same octets into the Go types of both generated files, leaving the same octets. If assignments are added to a module, without redefining any name, then into each Go type of the smaller module it reads the same values from the same octets with either file.", "quantifier": "all modules with proper names, all orders, all added assignments, all types, all octets", "why_tests_cant": "Modules, permutations, additions and octets are unbounded, and the generator resolves references through the whole list of assignments; no test encodes or decodes with two variants of a module.", "anchors": ["codegen.go:Generate", "codegen.go:generateTypeDecl", "codegen.go:resolveTypeReference"]}
{"id": "C99", "title": "The Go values of a type depend on the assignments used only", "statement": "If the assignments of a module are put in another order, each Go type has the same values with both generated files, so that what encoding/asn1 writes for them is the same. If assignments are added to a module or to a text, without redefining any name, the values of each Go type of the smaller module are values of it with the larger file too; and the values it has with the larger file are values of it with the smaller one, unless they have values in interfaces, which may be of added types.", "quantifier": "all modules with proper names, all orders, all added assignments, all types, all Go values", "why_tests_cant": "Modules, permutations, additions and values are unbounded, and the generator resolves references through the whole list of assignments; no test compares two variants of a module.", "anchors": ["codegen.go:Generate", "codegen.go:generateTypeDecl", "codegen.go:resolveTypeReference"]}
{"id": "C100", "title": "Same octets exactly for same values", "statement": "For two Go values of a generated type, encoding/asn1 writes the same octets if and only if they stand for the same abstract value, where values that differ in the order of elements of SET OF only are the same.", "quantifier": "all modules, all generated types, all pairs of Go values of them", "why_tests_cant": "A statement about all pairs of values of all types: signatures and comparisons of encodings rest on it; tests look at single values.", "anchors": ["codegen.go:generateTypeBody", "codegen.go:asn1TagFromType"]}
{"id": "C101", "title": "Whatever is read is a value of the type", "statement": "Whatever octets encoding/asn1 is given, what it reads into a Go type that the generator made for an ASN.1 type stands for a value of the ASN.1 type; so what it writes for it is an encoding of that value, and is read again as the same value.", "quantifier": "all modules, all types written rightly, all octets", "why_tests_cant": "Octets from a peer are arbitrary and need not be DER, nor come from a value at all; tests read few, well-formed inputs.", "anchors": ["codegen.go:generateTypeBody", "codegen.go:asn1TagFromType"]}
{"id": "C102", "title": "Octets are DER exactly if they are written again as they were read", "statement": "Let encoding/asn1 read a value from some octets into a Go type that the generator made. The octets used are those it writes for the value exactly if they are the encoding by DER of the abstract value it stands for. What it writes for a value that was read, from any octets, is read to its end, and for what is read from it the same is written again.", "quantifier": "all modules, all types written rightly, all octets", "why_tests_cant": "Programs check for DER by writing again what they read and comparing, as in checking signatures. One octet string that is not DER and passes, or is DER and fails, is enough to break that; tests compare few.", "anchors": ["codegen.go:generateTypeBody", "codegen.go:asn1TagFromType"]}
{"id": "C103", "title": "Keys, checksums and encrypted data of Kerberos are read and written rightly", "statement": "For 26 types of RFC 4120 (examples/rfc4120.asn1) that have neither GeneralStrings nor tags of their own, among them EncryptionKey, Checksum, EncryptedData, AuthorizationData, PA-DATA, HostAddresses, LastReq and PA-ENC-TS-ENC, and the file that is generated for the module: whatever octets encoding/asn1 reads, what is read stands for a value of the type; what it writes for that is the encoding by DER; and that is what was read exactly if what was read was the encoding by DER.", "quantifier": "all 26 types, all octets, all values", "why_tests_cant": "The project's tests have two messages. Octets from the network are arbitrary.", "anchors": ["codegen.go:generateTypeBody", "codegen.go:Generate", "examples/rfc4120.asn1"]}
