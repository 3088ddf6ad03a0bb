import Verif.Props.Parser
import Verif.Proofs.Real
import Verif.Tests.Basic

/-! The tests of /repo/parser_test.go, run on the model.  These are tests of the model, not proofs of properties: they show that it does what
the authors of the code expect. -/

namespace Asn1go.Tests

open Asn1go.Props

/-- The assignments of the module in a text. -/
def assignments (text : Str) : Option (List (Assignment DefinedValue (Value DefinedValue))) :=
  (module? (parseString asciiUnicode text)).map (·.moduleBody.assignmentList)

/-- The type assigned to a name in the module in a text, by `GetType`. -/
def typeOf (text name : Str) : Option (Ty DefinedValue (Value DefinedValue)) :=
  (module? (parseString asciiUnicode text)).bind fun m => (assignmentGetType m.moduleBody.assignmentList name).map (·.2)

/-- parser_test.go:19-31 TestParseMinimalModule -/
example :
    (module? (parseString asciiUnicode (c! "MyModule DEFINITIONS ::= BEGIN END"))).isSome = true ∧
    (module? (parseString asciiUnicode (c! "MyModule { mymodule } DEFINITIONS ::= BEGIN END"))).isSome = true ∧
    (module? (parseString asciiUnicode (c! "MyModule DEFINITIONS IMPLICIT TAGS ::= BEGIN END"))).map (·.tagDefault) = some TAGS_IMPLICIT ∧
    (module? (parseString asciiUnicode (c! "MyModule DEFINITIONS EXTENSIBILITY IMPLIED ::= BEGIN END"))).map (·.extensibilityImplied) =
      some true := by
  and_intros <;> decide +kernel

/-- parser_test.go:33-56 TestParseImports -/
example : (module? (parseString asciiUnicode (c! "
	RFC1157-SNMP DEFINITIONS ::= BEGIN
		IMPORTS
			ObjectName, ObjectSyntax, NetworkAddress, IpAddress, TimeTicks
		  		FROM RFC1155-SMI;

		MyString ::= CHARACTER STRING  -- AssignmentList can't be empty (?)
	END
	"))).map (·.moduleBody.imports) =
    some [{ module := { reference := c! "RFC1155-SMI" }
            symbolList := [.typeReference (c! "ObjectName"), .typeReference (c! "ObjectSyntax"), .typeReference (c! "NetworkAddress"),
              .typeReference (c! "IpAddress"), .typeReference (c! "TimeTicks")] }] := by
  kernel_rfl

/-- parser_test.go:58-92 TestDefinitiveIdentifier -/
example : (module? (parseString asciiUnicode (c! "
	KerberosV5Spec2 {
        iso(1) identified-organization(3) dod(6)
        nameform
        42 --numberform
        mixedform(88)
	} DEFINITIONS EXPLICIT TAGS ::= BEGIN
	END
	"))).map (·.moduleIdentifier) =
    some ⟨c! "KerberosV5Spec2", [⟨c! "iso", 1⟩, ⟨c! "identified-organization", 3⟩, ⟨c! "dod", 6⟩, ⟨c! "nameform", 0⟩, ⟨[], 42⟩,
      ⟨c! "mixedform", 88⟩]⟩ := by
  kernel_rfl

/-- parser_test.go:94-121 TestValueAssignmentOID -/
example : assignments (c! "
	KerberosV5Spec2 DEFINITIONS ::= BEGIN
		id-krb5         OBJECT IDENTIFIER ::= {
    	    name-form
    	    42  --number-form
    	    name-and-number-form(77)
		}
	END
	") =
    some [.value (c! "id-krb5") .objectIdentifier (.objectIdentifier
      [{ reference := some { valueName := c! "name-form" } }, { id := 42 }, { name := c! "name-and-number-form", id := 77 }])] := by
  kernel_rfl

/-- parser_test.go:129-136 TestRealBuilder, in exact arithmetic -/
example : parseRealNumber 0 0 0 = 0 ∧ parseRealNumber 1 0 0 = 1 ∧ parseRealNumber 12345 0 0 = 12345 ∧
    parseRealNumber 12 34 0 = 1234 / 100 ∧ parseRealNumber 2 346 1 = 2346 / 100 ∧ parseRealNumber 23 46 (-1) = 2346 / 1000 := by
  and_intros <;> decide +kernel

/-- parser_test.go:138-199 TestRangeTypeConstraint -/
example : typeOf (c! "
	KerberosV5Spec2 DEFINITIONS ::= BEGIN
		Int32 ::= INTEGER (0..5 | 42^10..15)  -- note, UNION has lower precedence than INTERSECTION
	END
	") (c! "Int32") =
    some (.constrained (.integer []) (.mk (.subtype [.unions
      [[.mk (.valueRange { value := .number 0 } { value := .number 5 }) .nil],
       [.mk (.singleValue (.number 42)) .nil, .mk (.valueRange { value := .number 10 } { value := .number 15 }) .nil]]]))) := by
  kernel_rfl

/-- parser_test.go:209-239 TestTypeTypeConstraint -/
example : typeOf (c! "
	KerberosV5Spec2 DEFINITIONS ::= BEGIN
		KerberosString  ::= GeneralString (IA5String)
	END
	") (c! "KerberosString") =
    some (.constrained (.restrictedString Tok.GeneralString)
      (.mk (.subtype [.unions [[.mk (.typeConstraint (.restrictedString Tok.IA5String)) .nil]]]))) := by
  kernel_rfl

/-- parser_test.go:241-281 TestSequenceWithTagsAndSequenceOf -/
example : typeOf (c! "
	KerberosV5Spec2 DEFINITIONS ::= BEGIN
		PrincipalName   ::= SEQUENCE {
				name-type       [0] Int32,
				name-string     [1] SEQUENCE OF KerberosString
		}
	END
	") (c! "PrincipalName") =
    some (.sequence
      [.named (.mk (c! "name-type") (.tagged { classNumber := .number 0 } (.ref (c! "Int32")) 0 false)) false none,
       .named (.mk (c! "name-string") (.tagged { classNumber := .number 1 } (.sequenceOf (.ref (c! "KerberosString"))) 0 false)) false none]
      []) := by
  kernel_rfl

/-- parser_test.go:283-313 TestBitStringWithSizeConstraint -/
example : typeOf (c! "
	KerberosV5Spec2 DEFINITIONS ::= BEGIN
		KerberosFlags   ::= BIT STRING (SIZE (32..MAX))
	END
	") (c! "KerberosFlags") =
    some (.constrained (.bitString []) (.mk (.subtype [.unions [[.mk (.size (.mk (.subtype [.unions
      [[.mk (.valueRange { value := .number 32 } {}) .nil]]]))) .nil]]]))) := by
  kernel_rfl

/-- parser_test.go:315-340 TestConstrainedSequence -/
example : typeOf (c! "
	TestSpec DEFINITIONS ::= BEGIN
		CONSTRAINED-SEQUENCE ::= SEQUENCE SIZE (1..MAX) OF INTEGER
	END
	") (c! "CONSTRAINED-SEQUENCE") =
    some (.constrained (.sequenceOf (.integer []))
      (singleElementConstraint (.size (singleElementConstraint (.valueRange { value := .number 1 } {}))))) := by
  kernel_rfl

/-- parser_test.go:342-380 TestChoiceType -/
example : typeOf (c! "
	TestSpec DEFINITIONS ::= BEGIN
		PDUs ::=
			  CHOICE {
						  get-request
							  GetRequest-PDU,

						  get-next-request
							  GetNextRequest-PDU,

						  get-response
							  GetResponse-PDU,

						  set-request
							  SetRequest-PDU,

						  trap
							  Trap-PDU
					  }
	END
	") (c! "PDUs") =
    some (.choice [.mk (c! "get-request") (.ref (c! "GetRequest-PDU")), .mk (c! "get-next-request") (.ref (c! "GetNextRequest-PDU")),
      .mk (c! "get-response") (.ref (c! "GetResponse-PDU")), .mk (c! "set-request") (.ref (c! "SetRequest-PDU")),
      .mk (c! "trap") (.ref (c! "Trap-PDU"))] []) := by
  kernel_rfl

/-- parser_test.go:382-427 TestChoiceTypeExtension -/
example : typeOf (c! "
	TestSpec DEFINITIONS ::= BEGIN
		PDUs ::=
			  CHOICE {
						  get-request
							  GetRequest-PDU,

						  get-next-request
							  GetNextRequest-PDU,

						  get-response
							  GetResponse-PDU,

						  set-request
							  SetRequest-PDU,

						  trap
							  Trap-PDU,
						  ...,
						  extra-choice
							  Extra-Type
					  }
	END
	") (c! "PDUs") =
    some (.choice [.mk (c! "get-request") (.ref (c! "GetRequest-PDU")), .mk (c! "get-next-request") (.ref (c! "GetNextRequest-PDU")),
      .mk (c! "get-response") (.ref (c! "GetResponse-PDU")), .mk (c! "set-request") (.ref (c! "SetRequest-PDU")),
      .mk (c! "trap") (.ref (c! "Trap-PDU"))] [.named (.mk (c! "extra-choice") (.ref (c! "Extra-Type")))]) := by
  kernel_rfl

/-- Assignments of values, with REAL values as numbers. -/
def valuesOf : List (Assignment DefinedValue (Value DefinedValue)) → List (Str × Ty DefinedValue (Value DefinedValue) × Option ℚ)
  | .value r t (.number n) :: l => (r, t, some n) :: valuesOf l
  | .value r t (.real x) :: l => (r, t, x.value) :: valuesOf l
  | _ :: l => valuesOf l
  | [] => []

/-- parser_test.go:429-455 TestRealValues, in exact arithmetic -/
example : (assignments (c! "
	TestSpec DEFINITIONS ::= BEGIN
		plusNum INTEGER ::= 123
		minusNum INTEGER ::= -123
		plusReal REAL ::= 123.4
		minusReal REAL ::= -1.234
		plusExp REAL ::= 1.234e3
		minusExp REAL ::= 1234e-3
	END
	")).map valuesOf =
    some [(c! "plusNum", .integer [], some 123), (c! "minusNum", .integer [], some (-123)), (c! "plusReal", .real, some (1234 / 10)),
      (c! "minusReal", .real, some (-1234 / 1000)), (c! "plusExp", .real, some 1234), (c! "minusExp", .real, some (1234 / 1000))] := by
  kernel_rfl

/-- parser_test.go:457-473 TestBooleanValues -/
example : assignments (c! "
	TestSpec DEFINITIONS ::= BEGIN
		true BOOLEAN ::= TRUE
		false BOOLEAN ::= FALSE
	END
	") =
    some [.value (c! "true") .boolean (.boolean true), .value (c! "false") .boolean (.boolean false)] := by
  kernel_rfl

/-- parser_test.go:475-489 TestAnyType -/
example : assignments (c! "
	TestSpec DEFINITIONS ::= BEGIN
		AttributeValue ::= ANY
		AttributeValue2 ::= ANY DEFINED BY something
	END") =
    some [.type (c! "AttributeValue") (.any []), .type (c! "AttributeValue2") (.any (c! "something"))] := by
  kernel_rfl

/-- parser_test.go:491-509 TestDefaultTags -/
example : assignments (c! "
	TestSpec DEFINITIONS ::= BEGIN
		UnTagged ::= BOOLEAN
		DefaultTagged ::= [1] BOOLEAN
		ExplicitTagged ::= [2] EXPLICIT BOOLEAN
		ImplicitTagged ::= [3] IMPLICIT BOOLEAN
	END") =
    some [.type (c! "UnTagged") .boolean,
      .type (c! "DefaultTagged") (.tagged { classNumber := .number 1 } .boolean 0 false),
      .type (c! "ExplicitTagged") (.tagged { classNumber := .number 2 } .boolean TAGS_EXPLICIT true),
      .type (c! "ImplicitTagged") (.tagged { classNumber := .number 3 } .boolean TAGS_IMPLICIT true)] := by
  kernel_rfl

/-- A BOOLEAN component. -/
def flag (name : Str) : ComponentType DefinedValue (Value DefinedValue) := .named (.mk name .boolean) false none

/-- parser_test.go:518-529 TestSequenceSyntax, empty sequence -/
example : assignments (c! "
			TestSpec DEFINITIONS ::= BEGIN
				Sequence ::= SEQUENCE { }
			END
			") = some [.type (c! "Sequence") (.sequence [] [])] := by
  kernel_rfl

/-- parser_test.go:530-553 TestSequenceSyntax, simple sequence -/
example : assignments (c! "
			TestSpec DEFINITIONS ::= BEGIN
				Sequence1 ::= SEQUENCE {
					field BOOLEAN
                }
				Sequence2 ::= SEQUENCE {
					field1 BOOLEAN,
					field2 BOOLEAN
                }
			END
			") = some [.type (c! "Sequence1") (.sequence [flag (c! "field")] []),
              .type (c! "Sequence2") (.sequence [flag (c! "field1"), flag (c! "field2")] [])] := by
  kernel_rfl

/-- parser_test.go:554-589 TestSequenceSyntax, sequence with simple extensions -/
example : assignments (c! "
			TestSpec DEFINITIONS ::= BEGIN
				SequenceNoFields ::= SEQUENCE {
					...
                }
				SequenceEmptyAdditionsNoMarker ::= SEQUENCE {
					field1 BOOLEAN,
					...
                }
				SequenceWithExtensions ::= SEQUENCE {
					field1 BOOLEAN,
					...,
					addition1 BOOLEAN,
					addition2 BOOLEAN
                }
			END
			") = some [.type (c! "SequenceNoFields") (.sequence [] []),
              .type (c! "SequenceEmptyAdditionsNoMarker") (.sequence [flag (c! "field1")] []),
              .type (c! "SequenceWithExtensions")
                (.sequence [flag (c! "field1")] [flag (c! "addition1"), flag (c! "addition2")])] := by
  kernel_rfl

/-- parser_test.go:590-617, skipped by the authors (conflicts of the grammar): the text is not accepted. -/
example : assignments (c! "
			TestSpec DEFINITIONS ::= BEGIN
				SequenceWithExtensions ::= SEQUENCE {
					field1 BOOLEAN,
					...,
					addition1 BOOLEAN,
					addition2 BOOLEAN,
					...,
					field2 BOOLEAN
                }
			END
			") = none := by
  kernel_rfl

/-- parser_test.go:639-656 TestChoiceSyntax, choice with elements -/
example : assignments (c! "
			TestSpec DEFINITIONS ::= BEGIN
				Choice ::= CHOICE {
					alt1 BOOLEAN,
					alt2 INTEGER
				}
			END
			") = some [.type (c! "Choice") (.choice [.mk (c! "alt1") .boolean, .mk (c! "alt2") (.integer [])] [])] := by
  kernel_rfl

/-- parser_test.go:657-694 TestChoiceSyntax, choice extensions -/
example : assignments (c! "
			TestSpec DEFINITIONS ::= BEGIN
				Choice ::= CHOICE { ... }
				Choice2 ::= CHOICE {
					alt1 BOOLEAN,
					alt2 BOOLEAN,
					... 
				}
				Choice3 ::= CHOICE {
					alt1 BOOLEAN,
					...,
					ext2 BOOLEAN,
					ext3 BOOLEAN
				}
			END
			") = some [.type (c! "Choice") (.choice [] []),
              .type (c! "Choice2") (.choice [.mk (c! "alt1") .boolean, .mk (c! "alt2") .boolean] []),
              .type (c! "Choice3") (.choice [.mk (c! "alt1") .boolean]
                [.named (.mk (c! "ext2") .boolean), .named (.mk (c! "ext3") .boolean)])] := by
  kernel_rfl

/-- parser_test.go:716-733 TestEnumerationSyntax, enumeration with elements -/
example : assignments (c! "
			TestSpec DEFINITIONS ::= BEGIN
				Enum ::= ENUMERATED {
					anon1, named1(1), anon2, named2(2)
				}
			END
			") = some [.type (c! "Enum") (.enumerated [.identifier (c! "anon1"), .namedNumber ⟨c! "named1", .number 1⟩,
              .identifier (c! "anon2"), .namedNumber ⟨c! "named2", .number 2⟩] [])] := by
  kernel_rfl

/-- parser_test.go:734-752, skipped by the authors (defined values not implemented): the text is accepted. -/
example : assignments (c! "
			TestSpec DEFINITIONS ::= BEGIN
				Enum ::= ENUMERATED {
					anon1, named1(ref1), anon2, named2(ModuleRef.ref2)
				}
			END
			") = some [.type (c! "Enum") (.enumerated [.identifier (c! "anon1"),
              .namedNumber ⟨c! "named1", .defined ⟨[], c! "ref1"⟩⟩, .identifier (c! "anon2"),
              .namedNumber ⟨c! "named2", .defined ⟨c! "ModuleRef", c! "ref2"⟩⟩] [])] := by
  kernel_rfl

/-- parser_test.go:753-773, skipped by the authors (conflict in yacc rules): the text is not accepted. -/
example : assignments (c! "
			TestSpec DEFINITIONS ::= BEGIN
				Enum1 ::= ENUMERATED {
					anon1, anon2, ...
				}
				Enum2 ::= ENUMERATED {
					anon1, anon2, ..., anon3
				}
			END
			") = none := by
  kernel_rfl

/-- parser_test.go:795-813 TestIntegerSyntax, simple integers -/
example : assignments (c! "
			TestSpec DEFINITIONS ::= BEGIN
				Int ::= INTEGER
				IntWithNames ::= INTEGER {
					a(1), b(-1)
				}
			END
			") = some [.type (c! "Int") (.integer []),
              .type (c! "IntWithNames") (.integer [⟨c! "a", .number 1⟩, ⟨c! "b", .number (-1)⟩])] := by
  kernel_rfl

/-- parser_test.go:814-832 TestIntegerSyntax, integers with references -/
example : assignments (c! "
			TestSpec DEFINITIONS ::= BEGIN
				IntWithNames ::= INTEGER {
					a(valRef), b(ModuleName.valRef)
				}
			END
			") = some [.type (c! "IntWithNames") (.integer [⟨c! "a", .defined ⟨[], c! "valRef"⟩⟩,
              ⟨c! "b", .defined ⟨c! "ModuleName", c! "valRef"⟩⟩])] := by
  kernel_rfl

end Asn1go.Tests
