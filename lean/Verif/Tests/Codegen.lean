import Verif.Props.Codegen
import Verif.Props.Parser
import Verif.Model.Dump
import Verif.Tests.Basic

/-! The tests of /repo/codegen_test.go and /repo/internal/utils/dump_test.go, run on the model.  Generated files are compared as syntax
trees; the tests of the code compare the text `go/printer` makes of them.  These are tests of the model, not proofs of properties. -/

namespace Asn1go.Tests

open Asn1go.Props

/-- codegen_test.go:13-22 `generateDeclarationsString` -/
def generated (m : Module) : Option GoFile :=
  match generateFile asciiCasing 50 (newCodeGenerator {}) m with
  | some (.ok f) => some f
  | _ => none

/-- codegen_test.go:24-31 `testModule` -/
def testModule (l : List MAssignment) : Module :=
  { moduleIdentifier := { reference := c! "My-ASN1-ModuleName" }, moduleBody := { assignmentList := l } }

/-- codegen_test.go:33-46 TestDeclMinSynax -/
example : generated (testModule []) = some ⟨c! "My_ASN1_ModuleName", []⟩ := by kernel_rfl

/-- codegen_test.go:48-80 TestDeclPrimitiveTypesSyntax -/
example : generated (testModule [.type (c! "MyBool") .boolean, .type (c! "MyInt") (.integer []), .type (c! "MyString") .characterString,
      .type (c! "MyOctetString") .octetString, .type (c! "MyReal") .real]) =
    some ⟨c! "My_ASN1_ModuleName", [
      .type [⟨c! "MyBool", true, .ident (c! "bool")⟩],
      .type [⟨c! "MyInt", true, .ident (c! "int64")⟩],
      .type [⟨c! "MyString", true, .ident (c! "string")⟩],
      .type [⟨c! "MyOctetString", true, .array (.ident (c! "byte"))⟩],
      .type [⟨c! "MyReal", true, .ident (c! "float64")⟩]]⟩ := by kernel_rfl

/-- codegen_test.go:82-115 TestDeclSequenceTypeSyntax -/
example : generated (testModule [.type (c! "MySequence") (.sequence
      [comp (c! "myIntField") (.integer []), comp (c! "myStructField") (.sequence [comp (c! "myOctetString") .octetString] [])] [])]) =
    some ⟨c! "My_ASN1_ModuleName", [
      .type [⟨c! "MySequence", false, .struct [
        .mk (c! "MyIntField") (.ident (c! "int64")) none,
        .mk (c! "MyStructField") (.struct [.mk (c! "MyOctetString") (.array (.ident (c! "byte"))) none]) none]⟩]]⟩ := by kernel_rfl

/-- codegen_test.go:117-142 TestDeclSequenceOFTypeSyntax -/
example : generated (testModule [.type (c! "MySequenceOfInt") (.sequenceOf (.integer [])),
      .type (c! "MySequenceOfSequence") (.sequenceOf (.sequence [comp (c! "myIntField") (.integer [])] []))]) =
    some ⟨c! "My_ASN1_ModuleName", [
      .type [⟨c! "MySequenceOfInt", true, .array (.ident (c! "int64"))⟩],
      .type [⟨c! "MySequenceOfSequence", true, .array (.struct [.mk (c! "MyIntField") (.ident (c! "int64")) none])⟩]]⟩ := by kernel_rfl

/-- codegen_test.go:144-166 TestTags -/
example : generated (testModule [.type (c! "MySequence")
      (.sequence [comp (c! "myStringField") (.restrictedString Tok.IA5String)] [])]) =
    some ⟨c! "My_ASN1_ModuleName", [
      .type [⟨c! "MySequence", false, .struct
        [.mk (c! "MyStringField") (.ident (c! "string")) (some (c! "`asn1:\"ia5\"`"))]⟩]]⟩ := by kernel_rfl

/-- codegen_test.go:174-200 `testParsingAndGeneration` -/
def compiled (text : Str) : Option GoFile := (module? (parseString asciiUnicode text)).bind generated

/-- The file expected in TestTagType, with the tag of the second field. -/
def tagTypes (dflt : Str) : GoFile := ⟨c! "TestSpec", [
  .type [⟨c! "Struct", false, .struct [
    .mk (c! "Untagged") (.ident (c! "bool")) none,
    .mk (c! "Default") (.ident (c! "bool")) (some dflt),
    .mk (c! "Explicit") (.ident (c! "bool")) (some (c! "`asn1:\"explicit,tag:2\"`")),
    .mk (c! "Implicit") (.ident (c! "bool")) (some (c! "`asn1:\"tag:3\"`"))]⟩]]⟩

/-- codegen_test.go:204-226 TestTagType, default (explicit) -/
example : compiled (c! "
	TestSpec DEFINITIONS ::= BEGIN
		Struct ::= SEQUENCE {
			untagged BOOLEAN,
			default [1] BOOLEAN,
			explicit [2] EXPLICIT BOOLEAN,
			implicit [3] IMPLICIT BOOLEAN
		}
	END
	") = some (tagTypes (c! "`asn1:\"explicit,tag:1\"`")) := by kernel_rfl

/-- codegen_test.go:227-249 TestTagType, module explicit tags -/
example : compiled (c! "
	TestSpec DEFINITIONS EXPLICIT TAGS ::= BEGIN
		Struct ::= SEQUENCE {
			untagged BOOLEAN,
			default [1] BOOLEAN,
			explicit [2] EXPLICIT BOOLEAN,
			implicit [3] IMPLICIT BOOLEAN
		}
	END
	") = some (tagTypes (c! "`asn1:\"explicit,tag:1\"`")) := by kernel_rfl

/-- codegen_test.go:250-272 TestTagType, module implicit tags -/
example : compiled (c! "
	TestSpec DEFINITIONS IMPLICIT TAGS ::= BEGIN
		Struct ::= SEQUENCE {
			untagged BOOLEAN,
			default [1] BOOLEAN,
			explicit [2] EXPLICIT BOOLEAN,
			implicit [3] IMPLICIT BOOLEAN
		}
	END
	") = some (tagTypes (c! "`asn1:\"tag:1\"`")) := by kernel_rfl

/-- codegen_test.go:279-289 TestIntegerType, bare integer -/
example : compiled (c! "
	TestSpec DEFINITIONS IMPLICIT TAGS ::= BEGIN
		Int ::= INTEGER
	END
	") = some ⟨c! "TestSpec", [.type [⟨c! "Int", true, .ident (c! "int64")⟩]]⟩ := by kernel_rfl

/-- codegen_test.go:290-315 TestIntegerType, integer with consts -/
example : compiled (c! "
	TestSpec DEFINITIONS IMPLICIT TAGS ::= BEGIN
		d INTEGER ::= 42 
		Int ::= INTEGER {
			a(42),
			b(-1),
			c(d)
		}
	END
	") = some ⟨c! "TestSpec", [
    .var [⟨c! "ValD", .ident (c! "int64"), .lit (c! "42")⟩],
    .type [⟨c! "Int", true, .ident (c! "int64")⟩],
    .var [⟨c! "IntValA", .ident (c! "Int"), .lit (c! "42")⟩, ⟨c! "IntValB", .ident (c! "Int"), .lit (c! "-1")⟩,
      ⟨c! "IntValC", .ident (c! "Int"), .ident (c! "ValD")⟩]]⟩ := by kernel_rfl

/-- codegen_test.go:322-341 TestValueAssignments -/
example : compiled (c! "
	TestSpec DEFINITIONS IMPLICIT TAGS ::= BEGIN
		myInt INTEGER ::= 42
		myBool BOOLEAN ::= TRUE
		myReal REAL ::= 3.14
	END
	") = some ⟨c! "TestSpec", [
    .var [⟨c! "ValMyInt", .ident (c! "int64"), .lit (c! "42")⟩],
    .var [⟨c! "ValMyBool", .ident (c! "bool"), .lit (c! "true")⟩],
    .var [⟨c! "ValMyReal", .ident (c! "float64"), .real (.lit 3 14 0)⟩]]⟩ := by kernel_rfl

/-- codegen_test.go:348-366 TestExtensionsE2E, sequence extension -/
example : compiled (c! "
				TestSpec DEFINITIONS IMPLICIT TAGS ::= BEGIN
					Struct ::= SEQUENCE {
						untagged BOOLEAN,
						...,
						extension BOOLEAN
					}
				END
			") = some ⟨c! "TestSpec", [
    .type [⟨c! "Struct", false, .struct [.mk (c! "Untagged") (.ident (c! "bool")) none,
      .mk (c! "Extension") (.ident (c! "bool")) none]⟩]]⟩ := by kernel_rfl

/-- codegen_test.go:367-388 TestExtensionsE2E, set extension -/
example : compiled (c! "
				TestSpec DEFINITIONS IMPLICIT TAGS ::= BEGIN
					Set ::= SET {
						untagged BOOLEAN,
						...,
						extension BOOLEAN
					}
				END
			") = some ⟨c! "TestSpec", [
    .type [⟨c! "SetSET", false, .struct [.mk (c! "Untagged") (.ident (c! "bool")) none,
      .mk (c! "Extension") (.ident (c! "bool")) none]⟩, ⟨c! "Set", true, .ident (c! "SetSET")⟩]]⟩ := by kernel_rfl

/-- codegen_test.go:402-427 TestTime -/
example : generated (testModule [.type (c! "MyTimeType") (.ref (c! "GeneralizedTime")),
      .type (c! "MySequence") (.sequence [comp (c! "myTimeField") (.ref (c! "MyTimeType"))] [])]) =
    some ⟨c! "My_ASN1_ModuleName", [
      .imp (c! "time"),
      .type [⟨c! "MyTimeType", true, .ident (c! "time.Time")⟩],
      .type [⟨c! "MySequence", false, .struct
        [.mk (c! "MyTimeField") (.ident (c! "time.Time")) (some (c! "`asn1:\"generalized\"`"))]⟩]]⟩ := by kernel_rfl

/-- codegen_test.go:429-470 TestBitString -/
example : generated (testModule [
      .type (c! "MyBitStringType") (.constrained (.bitString []) (.mk (.subtype [.unions [[.mk (.size (.mk (.subtype [.unions
        [[.mk (.valueRange { value := .number 32 } {}) .nil]]]))) .nil]]]))),
      .type (c! "MyNestedBitStringType") (.ref (c! "MyBitStringType")),
      .type (c! "MySequence") (.sequence [comp (c! "myNestedBitStringField") (.ref (c! "MyNestedBitStringType")),
        comp (c! "myBitStringField") (.ref (c! "MyBitStringType")), comp (c! "bitStringField") (.bitString [])] [])]) =
    some ⟨c! "My_ASN1_ModuleName", [
      .imp (c! "encoding/asn1"),
      .type [⟨c! "MyBitStringType", true, .ident (c! "asn1.BitString")⟩],
      .type [⟨c! "MyNestedBitStringType", true, .ident (c! "asn1.BitString")⟩],
      .type [⟨c! "MySequence", false, .struct [
        .mk (c! "MyNestedBitStringField") (.ident (c! "asn1.BitString")) none,
        .mk (c! "MyBitStringField") (.ident (c! "asn1.BitString")) none,
        .mk (c! "BitStringField") (.ident (c! "asn1.BitString")) none]⟩]]⟩ := by kernel_rfl

end Asn1go.Tests
