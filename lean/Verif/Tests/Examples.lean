import Verif.Tests.Texts
import Verif.Tests.Codegen

/-! /repo/examples/examples_test.go, run on the model.  The texts are too long for the kernel to compute with in little
memory, so `#guard` runs the compiled model here; nothing is concluded from it. -/

namespace Asn1go.Tests

open Asn1go.Props

/-- The number of assignments of the module in a text, and the outcome of generating code for it: the number of declarations,
or the errors. -/
def outcome (text : Str) : Option (Nat × (Nat ⊕ List GenErr)) :=
  match parseString asciiUnicode text with
  | .ok m =>
    match generateFile asciiCasing 100 (newCodeGenerator { package := c! "testname" }) m with
    | some (.ok f) => some (m.moduleBody.assignmentList.length, .inl f.decls.length)
    | some (.error (.translation l)) => some (m.moduleBody.assignmentList.length, .inr l)
    | _ => none
  | _ => none

-- examples_test.go:43-49 TestParseSNMP; the generation is skipped there with "Missing type references".
#guard outcome rfc1157 = some (10, .inr [.unresolved (c! "NetworkAddress"), .unresolved (c! "TimeTicks"),
    .unresolved (c! "ObjectName"), .unresolved (c! "ObjectSyntax")])

-- examples_test.go:51-56 TestParseSNMPSMI
#guard outcome rfc1155 = some (16, .inl 11)

-- examples_test.go:65-71 TestParseLDAP; the generation is skipped there with "Missing named types and NULL".
#guard outcome rfc4511 = some (48, .inr [.unsupported, .unsupported, .unsupported, .componentsOf, .unsupported, .unsupported,
    .unsupported, .unsupported, .unsupported, .unsupported, .unsupported, .componentsOf])

-- examples_test.go:36-41 TestParseKerberos
#guard outcome rfc4120 = some (57, .inl 58)

-- examples_test.go:58-63 TestParseX509
#guard outcome rfc5280 = some (169, .inl 142)

end Asn1go.Tests
