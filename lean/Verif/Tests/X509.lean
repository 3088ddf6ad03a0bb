import Verif.Tests.X509Data
import Verif.Tests.Codegen
import Verif.Proofs.Codegen.GoDecide

/-! RFC 5280 from the module to the file, run on the model: /repo/examples/examples_test.go:58-63 and rfc5280_test.go. -/

namespace Asn1go.Tests

open Asn1go.Props Asn1go.Spec

/-- examples_test.go:61, with the parameters of rfc5280_test.go:12. -/
theorem generate_x509 :
    generateFile asciiCasing 100 (newCodeGenerator { package := c! "examples", integerRepr := c! "big.Int" }) x509 =
      some (.ok x509File) := by kernel_rfl

/-- The generated file keeps the rules of Go. -/
theorem x509_ok : GoOk x509File := GoDecide.goCheck_sound (by decide +kernel)

end Asn1go.Tests
