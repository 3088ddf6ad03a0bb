#!/bin/sh
# Writes lean/Verif/Tests/KerberosData.lean and X509Data.lean: the modules of two examples and the files generated for them, as Lean terms.
cd /verif/lean || exit 1
cp ../tools/emit.lean.txt /tmp/Emit.lean
put() { # output, example, name, document, representation of integers
  {
    printf 'import Verif.Model.Codegen\n\n/-! Written by tools/emit.sh: the module in /repo/examples/%s.asn1 and the file generated for it. -/\n\nnamespace Asn1go.Tests\n\n' "$2"
    lake env lean --run /tmp/Emit.lean "/repo/examples/$2.asn1" "$3" "$4" "$5"
    printf 'end Asn1go.Tests\n'
  } > "Verif/Tests/$1.lean"
}
put KerberosData rfc4120 kerberos "RFC 4120" int64
put X509Data rfc5280 x509 "RFC 5280" big
