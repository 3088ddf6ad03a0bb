import Verif.Tests.KerberosData
import Verif.Tests.Codegen
import Verif.Model.Dump
import Verif.Spec.Marshal
import Verif.Proofs.Codegen.GoDecide

/-! RFC 4120 from the module to octets, run on the model: /repo/examples/examples_test.go:36-41, rfc4120_test.go and
/repo/internal/utils/dump_test.go. -/

namespace Asn1go.Tests

open Asn1go.Props Asn1go.Spec

/-- examples_test.go:39, with the package of rfc4120_test.go:10. -/
theorem generate_kerberos :
    generateFile asciiCasing 100 (newCodeGenerator { package := c! "examples" }) kerberos = some (.ok kerberosFile) := by kernel_rfl

/-- The generated file keeps the rules of Go. -/
theorem kerberos_ok : GoOk kerberosFile := GoDecide.goCheck_sound (by decide +kernel)

/-- The fields of a struct type of a file. -/
def structFields (f : GoFile) (name : Str) : List GoField :=
  f.decls.flatMap fun
    | .type specs => specs.flatMap fun s => if s.name = name then match s.type with | .struct l => l | _ => [] else []
    | _ => []

/-- A value of a struct type of the generated file; missing fields keep their zero values, given last. -/
def record (name : String) (vals : List (String × GoVal)) (zero : List (String × GoVal)) : GoVal :=
  .struct ((structFields kerberosFile name.toList).map fun
    | .mk n _ t => .mk n t ((((vals ++ zero).find? fun p => p.1.toList == n).map (·.2)).getD .nilIface))

/-- `PrincipalName` -/
def principal (n : Int) (l : List String) : GoVal :=
  record "PrincipalName" [("Name_type", .int n), ("Name_string", .slice (c! "") l.isEmpty (l.map fun s => .str s.toList))] []

/-- rfc4120_test.go:72-89 -/
def asReq : GoVal :=
  record "KDC_REQ"
    [("Pvno", .int 5), ("Msg_type", .int 10),
      ("Padata", .slice (c! "") false [record "PA_DATA" [("Padata_type", .int 149), ("Padata_value", .bytes (some []))] []]),
      ("Req_body", record "KDC_REQ_BODY"
        [("Kdc_options", .bits (some [0, 0, 0, 16]) 32), ("Cname", principal 1 ["chemikadze"]), ("Realm", .str (c! "ATHENA.MIT.EDU")),
          ("Sname", principal 2 ["krbtgt", "ATHENA.MIT.EDU"]), ("Till", .time ⟨2018, 1, 3, 6, 4, 7, 0⟩), ("Nonce", .int 1679932297),
          ("Etype", .slice (c! "") false ([18, 17, 16, 23, 25, 26].map .int))]
        [("From", .time zeroTime), ("Rtime", .time zeroTime), ("Addresses", .slice (c! "HostAddresses") true []),
          ("Enc_authorization_data", record "EncryptedData" [("Etype", .int 0), ("Kvno", .int 0), ("Cipher", .bytes none)] []),
          ("Additional_tickets", .slice (c! "") true [])])] []

/-- rfc4120_test.go:58-70 -/
def asReqDump : Str := c! "
0000   30 81 aa a1 03 02 01 05 a2 03 02 01 0a a3 0e 30
0010   0c 30 0a a1 04 02 02 00 95 a2 02 04 00 a4 81 8d
0020   30 81 8a a0 07 03 05 00 00 00 00 10 a1 17 30 15
0030   a0 03 02 01 01 a1 0e 30 0c 1b 0a 63 68 65 6d 69
0040   6b 61 64 7a 65 a2 10 1b 0e 41 54 48 45 4e 41 2e
0050   4d 49 54 2e 45 44 55 a3 23 30 21 a0 03 02 01 02
0060   a1 1a 30 18 1b 06 6b 72 62 74 67 74 1b 0e 41 54
0070   48 45 4e 41 2e 4d 49 54 2e 45 44 55 a5 11 18 0f
0080   32 30 31 38 30 31 30 33 30 36 30 34 30 37 5a a7
0090   06 02 04 64 21 bb 89 a8 14 30 12 02 01 12 02 01
00a0   11 02 01 10 02 01 17 02 01 19 02 01 1a
"

/-- rfc4120_test.go:111-123 -/
def krbError : GoVal :=
  record "KRB_ERROR"
    [("Pvno", .int 5), ("Msg_type", .int 30), ("Ctime", .time ⟨2023, 3, 27, 15, 51, 37, 0⟩), ("Stime", .time ⟨2018, 1, 2, 6, 4, 7, 0⟩),
      ("Susec", .int 297128), ("Error_code", .int 6), ("Crealm", .str (c! "ATHENA.MIT.EDU")), ("Cname", principal 1 ["chemikadze"]),
      ("Realm", .str (c! "ATHENA.MIT.EDU")), ("Sname", principal 2 ["krbtgt", "ATHENA.MIT.EDU"]), ("E_text", .str (c! "CLIENT_NOT_FOUND"))]
    [("Cusec", .int 0), ("E_data", .bytes none)]

/-- rfc4120_test.go:96-109 -/
def krbErrorDump : Str := c! "
0000   30 81 b2 a0 03 02 01 05 a1 03 02 01 1e a2 11 18
0010   0f 32 30 32 33 30 33 32 37 31 35 35 31 33 37 5a
0020   a4 11 18 0f 32 30 31 38 30 31 30 32 30 36 30 34
0030   30 37 5a a5 05 02 03 04 88 a8 a6 03 02 01 06 a7
0040   10 1b 0e 41 54 48 45 4e 41 2e 4d 49 54 2e 45 44
0050   55 a8 17 30 15 a0 03 02 01 01 a1 0e 30 0c 1b 0a
0060   63 68 65 6d 69 6b 61 64 7a 65 a9 10 1b 0e 41 54
0070   48 45 4e 41 2e 4d 49 54 2e 45 44 55 aa 23 30 21
0080   a0 03 02 01 02 a1 1a 30 18 1b 06 6b 72 62 74 67
0090   74 1b 0e 41 54 48 45 4e 41 2e 4d 49 54 2e 45 44
00a0   55 ab 12 1b 10 43 4c 49 45 4e 54 5f 4e 4f 54 5f
00b0   46 4f 55 4e 44
"

/-- The octets of the message with the GeneralString tags that Go does not know replaced: by PrintableString, or by UTF8String
where an underscore occurs. -/
def retagged (utf8 : Nat) (bs : List UInt8) : List UInt8 :=
  bs.zipIdx.map fun (b, i) => if b = 0x1b then if i = utf8 then 12 else 19 else b

/-- rfc4120_test.go:57-92: the octets `asn1.Marshal` writes are those of the message, up to the tag of GeneralString. -/
example : marshal asciiCasing asReq = (parseWiresharkHex asReqDump).map (retagged 1000) := by decide +kernel

/-- rfc4120_test.go:94-126 -/
example : marshal asciiCasing krbError = (parseWiresharkHex krbErrorDump).map (retagged 163) := by decide +kernel

/-- dump_test.go:5-28 TestParseWiresharkHex -/
example : (parseWiresharkHex (c! "
0000   6a 81 ad 30 81 aa a1 03 02 01 05 a2 03 02 01 0a
0010   a3 0e 30 0c 30 0a a1 04 02 02 00 95 a2 02 04 00
0020   a4 81 8d 30 81 8a a0 07 03 05 00 00 00 00 10 a1
0030   17 30 15 a0 03 02 01 01 a1 0e 30 0c 1b 0a 63 68
0040   65 6d 69 6b 61 64 7a 65 a2 10 1b 0e 41 54 48 45
0050   4e 41 2e 4d 49 54 2e 45 44 55 a3 23 30 21 a0 03
0060   02 01 02 a1 1a 30 18 1b 06 6b 72 62 74 67 74 1b
0070   0e 41 54 48 45 4e 41 2e 4d 49 54 2e 45 44 55 a5
0080   11 18 0f 32 30 31 38 30 31 30 33 30 36 30 34 30
0090   37 5a a7 06 02 04 64 21 bb 89 a8 14 30 12 02 01
00a0   12 02 01 11 02 01 10 02 01 17 02 01 19 02 01 1a
")).map (·.take 4) = some [0x6a, 0x81, 0xad, 0x30] := by decide +kernel

end Asn1go.Tests
