import Verif.Model.Codegen

/-! Written by tools/emit.sh: the module in /repo/examples/rfc4120.asn1 and the file generated for it. -/

namespace Asn1go.Tests

/-- RFC 4120: assignments 1 to 12. -/
def kerberosPart0 : List MAssignment := [
  .value (c! "id-krb5") .objectIdentifier (.objectIdentifier [⟨c! "iso", 1, none⟩, ⟨c! "identified-organization", 3, none⟩, ⟨c! "dod", 6, none⟩, ⟨c! "internet", 1, none⟩, ⟨c! "security", 5, none⟩, ⟨c! "kerberosV5", 2, none⟩]),
  .type (c! "Int32") (.constrained (.integer []) (.mk (.subtype [(.unions [[.mk (.valueRange ⟨(.number (-2147483648)), false⟩ ⟨(.number 2147483647), false⟩) .nil]])]))),
  .type (c! "UInt32") (.constrained (.integer []) (.mk (.subtype [(.unions [[.mk (.valueRange ⟨(.number 0), false⟩ ⟨(.number 4294967295), false⟩) .nil]])]))),
  .type (c! "Microseconds") (.constrained (.integer []) (.mk (.subtype [(.unions [[.mk (.valueRange ⟨(.number 0), false⟩ ⟨(.number 999999), false⟩) .nil]])]))),
  .type (c! "KerberosString") (.constrained (.restrictedString 57434) (.mk (.subtype [(.unions [[.mk (.typeConstraint (.restrictedString 57442)) .nil]])]))),
  .type (c! "Realm") (.ref (c! "KerberosString")),
  .type (c! "PrincipalName") (.sequence [.named (.mk (c! "name-type") (.tagged ⟨0, (.number 0)⟩ (.ref (c! "Int32")) 0 false)) false none, .named (.mk (c! "name-string") (.tagged ⟨0, (.number 1)⟩ (.sequenceOf (.ref (c! "KerberosString"))) 0 false)) false none] []),
  .type (c! "KerberosTime") (.ref (c! "GeneralizedTime")),
  .type (c! "HostAddress") (.sequence [.named (.mk (c! "addr-type") (.tagged ⟨0, (.number 0)⟩ (.ref (c! "Int32")) 0 false)) false none, .named (.mk (c! "address") (.tagged ⟨0, (.number 1)⟩ .octetString 0 false)) false none] []),
  .type (c! "HostAddresses") (.sequenceOf (.ref (c! "HostAddress"))),
  .type (c! "AuthorizationData") (.sequenceOf (.sequence [.named (.mk (c! "ad-type") (.tagged ⟨0, (.number 0)⟩ (.ref (c! "Int32")) 0 false)) false none, .named (.mk (c! "ad-data") (.tagged ⟨0, (.number 1)⟩ .octetString 0 false)) false none] [])),
  .type (c! "PA-DATA") (.sequence [.named (.mk (c! "padata-type") (.tagged ⟨0, (.number 1)⟩ (.ref (c! "Int32")) 0 false)) false none, .named (.mk (c! "padata-value") (.tagged ⟨0, (.number 2)⟩ .octetString 0 false)) false none] [])]

/-- RFC 4120: assignments 13 to 24. -/
def kerberosPart1 : List MAssignment := [
  .type (c! "KerberosFlags") (.constrained (.bitString []) (.mk (.subtype [(.unions [[.mk (.size (.mk (.subtype [(.unions [[.mk (.valueRange ⟨(.number 32), false⟩ ⟨.nil, false⟩) .nil]])]))) .nil]])]))),
  .type (c! "EncryptedData") (.sequence [.named (.mk (c! "etype") (.tagged ⟨0, (.number 0)⟩ (.ref (c! "Int32")) 0 false)) false none, .named (.mk (c! "kvno") (.tagged ⟨0, (.number 1)⟩ (.ref (c! "UInt32")) 0 false)) true none, .named (.mk (c! "cipher") (.tagged ⟨0, (.number 2)⟩ .octetString 0 false)) false none] []),
  .type (c! "EncryptionKey") (.sequence [.named (.mk (c! "keytype") (.tagged ⟨0, (.number 0)⟩ (.ref (c! "Int32")) 0 false)) false none, .named (.mk (c! "keyvalue") (.tagged ⟨0, (.number 1)⟩ .octetString 0 false)) false none] []),
  .type (c! "Checksum") (.sequence [.named (.mk (c! "cksumtype") (.tagged ⟨0, (.number 0)⟩ (.ref (c! "Int32")) 0 false)) false none, .named (.mk (c! "checksum") (.tagged ⟨0, (.number 1)⟩ .octetString 0 false)) false none] []),
  .type (c! "Ticket") (.tagged ⟨2, (.number 1)⟩ (.sequence [.named (.mk (c! "tkt-vno") (.tagged ⟨0, (.number 0)⟩ (.constrained (.integer []) (.mk (.subtype [(.unions [[.mk (.singleValue (.number 5)) .nil]])]))) 0 false)) false none, .named (.mk (c! "realm") (.tagged ⟨0, (.number 1)⟩ (.ref (c! "Realm")) 0 false)) false none, .named (.mk (c! "sname") (.tagged ⟨0, (.number 2)⟩ (.ref (c! "PrincipalName")) 0 false)) false none, .named (.mk (c! "enc-part") (.tagged ⟨0, (.number 3)⟩ (.ref (c! "EncryptedData")) 0 false)) false none] []) 0 false),
  .type (c! "EncTicketPart") (.tagged ⟨2, (.number 3)⟩ (.sequence [.named (.mk (c! "flags") (.tagged ⟨0, (.number 0)⟩ (.ref (c! "TicketFlags")) 0 false)) false none, .named (.mk (c! "key") (.tagged ⟨0, (.number 1)⟩ (.ref (c! "EncryptionKey")) 0 false)) false none, .named (.mk (c! "crealm") (.tagged ⟨0, (.number 2)⟩ (.ref (c! "Realm")) 0 false)) false none, .named (.mk (c! "cname") (.tagged ⟨0, (.number 3)⟩ (.ref (c! "PrincipalName")) 0 false)) false none, .named (.mk (c! "transited") (.tagged ⟨0, (.number 4)⟩ (.ref (c! "TransitedEncoding")) 0 false)) false none, .named (.mk (c! "authtime") (.tagged ⟨0, (.number 5)⟩ (.ref (c! "KerberosTime")) 0 false)) false none, .named (.mk (c! "starttime") (.tagged ⟨0, (.number 6)⟩ (.ref (c! "KerberosTime")) 0 false)) true none, .named (.mk (c! "endtime") (.tagged ⟨0, (.number 7)⟩ (.ref (c! "KerberosTime")) 0 false)) false none, .named (.mk (c! "renew-till") (.tagged ⟨0, (.number 8)⟩ (.ref (c! "KerberosTime")) 0 false)) true none, .named (.mk (c! "caddr") (.tagged ⟨0, (.number 9)⟩ (.ref (c! "HostAddresses")) 0 false)) true none, .named (.mk (c! "authorization-data") (.tagged ⟨0, (.number 10)⟩ (.ref (c! "AuthorizationData")) 0 false)) true none] []) 0 false),
  .type (c! "TransitedEncoding") (.sequence [.named (.mk (c! "tr-type") (.tagged ⟨0, (.number 0)⟩ (.ref (c! "Int32")) 0 false)) false none, .named (.mk (c! "contents") (.tagged ⟨0, (.number 1)⟩ .octetString 0 false)) false none] []),
  .type (c! "TicketFlags") (.ref (c! "KerberosFlags")),
  .type (c! "AS-REQ") (.tagged ⟨2, (.number 10)⟩ (.ref (c! "KDC-REQ")) 0 false),
  .type (c! "TGS-REQ") (.tagged ⟨2, (.number 12)⟩ (.ref (c! "KDC-REQ")) 0 false),
  .type (c! "KDC-REQ") (.sequence [.named (.mk (c! "pvno") (.tagged ⟨0, (.number 1)⟩ (.constrained (.integer []) (.mk (.subtype [(.unions [[.mk (.singleValue (.number 5)) .nil]])]))) 0 false)) false none, .named (.mk (c! "msg-type") (.tagged ⟨0, (.number 2)⟩ (.constrained (.integer []) (.mk (.subtype [(.unions [[.mk (.singleValue (.number 10)) .nil], [.mk (.singleValue (.number 12)) .nil]])]))) 0 false)) false none, .named (.mk (c! "padata") (.tagged ⟨0, (.number 3)⟩ (.sequenceOf (.ref (c! "PA-DATA"))) 0 false)) true none, .named (.mk (c! "req-body") (.tagged ⟨0, (.number 4)⟩ (.ref (c! "KDC-REQ-BODY")) 0 false)) false none] []),
  .type (c! "KDC-REQ-BODY") (.sequence [.named (.mk (c! "kdc-options") (.tagged ⟨0, (.number 0)⟩ (.ref (c! "KDCOptions")) 0 false)) false none, .named (.mk (c! "cname") (.tagged ⟨0, (.number 1)⟩ (.ref (c! "PrincipalName")) 0 false)) true none, .named (.mk (c! "realm") (.tagged ⟨0, (.number 2)⟩ (.ref (c! "Realm")) 0 false)) false none, .named (.mk (c! "sname") (.tagged ⟨0, (.number 3)⟩ (.ref (c! "PrincipalName")) 0 false)) true none, .named (.mk (c! "from") (.tagged ⟨0, (.number 4)⟩ (.ref (c! "KerberosTime")) 0 false)) true none, .named (.mk (c! "till") (.tagged ⟨0, (.number 5)⟩ (.ref (c! "KerberosTime")) 0 false)) false none, .named (.mk (c! "rtime") (.tagged ⟨0, (.number 6)⟩ (.ref (c! "KerberosTime")) 0 false)) true none, .named (.mk (c! "nonce") (.tagged ⟨0, (.number 7)⟩ (.ref (c! "UInt32")) 0 false)) false none, .named (.mk (c! "etype") (.tagged ⟨0, (.number 8)⟩ (.sequenceOf (.ref (c! "Int32"))) 0 false)) false none, .named (.mk (c! "addresses") (.tagged ⟨0, (.number 9)⟩ (.ref (c! "HostAddresses")) 0 false)) true none, .named (.mk (c! "enc-authorization-data") (.tagged ⟨0, (.number 10)⟩ (.ref (c! "EncryptedData")) 0 false)) true none, .named (.mk (c! "additional-tickets") (.tagged ⟨0, (.number 11)⟩ (.sequenceOf (.ref (c! "Ticket"))) 0 false)) true none] [])]

/-- RFC 4120: assignments 25 to 36. -/
def kerberosPart2 : List MAssignment := [
  .type (c! "KDCOptions") (.ref (c! "KerberosFlags")),
  .type (c! "AS-REP") (.tagged ⟨2, (.number 11)⟩ (.ref (c! "KDC-REP")) 0 false),
  .type (c! "TGS-REP") (.tagged ⟨2, (.number 13)⟩ (.ref (c! "KDC-REP")) 0 false),
  .type (c! "KDC-REP") (.sequence [.named (.mk (c! "pvno") (.tagged ⟨0, (.number 0)⟩ (.constrained (.integer []) (.mk (.subtype [(.unions [[.mk (.singleValue (.number 5)) .nil]])]))) 0 false)) false none, .named (.mk (c! "msg-type") (.tagged ⟨0, (.number 1)⟩ (.constrained (.integer []) (.mk (.subtype [(.unions [[.mk (.singleValue (.number 11)) .nil], [.mk (.singleValue (.number 13)) .nil]])]))) 0 false)) false none, .named (.mk (c! "padata") (.tagged ⟨0, (.number 2)⟩ (.sequenceOf (.ref (c! "PA-DATA"))) 0 false)) true none, .named (.mk (c! "crealm") (.tagged ⟨0, (.number 3)⟩ (.ref (c! "Realm")) 0 false)) false none, .named (.mk (c! "cname") (.tagged ⟨0, (.number 4)⟩ (.ref (c! "PrincipalName")) 0 false)) false none, .named (.mk (c! "ticket") (.tagged ⟨0, (.number 5)⟩ (.ref (c! "Ticket")) 0 false)) false none, .named (.mk (c! "enc-part") (.tagged ⟨0, (.number 6)⟩ (.ref (c! "EncryptedData")) 0 false)) false none] []),
  .type (c! "EncASRepPart") (.tagged ⟨2, (.number 25)⟩ (.ref (c! "EncKDCRepPart")) 0 false),
  .type (c! "EncTGSRepPart") (.tagged ⟨2, (.number 26)⟩ (.ref (c! "EncKDCRepPart")) 0 false),
  .type (c! "EncKDCRepPart") (.sequence [.named (.mk (c! "key") (.tagged ⟨0, (.number 0)⟩ (.ref (c! "EncryptionKey")) 0 false)) false none, .named (.mk (c! "last-req") (.tagged ⟨0, (.number 1)⟩ (.ref (c! "LastReq")) 0 false)) false none, .named (.mk (c! "nonce") (.tagged ⟨0, (.number 2)⟩ (.ref (c! "UInt32")) 0 false)) false none, .named (.mk (c! "key-expiration") (.tagged ⟨0, (.number 3)⟩ (.ref (c! "KerberosTime")) 0 false)) true none, .named (.mk (c! "flags") (.tagged ⟨0, (.number 4)⟩ (.ref (c! "TicketFlags")) 0 false)) false none, .named (.mk (c! "authtime") (.tagged ⟨0, (.number 5)⟩ (.ref (c! "KerberosTime")) 0 false)) false none, .named (.mk (c! "starttime") (.tagged ⟨0, (.number 6)⟩ (.ref (c! "KerberosTime")) 0 false)) true none, .named (.mk (c! "endtime") (.tagged ⟨0, (.number 7)⟩ (.ref (c! "KerberosTime")) 0 false)) false none, .named (.mk (c! "renew-till") (.tagged ⟨0, (.number 8)⟩ (.ref (c! "KerberosTime")) 0 false)) true none, .named (.mk (c! "srealm") (.tagged ⟨0, (.number 9)⟩ (.ref (c! "Realm")) 0 false)) false none, .named (.mk (c! "sname") (.tagged ⟨0, (.number 10)⟩ (.ref (c! "PrincipalName")) 0 false)) false none, .named (.mk (c! "caddr") (.tagged ⟨0, (.number 11)⟩ (.ref (c! "HostAddresses")) 0 false)) true none] []),
  .type (c! "LastReq") (.sequenceOf (.sequence [.named (.mk (c! "lr-type") (.tagged ⟨0, (.number 0)⟩ (.ref (c! "Int32")) 0 false)) false none, .named (.mk (c! "lr-value") (.tagged ⟨0, (.number 1)⟩ (.ref (c! "KerberosTime")) 0 false)) false none] [])),
  .type (c! "AP-REQ") (.tagged ⟨2, (.number 14)⟩ (.sequence [.named (.mk (c! "pvno") (.tagged ⟨0, (.number 0)⟩ (.constrained (.integer []) (.mk (.subtype [(.unions [[.mk (.singleValue (.number 5)) .nil]])]))) 0 false)) false none, .named (.mk (c! "msg-type") (.tagged ⟨0, (.number 1)⟩ (.constrained (.integer []) (.mk (.subtype [(.unions [[.mk (.singleValue (.number 14)) .nil]])]))) 0 false)) false none, .named (.mk (c! "ap-options") (.tagged ⟨0, (.number 2)⟩ (.ref (c! "APOptions")) 0 false)) false none, .named (.mk (c! "ticket") (.tagged ⟨0, (.number 3)⟩ (.ref (c! "Ticket")) 0 false)) false none, .named (.mk (c! "authenticator") (.tagged ⟨0, (.number 4)⟩ (.ref (c! "EncryptedData")) 0 false)) false none] []) 0 false),
  .type (c! "APOptions") (.ref (c! "KerberosFlags")),
  .type (c! "Authenticator") (.tagged ⟨2, (.number 2)⟩ (.sequence [.named (.mk (c! "authenticator-vno") (.tagged ⟨0, (.number 0)⟩ (.constrained (.integer []) (.mk (.subtype [(.unions [[.mk (.singleValue (.number 5)) .nil]])]))) 0 false)) false none, .named (.mk (c! "crealm") (.tagged ⟨0, (.number 1)⟩ (.ref (c! "Realm")) 0 false)) false none, .named (.mk (c! "cname") (.tagged ⟨0, (.number 2)⟩ (.ref (c! "PrincipalName")) 0 false)) false none, .named (.mk (c! "cksum") (.tagged ⟨0, (.number 3)⟩ (.ref (c! "Checksum")) 0 false)) true none, .named (.mk (c! "cusec") (.tagged ⟨0, (.number 4)⟩ (.ref (c! "Microseconds")) 0 false)) false none, .named (.mk (c! "ctime") (.tagged ⟨0, (.number 5)⟩ (.ref (c! "KerberosTime")) 0 false)) false none, .named (.mk (c! "subkey") (.tagged ⟨0, (.number 6)⟩ (.ref (c! "EncryptionKey")) 0 false)) true none, .named (.mk (c! "seq-number") (.tagged ⟨0, (.number 7)⟩ (.ref (c! "UInt32")) 0 false)) true none, .named (.mk (c! "authorization-data") (.tagged ⟨0, (.number 8)⟩ (.ref (c! "AuthorizationData")) 0 false)) true none] []) 0 false),
  .type (c! "AP-REP") (.tagged ⟨2, (.number 15)⟩ (.sequence [.named (.mk (c! "pvno") (.tagged ⟨0, (.number 0)⟩ (.constrained (.integer []) (.mk (.subtype [(.unions [[.mk (.singleValue (.number 5)) .nil]])]))) 0 false)) false none, .named (.mk (c! "msg-type") (.tagged ⟨0, (.number 1)⟩ (.constrained (.integer []) (.mk (.subtype [(.unions [[.mk (.singleValue (.number 15)) .nil]])]))) 0 false)) false none, .named (.mk (c! "enc-part") (.tagged ⟨0, (.number 2)⟩ (.ref (c! "EncryptedData")) 0 false)) false none] []) 0 false)]

/-- RFC 4120: assignments 37 to 48. -/
def kerberosPart3 : List MAssignment := [
  .type (c! "EncAPRepPart") (.tagged ⟨2, (.number 27)⟩ (.sequence [.named (.mk (c! "ctime") (.tagged ⟨0, (.number 0)⟩ (.ref (c! "KerberosTime")) 0 false)) false none, .named (.mk (c! "cusec") (.tagged ⟨0, (.number 1)⟩ (.ref (c! "Microseconds")) 0 false)) false none, .named (.mk (c! "subkey") (.tagged ⟨0, (.number 2)⟩ (.ref (c! "EncryptionKey")) 0 false)) true none, .named (.mk (c! "seq-number") (.tagged ⟨0, (.number 3)⟩ (.ref (c! "UInt32")) 0 false)) true none] []) 0 false),
  .type (c! "KRB-SAFE") (.tagged ⟨2, (.number 20)⟩ (.sequence [.named (.mk (c! "pvno") (.tagged ⟨0, (.number 0)⟩ (.constrained (.integer []) (.mk (.subtype [(.unions [[.mk (.singleValue (.number 5)) .nil]])]))) 0 false)) false none, .named (.mk (c! "msg-type") (.tagged ⟨0, (.number 1)⟩ (.constrained (.integer []) (.mk (.subtype [(.unions [[.mk (.singleValue (.number 20)) .nil]])]))) 0 false)) false none, .named (.mk (c! "safe-body") (.tagged ⟨0, (.number 2)⟩ (.ref (c! "KRB-SAFE-BODY")) 0 false)) false none, .named (.mk (c! "cksum") (.tagged ⟨0, (.number 3)⟩ (.ref (c! "Checksum")) 0 false)) false none] []) 0 false),
  .type (c! "KRB-SAFE-BODY") (.sequence [.named (.mk (c! "user-data") (.tagged ⟨0, (.number 0)⟩ .octetString 0 false)) false none, .named (.mk (c! "timestamp") (.tagged ⟨0, (.number 1)⟩ (.ref (c! "KerberosTime")) 0 false)) true none, .named (.mk (c! "usec") (.tagged ⟨0, (.number 2)⟩ (.ref (c! "Microseconds")) 0 false)) true none, .named (.mk (c! "seq-number") (.tagged ⟨0, (.number 3)⟩ (.ref (c! "UInt32")) 0 false)) true none, .named (.mk (c! "s-address") (.tagged ⟨0, (.number 4)⟩ (.ref (c! "HostAddress")) 0 false)) false none, .named (.mk (c! "r-address") (.tagged ⟨0, (.number 5)⟩ (.ref (c! "HostAddress")) 0 false)) true none] []),
  .type (c! "KRB-PRIV") (.tagged ⟨2, (.number 21)⟩ (.sequence [.named (.mk (c! "pvno") (.tagged ⟨0, (.number 0)⟩ (.constrained (.integer []) (.mk (.subtype [(.unions [[.mk (.singleValue (.number 5)) .nil]])]))) 0 false)) false none, .named (.mk (c! "msg-type") (.tagged ⟨0, (.number 1)⟩ (.constrained (.integer []) (.mk (.subtype [(.unions [[.mk (.singleValue (.number 21)) .nil]])]))) 0 false)) false none, .named (.mk (c! "enc-part") (.tagged ⟨0, (.number 3)⟩ (.ref (c! "EncryptedData")) 0 false)) false none] []) 0 false),
  .type (c! "EncKrbPrivPart") (.tagged ⟨2, (.number 28)⟩ (.sequence [.named (.mk (c! "user-data") (.tagged ⟨0, (.number 0)⟩ .octetString 0 false)) false none, .named (.mk (c! "timestamp") (.tagged ⟨0, (.number 1)⟩ (.ref (c! "KerberosTime")) 0 false)) true none, .named (.mk (c! "usec") (.tagged ⟨0, (.number 2)⟩ (.ref (c! "Microseconds")) 0 false)) true none, .named (.mk (c! "seq-number") (.tagged ⟨0, (.number 3)⟩ (.ref (c! "UInt32")) 0 false)) true none, .named (.mk (c! "s-address") (.tagged ⟨0, (.number 4)⟩ (.ref (c! "HostAddress")) 0 false)) false none, .named (.mk (c! "r-address") (.tagged ⟨0, (.number 5)⟩ (.ref (c! "HostAddress")) 0 false)) true none] []) 0 false),
  .type (c! "KRB-CRED") (.tagged ⟨2, (.number 22)⟩ (.sequence [.named (.mk (c! "pvno") (.tagged ⟨0, (.number 0)⟩ (.constrained (.integer []) (.mk (.subtype [(.unions [[.mk (.singleValue (.number 5)) .nil]])]))) 0 false)) false none, .named (.mk (c! "msg-type") (.tagged ⟨0, (.number 1)⟩ (.constrained (.integer []) (.mk (.subtype [(.unions [[.mk (.singleValue (.number 22)) .nil]])]))) 0 false)) false none, .named (.mk (c! "tickets") (.tagged ⟨0, (.number 2)⟩ (.sequenceOf (.ref (c! "Ticket"))) 0 false)) false none, .named (.mk (c! "enc-part") (.tagged ⟨0, (.number 3)⟩ (.ref (c! "EncryptedData")) 0 false)) false none] []) 0 false),
  .type (c! "EncKrbCredPart") (.tagged ⟨2, (.number 29)⟩ (.sequence [.named (.mk (c! "ticket-info") (.tagged ⟨0, (.number 0)⟩ (.sequenceOf (.ref (c! "KrbCredInfo"))) 0 false)) false none, .named (.mk (c! "nonce") (.tagged ⟨0, (.number 1)⟩ (.ref (c! "UInt32")) 0 false)) true none, .named (.mk (c! "timestamp") (.tagged ⟨0, (.number 2)⟩ (.ref (c! "KerberosTime")) 0 false)) true none, .named (.mk (c! "usec") (.tagged ⟨0, (.number 3)⟩ (.ref (c! "Microseconds")) 0 false)) true none, .named (.mk (c! "s-address") (.tagged ⟨0, (.number 4)⟩ (.ref (c! "HostAddress")) 0 false)) true none, .named (.mk (c! "r-address") (.tagged ⟨0, (.number 5)⟩ (.ref (c! "HostAddress")) 0 false)) true none] []) 0 false),
  .type (c! "KrbCredInfo") (.sequence [.named (.mk (c! "key") (.tagged ⟨0, (.number 0)⟩ (.ref (c! "EncryptionKey")) 0 false)) false none, .named (.mk (c! "prealm") (.tagged ⟨0, (.number 1)⟩ (.ref (c! "Realm")) 0 false)) true none, .named (.mk (c! "pname") (.tagged ⟨0, (.number 2)⟩ (.ref (c! "PrincipalName")) 0 false)) true none, .named (.mk (c! "flags") (.tagged ⟨0, (.number 3)⟩ (.ref (c! "TicketFlags")) 0 false)) true none, .named (.mk (c! "authtime") (.tagged ⟨0, (.number 4)⟩ (.ref (c! "KerberosTime")) 0 false)) true none, .named (.mk (c! "starttime") (.tagged ⟨0, (.number 5)⟩ (.ref (c! "KerberosTime")) 0 false)) true none, .named (.mk (c! "endtime") (.tagged ⟨0, (.number 6)⟩ (.ref (c! "KerberosTime")) 0 false)) true none, .named (.mk (c! "renew-till") (.tagged ⟨0, (.number 7)⟩ (.ref (c! "KerberosTime")) 0 false)) true none, .named (.mk (c! "srealm") (.tagged ⟨0, (.number 8)⟩ (.ref (c! "Realm")) 0 false)) true none, .named (.mk (c! "sname") (.tagged ⟨0, (.number 9)⟩ (.ref (c! "PrincipalName")) 0 false)) true none, .named (.mk (c! "caddr") (.tagged ⟨0, (.number 10)⟩ (.ref (c! "HostAddresses")) 0 false)) true none] []),
  .type (c! "KRB-ERROR") (.tagged ⟨2, (.number 30)⟩ (.sequence [.named (.mk (c! "pvno") (.tagged ⟨0, (.number 0)⟩ (.constrained (.integer []) (.mk (.subtype [(.unions [[.mk (.singleValue (.number 5)) .nil]])]))) 0 false)) false none, .named (.mk (c! "msg-type") (.tagged ⟨0, (.number 1)⟩ (.constrained (.integer []) (.mk (.subtype [(.unions [[.mk (.singleValue (.number 30)) .nil]])]))) 0 false)) false none, .named (.mk (c! "ctime") (.tagged ⟨0, (.number 2)⟩ (.ref (c! "KerberosTime")) 0 false)) true none, .named (.mk (c! "cusec") (.tagged ⟨0, (.number 3)⟩ (.ref (c! "Microseconds")) 0 false)) true none, .named (.mk (c! "stime") (.tagged ⟨0, (.number 4)⟩ (.ref (c! "KerberosTime")) 0 false)) false none, .named (.mk (c! "susec") (.tagged ⟨0, (.number 5)⟩ (.ref (c! "Microseconds")) 0 false)) false none, .named (.mk (c! "error-code") (.tagged ⟨0, (.number 6)⟩ (.ref (c! "Int32")) 0 false)) false none, .named (.mk (c! "crealm") (.tagged ⟨0, (.number 7)⟩ (.ref (c! "Realm")) 0 false)) true none, .named (.mk (c! "cname") (.tagged ⟨0, (.number 8)⟩ (.ref (c! "PrincipalName")) 0 false)) true none, .named (.mk (c! "realm") (.tagged ⟨0, (.number 9)⟩ (.ref (c! "Realm")) 0 false)) false none, .named (.mk (c! "sname") (.tagged ⟨0, (.number 10)⟩ (.ref (c! "PrincipalName")) 0 false)) false none, .named (.mk (c! "e-text") (.tagged ⟨0, (.number 11)⟩ (.ref (c! "KerberosString")) 0 false)) true none, .named (.mk (c! "e-data") (.tagged ⟨0, (.number 12)⟩ .octetString 0 false)) true none] []) 0 false),
  .type (c! "METHOD-DATA") (.sequenceOf (.ref (c! "PA-DATA"))),
  .type (c! "TYPED-DATA") (.constrained (.sequenceOf (.sequence [.named (.mk (c! "data-type") (.tagged ⟨0, (.number 0)⟩ (.ref (c! "Int32")) 0 false)) false none, .named (.mk (c! "data-value") (.tagged ⟨0, (.number 1)⟩ .octetString 0 false)) true none] [])) (.mk (.subtype [(.unions [[.mk (.size (.mk (.subtype [(.unions [[.mk (.valueRange ⟨(.number 1), false⟩ ⟨.nil, false⟩) .nil]])]))) .nil]])]))),
  .type (c! "PA-ENC-TIMESTAMP") (.ref (c! "EncryptedData"))]

/-- RFC 4120: assignments 49 to 57. -/
def kerberosPart4 : List MAssignment := [
  .type (c! "PA-ENC-TS-ENC") (.sequence [.named (.mk (c! "patimestamp") (.tagged ⟨0, (.number 0)⟩ (.ref (c! "KerberosTime")) 0 false)) false none, .named (.mk (c! "pausec") (.tagged ⟨0, (.number 1)⟩ (.ref (c! "Microseconds")) 0 false)) true none] []),
  .type (c! "ETYPE-INFO-ENTRY") (.sequence [.named (.mk (c! "etype") (.tagged ⟨0, (.number 0)⟩ (.ref (c! "Int32")) 0 false)) false none, .named (.mk (c! "salt") (.tagged ⟨0, (.number 1)⟩ .octetString 0 false)) true none] []),
  .type (c! "ETYPE-INFO") (.sequenceOf (.ref (c! "ETYPE-INFO-ENTRY"))),
  .type (c! "ETYPE-INFO2-ENTRY") (.sequence [.named (.mk (c! "etype") (.tagged ⟨0, (.number 0)⟩ (.ref (c! "Int32")) 0 false)) false none, .named (.mk (c! "salt") (.tagged ⟨0, (.number 1)⟩ (.ref (c! "KerberosString")) 0 false)) true none, .named (.mk (c! "s2kparams") (.tagged ⟨0, (.number 2)⟩ .octetString 0 false)) true none] []),
  .type (c! "ETYPE-INFO2") (.constrained (.sequenceOf (.ref (c! "ETYPE-INFO2-ENTRY"))) (.mk (.subtype [(.unions [[.mk (.size (.mk (.subtype [(.unions [[.mk (.valueRange ⟨(.number 1), false⟩ ⟨.nil, false⟩) .nil]])]))) .nil]])]))),
  .type (c! "AD-IF-RELEVANT") (.ref (c! "AuthorizationData")),
  .type (c! "AD-KDCIssued") (.sequence [.named (.mk (c! "ad-checksum") (.tagged ⟨0, (.number 0)⟩ (.ref (c! "Checksum")) 0 false)) false none, .named (.mk (c! "i-realm") (.tagged ⟨0, (.number 1)⟩ (.ref (c! "Realm")) 0 false)) true none, .named (.mk (c! "i-sname") (.tagged ⟨0, (.number 2)⟩ (.ref (c! "PrincipalName")) 0 false)) true none, .named (.mk (c! "elements") (.tagged ⟨0, (.number 3)⟩ (.ref (c! "AuthorizationData")) 0 false)) false none] []),
  .type (c! "AD-AND-OR") (.sequence [.named (.mk (c! "condition-count") (.tagged ⟨0, (.number 0)⟩ (.ref (c! "Int32")) 0 false)) false none, .named (.mk (c! "elements") (.tagged ⟨0, (.number 1)⟩ (.ref (c! "AuthorizationData")) 0 false)) false none] []),
  .type (c! "AD-MANDATORY-FOR-KDC") (.ref (c! "AuthorizationData"))]

/-- RFC 4120: the module. -/
def kerberos : Module where
  moduleIdentifier := ⟨c! "KerberosV5Spec2", [⟨c! "iso", 1⟩, ⟨c! "identified-organization", 3⟩, ⟨c! "dod", 6⟩, ⟨c! "internet", 1⟩, ⟨c! "security", 5⟩, ⟨c! "kerberosV5", 2⟩, ⟨c! "modules", 4⟩, ⟨c! "krb5spec2", 2⟩]⟩
  tagDefault := 0
  extensibilityImplied := false
  moduleBody := ⟨kerberosPart0 ++ (kerberosPart1 ++ (kerberosPart2 ++ (kerberosPart3 ++ (kerberosPart4)))), []⟩

/-- RFC 4120, integers as int64: declarations 1 to 12. -/
def kerberosDecls0 : List GoDecl := [
  .imp (c! "time"),
  .imp (c! "encoding/asn1"),
  .type [⟨c! "Int32", true, (.ident (c! "int64"))⟩],
  .type [⟨c! "UInt32", true, (.ident (c! "int64"))⟩],
  .type [⟨c! "Microseconds", true, (.ident (c! "int64"))⟩],
  .type [⟨c! "KerberosString", true, (.ident (c! "string"))⟩],
  .type [⟨c! "Realm", true, (.ident (c! "KerberosString"))⟩],
  .type [⟨c! "PrincipalName", false, (.struct [.mk (c! "Name_type") (.ident (c! "Int32")) (some (c! "`asn1:\"explicit,tag:0\"`")), .mk (c! "Name_string") (.array (.ident (c! "KerberosString"))) (some (c! "`asn1:\"explicit,tag:1\"`"))])⟩],
  .type [⟨c! "KerberosTime", true, (.ident (c! "time.Time"))⟩],
  .type [⟨c! "HostAddress", false, (.struct [.mk (c! "Addr_type") (.ident (c! "Int32")) (some (c! "`asn1:\"explicit,tag:0\"`")), .mk (c! "Address") (.array (.ident (c! "byte"))) (some (c! "`asn1:\"explicit,tag:1\"`"))])⟩],
  .type [⟨c! "HostAddresses", true, (.array (.ident (c! "HostAddress")))⟩],
  .type [⟨c! "AuthorizationData", true, (.array (.struct [.mk (c! "Ad_type") (.ident (c! "Int32")) (some (c! "`asn1:\"explicit,tag:0\"`")), .mk (c! "Ad_data") (.array (.ident (c! "byte"))) (some (c! "`asn1:\"explicit,tag:1\"`"))]))⟩]]

/-- RFC 4120, integers as int64: declarations 13 to 24. -/
def kerberosDecls1 : List GoDecl := [
  .type [⟨c! "PA_DATA", false, (.struct [.mk (c! "Padata_type") (.ident (c! "Int32")) (some (c! "`asn1:\"explicit,tag:1\"`")), .mk (c! "Padata_value") (.array (.ident (c! "byte"))) (some (c! "`asn1:\"explicit,tag:2\"`"))])⟩],
  .type [⟨c! "KerberosFlags", true, (.ident (c! "asn1.BitString"))⟩],
  .type [⟨c! "EncryptedData", false, (.struct [.mk (c! "Etype") (.ident (c! "Int32")) (some (c! "`asn1:\"explicit,tag:0\"`")), .mk (c! "Kvno") (.ident (c! "UInt32")) (some (c! "`asn1:\"optional,explicit,tag:1\"`")), .mk (c! "Cipher") (.array (.ident (c! "byte"))) (some (c! "`asn1:\"explicit,tag:2\"`"))])⟩],
  .type [⟨c! "EncryptionKey", false, (.struct [.mk (c! "Keytype") (.ident (c! "Int32")) (some (c! "`asn1:\"explicit,tag:0\"`")), .mk (c! "Keyvalue") (.array (.ident (c! "byte"))) (some (c! "`asn1:\"explicit,tag:1\"`"))])⟩],
  .type [⟨c! "Checksum", false, (.struct [.mk (c! "Cksumtype") (.ident (c! "Int32")) (some (c! "`asn1:\"explicit,tag:0\"`")), .mk (c! "Checksum") (.array (.ident (c! "byte"))) (some (c! "`asn1:\"explicit,tag:1\"`"))])⟩],
  .type [⟨c! "Ticket", false, (.struct [.mk (c! "Tkt_vno") (.ident (c! "int64")) (some (c! "`asn1:\"explicit,tag:0\"`")), .mk (c! "Realm") (.ident (c! "Realm")) (some (c! "`asn1:\"explicit,tag:1\"`")), .mk (c! "Sname") (.ident (c! "PrincipalName")) (some (c! "`asn1:\"explicit,tag:2\"`")), .mk (c! "Enc_part") (.ident (c! "EncryptedData")) (some (c! "`asn1:\"explicit,tag:3\"`"))])⟩],
  .type [⟨c! "EncTicketPart", false, (.struct [.mk (c! "Flags") (.ident (c! "asn1.BitString")) (some (c! "`asn1:\"explicit,tag:0\"`")), .mk (c! "Key") (.ident (c! "EncryptionKey")) (some (c! "`asn1:\"explicit,tag:1\"`")), .mk (c! "Crealm") (.ident (c! "Realm")) (some (c! "`asn1:\"explicit,tag:2\"`")), .mk (c! "Cname") (.ident (c! "PrincipalName")) (some (c! "`asn1:\"explicit,tag:3\"`")), .mk (c! "Transited") (.ident (c! "TransitedEncoding")) (some (c! "`asn1:\"explicit,tag:4\"`")), .mk (c! "Authtime") (.ident (c! "time.Time")) (some (c! "`asn1:\"explicit,tag:5,generalized\"`")), .mk (c! "Starttime") (.ident (c! "time.Time")) (some (c! "`asn1:\"optional,explicit,tag:6,generalized\"`")), .mk (c! "Endtime") (.ident (c! "time.Time")) (some (c! "`asn1:\"explicit,tag:7,generalized\"`")), .mk (c! "Renew_till") (.ident (c! "time.Time")) (some (c! "`asn1:\"optional,explicit,tag:8,generalized\"`")), .mk (c! "Caddr") (.ident (c! "HostAddresses")) (some (c! "`asn1:\"optional,explicit,tag:9\"`")), .mk (c! "Authorization_data") (.ident (c! "AuthorizationData")) (some (c! "`asn1:\"optional,explicit,tag:10\"`"))])⟩],
  .type [⟨c! "TransitedEncoding", false, (.struct [.mk (c! "Tr_type") (.ident (c! "Int32")) (some (c! "`asn1:\"explicit,tag:0\"`")), .mk (c! "Contents") (.array (.ident (c! "byte"))) (some (c! "`asn1:\"explicit,tag:1\"`"))])⟩],
  .type [⟨c! "TicketFlags", true, (.ident (c! "asn1.BitString"))⟩],
  .type [⟨c! "AS_REQ", true, (.ident (c! "KDC_REQ"))⟩],
  .type [⟨c! "TGS_REQ", true, (.ident (c! "KDC_REQ"))⟩],
  .type [⟨c! "KDC_REQ", false, (.struct [.mk (c! "Pvno") (.ident (c! "int64")) (some (c! "`asn1:\"explicit,tag:1\"`")), .mk (c! "Msg_type") (.ident (c! "int64")) (some (c! "`asn1:\"explicit,tag:2\"`")), .mk (c! "Padata") (.array (.ident (c! "PA_DATA"))) (some (c! "`asn1:\"optional,explicit,tag:3\"`")), .mk (c! "Req_body") (.ident (c! "KDC_REQ_BODY")) (some (c! "`asn1:\"explicit,tag:4\"`"))])⟩]]

/-- RFC 4120, integers as int64: declarations 25 to 36. -/
def kerberosDecls2 : List GoDecl := [
  .type [⟨c! "KDC_REQ_BODY", false, (.struct [.mk (c! "Kdc_options") (.ident (c! "asn1.BitString")) (some (c! "`asn1:\"explicit,tag:0\"`")), .mk (c! "Cname") (.ident (c! "PrincipalName")) (some (c! "`asn1:\"optional,explicit,tag:1\"`")), .mk (c! "Realm") (.ident (c! "Realm")) (some (c! "`asn1:\"explicit,tag:2\"`")), .mk (c! "Sname") (.ident (c! "PrincipalName")) (some (c! "`asn1:\"optional,explicit,tag:3\"`")), .mk (c! "From") (.ident (c! "time.Time")) (some (c! "`asn1:\"optional,explicit,tag:4,generalized\"`")), .mk (c! "Till") (.ident (c! "time.Time")) (some (c! "`asn1:\"explicit,tag:5,generalized\"`")), .mk (c! "Rtime") (.ident (c! "time.Time")) (some (c! "`asn1:\"optional,explicit,tag:6,generalized\"`")), .mk (c! "Nonce") (.ident (c! "UInt32")) (some (c! "`asn1:\"explicit,tag:7\"`")), .mk (c! "Etype") (.array (.ident (c! "Int32"))) (some (c! "`asn1:\"explicit,tag:8\"`")), .mk (c! "Addresses") (.ident (c! "HostAddresses")) (some (c! "`asn1:\"optional,explicit,tag:9\"`")), .mk (c! "Enc_authorization_data") (.ident (c! "EncryptedData")) (some (c! "`asn1:\"optional,explicit,tag:10\"`")), .mk (c! "Additional_tickets") (.array (.ident (c! "Ticket"))) (some (c! "`asn1:\"optional,explicit,tag:11\"`"))])⟩],
  .type [⟨c! "KDCOptions", true, (.ident (c! "asn1.BitString"))⟩],
  .type [⟨c! "AS_REP", true, (.ident (c! "KDC_REP"))⟩],
  .type [⟨c! "TGS_REP", true, (.ident (c! "KDC_REP"))⟩],
  .type [⟨c! "KDC_REP", false, (.struct [.mk (c! "Pvno") (.ident (c! "int64")) (some (c! "`asn1:\"explicit,tag:0\"`")), .mk (c! "Msg_type") (.ident (c! "int64")) (some (c! "`asn1:\"explicit,tag:1\"`")), .mk (c! "Padata") (.array (.ident (c! "PA_DATA"))) (some (c! "`asn1:\"optional,explicit,tag:2\"`")), .mk (c! "Crealm") (.ident (c! "Realm")) (some (c! "`asn1:\"explicit,tag:3\"`")), .mk (c! "Cname") (.ident (c! "PrincipalName")) (some (c! "`asn1:\"explicit,tag:4\"`")), .mk (c! "Ticket") (.ident (c! "Ticket")) (some (c! "`asn1:\"explicit,tag:5\"`")), .mk (c! "Enc_part") (.ident (c! "EncryptedData")) (some (c! "`asn1:\"explicit,tag:6\"`"))])⟩],
  .type [⟨c! "EncASRepPart", true, (.ident (c! "EncKDCRepPart"))⟩],
  .type [⟨c! "EncTGSRepPart", true, (.ident (c! "EncKDCRepPart"))⟩],
  .type [⟨c! "EncKDCRepPart", false, (.struct [.mk (c! "Key") (.ident (c! "EncryptionKey")) (some (c! "`asn1:\"explicit,tag:0\"`")), .mk (c! "Last_req") (.ident (c! "LastReq")) (some (c! "`asn1:\"explicit,tag:1\"`")), .mk (c! "Nonce") (.ident (c! "UInt32")) (some (c! "`asn1:\"explicit,tag:2\"`")), .mk (c! "Key_expiration") (.ident (c! "time.Time")) (some (c! "`asn1:\"optional,explicit,tag:3,generalized\"`")), .mk (c! "Flags") (.ident (c! "asn1.BitString")) (some (c! "`asn1:\"explicit,tag:4\"`")), .mk (c! "Authtime") (.ident (c! "time.Time")) (some (c! "`asn1:\"explicit,tag:5,generalized\"`")), .mk (c! "Starttime") (.ident (c! "time.Time")) (some (c! "`asn1:\"optional,explicit,tag:6,generalized\"`")), .mk (c! "Endtime") (.ident (c! "time.Time")) (some (c! "`asn1:\"explicit,tag:7,generalized\"`")), .mk (c! "Renew_till") (.ident (c! "time.Time")) (some (c! "`asn1:\"optional,explicit,tag:8,generalized\"`")), .mk (c! "Srealm") (.ident (c! "Realm")) (some (c! "`asn1:\"explicit,tag:9\"`")), .mk (c! "Sname") (.ident (c! "PrincipalName")) (some (c! "`asn1:\"explicit,tag:10\"`")), .mk (c! "Caddr") (.ident (c! "HostAddresses")) (some (c! "`asn1:\"optional,explicit,tag:11\"`"))])⟩],
  .type [⟨c! "LastReq", true, (.array (.struct [.mk (c! "Lr_type") (.ident (c! "Int32")) (some (c! "`asn1:\"explicit,tag:0\"`")), .mk (c! "Lr_value") (.ident (c! "time.Time")) (some (c! "`asn1:\"explicit,tag:1,generalized\"`"))]))⟩],
  .type [⟨c! "AP_REQ", false, (.struct [.mk (c! "Pvno") (.ident (c! "int64")) (some (c! "`asn1:\"explicit,tag:0\"`")), .mk (c! "Msg_type") (.ident (c! "int64")) (some (c! "`asn1:\"explicit,tag:1\"`")), .mk (c! "Ap_options") (.ident (c! "asn1.BitString")) (some (c! "`asn1:\"explicit,tag:2\"`")), .mk (c! "Ticket") (.ident (c! "Ticket")) (some (c! "`asn1:\"explicit,tag:3\"`")), .mk (c! "Authenticator") (.ident (c! "EncryptedData")) (some (c! "`asn1:\"explicit,tag:4\"`"))])⟩],
  .type [⟨c! "APOptions", true, (.ident (c! "asn1.BitString"))⟩],
  .type [⟨c! "Authenticator", false, (.struct [.mk (c! "Authenticator_vno") (.ident (c! "int64")) (some (c! "`asn1:\"explicit,tag:0\"`")), .mk (c! "Crealm") (.ident (c! "Realm")) (some (c! "`asn1:\"explicit,tag:1\"`")), .mk (c! "Cname") (.ident (c! "PrincipalName")) (some (c! "`asn1:\"explicit,tag:2\"`")), .mk (c! "Cksum") (.ident (c! "Checksum")) (some (c! "`asn1:\"optional,explicit,tag:3\"`")), .mk (c! "Cusec") (.ident (c! "Microseconds")) (some (c! "`asn1:\"explicit,tag:4\"`")), .mk (c! "Ctime") (.ident (c! "time.Time")) (some (c! "`asn1:\"explicit,tag:5,generalized\"`")), .mk (c! "Subkey") (.ident (c! "EncryptionKey")) (some (c! "`asn1:\"optional,explicit,tag:6\"`")), .mk (c! "Seq_number") (.ident (c! "UInt32")) (some (c! "`asn1:\"optional,explicit,tag:7\"`")), .mk (c! "Authorization_data") (.ident (c! "AuthorizationData")) (some (c! "`asn1:\"optional,explicit,tag:8\"`"))])⟩]]

/-- RFC 4120, integers as int64: declarations 37 to 48. -/
def kerberosDecls3 : List GoDecl := [
  .type [⟨c! "AP_REP", false, (.struct [.mk (c! "Pvno") (.ident (c! "int64")) (some (c! "`asn1:\"explicit,tag:0\"`")), .mk (c! "Msg_type") (.ident (c! "int64")) (some (c! "`asn1:\"explicit,tag:1\"`")), .mk (c! "Enc_part") (.ident (c! "EncryptedData")) (some (c! "`asn1:\"explicit,tag:2\"`"))])⟩],
  .type [⟨c! "EncAPRepPart", false, (.struct [.mk (c! "Ctime") (.ident (c! "time.Time")) (some (c! "`asn1:\"explicit,tag:0,generalized\"`")), .mk (c! "Cusec") (.ident (c! "Microseconds")) (some (c! "`asn1:\"explicit,tag:1\"`")), .mk (c! "Subkey") (.ident (c! "EncryptionKey")) (some (c! "`asn1:\"optional,explicit,tag:2\"`")), .mk (c! "Seq_number") (.ident (c! "UInt32")) (some (c! "`asn1:\"optional,explicit,tag:3\"`"))])⟩],
  .type [⟨c! "KRB_SAFE", false, (.struct [.mk (c! "Pvno") (.ident (c! "int64")) (some (c! "`asn1:\"explicit,tag:0\"`")), .mk (c! "Msg_type") (.ident (c! "int64")) (some (c! "`asn1:\"explicit,tag:1\"`")), .mk (c! "Safe_body") (.ident (c! "KRB_SAFE_BODY")) (some (c! "`asn1:\"explicit,tag:2\"`")), .mk (c! "Cksum") (.ident (c! "Checksum")) (some (c! "`asn1:\"explicit,tag:3\"`"))])⟩],
  .type [⟨c! "KRB_SAFE_BODY", false, (.struct [.mk (c! "User_data") (.array (.ident (c! "byte"))) (some (c! "`asn1:\"explicit,tag:0\"`")), .mk (c! "Timestamp") (.ident (c! "time.Time")) (some (c! "`asn1:\"optional,explicit,tag:1,generalized\"`")), .mk (c! "Usec") (.ident (c! "Microseconds")) (some (c! "`asn1:\"optional,explicit,tag:2\"`")), .mk (c! "Seq_number") (.ident (c! "UInt32")) (some (c! "`asn1:\"optional,explicit,tag:3\"`")), .mk (c! "S_address") (.ident (c! "HostAddress")) (some (c! "`asn1:\"explicit,tag:4\"`")), .mk (c! "R_address") (.ident (c! "HostAddress")) (some (c! "`asn1:\"optional,explicit,tag:5\"`"))])⟩],
  .type [⟨c! "KRB_PRIV", false, (.struct [.mk (c! "Pvno") (.ident (c! "int64")) (some (c! "`asn1:\"explicit,tag:0\"`")), .mk (c! "Msg_type") (.ident (c! "int64")) (some (c! "`asn1:\"explicit,tag:1\"`")), .mk (c! "Enc_part") (.ident (c! "EncryptedData")) (some (c! "`asn1:\"explicit,tag:3\"`"))])⟩],
  .type [⟨c! "EncKrbPrivPart", false, (.struct [.mk (c! "User_data") (.array (.ident (c! "byte"))) (some (c! "`asn1:\"explicit,tag:0\"`")), .mk (c! "Timestamp") (.ident (c! "time.Time")) (some (c! "`asn1:\"optional,explicit,tag:1,generalized\"`")), .mk (c! "Usec") (.ident (c! "Microseconds")) (some (c! "`asn1:\"optional,explicit,tag:2\"`")), .mk (c! "Seq_number") (.ident (c! "UInt32")) (some (c! "`asn1:\"optional,explicit,tag:3\"`")), .mk (c! "S_address") (.ident (c! "HostAddress")) (some (c! "`asn1:\"explicit,tag:4\"`")), .mk (c! "R_address") (.ident (c! "HostAddress")) (some (c! "`asn1:\"optional,explicit,tag:5\"`"))])⟩],
  .type [⟨c! "KRB_CRED", false, (.struct [.mk (c! "Pvno") (.ident (c! "int64")) (some (c! "`asn1:\"explicit,tag:0\"`")), .mk (c! "Msg_type") (.ident (c! "int64")) (some (c! "`asn1:\"explicit,tag:1\"`")), .mk (c! "Tickets") (.array (.ident (c! "Ticket"))) (some (c! "`asn1:\"explicit,tag:2\"`")), .mk (c! "Enc_part") (.ident (c! "EncryptedData")) (some (c! "`asn1:\"explicit,tag:3\"`"))])⟩],
  .type [⟨c! "EncKrbCredPart", false, (.struct [.mk (c! "Ticket_info") (.array (.ident (c! "KrbCredInfo"))) (some (c! "`asn1:\"explicit,tag:0\"`")), .mk (c! "Nonce") (.ident (c! "UInt32")) (some (c! "`asn1:\"optional,explicit,tag:1\"`")), .mk (c! "Timestamp") (.ident (c! "time.Time")) (some (c! "`asn1:\"optional,explicit,tag:2,generalized\"`")), .mk (c! "Usec") (.ident (c! "Microseconds")) (some (c! "`asn1:\"optional,explicit,tag:3\"`")), .mk (c! "S_address") (.ident (c! "HostAddress")) (some (c! "`asn1:\"optional,explicit,tag:4\"`")), .mk (c! "R_address") (.ident (c! "HostAddress")) (some (c! "`asn1:\"optional,explicit,tag:5\"`"))])⟩],
  .type [⟨c! "KrbCredInfo", false, (.struct [.mk (c! "Key") (.ident (c! "EncryptionKey")) (some (c! "`asn1:\"explicit,tag:0\"`")), .mk (c! "Prealm") (.ident (c! "Realm")) (some (c! "`asn1:\"optional,explicit,tag:1\"`")), .mk (c! "Pname") (.ident (c! "PrincipalName")) (some (c! "`asn1:\"optional,explicit,tag:2\"`")), .mk (c! "Flags") (.ident (c! "asn1.BitString")) (some (c! "`asn1:\"optional,explicit,tag:3\"`")), .mk (c! "Authtime") (.ident (c! "time.Time")) (some (c! "`asn1:\"optional,explicit,tag:4,generalized\"`")), .mk (c! "Starttime") (.ident (c! "time.Time")) (some (c! "`asn1:\"optional,explicit,tag:5,generalized\"`")), .mk (c! "Endtime") (.ident (c! "time.Time")) (some (c! "`asn1:\"optional,explicit,tag:6,generalized\"`")), .mk (c! "Renew_till") (.ident (c! "time.Time")) (some (c! "`asn1:\"optional,explicit,tag:7,generalized\"`")), .mk (c! "Srealm") (.ident (c! "Realm")) (some (c! "`asn1:\"optional,explicit,tag:8\"`")), .mk (c! "Sname") (.ident (c! "PrincipalName")) (some (c! "`asn1:\"optional,explicit,tag:9\"`")), .mk (c! "Caddr") (.ident (c! "HostAddresses")) (some (c! "`asn1:\"optional,explicit,tag:10\"`"))])⟩],
  .type [⟨c! "KRB_ERROR", false, (.struct [.mk (c! "Pvno") (.ident (c! "int64")) (some (c! "`asn1:\"explicit,tag:0\"`")), .mk (c! "Msg_type") (.ident (c! "int64")) (some (c! "`asn1:\"explicit,tag:1\"`")), .mk (c! "Ctime") (.ident (c! "time.Time")) (some (c! "`asn1:\"optional,explicit,tag:2,generalized\"`")), .mk (c! "Cusec") (.ident (c! "Microseconds")) (some (c! "`asn1:\"optional,explicit,tag:3\"`")), .mk (c! "Stime") (.ident (c! "time.Time")) (some (c! "`asn1:\"explicit,tag:4,generalized\"`")), .mk (c! "Susec") (.ident (c! "Microseconds")) (some (c! "`asn1:\"explicit,tag:5\"`")), .mk (c! "Error_code") (.ident (c! "Int32")) (some (c! "`asn1:\"explicit,tag:6\"`")), .mk (c! "Crealm") (.ident (c! "Realm")) (some (c! "`asn1:\"optional,explicit,tag:7\"`")), .mk (c! "Cname") (.ident (c! "PrincipalName")) (some (c! "`asn1:\"optional,explicit,tag:8\"`")), .mk (c! "Realm") (.ident (c! "Realm")) (some (c! "`asn1:\"explicit,tag:9\"`")), .mk (c! "Sname") (.ident (c! "PrincipalName")) (some (c! "`asn1:\"explicit,tag:10\"`")), .mk (c! "E_text") (.ident (c! "KerberosString")) (some (c! "`asn1:\"optional,explicit,tag:11\"`")), .mk (c! "E_data") (.array (.ident (c! "byte"))) (some (c! "`asn1:\"optional,explicit,tag:12\"`"))])⟩],
  .type [⟨c! "METHOD_DATA", true, (.array (.ident (c! "PA_DATA")))⟩],
  .type [⟨c! "TYPED_DATA", true, (.array (.struct [.mk (c! "Data_type") (.ident (c! "Int32")) (some (c! "`asn1:\"explicit,tag:0\"`")), .mk (c! "Data_value") (.array (.ident (c! "byte"))) (some (c! "`asn1:\"optional,explicit,tag:1\"`"))]))⟩]]

/-- RFC 4120, integers as int64: declarations 49 to 58. -/
def kerberosDecls4 : List GoDecl := [
  .type [⟨c! "PA_ENC_TIMESTAMP", true, (.ident (c! "EncryptedData"))⟩],
  .type [⟨c! "PA_ENC_TS_ENC", false, (.struct [.mk (c! "Patimestamp") (.ident (c! "time.Time")) (some (c! "`asn1:\"explicit,tag:0,generalized\"`")), .mk (c! "Pausec") (.ident (c! "Microseconds")) (some (c! "`asn1:\"optional,explicit,tag:1\"`"))])⟩],
  .type [⟨c! "ETYPE_INFO_ENTRY", false, (.struct [.mk (c! "Etype") (.ident (c! "Int32")) (some (c! "`asn1:\"explicit,tag:0\"`")), .mk (c! "Salt") (.array (.ident (c! "byte"))) (some (c! "`asn1:\"optional,explicit,tag:1\"`"))])⟩],
  .type [⟨c! "ETYPE_INFO", true, (.array (.ident (c! "ETYPE_INFO_ENTRY")))⟩],
  .type [⟨c! "ETYPE_INFO2_ENTRY", false, (.struct [.mk (c! "Etype") (.ident (c! "Int32")) (some (c! "`asn1:\"explicit,tag:0\"`")), .mk (c! "Salt") (.ident (c! "KerberosString")) (some (c! "`asn1:\"optional,explicit,tag:1\"`")), .mk (c! "S2kparams") (.array (.ident (c! "byte"))) (some (c! "`asn1:\"optional,explicit,tag:2\"`"))])⟩],
  .type [⟨c! "ETYPE_INFO2", true, (.array (.ident (c! "ETYPE_INFO2_ENTRY")))⟩],
  .type [⟨c! "AD_IF_RELEVANT", true, (.ident (c! "AuthorizationData"))⟩],
  .type [⟨c! "AD_KDCIssued", false, (.struct [.mk (c! "Ad_checksum") (.ident (c! "Checksum")) (some (c! "`asn1:\"explicit,tag:0\"`")), .mk (c! "I_realm") (.ident (c! "Realm")) (some (c! "`asn1:\"optional,explicit,tag:1\"`")), .mk (c! "I_sname") (.ident (c! "PrincipalName")) (some (c! "`asn1:\"optional,explicit,tag:2\"`")), .mk (c! "Elements") (.ident (c! "AuthorizationData")) (some (c! "`asn1:\"explicit,tag:3\"`"))])⟩],
  .type [⟨c! "AD_AND_OR", false, (.struct [.mk (c! "Condition_count") (.ident (c! "Int32")) (some (c! "`asn1:\"explicit,tag:0\"`")), .mk (c! "Elements") (.ident (c! "AuthorizationData")) (some (c! "`asn1:\"explicit,tag:1\"`"))])⟩],
  .type [⟨c! "AD_MANDATORY_FOR_KDC", true, (.ident (c! "AuthorizationData"))⟩]]

/-- RFC 4120, integers as int64: the file. -/
def kerberosFile : GoFile :=
  ⟨c! "examples", kerberosDecls0 ++ (kerberosDecls1 ++ (kerberosDecls2 ++ (kerberosDecls3 ++ (kerberosDecls4))))⟩

end Asn1go.Tests
