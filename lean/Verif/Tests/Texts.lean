import Verif.Model.Lexer

/-! The texts of /repo/examples, copied by tools/examples.py. -/

namespace Asn1go.Tests

/-- Lines, each with its end. -/
def unlines : List Str → Str
  | [] => []
  | a :: l => a ++ '\n' :: unlines l

/-- /repo/examples/rfc1155.asn1:1-60 -/
def rfc1155Part0 : Str := unlines [
  c! "RFC1155-SMI DEFINITIONS ::= BEGIN",
  c! "",
  c! "EXPORTS -- EVERYTHING",
  c! "       internet, directory, mgmt,",
  c! "       experimental, private, enterprises,",
  c! "       OBJECT-TYPE, ObjectName, ObjectSyntax, SimpleSyntax,",
  c! "       ApplicationSyntax, NetworkAddress, IpAddress,",
  c! "       Counter, Gauge, TimeTicks, Opaque;",
  c! "",
  c! "-- the path to the root",
  c! "",
  c! "internet      OBJECT IDENTIFIER ::= { iso org(3) dod(6) 1 }",
  c! "",
  c! "directory     OBJECT IDENTIFIER ::= { internet 1 }",
  c! "",
  c! "mgmt          OBJECT IDENTIFIER ::= { internet 2 }",
  c! "",
  c! "experimental  OBJECT IDENTIFIER ::= { internet 3 }",
  c! "",
  c! "private       OBJECT IDENTIFIER ::= { internet 4 }",
  c! "enterprises   OBJECT IDENTIFIER ::= { private 1 }",
  c! "",
  c! "/* MACRO deprecated in X.680",
  c! "-- definition of object types",
  c! "OBJECT-TYPE MACRO ::=",
  c! "BEGIN",
  c! "    TYPE NOTATION ::= \"SYNTAX\" type (TYPE ObjectSyntax)",
  c! "                      \"ACCESS\" Access",
  c! "                      \"STATUS\" Status",
  c! "    VALUE NOTATION ::= value (VALUE ObjectName)",
  c! "",
  c! "    Access ::= \"read-only\"",
  c! "                    | \"read-write\"",
  c! "                    | \"write-only\"",
  c! "                    | \"not-accessible\"",
  c! "    Status ::= \"mandatory\"",
  c! "                    | \"optional\"",
  c! "                    | \"obsolete\"",
  c! "END",
  c! "-- end MACRO */",
  c! "",
  c! "-- names of objects in the MIB",
  c! "",
  c! "ObjectName ::=",
  c! "   OBJECT IDENTIFIER",
  c! "",
  c! "-- syntax of objects in the MIB",
  c! "",
  c! "ObjectSyntax ::=",
  c! "   CHOICE {",
  c! "       simple",
  c! "           SimpleSyntax,",
  c! "",
  c! "-- note that simple SEQUENCEs are not directly",
  c! "-- mentioned here to keep things simple (i.e.,",
  c! "-- prevent mis-use).  However, application-wide",
  c! "-- types which are IMPLICITly encoded simple",
  c! "-- SEQUENCEs may appear in the following CHOICE",
  c! "",
  c! "   application-wide"]

/-- /repo/examples/rfc1155.asn1:61-120 -/
def rfc1155Part1 : Str := unlines [
  c! "       ApplicationSyntax",
  c! "}",
  c! "",
  c! "SimpleSyntax ::=",
  c! "  CHOICE {",
  c! "      number",
  c! "          INTEGER,",
  c! "",
  c! "      string",
  c! "          OCTET STRING,",
  c! "",
  c! "      object",
  c! "          OBJECT IDENTIFIER,",
  c! "",
  c! "      empty",
  c! "          NULL",
  c! "  }",
  c! "",
  c! "ApplicationSyntax ::=",
  c! "  CHOICE {",
  c! "      address",
  c! "          NetworkAddress,",
  c! "",
  c! "      counter",
  c! "          Counter,",
  c! "",
  c! "      gauge",
  c! "          Gauge,",
  c! "",
  c! "      ticks",
  c! "          TimeTicks,",
  c! "",
  c! "      arbitrary",
  c! "          Opaque",
  c! "-- other application-wide types, as they are",
  c! "-- defined, will be added here",
  c! "  }",
  c! "",
  c! "",
  c! "-- application-wide types",
  c! "",
  c! "NetworkAddress ::=",
  c! "  CHOICE {",
  c! "      internet",
  c! "          IpAddress",
  c! "  }",
  c! "",
  c! "IpAddress ::=",
  c! "  [APPLICATION 0]          -- in network-byte order",
  c! "      IMPLICIT OCTET STRING (SIZE (4))",
  c! "",
  c! "Counter ::=",
  c! "  [APPLICATION 1]",
  c! "      IMPLICIT INTEGER (0..4294967295)",
  c! "",
  c! "Gauge ::=",
  c! "  [APPLICATION 2]",
  c! "      IMPLICIT INTEGER (0..4294967295)",
  c! "",
  c! "TimeTicks ::="]

/-- /repo/examples/rfc1155.asn1:121-127 -/
def rfc1155Part2 : Str := unlines [
  c! "  [APPLICATION 3]",
  c! "      IMPLICIT INTEGER (0..4294967295)",
  c! "",
  c! "Opaque ::=",
  c! "  [APPLICATION 4]          -- arbitrary ASN.1 value,",
  c! "      IMPLICIT OCTET STRING   --   \"double-wrapped\"",
  c! ""]

/-- /repo/examples/rfc1155.asn1 -/
def rfc1155 : Str := rfc1155Part0 ++ (rfc1155Part1 ++ (rfc1155Part2 ++ (c! "END")))

/-- /repo/examples/rfc1157.asn1:1-60 -/
def rfc1157Part0 : Str := unlines [
  c! "RFC1157-SNMP DEFINITIONS ::= BEGIN",
  c! "",
  c! "IMPORTS",
  c! "ObjectName, ObjectSyntax, NetworkAddress, IpAddress, TimeTicks",
  c! "  FROM RFC1155-SMI;",
  c! "",
  c! "",
  c! "-- top-level message",
  c! "",
  c! "Message ::=",
  c! "      SEQUENCE {",
  c! "          version          -- version-1 for this RFC",
  c! "              INTEGER {",
  c! "                  version-1(0)",
  c! "              },",
  c! "",
  c! "          community        -- community name",
  c! "              OCTET STRING,",
  c! "",
  c! "          data             -- e.g., PDUs if trivial",
  c! "              ANY          -- authentication is being used",
  c! "      }",
  c! "",
  c! "-- protocol data units",
  c! "",
  c! "PDUs ::=",
  c! "      CHOICE {",
  c! "                  get-request",
  c! "                      GetRequest-PDU,",
  c! "",
  c! "                  get-next-request",
  c! "                      GetNextRequest-PDU,",
  c! "",
  c! "                  get-response",
  c! "                      GetResponse-PDU,",
  c! "",
  c! "                  set-request",
  c! "                      SetRequest-PDU,",
  c! "",
  c! "                  trap",
  c! "                      Trap-PDU",
  c! "              }",
  c! "",
  c! "-- PDUs",
  c! "",
  c! "GetRequest-PDU ::=",
  c! "  [0]",
  c! "      IMPLICIT PDU",
  c! "",
  c! "GetNextRequest-PDU ::=",
  c! "  [1]",
  c! "      IMPLICIT PDU",
  c! "",
  c! "GetResponse-PDU ::=",
  c! "  [2]",
  c! "      IMPLICIT PDU",
  c! "",
  c! "SetRequest-PDU ::=",
  c! "  [3]",
  c! "      IMPLICIT PDU"]

/-- /repo/examples/rfc1157.asn1:61-120 -/
def rfc1157Part1 : Str := unlines [
  c! "",
  c! "PDU ::=",
  c! "      SEQUENCE {",
  c! "         request-id",
  c! "              INTEGER,",
  c! "",
  c! "          error-status      -- sometimes ignored",
  c! "              INTEGER {",
  c! "                  noError(0),",
  c! "                  tooBig(1),",
  c! "                  noSuchName(2),",
  c! "                  badValue(3),",
  c! "                  readOnly(4),",
  c! "                  genErr(5)",
  c! "              },",
  c! "",
  c! "          error-index       -- sometimes ignored",
  c! "             INTEGER,",
  c! "",
  c! "          variable-bindings -- values are sometimes ignored",
  c! "              VarBindList",
  c! "      }",
  c! "",
  c! "Trap-PDU ::=",
  c! "  [4]",
  c! "     IMPLICIT SEQUENCE {",
  c! "          enterprise        -- type of object generating",
  c! "                            -- trap, see sysObjectID in [5]",
  c! "              OBJECT IDENTIFIER,",
  c! "",
  c! "          agent-addr        -- address of object generating",
  c! "              NetworkAddress, -- trap",
  c! "",
  c! "          generic-trap      -- generic trap type",
  c! "              INTEGER {",
  c! "                  coldStart(0),",
  c! "                  warmStart(1),",
  c! "                  linkDown(2),",
  c! "                  linkUp(3),",
  c! "                  authenticationFailure(4),",
  c! "                  egpNeighborLoss(5),",
  c! "                  enterpriseSpecific(6)",
  c! "              },",
  c! "",
  c! "          specific-trap  -- specific code, present even",
  c! "              INTEGER,   -- if generic-trap is not",
  c! "                         -- enterpriseSpecific",
  c! "",
  c! "          time-stamp     -- time elapsed between the last",
  c! "              TimeTicks, -- (re)initialization of the network",
  c! "                         -- entity and the generation of the trap",
  c! "",
  c! "           variable-bindings -- \"interesting\" information",
  c! "              VarBindList",
  c! "      }",
  c! "",
  c! "",
  c! "-- variable bindings",
  c! "",
  c! "VarBind ::="]

/-- /repo/examples/rfc1157.asn1:121-133 -/
def rfc1157Part2 : Str := unlines [
  c! "      SEQUENCE {",
  c! "          name",
  c! "              ObjectName,",
  c! "",
  c! "          value",
  c! "              ObjectSyntax",
  c! "      }",
  c! "",
  c! "VarBindList ::=",
  c! "      SEQUENCE OF",
  c! "         VarBind",
  c! "",
  c! "END"]

/-- /repo/examples/rfc1157.asn1 -/
def rfc1157 : Str := rfc1157Part0 ++ (rfc1157Part1 ++ (rfc1157Part2))

/-- /repo/examples/rfc4120.asn1:1-60 -/
def rfc4120Part0 : Str := unlines [
  c! "KerberosV5Spec2 {",
  c! "        iso(1) identified-organization(3) dod(6) internet(1)",
  c! "        security(5) kerberosV5(2) modules(4) krb5spec2(2)",
  c! "} DEFINITIONS EXPLICIT TAGS ::= BEGIN",
  c! "-- OID arc for KerberosV5",
  c! "--",
  c! "-- This OID may be used to identify Kerberos protocol messages",
  c! "-- encapsulated in other protocols.",
  c! "--",
  c! "-- This OID also designates the OID arc for KerberosV5-related OIDs.",
  c! "--",
  c! "-- NOTE: RFC 1510 had an incorrect value (5) for \"dod\" in its OID.",
  c! "id-krb5         OBJECT IDENTIFIER ::= {",
  c! "        iso(1) identified-organization(3) dod(6) internet(1)",
  c! "        security(5) kerberosV5(2)",
  c! "}",
  c! "",
  c! "Int32           ::= INTEGER (-2147483648..2147483647)",
  c! "                    -- signed values representable in 32 bits",
  c! "",
  c! "",
  c! "UInt32          ::= INTEGER (0..4294967295)",
  c! "                    -- unsigned 32 bit values",
  c! "",
  c! "Microseconds    ::= INTEGER (0..999999)",
  c! "                    -- microseconds",
  c! "",
  c! "KerberosString  ::= GeneralString (IA5String)",
  c! "",
  c! "Realm           ::= KerberosString",
  c! "",
  c! "PrincipalName   ::= SEQUENCE {",
  c! "        name-type       [0] Int32,",
  c! "        name-string     [1] SEQUENCE OF KerberosString",
  c! "}",
  c! "",
  c! "KerberosTime    ::= GeneralizedTime -- with no fractional seconds",
  c! "",
  c! "HostAddress     ::= SEQUENCE  {",
  c! "        addr-type       [0] Int32,",
  c! "        address         [1] OCTET STRING",
  c! "}",
  c! "",
  c! "-- NOTE: HostAddresses is always used as an OPTIONAL field and",
  c! "-- should not be empty.",
  c! "HostAddresses   -- NOTE: subtly different from rfc1510,",
  c! "",
  c! "                -- but has a value mapping and encodes the same",
  c! "        ::= SEQUENCE OF HostAddress",
  c! "",
  c! "-- NOTE: AuthorizationData is always used as an OPTIONAL field and",
  c! "-- should not be empty.",
  c! "AuthorizationData       ::= SEQUENCE OF SEQUENCE {",
  c! "        ad-type         [0] Int32,",
  c! "        ad-data         [1] OCTET STRING",
  c! "}",
  c! "",
  c! "PA-DATA         ::= SEQUENCE {",
  c! "        -- NOTE: first tag is [1], not [0]",
  c! "        padata-type     [1] Int32,"]

/-- /repo/examples/rfc4120.asn1:61-120 -/
def rfc4120Part1 : Str := unlines [
  c! "        padata-value    [2] OCTET STRING -- might be encoded AP-REQ",
  c! "}",
  c! "",
  c! "KerberosFlags   ::= BIT STRING (SIZE (32..MAX))",
  c! "                    -- minimum number of bits shall be sent,",
  c! "                    -- but no fewer than 32",
  c! "",
  c! "EncryptedData   ::= SEQUENCE {",
  c! "        etype   [0] Int32 -- EncryptionType --,",
  c! "        kvno    [1] UInt32 OPTIONAL,",
  c! "        cipher  [2] OCTET STRING -- ciphertext",
  c! "}",
  c! "",
  c! "EncryptionKey   ::= SEQUENCE {",
  c! "        keytype         [0] Int32 -- actually encryption type --,",
  c! "        keyvalue        [1] OCTET STRING",
  c! "}",
  c! "",
  c! "Checksum        ::= SEQUENCE {",
  c! "        cksumtype       [0] Int32,",
  c! "        checksum        [1] OCTET STRING",
  c! "}",
  c! "",
  c! "Ticket          ::= [APPLICATION 1] SEQUENCE {",
  c! "        tkt-vno         [0] INTEGER (5),",
  c! "        realm           [1] Realm,",
  c! "        sname           [2] PrincipalName,",
  c! "        enc-part        [3] EncryptedData -- EncTicketPart",
  c! "}",
  c! "",
  c! "-- Encrypted part of ticket",
  c! "EncTicketPart   ::= [APPLICATION 3] SEQUENCE {",
  c! "        flags                   [0] TicketFlags,",
  c! "        key                     [1] EncryptionKey,",
  c! "        crealm                  [2] Realm,",
  c! "        cname                   [3] PrincipalName,",
  c! "        transited               [4] TransitedEncoding,",
  c! "        authtime                [5] KerberosTime,",
  c! "        starttime               [6] KerberosTime OPTIONAL,",
  c! "        endtime                 [7] KerberosTime,",
  c! "        renew-till              [8] KerberosTime OPTIONAL,",
  c! "        caddr                   [9] HostAddresses OPTIONAL,",
  c! "        authorization-data      [10] AuthorizationData OPTIONAL",
  c! "}",
  c! "",
  c! "-- encoded Transited field",
  c! "TransitedEncoding       ::= SEQUENCE {",
  c! "        tr-type         [0] Int32 -- must be registered --,",
  c! "        contents        [1] OCTET STRING",
  c! "}",
  c! "",
  c! "TicketFlags     ::= KerberosFlags",
  c! "        -- reserved(0),",
  c! "        -- forwardable(1),",
  c! "        -- forwarded(2),",
  c! "        -- proxiable(3),",
  c! "        -- proxy(4),",
  c! "        -- may-postdate(5),",
  c! "        -- postdated(6),",
  c! "        -- invalid(7),"]

/-- /repo/examples/rfc4120.asn1:121-180 -/
def rfc4120Part2 : Str := unlines [
  c! "        -- renewable(8),",
  c! "        -- initial(9),",
  c! "        -- pre-authent(10),",
  c! "        -- hw-authent(11),",
  c! "-- the following are new since 1510",
  c! "        -- transited-policy-checked(12),",
  c! "        -- ok-as-delegate(13)",
  c! "",
  c! "-- TODO reflect in AST",
  c! "AS-REQ          ::= [APPLICATION 10] KDC-REQ",
  c! "",
  c! "-- TODO reflect in AST",
  c! "TGS-REQ         ::= [APPLICATION 12] KDC-REQ",
  c! "",
  c! "KDC-REQ         ::= SEQUENCE {",
  c! "        -- NOTE: first tag is [1], not [0]",
  c! "        pvno            [1] INTEGER (5) ,",
  c! "        msg-type        [2] INTEGER (10 -- AS -- | 12 -- TGS --),",
  c! "        padata          [3] SEQUENCE OF PA-DATA OPTIONAL",
  c! "                            -- NOTE: not empty --,",
  c! "        req-body        [4] KDC-REQ-BODY",
  c! "}",
  c! "",
  c! "KDC-REQ-BODY    ::= SEQUENCE {",
  c! "        kdc-options             [0] KDCOptions,",
  c! "        cname                   [1] PrincipalName OPTIONAL",
  c! "                                    -- Used only in AS-REQ --,",
  c! "        realm                   [2] Realm",
  c! "                                    -- Server's realm",
  c! "                                    -- Also client's in AS-REQ --,",
  c! "        sname                   [3] PrincipalName OPTIONAL,",
  c! "        from                    [4] KerberosTime OPTIONAL,",
  c! "        till                    [5] KerberosTime,",
  c! "        rtime                   [6] KerberosTime OPTIONAL,",
  c! "        nonce                   [7] UInt32,",
  c! "        etype                   [8] SEQUENCE OF Int32 -- EncryptionType",
  c! "                                    -- in preference order --,",
  c! "        addresses               [9] HostAddresses OPTIONAL,",
  c! "        enc-authorization-data  [10] EncryptedData OPTIONAL",
  c! "                                    -- AuthorizationData --,",
  c! "        additional-tickets      [11] SEQUENCE OF Ticket OPTIONAL",
  c! "                                        -- NOTE: not empty",
  c! "}",
  c! "",
  c! "KDCOptions      ::= KerberosFlags",
  c! "        -- reserved(0),",
  c! "        -- forwardable(1),",
  c! "        -- forwarded(2),",
  c! "        -- proxiable(3),",
  c! "        -- proxy(4),",
  c! "        -- allow-postdate(5),",
  c! "        -- postdated(6),",
  c! "        -- unused7(7),",
  c! "        -- renewable(8),",
  c! "        -- unused9(9),",
  c! "        -- unused10(10),",
  c! "        -- opt-hardware-auth(11),",
  c! "        -- unused12(12),",
  c! "        -- unused13(13),",
  c! "-- 15 is reserved for canonicalize"]

/-- /repo/examples/rfc4120.asn1:181-240 -/
def rfc4120Part3 : Str := unlines [
  c! "        -- unused15(15),",
  c! "-- 26 was unused in 1510",
  c! "        -- disable-transited-check(26),",
  c! "--",
  c! "        -- renewable-ok(27),",
  c! "        -- enc-tkt-in-skey(28),",
  c! "        -- renew(30),",
  c! "        -- validate(31)",
  c! "",
  c! "AS-REP          ::= [APPLICATION 11] KDC-REP",
  c! "",
  c! "TGS-REP         ::= [APPLICATION 13] KDC-REP",
  c! "",
  c! "KDC-REP         ::= SEQUENCE {",
  c! "        pvno            [0] INTEGER (5),",
  c! "        msg-type        [1] INTEGER (11 -- AS -- | 13 -- TGS --),",
  c! "        padata          [2] SEQUENCE OF PA-DATA OPTIONAL",
  c! "                                -- NOTE: not empty --,",
  c! "        crealm          [3] Realm,",
  c! "        cname           [4] PrincipalName,",
  c! "        ticket          [5] Ticket,",
  c! "        enc-part        [6] EncryptedData",
  c! "                                -- EncASRepPart or EncTGSRepPart,",
  c! "                                -- as appropriate",
  c! "}",
  c! "",
  c! "EncASRepPart    ::= [APPLICATION 25] EncKDCRepPart",
  c! "",
  c! "EncTGSRepPart   ::= [APPLICATION 26] EncKDCRepPart",
  c! "",
  c! "EncKDCRepPart   ::= SEQUENCE {",
  c! "        key             [0] EncryptionKey,",
  c! "        last-req        [1] LastReq,",
  c! "        nonce           [2] UInt32,",
  c! "        key-expiration  [3] KerberosTime OPTIONAL,",
  c! "        flags           [4] TicketFlags,",
  c! "        authtime        [5] KerberosTime,",
  c! "        starttime       [6] KerberosTime OPTIONAL,",
  c! "        endtime         [7] KerberosTime,",
  c! "        renew-till      [8] KerberosTime OPTIONAL,",
  c! "        srealm          [9] Realm,",
  c! "        sname           [10] PrincipalName,",
  c! "        caddr           [11] HostAddresses OPTIONAL",
  c! "}",
  c! "",
  c! "LastReq         ::=     SEQUENCE OF SEQUENCE {",
  c! "        lr-type         [0] Int32,",
  c! "        lr-value        [1] KerberosTime",
  c! "}",
  c! "",
  c! "AP-REQ          ::= [APPLICATION 14] SEQUENCE {",
  c! "        pvno            [0] INTEGER (5),",
  c! "        msg-type        [1] INTEGER (14),",
  c! "        ap-options      [2] APOptions,",
  c! "        ticket          [3] Ticket,",
  c! "        authenticator   [4] EncryptedData -- Authenticator",
  c! "}",
  c! "",
  c! "APOptions       ::= KerberosFlags",
  c! "        -- reserved(0),"]

/-- /repo/examples/rfc4120.asn1:241-300 -/
def rfc4120Part4 : Str := unlines [
  c! "        -- use-session-key(1),",
  c! "        -- mutual-required(2)",
  c! "",
  c! "-- Unencrypted authenticator",
  c! "Authenticator   ::= [APPLICATION 2] SEQUENCE  {",
  c! "        authenticator-vno       [0] INTEGER (5),",
  c! "        crealm                  [1] Realm,",
  c! "        cname                   [2] PrincipalName,",
  c! "        cksum                   [3] Checksum OPTIONAL,",
  c! "        cusec                   [4] Microseconds,",
  c! "        ctime                   [5] KerberosTime,",
  c! "        subkey                  [6] EncryptionKey OPTIONAL,",
  c! "        seq-number              [7] UInt32 OPTIONAL,",
  c! "        authorization-data      [8] AuthorizationData OPTIONAL",
  c! "}",
  c! "",
  c! "AP-REP          ::= [APPLICATION 15] SEQUENCE {",
  c! "        pvno            [0] INTEGER (5),",
  c! "        msg-type        [1] INTEGER (15),",
  c! "        enc-part        [2] EncryptedData -- EncAPRepPart",
  c! "}",
  c! "",
  c! "EncAPRepPart    ::= [APPLICATION 27] SEQUENCE {",
  c! "        ctime           [0] KerberosTime,",
  c! "        cusec           [1] Microseconds,",
  c! "        subkey          [2] EncryptionKey OPTIONAL,",
  c! "        seq-number      [3] UInt32 OPTIONAL",
  c! "}",
  c! "",
  c! "KRB-SAFE        ::= [APPLICATION 20] SEQUENCE {",
  c! "        pvno            [0] INTEGER (5),",
  c! "        msg-type        [1] INTEGER (20),",
  c! "        safe-body       [2] KRB-SAFE-BODY,",
  c! "        cksum           [3] Checksum",
  c! "}",
  c! "",
  c! "KRB-SAFE-BODY   ::= SEQUENCE {",
  c! "        user-data       [0] OCTET STRING,",
  c! "        timestamp       [1] KerberosTime OPTIONAL,",
  c! "        usec            [2] Microseconds OPTIONAL,",
  c! "        seq-number      [3] UInt32 OPTIONAL,",
  c! "        s-address       [4] HostAddress,",
  c! "        r-address       [5] HostAddress OPTIONAL",
  c! "}",
  c! "",
  c! "KRB-PRIV        ::= [APPLICATION 21] SEQUENCE {",
  c! "        pvno            [0] INTEGER (5),",
  c! "        msg-type        [1] INTEGER (21),",
  c! "                        -- NOTE: there is no [2] tag",
  c! "        enc-part        [3] EncryptedData -- EncKrbPrivPart",
  c! "}",
  c! "",
  c! "EncKrbPrivPart  ::= [APPLICATION 28] SEQUENCE {",
  c! "        user-data       [0] OCTET STRING,",
  c! "        timestamp       [1] KerberosTime OPTIONAL,",
  c! "        usec            [2] Microseconds OPTIONAL,",
  c! "        seq-number      [3] UInt32 OPTIONAL,",
  c! "        s-address       [4] HostAddress -- sender's addr --,",
  c! "        r-address       [5] HostAddress OPTIONAL -- recip's addr",
  c! "}"]

/-- /repo/examples/rfc4120.asn1:301-360 -/
def rfc4120Part5 : Str := unlines [
  c! "",
  c! "KRB-CRED        ::= [APPLICATION 22] SEQUENCE {",
  c! "        pvno            [0] INTEGER (5),",
  c! "        msg-type        [1] INTEGER (22),",
  c! "        tickets         [2] SEQUENCE OF Ticket,",
  c! "        enc-part        [3] EncryptedData -- EncKrbCredPart",
  c! "}",
  c! "",
  c! "EncKrbCredPart  ::= [APPLICATION 29] SEQUENCE {",
  c! "        ticket-info     [0] SEQUENCE OF KrbCredInfo,",
  c! "        nonce           [1] UInt32 OPTIONAL,",
  c! "        timestamp       [2] KerberosTime OPTIONAL,",
  c! "        usec            [3] Microseconds OPTIONAL,",
  c! "        s-address       [4] HostAddress OPTIONAL,",
  c! "        r-address       [5] HostAddress OPTIONAL",
  c! "}",
  c! "",
  c! "KrbCredInfo     ::= SEQUENCE {",
  c! "        key             [0] EncryptionKey,",
  c! "        prealm          [1] Realm OPTIONAL,",
  c! "        pname           [2] PrincipalName OPTIONAL,",
  c! "        flags           [3] TicketFlags OPTIONAL,",
  c! "        authtime        [4] KerberosTime OPTIONAL,",
  c! "        starttime       [5] KerberosTime OPTIONAL,",
  c! "        endtime         [6] KerberosTime OPTIONAL,",
  c! "        renew-till      [7] KerberosTime OPTIONAL,",
  c! "        srealm          [8] Realm OPTIONAL,",
  c! "        sname           [9] PrincipalName OPTIONAL,",
  c! "        caddr           [10] HostAddresses OPTIONAL",
  c! "}",
  c! "",
  c! "KRB-ERROR       ::= [APPLICATION 30] SEQUENCE {",
  c! "        pvno            [0] INTEGER (5),",
  c! "        msg-type        [1] INTEGER (30),",
  c! "        ctime           [2] KerberosTime OPTIONAL,",
  c! "        cusec           [3] Microseconds OPTIONAL,",
  c! "        stime           [4] KerberosTime,",
  c! "        susec           [5] Microseconds,",
  c! "        error-code      [6] Int32,",
  c! "        crealm          [7] Realm OPTIONAL,",
  c! "        cname           [8] PrincipalName OPTIONAL,",
  c! "        realm           [9] Realm -- service realm --,",
  c! "        sname           [10] PrincipalName -- service name --,",
  c! "        e-text          [11] KerberosString OPTIONAL,",
  c! "        e-data          [12] OCTET STRING OPTIONAL",
  c! "}",
  c! "",
  c! "METHOD-DATA     ::= SEQUENCE OF PA-DATA",
  c! "",
  c! "TYPED-DATA      ::= SEQUENCE SIZE (1..MAX) OF SEQUENCE {",
  c! "        data-type       [0] Int32,",
  c! "        data-value      [1] OCTET STRING OPTIONAL",
  c! "}",
  c! "",
  c! "-- preauth stuff follows",
  c! "",
  c! "PA-ENC-TIMESTAMP        ::= EncryptedData -- PA-ENC-TS-ENC",
  c! "",
  c! "PA-ENC-TS-ENC           ::= SEQUENCE {",
  c! "        patimestamp     [0] KerberosTime -- client's time --,"]

/-- /repo/examples/rfc4120.asn1:361-394 -/
def rfc4120Part6 : Str := unlines [
  c! "        pausec          [1] Microseconds OPTIONAL",
  c! "}",
  c! "",
  c! "ETYPE-INFO-ENTRY        ::= SEQUENCE {",
  c! "        etype           [0] Int32,",
  c! "        salt            [1] OCTET STRING OPTIONAL",
  c! "}",
  c! "",
  c! "ETYPE-INFO              ::= SEQUENCE OF ETYPE-INFO-ENTRY",
  c! "",
  c! "ETYPE-INFO2-ENTRY       ::= SEQUENCE {",
  c! "        etype           [0] Int32,",
  c! "        salt            [1] KerberosString OPTIONAL,",
  c! "        s2kparams       [2] OCTET STRING OPTIONAL",
  c! "}",
  c! "",
  c! "ETYPE-INFO2             ::= SEQUENCE SIZE (1..MAX) OF ETYPE-INFO2-ENTRY",
  c! "",
  c! "AD-IF-RELEVANT          ::= AuthorizationData",
  c! "",
  c! "AD-KDCIssued            ::= SEQUENCE {",
  c! "        ad-checksum     [0] Checksum,",
  c! "        i-realm         [1] Realm OPTIONAL,",
  c! "        i-sname         [2] PrincipalName OPTIONAL,",
  c! "        elements        [3] AuthorizationData",
  c! "}",
  c! "",
  c! "AD-AND-OR               ::= SEQUENCE {",
  c! "        condition-count [0] Int32,",
  c! "        elements        [1] AuthorizationData",
  c! "}",
  c! "",
  c! "AD-MANDATORY-FOR-KDC    ::= AuthorizationData",
  c! ""]

/-- /repo/examples/rfc4120.asn1 -/
def rfc4120 : Str := rfc4120Part0 ++ (rfc4120Part1 ++ (rfc4120Part2 ++ (rfc4120Part3 ++ (rfc4120Part4 ++ (rfc4120Part5 ++ (rfc4120Part6 ++ (c! "END")))))))

/-- /repo/examples/rfc4511.asn1:1-60 -/
def rfc4511Part0 : Str := unlines [
  c! "Lightweight-Directory-Access-Protocol-V3 {1 3 6 1 1 18}",
  c! "-- Copyright (C) The Internet Society (2006).  This version of",
  c! "-- this ASN.1 module is part of RFC 4511; see the RFC itself",
  c! "-- for full legal notices.",
  c! "DEFINITIONS",
  c! "IMPLICIT TAGS",
  c! "EXTENSIBILITY IMPLIED ::=",
  c! "",
  c! "BEGIN",
  c! "",
  c! "LDAPMessage ::= SEQUENCE {",
  c! "     messageID       MessageID,",
  c! "     protocolOp      CHOICE {",
  c! "          bindRequest           BindRequest,",
  c! "          bindResponse          BindResponse,",
  c! "          unbindRequest         UnbindRequest,",
  c! "          searchRequest         SearchRequest,",
  c! "          searchResEntry        SearchResultEntry,",
  c! "          searchResDone         SearchResultDone,",
  c! "          searchResRef          SearchResultReference,",
  c! "          modifyRequest         ModifyRequest,",
  c! "          modifyResponse        ModifyResponse,",
  c! "          addRequest            AddRequest,",
  c! "          addResponse           AddResponse,",
  c! "          delRequest            DelRequest,",
  c! "          delResponse           DelResponse,",
  c! "          modDNRequest          ModifyDNRequest,",
  c! "          modDNResponse         ModifyDNResponse,",
  c! "          compareRequest        CompareRequest,",
  c! "          compareResponse       CompareResponse,",
  c! "          abandonRequest        AbandonRequest,",
  c! "          extendedReq           ExtendedRequest,",
  c! "          extendedResp          ExtendedResponse,",
  c! "          ...,",
  c! "          intermediateResponse  IntermediateResponse },",
  c! "     controls       [0] Controls OPTIONAL }",
  c! "",
  c! "MessageID ::= INTEGER (0 ..  maxInt)",
  c! "",
  c! "maxInt INTEGER ::= 2147483647 -- (2^^31 - 1) --",
  c! "",
  c! "LDAPString ::= OCTET STRING -- UTF-8 encoded,",
  c! "                            -- [ISO10646] characters",
  c! "",
  c! "LDAPOID ::= OCTET STRING -- Constrained to <numericoid>",
  c! "                         -- [RFC4512]",
  c! "",
  c! "LDAPDN ::= LDAPString -- Constrained to <distinguishedName>",
  c! "                      -- [RFC4514]",
  c! "",
  c! "RelativeLDAPDN ::= LDAPString -- Constrained to <name-component>",
  c! "                              -- [RFC4514]",
  c! "",
  c! "AttributeDescription ::= LDAPString",
  c! "                        -- Constrained to <attributedescription>",
  c! "                        -- [RFC4512]",
  c! "",
  c! "AttributeValue ::= OCTET STRING",
  c! "",
  c! "AttributeValueAssertion ::= SEQUENCE {"]

/-- /repo/examples/rfc4511.asn1:61-120 -/
def rfc4511Part1 : Str := unlines [
  c! "     attributeDesc   AttributeDescription,",
  c! "     assertionValue  AssertionValue }",
  c! "",
  c! "AssertionValue ::= OCTET STRING",
  c! "",
  c! "PartialAttribute ::= SEQUENCE {",
  c! "     type       AttributeDescription,",
  c! "     vals       SET OF value AttributeValue }",
  c! "",
  c! "-- TODO: generate proper type decl",
  c! "Attribute ::= PartialAttribute(WITH COMPONENTS {",
  c! "     ...,",
  c! "     vals (SIZE(1..MAX))})",
  c! "",
  c! "MatchingRuleId ::= LDAPString",
  c! "",
  c! "LDAPResult ::= SEQUENCE {",
  c! "     resultCode         ENUMERATED {",
  c! "          success                      (0),",
  c! "          operationsError              (1),",
  c! "          protocolError                (2),",
  c! "          timeLimitExceeded            (3),",
  c! "          sizeLimitExceeded            (4),",
  c! "          compareFalse                 (5),",
  c! "          compareTrue                  (6),",
  c! "          authMethodNotSupported       (7),",
  c! "          strongerAuthRequired         (8),",
  c! "               -- 9 reserved --",
  c! "          referral                     (10),",
  c! "          adminLimitExceeded           (11),",
  c! "          unavailableCriticalExtension (12),",
  c! "          confidentialityRequired      (13),",
  c! "          saslBindInProgress           (14),",
  c! "          noSuchAttribute              (16),",
  c! "          undefinedAttributeType       (17),",
  c! "          inappropriateMatching        (18),",
  c! "          constraintViolation          (19),",
  c! "          attributeOrValueExists       (20),",
  c! "          invalidAttributeSyntax       (21),",
  c! "               -- 22-31 unused --",
  c! "          noSuchObject                 (32),",
  c! "          aliasProblem                 (33),",
  c! "          invalidDNSyntax              (34),",
  c! "               -- 35 reserved for undefined isLeaf --",
  c! "          aliasDereferencingProblem    (36),",
  c! "               -- 37-47 unused --",
  c! "          inappropriateAuthentication  (48),",
  c! "          invalidCredentials           (49),",
  c! "          insufficientAccessRights     (50),",
  c! "          busy                         (51),",
  c! "          unavailable                  (52),",
  c! "          unwillingToPerform           (53),",
  c! "          loopDetect                   (54),",
  c! "               -- 55-63 unused --",
  c! "          namingViolation              (64),",
  c! "          objectClassViolation         (65),",
  c! "          notAllowedOnNonLeaf          (66),",
  c! "          notAllowedOnRDN              (67),",
  c! "          entryAlreadyExists           (68),",
  c! "          objectClassModsProhibited    (69),"]

/-- /repo/examples/rfc4511.asn1:121-180 -/
def rfc4511Part2 : Str := unlines [
  c! "               -- 70 reserved for CLDAP --",
  c! "          affectsMultipleDSAs          (71),",
  c! "               -- 72-79 unused --",
  c! "          other                        (80)/*,  ---  TODO(nsokolov): commented out, breaks parser",
  c! "          ...  */},",
  c! "     matchedDN          LDAPDN,",
  c! "     diagnosticMessage  LDAPString,",
  c! "     referral           [3] Referral OPTIONAL }",
  c! "",
  c! "Referral ::= SEQUENCE SIZE (1..MAX) OF uri URI",
  c! "",
  c! "URI ::= LDAPString     -- limited to characters permitted in",
  c! "                       -- URIs",
  c! "",
  c! "Controls ::= SEQUENCE OF control Control",
  c! "",
  c! "Control ::= SEQUENCE {",
  c! "     controlType             LDAPOID,",
  c! "     criticality             BOOLEAN DEFAULT FALSE,",
  c! "     controlValue            OCTET STRING OPTIONAL }",
  c! "",
  c! "BindRequest ::= [APPLICATION 0] SEQUENCE {",
  c! "     version                 INTEGER (1 ..  127),",
  c! "     name                    LDAPDN,",
  c! "     authentication          AuthenticationChoice }",
  c! "",
  c! "AuthenticationChoice ::= CHOICE {",
  c! "     simple                  [0] OCTET STRING,",
  c! "                             -- 1 and 2 reserved",
  c! "     sasl                    [3] SaslCredentials,",
  c! "     ...  }",
  c! "",
  c! "SaslCredentials ::= SEQUENCE {",
  c! "     mechanism               LDAPString,",
  c! "     credentials             OCTET STRING OPTIONAL }",
  c! "",
  c! "BindResponse ::= [APPLICATION 1] SEQUENCE {",
  c! "     COMPONENTS OF LDAPResult,",
  c! "     serverSaslCreds    [7] OCTET STRING OPTIONAL }",
  c! "",
  c! "UnbindRequest ::= [APPLICATION 2] NULL",
  c! "",
  c! "SearchRequest ::= [APPLICATION 3] SEQUENCE {",
  c! "     baseObject      LDAPDN,",
  c! "     scope           ENUMERATED {",
  c! "          baseObject              (0),",
  c! "          singleLevel             (1),",
  c! "          wholeSubtree            (2)/*,  ---  TODO(nsokolov): commented out, breaks parser",
  c! "          ...  */},",
  c! "     derefAliases    ENUMERATED {",
  c! "          neverDerefAliases       (0),",
  c! "          derefInSearching        (1),",
  c! "          derefFindingBaseObj     (2),",
  c! "          derefAlways             (3) },",
  c! "     sizeLimit       INTEGER (0 ..  maxInt),",
  c! "     timeLimit       INTEGER (0 ..  maxInt),",
  c! "     typesOnly       BOOLEAN,",
  c! "     filter          Filter,",
  c! "     attributes      AttributeSelection }",
  c! ""]

/-- /repo/examples/rfc4511.asn1:181-240 -/
def rfc4511Part3 : Str := unlines [
  c! "AttributeSelection ::= SEQUENCE OF selector LDAPString",
  c! "               -- The LDAPString is constrained to",
  c! "               -- <attributeSelector> in Section 4.5.1.8",
  c! "",
  c! "Filter ::= CHOICE {",
  c! "     and             [0] SET SIZE (1..MAX) OF filter Filter,",
  c! "     or              [1] SET SIZE (1..MAX) OF filter Filter,",
  c! "     not             [2] Filter,",
  c! "     equalityMatch   [3] AttributeValueAssertion,",
  c! "     substrings      [4] SubstringFilter,",
  c! "     greaterOrEqual  [5] AttributeValueAssertion,",
  c! "     lessOrEqual     [6] AttributeValueAssertion,",
  c! "     present         [7] AttributeDescription,",
  c! "     approxMatch     [8] AttributeValueAssertion,",
  c! "     extensibleMatch [9] MatchingRuleAssertion,",
  c! "     ...  }",
  c! "",
  c! "SubstringFilter ::= SEQUENCE {",
  c! "     type           AttributeDescription,",
  c! "     substrings     SEQUENCE SIZE (1..MAX) OF substring CHOICE {",
  c! "          initial [0] AssertionValue,  -- can occur at most once",
  c! "          any     [1] AssertionValue,",
  c! "          final   [2] AssertionValue } -- can occur at most once",
  c! "     }",
  c! "",
  c! "MatchingRuleAssertion ::= SEQUENCE {",
  c! "     matchingRule    [1] MatchingRuleId OPTIONAL,",
  c! "     type            [2] AttributeDescription OPTIONAL,",
  c! "     matchValue      [3] AssertionValue,",
  c! "     dnAttributes    [4] BOOLEAN DEFAULT FALSE }",
  c! "",
  c! "SearchResultEntry ::= [APPLICATION 4] SEQUENCE {",
  c! "     objectName      LDAPDN,",
  c! "     attributes      PartialAttributeList }",
  c! "",
  c! "PartialAttributeList ::= SEQUENCE OF",
  c! "                     partialAttribute PartialAttribute",
  c! "",
  c! "SearchResultReference ::= [APPLICATION 19] SEQUENCE",
  c! "                          SIZE (1..MAX) OF uri URI",
  c! "",
  c! "SearchResultDone ::= [APPLICATION 5] LDAPResult",
  c! "",
  c! "ModifyRequest ::= [APPLICATION 6] SEQUENCE {",
  c! "     object          LDAPDN,",
  c! "     changes         SEQUENCE OF change SEQUENCE {",
  c! "          operation       ENUMERATED {",
  c! "               add     (0),",
  c! "               delete  (1),",
  c! "               replace (2)/*, ---  TODO(nsokolov): commented out, breaks parser",
  c! "               ...  */},",
  c! "          modification    PartialAttribute } }",
  c! "",
  c! "ModifyResponse ::= [APPLICATION 7] LDAPResult",
  c! "",
  c! "AddRequest ::= [APPLICATION 8] SEQUENCE {",
  c! "     entry           LDAPDN,",
  c! "     attributes      AttributeList }",
  c! "",
  c! "AttributeList ::= SEQUENCE OF attribute Attribute"]

/-- /repo/examples/rfc4511.asn1:241-276 -/
def rfc4511Part4 : Str := unlines [
  c! "",
  c! "AddResponse ::= [APPLICATION 9] LDAPResult",
  c! "",
  c! "DelRequest ::= [APPLICATION 10] LDAPDN",
  c! "",
  c! "DelResponse ::= [APPLICATION 11] LDAPResult",
  c! "",
  c! "ModifyDNRequest ::= [APPLICATION 12] SEQUENCE {",
  c! "     entry           LDAPDN,",
  c! "     newrdn          RelativeLDAPDN,",
  c! "     deleteoldrdn    BOOLEAN,",
  c! "     newSuperior     [0] LDAPDN OPTIONAL }",
  c! "",
  c! "ModifyDNResponse ::= [APPLICATION 13] LDAPResult",
  c! "",
  c! "CompareRequest ::= [APPLICATION 14] SEQUENCE {",
  c! "     entry           LDAPDN,",
  c! "     ava             AttributeValueAssertion }",
  c! "",
  c! "CompareResponse ::= [APPLICATION 15] LDAPResult",
  c! "",
  c! "AbandonRequest ::= [APPLICATION 16] MessageID",
  c! "",
  c! "ExtendedRequest ::= [APPLICATION 23] SEQUENCE {",
  c! "     requestName      [0] LDAPOID,",
  c! "     requestValue     [1] OCTET STRING OPTIONAL }",
  c! "",
  c! "ExtendedResponse ::= [APPLICATION 24] SEQUENCE {",
  c! "     COMPONENTS OF LDAPResult,",
  c! "     responseName     [10] LDAPOID OPTIONAL,",
  c! "     responseValue    [11] OCTET STRING OPTIONAL }",
  c! "",
  c! "IntermediateResponse ::= [APPLICATION 25] SEQUENCE {",
  c! "     responseName     [0] LDAPOID OPTIONAL,",
  c! "     responseValue    [1] OCTET STRING OPTIONAL }",
  c! ""]

/-- /repo/examples/rfc4511.asn1 -/
def rfc4511 : Str := rfc4511Part0 ++ (rfc4511Part1 ++ (rfc4511Part2 ++ (rfc4511Part3 ++ (rfc4511Part4 ++ (c! "END")))))

/-- /repo/examples/rfc5280.asn1:1-60 -/
def rfc5280Part0 : Str := unlines [
  c! "PKIX1Explicit88 { iso(1) identified-organization(3) dod(6) internet(1)",
  c! "  security(5) mechanisms(5) pkix(7) id-mod(0) id-pkix1-explicit(18) }",
  c! "",
  c! "DEFINITIONS EXPLICIT TAGS ::=",
  c! "",
  c! "BEGIN",
  c! "",
  c! "-- EXPORTS ALL --",
  c! "",
  c! "-- IMPORTS NONE --",
  c! "",
  c! "-- UNIVERSAL Types defined in 1993 and 1998 ASN.1",
  c! "-- and required by this specification",
  c! "",
  c! "-- !!! COMMENTED OUT TO MAKE PARSEABLE - THIS IS A TOKEN, NOT A TYPE",
  c! "--UniversalString ::= [UNIVERSAL 28] IMPLICIT OCTET STRING",
  c! "        -- UniversalString is defined in ASN.1:1993",
  c! "",
  c! "-- !!! COMMENTED OUT TO MAKE PARSEABLE - THIS IS A TOKEN, NOT A TYPE",
  c! "--BMPString ::= [UNIVERSAL 30] IMPLICIT OCTET STRING",
  c! "      -- BMPString is the subtype of UniversalString and models",
  c! "      -- the Basic Multilingual Plane of ISO/IEC 10646",
  c! "",
  c! "-- !!! COMMENTED OUT TO MAKE PARSEABLE - THIS IS A TOKEN, NOT A TYPE",
  c! "--UTF8String ::= [UNIVERSAL 12] IMPLICIT OCTET STRING",
  c! "      -- The content of this type conforms to RFC 3629.",
  c! "",
  c! "-- PKIX specific OIDs",
  c! "",
  c! "id-pkix  OBJECT IDENTIFIER  ::=",
  c! "         { iso(1) identified-organization(3) dod(6) internet(1)",
  c! "                    security(5) mechanisms(5) pkix(7) }",
  c! "",
  c! "-- PKIX arcs",
  c! "",
  c! "id-pe OBJECT IDENTIFIER ::= { id-pkix 1 }",
  c! "        -- arc for private certificate extensions",
  c! "id-qt OBJECT IDENTIFIER ::= { id-pkix 2 }",
  c! "        -- arc for policy qualifier types",
  c! "id-kp OBJECT IDENTIFIER ::= { id-pkix 3 }",
  c! "        -- arc for extended key purpose OIDS",
  c! "id-ad OBJECT IDENTIFIER ::= { id-pkix 48 }",
  c! "        -- arc for access descriptors",
  c! "",
  c! "-- policyQualifierIds for Internet policy qualifiers",
  c! "",
  c! "id-qt-cps      OBJECT IDENTIFIER ::=  { id-qt 1 }",
  c! "      -- OID for CPS qualifier",
  c! "id-qt-unotice  OBJECT IDENTIFIER ::=  { id-qt 2 }",
  c! "      -- OID for user notice qualifier",
  c! "",
  c! "-- access descriptor definitions",
  c! "",
  c! "id-ad-ocsp         OBJECT IDENTIFIER ::= { id-ad 1 }",
  c! "id-ad-caIssuers    OBJECT IDENTIFIER ::= { id-ad 2 }",
  c! "id-ad-timeStamping OBJECT IDENTIFIER ::= { id-ad 3 }",
  c! "id-ad-caRepository OBJECT IDENTIFIER ::= { id-ad 5 }",
  c! "",
  c! "-- attribute data types",
  c! ""]

/-- /repo/examples/rfc5280.asn1:61-120 -/
def rfc5280Part1 : Str := unlines [
  c! "Attribute               ::= SEQUENCE {",
  c! "      type             AttributeType,",
  c! "      values    SET OF AttributeValue",
  c! "      }",
  c! "            -- at least one value is required",
  c! "",
  c! "AttributeType           ::= OBJECT IDENTIFIER",
  c! "",
  c! "AttributeValue          ::= ANY /*DEFINED BY AttributeType*/  -- TODO(nsokolov): DEFINED BY does not work",
  c! "",
  c! "AttributeTypeAndValue   ::= SEQUENCE {",
  c! "        type    AttributeType,",
  c! "        value   AttributeValue }",
  c! "",
  c! "-- suggested naming attributes: Definition of the following",
  c! "--   information object set may be augmented to meet local",
  c! "--   requirements.  Note that deleting members of the set may",
  c! "--   prevent interoperability with conforming implementations.",
  c! "-- presented in pairs: the AttributeType followed by the",
  c! "--   type definition for the corresponding AttributeValue",
  c! "",
  c! "-- Arc for standard naming attributes",
  c! "",
  c! "id-at OBJECT IDENTIFIER ::= { joint-iso-ccitt(2) ds(5) 4 }",
  c! "",
  c! "-- Naming attributes of type X520name",
  c! "",
  c! "id-at-name                AttributeType ::= { id-at 41 }",
  c! "id-at-surname             AttributeType ::= { id-at  4 }",
  c! "id-at-givenName           AttributeType ::= { id-at 42 }",
  c! "id-at-initials            AttributeType ::= { id-at 43 }",
  c! "id-at-generationQualifier AttributeType ::= { id-at 44 }",
  c! "",
  c! "-- Naming attributes of type X520Name:",
  c! "--   X520name ::= DirectoryString (SIZE (1..ub-name))",
  c! "--",
  c! "-- Expanded to avoid parameterized type:",
  c! "X520name ::= CHOICE {",
  c! "      teletexString     TeletexString   (SIZE (1..ub-name)),",
  c! "      printableString   PrintableString (SIZE (1..ub-name)),",
  c! "      universalString   UniversalString (SIZE (1..ub-name)),",
  c! "      utf8String        UTF8String      (SIZE (1..ub-name)),",
  c! "      bmpString         BMPString       (SIZE (1..ub-name)) }",
  c! "",
  c! "-- Naming attributes of type X520CommonName",
  c! "",
  c! "id-at-commonName        AttributeType ::= { id-at 3 }",
  c! "",
  c! "-- Naming attributes of type X520CommonName:",
  c! "--   X520CommonName ::= DirectoryName (SIZE (1..ub-common-name))",
  c! "--",
  c! "-- Expanded to avoid parameterized type:",
  c! "X520CommonName ::= CHOICE {",
  c! "      teletexString     TeletexString   (SIZE (1..ub-common-name)),",
  c! "      printableString   PrintableString (SIZE (1..ub-common-name)),",
  c! "      universalString   UniversalString (SIZE (1..ub-common-name)),",
  c! "      utf8String        UTF8String      (SIZE (1..ub-common-name)),",
  c! "      bmpString         BMPString       (SIZE (1..ub-common-name)) }",
  c! "",
  c! "-- Naming attributes of type X520LocalityName"]

/-- /repo/examples/rfc5280.asn1:121-180 -/
def rfc5280Part2 : Str := unlines [
  c! "",
  c! "id-at-localityName      AttributeType ::= { id-at 7 }",
  c! "",
  c! "-- Naming attributes of type X520LocalityName:",
  c! "--   X520LocalityName ::= DirectoryName (SIZE (1..ub-locality-name))",
  c! "--",
  c! "-- Expanded to avoid parameterized type:",
  c! "X520LocalityName ::= CHOICE {",
  c! "      teletexString     TeletexString   (SIZE (1..ub-locality-name)),",
  c! "      printableString   PrintableString (SIZE (1..ub-locality-name)),",
  c! "      universalString   UniversalString (SIZE (1..ub-locality-name)),",
  c! "      utf8String        UTF8String      (SIZE (1..ub-locality-name)),",
  c! "      bmpString         BMPString       (SIZE (1..ub-locality-name)) }",
  c! "",
  c! "-- Naming attributes of type X520StateOrProvinceName",
  c! "",
  c! "id-at-stateOrProvinceName AttributeType ::= { id-at 8 }",
  c! "",
  c! "-- Naming attributes of type X520StateOrProvinceName:",
  c! "--   X520StateOrProvinceName ::= DirectoryName (SIZE (1..ub-state-name))",
  c! "--",
  c! "-- Expanded to avoid parameterized type:",
  c! "X520StateOrProvinceName ::= CHOICE {",
  c! "      teletexString     TeletexString   (SIZE (1..ub-state-name)),",
  c! "      printableString   PrintableString (SIZE (1..ub-state-name)),",
  c! "      universalString   UniversalString (SIZE (1..ub-state-name)),",
  c! "      utf8String        UTF8String      (SIZE (1..ub-state-name)),",
  c! "      bmpString         BMPString       (SIZE (1..ub-state-name)) }",
  c! "",
  c! "-- Naming attributes of type X520OrganizationName",
  c! "",
  c! "id-at-organizationName  AttributeType ::= { id-at 10 }",
  c! "",
  c! "-- Naming attributes of type X520OrganizationName:",
  c! "--   X520OrganizationName ::=",
  c! "--          DirectoryName (SIZE (1..ub-organization-name))",
  c! "--",
  c! "-- Expanded to avoid parameterized type:",
  c! "X520OrganizationName ::= CHOICE {",
  c! "      teletexString     TeletexString",
  c! "                          (SIZE (1..ub-organization-name)),",
  c! "      printableString   PrintableString",
  c! "                          (SIZE (1..ub-organization-name)),",
  c! "      universalString   UniversalString",
  c! "                          (SIZE (1..ub-organization-name)),",
  c! "      utf8String        UTF8String",
  c! "                          (SIZE (1..ub-organization-name)),",
  c! "      bmpString         BMPString",
  c! "                          (SIZE (1..ub-organization-name))  }",
  c! "",
  c! "-- Naming attributes of type X520OrganizationalUnitName",
  c! "",
  c! "id-at-organizationalUnitName AttributeType ::= { id-at 11 }",
  c! "",
  c! "-- Naming attributes of type X520OrganizationalUnitName:",
  c! "--   X520OrganizationalUnitName ::=",
  c! "--          DirectoryName (SIZE (1..ub-organizational-unit-name))",
  c! "--",
  c! "-- Expanded to avoid parameterized type:",
  c! "X520OrganizationalUnitName ::= CHOICE {"]

/-- /repo/examples/rfc5280.asn1:181-240 -/
def rfc5280Part3 : Str := unlines [
  c! "      teletexString     TeletexString",
  c! "                          (SIZE (1..ub-organizational-unit-name)),",
  c! "      printableString   PrintableString",
  c! "                          (SIZE (1..ub-organizational-unit-name)),",
  c! "      universalString   UniversalString",
  c! "                          (SIZE (1..ub-organizational-unit-name)),",
  c! "      utf8String        UTF8String",
  c! "                          (SIZE (1..ub-organizational-unit-name)),",
  c! "      bmpString         BMPString",
  c! "                          (SIZE (1..ub-organizational-unit-name)) }",
  c! "",
  c! "-- Naming attributes of type X520Title",
  c! "",
  c! "id-at-title             AttributeType ::= { id-at 12 }",
  c! "",
  c! "-- Naming attributes of type X520Title:",
  c! "--   X520Title ::= DirectoryName (SIZE (1..ub-title))",
  c! "--",
  c! "-- Expanded to avoid parameterized type:",
  c! "X520Title ::= CHOICE {",
  c! "      teletexString     TeletexString   (SIZE (1..ub-title)),",
  c! "      printableString   PrintableString (SIZE (1..ub-title)),",
  c! "      universalString   UniversalString (SIZE (1..ub-title)),",
  c! "      utf8String        UTF8String      (SIZE (1..ub-title)),",
  c! "      bmpString         BMPString       (SIZE (1..ub-title)) }",
  c! "",
  c! "-- Naming attributes of type X520dnQualifier",
  c! "",
  c! "id-at-dnQualifier       AttributeType ::= { id-at 46 }",
  c! "",
  c! "X520dnQualifier ::=     PrintableString",
  c! "",
  c! "-- Naming attributes of type X520countryName (digraph from IS 3166)",
  c! "",
  c! "id-at-countryName       AttributeType ::= { id-at 6 }",
  c! "",
  c! "X520countryName ::=     PrintableString (SIZE (2))",
  c! "",
  c! "-- Naming attributes of type X520SerialNumber",
  c! "",
  c! "id-at-serialNumber      AttributeType ::= { id-at 5 }",
  c! "",
  c! "X520SerialNumber ::=    PrintableString (SIZE (1..ub-serial-number))",
  c! "",
  c! "-- Naming attributes of type X520Pseudonym",
  c! "",
  c! "id-at-pseudonym         AttributeType ::= { id-at 65 }",
  c! "",
  c! "-- Naming attributes of type X520Pseudonym:",
  c! "--   X520Pseudonym ::= DirectoryName (SIZE (1..ub-pseudonym))",
  c! "--",
  c! "-- Expanded to avoid parameterized type:",
  c! "X520Pseudonym ::= CHOICE {",
  c! "   teletexString     TeletexString   (SIZE (1..ub-pseudonym)),",
  c! "   printableString   PrintableString (SIZE (1..ub-pseudonym)),",
  c! "   universalString   UniversalString (SIZE (1..ub-pseudonym)),",
  c! "   utf8String        UTF8String      (SIZE (1..ub-pseudonym)),",
  c! "   bmpString         BMPString       (SIZE (1..ub-pseudonym)) }",
  c! "",
  c! "-- Naming attributes of type DomainComponent (from RFC 4519)"]

/-- /repo/examples/rfc5280.asn1:241-300 -/
def rfc5280Part4 : Str := unlines [
  c! "",
  c! "id-domainComponent   AttributeType ::= { 0 9 2342 19200300 100 1 25 }",
  c! "",
  c! "DomainComponent ::=  IA5String",
  c! "",
  c! "-- Legacy attributes",
  c! "",
  c! "pkcs-9 OBJECT IDENTIFIER ::=",
  c! "       { iso(1) member-body(2) us(840) rsadsi(113549) pkcs(1) 9 }",
  c! "",
  c! "id-emailAddress      AttributeType ::= { pkcs-9 1 }",
  c! "",
  c! "EmailAddress ::=     IA5String (SIZE (1..ub-emailaddress-length))",
  c! "",
  c! "-- naming data types --",
  c! "",
  c! "Name ::= CHOICE { -- only one possibility for now --",
  c! "      rdnSequence  RDNSequence }",
  c! "",
  c! "RDNSequence ::= SEQUENCE OF RelativeDistinguishedName",
  c! "",
  c! "DistinguishedName ::=   RDNSequence",
  c! "",
  c! "RelativeDistinguishedName ::= SET SIZE (1..MAX) OF AttributeTypeAndValue",
  c! "",
  c! "-- Directory string type --",
  c! "",
  c! "DirectoryString ::= CHOICE {",
  c! "      teletexString       TeletexString   (SIZE (1..MAX)),",
  c! "      printableString     PrintableString (SIZE (1..MAX)),",
  c! "      universalString     UniversalString (SIZE (1..MAX)),",
  c! "      utf8String          UTF8String      (SIZE (1..MAX)),",
  c! "      bmpString           BMPString       (SIZE (1..MAX)) }",
  c! "",
  c! "-- certificate and CRL specific structures begin here",
  c! "",
  c! "Certificate  ::=  SEQUENCE  {",
  c! "     tbsCertificate       TBSCertificate,",
  c! "     signatureAlgorithm   AlgorithmIdentifier,",
  c! "     signature            BIT STRING  }",
  c! "",
  c! "TBSCertificate  ::=  SEQUENCE  {",
  c! "     version         [0]  Version DEFAULT v1,",
  c! "     serialNumber         CertificateSerialNumber,",
  c! "     signature            AlgorithmIdentifier,",
  c! "     issuer               Name,",
  c! "     validity             Validity,",
  c! "     subject              Name,",
  c! "     subjectPublicKeyInfo SubjectPublicKeyInfo,",
  c! "     issuerUniqueID  [1]  IMPLICIT UniqueIdentifier OPTIONAL,",
  c! "                          -- If present, version MUST be v2 or v3",
  c! "     subjectUniqueID [2]  IMPLICIT UniqueIdentifier OPTIONAL,",
  c! "                          -- If present, version MUST be v2 or v3",
  c! "     extensions      [3]  Extensions OPTIONAL",
  c! "                          -- If present, version MUST be v3 --  }",
  c! "",
  c! "Version  ::=  INTEGER  {  v1(0), v2(1), v3(2)  }",
  c! "",
  c! "CertificateSerialNumber  ::=  INTEGER",
  c! ""]

/-- /repo/examples/rfc5280.asn1:301-360 -/
def rfc5280Part5 : Str := unlines [
  c! "Validity ::= SEQUENCE {",
  c! "     notBefore      Time,",
  c! "     notAfter       Time  }",
  c! "",
  c! "Time ::= CHOICE {",
  c! "     utcTime        UTCTime,",
  c! "     generalTime    GeneralizedTime }",
  c! "",
  c! "UniqueIdentifier  ::=  BIT STRING",
  c! "",
  c! "SubjectPublicKeyInfo  ::=  SEQUENCE  {",
  c! "     algorithm            AlgorithmIdentifier,",
  c! "     subjectPublicKey     BIT STRING  }",
  c! "",
  c! "Extensions  ::=  SEQUENCE SIZE (1..MAX) OF Extension",
  c! "",
  c! "Extension  ::=  SEQUENCE  {",
  c! "     extnID      OBJECT IDENTIFIER,",
  c! "     critical    BOOLEAN DEFAULT FALSE,",
  c! "     extnValue   OCTET STRING",
  c! "                 -- contains the DER encoding of an ASN.1 value",
  c! "                 -- corresponding to the extension type identified",
  c! "                 -- by extnID",
  c! "     }",
  c! "",
  c! "-- CRL structures",
  c! "",
  c! "CertificateList  ::=  SEQUENCE  {",
  c! "     tbsCertList          TBSCertList,",
  c! "     signatureAlgorithm   AlgorithmIdentifier,",
  c! "     signature            BIT STRING  }",
  c! "",
  c! "TBSCertList  ::=  SEQUENCE  {",
  c! "     version                 Version OPTIONAL,",
  c! "                                   -- if present, MUST be v2",
  c! "     signature               AlgorithmIdentifier,",
  c! "     issuer                  Name,",
  c! "     thisUpdate              Time,",
  c! "     nextUpdate              Time OPTIONAL,",
  c! "     revokedCertificates     SEQUENCE OF SEQUENCE  {",
  c! "          userCertificate         CertificateSerialNumber,",
  c! "          revocationDate          Time,",
  c! "          crlEntryExtensions      Extensions OPTIONAL",
  c! "                                   -- if present, version MUST be v2",
  c! "                               }  OPTIONAL,",
  c! "     crlExtensions           [0] Extensions OPTIONAL }",
  c! "                                   -- if present, version MUST be v2",
  c! "",
  c! "-- Version, Time, CertificateSerialNumber, and Extensions were",
  c! "-- defined earlier for use in the certificate structure",
  c! "",
  c! "AlgorithmIdentifier  ::=  SEQUENCE  {",
  c! "     algorithm               OBJECT IDENTIFIER,",
  c! "     parameters              ANY DEFINED BY algorithm OPTIONAL  }",
  c! "                                -- contains a value of the type",
  c! "                                -- registered for use with the",
  c! "                                -- algorithm object identifier value",
  c! "",
  c! "-- X.400 address syntax starts here",
  c! ""]

/-- /repo/examples/rfc5280.asn1:361-420 -/
def rfc5280Part6 : Str := unlines [
  c! "ORAddress ::= SEQUENCE {",
  c! "   built-in-standard-attributes BuiltInStandardAttributes,",
  c! "   built-in-domain-defined-attributes",
  c! "                   BuiltInDomainDefinedAttributes OPTIONAL,",
  c! "   -- see also teletex-domain-defined-attributes",
  c! "   extension-attributes ExtensionAttributes OPTIONAL }",
  c! "",
  c! "-- Built-in Standard Attributes",
  c! "",
  c! "BuiltInStandardAttributes ::= SEQUENCE {",
  c! "   country-name                  CountryName OPTIONAL,",
  c! "   administration-domain-name    AdministrationDomainName OPTIONAL,",
  c! "   network-address           [0] IMPLICIT NetworkAddress OPTIONAL,",
  c! "     -- see also extended-network-address",
  c! "   terminal-identifier       [1] IMPLICIT TerminalIdentifier OPTIONAL,",
  c! "   private-domain-name       [2] PrivateDomainName OPTIONAL,",
  c! "   organization-name         [3] IMPLICIT OrganizationName OPTIONAL,",
  c! "     -- see also teletex-organization-name",
  c! "   numeric-user-identifier   [4] IMPLICIT NumericUserIdentifier",
  c! "                                 OPTIONAL,",
  c! "   personal-name             [5] IMPLICIT PersonalName OPTIONAL,",
  c! "     -- see also teletex-personal-name",
  c! "   organizational-unit-names [6] IMPLICIT OrganizationalUnitNames",
  c! "                                 OPTIONAL }",
  c! "     -- see also teletex-organizational-unit-names",
  c! "",
  c! "CountryName ::= [APPLICATION 1] CHOICE {",
  c! "   x121-dcc-code         NumericString",
  c! "                           (SIZE (ub-country-name-numeric-length)),",
  c! "   iso-3166-alpha2-code  PrintableString",
  c! "                           (SIZE (ub-country-name-alpha-length)) }",
  c! "",
  c! "AdministrationDomainName ::= [APPLICATION 2] CHOICE {",
  c! "   numeric   NumericString   (SIZE (0..ub-domain-name-length)),",
  c! "   printable PrintableString (SIZE (0..ub-domain-name-length)) }",
  c! "",
  c! "NetworkAddress ::= X121Address  -- see also extended-network-address",
  c! "",
  c! "X121Address ::= NumericString (SIZE (1..ub-x121-address-length))",
  c! "",
  c! "TerminalIdentifier ::= PrintableString (SIZE (1..ub-terminal-id-length))",
  c! "",
  c! "PrivateDomainName ::= CHOICE {",
  c! "   numeric   NumericString   (SIZE (1..ub-domain-name-length)),",
  c! "   printable PrintableString (SIZE (1..ub-domain-name-length)) }",
  c! "",
  c! "OrganizationName ::= PrintableString",
  c! "                            (SIZE (1..ub-organization-name-length))",
  c! "  -- see also teletex-organization-name",
  c! "",
  c! "NumericUserIdentifier ::= NumericString",
  c! "                            (SIZE (1..ub-numeric-user-id-length))",
  c! "",
  c! "PersonalName ::= SET {",
  c! "   surname     [0] IMPLICIT PrintableString",
  c! "                    (SIZE (1..ub-surname-length)),",
  c! "   given-name  [1] IMPLICIT PrintableString",
  c! "                    (SIZE (1..ub-given-name-length)) OPTIONAL,",
  c! "   initials    [2] IMPLICIT PrintableString",
  c! "                    (SIZE (1..ub-initials-length)) OPTIONAL,"]

/-- /repo/examples/rfc5280.asn1:421-480 -/
def rfc5280Part7 : Str := unlines [
  c! "   generation-qualifier [3] IMPLICIT PrintableString",
  c! "                    (SIZE (1..ub-generation-qualifier-length))",
  c! "                    OPTIONAL }",
  c! "  -- see also teletex-personal-name",
  c! "",
  c! "OrganizationalUnitNames ::= SEQUENCE SIZE (1..ub-organizational-units)",
  c! "                             OF OrganizationalUnitName",
  c! "  -- see also teletex-organizational-unit-names",
  c! "",
  c! "OrganizationalUnitName ::= PrintableString (SIZE",
  c! "                    (1..ub-organizational-unit-name-length))",
  c! "",
  c! "-- Built-in Domain-defined Attributes",
  c! "",
  c! "BuiltInDomainDefinedAttributes ::= SEQUENCE SIZE",
  c! "                    (1..ub-domain-defined-attributes) OF",
  c! "                    BuiltInDomainDefinedAttribute",
  c! "",
  c! "BuiltInDomainDefinedAttribute ::= SEQUENCE {",
  c! "   type PrintableString (SIZE",
  c! "                   (1..ub-domain-defined-attribute-type-length)),",
  c! "   value PrintableString (SIZE",
  c! "                   (1..ub-domain-defined-attribute-value-length)) }",
  c! "",
  c! "-- Extension Attributes",
  c! "",
  c! "ExtensionAttributes ::= SET SIZE (1..ub-extension-attributes) OF",
  c! "               ExtensionAttribute",
  c! "",
  c! "ExtensionAttribute ::=  SEQUENCE {",
  c! "   extension-attribute-type [0] IMPLICIT INTEGER",
  c! "                   (0..ub-extension-attributes),",
  c! "   extension-attribute-value [1]",
  c! "                   ANY DEFINED BY extension-attribute-type }",
  c! "",
  c! "-- Extension types and attribute values",
  c! "",
  c! "common-name INTEGER ::= 1",
  c! "",
  c! "CommonName ::= PrintableString (SIZE (1..ub-common-name-length))",
  c! "",
  c! "teletex-common-name INTEGER ::= 2",
  c! "",
  c! "TeletexCommonName ::= TeletexString (SIZE (1..ub-common-name-length))",
  c! "",
  c! "teletex-organization-name INTEGER ::= 3",
  c! "",
  c! "TeletexOrganizationName ::=",
  c! "                TeletexString (SIZE (1..ub-organization-name-length))",
  c! "",
  c! "teletex-personal-name INTEGER ::= 4",
  c! "",
  c! "TeletexPersonalName ::= SET {",
  c! "   surname     [0] IMPLICIT TeletexString",
  c! "                    (SIZE (1..ub-surname-length)),",
  c! "   given-name  [1] IMPLICIT TeletexString",
  c! "                    (SIZE (1..ub-given-name-length)) OPTIONAL,",
  c! "   initials    [2] IMPLICIT TeletexString",
  c! "                    (SIZE (1..ub-initials-length)) OPTIONAL,",
  c! "   generation-qualifier [3] IMPLICIT TeletexString"]

/-- /repo/examples/rfc5280.asn1:481-540 -/
def rfc5280Part8 : Str := unlines [
  c! "                    (SIZE (1..ub-generation-qualifier-length))",
  c! "                    OPTIONAL }",
  c! "",
  c! "teletex-organizational-unit-names INTEGER ::= 5",
  c! "",
  c! "TeletexOrganizationalUnitNames ::= SEQUENCE SIZE",
  c! "      (1..ub-organizational-units) OF TeletexOrganizationalUnitName",
  c! "",
  c! "TeletexOrganizationalUnitName ::= TeletexString",
  c! "                  (SIZE (1..ub-organizational-unit-name-length))",
  c! "",
  c! "pds-name INTEGER ::= 7",
  c! "",
  c! "PDSName ::= PrintableString (SIZE (1..ub-pds-name-length))",
  c! "",
  c! "physical-delivery-country-name INTEGER ::= 8",
  c! "",
  c! "PhysicalDeliveryCountryName ::= CHOICE {",
  c! "   x121-dcc-code NumericString (SIZE (ub-country-name-numeric-length)),",
  c! "   iso-3166-alpha2-code PrintableString",
  c! "                               (SIZE (ub-country-name-alpha-length)) }",
  c! "",
  c! "postal-code INTEGER ::= 9",
  c! "",
  c! "PostalCode ::= CHOICE {",
  c! "   numeric-code   NumericString (SIZE (1..ub-postal-code-length)),",
  c! "   printable-code PrintableString (SIZE (1..ub-postal-code-length)) }",
  c! "",
  c! "physical-delivery-office-name INTEGER ::= 10",
  c! "",
  c! "PhysicalDeliveryOfficeName ::= PDSParameter",
  c! "",
  c! "physical-delivery-office-number INTEGER ::= 11",
  c! "",
  c! "PhysicalDeliveryOfficeNumber ::= PDSParameter",
  c! "",
  c! "extension-OR-address-components INTEGER ::= 12",
  c! "",
  c! "ExtensionORAddressComponents ::= PDSParameter",
  c! "",
  c! "physical-delivery-personal-name INTEGER ::= 13",
  c! "",
  c! "PhysicalDeliveryPersonalName ::= PDSParameter",
  c! "",
  c! "physical-delivery-organization-name INTEGER ::= 14",
  c! "",
  c! "PhysicalDeliveryOrganizationName ::= PDSParameter",
  c! "",
  c! "extension-physical-delivery-address-components INTEGER ::= 15",
  c! "",
  c! "ExtensionPhysicalDeliveryAddressComponents ::= PDSParameter",
  c! "",
  c! "unformatted-postal-address INTEGER ::= 16",
  c! "",
  c! "UnformattedPostalAddress ::= SET {",
  c! "   printable-address SEQUENCE SIZE (1..ub-pds-physical-address-lines)",
  c! "        OF PrintableString (SIZE (1..ub-pds-parameter-length)) OPTIONAL,",
  c! "   teletex-string TeletexString",
  c! "        (SIZE (1..ub-unformatted-address-length)) OPTIONAL }",
  c! ""]

/-- /repo/examples/rfc5280.asn1:541-600 -/
def rfc5280Part9 : Str := unlines [
  c! "street-address INTEGER ::= 17",
  c! "",
  c! "StreetAddress ::= PDSParameter",
  c! "",
  c! "post-office-box-address INTEGER ::= 18",
  c! "",
  c! "PostOfficeBoxAddress ::= PDSParameter",
  c! "",
  c! "poste-restante-address INTEGER ::= 19",
  c! "",
  c! "PosteRestanteAddress ::= PDSParameter",
  c! "",
  c! "unique-postal-name INTEGER ::= 20",
  c! "",
  c! "UniquePostalName ::= PDSParameter",
  c! "",
  c! "local-postal-attributes INTEGER ::= 21",
  c! "",
  c! "LocalPostalAttributes ::= PDSParameter",
  c! "",
  c! "PDSParameter ::= SET {",
  c! "   printable-string PrintableString",
  c! "                (SIZE(1..ub-pds-parameter-length)) OPTIONAL,",
  c! "   teletex-string TeletexString",
  c! "                (SIZE(1..ub-pds-parameter-length)) OPTIONAL }",
  c! "",
  c! "extended-network-address INTEGER ::= 22",
  c! "",
  c! "ExtendedNetworkAddress ::= CHOICE {",
  c! "   e163-4-address SEQUENCE {",
  c! "      number      [0] IMPLICIT NumericString",
  c! "                       (SIZE (1..ub-e163-4-number-length)),",
  c! "      sub-address [1] IMPLICIT NumericString",
  c! "                       (SIZE (1..ub-e163-4-sub-address-length))",
  c! "                       OPTIONAL },",
  c! "   psap-address   [0] IMPLICIT PresentationAddress }",
  c! "",
  c! "PresentationAddress ::= SEQUENCE {",
  c! "    pSelector     [0] EXPLICIT OCTET STRING OPTIONAL,",
  c! "    sSelector     [1] EXPLICIT OCTET STRING OPTIONAL,",
  c! "    tSelector     [2] EXPLICIT OCTET STRING OPTIONAL,",
  c! "    nAddresses    [3] EXPLICIT SET SIZE (1..MAX) OF OCTET STRING }",
  c! "",
  c! "terminal-type  INTEGER ::= 23",
  c! "",
  c! "TerminalType ::= INTEGER {",
  c! "   telex        (3),",
  c! "   teletex      (4),",
  c! "   g3-facsimile (5),",
  c! "   g4-facsimile (6),",
  c! "   ia5-terminal (7),",
  c! "   videotex     (8) } (0..ub-integer-options)",
  c! "",
  c! "-- Extension Domain-defined Attributes",
  c! "",
  c! "teletex-domain-defined-attributes INTEGER ::= 6",
  c! "",
  c! "TeletexDomainDefinedAttributes ::= SEQUENCE SIZE",
  c! "   (1..ub-domain-defined-attributes) OF TeletexDomainDefinedAttribute",
  c! ""]

/-- /repo/examples/rfc5280.asn1:601-658 -/
def rfc5280Part10 : Str := unlines [
  c! "TeletexDomainDefinedAttribute ::= SEQUENCE {",
  c! "        type TeletexString",
  c! "               (SIZE (1..ub-domain-defined-attribute-type-length)),",
  c! "        value TeletexString",
  c! "               (SIZE (1..ub-domain-defined-attribute-value-length)) }",
  c! "",
  c! "--  specifications of Upper Bounds MUST be regarded as mandatory",
  c! "--  from Annex B of ITU-T X.411 Reference Definition of MTS Parameter",
  c! "--  Upper Bounds",
  c! "",
  c! "-- Upper Bounds",
  c! "ub-name INTEGER ::= 32768",
  c! "ub-common-name INTEGER ::= 64",
  c! "ub-locality-name INTEGER ::= 128",
  c! "ub-state-name INTEGER ::= 128",
  c! "ub-organization-name INTEGER ::= 64",
  c! "ub-organizational-unit-name INTEGER ::= 64",
  c! "ub-title INTEGER ::= 64",
  c! "ub-serial-number INTEGER ::= 64",
  c! "ub-match INTEGER ::= 128",
  c! "ub-emailaddress-length INTEGER ::= 255",
  c! "ub-common-name-length INTEGER ::= 64",
  c! "ub-country-name-alpha-length INTEGER ::= 2",
  c! "ub-country-name-numeric-length INTEGER ::= 3",
  c! "ub-domain-defined-attributes INTEGER ::= 4",
  c! "ub-domain-defined-attribute-type-length INTEGER ::= 8",
  c! "ub-domain-defined-attribute-value-length INTEGER ::= 128",
  c! "ub-domain-name-length INTEGER ::= 16",
  c! "ub-extension-attributes INTEGER ::= 256",
  c! "ub-e163-4-number-length INTEGER ::= 15",
  c! "ub-e163-4-sub-address-length INTEGER ::= 40",
  c! "ub-generation-qualifier-length INTEGER ::= 3",
  c! "ub-given-name-length INTEGER ::= 16",
  c! "ub-initials-length INTEGER ::= 5",
  c! "ub-integer-options INTEGER ::= 256",
  c! "ub-numeric-user-id-length INTEGER ::= 32",
  c! "ub-organization-name-length INTEGER ::= 64",
  c! "ub-organizational-unit-name-length INTEGER ::= 32",
  c! "ub-organizational-units INTEGER ::= 4",
  c! "ub-pds-name-length INTEGER ::= 16",
  c! "ub-pds-parameter-length INTEGER ::= 30",
  c! "ub-pds-physical-address-lines INTEGER ::= 6",
  c! "ub-postal-code-length INTEGER ::= 16",
  c! "ub-pseudonym INTEGER ::= 128",
  c! "ub-surname-length INTEGER ::= 40",
  c! "ub-terminal-id-length INTEGER ::= 24",
  c! "ub-unformatted-address-length INTEGER ::= 180",
  c! "ub-x121-address-length INTEGER ::= 16",
  c! "",
  c! "-- Note - upper bounds on string types, such as TeletexString, are",
  c! "-- measured in characters.  Excepting PrintableString or IA5String, a",
  c! "-- significantly greater number of octets will be required to hold",
  c! "-- such a value.  As a minimum, 16 octets, or twice the specified",
  c! "-- upper bound, whichever is the larger, should be allowed for",
  c! "-- TeletexString.  For UTF8String or UniversalString at least four",
  c! "-- times the upper bound should be allowed.",
  c! "",
  c! "END"]

/-- /repo/examples/rfc5280.asn1 -/
def rfc5280 : Str := rfc5280Part0 ++ (rfc5280Part1 ++ (rfc5280Part2 ++ (rfc5280Part3 ++ (rfc5280Part4 ++ (rfc5280Part5 ++ (rfc5280Part6 ++ (rfc5280Part7 ++ (rfc5280Part8 ++ (rfc5280Part9 ++ (rfc5280Part10))))))))))

end Asn1go.Tests
