import Verif.Model.Codegen

/-! Written by tools/emit.sh: the module in /repo/examples/rfc5280.asn1 and the file generated for it. -/

namespace Asn1go.Tests

/-- RFC 5280: assignments 1 to 12. -/
def x509Part0 : List MAssignment := [
  .value (c! "id-pkix") .objectIdentifier (.objectIdentifier [⟨c! "iso", 1, none⟩, ⟨c! "identified-organization", 3, none⟩, ⟨c! "dod", 6, none⟩, ⟨c! "internet", 1, none⟩, ⟨c! "security", 5, none⟩, ⟨c! "mechanisms", 5, none⟩, ⟨c! "pkix", 7, none⟩]),
  .value (c! "id-pe") .objectIdentifier (.objectIdentifier [⟨[], 0, (some ⟨[], []⟩)⟩, ⟨[], 1, none⟩]),
  .value (c! "id-qt") .objectIdentifier (.objectIdentifier [⟨[], 0, (some ⟨[], []⟩)⟩, ⟨[], 2, none⟩]),
  .value (c! "id-kp") .objectIdentifier (.objectIdentifier [⟨[], 0, (some ⟨[], []⟩)⟩, ⟨[], 3, none⟩]),
  .value (c! "id-ad") .objectIdentifier (.objectIdentifier [⟨[], 0, (some ⟨[], []⟩)⟩, ⟨[], 48, none⟩]),
  .value (c! "id-qt-cps") .objectIdentifier (.objectIdentifier [⟨[], 0, (some ⟨[], []⟩)⟩, ⟨[], 1, none⟩]),
  .value (c! "id-qt-unotice") .objectIdentifier (.objectIdentifier [⟨[], 0, (some ⟨[], []⟩)⟩, ⟨[], 2, none⟩]),
  .value (c! "id-ad-ocsp") .objectIdentifier (.objectIdentifier [⟨[], 0, (some ⟨[], []⟩)⟩, ⟨[], 1, none⟩]),
  .value (c! "id-ad-caIssuers") .objectIdentifier (.objectIdentifier [⟨[], 0, (some ⟨[], []⟩)⟩, ⟨[], 2, none⟩]),
  .value (c! "id-ad-timeStamping") .objectIdentifier (.objectIdentifier [⟨[], 0, (some ⟨[], []⟩)⟩, ⟨[], 3, none⟩]),
  .value (c! "id-ad-caRepository") .objectIdentifier (.objectIdentifier [⟨[], 0, (some ⟨[], []⟩)⟩, ⟨[], 5, none⟩]),
  .type (c! "Attribute") (.sequence [.named (.mk (c! "type") (.ref (c! "AttributeType"))) false none, .named (.mk (c! "values") (.setOf (.ref (c! "AttributeValue")))) false none] [])]

/-- RFC 5280: assignments 13 to 24. -/
def x509Part1 : List MAssignment := [
  .type (c! "AttributeType") .objectIdentifier,
  .type (c! "AttributeValue") (.any ([])),
  .type (c! "AttributeTypeAndValue") (.sequence [.named (.mk (c! "type") (.ref (c! "AttributeType"))) false none, .named (.mk (c! "value") (.ref (c! "AttributeValue"))) false none] []),
  .value (c! "id-at") .objectIdentifier (.objectIdentifier [⟨c! "joint-iso-ccitt", 2, none⟩, ⟨c! "ds", 5, none⟩, ⟨[], 4, none⟩]),
  .value (c! "id-at-name") (.ref (c! "AttributeType")) (.objectIdentifier [⟨[], 0, (some ⟨[], []⟩)⟩, ⟨[], 41, none⟩]),
  .value (c! "id-at-surname") (.ref (c! "AttributeType")) (.objectIdentifier [⟨[], 0, (some ⟨[], []⟩)⟩, ⟨[], 4, none⟩]),
  .value (c! "id-at-givenName") (.ref (c! "AttributeType")) (.objectIdentifier [⟨[], 0, (some ⟨[], []⟩)⟩, ⟨[], 42, none⟩]),
  .value (c! "id-at-initials") (.ref (c! "AttributeType")) (.objectIdentifier [⟨[], 0, (some ⟨[], []⟩)⟩, ⟨[], 43, none⟩]),
  .value (c! "id-at-generationQualifier") (.ref (c! "AttributeType")) (.objectIdentifier [⟨[], 0, (some ⟨[], []⟩)⟩, ⟨[], 44, none⟩]),
  .type (c! "X520name") (.choice [(.mk (c! "teletexString") (.constrained (.restrictedString 57424) (.mk (.subtype [(.unions [[.mk (.size (.mk (.subtype [(.unions [[.mk (.valueRange ⟨(.number 1), false⟩ ⟨(.identifiedInteger (c! "ub-name")), false⟩) .nil]])]))) .nil]])])))), (.mk (c! "printableString") (.constrained (.restrictedString 57459) (.mk (.subtype [(.unions [[.mk (.size (.mk (.subtype [(.unions [[.mk (.valueRange ⟨(.number 1), false⟩ ⟨(.identifiedInteger (c! "ub-name")), false⟩) .nil]])]))) .nil]])])))), (.mk (c! "universalString") (.constrained (.restrictedString 57448) (.mk (.subtype [(.unions [[.mk (.size (.mk (.subtype [(.unions [[.mk (.valueRange ⟨(.number 1), false⟩ ⟨(.identifiedInteger (c! "ub-name")), false⟩) .nil]])]))) .nil]])])))), (.mk (c! "utf8String") (.constrained (.restrictedString 57456) (.mk (.subtype [(.unions [[.mk (.size (.mk (.subtype [(.unions [[.mk (.valueRange ⟨(.number 1), false⟩ ⟨(.identifiedInteger (c! "ub-name")), false⟩) .nil]])]))) .nil]])])))), (.mk (c! "bmpString") (.constrained (.restrictedString 57417) (.mk (.subtype [(.unions [[.mk (.size (.mk (.subtype [(.unions [[.mk (.valueRange ⟨(.number 1), false⟩ ⟨(.identifiedInteger (c! "ub-name")), false⟩) .nil]])]))) .nil]])]))))] []),
  .value (c! "id-at-commonName") (.ref (c! "AttributeType")) (.objectIdentifier [⟨[], 0, (some ⟨[], []⟩)⟩, ⟨[], 3, none⟩]),
  .type (c! "X520CommonName") (.choice [(.mk (c! "teletexString") (.constrained (.restrictedString 57424) (.mk (.subtype [(.unions [[.mk (.size (.mk (.subtype [(.unions [[.mk (.valueRange ⟨(.number 1), false⟩ ⟨(.identifiedInteger (c! "ub-common-name")), false⟩) .nil]])]))) .nil]])])))), (.mk (c! "printableString") (.constrained (.restrictedString 57459) (.mk (.subtype [(.unions [[.mk (.size (.mk (.subtype [(.unions [[.mk (.valueRange ⟨(.number 1), false⟩ ⟨(.identifiedInteger (c! "ub-common-name")), false⟩) .nil]])]))) .nil]])])))), (.mk (c! "universalString") (.constrained (.restrictedString 57448) (.mk (.subtype [(.unions [[.mk (.size (.mk (.subtype [(.unions [[.mk (.valueRange ⟨(.number 1), false⟩ ⟨(.identifiedInteger (c! "ub-common-name")), false⟩) .nil]])]))) .nil]])])))), (.mk (c! "utf8String") (.constrained (.restrictedString 57456) (.mk (.subtype [(.unions [[.mk (.size (.mk (.subtype [(.unions [[.mk (.valueRange ⟨(.number 1), false⟩ ⟨(.identifiedInteger (c! "ub-common-name")), false⟩) .nil]])]))) .nil]])])))), (.mk (c! "bmpString") (.constrained (.restrictedString 57417) (.mk (.subtype [(.unions [[.mk (.size (.mk (.subtype [(.unions [[.mk (.valueRange ⟨(.number 1), false⟩ ⟨(.identifiedInteger (c! "ub-common-name")), false⟩) .nil]])]))) .nil]])]))))] [])]

/-- RFC 5280: assignments 25 to 36. -/
def x509Part2 : List MAssignment := [
  .value (c! "id-at-localityName") (.ref (c! "AttributeType")) (.objectIdentifier [⟨[], 0, (some ⟨[], []⟩)⟩, ⟨[], 7, none⟩]),
  .type (c! "X520LocalityName") (.choice [(.mk (c! "teletexString") (.constrained (.restrictedString 57424) (.mk (.subtype [(.unions [[.mk (.size (.mk (.subtype [(.unions [[.mk (.valueRange ⟨(.number 1), false⟩ ⟨(.identifiedInteger (c! "ub-locality-name")), false⟩) .nil]])]))) .nil]])])))), (.mk (c! "printableString") (.constrained (.restrictedString 57459) (.mk (.subtype [(.unions [[.mk (.size (.mk (.subtype [(.unions [[.mk (.valueRange ⟨(.number 1), false⟩ ⟨(.identifiedInteger (c! "ub-locality-name")), false⟩) .nil]])]))) .nil]])])))), (.mk (c! "universalString") (.constrained (.restrictedString 57448) (.mk (.subtype [(.unions [[.mk (.size (.mk (.subtype [(.unions [[.mk (.valueRange ⟨(.number 1), false⟩ ⟨(.identifiedInteger (c! "ub-locality-name")), false⟩) .nil]])]))) .nil]])])))), (.mk (c! "utf8String") (.constrained (.restrictedString 57456) (.mk (.subtype [(.unions [[.mk (.size (.mk (.subtype [(.unions [[.mk (.valueRange ⟨(.number 1), false⟩ ⟨(.identifiedInteger (c! "ub-locality-name")), false⟩) .nil]])]))) .nil]])])))), (.mk (c! "bmpString") (.constrained (.restrictedString 57417) (.mk (.subtype [(.unions [[.mk (.size (.mk (.subtype [(.unions [[.mk (.valueRange ⟨(.number 1), false⟩ ⟨(.identifiedInteger (c! "ub-locality-name")), false⟩) .nil]])]))) .nil]])]))))] []),
  .value (c! "id-at-stateOrProvinceName") (.ref (c! "AttributeType")) (.objectIdentifier [⟨[], 0, (some ⟨[], []⟩)⟩, ⟨[], 8, none⟩]),
  .type (c! "X520StateOrProvinceName") (.choice [(.mk (c! "teletexString") (.constrained (.restrictedString 57424) (.mk (.subtype [(.unions [[.mk (.size (.mk (.subtype [(.unions [[.mk (.valueRange ⟨(.number 1), false⟩ ⟨(.identifiedInteger (c! "ub-state-name")), false⟩) .nil]])]))) .nil]])])))), (.mk (c! "printableString") (.constrained (.restrictedString 57459) (.mk (.subtype [(.unions [[.mk (.size (.mk (.subtype [(.unions [[.mk (.valueRange ⟨(.number 1), false⟩ ⟨(.identifiedInteger (c! "ub-state-name")), false⟩) .nil]])]))) .nil]])])))), (.mk (c! "universalString") (.constrained (.restrictedString 57448) (.mk (.subtype [(.unions [[.mk (.size (.mk (.subtype [(.unions [[.mk (.valueRange ⟨(.number 1), false⟩ ⟨(.identifiedInteger (c! "ub-state-name")), false⟩) .nil]])]))) .nil]])])))), (.mk (c! "utf8String") (.constrained (.restrictedString 57456) (.mk (.subtype [(.unions [[.mk (.size (.mk (.subtype [(.unions [[.mk (.valueRange ⟨(.number 1), false⟩ ⟨(.identifiedInteger (c! "ub-state-name")), false⟩) .nil]])]))) .nil]])])))), (.mk (c! "bmpString") (.constrained (.restrictedString 57417) (.mk (.subtype [(.unions [[.mk (.size (.mk (.subtype [(.unions [[.mk (.valueRange ⟨(.number 1), false⟩ ⟨(.identifiedInteger (c! "ub-state-name")), false⟩) .nil]])]))) .nil]])]))))] []),
  .value (c! "id-at-organizationName") (.ref (c! "AttributeType")) (.objectIdentifier [⟨[], 0, (some ⟨[], []⟩)⟩, ⟨[], 10, none⟩]),
  .type (c! "X520OrganizationName") (.choice [(.mk (c! "teletexString") (.constrained (.restrictedString 57424) (.mk (.subtype [(.unions [[.mk (.size (.mk (.subtype [(.unions [[.mk (.valueRange ⟨(.number 1), false⟩ ⟨(.identifiedInteger (c! "ub-organization-name")), false⟩) .nil]])]))) .nil]])])))), (.mk (c! "printableString") (.constrained (.restrictedString 57459) (.mk (.subtype [(.unions [[.mk (.size (.mk (.subtype [(.unions [[.mk (.valueRange ⟨(.number 1), false⟩ ⟨(.identifiedInteger (c! "ub-organization-name")), false⟩) .nil]])]))) .nil]])])))), (.mk (c! "universalString") (.constrained (.restrictedString 57448) (.mk (.subtype [(.unions [[.mk (.size (.mk (.subtype [(.unions [[.mk (.valueRange ⟨(.number 1), false⟩ ⟨(.identifiedInteger (c! "ub-organization-name")), false⟩) .nil]])]))) .nil]])])))), (.mk (c! "utf8String") (.constrained (.restrictedString 57456) (.mk (.subtype [(.unions [[.mk (.size (.mk (.subtype [(.unions [[.mk (.valueRange ⟨(.number 1), false⟩ ⟨(.identifiedInteger (c! "ub-organization-name")), false⟩) .nil]])]))) .nil]])])))), (.mk (c! "bmpString") (.constrained (.restrictedString 57417) (.mk (.subtype [(.unions [[.mk (.size (.mk (.subtype [(.unions [[.mk (.valueRange ⟨(.number 1), false⟩ ⟨(.identifiedInteger (c! "ub-organization-name")), false⟩) .nil]])]))) .nil]])]))))] []),
  .value (c! "id-at-organizationalUnitName") (.ref (c! "AttributeType")) (.objectIdentifier [⟨[], 0, (some ⟨[], []⟩)⟩, ⟨[], 11, none⟩]),
  .type (c! "X520OrganizationalUnitName") (.choice [(.mk (c! "teletexString") (.constrained (.restrictedString 57424) (.mk (.subtype [(.unions [[.mk (.size (.mk (.subtype [(.unions [[.mk (.valueRange ⟨(.number 1), false⟩ ⟨(.identifiedInteger (c! "ub-organizational-unit-name")), false⟩) .nil]])]))) .nil]])])))), (.mk (c! "printableString") (.constrained (.restrictedString 57459) (.mk (.subtype [(.unions [[.mk (.size (.mk (.subtype [(.unions [[.mk (.valueRange ⟨(.number 1), false⟩ ⟨(.identifiedInteger (c! "ub-organizational-unit-name")), false⟩) .nil]])]))) .nil]])])))), (.mk (c! "universalString") (.constrained (.restrictedString 57448) (.mk (.subtype [(.unions [[.mk (.size (.mk (.subtype [(.unions [[.mk (.valueRange ⟨(.number 1), false⟩ ⟨(.identifiedInteger (c! "ub-organizational-unit-name")), false⟩) .nil]])]))) .nil]])])))), (.mk (c! "utf8String") (.constrained (.restrictedString 57456) (.mk (.subtype [(.unions [[.mk (.size (.mk (.subtype [(.unions [[.mk (.valueRange ⟨(.number 1), false⟩ ⟨(.identifiedInteger (c! "ub-organizational-unit-name")), false⟩) .nil]])]))) .nil]])])))), (.mk (c! "bmpString") (.constrained (.restrictedString 57417) (.mk (.subtype [(.unions [[.mk (.size (.mk (.subtype [(.unions [[.mk (.valueRange ⟨(.number 1), false⟩ ⟨(.identifiedInteger (c! "ub-organizational-unit-name")), false⟩) .nil]])]))) .nil]])]))))] []),
  .value (c! "id-at-title") (.ref (c! "AttributeType")) (.objectIdentifier [⟨[], 0, (some ⟨[], []⟩)⟩, ⟨[], 12, none⟩]),
  .type (c! "X520Title") (.choice [(.mk (c! "teletexString") (.constrained (.restrictedString 57424) (.mk (.subtype [(.unions [[.mk (.size (.mk (.subtype [(.unions [[.mk (.valueRange ⟨(.number 1), false⟩ ⟨(.identifiedInteger (c! "ub-title")), false⟩) .nil]])]))) .nil]])])))), (.mk (c! "printableString") (.constrained (.restrictedString 57459) (.mk (.subtype [(.unions [[.mk (.size (.mk (.subtype [(.unions [[.mk (.valueRange ⟨(.number 1), false⟩ ⟨(.identifiedInteger (c! "ub-title")), false⟩) .nil]])]))) .nil]])])))), (.mk (c! "universalString") (.constrained (.restrictedString 57448) (.mk (.subtype [(.unions [[.mk (.size (.mk (.subtype [(.unions [[.mk (.valueRange ⟨(.number 1), false⟩ ⟨(.identifiedInteger (c! "ub-title")), false⟩) .nil]])]))) .nil]])])))), (.mk (c! "utf8String") (.constrained (.restrictedString 57456) (.mk (.subtype [(.unions [[.mk (.size (.mk (.subtype [(.unions [[.mk (.valueRange ⟨(.number 1), false⟩ ⟨(.identifiedInteger (c! "ub-title")), false⟩) .nil]])]))) .nil]])])))), (.mk (c! "bmpString") (.constrained (.restrictedString 57417) (.mk (.subtype [(.unions [[.mk (.size (.mk (.subtype [(.unions [[.mk (.valueRange ⟨(.number 1), false⟩ ⟨(.identifiedInteger (c! "ub-title")), false⟩) .nil]])]))) .nil]])]))))] []),
  .value (c! "id-at-dnQualifier") (.ref (c! "AttributeType")) (.objectIdentifier [⟨[], 0, (some ⟨[], []⟩)⟩, ⟨[], 46, none⟩]),
  .type (c! "X520dnQualifier") (.restrictedString 57459)]

/-- RFC 5280: assignments 37 to 48. -/
def x509Part3 : List MAssignment := [
  .value (c! "id-at-countryName") (.ref (c! "AttributeType")) (.objectIdentifier [⟨[], 0, (some ⟨[], []⟩)⟩, ⟨[], 6, none⟩]),
  .type (c! "X520countryName") (.constrained (.restrictedString 57459) (.mk (.subtype [(.unions [[.mk (.size (.mk (.subtype [(.unions [[.mk (.singleValue (.number 2)) .nil]])]))) .nil]])]))),
  .value (c! "id-at-serialNumber") (.ref (c! "AttributeType")) (.objectIdentifier [⟨[], 0, (some ⟨[], []⟩)⟩, ⟨[], 5, none⟩]),
  .type (c! "X520SerialNumber") (.constrained (.restrictedString 57459) (.mk (.subtype [(.unions [[.mk (.size (.mk (.subtype [(.unions [[.mk (.valueRange ⟨(.number 1), false⟩ ⟨(.identifiedInteger (c! "ub-serial-number")), false⟩) .nil]])]))) .nil]])]))),
  .value (c! "id-at-pseudonym") (.ref (c! "AttributeType")) (.objectIdentifier [⟨[], 0, (some ⟨[], []⟩)⟩, ⟨[], 65, none⟩]),
  .type (c! "X520Pseudonym") (.choice [(.mk (c! "teletexString") (.constrained (.restrictedString 57424) (.mk (.subtype [(.unions [[.mk (.size (.mk (.subtype [(.unions [[.mk (.valueRange ⟨(.number 1), false⟩ ⟨(.identifiedInteger (c! "ub-pseudonym")), false⟩) .nil]])]))) .nil]])])))), (.mk (c! "printableString") (.constrained (.restrictedString 57459) (.mk (.subtype [(.unions [[.mk (.size (.mk (.subtype [(.unions [[.mk (.valueRange ⟨(.number 1), false⟩ ⟨(.identifiedInteger (c! "ub-pseudonym")), false⟩) .nil]])]))) .nil]])])))), (.mk (c! "universalString") (.constrained (.restrictedString 57448) (.mk (.subtype [(.unions [[.mk (.size (.mk (.subtype [(.unions [[.mk (.valueRange ⟨(.number 1), false⟩ ⟨(.identifiedInteger (c! "ub-pseudonym")), false⟩) .nil]])]))) .nil]])])))), (.mk (c! "utf8String") (.constrained (.restrictedString 57456) (.mk (.subtype [(.unions [[.mk (.size (.mk (.subtype [(.unions [[.mk (.valueRange ⟨(.number 1), false⟩ ⟨(.identifiedInteger (c! "ub-pseudonym")), false⟩) .nil]])]))) .nil]])])))), (.mk (c! "bmpString") (.constrained (.restrictedString 57417) (.mk (.subtype [(.unions [[.mk (.size (.mk (.subtype [(.unions [[.mk (.valueRange ⟨(.number 1), false⟩ ⟨(.identifiedInteger (c! "ub-pseudonym")), false⟩) .nil]])]))) .nil]])]))))] []),
  .value (c! "id-domainComponent") (.ref (c! "AttributeType")) (.objectIdentifier [⟨[], 0, none⟩, ⟨[], 9, none⟩, ⟨[], 2342, none⟩, ⟨[], 19200300, none⟩, ⟨[], 100, none⟩, ⟨[], 1, none⟩, ⟨[], 25, none⟩]),
  .type (c! "DomainComponent") (.restrictedString 57442),
  .value (c! "pkcs-9") .objectIdentifier (.objectIdentifier [⟨c! "iso", 1, none⟩, ⟨c! "member-body", 2, none⟩, ⟨c! "us", 840, none⟩, ⟨c! "rsadsi", 113549, none⟩, ⟨c! "pkcs", 1, none⟩, ⟨[], 9, none⟩]),
  .value (c! "id-emailAddress") (.ref (c! "AttributeType")) (.objectIdentifier [⟨[], 0, (some ⟨[], []⟩)⟩, ⟨[], 1, none⟩]),
  .type (c! "EmailAddress") (.constrained (.restrictedString 57442) (.mk (.subtype [(.unions [[.mk (.size (.mk (.subtype [(.unions [[.mk (.valueRange ⟨(.number 1), false⟩ ⟨(.identifiedInteger (c! "ub-emailaddress-length")), false⟩) .nil]])]))) .nil]])]))),
  .type (c! "Name") (.choice [(.mk (c! "rdnSequence") (.ref (c! "RDNSequence")))] [])]

/-- RFC 5280: assignments 49 to 60. -/
def x509Part4 : List MAssignment := [
  .type (c! "RDNSequence") (.sequenceOf (.ref (c! "RelativeDistinguishedName"))),
  .type (c! "DistinguishedName") (.ref (c! "RDNSequence")),
  .type (c! "RelativeDistinguishedName") (.constrained (.setOf (.ref (c! "AttributeTypeAndValue"))) (.mk (.subtype [(.unions [[.mk (.size (.mk (.subtype [(.unions [[.mk (.valueRange ⟨(.number 1), false⟩ ⟨.nil, false⟩) .nil]])]))) .nil]])]))),
  .type (c! "DirectoryString") (.choice [(.mk (c! "teletexString") (.constrained (.restrictedString 57424) (.mk (.subtype [(.unions [[.mk (.size (.mk (.subtype [(.unions [[.mk (.valueRange ⟨(.number 1), false⟩ ⟨.nil, false⟩) .nil]])]))) .nil]])])))), (.mk (c! "printableString") (.constrained (.restrictedString 57459) (.mk (.subtype [(.unions [[.mk (.size (.mk (.subtype [(.unions [[.mk (.valueRange ⟨(.number 1), false⟩ ⟨.nil, false⟩) .nil]])]))) .nil]])])))), (.mk (c! "universalString") (.constrained (.restrictedString 57448) (.mk (.subtype [(.unions [[.mk (.size (.mk (.subtype [(.unions [[.mk (.valueRange ⟨(.number 1), false⟩ ⟨.nil, false⟩) .nil]])]))) .nil]])])))), (.mk (c! "utf8String") (.constrained (.restrictedString 57456) (.mk (.subtype [(.unions [[.mk (.size (.mk (.subtype [(.unions [[.mk (.valueRange ⟨(.number 1), false⟩ ⟨.nil, false⟩) .nil]])]))) .nil]])])))), (.mk (c! "bmpString") (.constrained (.restrictedString 57417) (.mk (.subtype [(.unions [[.mk (.size (.mk (.subtype [(.unions [[.mk (.valueRange ⟨(.number 1), false⟩ ⟨.nil, false⟩) .nil]])]))) .nil]])]))))] []),
  .type (c! "Certificate") (.sequence [.named (.mk (c! "tbsCertificate") (.ref (c! "TBSCertificate"))) false none, .named (.mk (c! "signatureAlgorithm") (.ref (c! "AlgorithmIdentifier"))) false none, .named (.mk (c! "signature") (.bitString [])) false none] []),
  .type (c! "TBSCertificate") (.sequence [.named (.mk (c! "version") (.tagged ⟨0, (.number 0)⟩ (.ref (c! "Version")) 0 false)) false (some .nil), .named (.mk (c! "serialNumber") (.ref (c! "CertificateSerialNumber"))) false none, .named (.mk (c! "signature") (.ref (c! "AlgorithmIdentifier"))) false none, .named (.mk (c! "issuer") (.ref (c! "Name"))) false none, .named (.mk (c! "validity") (.ref (c! "Validity"))) false none, .named (.mk (c! "subject") (.ref (c! "Name"))) false none, .named (.mk (c! "subjectPublicKeyInfo") (.ref (c! "SubjectPublicKeyInfo"))) false none, .named (.mk (c! "issuerUniqueID") (.tagged ⟨0, (.number 1)⟩ (.ref (c! "UniqueIdentifier")) 1 true)) true none, .named (.mk (c! "subjectUniqueID") (.tagged ⟨0, (.number 2)⟩ (.ref (c! "UniqueIdentifier")) 1 true)) true none, .named (.mk (c! "extensions") (.tagged ⟨0, (.number 3)⟩ (.ref (c! "Extensions")) 0 false)) true none] []),
  .type (c! "Version") (.integer [⟨c! "v1", .number 0⟩, ⟨c! "v2", .number 1⟩, ⟨c! "v3", .number 2⟩]),
  .type (c! "CertificateSerialNumber") (.integer []),
  .type (c! "Validity") (.sequence [.named (.mk (c! "notBefore") (.ref (c! "Time"))) false none, .named (.mk (c! "notAfter") (.ref (c! "Time"))) false none] []),
  .type (c! "Time") (.choice [(.mk (c! "utcTime") (.ref (c! "UTCTime"))), (.mk (c! "generalTime") (.ref (c! "GeneralizedTime")))] []),
  .type (c! "UniqueIdentifier") (.bitString []),
  .type (c! "SubjectPublicKeyInfo") (.sequence [.named (.mk (c! "algorithm") (.ref (c! "AlgorithmIdentifier"))) false none, .named (.mk (c! "subjectPublicKey") (.bitString [])) false none] [])]

/-- RFC 5280: assignments 61 to 72. -/
def x509Part5 : List MAssignment := [
  .type (c! "Extensions") (.constrained (.sequenceOf (.ref (c! "Extension"))) (.mk (.subtype [(.unions [[.mk (.size (.mk (.subtype [(.unions [[.mk (.valueRange ⟨(.number 1), false⟩ ⟨.nil, false⟩) .nil]])]))) .nil]])]))),
  .type (c! "Extension") (.sequence [.named (.mk (c! "extnID") .objectIdentifier) false none, .named (.mk (c! "critical") .boolean) false (some .nil), .named (.mk (c! "extnValue") .octetString) false none] []),
  .type (c! "CertificateList") (.sequence [.named (.mk (c! "tbsCertList") (.ref (c! "TBSCertList"))) false none, .named (.mk (c! "signatureAlgorithm") (.ref (c! "AlgorithmIdentifier"))) false none, .named (.mk (c! "signature") (.bitString [])) false none] []),
  .type (c! "TBSCertList") (.sequence [.named (.mk (c! "version") (.ref (c! "Version"))) true none, .named (.mk (c! "signature") (.ref (c! "AlgorithmIdentifier"))) false none, .named (.mk (c! "issuer") (.ref (c! "Name"))) false none, .named (.mk (c! "thisUpdate") (.ref (c! "Time"))) false none, .named (.mk (c! "nextUpdate") (.ref (c! "Time"))) true none, .named (.mk (c! "revokedCertificates") (.sequenceOf (.sequence [.named (.mk (c! "userCertificate") (.ref (c! "CertificateSerialNumber"))) false none, .named (.mk (c! "revocationDate") (.ref (c! "Time"))) false none, .named (.mk (c! "crlEntryExtensions") (.ref (c! "Extensions"))) true none] []))) true none, .named (.mk (c! "crlExtensions") (.tagged ⟨0, (.number 0)⟩ (.ref (c! "Extensions")) 0 false)) true none] []),
  .type (c! "AlgorithmIdentifier") (.sequence [.named (.mk (c! "algorithm") .objectIdentifier) false none, .named (.mk (c! "parameters") (.any (c! "algorithm"))) true none] []),
  .type (c! "ORAddress") (.sequence [.named (.mk (c! "built-in-standard-attributes") (.ref (c! "BuiltInStandardAttributes"))) false none, .named (.mk (c! "built-in-domain-defined-attributes") (.ref (c! "BuiltInDomainDefinedAttributes"))) true none, .named (.mk (c! "extension-attributes") (.ref (c! "ExtensionAttributes"))) true none] []),
  .type (c! "BuiltInStandardAttributes") (.sequence [.named (.mk (c! "country-name") (.ref (c! "CountryName"))) true none, .named (.mk (c! "administration-domain-name") (.ref (c! "AdministrationDomainName"))) true none, .named (.mk (c! "network-address") (.tagged ⟨0, (.number 0)⟩ (.ref (c! "NetworkAddress")) 1 true)) true none, .named (.mk (c! "terminal-identifier") (.tagged ⟨0, (.number 1)⟩ (.ref (c! "TerminalIdentifier")) 1 true)) true none, .named (.mk (c! "private-domain-name") (.tagged ⟨0, (.number 2)⟩ (.ref (c! "PrivateDomainName")) 0 false)) true none, .named (.mk (c! "organization-name") (.tagged ⟨0, (.number 3)⟩ (.ref (c! "OrganizationName")) 1 true)) true none, .named (.mk (c! "numeric-user-identifier") (.tagged ⟨0, (.number 4)⟩ (.ref (c! "NumericUserIdentifier")) 1 true)) true none, .named (.mk (c! "personal-name") (.tagged ⟨0, (.number 5)⟩ (.ref (c! "PersonalName")) 1 true)) true none, .named (.mk (c! "organizational-unit-names") (.tagged ⟨0, (.number 6)⟩ (.ref (c! "OrganizationalUnitNames")) 1 true)) true none] []),
  .type (c! "CountryName") (.tagged ⟨2, (.number 1)⟩ (.choice [(.mk (c! "x121-dcc-code") (.constrained (.restrictedString 57419) (.mk (.subtype [(.unions [[.mk (.size (.mk (.subtype [(.unions [[.mk (.singleValue (.identifiedInteger (c! "ub-country-name-numeric-length"))) .nil]])]))) .nil]])])))), (.mk (c! "iso-3166-alpha2-code") (.constrained (.restrictedString 57459) (.mk (.subtype [(.unions [[.mk (.size (.mk (.subtype [(.unions [[.mk (.singleValue (.identifiedInteger (c! "ub-country-name-alpha-length"))) .nil]])]))) .nil]])]))))] []) 0 false),
  .type (c! "AdministrationDomainName") (.tagged ⟨2, (.number 2)⟩ (.choice [(.mk (c! "numeric") (.constrained (.restrictedString 57419) (.mk (.subtype [(.unions [[.mk (.size (.mk (.subtype [(.unions [[.mk (.valueRange ⟨(.number 0), false⟩ ⟨(.identifiedInteger (c! "ub-domain-name-length")), false⟩) .nil]])]))) .nil]])])))), (.mk (c! "printable") (.constrained (.restrictedString 57459) (.mk (.subtype [(.unions [[.mk (.size (.mk (.subtype [(.unions [[.mk (.valueRange ⟨(.number 0), false⟩ ⟨(.identifiedInteger (c! "ub-domain-name-length")), false⟩) .nil]])]))) .nil]])]))))] []) 0 false),
  .type (c! "NetworkAddress") (.ref (c! "X121Address")),
  .type (c! "X121Address") (.constrained (.restrictedString 57419) (.mk (.subtype [(.unions [[.mk (.size (.mk (.subtype [(.unions [[.mk (.valueRange ⟨(.number 1), false⟩ ⟨(.identifiedInteger (c! "ub-x121-address-length")), false⟩) .nil]])]))) .nil]])]))),
  .type (c! "TerminalIdentifier") (.constrained (.restrictedString 57459) (.mk (.subtype [(.unions [[.mk (.size (.mk (.subtype [(.unions [[.mk (.valueRange ⟨(.number 1), false⟩ ⟨(.identifiedInteger (c! "ub-terminal-id-length")), false⟩) .nil]])]))) .nil]])])))]

/-- RFC 5280: assignments 73 to 84. -/
def x509Part6 : List MAssignment := [
  .type (c! "PrivateDomainName") (.choice [(.mk (c! "numeric") (.constrained (.restrictedString 57419) (.mk (.subtype [(.unions [[.mk (.size (.mk (.subtype [(.unions [[.mk (.valueRange ⟨(.number 1), false⟩ ⟨(.identifiedInteger (c! "ub-domain-name-length")), false⟩) .nil]])]))) .nil]])])))), (.mk (c! "printable") (.constrained (.restrictedString 57459) (.mk (.subtype [(.unions [[.mk (.size (.mk (.subtype [(.unions [[.mk (.valueRange ⟨(.number 1), false⟩ ⟨(.identifiedInteger (c! "ub-domain-name-length")), false⟩) .nil]])]))) .nil]])]))))] []),
  .type (c! "OrganizationName") (.constrained (.restrictedString 57459) (.mk (.subtype [(.unions [[.mk (.size (.mk (.subtype [(.unions [[.mk (.valueRange ⟨(.number 1), false⟩ ⟨(.identifiedInteger (c! "ub-organization-name-length")), false⟩) .nil]])]))) .nil]])]))),
  .type (c! "NumericUserIdentifier") (.constrained (.restrictedString 57419) (.mk (.subtype [(.unions [[.mk (.size (.mk (.subtype [(.unions [[.mk (.valueRange ⟨(.number 1), false⟩ ⟨(.identifiedInteger (c! "ub-numeric-user-id-length")), false⟩) .nil]])]))) .nil]])]))),
  .type (c! "PersonalName") (.set [.named (.mk (c! "surname") (.tagged ⟨0, (.number 0)⟩ (.constrained (.restrictedString 57459) (.mk (.subtype [(.unions [[.mk (.size (.mk (.subtype [(.unions [[.mk (.valueRange ⟨(.number 1), false⟩ ⟨(.identifiedInteger (c! "ub-surname-length")), false⟩) .nil]])]))) .nil]])]))) 1 true)) false none, .named (.mk (c! "given-name") (.tagged ⟨0, (.number 1)⟩ (.constrained (.restrictedString 57459) (.mk (.subtype [(.unions [[.mk (.size (.mk (.subtype [(.unions [[.mk (.valueRange ⟨(.number 1), false⟩ ⟨(.identifiedInteger (c! "ub-given-name-length")), false⟩) .nil]])]))) .nil]])]))) 1 true)) true none, .named (.mk (c! "initials") (.tagged ⟨0, (.number 2)⟩ (.constrained (.restrictedString 57459) (.mk (.subtype [(.unions [[.mk (.size (.mk (.subtype [(.unions [[.mk (.valueRange ⟨(.number 1), false⟩ ⟨(.identifiedInteger (c! "ub-initials-length")), false⟩) .nil]])]))) .nil]])]))) 1 true)) true none, .named (.mk (c! "generation-qualifier") (.tagged ⟨0, (.number 3)⟩ (.constrained (.restrictedString 57459) (.mk (.subtype [(.unions [[.mk (.size (.mk (.subtype [(.unions [[.mk (.valueRange ⟨(.number 1), false⟩ ⟨(.identifiedInteger (c! "ub-generation-qualifier-length")), false⟩) .nil]])]))) .nil]])]))) 1 true)) true none] []),
  .type (c! "OrganizationalUnitNames") (.constrained (.sequenceOf (.ref (c! "OrganizationalUnitName"))) (.mk (.subtype [(.unions [[.mk (.size (.mk (.subtype [(.unions [[.mk (.valueRange ⟨(.number 1), false⟩ ⟨(.identifiedInteger (c! "ub-organizational-units")), false⟩) .nil]])]))) .nil]])]))),
  .type (c! "OrganizationalUnitName") (.constrained (.restrictedString 57459) (.mk (.subtype [(.unions [[.mk (.size (.mk (.subtype [(.unions [[.mk (.valueRange ⟨(.number 1), false⟩ ⟨(.identifiedInteger (c! "ub-organizational-unit-name-length")), false⟩) .nil]])]))) .nil]])]))),
  .type (c! "BuiltInDomainDefinedAttributes") (.constrained (.sequenceOf (.ref (c! "BuiltInDomainDefinedAttribute"))) (.mk (.subtype [(.unions [[.mk (.size (.mk (.subtype [(.unions [[.mk (.valueRange ⟨(.number 1), false⟩ ⟨(.identifiedInteger (c! "ub-domain-defined-attributes")), false⟩) .nil]])]))) .nil]])]))),
  .type (c! "BuiltInDomainDefinedAttribute") (.sequence [.named (.mk (c! "type") (.constrained (.restrictedString 57459) (.mk (.subtype [(.unions [[.mk (.size (.mk (.subtype [(.unions [[.mk (.valueRange ⟨(.number 1), false⟩ ⟨(.identifiedInteger (c! "ub-domain-defined-attribute-type-length")), false⟩) .nil]])]))) .nil]])])))) false none, .named (.mk (c! "value") (.constrained (.restrictedString 57459) (.mk (.subtype [(.unions [[.mk (.size (.mk (.subtype [(.unions [[.mk (.valueRange ⟨(.number 1), false⟩ ⟨(.identifiedInteger (c! "ub-domain-defined-attribute-value-length")), false⟩) .nil]])]))) .nil]])])))) false none] []),
  .type (c! "ExtensionAttributes") (.constrained (.setOf (.ref (c! "ExtensionAttribute"))) (.mk (.subtype [(.unions [[.mk (.size (.mk (.subtype [(.unions [[.mk (.valueRange ⟨(.number 1), false⟩ ⟨(.identifiedInteger (c! "ub-extension-attributes")), false⟩) .nil]])]))) .nil]])]))),
  .type (c! "ExtensionAttribute") (.sequence [.named (.mk (c! "extension-attribute-type") (.tagged ⟨0, (.number 0)⟩ (.constrained (.integer []) (.mk (.subtype [(.unions [[.mk (.valueRange ⟨(.number 0), false⟩ ⟨(.identifiedInteger (c! "ub-extension-attributes")), false⟩) .nil]])]))) 1 true)) false none, .named (.mk (c! "extension-attribute-value") (.tagged ⟨0, (.number 1)⟩ (.any (c! "extension-attribute-type")) 0 false)) false none] []),
  .value (c! "common-name") (.integer []) (.number 1),
  .type (c! "CommonName") (.constrained (.restrictedString 57459) (.mk (.subtype [(.unions [[.mk (.size (.mk (.subtype [(.unions [[.mk (.valueRange ⟨(.number 1), false⟩ ⟨(.identifiedInteger (c! "ub-common-name-length")), false⟩) .nil]])]))) .nil]])])))]

/-- RFC 5280: assignments 85 to 96. -/
def x509Part7 : List MAssignment := [
  .value (c! "teletex-common-name") (.integer []) (.number 2),
  .type (c! "TeletexCommonName") (.constrained (.restrictedString 57424) (.mk (.subtype [(.unions [[.mk (.size (.mk (.subtype [(.unions [[.mk (.valueRange ⟨(.number 1), false⟩ ⟨(.identifiedInteger (c! "ub-common-name-length")), false⟩) .nil]])]))) .nil]])]))),
  .value (c! "teletex-organization-name") (.integer []) (.number 3),
  .type (c! "TeletexOrganizationName") (.constrained (.restrictedString 57424) (.mk (.subtype [(.unions [[.mk (.size (.mk (.subtype [(.unions [[.mk (.valueRange ⟨(.number 1), false⟩ ⟨(.identifiedInteger (c! "ub-organization-name-length")), false⟩) .nil]])]))) .nil]])]))),
  .value (c! "teletex-personal-name") (.integer []) (.number 4),
  .type (c! "TeletexPersonalName") (.set [.named (.mk (c! "surname") (.tagged ⟨0, (.number 0)⟩ (.constrained (.restrictedString 57424) (.mk (.subtype [(.unions [[.mk (.size (.mk (.subtype [(.unions [[.mk (.valueRange ⟨(.number 1), false⟩ ⟨(.identifiedInteger (c! "ub-surname-length")), false⟩) .nil]])]))) .nil]])]))) 1 true)) false none, .named (.mk (c! "given-name") (.tagged ⟨0, (.number 1)⟩ (.constrained (.restrictedString 57424) (.mk (.subtype [(.unions [[.mk (.size (.mk (.subtype [(.unions [[.mk (.valueRange ⟨(.number 1), false⟩ ⟨(.identifiedInteger (c! "ub-given-name-length")), false⟩) .nil]])]))) .nil]])]))) 1 true)) true none, .named (.mk (c! "initials") (.tagged ⟨0, (.number 2)⟩ (.constrained (.restrictedString 57424) (.mk (.subtype [(.unions [[.mk (.size (.mk (.subtype [(.unions [[.mk (.valueRange ⟨(.number 1), false⟩ ⟨(.identifiedInteger (c! "ub-initials-length")), false⟩) .nil]])]))) .nil]])]))) 1 true)) true none, .named (.mk (c! "generation-qualifier") (.tagged ⟨0, (.number 3)⟩ (.constrained (.restrictedString 57424) (.mk (.subtype [(.unions [[.mk (.size (.mk (.subtype [(.unions [[.mk (.valueRange ⟨(.number 1), false⟩ ⟨(.identifiedInteger (c! "ub-generation-qualifier-length")), false⟩) .nil]])]))) .nil]])]))) 1 true)) true none] []),
  .value (c! "teletex-organizational-unit-names") (.integer []) (.number 5),
  .type (c! "TeletexOrganizationalUnitNames") (.constrained (.sequenceOf (.ref (c! "TeletexOrganizationalUnitName"))) (.mk (.subtype [(.unions [[.mk (.size (.mk (.subtype [(.unions [[.mk (.valueRange ⟨(.number 1), false⟩ ⟨(.identifiedInteger (c! "ub-organizational-units")), false⟩) .nil]])]))) .nil]])]))),
  .type (c! "TeletexOrganizationalUnitName") (.constrained (.restrictedString 57424) (.mk (.subtype [(.unions [[.mk (.size (.mk (.subtype [(.unions [[.mk (.valueRange ⟨(.number 1), false⟩ ⟨(.identifiedInteger (c! "ub-organizational-unit-name-length")), false⟩) .nil]])]))) .nil]])]))),
  .value (c! "pds-name") (.integer []) (.number 7),
  .type (c! "PDSName") (.constrained (.restrictedString 57459) (.mk (.subtype [(.unions [[.mk (.size (.mk (.subtype [(.unions [[.mk (.valueRange ⟨(.number 1), false⟩ ⟨(.identifiedInteger (c! "ub-pds-name-length")), false⟩) .nil]])]))) .nil]])]))),
  .value (c! "physical-delivery-country-name") (.integer []) (.number 8)]

/-- RFC 5280: assignments 97 to 108. -/
def x509Part8 : List MAssignment := [
  .type (c! "PhysicalDeliveryCountryName") (.choice [(.mk (c! "x121-dcc-code") (.constrained (.restrictedString 57419) (.mk (.subtype [(.unions [[.mk (.size (.mk (.subtype [(.unions [[.mk (.singleValue (.identifiedInteger (c! "ub-country-name-numeric-length"))) .nil]])]))) .nil]])])))), (.mk (c! "iso-3166-alpha2-code") (.constrained (.restrictedString 57459) (.mk (.subtype [(.unions [[.mk (.size (.mk (.subtype [(.unions [[.mk (.singleValue (.identifiedInteger (c! "ub-country-name-alpha-length"))) .nil]])]))) .nil]])]))))] []),
  .value (c! "postal-code") (.integer []) (.number 9),
  .type (c! "PostalCode") (.choice [(.mk (c! "numeric-code") (.constrained (.restrictedString 57419) (.mk (.subtype [(.unions [[.mk (.size (.mk (.subtype [(.unions [[.mk (.valueRange ⟨(.number 1), false⟩ ⟨(.identifiedInteger (c! "ub-postal-code-length")), false⟩) .nil]])]))) .nil]])])))), (.mk (c! "printable-code") (.constrained (.restrictedString 57459) (.mk (.subtype [(.unions [[.mk (.size (.mk (.subtype [(.unions [[.mk (.valueRange ⟨(.number 1), false⟩ ⟨(.identifiedInteger (c! "ub-postal-code-length")), false⟩) .nil]])]))) .nil]])]))))] []),
  .value (c! "physical-delivery-office-name") (.integer []) (.number 10),
  .type (c! "PhysicalDeliveryOfficeName") (.ref (c! "PDSParameter")),
  .value (c! "physical-delivery-office-number") (.integer []) (.number 11),
  .type (c! "PhysicalDeliveryOfficeNumber") (.ref (c! "PDSParameter")),
  .value (c! "extension-OR-address-components") (.integer []) (.number 12),
  .type (c! "ExtensionORAddressComponents") (.ref (c! "PDSParameter")),
  .value (c! "physical-delivery-personal-name") (.integer []) (.number 13),
  .type (c! "PhysicalDeliveryPersonalName") (.ref (c! "PDSParameter")),
  .value (c! "physical-delivery-organization-name") (.integer []) (.number 14)]

/-- RFC 5280: assignments 109 to 120. -/
def x509Part9 : List MAssignment := [
  .type (c! "PhysicalDeliveryOrganizationName") (.ref (c! "PDSParameter")),
  .value (c! "extension-physical-delivery-address-components") (.integer []) (.number 15),
  .type (c! "ExtensionPhysicalDeliveryAddressComponents") (.ref (c! "PDSParameter")),
  .value (c! "unformatted-postal-address") (.integer []) (.number 16),
  .type (c! "UnformattedPostalAddress") (.set [.named (.mk (c! "printable-address") (.constrained (.sequenceOf (.constrained (.restrictedString 57459) (.mk (.subtype [(.unions [[.mk (.size (.mk (.subtype [(.unions [[.mk (.valueRange ⟨(.number 1), false⟩ ⟨(.identifiedInteger (c! "ub-pds-parameter-length")), false⟩) .nil]])]))) .nil]])])))) (.mk (.subtype [(.unions [[.mk (.size (.mk (.subtype [(.unions [[.mk (.valueRange ⟨(.number 1), false⟩ ⟨(.identifiedInteger (c! "ub-pds-physical-address-lines")), false⟩) .nil]])]))) .nil]])])))) true none, .named (.mk (c! "teletex-string") (.constrained (.restrictedString 57424) (.mk (.subtype [(.unions [[.mk (.size (.mk (.subtype [(.unions [[.mk (.valueRange ⟨(.number 1), false⟩ ⟨(.identifiedInteger (c! "ub-unformatted-address-length")), false⟩) .nil]])]))) .nil]])])))) true none] []),
  .value (c! "street-address") (.integer []) (.number 17),
  .type (c! "StreetAddress") (.ref (c! "PDSParameter")),
  .value (c! "post-office-box-address") (.integer []) (.number 18),
  .type (c! "PostOfficeBoxAddress") (.ref (c! "PDSParameter")),
  .value (c! "poste-restante-address") (.integer []) (.number 19),
  .type (c! "PosteRestanteAddress") (.ref (c! "PDSParameter")),
  .value (c! "unique-postal-name") (.integer []) (.number 20)]

/-- RFC 5280: assignments 121 to 132. -/
def x509Part10 : List MAssignment := [
  .type (c! "UniquePostalName") (.ref (c! "PDSParameter")),
  .value (c! "local-postal-attributes") (.integer []) (.number 21),
  .type (c! "LocalPostalAttributes") (.ref (c! "PDSParameter")),
  .type (c! "PDSParameter") (.set [.named (.mk (c! "printable-string") (.constrained (.restrictedString 57459) (.mk (.subtype [(.unions [[.mk (.size (.mk (.subtype [(.unions [[.mk (.valueRange ⟨(.number 1), false⟩ ⟨(.identifiedInteger (c! "ub-pds-parameter-length")), false⟩) .nil]])]))) .nil]])])))) true none, .named (.mk (c! "teletex-string") (.constrained (.restrictedString 57424) (.mk (.subtype [(.unions [[.mk (.size (.mk (.subtype [(.unions [[.mk (.valueRange ⟨(.number 1), false⟩ ⟨(.identifiedInteger (c! "ub-pds-parameter-length")), false⟩) .nil]])]))) .nil]])])))) true none] []),
  .value (c! "extended-network-address") (.integer []) (.number 22),
  .type (c! "ExtendedNetworkAddress") (.choice [(.mk (c! "e163-4-address") (.sequence [.named (.mk (c! "number") (.tagged ⟨0, (.number 0)⟩ (.constrained (.restrictedString 57419) (.mk (.subtype [(.unions [[.mk (.size (.mk (.subtype [(.unions [[.mk (.valueRange ⟨(.number 1), false⟩ ⟨(.identifiedInteger (c! "ub-e163-4-number-length")), false⟩) .nil]])]))) .nil]])]))) 1 true)) false none, .named (.mk (c! "sub-address") (.tagged ⟨0, (.number 1)⟩ (.constrained (.restrictedString 57419) (.mk (.subtype [(.unions [[.mk (.size (.mk (.subtype [(.unions [[.mk (.valueRange ⟨(.number 1), false⟩ ⟨(.identifiedInteger (c! "ub-e163-4-sub-address-length")), false⟩) .nil]])]))) .nil]])]))) 1 true)) true none] [])), (.mk (c! "psap-address") (.tagged ⟨0, (.number 0)⟩ (.ref (c! "PresentationAddress")) 1 true))] []),
  .type (c! "PresentationAddress") (.sequence [.named (.mk (c! "pSelector") (.tagged ⟨0, (.number 0)⟩ .octetString 0 true)) true none, .named (.mk (c! "sSelector") (.tagged ⟨0, (.number 1)⟩ .octetString 0 true)) true none, .named (.mk (c! "tSelector") (.tagged ⟨0, (.number 2)⟩ .octetString 0 true)) true none, .named (.mk (c! "nAddresses") (.tagged ⟨0, (.number 3)⟩ (.constrained (.setOf .octetString) (.mk (.subtype [(.unions [[.mk (.size (.mk (.subtype [(.unions [[.mk (.valueRange ⟨(.number 1), false⟩ ⟨.nil, false⟩) .nil]])]))) .nil]])]))) 0 true)) false none] []),
  .value (c! "terminal-type") (.integer []) (.number 23),
  .type (c! "TerminalType") (.constrained (.integer [⟨c! "telex", .number 3⟩, ⟨c! "teletex", .number 4⟩, ⟨c! "g3-facsimile", .number 5⟩, ⟨c! "g4-facsimile", .number 6⟩, ⟨c! "ia5-terminal", .number 7⟩, ⟨c! "videotex", .number 8⟩]) (.mk (.subtype [(.unions [[.mk (.valueRange ⟨(.number 0), false⟩ ⟨(.identifiedInteger (c! "ub-integer-options")), false⟩) .nil]])]))),
  .value (c! "teletex-domain-defined-attributes") (.integer []) (.number 6),
  .type (c! "TeletexDomainDefinedAttributes") (.constrained (.sequenceOf (.ref (c! "TeletexDomainDefinedAttribute"))) (.mk (.subtype [(.unions [[.mk (.size (.mk (.subtype [(.unions [[.mk (.valueRange ⟨(.number 1), false⟩ ⟨(.identifiedInteger (c! "ub-domain-defined-attributes")), false⟩) .nil]])]))) .nil]])]))),
  .type (c! "TeletexDomainDefinedAttribute") (.sequence [.named (.mk (c! "type") (.constrained (.restrictedString 57424) (.mk (.subtype [(.unions [[.mk (.size (.mk (.subtype [(.unions [[.mk (.valueRange ⟨(.number 1), false⟩ ⟨(.identifiedInteger (c! "ub-domain-defined-attribute-type-length")), false⟩) .nil]])]))) .nil]])])))) false none, .named (.mk (c! "value") (.constrained (.restrictedString 57424) (.mk (.subtype [(.unions [[.mk (.size (.mk (.subtype [(.unions [[.mk (.valueRange ⟨(.number 1), false⟩ ⟨(.identifiedInteger (c! "ub-domain-defined-attribute-value-length")), false⟩) .nil]])]))) .nil]])])))) false none] [])]

/-- RFC 5280: assignments 133 to 144. -/
def x509Part11 : List MAssignment := [
  .value (c! "ub-name") (.integer []) (.number 32768),
  .value (c! "ub-common-name") (.integer []) (.number 64),
  .value (c! "ub-locality-name") (.integer []) (.number 128),
  .value (c! "ub-state-name") (.integer []) (.number 128),
  .value (c! "ub-organization-name") (.integer []) (.number 64),
  .value (c! "ub-organizational-unit-name") (.integer []) (.number 64),
  .value (c! "ub-title") (.integer []) (.number 64),
  .value (c! "ub-serial-number") (.integer []) (.number 64),
  .value (c! "ub-match") (.integer []) (.number 128),
  .value (c! "ub-emailaddress-length") (.integer []) (.number 255),
  .value (c! "ub-common-name-length") (.integer []) (.number 64),
  .value (c! "ub-country-name-alpha-length") (.integer []) (.number 2)]

/-- RFC 5280: assignments 145 to 156. -/
def x509Part12 : List MAssignment := [
  .value (c! "ub-country-name-numeric-length") (.integer []) (.number 3),
  .value (c! "ub-domain-defined-attributes") (.integer []) (.number 4),
  .value (c! "ub-domain-defined-attribute-type-length") (.integer []) (.number 8),
  .value (c! "ub-domain-defined-attribute-value-length") (.integer []) (.number 128),
  .value (c! "ub-domain-name-length") (.integer []) (.number 16),
  .value (c! "ub-extension-attributes") (.integer []) (.number 256),
  .value (c! "ub-e163-4-number-length") (.integer []) (.number 15),
  .value (c! "ub-e163-4-sub-address-length") (.integer []) (.number 40),
  .value (c! "ub-generation-qualifier-length") (.integer []) (.number 3),
  .value (c! "ub-given-name-length") (.integer []) (.number 16),
  .value (c! "ub-initials-length") (.integer []) (.number 5),
  .value (c! "ub-integer-options") (.integer []) (.number 256)]

/-- RFC 5280: assignments 157 to 168. -/
def x509Part13 : List MAssignment := [
  .value (c! "ub-numeric-user-id-length") (.integer []) (.number 32),
  .value (c! "ub-organization-name-length") (.integer []) (.number 64),
  .value (c! "ub-organizational-unit-name-length") (.integer []) (.number 32),
  .value (c! "ub-organizational-units") (.integer []) (.number 4),
  .value (c! "ub-pds-name-length") (.integer []) (.number 16),
  .value (c! "ub-pds-parameter-length") (.integer []) (.number 30),
  .value (c! "ub-pds-physical-address-lines") (.integer []) (.number 6),
  .value (c! "ub-postal-code-length") (.integer []) (.number 16),
  .value (c! "ub-pseudonym") (.integer []) (.number 128),
  .value (c! "ub-surname-length") (.integer []) (.number 40),
  .value (c! "ub-terminal-id-length") (.integer []) (.number 24),
  .value (c! "ub-unformatted-address-length") (.integer []) (.number 180)]

/-- RFC 5280: assignments 169 to 169. -/
def x509Part14 : List MAssignment := [
  .value (c! "ub-x121-address-length") (.integer []) (.number 16)]

/-- RFC 5280: the module. -/
def x509 : Module where
  moduleIdentifier := ⟨c! "PKIX1Explicit88", [⟨c! "iso", 1⟩, ⟨c! "identified-organization", 3⟩, ⟨c! "dod", 6⟩, ⟨c! "internet", 1⟩, ⟨c! "security", 5⟩, ⟨c! "mechanisms", 5⟩, ⟨c! "pkix", 7⟩, ⟨c! "id-mod", 0⟩, ⟨c! "id-pkix1-explicit", 18⟩]⟩
  tagDefault := 0
  extensibilityImplied := false
  moduleBody := ⟨x509Part0 ++ (x509Part1 ++ (x509Part2 ++ (x509Part3 ++ (x509Part4 ++ (x509Part5 ++ (x509Part6 ++ (x509Part7 ++ (x509Part8 ++ (x509Part9 ++ (x509Part10 ++ (x509Part11 ++ (x509Part12 ++ (x509Part13 ++ (x509Part14)))))))))))))), []⟩

/-- RFC 5280, integers as big.Int: declarations 1 to 12. -/
def x509Decls0 : List GoDecl := [
  .imp (c! "encoding/asn1"),
  .imp (c! "math/big"),
  .type [⟨c! "Attribute", false, (.struct [.mk (c! "Type") (.ident (c! "AttributeType")) none, .mk (c! "Values") (.array (.ident (c! "AttributeValue"))) (some (c! "`asn1:\"set\"`"))])⟩],
  .type [⟨c! "AttributeType", true, (.ident (c! "asn1.ObjectIdentifier"))⟩],
  .type [⟨c! "AttributeValue", true, .iface⟩],
  .type [⟨c! "AttributeTypeAndValue", false, (.struct [.mk (c! "Type") (.ident (c! "AttributeType")) none, .mk (c! "Value") (.ident (c! "AttributeValue")) none])⟩],
  .type [⟨c! "X520name", true, .iface⟩],
  .type [⟨c! "X520CommonName", true, .iface⟩],
  .type [⟨c! "X520LocalityName", true, .iface⟩],
  .type [⟨c! "X520StateOrProvinceName", true, .iface⟩],
  .type [⟨c! "X520OrganizationName", true, .iface⟩],
  .type [⟨c! "X520OrganizationalUnitName", true, .iface⟩]]

/-- RFC 5280, integers as big.Int: declarations 13 to 24. -/
def x509Decls1 : List GoDecl := [
  .type [⟨c! "X520Title", true, .iface⟩],
  .type [⟨c! "X520dnQualifier", true, (.ident (c! "string"))⟩],
  .type [⟨c! "X520countryName", true, (.ident (c! "string"))⟩],
  .type [⟨c! "X520SerialNumber", true, (.ident (c! "string"))⟩],
  .type [⟨c! "X520Pseudonym", true, .iface⟩],
  .type [⟨c! "DomainComponent", true, (.ident (c! "string"))⟩],
  .type [⟨c! "EmailAddress", true, (.ident (c! "string"))⟩],
  .type [⟨c! "Name", true, (.ident (c! "RDNSequence"))⟩],
  .type [⟨c! "RDNSequence", true, (.array (.ident (c! "RelativeDistinguishedName")))⟩],
  .type [⟨c! "DistinguishedName", true, (.ident (c! "RDNSequence"))⟩],
  .type [⟨c! "RelativeDistinguishedNameSET", false, (.array (.ident (c! "AttributeTypeAndValue")))⟩, ⟨c! "RelativeDistinguishedName", true, (.ident (c! "RelativeDistinguishedNameSET"))⟩],
  .type [⟨c! "DirectoryString", true, .iface⟩]]

/-- RFC 5280, integers as big.Int: declarations 25 to 36. -/
def x509Decls2 : List GoDecl := [
  .type [⟨c! "Certificate", false, (.struct [.mk (c! "TbsCertificate") (.ident (c! "TBSCertificate")) none, .mk (c! "SignatureAlgorithm") (.ident (c! "AlgorithmIdentifier")) none, .mk (c! "Signature") (.ident (c! "asn1.BitString")) none])⟩],
  .type [⟨c! "TBSCertificate", false, (.struct [.mk (c! "Version") (.ident (c! "Version")) (some (c! "`asn1:\"optional,explicit,tag:0\"`")), .mk (c! "SerialNumber") (.ident (c! "CertificateSerialNumber")) none, .mk (c! "Signature") (.ident (c! "AlgorithmIdentifier")) none, .mk (c! "Issuer") (.ident (c! "Name")) none, .mk (c! "Validity") (.ident (c! "Validity")) none, .mk (c! "Subject") (.ident (c! "Name")) none, .mk (c! "SubjectPublicKeyInfo") (.ident (c! "SubjectPublicKeyInfo")) none, .mk (c! "IssuerUniqueID") (.ident (c! "asn1.BitString")) (some (c! "`asn1:\"optional,tag:1\"`")), .mk (c! "SubjectUniqueID") (.ident (c! "asn1.BitString")) (some (c! "`asn1:\"optional,tag:2\"`")), .mk (c! "Extensions") (.ident (c! "Extensions")) (some (c! "`asn1:\"optional,explicit,tag:3\"`"))])⟩],
  .type [⟨c! "Version", true, (.star (.ident (c! "big.Int")))⟩],
  .var [⟨c! "VersionValV1", (.ident (c! "Version")), (.call (c! "big.NewInt") (.lit (c! "0")))⟩, ⟨c! "VersionValV2", (.ident (c! "Version")), (.call (c! "big.NewInt") (.lit (c! "1")))⟩, ⟨c! "VersionValV3", (.ident (c! "Version")), (.call (c! "big.NewInt") (.lit (c! "2")))⟩],
  .type [⟨c! "CertificateSerialNumber", true, (.star (.ident (c! "big.Int")))⟩],
  .type [⟨c! "Validity", false, (.struct [.mk (c! "NotBefore") (.ident (c! "Time")) none, .mk (c! "NotAfter") (.ident (c! "Time")) none])⟩],
  .type [⟨c! "Time", true, .iface⟩],
  .type [⟨c! "UniqueIdentifier", true, (.ident (c! "asn1.BitString"))⟩],
  .type [⟨c! "SubjectPublicKeyInfo", false, (.struct [.mk (c! "Algorithm") (.ident (c! "AlgorithmIdentifier")) none, .mk (c! "SubjectPublicKey") (.ident (c! "asn1.BitString")) none])⟩],
  .type [⟨c! "Extensions", true, (.array (.ident (c! "Extension")))⟩],
  .type [⟨c! "Extension", false, (.struct [.mk (c! "ExtnID") (.ident (c! "asn1.ObjectIdentifier")) none, .mk (c! "Critical") (.ident (c! "bool")) (some (c! "`asn1:\"optional\"`")), .mk (c! "ExtnValue") (.array (.ident (c! "byte"))) none])⟩],
  .type [⟨c! "CertificateList", false, (.struct [.mk (c! "TbsCertList") (.ident (c! "TBSCertList")) none, .mk (c! "SignatureAlgorithm") (.ident (c! "AlgorithmIdentifier")) none, .mk (c! "Signature") (.ident (c! "asn1.BitString")) none])⟩]]

/-- RFC 5280, integers as big.Int: declarations 37 to 48. -/
def x509Decls3 : List GoDecl := [
  .type [⟨c! "TBSCertList", false, (.struct [.mk (c! "Version") (.ident (c! "Version")) (some (c! "`asn1:\"optional\"`")), .mk (c! "Signature") (.ident (c! "AlgorithmIdentifier")) none, .mk (c! "Issuer") (.ident (c! "Name")) none, .mk (c! "ThisUpdate") (.ident (c! "Time")) none, .mk (c! "NextUpdate") (.ident (c! "Time")) (some (c! "`asn1:\"optional\"`")), .mk (c! "RevokedCertificates") (.array (.struct [.mk (c! "UserCertificate") (.ident (c! "CertificateSerialNumber")) none, .mk (c! "RevocationDate") (.ident (c! "Time")) none, .mk (c! "CrlEntryExtensions") (.ident (c! "Extensions")) (some (c! "`asn1:\"optional\"`"))])) (some (c! "`asn1:\"optional\"`")), .mk (c! "CrlExtensions") (.ident (c! "Extensions")) (some (c! "`asn1:\"optional,explicit,tag:0\"`"))])⟩],
  .type [⟨c! "AlgorithmIdentifier", false, (.struct [.mk (c! "Algorithm") (.ident (c! "asn1.ObjectIdentifier")) none, .mk (c! "Parameters") .iface (some (c! "`asn1:\"optional\"`"))])⟩],
  .type [⟨c! "ORAddress", false, (.struct [.mk (c! "Built_in_standard_attributes") (.ident (c! "BuiltInStandardAttributes")) none, .mk (c! "Built_in_domain_defined_attributes") (.ident (c! "BuiltInDomainDefinedAttributes")) (some (c! "`asn1:\"optional\"`")), .mk (c! "Extension_attributes") (.ident (c! "ExtensionAttributes")) (some (c! "`asn1:\"optional\"`"))])⟩],
  .type [⟨c! "BuiltInStandardAttributes", false, (.struct [.mk (c! "Country_name") (.ident (c! "CountryName")) (some (c! "`asn1:\"optional\"`")), .mk (c! "Administration_domain_name") (.ident (c! "AdministrationDomainName")) (some (c! "`asn1:\"optional\"`")), .mk (c! "Network_address") (.ident (c! "NetworkAddress")) (some (c! "`asn1:\"optional,tag:0\"`")), .mk (c! "Terminal_identifier") (.ident (c! "TerminalIdentifier")) (some (c! "`asn1:\"optional,tag:1\"`")), .mk (c! "Private_domain_name") (.ident (c! "PrivateDomainName")) (some (c! "`asn1:\"optional,explicit,tag:2\"`")), .mk (c! "Organization_name") (.ident (c! "OrganizationName")) (some (c! "`asn1:\"optional,tag:3\"`")), .mk (c! "Numeric_user_identifier") (.ident (c! "NumericUserIdentifier")) (some (c! "`asn1:\"optional,tag:4\"`")), .mk (c! "Personal_name") (.ident (c! "PersonalName")) (some (c! "`asn1:\"optional,tag:5\"`")), .mk (c! "Organizational_unit_names") (.ident (c! "OrganizationalUnitNames")) (some (c! "`asn1:\"optional,tag:6\"`"))])⟩],
  .type [⟨c! "CountryName", true, .iface⟩],
  .type [⟨c! "AdministrationDomainName", true, .iface⟩],
  .type [⟨c! "NetworkAddress", true, (.ident (c! "X121Address"))⟩],
  .type [⟨c! "X121Address", true, (.ident (c! "string"))⟩],
  .type [⟨c! "TerminalIdentifier", true, (.ident (c! "string"))⟩],
  .type [⟨c! "PrivateDomainName", true, .iface⟩],
  .type [⟨c! "OrganizationName", true, (.ident (c! "string"))⟩],
  .type [⟨c! "NumericUserIdentifier", true, (.ident (c! "string"))⟩]]

/-- RFC 5280, integers as big.Int: declarations 49 to 60. -/
def x509Decls4 : List GoDecl := [
  .type [⟨c! "PersonalNameSET", false, (.struct [.mk (c! "Surname") (.ident (c! "string")) (some (c! "`asn1:\"tag:0\"`")), .mk (c! "Given_name") (.ident (c! "string")) (some (c! "`asn1:\"optional,tag:1\"`")), .mk (c! "Initials") (.ident (c! "string")) (some (c! "`asn1:\"optional,tag:2\"`")), .mk (c! "Generation_qualifier") (.ident (c! "string")) (some (c! "`asn1:\"optional,tag:3\"`"))])⟩, ⟨c! "PersonalName", true, (.ident (c! "PersonalNameSET"))⟩],
  .type [⟨c! "OrganizationalUnitNames", true, (.array (.ident (c! "OrganizationalUnitName")))⟩],
  .type [⟨c! "OrganizationalUnitName", true, (.ident (c! "string"))⟩],
  .type [⟨c! "BuiltInDomainDefinedAttributes", true, (.array (.ident (c! "BuiltInDomainDefinedAttribute")))⟩],
  .type [⟨c! "BuiltInDomainDefinedAttribute", false, (.struct [.mk (c! "Type") (.ident (c! "string")) none, .mk (c! "Value") (.ident (c! "string")) none])⟩],
  .type [⟨c! "ExtensionAttributesSET", false, (.array (.ident (c! "ExtensionAttribute")))⟩, ⟨c! "ExtensionAttributes", true, (.ident (c! "ExtensionAttributesSET"))⟩],
  .type [⟨c! "ExtensionAttribute", false, (.struct [.mk (c! "Extension_attribute_type") (.star (.ident (c! "big.Int"))) (some (c! "`asn1:\"tag:0\"`")), .mk (c! "Extension_attribute_value") .iface (some (c! "`asn1:\"explicit,tag:1\"`"))])⟩],
  .var [⟨c! "ValCommon_name", (.star (.ident (c! "big.Int"))), (.call (c! "big.NewInt") (.lit (c! "1")))⟩],
  .type [⟨c! "CommonName", true, (.ident (c! "string"))⟩],
  .var [⟨c! "ValTeletex_common_name", (.star (.ident (c! "big.Int"))), (.call (c! "big.NewInt") (.lit (c! "2")))⟩],
  .type [⟨c! "TeletexCommonName", true, (.ident (c! "string"))⟩],
  .var [⟨c! "ValTeletex_organization_name", (.star (.ident (c! "big.Int"))), (.call (c! "big.NewInt") (.lit (c! "3")))⟩]]

/-- RFC 5280, integers as big.Int: declarations 61 to 72. -/
def x509Decls5 : List GoDecl := [
  .type [⟨c! "TeletexOrganizationName", true, (.ident (c! "string"))⟩],
  .var [⟨c! "ValTeletex_personal_name", (.star (.ident (c! "big.Int"))), (.call (c! "big.NewInt") (.lit (c! "4")))⟩],
  .type [⟨c! "TeletexPersonalNameSET", false, (.struct [.mk (c! "Surname") (.ident (c! "string")) (some (c! "`asn1:\"tag:0\"`")), .mk (c! "Given_name") (.ident (c! "string")) (some (c! "`asn1:\"optional,tag:1\"`")), .mk (c! "Initials") (.ident (c! "string")) (some (c! "`asn1:\"optional,tag:2\"`")), .mk (c! "Generation_qualifier") (.ident (c! "string")) (some (c! "`asn1:\"optional,tag:3\"`"))])⟩, ⟨c! "TeletexPersonalName", true, (.ident (c! "TeletexPersonalNameSET"))⟩],
  .var [⟨c! "ValTeletex_organizational_unit_names", (.star (.ident (c! "big.Int"))), (.call (c! "big.NewInt") (.lit (c! "5")))⟩],
  .type [⟨c! "TeletexOrganizationalUnitNames", true, (.array (.ident (c! "TeletexOrganizationalUnitName")))⟩],
  .type [⟨c! "TeletexOrganizationalUnitName", true, (.ident (c! "string"))⟩],
  .var [⟨c! "ValPds_name", (.star (.ident (c! "big.Int"))), (.call (c! "big.NewInt") (.lit (c! "7")))⟩],
  .type [⟨c! "PDSName", true, (.ident (c! "string"))⟩],
  .var [⟨c! "ValPhysical_delivery_country_name", (.star (.ident (c! "big.Int"))), (.call (c! "big.NewInt") (.lit (c! "8")))⟩],
  .type [⟨c! "PhysicalDeliveryCountryName", true, .iface⟩],
  .var [⟨c! "ValPostal_code", (.star (.ident (c! "big.Int"))), (.call (c! "big.NewInt") (.lit (c! "9")))⟩],
  .type [⟨c! "PostalCode", true, .iface⟩]]

/-- RFC 5280, integers as big.Int: declarations 73 to 84. -/
def x509Decls6 : List GoDecl := [
  .var [⟨c! "ValPhysical_delivery_office_name", (.star (.ident (c! "big.Int"))), (.call (c! "big.NewInt") (.lit (c! "10")))⟩],
  .type [⟨c! "PhysicalDeliveryOfficeName", true, (.ident (c! "PDSParameter"))⟩],
  .var [⟨c! "ValPhysical_delivery_office_number", (.star (.ident (c! "big.Int"))), (.call (c! "big.NewInt") (.lit (c! "11")))⟩],
  .type [⟨c! "PhysicalDeliveryOfficeNumber", true, (.ident (c! "PDSParameter"))⟩],
  .var [⟨c! "ValExtension_OR_address_components", (.star (.ident (c! "big.Int"))), (.call (c! "big.NewInt") (.lit (c! "12")))⟩],
  .type [⟨c! "ExtensionORAddressComponents", true, (.ident (c! "PDSParameter"))⟩],
  .var [⟨c! "ValPhysical_delivery_personal_name", (.star (.ident (c! "big.Int"))), (.call (c! "big.NewInt") (.lit (c! "13")))⟩],
  .type [⟨c! "PhysicalDeliveryPersonalName", true, (.ident (c! "PDSParameter"))⟩],
  .var [⟨c! "ValPhysical_delivery_organization_name", (.star (.ident (c! "big.Int"))), (.call (c! "big.NewInt") (.lit (c! "14")))⟩],
  .type [⟨c! "PhysicalDeliveryOrganizationName", true, (.ident (c! "PDSParameter"))⟩],
  .var [⟨c! "ValExtension_physical_delivery_address_components", (.star (.ident (c! "big.Int"))), (.call (c! "big.NewInt") (.lit (c! "15")))⟩],
  .type [⟨c! "ExtensionPhysicalDeliveryAddressComponents", true, (.ident (c! "PDSParameter"))⟩]]

/-- RFC 5280, integers as big.Int: declarations 85 to 96. -/
def x509Decls7 : List GoDecl := [
  .var [⟨c! "ValUnformatted_postal_address", (.star (.ident (c! "big.Int"))), (.call (c! "big.NewInt") (.lit (c! "16")))⟩],
  .type [⟨c! "UnformattedPostalAddressSET", false, (.struct [.mk (c! "Printable_address") (.array (.ident (c! "string"))) (some (c! "`asn1:\"optional\"`")), .mk (c! "Teletex_string") (.ident (c! "string")) (some (c! "`asn1:\"optional\"`"))])⟩, ⟨c! "UnformattedPostalAddress", true, (.ident (c! "UnformattedPostalAddressSET"))⟩],
  .var [⟨c! "ValStreet_address", (.star (.ident (c! "big.Int"))), (.call (c! "big.NewInt") (.lit (c! "17")))⟩],
  .type [⟨c! "StreetAddress", true, (.ident (c! "PDSParameter"))⟩],
  .var [⟨c! "ValPost_office_box_address", (.star (.ident (c! "big.Int"))), (.call (c! "big.NewInt") (.lit (c! "18")))⟩],
  .type [⟨c! "PostOfficeBoxAddress", true, (.ident (c! "PDSParameter"))⟩],
  .var [⟨c! "ValPoste_restante_address", (.star (.ident (c! "big.Int"))), (.call (c! "big.NewInt") (.lit (c! "19")))⟩],
  .type [⟨c! "PosteRestanteAddress", true, (.ident (c! "PDSParameter"))⟩],
  .var [⟨c! "ValUnique_postal_name", (.star (.ident (c! "big.Int"))), (.call (c! "big.NewInt") (.lit (c! "20")))⟩],
  .type [⟨c! "UniquePostalName", true, (.ident (c! "PDSParameter"))⟩],
  .var [⟨c! "ValLocal_postal_attributes", (.star (.ident (c! "big.Int"))), (.call (c! "big.NewInt") (.lit (c! "21")))⟩],
  .type [⟨c! "LocalPostalAttributes", true, (.ident (c! "PDSParameter"))⟩]]

/-- RFC 5280, integers as big.Int: declarations 97 to 108. -/
def x509Decls8 : List GoDecl := [
  .type [⟨c! "PDSParameterSET", false, (.struct [.mk (c! "Printable_string") (.ident (c! "string")) (some (c! "`asn1:\"optional\"`")), .mk (c! "Teletex_string") (.ident (c! "string")) (some (c! "`asn1:\"optional\"`"))])⟩, ⟨c! "PDSParameter", true, (.ident (c! "PDSParameterSET"))⟩],
  .var [⟨c! "ValExtended_network_address", (.star (.ident (c! "big.Int"))), (.call (c! "big.NewInt") (.lit (c! "22")))⟩],
  .type [⟨c! "ExtendedNetworkAddress", true, (.ident (c! "asn1.RawValue"))⟩],
  .type [⟨c! "PresentationAddress", false, (.struct [.mk (c! "PSelector") (.array (.ident (c! "byte"))) (some (c! "`asn1:\"optional,explicit,tag:0\"`")), .mk (c! "SSelector") (.array (.ident (c! "byte"))) (some (c! "`asn1:\"optional,explicit,tag:1\"`")), .mk (c! "TSelector") (.array (.ident (c! "byte"))) (some (c! "`asn1:\"optional,explicit,tag:2\"`")), .mk (c! "NAddresses") (.array (.array (.ident (c! "byte")))) (some (c! "`asn1:\"explicit,tag:3,set\"`"))])⟩],
  .var [⟨c! "ValTerminal_type", (.star (.ident (c! "big.Int"))), (.call (c! "big.NewInt") (.lit (c! "23")))⟩],
  .type [⟨c! "TerminalType", true, (.star (.ident (c! "big.Int")))⟩],
  .var [⟨c! "TerminalTypeValTelex", (.ident (c! "TerminalType")), (.call (c! "big.NewInt") (.lit (c! "3")))⟩, ⟨c! "TerminalTypeValTeletex", (.ident (c! "TerminalType")), (.call (c! "big.NewInt") (.lit (c! "4")))⟩, ⟨c! "TerminalTypeValG3_facsimile", (.ident (c! "TerminalType")), (.call (c! "big.NewInt") (.lit (c! "5")))⟩, ⟨c! "TerminalTypeValG4_facsimile", (.ident (c! "TerminalType")), (.call (c! "big.NewInt") (.lit (c! "6")))⟩, ⟨c! "TerminalTypeValIa5_terminal", (.ident (c! "TerminalType")), (.call (c! "big.NewInt") (.lit (c! "7")))⟩, ⟨c! "TerminalTypeValVideotex", (.ident (c! "TerminalType")), (.call (c! "big.NewInt") (.lit (c! "8")))⟩],
  .var [⟨c! "ValTeletex_domain_defined_attributes", (.star (.ident (c! "big.Int"))), (.call (c! "big.NewInt") (.lit (c! "6")))⟩],
  .type [⟨c! "TeletexDomainDefinedAttributes", true, (.array (.ident (c! "TeletexDomainDefinedAttribute")))⟩],
  .type [⟨c! "TeletexDomainDefinedAttribute", false, (.struct [.mk (c! "Type") (.ident (c! "string")) none, .mk (c! "Value") (.ident (c! "string")) none])⟩],
  .var [⟨c! "ValUb_name", (.star (.ident (c! "big.Int"))), (.call (c! "big.NewInt") (.lit (c! "32768")))⟩],
  .var [⟨c! "ValUb_common_name", (.star (.ident (c! "big.Int"))), (.call (c! "big.NewInt") (.lit (c! "64")))⟩]]

/-- RFC 5280, integers as big.Int: declarations 109 to 120. -/
def x509Decls9 : List GoDecl := [
  .var [⟨c! "ValUb_locality_name", (.star (.ident (c! "big.Int"))), (.call (c! "big.NewInt") (.lit (c! "128")))⟩],
  .var [⟨c! "ValUb_state_name", (.star (.ident (c! "big.Int"))), (.call (c! "big.NewInt") (.lit (c! "128")))⟩],
  .var [⟨c! "ValUb_organization_name", (.star (.ident (c! "big.Int"))), (.call (c! "big.NewInt") (.lit (c! "64")))⟩],
  .var [⟨c! "ValUb_organizational_unit_name", (.star (.ident (c! "big.Int"))), (.call (c! "big.NewInt") (.lit (c! "64")))⟩],
  .var [⟨c! "ValUb_title", (.star (.ident (c! "big.Int"))), (.call (c! "big.NewInt") (.lit (c! "64")))⟩],
  .var [⟨c! "ValUb_serial_number", (.star (.ident (c! "big.Int"))), (.call (c! "big.NewInt") (.lit (c! "64")))⟩],
  .var [⟨c! "ValUb_match", (.star (.ident (c! "big.Int"))), (.call (c! "big.NewInt") (.lit (c! "128")))⟩],
  .var [⟨c! "ValUb_emailaddress_length", (.star (.ident (c! "big.Int"))), (.call (c! "big.NewInt") (.lit (c! "255")))⟩],
  .var [⟨c! "ValUb_common_name_length", (.star (.ident (c! "big.Int"))), (.call (c! "big.NewInt") (.lit (c! "64")))⟩],
  .var [⟨c! "ValUb_country_name_alpha_length", (.star (.ident (c! "big.Int"))), (.call (c! "big.NewInt") (.lit (c! "2")))⟩],
  .var [⟨c! "ValUb_country_name_numeric_length", (.star (.ident (c! "big.Int"))), (.call (c! "big.NewInt") (.lit (c! "3")))⟩],
  .var [⟨c! "ValUb_domain_defined_attributes", (.star (.ident (c! "big.Int"))), (.call (c! "big.NewInt") (.lit (c! "4")))⟩]]

/-- RFC 5280, integers as big.Int: declarations 121 to 132. -/
def x509Decls10 : List GoDecl := [
  .var [⟨c! "ValUb_domain_defined_attribute_type_length", (.star (.ident (c! "big.Int"))), (.call (c! "big.NewInt") (.lit (c! "8")))⟩],
  .var [⟨c! "ValUb_domain_defined_attribute_value_length", (.star (.ident (c! "big.Int"))), (.call (c! "big.NewInt") (.lit (c! "128")))⟩],
  .var [⟨c! "ValUb_domain_name_length", (.star (.ident (c! "big.Int"))), (.call (c! "big.NewInt") (.lit (c! "16")))⟩],
  .var [⟨c! "ValUb_extension_attributes", (.star (.ident (c! "big.Int"))), (.call (c! "big.NewInt") (.lit (c! "256")))⟩],
  .var [⟨c! "ValUb_e163_4_number_length", (.star (.ident (c! "big.Int"))), (.call (c! "big.NewInt") (.lit (c! "15")))⟩],
  .var [⟨c! "ValUb_e163_4_sub_address_length", (.star (.ident (c! "big.Int"))), (.call (c! "big.NewInt") (.lit (c! "40")))⟩],
  .var [⟨c! "ValUb_generation_qualifier_length", (.star (.ident (c! "big.Int"))), (.call (c! "big.NewInt") (.lit (c! "3")))⟩],
  .var [⟨c! "ValUb_given_name_length", (.star (.ident (c! "big.Int"))), (.call (c! "big.NewInt") (.lit (c! "16")))⟩],
  .var [⟨c! "ValUb_initials_length", (.star (.ident (c! "big.Int"))), (.call (c! "big.NewInt") (.lit (c! "5")))⟩],
  .var [⟨c! "ValUb_integer_options", (.star (.ident (c! "big.Int"))), (.call (c! "big.NewInt") (.lit (c! "256")))⟩],
  .var [⟨c! "ValUb_numeric_user_id_length", (.star (.ident (c! "big.Int"))), (.call (c! "big.NewInt") (.lit (c! "32")))⟩],
  .var [⟨c! "ValUb_organization_name_length", (.star (.ident (c! "big.Int"))), (.call (c! "big.NewInt") (.lit (c! "64")))⟩]]

/-- RFC 5280, integers as big.Int: declarations 133 to 143. -/
def x509Decls11 : List GoDecl := [
  .var [⟨c! "ValUb_organizational_unit_name_length", (.star (.ident (c! "big.Int"))), (.call (c! "big.NewInt") (.lit (c! "32")))⟩],
  .var [⟨c! "ValUb_organizational_units", (.star (.ident (c! "big.Int"))), (.call (c! "big.NewInt") (.lit (c! "4")))⟩],
  .var [⟨c! "ValUb_pds_name_length", (.star (.ident (c! "big.Int"))), (.call (c! "big.NewInt") (.lit (c! "16")))⟩],
  .var [⟨c! "ValUb_pds_parameter_length", (.star (.ident (c! "big.Int"))), (.call (c! "big.NewInt") (.lit (c! "30")))⟩],
  .var [⟨c! "ValUb_pds_physical_address_lines", (.star (.ident (c! "big.Int"))), (.call (c! "big.NewInt") (.lit (c! "6")))⟩],
  .var [⟨c! "ValUb_postal_code_length", (.star (.ident (c! "big.Int"))), (.call (c! "big.NewInt") (.lit (c! "16")))⟩],
  .var [⟨c! "ValUb_pseudonym", (.star (.ident (c! "big.Int"))), (.call (c! "big.NewInt") (.lit (c! "128")))⟩],
  .var [⟨c! "ValUb_surname_length", (.star (.ident (c! "big.Int"))), (.call (c! "big.NewInt") (.lit (c! "40")))⟩],
  .var [⟨c! "ValUb_terminal_id_length", (.star (.ident (c! "big.Int"))), (.call (c! "big.NewInt") (.lit (c! "24")))⟩],
  .var [⟨c! "ValUb_unformatted_address_length", (.star (.ident (c! "big.Int"))), (.call (c! "big.NewInt") (.lit (c! "180")))⟩],
  .var [⟨c! "ValUb_x121_address_length", (.star (.ident (c! "big.Int"))), (.call (c! "big.NewInt") (.lit (c! "16")))⟩]]

/-- RFC 5280, integers as big.Int: the file. -/
def x509File : GoFile :=
  ⟨c! "examples", x509Decls0 ++ (x509Decls1 ++ (x509Decls2 ++ (x509Decls3 ++ (x509Decls4 ++ (x509Decls5 ++ (x509Decls6 ++ (x509Decls7 ++ (x509Decls8 ++ (x509Decls9 ++ (x509Decls10 ++ (x509Decls11)))))))))))⟩

end Asn1go.Tests
