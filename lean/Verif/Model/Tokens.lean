/-! Generated by tools/gen_tokens.py from /repo/y.go:75-199 and /repo/lexer.go:14-98. -/

namespace Asn1go

/-- Go strings at rune level (UTF-8 decoding is modelled in `Verif.Model.Utf8`).  For lexer.go:116-407 and ast.go:161-203. -/
abbrev Str := List Char

namespace Tok

/-- y.go:75 -/
abbrev WHITESPACE : Int := 57346
/-- y.go:76 -/
abbrev NEWLINE : Int := 57347
/-- y.go:77 -/
abbrev TYPEORMODULEREFERENCE : Int := 57348
/-- y.go:78 -/
abbrev VALUEIDENTIFIER : Int := 57349
/-- y.go:79 -/
abbrev NUMBER : Int := 57350
/-- y.go:80 -/
abbrev BSTRING : Int := 57351
/-- y.go:81 -/
abbrev XMLBSTRING : Int := 57352
/-- y.go:82 -/
abbrev HSTRING : Int := 57353
/-- y.go:83 -/
abbrev XMLHSTRING : Int := 57354
/-- y.go:84 -/
abbrev CSTRING : Int := 57355
/-- y.go:85 -/
abbrev XMLCSTRING : Int := 57356
/-- y.go:86 -/
abbrev ASSIGNMENT : Int := 57357
/-- y.go:87 -/
abbrev RANGE_SEPARATOR : Int := 57358
/-- y.go:88 -/
abbrev ELLIPSIS : Int := 57359
/-- y.go:89 -/
abbrev LEFT_VERSION_BRACKETS : Int := 57360
/-- y.go:90 -/
abbrev RIGHT_VERSION_BRACKETS : Int := 57361
/-- y.go:91 -/
abbrev XML_END_TAG_START : Int := 57362
/-- y.go:92 -/
abbrev XML_SINGLE_START_END : Int := 57363
/-- y.go:93 -/
abbrev XML_BOOLEAN_TRUE : Int := 57364
/-- y.go:94 -/
abbrev XML_BOOLEAN_FALSE : Int := 57365
/-- y.go:95 -/
abbrev XMLASN1TYPENAME : Int := 57366
/-- y.go:96 -/
abbrev EXPONENT : Int := 57367
/-- y.go:97 -/
abbrev OPEN_CURLY : Int := 57368
/-- y.go:98 -/
abbrev CLOSE_CURLY : Int := 57369
/-- y.go:99 -/
abbrev LESS : Int := 57370
/-- y.go:100 -/
abbrev GREATER : Int := 57371
/-- y.go:101 -/
abbrev COMMA : Int := 57372
/-- y.go:102 -/
abbrev DOT : Int := 57373
/-- y.go:103 -/
abbrev OPEN_ROUND : Int := 57374
/-- y.go:104 -/
abbrev CLOSE_ROUND : Int := 57375
/-- y.go:105 -/
abbrev OPEN_SQUARE : Int := 57376
/-- y.go:106 -/
abbrev CLOSE_SQUARE : Int := 57377
/-- y.go:107 -/
abbrev MINUS : Int := 57378
/-- y.go:108 -/
abbrev COLON : Int := 57379
/-- y.go:109 -/
abbrev EQUALS : Int := 57380
/-- y.go:110 -/
abbrev QUOTATION_MARK : Int := 57381
/-- y.go:111 -/
abbrev APOSTROPHE : Int := 57382
/-- y.go:112 -/
abbrev SPACE : Int := 57383
/-- y.go:113 -/
abbrev SEMICOLON : Int := 57384
/-- y.go:114 -/
abbrev AT : Int := 57385
/-- y.go:115 -/
abbrev PIPE : Int := 57386
/-- y.go:116 -/
abbrev EXCLAMATION : Int := 57387
/-- y.go:117 -/
abbrev CARET : Int := 57388
/-- y.go:118 -/
abbrev ABSENT : Int := 57389
/-- y.go:119 -/
abbrev ENCODED : Int := 57390
/-- y.go:120 -/
abbrev INTEGER : Int := 57391
/-- y.go:121 -/
abbrev RELATIVE_OID : Int := 57392
/-- y.go:122 -/
abbrev ABSTRACT_SYNTAX : Int := 57393
/-- y.go:123 -/
abbrev END : Int := 57394
/-- y.go:124 -/
abbrev INTERSECTION : Int := 57395
/-- y.go:125 -/
abbrev SEQUENCE : Int := 57396
/-- y.go:126 -/
abbrev ALL : Int := 57397
/-- y.go:127 -/
abbrev ENUMERATED : Int := 57398
/-- y.go:128 -/
abbrev ISO646String : Int := 57399
/-- y.go:129 -/
abbrev SET : Int := 57400
/-- y.go:130 -/
abbrev APPLICATION : Int := 57401
/-- y.go:131 -/
abbrev EXCEPT : Int := 57402
/-- y.go:132 -/
abbrev MAX : Int := 57403
/-- y.go:133 -/
abbrev SIZE : Int := 57404
/-- y.go:134 -/
abbrev AUTOMATIC : Int := 57405
/-- y.go:135 -/
abbrev EXPLICIT : Int := 57406
/-- y.go:136 -/
abbrev MIN : Int := 57407
/-- y.go:137 -/
abbrev STRING : Int := 57408
/-- y.go:138 -/
abbrev BEGIN : Int := 57409
/-- y.go:139 -/
abbrev EXPORTS : Int := 57410
/-- y.go:140 -/
abbrev MINUS_INFINITY : Int := 57411
/-- y.go:141 -/
abbrev SYNTAX : Int := 57412
/-- y.go:142 -/
abbrev BIT : Int := 57413
/-- y.go:143 -/
abbrev EXTENSIBILITY : Int := 57414
/-- y.go:144 -/
abbrev NULL : Int := 57415
/-- y.go:145 -/
abbrev T61String : Int := 57416
/-- y.go:146 -/
abbrev BMPString : Int := 57417
/-- y.go:147 -/
abbrev EXTERNAL : Int := 57418
/-- y.go:148 -/
abbrev NumericString : Int := 57419
/-- y.go:149 -/
abbrev TAGS : Int := 57420
/-- y.go:150 -/
abbrev BOOLEAN : Int := 57421
/-- y.go:151 -/
abbrev FALSE : Int := 57422
/-- y.go:152 -/
abbrev OBJECT : Int := 57423
/-- y.go:153 -/
abbrev TeletexString : Int := 57424
/-- y.go:154 -/
abbrev BY : Int := 57425
/-- y.go:155 -/
abbrev FROM : Int := 57426
/-- y.go:156 -/
abbrev ObjectDescriptor : Int := 57427
/-- y.go:157 -/
abbrev TRUE : Int := 57428
/-- y.go:158 -/
abbrev CHARACTER : Int := 57429
/-- y.go:159 -/
abbrev GeneralizedTime : Int := 57430
/-- y.go:160 -/
abbrev OCTET : Int := 57431
/-- y.go:161 -/
abbrev TYPE_IDENTIFIER : Int := 57432
/-- y.go:162 -/
abbrev CHOICE : Int := 57433
/-- y.go:163 -/
abbrev GeneralString : Int := 57434
/-- y.go:164 -/
abbrev OF : Int := 57435
/-- y.go:165 -/
abbrev UNION : Int := 57436
/-- y.go:166 -/
abbrev CLASS : Int := 57437
/-- y.go:167 -/
abbrev GraphicString : Int := 57438
/-- y.go:168 -/
abbrev OPTIONAL : Int := 57439
/-- y.go:169 -/
abbrev UNIQUE : Int := 57440
/-- y.go:170 -/
abbrev COMPONENT : Int := 57441
/-- y.go:171 -/
abbrev IA5String : Int := 57442
/-- y.go:172 -/
abbrev PATTERN : Int := 57443
/-- y.go:173 -/
abbrev UNIVERSAL : Int := 57444
/-- y.go:174 -/
abbrev COMPONENTS : Int := 57445
/-- y.go:175 -/
abbrev IDENTIFIER : Int := 57446
/-- y.go:176 -/
abbrev PDV : Int := 57447
/-- y.go:177 -/
abbrev UniversalString : Int := 57448
/-- y.go:178 -/
abbrev CONSTRAINED : Int := 57449
/-- y.go:179 -/
abbrev IMPLICIT : Int := 57450
/-- y.go:180 -/
abbrev PLUS_INFINITY : Int := 57451
/-- y.go:181 -/
abbrev UTCTime : Int := 57452
/-- y.go:182 -/
abbrev CONTAINING : Int := 57453
/-- y.go:183 -/
abbrev IMPLIED : Int := 57454
/-- y.go:184 -/
abbrev PRESENT : Int := 57455
/-- y.go:185 -/
abbrev UTF8String : Int := 57456
/-- y.go:186 -/
abbrev DEFAULT : Int := 57457
/-- y.go:187 -/
abbrev IMPORTS : Int := 57458
/-- y.go:188 -/
abbrev PrintableString : Int := 57459
/-- y.go:189 -/
abbrev VideotexString : Int := 57460
/-- y.go:190 -/
abbrev DEFINITIONS : Int := 57461
/-- y.go:191 -/
abbrev INCLUDES : Int := 57462
/-- y.go:192 -/
abbrev PRIVATE : Int := 57463
/-- y.go:193 -/
abbrev VisibleString : Int := 57464
/-- y.go:194 -/
abbrev EMBEDDED : Int := 57465
/-- y.go:195 -/
abbrev INSTANCE : Int := 57466
/-- y.go:196 -/
abbrev REAL : Int := 57467
/-- y.go:197 -/
abbrev WITH : Int := 57468
/-- y.go:198 -/
abbrev ANY : Int := 57469
/-- y.go:199 -/
abbrev DEFINED : Int := 57470

end Tok

/-- lexer.go:14-98 `RESERVED_WORDS` (a Go map; keys are distinct, so an association list is the same). -/
def reservedWords : List (Str × Int) := [
  (['A', 'B', 'S', 'E', 'N', 'T'], Tok.ABSENT),
  (['E', 'N', 'C', 'O', 'D', 'E', 'D'], Tok.ENCODED),
  (['I', 'N', 'T', 'E', 'G', 'E', 'R'], Tok.INTEGER),
  (['R', 'E', 'L', 'A', 'T', 'I', 'V', 'E', '-', 'O', 'I', 'D'], Tok.RELATIVE_OID),
  (['A', 'B', 'S', 'T', 'R', 'A', 'C', 'T', '-', 'S', 'Y', 'N', 'T', 'A', 'X'], Tok.ABSTRACT_SYNTAX),
  (['E', 'N', 'D'], Tok.END),
  (['I', 'N', 'T', 'E', 'R', 'S', 'E', 'C', 'T', 'I', 'O', 'N'], Tok.INTERSECTION),
  (['S', 'E', 'Q', 'U', 'E', 'N', 'C', 'E'], Tok.SEQUENCE),
  (['A', 'L', 'L'], Tok.ALL),
  (['E', 'N', 'U', 'M', 'E', 'R', 'A', 'T', 'E', 'D'], Tok.ENUMERATED),
  (['I', 'S', 'O', '6', '4', '6', 'S', 't', 'r', 'i', 'n', 'g'], Tok.ISO646String),
  (['S', 'E', 'T'], Tok.SET),
  (['A', 'P', 'P', 'L', 'I', 'C', 'A', 'T', 'I', 'O', 'N'], Tok.APPLICATION),
  (['E', 'X', 'C', 'E', 'P', 'T'], Tok.EXCEPT),
  (['M', 'A', 'X'], Tok.MAX),
  (['S', 'I', 'Z', 'E'], Tok.SIZE),
  (['A', 'U', 'T', 'O', 'M', 'A', 'T', 'I', 'C'], Tok.AUTOMATIC),
  (['E', 'X', 'P', 'L', 'I', 'C', 'I', 'T'], Tok.EXPLICIT),
  (['M', 'I', 'N'], Tok.MIN),
  (['S', 'T', 'R', 'I', 'N', 'G'], Tok.STRING),
  (['B', 'E', 'G', 'I', 'N'], Tok.BEGIN),
  (['E', 'X', 'P', 'O', 'R', 'T', 'S'], Tok.EXPORTS),
  (['M', 'I', 'N', 'U', 'S', '-', 'I', 'N', 'F', 'I', 'N', 'I', 'T', 'Y'], Tok.MINUS_INFINITY),
  (['S', 'Y', 'N', 'T', 'A', 'X'], Tok.SYNTAX),
  (['B', 'I', 'T'], Tok.BIT),
  (['E', 'X', 'T', 'E', 'N', 'S', 'I', 'B', 'I', 'L', 'I', 'T', 'Y'], Tok.EXTENSIBILITY),
  (['N', 'U', 'L', 'L'], Tok.NULL),
  (['T', '6', '1', 'S', 't', 'r', 'i', 'n', 'g'], Tok.T61String),
  (['B', 'M', 'P', 'S', 't', 'r', 'i', 'n', 'g'], Tok.BMPString),
  (['E', 'X', 'T', 'E', 'R', 'N', 'A', 'L'], Tok.EXTERNAL),
  (['N', 'u', 'm', 'e', 'r', 'i', 'c', 'S', 't', 'r', 'i', 'n', 'g'], Tok.NumericString),
  (['T', 'A', 'G', 'S'], Tok.TAGS),
  (['B', 'O', 'O', 'L', 'E', 'A', 'N'], Tok.BOOLEAN),
  (['F', 'A', 'L', 'S', 'E'], Tok.FALSE),
  (['O', 'B', 'J', 'E', 'C', 'T'], Tok.OBJECT),
  (['T', 'e', 'l', 'e', 't', 'e', 'x', 'S', 't', 'r', 'i', 'n', 'g'], Tok.TeletexString),
  (['B', 'Y'], Tok.BY),
  (['F', 'R', 'O', 'M'], Tok.FROM),
  (['O', 'b', 'j', 'e', 'c', 't', 'D', 'e', 's', 'c', 'r', 'i', 'p', 't', 'o', 'r'], Tok.ObjectDescriptor),
  (['T', 'R', 'U', 'E'], Tok.TRUE),
  (['C', 'H', 'A', 'R', 'A', 'C', 'T', 'E', 'R'], Tok.CHARACTER),
  (['G', 'e', 'n', 'e', 'r', 'a', 'l', 'i', 'z', 'e', 'd', 'T', 'i', 'm', 'e'], Tok.GeneralizedTime),
  (['O', 'C', 'T', 'E', 'T'], Tok.OCTET),
  (['T', 'Y', 'P', 'E', '-', 'I', 'D', 'E', 'N', 'T', 'I', 'F', 'I', 'E', 'R'], Tok.TYPE_IDENTIFIER),
  (['C', 'H', 'O', 'I', 'C', 'E'], Tok.CHOICE),
  (['G', 'e', 'n', 'e', 'r', 'a', 'l', 'S', 't', 'r', 'i', 'n', 'g'], Tok.GeneralString),
  (['O', 'F'], Tok.OF),
  (['U', 'N', 'I', 'O', 'N'], Tok.UNION),
  (['C', 'L', 'A', 'S', 'S'], Tok.CLASS),
  (['G', 'r', 'a', 'p', 'h', 'i', 'c', 'S', 't', 'r', 'i', 'n', 'g'], Tok.GraphicString),
  (['O', 'P', 'T', 'I', 'O', 'N', 'A', 'L'], Tok.OPTIONAL),
  (['U', 'N', 'I', 'Q', 'U', 'E'], Tok.UNIQUE),
  (['C', 'O', 'M', 'P', 'O', 'N', 'E', 'N', 'T'], Tok.COMPONENT),
  (['I', 'A', '5', 'S', 't', 'r', 'i', 'n', 'g'], Tok.IA5String),
  (['P', 'A', 'T', 'T', 'E', 'R', 'N'], Tok.PATTERN),
  (['U', 'N', 'I', 'V', 'E', 'R', 'S', 'A', 'L'], Tok.UNIVERSAL),
  (['C', 'O', 'M', 'P', 'O', 'N', 'E', 'N', 'T', 'S'], Tok.COMPONENTS),
  (['I', 'D', 'E', 'N', 'T', 'I', 'F', 'I', 'E', 'R'], Tok.IDENTIFIER),
  (['P', 'D', 'V'], Tok.PDV),
  (['U', 'n', 'i', 'v', 'e', 'r', 's', 'a', 'l', 'S', 't', 'r', 'i', 'n', 'g'], Tok.UniversalString),
  (['C', 'O', 'N', 'S', 'T', 'R', 'A', 'I', 'N', 'E', 'D'], Tok.CONSTRAINED),
  (['I', 'M', 'P', 'L', 'I', 'C', 'I', 'T'], Tok.IMPLICIT),
  (['P', 'L', 'U', 'S', '-', 'I', 'N', 'F', 'I', 'N', 'I', 'T', 'Y'], Tok.PLUS_INFINITY),
  (['U', 'T', 'C', 'T', 'i', 'm', 'e'], Tok.UTCTime),
  (['C', 'O', 'N', 'T', 'A', 'I', 'N', 'I', 'N', 'G'], Tok.CONTAINING),
  (['I', 'M', 'P', 'L', 'I', 'E', 'D'], Tok.IMPLIED),
  (['P', 'R', 'E', 'S', 'E', 'N', 'T'], Tok.PRESENT),
  (['U', 'T', 'F', '8', 'S', 't', 'r', 'i', 'n', 'g'], Tok.UTF8String),
  (['D', 'E', 'F', 'A', 'U', 'L', 'T'], Tok.DEFAULT),
  (['I', 'M', 'P', 'O', 'R', 'T', 'S'], Tok.IMPORTS),
  (['P', 'r', 'i', 'n', 't', 'a', 'b', 'l', 'e', 'S', 't', 'r', 'i', 'n', 'g'], Tok.PrintableString),
  (['V', 'i', 'd', 'e', 'o', 't', 'e', 'x', 'S', 't', 'r', 'i', 'n', 'g'], Tok.VideotexString),
  (['D', 'E', 'F', 'I', 'N', 'I', 'T', 'I', 'O', 'N', 'S'], Tok.DEFINITIONS),
  (['I', 'N', 'C', 'L', 'U', 'D', 'E', 'S'], Tok.INCLUDES),
  (['P', 'R', 'I', 'V', 'A', 'T', 'E'], Tok.PRIVATE),
  (['V', 'i', 's', 'i', 'b', 'l', 'e', 'S', 't', 'r', 'i', 'n', 'g'], Tok.VisibleString),
  (['E', 'M', 'B', 'E', 'D', 'D', 'E', 'D'], Tok.EMBEDDED),
  (['I', 'N', 'S', 'T', 'A', 'N', 'C', 'E'], Tok.INSTANCE),
  (['R', 'E', 'A', 'L'], Tok.REAL),
  (['W', 'I', 'T', 'H'], Tok.WITH),
  (['A', 'N', 'Y'], Tok.ANY),
  (['D', 'E', 'F', 'I', 'N', 'E', 'D'], Tok.DEFINED)
]

end Asn1go
