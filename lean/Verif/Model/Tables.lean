import Verif.Model.Lexer

/-! Generated by /verif/tools/gen_tables.py from /repo/y.go.  Each table is a balanced tree, for fast lookup in the
kernel; `Verif/Proofs/Tables.lean` shows that lookup in the tree is indexing in the list printed in y.go. -/

namespace Asn1go

/-- A table: `n k a b` has `k` entries in `a`, followed by those of `b`.  For y.go:341-724. -/
inductive Tab
  | l (v : Int)
  | n (k : Nat) (a b : Tab)

/-- Entry number `i`; `none` when out of range (Go panics).  For y.go:930-1059. -/
def Tab.get? : Tab → Nat → Option Int
  | .l v, i => if i = 0 then some v else none
  | .n k a b, i => if i < k then a.get? i else b.get? (i - k)

/-- The entries in order.  For y.go:341-724. -/
def Tab.toList : Tab → List Int
  | .l v => [v]
  | .n _ a b => a.toList ++ b.toList

namespace Tab

/-- y.go:341-376 -/
def yyExca : Tab :=
  (n 34 (n 17 (n 8 (n 4 (n 2 (n 1 (l (-1)) (l 1)) (n 1 (l 1) (l (-1)))) (n 2 (n 1 (l (-2)) (l 0)) (n 1 (l (-1))
  (l 31)))) (n 4 (n 2 (n 1 (l 52) (l 24)) (n 1 (l (-2)) (l 27))) (n 2 (n 1 (l (-1)) (l 47)) (n 1 (l 31) (n 1 (l
  3) (l (-2))))))) (n 8 (n 4 (n 2 (n 1 (l 2) (l (-1))) (n 1 (l 178) (l 44))) (n 2 (n 1 (l 239) (l 94)) (n 1 (l
  239) (l (-2))))) (n 4 (n 2 (n 1 (l 235) (l (-1))) (n 1 (l 180) (l 46))) (n 2 (n 1 (l 242) (l 53)) (n 1 (l 242)
  (n 1 (l (-2)) (l 237))))))) (n 17 (n 8 (n 4 (n 2 (n 1 (l (-1)) (l 184)) (n 1 (l 60) (l 245))) (n 2 (n 1 (l
  (-2)) (l 243)) (n 1 (l (-1)) (l 193)))) (n 4 (n 2 (n 1 (l 16) (l 264)) (n 1 (l 28) (l 264))) (n 2 (n 1 (l (-2))
  (l 258)) (n 1 (l (-1)) (n 1 (l 252) (l 32)))))) (n 8 (n 4 (n 2 (n 1 (l 6) (l (-2))) (n 1 (l 4) (l (-1)))) (n 2
  (n 1 (l 329) (l 46)) (n 1 (l 242) (l 53)))) (n 4 (n 2 (n 1 (l 242) (l (-2))) (n 1 (l 238) (l (-1)))) (n 2 (n 1
  (l 421) (l 30)) (n 1 (l 138) (n 1 (l (-2)) (l 132))))))))

/-- y.go:382-475 -/
def yyAct : Tab :=
  (n 456 (n 228 (n 114 (n 57 (n 28 (n 14 (n 7 (n 3 (n 1 (l 219) (n 1 (l 205) (l 408))) (n 2 (n 1 (l 218) (l 374))
  (n 1 (l 208) (l 350)))) (n 3 (n 1 (l 220) (n 1 (l 127) (l 17))) (n 2 (n 1 (l 193) (l 177)) (n 1 (l 259) (l
  317))))) (n 7 (n 3 (n 1 (l 313) (n 1 (l 17) (l 281))) (n 2 (n 1 (l 277) (l 238)) (n 1 (l 291) (l 333)))) (n 3
  (n 1 (l 242) (n 1 (l 250) (l 210))) (n 2 (n 1 (l 202) (l 262)) (n 1 (l 163) (l 184)))))) (n 14 (n 7 (n 3 (n 1
  (l 182) (n 1 (l 180) (l 246))) (n 2 (n 1 (l 159) (l 170)) (n 1 (l 217) (l 241)))) (n 3 (n 1 (l 3) (n 1 (l 144)
  (l 151))) (n 2 (n 1 (l 5) (l 19)) (n 1 (l 168) (l 38))))) (n 7 (n 3 (n 1 (l 29) (n 1 (l 295) (l 19))) (n 2 (n 1
  (l 416) (l 11)) (n 1 (l 9) (l 19)))) (n 4 (n 2 (n 1 (l 168) (l 265)) (n 1 (l 19) (l 133))) (n 2 (n 1 (l 19) (l
  168)) (n 1 (l 19) (l 19))))))) (n 28 (n 14 (n 7 (n 3 (n 1 (l 46) (n 1 (l 165) (l 54))) (n 2 (n 1 (l 46) (l
  296)) (n 1 (l 411) (l 297)))) (n 3 (n 1 (l 233) (n 1 (l 204) (l 204))) (n 2 (n 1 (l 165) (l 169)) (n 1 (l 334)
  (l 45))))) (n 7 (n 3 (n 1 (l 54) (n 1 (l 165) (l 45))) (n 2 (n 1 (l 273) (l 227)) (n 1 (l 215) (l 169)))) (n 3
  (n 1 (l 274) (n 1 (l 46) (l 150))) (n 2 (n 1 (l 232) (l 169)) (n 1 (l 190) (l 46)))))) (n 14 (n 7 (n 3 (n 1 (l
  225) (n 1 (l 19) (l 224))) (n 2 (n 1 (l 62) (l 24)) (n 1 (l 234) (l 10)))) (n 3 (n 1 (l 45) (n 1 (l 336) (l
  23))) (n 2 (n 1 (l 417) (l 204)) (n 1 (l 45) (l 22))))) (n 7 (n 3 (n 1 (l 152) (n 1 (l 266) (l 172))) (n 2 (n 1
  (l 336) (l 21)) (n 1 (l 35) (l 31)))) (n 4 (n 2 (n 1 (l 148) (l 42)) (n 1 (l 137) (l 142))) (n 2 (n 1 (l 172)
  (l 415)) (n 1 (l 162) (l 134)))))))) (n 57 (n 28 (n 14 (n 7 (n 3 (n 1 (l 263) (n 1 (l 172) (l 195))) (n 2 (n 1
  (l 129) (l 161)) (n 1 (l 58) (l 36)))) (n 3 (n 1 (l 162) (n 1 (l 50) (l 140))) (n 2 (n 1 (l 121) (l 135)) (n 1
  (l 162) (l 161))))) (n 7 (n 3 (n 1 (l 164) (n 1 (l 128) (l 164))) (n 2 (n 1 (l 128) (l 161)) (n 1 (l 211) (l
  214)))) (n 3 (n 1 (l 61) (n 1 (l 268) (l 155))) (n 2 (n 1 (l 203) (l 260)) (n 1 (l 221) (l 171)))))) (n 14 (n 7
  (n 3 (n 1 (l 123) (n 1 (l 269) (l 223))) (n 2 (n 1 (l 47) (l 48)) (n 1 (l 221) (l 226)))) (n 3 (n 1 (l 231) (n
  1 (l 171) (l 221))) (n 2 (n 1 (l 221) (l 60)) (n 1 (l 429) (l 171))))) (n 7 (n 3 (n 1 (l 213) (n 1 (l 103) (l
  154))) (n 2 (n 1 (l 139) (l 216)) (n 1 (l 139) (l 59)))) (n 4 (n 2 (n 1 (l 128) (l 239)) (n 1 (l 228) (l 400)))
  (n 2 (n 1 (l 253) (l 370)) (n 1 (l 245) (l 124))))))) (n 28 (n 14 (n 7 (n 3 (n 1 (l 65) (n 1 (l 63) (l 309)))
  (n 2 (n 1 (l 229) (l 318)) (n 1 (l 399) (l 122)))) (n 3 (n 1 (l 388) (n 1 (l 385) (l 247))) (n 2 (n 1 (l 125)
  (l 221)) (n 1 (l 138) (l 143))))) (n 7 (n 3 (n 1 (l 384) (n 1 (l 244) (l 331))) (n 2 (n 1 (l 320) (l 164)) (n 1
  (l 141) (l 126)))) (n 3 (n 1 (l 136) (n 1 (l 44) (l 40))) (n 2 (n 1 (l 53) (l 44)) (n 1 (l 32) (l 41)))))) (n
  14 (n 7 (n 3 (n 1 (l 271) (n 1 (l 128) (l 278))) (n 2 (n 1 (l 258) (l 319)) (n 1 (l 4) (l 48)))) (n 3 (n 1 (l
  325) (n 1 (l 53) (l 128))) (n 2 (n 1 (l 345) (l 256)) (n 1 (l 270) (l 315))))) (n 7 (n 3 (n 1 (l 288) (n 1 (l
  27) (l 44))) (n 2 (n 1 (l 255) (l 283)) (n 1 (l 431) (l 145)))) (n 4 (n 2 (n 1 (l 44) (l 343)) (n 1 (l 310) (l
  289))) (n 2 (n 1 (l 344) (l 430)) (n 1 (l 290) (l 422))))))))) (n 114 (n 57 (n 28 (n 14 (n 7 (n 3 (n 1 (l 342)
  (n 1 (l 430) (l 420))) (n 2 (n 1 (l 406) (l 299)) (n 1 (l 301) (l 326)))) (n 3 (n 1 (l 403) (n 1 (l 308) (l
  292))) (n 2 (n 1 (l 395) (l 394)) (n 1 (l 305) (l 307))))) (n 7 (n 3 (n 1 (l 387) (n 1 (l 382) (l 282))) (n 2
  (n 1 (l 372) (l 294)) (n 1 (l 287) (l 302)))) (n 3 (n 1 (l 253) (n 1 (l 253) (l 286))) (n 2 (n 1 (l 280) (l
  222)) (n 1 (l 261) (l 62)))))) (n 14 (n 7 (n 3 (n 1 (l 275) (n 1 (l 15) (l 230))) (n 2 (n 1 (l 425) (l 4)) (n 1
  (l 48) (l 393)))) (n 3 (n 1 (l 235) (n 1 (l 236) (l 164))) (n 2 (n 1 (l 164) (l 365)) (n 1 (l 363) (l 164)))))
  (n 7 (n 3 (n 1 (l 357) (n 1 (l 311) (l 303))) (n 2 (n 1 (l 293) (l 164)) (n 1 (l 323) (l 285)))) (n 4 (n 2 (n 1
  (l 279) (l 312)) (n 1 (l 314) (l 165))) (n 2 (n 1 (l 199) (l 338)) (n 1 (l 335) (l 25))))))) (n 28 (n 14 (n 7
  (n 3 (n 1 (l 30) (n 1 (l 132) (l 322))) (n 2 (n 1 (l 347) (l 211)) (n 1 (l 351) (l 328)))) (n 3 (n 1 (l 214) (n
  1 (l 353) (l 329))) (n 2 (n 1 (l 360) (l 330)) (n 1 (l 131) (l 164))))) (n 7 (n 3 (n 1 (l 130) (n 1 (l 7) (l
  348))) (n 2 (n 1 (l 368) (l 355)) (n 1 (l 421) (l 346)))) (n 3 (n 1 (l 19) (n 1 (l 361) (l 19))) (n 2 (n 1 (l
  358) (l 352)) (n 1 (l 327) (l 272)))))) (n 14 (n 7 (n 3 (n 1 (l 64) (n 1 (l 356) (l 354))) (n 2 (n 1 (l 375) (l
  28)) (n 1 (l 204) (l 359)))) (n 3 (n 1 (l 249) (n 1 (l 12) (l 284))) (n 2 (n 1 (l 4) (l 48)) (n 1 (l 240) (l
  19))))) (n 7 (n 3 (n 1 (l 18) (n 1 (l 14) (l 424))) (n 2 (n 1 (l 367) (l 371)) (n 1 (l 364) (l 369)))) (n 4 (n
  2 (n 1 (l 14) (l 26)) (n 1 (l 164) (l 316))) (n 2 (n 1 (l 366) (l 257)) (n 1 (l 18) (l 298)))))))) (n 57 (n 28
  (n 14 (n 7 (n 3 (n 1 (l 300) (n 1 (l 19) (l 377))) (n 2 (n 1 (l 335) (l 278)) (n 1 (l 47) (l 48)))) (n 3 (n 1
  (l 304) (n 1 (l 306) (l 4))) (n 2 (n 1 (l 48) (l 254)) (n 1 (l 48) (l 373))))) (n 7 (n 3 (n 1 (l 4) (n 1 (l
  252) (l 254))) (n 2 (n 1 (l 4) (l 380)) (n 1 (l 321) (l 378)))) (n 3 (n 1 (l 381) (n 1 (l 379) (l 383))) (n 2
  (n 1 (l 55) (l 48)) (n 1 (l 414) (l 397)))))) (n 14 (n 7 (n 3 (n 1 (l 396) (n 1 (l 376) (l 164))) (n 2 (n 1 (l
  341) (l 164)) (n 1 (l 340) (l 339)))) (n 3 (n 1 (l 324) (n 1 (l 337) (l 267))) (n 2 (n 1 (l 264) (l 390)) (n 1
  (l 389) (l 423))))) (n 7 (n 3 (n 1 (l 392) (n 1 (l 410) (l 398))) (n 2 (n 1 (l 405) (l 409)) (n 1 (l 402) (l
  351)))) (n 4 (n 2 (n 1 (l 55) (l 19)) (n 1 (l 168) (l 39))) (n 2 (n 1 (l 34) (l 377)) (n 1 (l 377) (l 1)))))))
  (n 28 (n 14 (n 7 (n 3 (n 1 (l 412) (n 1 (l 413) (l 401))) (n 2 (n 1 (l 209) (l 418)) (n 1 (l 207) (l 211)))) (n
  3 (n 1 (l 404) (n 1 (l 206) (l 212))) (n 2 (n 1 (l 419) (l 407)) (n 1 (l 165) (l 386))))) (n 7 (n 3 (n 1 (l
  349) (n 1 (l 362) (l 201))) (n 2 (n 1 (l 200) (l 187)) (n 1 (l 72) (l 120)))) (n 3 (n 1 (l 153) (n 1 (l 169) (l
  243))) (n 2 (n 1 (l 409) (l 426)) (n 1 (l 427) (l 43)))))) (n 14 (n 7 (n 3 (n 1 (l 428) (n 1 (l 57) (l 56))) (n
  2 (n 1 (l 37) (l 360)) (n 1 (l 276) (l 69)))) (n 3 (n 1 (l 94) (n 1 (l 77) (l 86))) (n 2 (n 1 (l 149) (l 237))
  (n 1 (l 99) (l 179))))) (n 7 (n 3 (n 1 (l 93) (n 1 (l 110) (l 100))) (n 2 (n 1 (l 102) (l 84)) (n 1 (l 82) (l
  139)))) (n 4 (n 2 (n 1 (l 81) (l 80)) (n 1 (l 198) (l 79))) (n 2 (n 1 (l 67) (l 85)) (n 1 (l 172) (l
  91)))))))))) (n 228 (n 114 (n 57 (n 28 (n 14 (n 7 (n 3 (n 1 (l 88) (n 1 (l 90) (l 95))) (n 2 (n 1 (l 114) (l
  106)) (n 1 (l 71) (l 111)))) (n 3 (n 1 (l 197) (n 1 (l 89) (l 162))) (n 2 (n 1 (l 96) (l 113)) (n 1 (l 332) (l
  194))))) (n 7 (n 3 (n 1 (l 192) (n 1 (l 161) (l 119))) (n 2 (n 1 (l 104) (l 97)) (n 1 (l 191) (l 92)))) (n 3 (n
  1 (l 107) (n 1 (l 55) (l 19))) (n 2 (n 1 (l 168) (l 108)) (n 1 (l 186) (l 189)))))) (n 14 (n 7 (n 3 (n 1 (l
  188) (n 1 (l 109) (l 185))) (n 2 (n 1 (l 183) (l 181)) (n 1 (l 178) (l 391)))) (n 3 (n 1 (l 115) (n 1 (l 176)
  (l 175))) (n 2 (n 1 (l 171) (l 105)) (n 1 (l 174) (l 173))))) (n 7 (n 3 (n 1 (l 165) (n 1 (l 116) (l 87))) (n 2
  (n 1 (l 68) (l 112)) (n 1 (l 117) (l 187)))) (n 4 (n 2 (n 1 (l 33) (l 120)) (n 1 (l 118) (l 169))) (n 2 (n 1 (l
  49) (l 98)) (n 1 (l 196) (l 101))))))) (n 28 (n 14 (n 7 (n 3 (n 1 (l 51) (n 1 (l 52) (l 167))) (n 2 (n 1 (l
  166) (l 157)) (n 1 (l 160) (l 78)))) (n 3 (n 1 (l 158) (n 1 (l 94) (l 156))) (n 2 (n 1 (l 248) (l 251)) (n 1 (l
  83) (l 99))))) (n 7 (n 3 (n 1 (l 73) (n 1 (l 93) (l 110))) (n 2 (n 1 (l 100) (l 75)) (n 1 (l 66) (l 70)))) (n 3
  (n 1 (l 139) (n 1 (l 74) (l 76))) (n 2 (n 1 (l 198) (l 6)) (n 1 (l 16) (l 13)))))) (n 14 (n 7 (n 3 (n 1 (l 172)
  (n 1 (l 2) (l 88))) (n 2 (n 1 (l 8) (l 95)) (n 1 (l 114) (l 106)))) (n 3 (n 1 (l 20) (n 1 (l 111) (l 0))) (n 2
  (n 1 (l 89) (l 162)) (n 1 (l 96) (l 113))))) (n 7 (n 3 (n 1 (l 0) (n 1 (l 0) (l 0))) (n 2 (n 1 (l 161) (l 119))
  (n 1 (l 104) (l 97)))) (n 4 (n 2 (n 1 (l 0) (l 92)) (n 1 (l 107) (l 47))) (n 2 (n 1 (l 48) (l 325)) (n 1 (l
  108) (l 0)))))))) (n 57 (n 28 (n 14 (n 7 (n 3 (n 1 (l 0) (n 1 (l 0) (l 109))) (n 2 (n 1 (l 0) (l 0)) (n 1 (l 0)
  (l 0)))) (n 3 (n 1 (l 0) (n 1 (l 115) (l 0))) (n 2 (n 1 (l 0) (l 171)) (n 1 (l 105) (l 0))))) (n 7 (n 3 (n 1 (l
  0) (n 1 (l 0) (l 116))) (n 2 (n 1 (l 0) (l 0)) (n 1 (l 112) (l 117)))) (n 3 (n 1 (l 0) (n 1 (l 0) (l 120))) (n
  2 (n 1 (l 118) (l 326)) (n 1 (l 0) (l 98)))))) (n 14 (n 7 (n 3 (n 1 (l 196) (n 1 (l 101) (l 0))) (n 2 (n 1 (l
  0) (l 0)) (n 1 (l 0) (l 0)))) (n 3 (n 1 (l 0) (n 1 (l 0) (l 0))) (n 2 (n 1 (l 94) (l 0)) (n 1 (l 0) (l 0)))))
  (n 7 (n 3 (n 1 (l 0) (n 1 (l 99) (l 0))) (n 2 (n 1 (l 93) (l 110)) (n 1 (l 100) (l 0)))) (n 4 (n 2 (n 1 (l 0)
  (l 0)) (n 1 (l 0) (l 0))) (n 2 (n 1 (l 0) (l 0)) (n 1 (l 0) (l 0))))))) (n 28 (n 14 (n 7 (n 3 (n 1 (l 0) (n 1
  (l 0) (l 0))) (n 2 (n 1 (l 88) (l 0)) (n 1 (l 95) (l 114)))) (n 3 (n 1 (l 106) (n 1 (l 0) (l 111))) (n 2 (n 1
  (l 0) (l 89)) (n 1 (l 55) (l 96))))) (n 7 (n 3 (n 1 (l 113) (n 1 (l 0) (l 0))) (n 2 (n 1 (l 0) (l 0)) (n 1 (l
  119) (l 104)))) (n 3 (n 1 (l 97) (n 1 (l 0) (l 92))) (n 2 (n 1 (l 107) (l 0)) (n 1 (l 0) (l 0)))))) (n 14 (n 7
  (n 3 (n 1 (l 108) (n 1 (l 0) (l 0))) (n 2 (n 1 (l 0) (l 109)) (n 1 (l 0) (l 0)))) (n 3 (n 1 (l 0) (n 1 (l 0) (l
  0))) (n 2 (n 1 (l 115) (l 0)) (n 1 (l 120) (l 0))))) (n 7 (n 3 (n 1 (l 105) (n 1 (l 0) (l 0))) (n 2 (n 1 (l 0)
  (l 116)) (n 1 (l 0) (l 0)))) (n 4 (n 2 (n 1 (l 112) (l 117)) (n 1 (l 0) (l 0))) (n 2 (n 1 (l 0) (l 118)) (n 1
  (l 94) (l 0))))))))) (n 114 (n 57 (n 28 (n 14 (n 7 (n 3 (n 1 (l 98) (n 1 (l 0) (l 101))) (n 2 (n 1 (l 99) (l
  0)) (n 1 (l 93) (l 110)))) (n 3 (n 1 (l 100) (n 1 (l 0) (l 0))) (n 2 (n 1 (l 0) (l 0)) (n 1 (l 0) (l 147)))))
  (n 7 (n 3 (n 1 (l 0) (n 1 (l 0) (l 0))) (n 2 (n 1 (l 0) (l 0)) (n 1 (l 0) (l 88)))) (n 3 (n 1 (l 0) (n 1 (l 95)
  (l 114))) (n 2 (n 1 (l 106) (l 0)) (n 1 (l 111) (l 0)))))) (n 14 (n 7 (n 3 (n 1 (l 89) (n 1 (l 0) (l 96))) (n 2
  (n 1 (l 113) (l 55)) (n 1 (l 19) (l 0)))) (n 3 (n 1 (l 0) (n 1 (l 119) (l 104))) (n 2 (n 1 (l 97) (l 0)) (n 1
  (l 92) (l 107))))) (n 7 (n 3 (n 1 (l 0) (n 1 (l 0) (l 0))) (n 2 (n 1 (l 108) (l 0)) (n 1 (l 0) (l 0)))) (n 4 (n
  2 (n 1 (l 109) (l 0)) (n 1 (l 0) (l 0))) (n 2 (n 1 (l 0) (l 0)) (n 1 (l 115) (l 0))))))) (n 28 (n 14 (n 7 (n 3
  (n 1 (l 146) (n 1 (l 0) (l 105))) (n 2 (n 1 (l 120) (l 0)) (n 1 (l 0) (l 116)))) (n 3 (n 1 (l 0) (n 1 (l 0) (l
  112))) (n 2 (n 1 (l 117) (l 0)) (n 1 (l 0) (l 0))))) (n 7 (n 3 (n 1 (l 118) (n 1 (l 0) (l 0))) (n 2 (n 1 (l 98)
  (l 94)) (n 1 (l 101) (l 0)))) (n 3 (n 1 (l 0) (n 1 (l 0) (l 99))) (n 2 (n 1 (l 0) (l 93)) (n 1 (l 110) (l
  100)))))) (n 14 (n 7 (n 3 (n 1 (l 0) (n 1 (l 0) (l 0))) (n 2 (n 1 (l 0) (l 0)) (n 1 (l 0) (l 0)))) (n 3 (n 1 (l
  0) (n 1 (l 0) (l 0))) (n 2 (n 1 (l 0) (l 0)) (n 1 (l 88) (l 0))))) (n 7 (n 3 (n 1 (l 95) (n 1 (l 114) (l 106)))
  (n 2 (n 1 (l 0) (l 111)) (n 1 (l 0) (l 89)))) (n 4 (n 2 (n 1 (l 55) (l 96)) (n 1 (l 113) (l 0))) (n 2 (n 1 (l
  0) (l 0)) (n 1 (l 0) (l 119)))))))) (n 57 (n 28 (n 14 (n 7 (n 3 (n 1 (l 104) (n 1 (l 97) (l 0))) (n 2 (n 1 (l
  92) (l 107)) (n 1 (l 0) (l 0)))) (n 3 (n 1 (l 0) (n 1 (l 108) (l 0))) (n 2 (n 1 (l 0) (l 0)) (n 1 (l 109) (l
  0))))) (n 7 (n 3 (n 1 (l 0) (n 1 (l 0) (l 0))) (n 2 (n 1 (l 0) (l 115)) (n 1 (l 0) (l 120)))) (n 3 (n 1 (l 0)
  (n 1 (l 105) (l 0))) (n 2 (n 1 (l 0) (l 0)) (n 1 (l 116) (l 0)))))) (n 14 (n 7 (n 3 (n 1 (l 0) (n 1 (l 112) (l
  117))) (n 2 (n 1 (l 0) (l 0)) (n 1 (l 0) (l 118)))) (n 3 (n 1 (l 94) (n 1 (l 0) (l 98))) (n 2 (n 1 (l 0) (l
  101)) (n 1 (l 99) (l 0))))) (n 7 (n 3 (n 1 (l 93) (n 1 (l 110) (l 100))) (n 2 (n 1 (l 0) (l 0)) (n 1 (l 0) (l
  0)))) (n 4 (n 2 (n 1 (l 0) (l 0)) (n 1 (l 0) (l 0))) (n 2 (n 1 (l 0) (l 0)) (n 1 (l 0) (l 0))))))) (n 28 (n 14
  (n 7 (n 3 (n 1 (l 88) (n 1 (l 0) (l 95))) (n 2 (n 1 (l 114) (l 106)) (n 1 (l 0) (l 111)))) (n 3 (n 1 (l 0) (n 1
  (l 89) (l 0))) (n 2 (n 1 (l 96) (l 113)) (n 1 (l 0) (l 0))))) (n 7 (n 3 (n 1 (l 0) (n 1 (l 0) (l 119))) (n 2 (n
  1 (l 104) (l 97)) (n 1 (l 0) (l 92)))) (n 3 (n 1 (l 107) (n 1 (l 0) (l 0))) (n 2 (n 1 (l 0) (l 108)) (n 1 (l 0)
  (l 0)))))) (n 14 (n 7 (n 3 (n 1 (l 0) (n 1 (l 109) (l 0))) (n 2 (n 1 (l 0) (l 0)) (n 1 (l 0) (l 0)))) (n 3 (n 1
  (l 115) (n 1 (l 0) (l 0))) (n 2 (n 1 (l 0) (l 105)) (n 1 (l 0) (l 0))))) (n 7 (n 3 (n 1 (l 0) (n 1 (l 116) (l
  0))) (n 2 (n 1 (l 0) (l 112)) (n 1 (l 117) (l 0)))) (n 4 (n 2 (n 1 (l 0) (l 0)) (n 1 (l 118) (l 0))) (n 2 (n 1
  (l 0) (l 98)) (n 1 (l 0) (l 101)))))))))))

/-- y.go:477-522 -/
def yyPact : Tab :=
  (n 216 (n 108 (n 54 (n 27 (n 13 (n 6 (n 3 (n 1 (l 353) (n 1 (l (-1000)) (l (-81)))) (n 1 (l 274) (n 1 (l
  (-1000)) (l (-17))))) (n 3 (n 1 (l (-1000)) (n 1 (l 319) (l 31))) (n 2 (n 1 (l 20) (l 16)) (n 1 (l 11) (l
  257))))) (n 7 (n 3 (n 1 (l 319) (n 1 (l (-1000)) (l (-1000)))) (n 2 (n 1 (l (-1000)) (l 182)) (n 1 (l (-1000))
  (l (-1000))))) (n 3 (n 1 (l 302) (n 1 (l (-70)) (l (-1000)))) (n 2 (n 1 (l (-1000)) (l (-1000))) (n 1 (l
  (-1000)) (l (-1000))))))) (n 13 (n 6 (n 3 (n 1 (l 332) (n 1 (l 38) (l (-1000)))) (n 1 (l 164) (n 1 (l 36) (l
  (-1000))))) (n 3 (n 1 (l 68) (n 1 (l (-75)) (l 139))) (n 2 (n 1 (l (-1000)) (l 360)) (n 1 (l 341) (l 111)))))
  (n 7 (n 3 (n 1 (l 93) (n 1 (l 225) (l (-1000)))) (n 2 (n 1 (l (-1000)) (l (-1000))) (n 1 (l (-1000)) (l
  (-1000))))) (n 3 (n 1 (l (-1000)) (n 1 (l (-1000)) (l 360))) (n 2 (n 1 (l (-1000)) (l (-1000))) (n 1 (l
  (-1000)) (l 298))))))) (n 27 (n 13 (n 6 (n 3 (n 1 (l 784) (n 1 (l (-1000)) (l 82))) (n 1 (l 341) (n 1 (l
  (-1000)) (l 58)))) (n 3 (n 1 (l (-1000)) (n 1 (l (-1000)) (l 341))) (n 2 (n 1 (l (-1000)) (l 784)) (n 1 (l 176)
  (l (-1000)))))) (n 7 (n 3 (n 1 (l (-1000)) (n 1 (l (-1000)) (l (-1000)))) (n 2 (n 1 (l (-1000)) (l (-1000))) (n
  1 (l (-1000)) (l (-1000))))) (n 3 (n 1 (l (-1000)) (n 1 (l (-1000)) (l (-1000)))) (n 2 (n 1 (l (-1000)) (l
  (-1000))) (n 1 (l (-1000)) (l (-1000))))))) (n 13 (n 6 (n 3 (n 1 (l (-1000)) (n 1 (l (-1000)) (l (-1000)))) (n
  1 (l (-1000)) (n 1 (l (-1000)) (l (-1000))))) (n 3 (n 1 (l (-1000)) (n 1 (l 51) (l (-1000)))) (n 2 (n 1 (l
  (-1000)) (l (-1000))) (n 1 (l 273) (l 271))))) (n 7 (n 3 (n 1 (l 260) (n 1 (l (-1000)) (l (-52)))) (n 2 (n 1 (l
  47) (l (-1000))) (n 1 (l 99) (l 97)))) (n 3 (n 1 (l (-92)) (n 1 (l 633) (l (-1000)))) (n 2 (n 1 (l (-1000)) (l
  (-1000))) (n 1 (l (-1000)) (l (-1000))))))))) (n 54 (n 27 (n 13 (n 6 (n 3 (n 1 (l (-1000)) (n 1 (l (-1000)) (l
  (-1000)))) (n 1 (l (-1000)) (n 1 (l (-1000)) (l (-1000))))) (n 3 (n 1 (l (-1000)) (n 1 (l (-1000)) (l
  (-1000)))) (n 2 (n 1 (l (-1000)) (l (-1000))) (n 1 (l 40) (l (-22)))))) (n 7 (n 3 (n 1 (l (-1000)) (n 1 (l
  (-1000)) (l 353))) (n 2 (n 1 (l (-1000)) (l 168)) (n 1 (l 46) (l (-1000))))) (n 3 (n 1 (l 385) (n 1 (l 255) (l
  301))) (n 2 (n 1 (l 336) (l 336)) (n 1 (l (-1000)) (l (-1000))))))) (n 13 (n 6 (n 3 (n 1 (l 49) (n 1 (l 710) (l
  (-6)))) (n 1 (l (-8)) (n 1 (l 168) (l 48)))) (n 3 (n 1 (l 710) (n 1 (l (-12)) (l (-29)))) (n 2 (n 1 (l 7) (l
  168)) (n 1 (l 784) (l 784))))) (n 7 (n 3 (n 1 (l (-1000)) (n 1 (l 317) (l (-1000)))) (n 2 (n 1 (l (-1000)) (l
  (-1000))) (n 1 (l (-1000)) (l 254)))) (n 3 (n 1 (l (-1000)) (n 1 (l (-1000)) (l (-1000)))) (n 2 (n 1 (l
  (-1000)) (l (-1000))) (n 1 (l (-1000)) (l (-1000)))))))) (n 27 (n 13 (n 6 (n 3 (n 1 (l (-1000)) (n 1 (l
  (-1000)) (l (-1000)))) (n 1 (l 350) (n 1 (l (-1000)) (l (-1000))))) (n 3 (n 1 (l 185) (n 1 (l 331) (l
  (-1000)))) (n 2 (n 1 (l (-1000)) (l (-1000))) (n 1 (l 94) (l (-1000)))))) (n 7 (n 3 (n 1 (l (-1000)) (n 1 (l
  224) (l (-1000)))) (n 2 (n 1 (l (-1000)) (l 54)) (n 1 (l (-1000)) (l 6)))) (n 3 (n 1 (l (-1000)) (n 1 (l 90) (l
  (-1000)))) (n 2 (n 1 (l 54) (l (-1000))) (n 1 (l 385) (l (-1000))))))) (n 13 (n 6 (n 3 (n 1 (l (-1000)) (n 1 (l
  (-1000)) (l (-1000)))) (n 1 (l (-1000)) (n 1 (l (-1000)) (l 296)))) (n 3 (n 1 (l 168) (n 1 (l (-25)) (l 228)))
  (n 2 (n 1 (l (-1000)) (l 336)) (n 1 (l 250) (l 222))))) (n 7 (n 3 (n 1 (l 214) (n 1 (l (-1000)) (l 94))) (n 2
  (n 1 (l 784) (l 249)) (n 1 (l 221) (l (-1000))))) (n 3 (n 1 (l 217) (n 1 (l (-1000)) (l 181))) (n 2 (n 1 (l
  196) (l (-1000))) (n 1 (l 181) (l (-1000)))))))))) (n 108 (n 54 (n 27 (n 13 (n 6 (n 3 (n 1 (l 207) (n 1 (l 246)
  (l 216))) (n 1 (l (-1000)) (n 1 (l (-54)) (l (-30))))) (n 3 (n 1 (l 168) (n 1 (l (-1000)) (l 710))) (n 2 (n 1
  (l 710) (l (-1000))) (n 1 (l (-1000)) (l 207))))) (n 7 (n 3 (n 1 (l 245) (n 1 (l 168) (l (-1000)))) (n 2 (n 1
  (l 710) (l 710)) (n 1 (l 336) (l 168)))) (n 3 (n 1 (l 168) (n 1 (l 138) (l (-1000)))) (n 2 (n 1 (l (-1000)) (l
  (-1000))) (n 1 (l 191) (l (-1000))))))) (n 13 (n 6 (n 3 (n 1 (l (-1000)) (n 1 (l (-1000)) (l (-1000)))) (n 1 (l
  244) (n 1 (l 350) (l 350)))) (n 3 (n 1 (l (-1000)) (n 1 (l (-1000)) (l (-1000)))) (n 2 (n 1 (l (-1000)) (l
  180)) (n 1 (l (-1000)) (l 329))))) (n 7 (n 3 (n 1 (l 167) (n 1 (l 185) (l (-1000)))) (n 2 (n 1 (l 155) (l 559))
  (n 1 (l 294) (l (-1000))))) (n 3 (n 1 (l 472) (n 1 (l 472) (l (-1000)))) (n 2 (n 1 (l (-1000)) (l 472)) (n 1 (l
  (-1000)) (l (-1000)))))))) (n 27 (n 13 (n 6 (n 3 (n 1 (l (-1000)) (n 1 (l 154) (l 41))) (n 1 (l 168) (n 1 (l
  202) (l (-1000))))) (n 3 (n 1 (l 194) (n 1 (l (-1000)) (l 177))) (n 2 (n 1 (l (-1000)) (l 301)) (n 1 (l 207) (l
  336))))) (n 7 (n 3 (n 1 (l (-1000)) (n 1 (l 168) (l (-1000)))) (n 2 (n 1 (l 293) (l 336)) (n 1 (l 198) (l
  (-1000))))) (n 3 (n 1 (l 336) (n 1 (l 243) (l 292))) (n 2 (n 1 (l (-1000)) (l 79)) (n 1 (l (-1000)) (l 46))))))
  (n 13 (n 6 (n 3 (n 1 (l 784) (n 1 (l 168) (l (-1000)))) (n 1 (l 168) (n 1 (l (-1000)) (l 241)))) (n 3 (n 1 (l
  (-1000)) (n 1 (l 168) (l (-1000)))) (n 2 (n 1 (l 168) (l (-1000))) (n 1 (l (-1000)) (l (-1000)))))) (n 7 (n 3
  (n 1 (l 347) (n 1 (l (-1000)) (l 240))) (n 2 (n 1 (l (-1000)) (l (-1000))) (n 1 (l 345) (l 277)))) (n 3 (n 1 (l
  (-1000)) (n 1 (l (-1000)) (l 325))) (n 2 (n 1 (l (-1000)) (l (-1000))) (n 1 (l (-1000)) (l (-1000))))))))) (n
  54 (n 27 (n 13 (n 6 (n 3 (n 1 (l 131) (n 1 (l (-1000)) (l 323))) (n 1 (l 215) (n 1 (l (-1000)) (l (-1000)))))
  (n 3 (n 1 (l (-1000)) (n 1 (l (-1000)) (l (-1000)))) (n 2 (n 1 (l (-1000)) (l 32)) (n 1 (l (-1000)) (l
  (-1000)))))) (n 7 (n 3 (n 1 (l (-1000)) (n 1 (l (-1000)) (l (-1000)))) (n 2 (n 1 (l (-1000)) (l (-1000))) (n 1
  (l 299) (l (-1000))))) (n 3 (n 1 (l 336) (n 1 (l 317) (l 214))) (n 2 (n 1 (l (-1000)) (l (-1000))) (n 1 (l 213)
  (l (-1000))))))) (n 13 (n 6 (n 3 (n 1 (l (-1000)) (n 1 (l 94) (l (-1000)))) (n 1 (l 152) (n 1 (l 146) (l
  (-1000))))) (n 3 (n 1 (l (-1000)) (n 1 (l (-1000)) (l 212))) (n 2 (n 1 (l (-1000)) (l (-1000))) (n 1 (l 168) (l
  (-1000)))))) (n 7 (n 3 (n 1 (l (-1000)) (n 1 (l (-1000)) (l 145))) (n 2 (n 1 (l (-1000)) (l 167)) (n 1 (l
  (-1000)) (l 46)))) (n 3 (n 1 (l (-1000)) (n 1 (l 385) (l (-1000)))) (n 2 (n 1 (l 235) (l 209)) (n 1 (l 208) (l
  168))))))) (n 27 (n 13 (n 6 (n 3 (n 1 (l (-1000)) (n 1 (l 143) (l 133))) (n 1 (l 207) (n 1 (l 336) (l 205))))
  (n 3 (n 1 (l (-1000)) (n 1 (l (-1000)) (l 201))) (n 2 (n 1 (l 44) (l (-1000))) (n 1 (l (-1000)) (l (-1000))))))
  (n 7 (n 3 (n 1 (l (-1000)) (n 1 (l (-1000)) (l (-1000)))) (n 2 (n 1 (l 336) (l 336)) (n 1 (l (-1000)) (l
  (-2))))) (n 3 (n 1 (l (-1000)) (n 1 (l (-1000)) (l (-1000)))) (n 2 (n 1 (l (-1000)) (l (-1000))) (n 1 (l 336)
  (l (-1000))))))) (n 13 (n 6 (n 3 (n 1 (l 200) (n 1 (l 287) (l 197))) (n 1 (l (-1000)) (n 1 (l (-1000)) (l
  (-1000))))) (n 3 (n 1 (l 321) (n 1 (l 232) (l (-1000)))) (n 2 (n 1 (l (-1000)) (l (-1000))) (n 1 (l (-1000)) (l
  (-1000)))))) (n 7 (n 3 (n 1 (l (-1000)) (n 1 (l (-1000)) (l 37))) (n 2 (n 1 (l (-1000)) (l 44)) (n 1 (l 37) (l
  117)))) (n 3 (n 1 (l (-1000)) (n 1 (l 195) (l (-1000)))) (n 2 (n 1 (l 199) (l (-1000))) (n 1 (l 37) (l
  (-1000)))))))))))

/-- y.go:524-540 -/
def yyPgo : Tab :=
  (n 71 (n 35 (n 17 (n 8 (n 4 (n 2 (n 1 (l 0) (l 32)) (n 1 (l 13) (l 34))) (n 2 (n 1 (l 157) (l 1)) (n 1 (l 548)
  (l 544)))) (n 4 (n 2 (n 1 (l 542) (l 540)) (n 1 (l 257) (l 321))) (n 2 (n 1 (l 539) (l 538)) (n 1 (l 320) (n 1
  (l 14) (l 536)))))) (n 9 (n 4 (n 2 (n 1 (l 535) (l 533)) (n 1 (l 532) (l 116))) (n 2 (n 1 (l 531) (l 527)) (n 1
  (l 525) (n 1 (l 7) (l 22))))) (n 4 (n 2 (n 1 (l 524) (l 523)) (n 1 (l 30) (l 31))) (n 2 (n 1 (l 522) (l 10)) (n
  1 (l 520) (n 1 (l 519) (l 518))))))) (n 18 (n 9 (n 4 (n 2 (n 1 (l 517) (l 516)) (n 1 (l 515) (l 26))) (n 2 (n 1
  (l 18) (l 122)) (n 1 (l 514) (n 1 (l 513) (l 509))))) (n 4 (n 2 (n 1 (l 505) (l 21)) (n 1 (l 501) (l 500))) (n
  2 (n 1 (l 8) (l 497)) (n 1 (l 496) (n 1 (l 493) (l 492)))))) (n 9 (n 4 (n 2 (n 1 (l 490) (l 11)) (n 1 (l 489)
  (l 488))) (n 2 (n 1 (l 29) (l 487)) (n 1 (l 28) (n 1 (l 25) (l 27))))) (n 4 (n 2 (n 1 (l 486) (l 484)) (n 1 (l
  483) (l 482))) (n 2 (n 1 (l 475) (l 470)) (n 1 (l 83) (n 1 (l 469) (l 468)))))))) (n 36 (n 18 (n 9 (n 4 (n 2 (n
  1 (l 463) (l 20)) (n 1 (l 461) (l 457))) (n 2 (n 1 (l 455) (l 453)) (n 1 (l 452) (n 1 (l 451) (l 449))))) (n 4
  (n 2 (n 1 (l 448) (l 446)) (n 1 (l 0) (l 3))) (n 2 (n 1 (l 446) (l 33)) (n 1 (l 445) (n 1 (l 444) (l 438))))))
  (n 9 (n 4 (n 2 (n 1 (l 437) (l 436)) (n 1 (l 435) (l 433))) (n 2 (n 1 (l 432) (l 17)) (n 1 (l 430) (n 1 (l 429)
  (l 428))))) (n 4 (n 2 (n 1 (l 119) (l 162)) (n 1 (l 107) (l 426))) (n 2 (n 1 (l 422) (l 420)) (n 1 (l 418) (n 1
  (l 416) (l 415))))))) (n 18 (n 9 (n 4 (n 2 (n 1 (l 415) (l 6)) (n 1 (l 16) (l 413))) (n 2 (n 1 (l 412) (l 410))
  (n 1 (l 2) (n 1 (l 23) (l 408))))) (n 4 (n 2 (n 1 (l 407) (l 5)) (n 1 (l 404) (l 403))) (n 2 (n 1 (l 402) (l
  398)) (n 1 (l 395) (n 1 (l 394) (l 12)))))) (n 9 (n 4 (n 2 (n 1 (l 24) (l 19)) (n 1 (l 387) (l 385))) (n 2 (n 1
  (l 383) (l 383)) (n 1 (l 380) (n 1 (l 379) (l 378))))) (n 4 (n 2 (n 1 (l 376) (l 375)) (n 1 (l 373) (l 4))) (n
  2 (n 1 (l 371) (l 370)) (n 1 (l 369) (n 1 (l 368) (l 361)))))))))

/-- y.go:542-573 -/
def yyR1 : Tab :=
  (n 146 (n 73 (n 36 (n 18 (n 9 (n 4 (n 2 (n 1 (l 0) (l 121)) (n 1 (l 4) (l 3))) (n 2 (n 1 (l 45) (l 39)) (n 1 (l
  5) (n 1 (l 8) (l 13))))) (n 4 (n 2 (n 1 (l 13) (l 11)) (n 1 (l 11) (l 9))) (n 2 (n 1 (l 9) (l 9)) (n 1 (l 10)
  (n 1 (l 12) (l 7)))))) (n 9 (n 4 (n 2 (n 1 (l 7) (l 7)) (n 1 (l 7) (l 6))) (n 2 (n 1 (l 6) (l 44)) (n 1 (l 44)
  (n 1 (l 122) (l 122))))) (n 4 (n 2 (n 1 (l 122) (l 123)) (n 1 (l 123) (l 95))) (n 2 (n 1 (l 95) (l 96)) (n 1 (l
  96) (n 1 (l 97) (l 97))))))) (n 18 (n 9 (n 4 (n 2 (n 1 (l 98) (l 103)) (n 1 (l 102) (l 102))) (n 2 (n 1 (l 102)
  (l 99)) (n 1 (l 99) (n 1 (l 100) (l 101))))) (n 4 (n 2 (n 1 (l 101) (l 101)) (n 1 (l 43) (l 43))) (n 2 (n 1 (l
  40) (l 40)) (n 1 (l 76) (n 1 (l 15) (l 15)))))) (n 9 (n 4 (n 2 (n 1 (l 42) (l 41)) (n 1 (l 20) (l 20))) (n 2 (n
  1 (l 20) (l 19)) (n 1 (l 19) (n 1 (l 19) (l 19))))) (n 5 (n 2 (n 1 (l 19) (l 19)) (n 1 (l 19) (n 1 (l 19) (l
  19)))) (n 2 (n 1 (l 19) (l 19)) (n 1 (l 19) (n 1 (l 19) (l 19)))))))) (n 36 (n 18 (n 9 (n 4 (n 2 (n 1 (l 19) (l
  19)) (n 1 (l 77) (l 77))) (n 2 (n 1 (l 24) (l 31)) (n 1 (l 30) (n 1 (l 30) (l 30))))) (n 4 (n 2 (n 1 (l 30) (l
  18)) (n 1 (l 35) (l 35))) (n 2 (n 1 (l 17) (l 17)) (n 1 (l 115) (n 1 (l 115) (l 114)))))) (n 9 (n 4 (n 2 (n 1
  (l 114) (l 38)) (n 1 (l 38) (l 32))) (n 2 (n 1 (l 32) (l 22)) (n 1 (l 116) (n 1 (l 116) (l 116))))) (n 4 (n 2
  (n 1 (l 118) (l 119)) (n 1 (l 117) (l 117))) (n 2 (n 1 (l 120) (l 120)) (n 1 (l 33) (n 1 (l 34) (l 34))))))) (n
  18 (n 9 (n 4 (n 2 (n 1 (l 36) (l 36)) (n 1 (l 37) (l 37))) (n 2 (n 1 (l 1) (l 1)) (n 1 (l 1) (n 1 (l 1) (l
  2))))) (n 4 (n 2 (n 1 (l 2) (l 92)) (n 1 (l 92) (l 93))) (n 2 (n 1 (l 93) (l 94)) (n 1 (l 94) (n 1 (l 91) (l
  21)))))) (n 9 (n 4 (n 2 (n 1 (l 78) (l 78)) (n 1 (l 78) (l 125))) (n 2 (n 1 (l 125) (l 126)) (n 1 (l 126) (n 1
  (l 85) (l 85))))) (n 5 (n 2 (n 1 (l 85) (l 84)) (n 1 (l 127) (n 1 (l 111) (l 111)))) (n 2 (n 1 (l 112) (l 112))
  (n 1 (l 113) (n 1 (l 113) (l 128))))))))) (n 73 (n 36 (n 18 (n 9 (n 4 (n 2 (n 1 (l 129) (l 129)) (n 1 (l 83) (l
  83))) (n 2 (n 1 (l 82) (l 82)) (n 1 (l 82) (n 1 (l 82) (l 80))))) (n 4 (n 2 (n 1 (l 80) (l 80)) (n 1 (l 81) (l
  81))) (n 2 (n 1 (l 23) (l 23)) (n 1 (l 104) (n 1 (l 105) (l 105)))))) (n 9 (n 4 (n 2 (n 1 (l 105) (l 107)) (n 1
  (l 109) (l 109))) (n 2 (n 1 (l 110) (l 110)) (n 1 (l 108) (n 1 (l 130) (l 106))))) (n 4 (n 2 (n 1 (l 106) (l
  86)) (n 1 (l 86) (l 86))) (n 2 (n 1 (l 87) (l 88)) (n 1 (l 88) (n 1 (l 89) (l 89))))))) (n 18 (n 9 (n 4 (n 2 (n
  1 (l 89) (l 89)) (n 1 (l 79) (l 79))) (n 2 (n 1 (l 16) (l 29)) (n 1 (l 29) (n 1 (l 28) (l 28))))) (n 4 (n 2 (n
  1 (l 27) (l 27)) (n 1 (l 27) (l 27))) (n 2 (n 1 (l 25) (l 25)) (n 1 (l 26) (n 1 (l 14) (l 73)))))) (n 9 (n 4 (n
  2 (n 1 (l 73) (l 74)) (n 1 (l 74) (l 74))) (n 2 (n 1 (l 74) (l 74)) (n 1 (l 74) (n 1 (l 74) (l 74))))) (n 5 (n
  2 (n 1 (l 74) (l 74)) (n 1 (l 74) (n 1 (l 74) (l 74)))) (n 2 (n 1 (l 75) (l 90)) (n 1 (l 90) (n 1 (l 46) (l
  46)))))))) (n 36 (n 18 (n 9 (n 4 (n 2 (n 1 (l 47) (l 47)) (n 1 (l 47) (l 47))) (n 2 (n 1 (l 47) (l 47)) (n 1 (l
  47) (n 1 (l 47) (l 48))))) (n 4 (n 2 (n 1 (l 49) (l 50)) (n 1 (l 51) (l 51))) (n 2 (n 1 (l 51) (l 52)) (n 1 (l
  53) (n 1 (l 54) (l 54)))))) (n 9 (n 4 (n 2 (n 1 (l 55) (l 55)) (n 1 (l 56) (l 57))) (n 2 (n 1 (l 57) (l 58)) (n
  1 (l 59) (n 1 (l 59) (l 62))))) (n 4 (n 2 (n 1 (l 60) (l 131)) (n 1 (l 131) (l 132))) (n 2 (n 1 (l 132) (l 61))
  (n 1 (l 61) (n 1 (l 65) (l 65))))))) (n 18 (n 9 (n 4 (n 2 (n 1 (l 65) (l 65)) (n 1 (l 65) (l 63))) (n 2 (n 1 (l
  64) (l 69)) (n 1 (l 69) (n 1 (l 70) (l 70))))) (n 4 (n 2 (n 1 (l 71) (l 71)) (n 1 (l 72) (l 72))) (n 2 (n 1 (l
  68) (l 66)) (n 1 (l 67) (n 1 (l 67) (l 133)))))) (n 9 (n 4 (n 2 (n 1 (l 134) (l 134)) (n 1 (l 135) (l 136))) (n
  2 (n 1 (l 137) (l 137)) (n 1 (l 138) (n 1 (l 139) (l 140))))) (n 5 (n 2 (n 1 (l 140) (l 141)) (n 1 (l 141) (n 1
  (l 141) (l 141)))) (n 2 (n 1 (l 124) (l 124)) (n 1 (l 142) (n 1 (l 142) (l 142))))))))))

/-- y.go:575-606 -/
def yyR2 : Tab :=
  (n 146 (n 73 (n 36 (n 18 (n 9 (n 4 (n 2 (n 1 (l 0) (l 8)) (n 1 (l 1) (l 1))) (n 2 (n 1 (l 1) (l 1)) (n 1 (l 1)
  (n 1 (l 2) (l 3))))) (n 4 (n 2 (n 1 (l 0) (l 1)) (n 1 (l 2) (l 1))) (n 2 (n 1 (l 1) (l 1)) (n 1 (l 1) (n 1 (l
  4) (l 2)))))) (n 9 (n 4 (n 2 (n 1 (l 2) (l 2)) (n 1 (l 0) (l 2))) (n 2 (n 1 (l 0) (l 3)) (n 1 (l 0) (n 1 (l 3)
  (l 3))))) (n 4 (n 2 (n 1 (l 0) (l 1)) (n 1 (l 0) (l 3))) (n 2 (n 1 (l 0) (l 1)) (n 1 (l 0) (n 1 (l 1) (l
  2))))))) (n 18 (n 9 (n 4 (n 2 (n 1 (l 3) (l 2)) (n 1 (l 1) (l 1))) (n 2 (n 1 (l 0) (l 1)) (n 1 (l 3) (n 1 (l 1)
  (l 1))))) (n 4 (n 2 (n 1 (l 1) (l 1)) (n 1 (l 1) (l 2))) (n 2 (n 1 (l 1) (l 1)) (n 1 (l 1) (n 1 (l 3) (l
  1)))))) (n 9 (n 4 (n 2 (n 1 (l 3) (l 4)) (n 1 (l 1) (l 1))) (n 2 (n 1 (l 1) (l 1)) (n 1 (l 1) (n 1 (l 1) (l
  1))))) (n 5 (n 2 (n 1 (l 1) (l 1)) (n 1 (l 1) (n 1 (l 1) (l 1)))) (n 2 (n 1 (l 1) (l 1)) (n 1 (l 1) (n 1 (l 1)
  (l 1)))))))) (n 36 (n 18 (n 9 (n 4 (n 2 (n 1 (l 1) (l 1)) (n 1 (l 1) (l 1))) (n 2 (n 1 (l 2) (l 1)) (n 1 (l 1)
  (n 1 (l 1) (l 1))))) (n 4 (n 2 (n 1 (l 1) (l 1)) (n 1 (l 1) (l 1))) (n 2 (n 1 (l 1) (l 4)) (n 1 (l 1) (n 1 (l
  3) (l 4)))))) (n 9 (n 4 (n 2 (n 1 (l 4) (l 1)) (n 1 (l 2) (l 1))) (n 2 (n 1 (l 1) (l 4)) (n 1 (l 1) (n 1 (l 4)
  (l 6))))) (n 4 (n 2 (n 1 (l 1) (l 1)) (n 1 (l 1) (l 3))) (n 2 (n 1 (l 1) (l 1)) (n 1 (l 1) (n 1 (l 1) (l
  1))))))) (n 18 (n 9 (n 4 (n 2 (n 1 (l 1) (l 2)) (n 1 (l 1) (l 1))) (n 2 (n 1 (l 1) (l 3)) (n 1 (l 5) (n 1 (l 3)
  (l 1))))) (n 4 (n 2 (n 1 (l 2) (l 2)) (n 1 (l 5) (l 1))) (n 2 (n 1 (l 3) (l 4)) (n 1 (l 4) (n 1 (l 2) (l
  1)))))) (n 9 (n 4 (n 2 (n 1 (l 3) (l 5)) (n 1 (l 4) (l 1))) (n 2 (n 1 (l 2) (l 2)) (n 1 (l 0) (n 1 (l 1) (l
  5))))) (n 5 (n 2 (n 1 (l 7) (l 1)) (n 1 (l 2) (n 1 (l 2) (l 0)))) (n 2 (n 1 (l 1) (l 3)) (n 1 (l 1) (n 1 (l 1)
  (l 4))))))))) (n 73 (n 36 (n 18 (n 9 (n 4 (n 2 (n 1 (l 0) (l 2)) (n 1 (l 1) (l 3))) (n 2 (n 1 (l 1) (l 2)) (n 1
  (l 3) (n 1 (l 3) (l 3))))) (n 4 (n 2 (n 1 (l 5) (l 4)) (n 1 (l 3) (l 3))) (n 2 (n 1 (l 1) (l 4)) (n 1 (l 4) (n
  1 (l 5) (l 1)))))) (n 9 (n 4 (n 2 (n 1 (l 3) (l 1)) (n 1 (l 2) (l 0))) (n 2 (n 1 (l 1) (l 3)) (n 1 (l 1) (n 1
  (l 4) (l 1))))) (n 4 (n 2 (n 1 (l 3) (l 2)) (n 1 (l 3) (l 3))) (n 2 (n 1 (l 4) (l 1)) (n 1 (l 1) (n 1 (l 1) (l
  1))))))) (n 18 (n 9 (n 4 (n 2 (n 1 (l 1) (l 0)) (n 1 (l 3) (l 3))) (n 2 (n 1 (l 2) (l 3)) (n 1 (l 4) (n 1 (l 1)
  (l 2))))) (n 4 (n 2 (n 1 (l 1) (l 1)) (n 1 (l 1) (l 1))) (n 2 (n 1 (l 1) (l 1)) (n 1 (l 4) (n 1 (l 1) (l
  1)))))) (n 9 (n 4 (n 2 (n 1 (l 1) (l 1)) (n 1 (l 1) (l 1))) (n 2 (n 1 (l 1) (l 1)) (n 1 (l 1) (n 1 (l 1) (l
  1))))) (n 5 (n 2 (n 1 (l 1) (l 1)) (n 1 (l 1) (n 1 (l 1) (l 1)))) (n 2 (n 1 (l 2) (l 1)) (n 1 (l 1) (n 1 (l 2)
  (l 1)))))))) (n 36 (n 18 (n 9 (n 4 (n 2 (n 1 (l 4) (l 4)) (n 1 (l 4) (l 4))) (n 2 (n 1 (l 4) (l 4)) (n 1 (l 4)
  (n 1 (l 4) (l 4))))) (n 4 (n 2 (n 1 (l 1) (l 1)) (n 1 (l 1) (l 3))) (n 2 (n 1 (l 5) (l 1)) (n 1 (l 1) (n 1 (l
  1) (l 2)))))) (n 9 (n 4 (n 2 (n 1 (l 1) (l 3)) (n 1 (l 1) (l 1))) (n 2 (n 1 (l 3) (l 1)) (n 1 (l 1) (n 1 (l 2)
  (l 1))))) (n 4 (n 2 (n 1 (l 2) (l 1)) (n 1 (l 1) (l 1))) (n 2 (n 1 (l 1) (l 1)) (n 1 (l 3) (n 1 (l 1) (l
  1))))))) (n 18 (n 9 (n 4 (n 2 (n 1 (l 1) (l 1)) (n 1 (l 1) (l 1))) (n 2 (n 1 (l 3) (l 1)) (n 1 (l 2) (n 1 (l 1)
  (l 2))))) (n 4 (n 2 (n 1 (l 1) (l 1)) (n 1 (l 1) (l 1))) (n 2 (n 1 (l 2) (l 1)) (n 1 (l 3) (n 1 (l 3) (l
  1)))))) (n 9 (n 4 (n 2 (n 1 (l 1) (l 1)) (n 1 (l 3) (l 5))) (n 2 (n 1 (l 1) (l 3)) (n 1 (l 2) (n 1 (l 2) (l
  1))))) (n 5 (n 2 (n 1 (l 0) (l 1)) (n 1 (l 1) (n 1 (l 1) (l 0)))) (n 2 (n 1 (l 2) (l 0)) (n 1 (l 1) (n 1 (l 1)
  (l 3))))))))))

/-- y.go:608-653 -/
def yyChk : Tab :=
  (n 216 (n 108 (n 54 (n 27 (n 13 (n 6 (n 3 (n 1 (l (-1000)) (n 1 (l (-121)) (l (-8)))) (n 1 (l (-3)) (n 1 (l 6)
  (l 119)))) (n 3 (n 1 (l (-13)) (n 1 (l 26) (l (-7)))) (n 2 (n 1 (l 64) (l 108)) (n 1 (l 63) (l (-11)))))) (n 7
  (n 3 (n 1 (l (-9)) (n 1 (l (-14)) (l (-10)))) (n 2 (n 1 (l (-12)) (l (-5))) (n 1 (l 8) (l 7)))) (n 3 (n 1 (l
  (-6)) (n 1 (l 72) (l 78))) (n 2 (n 1 (l 78) (l 78)) (n 1 (l 27) (l (-11))))))) (n 13 (n 6 (n 3 (n 1 (l 32) (n 1
  (l 15) (l 112))) (n 1 (l (-10)) (n 1 (l 67) (l 33)))) (n 3 (n 1 (l (-44)) (n 1 (l (-122)) (l 68))) (n 2 (n 1 (l
  52) (l (-95))) (n 1 (l 116) (l (-123)))))) (n 7 (n 3 (n 1 (l 55) (n 1 (l (-99)) (l (-100)))) (n 2 (n 1 (l
  (-101)) (l (-4))) (n 1 (l (-3)) (l (-45))))) (n 3 (n 1 (l 6) (n 1 (l 7) (l (-43)))) (n 2 (n 1 (l (-40)) (l
  (-42))) (n 1 (l (-41)) (l (-4)))))))) (n 27 (n 13 (n 6 (n 3 (n 1 (l (-45)) (n 1 (l 6) (l (-96)))) (n 1 (l
  (-97)) (n 1 (l (-98)) (l (-99))))) (n 3 (n 1 (l 42) (n 1 (l 42) (l 30))) (n 2 (n 1 (l (-40)) (l 15)) (n 1 (l
  (-20)) (l (-19)))))) (n 7 (n 3 (n 1 (l (-77)) (n 1 (l (-46)) (l (-92)))) (n 2 (n 1 (l (-18)) (l (-73))) (n 1 (l
  (-104)) (l (-22))))) (n 3 (n 1 (l (-17)) (n 1 (l (-21)) (l (-16)))) (n 2 (n 1 (l (-91)) (l (-33))) (n 1 (l
  (-78)) (l (-79))))))) (n 13 (n 6 (n 3 (n 1 (l (-80)) (n 1 (l (-81)) (l (-23)))) (n 1 (l (-86)) (n 1 (l (-76))
  (l (-90))))) (n 3 (n 1 (l (-47)) (n 1 (l 71) (l 79))) (n 2 (n 1 (l (-74)) (l (-75))) (n 1 (l 91) (l 56))))) (n
  7 (n 3 (n 1 (l 49) (n 1 (l 73) (l 81))) (n 2 (n 1 (l 89) (l 125)) (n 1 (l 54) (l 58)))) (n 3 (n 1 (l 127) (n 1
  (l (-87)) (l (-4)))) (n 2 (n 1 (l 88) (l 110)) (n 1 (l 75) (l 92)))))))) (n 54 (n 27 (n 13 (n 6 (n 3 (n 1 (l
  96) (n 1 (l 100) (l 57))) (n 1 (l 77) (n 1 (l 117) (l 82)))) (n 3 (n 1 (l 74) (n 1 (l 106) (l 114))) (n 2 (n 1
  (l 118) (l 122)) (n 1 (l 87) (l 34))))) (n 7 (n 3 (n 1 (l 42) (n 1 (l (-98)) (l 84))) (n 2 (n 1 (l (-100)) (l
  (-20))) (n 1 (l 15) (l (-48))))) (n 3 (n 1 (l 32) (n 1 (l 66) (l 26))) (n 2 (n 1 (l 26) (l 26)) (n 1 (l 104) (l
  66)))))) (n 13 (n 6 (n 3 (n 1 (l 26) (n 1 (l 93) (l (-48)))) (n 1 (l (-68)) (n 1 (l 62) (l 26)))) (n 3 (n 1 (l
  93) (n 1 (l (-48)) (l (-68)))) (n 2 (n 1 (l 128) (l (-20))) (n 1 (l 108) (l 64))))) (n 7 (n 3 (n 1 (l 66) (n 1
  (l (-89)) (l 102))) (n 2 (n 1 (l 59) (l 121)) (n 1 (l (-103)) (l (-3))))) (n 3 (n 1 (l (-31)) (n 1 (l (-30)) (l
  (-35)))) (n 2 (n 1 (l (-32)) (l (-29))) (n 1 (l (-34)) (l 86))))))) (n 27 (n 13 (n 6 (n 3 (n 1 (l 80) (n 1 (l
  (-38)) (l (-5)))) (n 1 (l 26) (n 1 (l (-36)) (l (-37))))) (n 3 (n 1 (l 8) (n 1 (l 36) (l (-1)))) (n 2 (n 1 (l
  109) (l 69)) (n 1 (l (-49)) (l (-50)))))) (n 7 (n 3 (n 1 (l (-51)) (n 1 (l (-52)) (l (-54)))) (n 2 (n 1 (l
  (-55)) (l 55)) (n 1 (l (-57)) (l (-56))))) (n 3 (n 1 (l (-59)) (n 1 (l (-58)) (l (-61)))) (n 2 (n 1 (l (-62))
  (l (-65))) (n 1 (l 32) (l (-63))))))) (n 13 (n 6 (n 3 (n 1 (l (-64)) (n 1 (l (-68)) (l (-66)))) (n 1 (l (-67))
  (n 1 (l (-31)) (l (-69))))) (n 3 (n 1 (l (-20)) (n 1 (l 126) (l (-71)))) (n 2 (n 1 (l 65) (l 26)) (n 1 (l
  (-105)) (l (-106)))))) (n 7 (n 3 (n 1 (l (-125)) (n 1 (l (-24)) (l 17))) (n 2 (n 1 (l (-5)) (l (-116))) (n 1 (l
  (-118)) (l (-117))))) (n 3 (n 1 (l (-120)) (n 1 (l (-114)) (l (-5)))) (n 2 (n 1 (l (-115)) (l (-114))) (n 1 (l
  (-5)) (l 27))))))))) (n 108 (n 54 (n 27 (n 13 (n 6 (n 3 (n 1 (l (-125)) (n 1 (l (-85)) (l (-83)))) (n 1 (l
  (-82)) (n 1 (l (-24)) (l 103)))) (n 3 (n 1 (l (-20)) (n 1 (l (-24)) (l 93))) (n 2 (n 1 (l 93) (l (-48))) (n 1
  (l 27) (l (-125)))))) (n 7 (n 3 (n 1 (l (-85)) (n 1 (l (-20)) (l (-24)))) (n 2 (n 1 (l 93) (l 93)) (n 1 (l 83)
  (l (-20))))) (n 3 (n 1 (l (-20)) (n 1 (l (-88)) (l (-39)))) (n 2 (n 1 (l (-15)) (l 8)) (n 1 (l (-3)) (l
  (-45))))))) (n 13 (n 6 (n 3 (n 1 (l (-102)) (n 1 (l (-29)) (l (-15)))) (n 1 (l (-28)) (n 1 (l (-15)) (l
  (-27))))) (n 3 (n 1 (l (-14)) (n 1 (l (-25)) (l (-26)))) (n 2 (n 1 (l 7) (l (-5))) (n 1 (l 8) (l 31))))) (n 7
  (n 3 (n 1 (l 25) (n 1 (l 8) (l (-1)))) (n 2 (n 1 (l (-124)) (l 45)) (n 1 (l 30) (l (-60))))) (n 3 (n 1 (l 60)
  (n 1 (l (-131)) (l 44))) (n 2 (n 1 (l 94) (l (-132))) (n 1 (l 46) (l 53))))))) (n 27 (n 13 (n 6 (n 3 (n 1 (l
  (-60)) (n 1 (l (-54)) (l 16))) (n 1 (l 99) (n 1 (l 103) (l 28)))) (n 3 (n 1 (l (-93)) (n 1 (l (-94)) (l (-5))))
  (n 2 (n 1 (l 27) (l 30)) (n 1 (l (-109)) (l 30))))) (n 7 (n 3 (n 1 (l (-124)) (n 1 (l (-20)) (l 27))) (n 2 (n 1
  (l 30) (l 30)) (n 1 (l 32) (l 27)))) (n 3 (n 1 (l 30) (n 1 (l (-126)) (l 30))) (n 2 (n 1 (l 27) (l 30)) (n 1 (l
  97) (l 115)))))) (n 13 (n 6 (n 3 (n 1 (l 93) (n 1 (l (-20)) (l (-24)))) (n 1 (l (-20)) (n 1 (l (-24)) (l
  (-126))))) (n 3 (n 1 (l 27) (n 1 (l (-20)) (l (-24)))) (n 2 (n 1 (l (-20)) (l (-24))) (n 1 (l (-5)) (l 35)))))
  (n 7 (n 3 (n 1 (l 31) (n 1 (l 27) (l (-28)))) (n 2 (n 1 (l (-15)) (l (-28))) (n 1 (l 32) (l 8)))) (n 3 (n 1 (l
  (-2)) (n 1 (l 8) (l 36))) (n 2 (n 1 (l 33) (l (-142))) (n 1 (l (-38)) (l (-15))))))))) (n 54 (n 27 (n 13 (n 6
  (n 3 (n 1 (l (-20)) (n 1 (l 8) (l 36))) (n 1 (l 17) (n 1 (l (-61)) (l (-57))))) (n 3 (n 1 (l (-59)) (n 1 (l 33)
  (l (-70)))) (n 2 (n 1 (l (-72)) (l 28)) (n 1 (l (-31)) (l 61))))) (n 7 (n 3 (n 1 (l (-133)) (n 1 (l (-48)) (l
  (-134)))) (n 2 (n 1 (l (-135)) (l (-136))) (n 1 (l 26) (l 27)))) (n 3 (n 1 (l 30) (n 1 (l 32) (l (-125)))) (n 2
  (n 1 (l (-24)) (l (-126))) (n 1 (l (-110)) (l (-108))))))) (n 13 (n 6 (n 3 (n 1 (l (-24)) (n 1 (l 17) (l
  (-117)))) (n 1 (l (-38)) (n 1 (l (-15)) (l (-114))))) (n 3 (n 1 (l 27) (n 1 (l 17) (l (-125)))) (n 2 (n 1 (l
  (-82)) (l (-31))) (n 1 (l (-20)) (l 27))))) (n 7 (n 3 (n 1 (l (-45)) (n 1 (l 27) (l (-25)))) (n 2 (n 1 (l
  (-15)) (l 25)) (n 1 (l 8) (l 37)))) (n 3 (n 1 (l 8) (n 1 (l 30) (l (-72)))) (n 2 (n 1 (l (-137)) (l 17)) (n 1
  (l (-138)) (l (-5)))))))) (n 27 (n 13 (n 6 (n 3 (n 1 (l (-94)) (n 1 (l (-39)) (l (-15)))) (n 1 (l (-109)) (n 1
  (l 30) (l (-124))))) (n 3 (n 1 (l 33) (n 1 (l 33) (l (-111)))) (n 2 (n 1 (l 30) (l 33)) (n 1 (l (-2)) (l
  (-31)))))) (n 7 (n 3 (n 1 (l (-53)) (n 1 (l (-54)) (l 27))) (n 2 (n 1 (l 30) (l 30)) (n 1 (l (-139)) (l
  (-140))))) (n 3 (n 1 (l (-48)) (n 1 (l 33) (l 33))) (n 2 (n 1 (l (-126)) (l (-108))) (n 1 (l 30) (l
  (-126))))))) (n 13 (n 6 (n 3 (n 1 (l (-127)) (n 1 (l 30) (l (-112)))) (n 1 (l (-113)) (n 1 (l (-82)) (l
  (-128))))) (n 3 (n 1 (l 18) (n 1 (l (-137)) (l (-137)))) (n 2 (n 1 (l (-141)) (l 113)) (n 1 (l 47) (l 97)))))
  (n 7 (n 3 (n 1 (l (-119)) (n 1 (l (-117)) (l 30))) (n 2 (n 1 (l 17) (l 30)) (n 1 (l (-129)) (l 8)))) (n 3 (n 1
  (l 27) (n 1 (l (-83)) (l (-113)))) (n 2 (n 1 (l (-83)) (l 37)) (n 1 (l 30) (l 19))))))))))

/-- y.go:655-700 -/
def yyDef : Tab :=
  (n 216 (n 108 (n 54 (n 27 (n 13 (n 6 (n 3 (n 1 (l 0) (n 1 (l (-2)) (l 0))) (n 1 (l 9) (n 1 (l 3) (l 20)))) (n 3
  (n 1 (l 7) (n 1 (l 0) (l 22))) (n 2 (n 1 (l 0) (l 0)) (n 1 (l 0) (l 0))))) (n 7 (n 3 (n 1 (l 10) (n 1 (l 12) (l
  13))) (n 2 (n 1 (l 14) (l 198)) (n 1 (l 15) (l 6)))) (n 3 (n 1 (l 0) (n 1 (l 0) (l 17))) (n 2 (n 1 (l 18) (l
  19)) (n 1 (l 8) (l 11)))))) (n 13 (n 6 (n 3 (n 1 (l 0) (n 1 (l 0) (l 21))) (n 1 (l 0) (n 1 (l (-2)) (l 16))))
  (n 3 (n 1 (l 0) (n 1 (l 31) (l 29))) (n 2 (n 1 (l 1) (l 0)) (n 1 (l 33) (l 0))))) (n 7 (n 3 (n 1 (l 0) (n 1 (l
  28) (l 41))) (n 2 (n 1 (l 43) (l 44)) (n 1 (l 45) (l 46)))) (n 3 (n 1 (l (-2)) (n 1 (l 4) (l 23))) (n 2 (n 1 (l
  47) (l 49)) (n 1 (l 50) (l 0))))))) (n 27 (n 13 (n 6 (n 3 (n 1 (l 0) (n 1 (l 2) (l 0))) (n 1 (l 32) (n 1 (l 34)
  (l 0)))) (n 3 (n 1 (l 25) (n 1 (l 26) (l 0))) (n 2 (n 1 (l 48) (l 0)) (n 1 (l 0) (l 56))))) (n 7 (n 3 (n 1 (l
  57) (n 1 (l 58) (l 59))) (n 2 (n 1 (l 60) (l 61)) (n 1 (l 62) (l 63)))) (n 3 (n 1 (l 64) (n 1 (l 65) (l 66)))
  (n 2 (n 1 (l 67) (l 68)) (n 1 (l 69) (l 70)))))) (n 13 (n 6 (n 3 (n 1 (l 71) (n 1 (l 72) (l 73))) (n 1 (l 74)
  (n 1 (l 75) (l 76)))) (n 3 (n 1 (l 218) (n 1 (l 0) (l 83))) (n 2 (n 1 (l 199) (l 200)) (n 1 (l 0) (l 0))))) (n
  7 (n 3 (n 1 (l 86) (n 1 (l 126) (l 0))) (n 2 (n 1 (l 0) (l 106)) (n 1 (l 0) (l 0)))) (n 3 (n 1 (l 159) (n 1 (l
  0) (l 51))) (n 2 (n 1 (l 215) (l 216)) (n 1 (l 201) (l 202)))))))) (n 54 (n 27 (n 13 (n 6 (n 3 (n 1 (l 203) (n
  1 (l 204) (l 205))) (n 1 (l 206) (n 1 (l 207) (l 208)))) (n 3 (n 1 (l 209) (n 1 (l 210) (l 211))) (n 2 (n 1 (l
  212) (l 213)) (n 1 (l 0) (l 183))))) (n 7 (n 3 (n 1 (l 30) (n 1 (l 35) (l 0))) (n 2 (n 1 (l 42) (l 54)) (n 1 (l
  0) (l 217)))) (n 3 (n 1 (l 0) (n 1 (l 119) (l 0))) (n 2 (n 1 (l 0) (l 0)) (n 1 (l 186) (l 125)))))) (n 13 (n 6
  (n 3 (n 1 (l 0) (n 1 (l 0) (l 0))) (n 1 (l 0) (n 1 (l 0) (l 0)))) (n 3 (n 1 (l 0) (n 1 (l 0) (l 0))) (n 2 (n 1
  (l 0) (l 174)) (n 1 (l 0) (l 0))))) (n 7 (n 3 (n 1 (l 214) (n 1 (l 0) (l 180))) (n 2 (n 1 (l 181) (l 182)) (n 1
  (l 36) (l 40)))) (n 3 (n 1 (l 55) (n 1 (l 78) (l 79))) (n 2 (n 1 (l 80) (l 81)) (n 1 (l 82) (l 84))))))) (n 27
  (n 13 (n 6 (n 3 (n 1 (l 85) (n 1 (l 94) (l 95))) (n 1 (l 0) (n 1 (l 107) (l 108)))) (n 3 (n 1 (l 92) (n 1 (l 0)
  (l 109))) (n 2 (n 1 (l 111) (l 112)) (n 1 (l 288) (l 228))))) (n 7 (n 3 (n 1 (l 229) (n 1 (l 230) (l 233))) (n
  2 (n 1 (l (-2)) (l 0)) (n 1 (l (-2)) (l 0)))) (n 3 (n 1 (l 240) (n 1 (l 0) (l (-2)))) (n 2 (n 1 (l 0) (l 251))
  (n 1 (l 0) (l 253)))))) (n 13 (n 6 (n 3 (n 1 (l 254) (n 1 (l 255) (l 256))) (n 1 (l 257) (n 1 (l (-2)) (l 0))))
  (n 3 (n 1 (l 269) (n 1 (l 0) (l 260))) (n 2 (n 1 (l 265) (l 0)) (n 1 (l 0) (l 163))))) (n 7 (n 3 (n 1 (l 167)
  (n 1 (l 172) (l 130))) (n 2 (n 1 (l 0) (l 0)) (n 1 (l 97) (l 100)))) (n 3 (n 1 (l 102) (n 1 (l 104) (l 105)))
  (n 2 (n 1 (l 0) (l 88)) (n 1 (l 0) (l 127))))))))) (n 108 (n 54 (n 27 (n 13 (n 6 (n 3 (n 1 (l 133) (n 1 (l 0)
  (l 134))) (n 1 (l 148) (n 1 (l 150) (l 0)))) (n 3 (n 1 (l 184) (n 1 (l 185) (l 0))) (n 2 (n 1 (l 0) (l 268)) (n
  1 (l 154) (l 133))))) (n 7 (n 3 (n 1 (l 0) (n 1 (l 157) (l 158))) (n 2 (n 1 (l 0) (l 0)) (n 1 (l 0) (l 175))))
  (n 3 (n 1 (l 176) (n 1 (l 0) (l 178))) (n 2 (n 1 (l 179) (l 5)) (n 1 (l 0) (l 53)))))) (n 13 (n 6 (n 3 (n 1 (l
  37) (n 1 (l 38) (l 39))) (n 1 (l 0) (n 1 (l 194) (l 189)))) (n 3 (n 1 (l 191) (n 1 (l 192) (l 193))) (n 2 (n 1
  (l (-2)) (l 198)) (n 1 (l 195) (l 0))))) (n 7 (n 3 (n 1 (l 0) (n 1 (l 93) (l 110))) (n 2 (n 1 (l 0) (l 0)) (n 1
  (l 0) (l 236)))) (n 3 (n 1 (l 0) (n 1 (l 0) (l 247))) (n 2 (n 1 (l 248) (l 0)) (n 1 (l 249) (l 250))))))) (n 27
  (n 13 (n 6 (n 3 (n 1 (l 244) (n 1 (l 0) (l 0))) (n 1 (l 0) (n 1 (l 0) (l 261)))) (n 3 (n 1 (l 0) (n 1 (l 121)
  (l 0))) (n 2 (n 1 (l 161) (l 0)) (n 1 (l 133) (l 0))))) (n 7 (n 3 (n 1 (l 131) (n 1 (l 77) (l 96))) (n 2 (n 1
  (l 0) (l 0)) (n 1 (l 0) (l 87)))) (n 3 (n 1 (l 0) (n 1 (l 0) (l 0))) (n 2 (n 1 (l 129) (l 0)) (n 1 (l 151) (l
  0)))))) (n 13 (n 6 (n 3 (n 1 (l 0) (n 1 (l 221) (l 225))) (n 1 (l 222) (n 1 (l 226) (l 0)))) (n 3 (n 1 (l 156)
  (n 1 (l 219) (l 223))) (n 2 (n 1 (l 220) (l 224)) (n 1 (l 160) (l 177))))) (n 7 (n 3 (n 1 (l 0) (n 1 (l 187) (l
  0))) (n 2 (n 1 (l 194) (l 190)) (n 1 (l 0) (l 114)))) (n 3 (n 1 (l 116) (n 1 (l 117) (l 0))) (n 2 (n 1 (l 227)
  (l 287)) (n 1 (l 289) (l 290)))))))) (n 54 (n 27 (n 13 (n 6 (n 3 (n 1 (l 0) (n 1 (l 92) (l 0))) (n 1 (l 231) (n
  1 (l 246) (l (-2))))) (n 3 (n 1 (l 241) (n 1 (l 252) (l 259))) (n 2 (n 1 (l 262) (l 0)) (n 1 (l 266) (l
  267))))) (n 7 (n 3 (n 1 (l 270) (n 1 (l 272) (l 271))) (n 2 (n 1 (l 273) (l 274)) (n 1 (l 0) (l 120)))) (n 3 (n
  1 (l 0) (n 1 (l 0) (l 167))) (n 2 (n 1 (l 173) (l 164)) (n 1 (l 166) (l 168)))))) (n 13 (n 6 (n 3 (n 1 (l 170)
  (n 1 (l 288) (l 103))) (n 1 (l 0) (n 1 (l 0) (l 89)))) (n 3 (n 1 (l 128) (n 1 (l 132) (l 140))) (n 2 (n 1 (l
  149) (l 152)) (n 1 (l 153) (l 155))))) (n 7 (n 3 (n 1 (l 52) (n 1 (l 188) (l 0))) (n 2 (n 1 (l 196) (l 0)) (n 1
  (l 118) (l 0)))) (n 3 (n 1 (l 93) (n 1 (l 0) (l 263))) (n 2 (n 1 (l 0) (l 0)) (n 1 (l 277) (l 282))))))) (n 27
  (n 13 (n 6 (n 3 (n 1 (l 122) (n 1 (l 0) (l 0))) (n 1 (l 133) (n 1 (l 0) (l 98)))) (n 3 (n 1 (l 90) (n 1 (l 91)
  (l 133))) (n 2 (n 1 (l 0) (l 197)) (n 1 (l 115) (l 291))))) (n 7 (n 3 (n 1 (l 232) (n 1 (l 234) (l 275))) (n 2
  (n 1 (l 0) (l 0)) (n 1 (l 279) (l 286)))) (n 3 (n 1 (l 281) (n 1 (l 123) (l 124))) (n 2 (n 1 (l 162) (l 169))
  (n 1 (l 0) (l 135)))))) (n 13 (n 6 (n 3 (n 1 (l 0) (n 1 (l 0) (l 139))) (n 1 (l 141) (n 1 (l 143) (l 144)))) (n
  3 (n 1 (l 146) (n 1 (l 0) (l 278))) (n 2 (n 1 (l 280) (l 283)) (n 1 (l 284) (l 285))))) (n 7 (n 3 (n 1 (l 99)
  (n 1 (l 101) (l 0))) (n 2 (n 1 (l (-2)) (l 0)) (n 1 (l 0) (l 0)))) (n 3 (n 1 (l 276) (n 1 (l 136) (l 142))) (n
  2 (n 1 (l 0) (l 147)) (n 1 (l 0) (l 145))))))))))

/-- y.go:702-704 -/
def yyTok1 : Tab :=
  (l 1)

/-- y.go:706-720 -/
def yyTok2 : Tab :=
  (n 63 (n 31 (n 15 (n 7 (n 3 (n 1 (l 2) (n 1 (l 3) (l 4))) (n 2 (n 1 (l 5) (l 6)) (n 1 (l 7) (l 8)))) (n 4 (n 2
  (n 1 (l 9) (l 10)) (n 1 (l 11) (l 12))) (n 2 (n 1 (l 13) (l 14)) (n 1 (l 15) (l 16))))) (n 8 (n 4 (n 2 (n 1 (l
  17) (l 18)) (n 1 (l 19) (l 20))) (n 2 (n 1 (l 21) (l 22)) (n 1 (l 23) (l 24)))) (n 4 (n 2 (n 1 (l 25) (l 26))
  (n 1 (l 27) (l 28))) (n 2 (n 1 (l 29) (l 30)) (n 1 (l 31) (l 32)))))) (n 16 (n 8 (n 4 (n 2 (n 1 (l 33) (l 34))
  (n 1 (l 35) (l 36))) (n 2 (n 1 (l 37) (l 38)) (n 1 (l 39) (l 40)))) (n 4 (n 2 (n 1 (l 41) (l 42)) (n 1 (l 43)
  (l 44))) (n 2 (n 1 (l 45) (l 46)) (n 1 (l 47) (l 48))))) (n 8 (n 4 (n 2 (n 1 (l 49) (l 50)) (n 1 (l 51) (l
  52))) (n 2 (n 1 (l 53) (l 54)) (n 1 (l 55) (l 56)))) (n 4 (n 2 (n 1 (l 57) (l 58)) (n 1 (l 59) (l 60))) (n 2 (n
  1 (l 61) (l 62)) (n 1 (l 63) (l 64))))))) (n 32 (n 16 (n 8 (n 4 (n 2 (n 1 (l 65) (l 66)) (n 1 (l 67) (l 68)))
  (n 2 (n 1 (l 69) (l 70)) (n 1 (l 71) (l 72)))) (n 4 (n 2 (n 1 (l 73) (l 74)) (n 1 (l 75) (l 76))) (n 2 (n 1 (l
  77) (l 78)) (n 1 (l 79) (l 80))))) (n 8 (n 4 (n 2 (n 1 (l 81) (l 82)) (n 1 (l 83) (l 84))) (n 2 (n 1 (l 85) (l
  86)) (n 1 (l 87) (l 88)))) (n 4 (n 2 (n 1 (l 89) (l 90)) (n 1 (l 91) (l 92))) (n 2 (n 1 (l 93) (l 94)) (n 1 (l
  95) (l 96)))))) (n 16 (n 8 (n 4 (n 2 (n 1 (l 97) (l 98)) (n 1 (l 99) (l 100))) (n 2 (n 1 (l 101) (l 102)) (n 1
  (l 103) (l 104)))) (n 4 (n 2 (n 1 (l 105) (l 106)) (n 1 (l 107) (l 108))) (n 2 (n 1 (l 109) (l 110)) (n 1 (l
  111) (l 112))))) (n 8 (n 4 (n 2 (n 1 (l 113) (l 114)) (n 1 (l 115) (l 116))) (n 2 (n 1 (l 117) (l 118)) (n 1 (l
  119) (l 120)))) (n 4 (n 2 (n 1 (l 121) (l 122)) (n 1 (l 123) (l 124))) (n 2 (n 1 (l 125) (l 126)) (n 1 (l 127)
  (l 128))))))))

/-- y.go:722-724 -/
def yyTok3 : Tab :=
  (l 0)

end Tab

/-- y.go:765 -/
abbrev yyFlag : Int := -1000
/-- y.go:380 -/
abbrev yyLast : Int := 912
/-- y.go:335 -/
abbrev yyErrCode : Int := 2
/-- y.go:334 -/
abbrev yyEofCode : Int := 1
/-- y.go:378 -/
abbrev yyPrivate : Int := 57344
/-- y.go:336 -/
abbrev yyInitialStackSize : Nat := 16

end Asn1go
