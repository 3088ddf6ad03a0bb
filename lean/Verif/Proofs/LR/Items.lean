import Verif.Proofs.LR.Cert
import Verif.Spec.Preferred

/-! Generated by /verif/tools/gen_items.py: for every state the items (rule, place, dot) it stands for and the tokens
that may follow, as bit masks.  Nothing here is trusted, all uses are checked in `Complete.lean`. -/

namespace Asn1go.LR

open Tri Spec

/-- An item: a rule, the place of its node, how many symbols were read, and the tokens that may follow the node. -/
structure Item where
  rule : Nat
  place : Place
  dot : Nat
  mask : Nat

/-- Rules of a nonterminal. -/
def rulesOfT : Tri (List Nat) :=
  (n 71 (n 35 (n 17 (n 8 (n 4 (n 2 (n 1 (l []) (l [113,114,115,116])) (n 1 (l [117,118]) (l [3]))) (n 2 (n 1 (l [2])
  (l [6])) (n 1 (l [21,22]) (l [17,18,19,20])))) (n 4 (n 2 (n 1 (l [7]) (l [12,13,14])) (n 1 (l [15]) (l [10,11]))) (n
  2 (n 1 (l [16]) (l [8,9])) (n 1 (l [198]) (n 1 (l [52,53]) (l [186])))))) (n 9 (n 4 (n 2 (n 1 (l [86,87]) (l [83]))
  (n 1 (l [59,60,61,62,63,64,65,66,67,68,69,70,71,72,73,74]) (l [56,57,58]))) (n 2 (n 1 (l [126]) (l [96])) (n 1 (l
  [159,160]) (n 1 (l [77]) (l [195,196]))))) (n 4 (n 2 (n 1 (l [197]) (l [191,192,193,194])) (n 1 (l [189,190]) (l
  [187,188]))) (n 2 (n 1 (l [79,80,81,82]) (l [78])) (n 1 (l [94,95]) (n 1 (l [106]) (l [107,108]))))))) (n 18 (n 9 (n
  4 (n 2 (n 1 (l [84,85]) (l [109,110])) (n 1 (l [111,112]) (l [92,93]))) (n 2 (n 1 (l [5]) (l [49,50])) (n 1 (l [55])
  (n 1 (l [54]) (l [47,48]))))) (n 4 (n 2 (n 1 (l [23,24]) (l [4])) (n 1 (l [217,218]) (l
  [219,220,221,222,223,224,225,226]))) (n 2 (n 1 (l [227]) (l [228])) (n 1 (l [229]) (n 1 (l [230,231,232]) (l
  [233])))))) (n 9 (n 4 (n 2 (n 1 (l [234]) (l [235,236])) (n 1 (l [237,238]) (l [239]))) (n 2 (n 1 (l [240,241]) (l
  [242])) (n 1 (l [243,244]) (n 1 (l [246]) (l [251,252]))))) (n 4 (n 2 (n 1 (l [245]) (l [258])) (n 1 (l [259]) (l
  [253,254,255,256,257]))) (n 2 (n 1 (l [269]) (l [270,271])) (n 1 (l [268]) (n 1 (l [260,261]) (l [262,263]))))))))
  (n 36 (n 18 (n 9 (n 4 (n 2 (n 1 (l [264,265]) (l [266,267])) (n 1 (l [199,200]) (l
  [201,202,203,204,205,206,207,208,209,210,211,212,213]))) (n 2 (n 1 (l [214]) (l [51])) (n 1 (l [75,76]) (n 1 (l
  [127,128,129]) (l [184,185]))))) (n 4 (n 2 (n 1 (l [154,155,156]) (l [157,158])) (n 1 (l [150,151,152,153]) (l
  [148,149]))) (n 2 (n 1 (l [137]) (l [134,135,136])) (n 1 (l [174,175,176]) (n 1 (l [177]) (l [178,179])))))) (n 9 (n
  4 (n 2 (n 1 (l [180,181,182,183]) (l [215,216])) (n 1 (l [125]) (l [119,120]))) (n 2 (n 1 (l [121,122]) (l
  [123,124])) (n 1 (l [30,31]) (n 1 (l [32,33]) (l [34,35]))))) (n 4 (n 2 (n 1 (l [36]) (l [41,42])) (n 1 (l [43]) (l
  [44,45,46]))) (n 2 (n 1 (l [38,39,40]) (l [37])) (n 1 (l [161]) (n 1 (l [162,163,164]) (l [172,173]))))))) (n 18 (n
  9 (n 4 (n 2 (n 1 (l [165]) (l [170])) (n 1 (l [166,167]) (l [168,169]))) (n 2 (n 1 (l [139,140]) (l [141,142])) (n 1
  (l [143,144]) (n 1 (l [90,91]) (l [88,89]))))) (n 4 (n 2 (n 1 (l [97,98,99]) (l [102,103])) (n 1 (l [100]) (l
  [101]))) (n 2 (n 1 (l [104,105]) (l [1])) (n 1 (l [25,26,27]) (n 1 (l [28,29]) (l [287,288])))))) (n 9 (n 4 (n 2 (n
  1 (l [130,131]) (l [132,133])) (n 1 (l [138]) (l [145]))) (n 2 (n 1 (l [146,147]) (l [171])) (n 1 (l [247,248]) (n 1
  (l [249,250]) (l [272]))))) (n 4 (n 2 (n 1 (l [273,274]) (l [275])) (n 1 (l [276]) (l [277,278]))) (n 2 (n 1 (l
  [279]) (l [280])) (n 1 (l [281,282]) (n 1 (l [283,284,285,286]) (l [289,290,291])))))))))

/-- Tokens a nonterminal can start with; bit 0 is set when it can be empty. -/
def firstT : Tri Nat :=
  (n 71 (n 35 (n 17 (n 8 (n 4 (n 2 (n 1 (l 0) (l 256)) (n 1 (l 68719476992) (l 64))) (n 2 (n 1 (l 64) (l 128)) (n 1 (l
  4722366482869645213697) (l 324518553658454396899266584903681)))) (n 4 (n 2 (n 1 (l 64) (l 384)) (n 1 (l 256) (l
  384))) (n 2 (n 1 (l 128) (l 67108865)) (n 1 (l 128) (n 1 (l 192) (l 2417851639229258349412352)))))) (n 9 (n 4 (n 2
  (n 1 (l 562949953421312) (l 604462909807314587353088)) (n 1 (l 218512703479306293636910415771403812864) (l
  218514001553830412353638893464210899008))) (n 2 (n 1 (l 9444732965739290427392) (l 72057594037927936)) (n 1 (l
  170141183460469231731687303715884105728) (n 1 (l 128) (l 448))))) (n 4 (n 2 (n 1 (l 128) (l 448)) (n 1 (l 448) (l
  67108864))) (n 2 (n 1 (l 649037185897622024327635889291648) (l 649037185897622024327635889291648)) (n 1 (l
  68719477120) (n 1 (l 42535295865117307932921825928971026432) (l 649037107317443749376739466281216))))))) (n 18 (n 9
  (n 4 (n 2 (n 1 (l 78580178274950896355901440) (l 68719476992)) (n 1 (l 649037107317443749376670746804224) (l
  68719476992))) (n 2 (n 1 (l 256) (l 192)) (n 1 (l 128) (n 1 (l 64) (l 192))))) (n 4 (n 2 (n 1 (l
  83076749736557537204393120620347585) (l 128)) (n 1 (l 218514001553830412353638893464210899008) (l
  306244774661193728))) (n 2 (n 1 (l 4294967296) (l 303585242321250925883048075925202665920)) (n 1 (l
  303585242321250925883048075925202665920) (n 1 (l 303585242321250925883048075925202665920) (l
  303585242321250925883048075925202665920)))))) (n 9 (n 4 (n 2 (n 1 (l 303585242321250925883048075925202665920) (l
  303585242321250925883048075925202665920)) (n 1 (l 303585242321250925883012047128183701952) (l
  303585242321250925883012047128183701952))) (n 2 (n 1 (l 303585242321250925883012047128183701952) (l
  303585242321250925883012047128183701952)) (n 1 (l 303585242321250925883012047128183701952) (n 1 (l
  1152921504606846976) (l 303585242321250925883012047128183701952))))) (n 4 (n 2 (n 1 (l
  303585242321250925883012047128183701952) (l 649037185897622024327635889291648)) (n 1 (l
  649037185897658917815783308394880) (l 303585242321250925883012047123888734656))) (n 2 (n 1 (l
  218514001553830412353638893464210899008) (l 85070591730234615865843651857942052864)) (n 1 (l 4611686018427387904) (n
  1 (l 649037185897658917815783308394880) (l 649037185897624330170645371421056)))))))) (n 36 (n 18 (n 9 (n 4 (n 2 (n 1
  (l 649037185897658917815783308394880) (l 649037185897624330170645102985600)) (n 1 (l
  5836224150621869753243726356418658304) (l 5836224150467127248333053822056267776))) (n 2 (n 1 (l
  154742504910672534362390528) (l 64)) (n 1 (l 1298074524118716728477692807086144) (n 1 (l 18014398509481984) (l
  18014398509481984))))) (n 4 (n 2 (n 1 (l 288230376151711744) (l 288230376151711744)) (n 1 (l
  10141204801825835211973625643136) (l 10141204801825835211973625643136))) (n 2 (n 1 (l
  10141204801825835211973625643136) (l 10141204801825835211973625643136)) (n 1 (l 17179869184) (n 1 (l 17179869184) (l
  448)))))) (n 9 (n 4 (n 2 (n 1 (l 2658461062172232659301680859676934145) (l 1298074524118716728477692807086080)) (n 1
  (l 618970019642690137449562112) (l 2361183241434822606848))) (n 2 (n 1 (l 128) (l 128)) (n 1 (l
  83076749736557242056487941267521537) (n 1 (l 193) (l 192))))) (n 4 (n 2 (n 1 (l 192) (l 192)) (n 1 (l 192) (l 192)))
  (n 2 (n 1 (l 67109057) (l 64)) (n 1 (l 2475880078570760549798248448) (n 1 (l 131200) (l 128))))))) (n 18 (n 9 (n 4
  (n 2 (n 1 (l 128) (l 128)) (n 1 (l 1073741825) (l 128))) (n 2 (n 1 (l 1073741825) (l
  10141204801825835211973625905280)) (n 1 (l 10141204801825835211973625905280) (n 1 (l 128) (l 128))))) (n 4 (n 2 (n 1
  (l 128) (l 128)) (n 1 (l 128) (l 128))) (n 2 (n 1 (l 128) (l 64)) (n 1 (l 295147905179352825857) (n 1 (l 193) (l
  35184372088833)))))) (n 9 (n 4 (n 2 (n 1 (l 131072) (l 1073741825)) (n 1 (l 1073741824) (l 262144))) (n 2 (n 1 (l
  257) (l 262144)) (n 1 (l 19807040628566101990572032000) (n 1 (l 9077567998918656) (l 4294967296))))) (n 4 (n 2 (n 1
  (l 67108864) (l 67108864)) (n 1 (l 67108864) (l 128))) (n 2 (n 1 (l 128) (l 10384752173394683785876921529663489)) (n
  1 (l 4294967297) (n 1 (l 10384752173394683785876917234696193) (l 218514001553830412353638893532930376128)))))))))

private abbrev o := Place.other
private abbrev ol := Place.oidList
private abbrev oh := Place.oidHead
private abbrev nf := Place.numberForm
private abbrev ex := Place.exception

/-- Items of the states. -/
def itemsT : Tri (List Item) :=
  (n 216 (n 108 (n 54 (n 27 (n 13 (n 6 (n 3 (n 1 (l [.mk 1 o 0 2, .mk 3 o 0 664613997892457936451903530207281152, .mk
  7 o 0 664613997892457936451903530140172288]) (n 1 (l []) (l [.mk 1 o 1 2]))) (n 1 (l [.mk 7 o 1
  664613997892457936451903530140172288, .mk 8 o 0 664613997892457936451903530140172288, .mk 9 o 0
  664613997892457936451903530140172288]) (n 1 (l [.mk 3 o 1 664613997892457936451907930401276096]) (l [.mk 1 o 2 2,
  .mk 17 o 0 4722366482869645246464, .mk 18 o 0 4722366482869645246464, .mk 19 o 0 4722366482869645246464, .mk 20 o 0
  4722366482869645246464])))) (n 3 (n 1 (l [.mk 7 o 2 664613997892457936451903530140172288]) (n 1 (l [.mk 6 o 0
  4429185408, .mk 8 o 1 664613997892457936451903530140172288, .mk 10 o 0 134217728, .mk 11 o 0 134217728, .mk 12 o 0
  134218112, .mk 13 o 0 134218112, .mk 14 o 0 134218112, .mk 15 o 0 134218112, .mk 16 o 0 134218112, .mk 198 o 0
  134218112]) (l [.mk 1 o 3 2, .mk 21 o 0 32768, .mk 22 o 0 32768]))) (n 2 (n 1 (l [.mk 17 o 1
  4722366482869645246464]) (l [.mk 18 o 1 4722366482869645246464])) (n 1 (l [.mk 19 o 1 4722366482869645246464]) (l
  [.mk 8 o 2 664613997892457936451903530140172288]))))) (n 7 (n 3 (n 1 (l [.mk 6 o 0 4429185408, .mk 10 o 0 134217728,
  .mk 10 o 1 134217728, .mk 11 o 0 134217728, .mk 11 o 1 134217728, .mk 12 o 0 134218112, .mk 13 o 0 134218112, .mk 14
  o 0 134218112, .mk 15 o 0 134218112, .mk 16 o 0 134218112, .mk 198 o 0 134218112]) (n 1 (l [.mk 12 o 1 134218112])
  (l [.mk 13 o 1 134218112]))) (n 2 (n 1 (l [.mk 14 o 1 134218112]) (l [.mk 16 o 1 134218112, .mk 198 o 1 134218112]))
  (n 1 (l [.mk 15 o 1 8724152704]) (l [.mk 6 o 1 218565924700679126288185654351057486272])))) (n 3 (n 1 (l [.mk 1 o 4
  2]) (n 1 (l [.mk 21 o 1 32768]) (l [.mk 17 o 2 4722366482869645246464]))) (n 2 (n 1 (l [.mk 18 o 2
  4722366482869645246464]) (l [.mk 19 o 2 4722366482869645246464])) (n 1 (l [.mk 8 o 3
  664613997892457936451903530140172288]) (l [.mk 11 o 2 134217728])))))) (n 13 (n 6 (n 3 (n 1 (l [.mk 15 o 0
  8589934592, .mk 16 o 2 134218112]) (n 1 (l [.mk 1 o 5 2]) (l [.mk 21 o 2 32768]))) (n 1 (l [.mk 16 o 3 134218112])
  (n 1 (l [.mk 1 o 6 2, .mk 23 o 0 4503599627370496, .mk 24 o 0 4503599627370496, .mk 25 o 0
  83076749736557242056487941267521728, .mk 26 o 0 83076749736557242056487941267521728, .mk 27 o 0
  83076749736557242056487941267521728]) (l [.mk 16 o 4 134218112])))) (n 3 (n 1 (l [.mk 1 o 7 2]) (n 1 (l [.mk 23 o 1
  4503599627370496, .mk 30 o 0 192, .mk 31 o 0 192]) (l [.mk 2 o 0 4399120252928, .mk 4 o 0 4399120252928, .mk 25 o 1
  83076749736557242056487941267521728, .mk 26 o 1 83076749736557242056487941267521728, .mk 28 o 0 4398046511104, .mk
  29 o 0 4398046511104, .mk 41 o 0 4399120252928, .mk 42 o 0 4399120252928, .mk 43 o 0 4399120252928, .mk 44 o 0
  4399120252928, .mk 46 o 0 4399120252928]))) (n 2 (n 1 (l [.mk 1 o 8 2]) (l [.mk 2 o 0 32768, .mk 4 o 0
  218514001553830412353638893464210899008, .mk 23 o 2 4503599627370496, .mk 47 o 0 4503599627370688, .mk 48 o 0
  4503599627370688, .mk 49 o 0 4503599627370688, .mk 50 o 0 4503599627370688, .mk 54 o 0 4503599627370688, .mk 55 o 0
  4503599627370688])) (n 1 (l [.mk 2 o 0 19342813113834067869040640, .mk 4 o 0 19342813113834067869040640, .mk 30 o 1
  192, .mk 32 o 0 4398046511104, .mk 33 o 0 4398046511104, .mk 34 o 0 4398046511296, .mk 35 o 0 4398046511296, .mk 36
  o 0 4398046511296, .mk 41 o 0 19342813113834067869040640, .mk 42 o 0 19342813113834067869040640, .mk 43 o 0
  19342813113834067869040640, .mk 44 o 0 19342813113834067869040640, .mk 46 o 0 19342813113834067869040640]) (l [.mk
  25 o 2 83076749736557242056487941267521728]))))) (n 7 (n 3 (n 1 (l [.mk 26 o 2 83076749736557242056487941267521728])
  (n 1 (l [.mk 28 o 1 4398046511104, .mk 42 o 1 4399120252928]) (l [.mk 41 o 1 19342813113838465915551744]))) (n 2 (n
  1 (l [.mk 43 o 1 19342813113838465915551744]) (l [.mk 44 o 1 19342813113838465915551744])) (n 1 (l []) (l [.mk 46 o
  1 19342813113838465915551744])))) (n 3 (n 1 (l [.mk 2 o 1 19342813113838607649472512, .mk 3 o 1 2147483648]) (n 1 (l
  [.mk 4 o 1 218514001553849755166752731973210341824]) (l [.mk 2 o 0 32768, .mk 4 o 0
  218514001553830412353638893464210899008, .mk 23 o 3 4503599627370496, .mk 48 o 1 4503599627370688, .mk 49 o 0
  4503599627370688, .mk 50 o 0 4503599627370688, .mk 54 o 0 4503599627370688, .mk 55 o 0 4503599627370688]))) (n 2 (n
  1 (l [.mk 47 o 1 4503599627370688]) (l [.mk 49 o 1 4503599627370688])) (n 1 (l [.mk 50 o 1 4503599627370688]) (l
  [.mk 54 o 1 4503599627370688]))))))) (n 27 (n 13 (n 6 (n 3 (n 1 (l [.mk 2 o 0 4295000064, .mk 51 o 0 4295000064, .mk
  55 o 1 4503599627370688, .mk 56 o 0 4295000064, .mk 57 o 0 4295000064, .mk 58 o 0 4295000064, .mk 59 o 0 4295000064,
  .mk 60 o 0 4295000064, .mk 61 o 0 4295000064, .mk 62 o 0 4295000064, .mk 63 o 0 4295000064, .mk 64 o 0 4295000064,
  .mk 65 o 0 4295000064, .mk 66 o 0 4295000064, .mk 67 o 0 4295000064, .mk 68 o 0 4295000064, .mk 69 o 0 4295000064,
  .mk 70 o 0 4295000064, .mk 71 o 0 4295000064, .mk 72 o 0 4295000064, .mk 73 o 0 4295000064, .mk 74 o 0 4295000064,
  .mk 75 o 0 4295000064, .mk 76 o 0 4295000064, .mk 83 o 0 4295000064, .mk 86 o 0 4295000064, .mk 87 o 0 4295000064,
  .mk 96 o 0 4295000064, .mk 106 o 0 4295000064, .mk 119 o 0 4295000064, .mk 120 o 0 4295000064, .mk 125 o 0
  4295000064, .mk 126 o 0 4295000064, .mk 127 o 0 4295000064, .mk 128 o 0 4295000064, .mk 129 o 0 4295000064, .mk 154
  o 0 4295000064, .mk 155 o 0 4295000064, .mk 156 o 0 4295000064, .mk 157 o 0 32768, .mk 158 o 0 4295000064, .mk 159 o
  0 4295000064, .mk 160 o 0 4295000064, .mk 161 o 0 4295000064, .mk 174 o 0 32768, .mk 175 o 0 32768, .mk 176 o 0
  32768, .mk 177 o 0 218514326072384070798812420693941026880, .mk 184 o 0 32768, .mk 185 o 0 4295000064, .mk 186 o 0
  4295000064, .mk 199 o 0 4295000064, .mk 200 o 0 4295000064, .mk 201 o 0 4295000064, .mk 202 o 0 4295000064, .mk 203
  o 0 4295000064, .mk 204 o 0 4295000064, .mk 205 o 0 4295000064, .mk 206 o 0 4295000064, .mk 207 o 0 4295000064, .mk
  208 o 0 4295000064, .mk 209 o 0 4295000064, .mk 210 o 0 4295000064, .mk 211 o 0 4295000064, .mk 212 o 0 4295000064,
  .mk 213 o 0 4295000064, .mk 214 o 0 4295000064, .mk 215 o 0 4295000064, .mk 216 o 0 4295000064, .mk 217 o 0
  4295000064, .mk 218 o 0 4295000064, .mk 219 o 0 32768, .mk 220 o 0 32768, .mk 221 o 0 32768, .mk 222 o 0 32768, .mk
  223 o 0 4295000064, .mk 224 o 0 4295000064, .mk 225 o 0 4295000064, .mk 226 o 0 4295000064]) (n 1 (l [.mk 2 o 1
  41538553131644279289559156431290560]) (l [.mk 30 o 2 192]))) (n 1 (l [.mk 2 o 0 19342813113834067869040640, .mk 4 o
  0 19342813113834067869040640, .mk 32 o 1 4398046511104, .mk 35 o 1 4398046511296, .mk 36 o 0 4398046511296, .mk 41 o
  0 19342813113834067869040640, .mk 42 o 0 19342813113834067869040640, .mk 43 o 0 19342813113834067869040640, .mk 44 o
  0 19342813113834067869040640, .mk 46 o 0 19342813113834067869040640]) (n 1 (l [.mk 34 o 1 4398046511296]) (l [.mk 36
  o 1 4398046511296, .mk 42 o 1 19342813113834067869040640])))) (n 3 (n 1 (l [.mk 25 o 3
  83076749736557242056487941267521728]) (n 1 (l [.mk 26 o 3 83076749736557242056487941267521728]) (l [.mk 2 o 0
  19342813113838465915551744, .mk 4 o 0 19342813113838465915551744, .mk 42 o 2 19342813113838465915551744, .mk 43 o 0
  19342813113838465915551744, .mk 44 o 0 19342813113838465915551744, .mk 46 o 0 19342813113838465915551744]))) (n 2 (n
  1 (l [.mk 48 o 2 4503599627370688]) (l [.mk 2 o 0 4503603922337984, .mk 51 o 0 4503603922337984, .mk 54 o 2
  4503599627370688, .mk 56 o 0 4503603922337984, .mk 57 o 0 4503603922337984, .mk 58 o 0 4503603922337984, .mk 59 o 0
  4503603922337984, .mk 60 o 0 4503603922337984, .mk 61 o 0 4503603922337984, .mk 62 o 0 4503603922337984, .mk 63 o 0
  4503603922337984, .mk 64 o 0 4503603922337984, .mk 65 o 0 4503603922337984, .mk 66 o 0 4503603922337984, .mk 67 o 0
  4503603922337984, .mk 68 o 0 4503603922337984, .mk 69 o 0 4503603922337984, .mk 70 o 0 4503603922337984, .mk 71 o 0
  4503603922337984, .mk 72 o 0 4503603922337984, .mk 73 o 0 4503603922337984, .mk 74 o 0 4503603922337984, .mk 75 o 0
  4503603922337984, .mk 76 o 0 4503603922337984, .mk 83 o 0 4503603922337984, .mk 86 o 0 4503603922337984, .mk 87 o 0
  4503603922337984, .mk 96 o 0 4503603922337984, .mk 106 o 0 4503603922337984, .mk 119 o 0 4503603922337984, .mk 120 o
  0 4503603922337984, .mk 125 o 0 4503603922337984, .mk 126 o 0 4503603922337984, .mk 127 o 0 4503603922337984, .mk
  128 o 0 4503603922337984, .mk 129 o 0 4503603922337984, .mk 154 o 0 4503603922337984, .mk 155 o 0 4503603922337984,
  .mk 156 o 0 4503603922337984, .mk 157 o 0 4503599627370688, .mk 158 o 0 4503603922337984, .mk 159 o 0
  4503603922337984, .mk 160 o 0 4503603922337984, .mk 161 o 0 4503603922337984, .mk 174 o 0 4503599627370688, .mk 175
  o 0 4503599627370688, .mk 176 o 0 4503599627370688, .mk 177 o 0 218514326072384070798812420693941026880, .mk 184 o 0
  4503599627370688, .mk 185 o 0 4503603922337984, .mk 186 o 0 4503603922337984, .mk 199 o 0 4503603922337984, .mk 200
  o 0 4503603922337984, .mk 201 o 0 4503603922337984, .mk 202 o 0 4503603922337984, .mk 203 o 0 4503603922337984, .mk
  204 o 0 4503603922337984, .mk 205 o 0 4503603922337984, .mk 206 o 0 4503603922337984, .mk 207 o 0 4503603922337984,
  .mk 208 o 0 4503603922337984, .mk 209 o 0 4503603922337984, .mk 210 o 0 4503603922337984, .mk 211 o 0
  4503603922337984, .mk 212 o 0 4503603922337984, .mk 213 o 0 4503603922337984, .mk 214 o 0 4503603922337984, .mk 215
  o 0 4503603922337984, .mk 216 o 0 4503603922337984, .mk 217 o 0 4503603922337984, .mk 218 o 0 4503603922337984, .mk
  219 o 0 4503599627370688, .mk 220 o 0 4503599627370688, .mk 221 o 0 4503599627370688, .mk 222 o 0 4503599627370688,
  .mk 223 o 0 4503603922337984, .mk 224 o 0 4503603922337984, .mk 225 o 0 4503603922337984, .mk 226 o 0
  4503603922337984])) (n 1 (l [.mk 55 o 2 4503599627370688, .mk 217 o 1 4295000064, .mk 227 o 0 4295000064]) (l [.mk
  56 o 1 41538553131644279289559156431290560]))))) (n 7 (n 3 (n 1 (l [.mk 57 o 1 41538553131644279289559156431290560])
  (n 1 (l [.mk 58 o 1 41538553131644279289559156431290560]) (l [.mk 59 o 1 41538553131644279289559156431290560]))) (n
  2 (n 1 (l [.mk 60 o 1 41538553131644279289559156431290560]) (l [.mk 61 o 1 41538553131644279289559156431290560])) (n
  1 (l [.mk 62 o 1 41538553131644279289559156431290560]) (l [.mk 63 o 1 41538553131644279289559156431290560])))) (n 3
  (n 1 (l [.mk 64 o 1 41538553131644279289559156431290560]) (n 1 (l [.mk 65 o 1 41538553131644279289559156431290560])
  (l [.mk 66 o 1 41538553131644279289559156431290560]))) (n 2 (n 1 (l [.mk 67 o 1
  41538553131644279289559156431290560]) (l [.mk 68 o 1 41538553131644279289559156431290560])) (n 1 (l [.mk 69 o 1
  41538553131644279289559156431290560]) (l [.mk 70 o 1 41538553131644279289559156431290560])))))) (n 13 (n 6 (n 3 (n 1
  (l [.mk 71 o 1 41538553131644279289559156431290560]) (n 1 (l [.mk 72 o 1 41538553131644279289559156431290560]) (l
  [.mk 73 o 1 41538553131644279289559156431290560]))) (n 1 (l [.mk 74 o 1 41538553131644279289559156431290560]) (n 1
  (l [.mk 75 o 1 41538553131644279289559156431290560]) (l [.mk 76 o 1 41538553131644279289559156431290560])))) (n 3 (n
  1 (l [.mk 218 o 1 41538553131644279289559156431290560]) (n 1 (l [.mk 119 o 1 41538553131644279289559156431290560,
  .mk 120 o 1 41538553131644279289559156431290560]) (l [.mk 83 o 1 41538553131644279289559156431290560]))) (n 2 (n 1
  (l [.mk 199 o 1 41538553131644279289559156431290560]) (l [.mk 200 o 1 41538553131644279289559156431290560])) (n 1 (l
  [.mk 161 o 1 41538553131644279289559156431290560]) (l [.mk 96 o 1 41538553131644279289559156431290560]))))) (n 7 (n
  3 (n 1 (l [.mk 86 o 1 41538553131644279289559156431290560, .mk 87 o 1 41538553131644279289559156431290560]) (n 1 (l
  [.mk 126 o 1 41538553131644279289559156431290560]) (l [.mk 186 o 1 41538553131644279289559156431290560]))) (n 2 (n 1
  (l [.mk 125 o 1 41538553131644279289559156431290560]) (l [.mk 106 o 1 41538553131644279289559156431290560])) (n 1 (l
  [.mk 127 o 1 41538553131644279289559156431290560, .mk 128 o 1 41538553131644279289559156431290560, .mk 129 o 1
  41538553131644279289559156431290560, .mk 184 o 1 41538553131644279289559152136323264, .mk 185 o 1
  41538553131644279289559156431290560, .mk 221 o 1 41538553131644279289559152136323264, .mk 222 o 1
  41538553131644279289559152136323264, .mk 225 o 1 41538553131644279289559156431290560, .mk 226 o 1
  41538553131644279289559156431290560, .mk 227 o 0 9903520314283042199192993792, .mk 268 o 0
  9903520314283042199192993792]) (l [.mk 154 o 1 41538553131644279289559156431290560, .mk 155 o 1
  41538553131644279289559156431290560, .mk 156 o 1 41538553131644279289559156431290560, .mk 157 o 1
  41538553131644279289559152136323264, .mk 158 o 1 41538553131644279289559156431290560, .mk 219 o 1
  41538553131644279289559152136323264, .mk 220 o 1 41538553131644279289559152136323264, .mk 223 o 1
  41538553131644279289559156431290560, .mk 224 o 1 41538553131644279289559156431290560, .mk 227 o 0
  9903520314283042199192993792, .mk 268 o 0 9903520314283042199192993792])))) (n 3 (n 1 (l [.mk 159 o 1
  41538553131644279289559156431290560, .mk 160 o 1 41538553131644279289559156431290560]) (n 1 (l [.mk 2 o 0
  41538553131644279289559156431290560, .mk 51 o 0 41538553131644279289559156431290560, .mk 56 o 0
  41538553131644279289559156431290560, .mk 57 o 0 41538553131644279289559156431290560, .mk 58 o 0
  41538553131644279289559156431290560, .mk 59 o 0 41538553131644279289559156431290560, .mk 60 o 0
  41538553131644279289559156431290560, .mk 61 o 0 41538553131644279289559156431290560, .mk 62 o 0
  41538553131644279289559156431290560, .mk 63 o 0 41538553131644279289559156431290560, .mk 64 o 0
  41538553131644279289559156431290560, .mk 65 o 0 41538553131644279289559156431290560, .mk 66 o 0
  41538553131644279289559156431290560, .mk 67 o 0 41538553131644279289559156431290560, .mk 68 o 0
  41538553131644279289559156431290560, .mk 69 o 0 41538553131644279289559156431290560, .mk 70 o 0
  41538553131644279289559156431290560, .mk 71 o 0 41538553131644279289559156431290560, .mk 72 o 0
  41538553131644279289559156431290560, .mk 73 o 0 41538553131644279289559156431290560, .mk 74 o 0
  41538553131644279289559156431290560, .mk 75 o 0 41538553131644279289559156431290560, .mk 76 o 0
  41538553131644279289559156431290560, .mk 83 o 0 41538553131644279289559156431290560, .mk 86 o 0
  41538553131644279289559156431290560, .mk 87 o 0 41538553131644279289559156431290560, .mk 96 o 0
  41538553131644279289559156431290560, .mk 106 o 0 41538553131644279289559156431290560, .mk 119 o 0
  41538553131644279289559156431290560, .mk 120 o 0 41538553131644279289559156431290560, .mk 125 o 0
  41538553131644279289559156431290560, .mk 126 o 0 41538553131644279289559156431290560, .mk 127 o 0
  41538553131644279289559156431290560, .mk 128 o 0 41538553131644279289559156431290560, .mk 129 o 0
  41538553131644279289559156431290560, .mk 154 o 0 41538553131644279289559156431290560, .mk 155 o 0
  41538553131644279289559156431290560, .mk 156 o 0 41538553131644279289559156431290560, .mk 157 o 0
  41538553131644279289559152136323264, .mk 158 o 0 41538553131644279289559156431290560, .mk 159 o 0
  41538553131644279289559156431290560, .mk 160 o 0 41538553131644279289559156431290560, .mk 161 o 0
  41538553131644279289559156431290560, .mk 174 o 0 41538553131644279289559152136323264, .mk 174 o 1
  41538553131644279289559152136323264, .mk 175 o 0 41538553131644279289559152136323264, .mk 175 o 1
  41538553131644279289559152136323264, .mk 176 o 0 41538553131644279289559152136323264, .mk 176 o 1
  41538553131644279289559152136323264, .mk 177 o 0 218514326072384070798812420693941026880, .mk 184 o 0
  41538553131644279289559152136323264, .mk 185 o 0 41538553131644279289559156431290560, .mk 186 o 0
  41538553131644279289559156431290560, .mk 199 o 0 41538553131644279289559156431290560, .mk 200 o 0
  41538553131644279289559156431290560, .mk 201 o 0 41538553131644279289559156431290560, .mk 202 o 0
  41538553131644279289559156431290560, .mk 203 o 0 41538553131644279289559156431290560, .mk 204 o 0
  41538553131644279289559156431290560, .mk 205 o 0 41538553131644279289559156431290560, .mk 206 o 0
  41538553131644279289559156431290560, .mk 207 o 0 41538553131644279289559156431290560, .mk 208 o 0
  41538553131644279289559156431290560, .mk 209 o 0 41538553131644279289559156431290560, .mk 210 o 0
  41538553131644279289559156431290560, .mk 211 o 0 41538553131644279289559156431290560, .mk 212 o 0
  41538553131644279289559156431290560, .mk 213 o 0 41538553131644279289559156431290560, .mk 214 o 0
  41538553131644279289559156431290560, .mk 215 o 0 41538553131644279289559156431290560, .mk 216 o 0
  41538553131644279289559156431290560, .mk 217 o 0 41538553131644279289559156431290560, .mk 218 o 0
  41538553131644279289559156431290560, .mk 219 o 0 41538553131644279289559152136323264, .mk 220 o 0
  41538553131644279289559152136323264, .mk 221 o 0 41538553131644279289559152136323264, .mk 222 o 0
  41538553131644279289559152136323264, .mk 223 o 0 41538553131644279289559156431290560, .mk 224 o 0
  41538553131644279289559156431290560, .mk 225 o 0 41538553131644279289559156431290560, .mk 226 o 0
  41538553131644279289559156431290560]) (l [.mk 51 o 1 41538553131644279289559156431290560]))) (n 2 (n 1 (l [.mk 215 o
  1 41538553131644279289559156431290560]) (l [.mk 216 o 1 41538553131644279289559156431290560])) (n 1 (l [.mk 201 o 1
  41538553131644279289559156431290560]) (l [.mk 202 o 1 41538553131644279289559156431290560])))))))) (n 54 (n 27 (n 13
  (n 6 (n 3 (n 1 (l [.mk 203 o 1 41538553131644279289559156431290560]) (n 1 (l [.mk 204 o 1
  41538553131644279289559156431290560]) (l [.mk 205 o 1 41538553131644279289559156431290560]))) (n 1 (l [.mk 206 o 1
  41538553131644279289559156431290560]) (n 1 (l [.mk 207 o 1 41538553131644279289559156431290560]) (l [.mk 208 o 1
  41538553131644279289559156431290560])))) (n 3 (n 1 (l [.mk 209 o 1 41538553131644279289559156431290560]) (n 1 (l
  [.mk 210 o 1 41538553131644279289559156431290560]) (l [.mk 211 o 1 41538553131644279289559156431290560]))) (n 2 (n 1
  (l [.mk 212 o 1 41538553131644279289559156431290560]) (l [.mk 213 o 1 41538553131644279289559156431290560])) (n 1 (l
  [.mk 214 o 1 41538553131644279289559156431290560]) (l [.mk 177 o 1 218514326072384070798812420693941026880, .mk 180
  o 0 448, .mk 181 o 0 448, .mk 182 o 0 448, .mk 183 o 0 448]))))) (n 7 (n 3 (n 1 (l [.mk 30 o 3 192]) (n 1 (l [.mk 35
  o 2 4398046511296]) (l [.mk 3 o 0 4398113620160, .mk 36 o 2 4398046511296, .mk 37 o 0 4398046511296]))) (n 2 (n 1 (l
  [.mk 42 o 3 19342813113838465915551744]) (l [.mk 54 o 3 4503599627370688, .mk 217 o 1 4503603922337984, .mk 227 o 0
  4503603922337984])) (n 1 (l [.mk 6 o 0 4503599627370688, .mk 55 o 3 4503599627370688, .mk 78 o 0 4503599627370688,
  .mk 79 o 0 4503599627370688, .mk 80 o 0 4503599627370688, .mk 81 o 0 4503599627370688, .mk 82 o 0 4503599627370688,
  .mk 84 o 0 4503599627370688, .mk 85 o 0 4503599627370688, .mk 92 o 0 4503599627370688, .mk 93 o 0 4503599627370688,
  .mk 94 o 0 4503599627370688, .mk 95 o 0 4503599627370688, .mk 107 o 0 4503599627370688, .mk 108 o 0
  4503599627370688, .mk 109 o 0 4503599627370688, .mk 110 o 0 4503599627370688, .mk 111 o 0 4503599627370688, .mk 112
  o 0 4503599627370688, .mk 114 o 0 4503599627370688, .mk 115 o 0 4503599627370688, .mk 116 o 0 4503599627370688, .mk
  187 o 0 4503599627370688, .mk 188 o 0 4503599627370688]) (l [.mk 217 o 2 41538553131644279289559156431290560])))) (n
  3 (n 1 (l [.mk 2 o 0 19807040629728136261508530176, .mk 6 o 0 19807040629728136257482063872, .mk 51 o 0
  19807040629728136261508530176, .mk 56 o 0 19807040629728136261508530176, .mk 57 o 0 19807040629728136261508530176,
  .mk 58 o 0 19807040629728136261508530176, .mk 59 o 0 19807040629728136261508530176, .mk 60 o 0
  19807040629728136261508530176, .mk 61 o 0 19807040629728136261508530176, .mk 62 o 0 19807040629728136261508530176,
  .mk 63 o 0 19807040629728136261508530176, .mk 64 o 0 19807040629728136261508530176, .mk 65 o 0
  19807040629728136261508530176, .mk 66 o 0 19807040629728136261508530176, .mk 67 o 0 19807040629728136261508530176,
  .mk 68 o 0 19807040629728136261508530176, .mk 69 o 0 19807040629728136261508530176, .mk 70 o 0
  19807040629728136261508530176, .mk 71 o 0 19807040629728136261508530176, .mk 72 o 0 19807040629728136261508530176,
  .mk 73 o 0 19807040629728136261508530176, .mk 74 o 0 19807040629728136261508530176, .mk 75 o 0
  19807040629728136261508530176, .mk 76 o 0 19807040629728136261508530176, .mk 78 o 0 19807040629728136257482063872,
  .mk 79 o 0 19807040629728136257482063872, .mk 80 o 0 19807040629728136257482063872, .mk 81 o 0
  19807040629728136257482063872, .mk 82 o 0 19807040629728136257482063872, .mk 83 o 0 19807040629728136261508530176,
  .mk 84 o 0 19807040629728136257482063872, .mk 85 o 0 19807040629728136257482063872, .mk 86 o 0
  19807040629728136261508530176, .mk 87 o 0 19807040629728136261508530176, .mk 92 o 0 19807040629728136257482063872,
  .mk 93 o 0 19807040629728136257482063872, .mk 94 o 0 19807040629728136257482063872, .mk 95 o 0
  19807040629728136257482063872, .mk 96 o 0 19807040629728136261508530176, .mk 106 o 0 19807040629728136261508530176,
  .mk 107 o 0 19807040629728136257482063872, .mk 108 o 0 19807040629728136257482063872, .mk 109 o 0
  19807040629728136257482063872, .mk 110 o 0 19807040629728136257482063872, .mk 111 o 0 19807040629728136257482063872,
  .mk 112 o 0 19807040629728136257482063872, .mk 114 o 0 19807040629728136257482063872, .mk 115 o 0
  19807040629728136257482063872, .mk 116 o 0 19807040629728136257482063872, .mk 119 o 0 19807040629728136261508530176,
  .mk 120 o 0 19807040629728136261508530176, .mk 125 o 0 19807040629728136261508530176, .mk 126 o 0
  19807040629728136261508530176, .mk 127 o 0 19807040629728136261508530176, .mk 128 o 0 19807040629728136261508530176,
  .mk 129 o 0 19807040629728136261508530176, .mk 154 o 0 19807040629728136261508530176, .mk 155 o 0
  19807040629728136261508530176, .mk 156 o 0 19807040629728136261508530176, .mk 157 o 0 19807040629728136257213562880,
  .mk 158 o 0 19807040629728136261508530176, .mk 159 o 0 19807040629728136261508530176, .mk 160 o 0
  19807040629728136261508530176, .mk 161 o 0 19807040629728136261508530176, .mk 174 o 0 19807040629728136257213562880,
  .mk 175 o 0 19807040629728136257213562880, .mk 176 o 0 19807040629728136257213562880, .mk 177 o 0
  218514326072384070798812420693941026880, .mk 184 o 0 19807040629728136257213562880, .mk 185 o 0
  19807040629728136261508530176, .mk 186 o 0 19807040629728136261508530176, .mk 187 o 0 19807040629728136257482063872,
  .mk 188 o 0 19807040629728136257482063872, .mk 199 o 0 19807040629728136261508530176, .mk 200 o 0
  19807040629728136261508530176, .mk 201 o 0 19807040629728136261508530176, .mk 202 o 0 19807040629728136261508530176,
  .mk 203 o 0 19807040629728136261508530176, .mk 204 o 0 19807040629728136261508530176, .mk 205 o 0
  19807040629728136261508530176, .mk 206 o 0 19807040629728136261508530176, .mk 207 o 0 19807040629728136261508530176,
  .mk 208 o 0 19807040629728136261508530176, .mk 209 o 0 19807040629728136261508530176, .mk 210 o 0
  19807040629728136261508530176, .mk 211 o 0 19807040629728136261508530176, .mk 212 o 0 19807040629728136261508530176,
  .mk 213 o 0 19807040629728136261508530176, .mk 214 o 0 19807040629728136261508530176, .mk 215 o 0
  19807040629728136261508530176, .mk 216 o 0 19807040629728136261508530176, .mk 217 o 0 19807040629728136261508530176,
  .mk 218 o 0 19807040629728136261508530176, .mk 219 o 0 19807040629728136257213562880, .mk 220 o 0
  19807040629728136257213562880, .mk 221 o 0 19807040629728136257213562880, .mk 222 o 0 19807040629728136257213562880,
  .mk 223 o 0 19807040629728136261508530176, .mk 224 o 0 19807040629728136261508530176, .mk 225 o 0
  19807040629728136261508530176, .mk 226 o 0 19807040629728136261508530176, .mk 227 o 1
  51923156752234248829803085771079872, .mk 228 o 0 35192962023424, .mk 229 o 0 35192962023424, .mk 230 o 0
  35192962023424, .mk 231 o 0 35192962023424, .mk 232 o 0 35192962023424, .mk 233 o 0 35194035765248, .mk 235 o 0
  35194035765248, .mk 236 o 0 35194035765248, .mk 237 o 0 19807040628566137184607797248, .mk 238 o 0
  19807040628566137184607797248, .mk 239 o 0 19807040628566101990572032000, .mk 240 o 0 19807040628575214752606715904,
  .mk 241 o 0 19807040628575214752606715904, .mk 242 o 0 9077567998918656, .mk 243 o 0 19807040628575214752606715904,
  .mk 244 o 0 19807040628575214752606715904, .mk 245 o 0 1152921504606846976, .mk 251 o 0
  19807040629728136257213562880, .mk 252 o 0 19807040629728136257213562880, .mk 253 o 0 19807040629728136257213562880,
  .mk 254 o 0 19807040629728136257213562880, .mk 255 o 0 19807040629728136257213562880, .mk 256 o 0
  19807040629728136257213562880, .mk 257 o 0 19807040629728136257213562880, .mk 258 o 0 19807040629728136257213562880,
  .mk 259 o 0 19807040629728136257213562880, .mk 260 o 0 65536, .mk 261 o 0 65536, .mk 264 o 0 268500992, .mk 265 o 0
  268500992, .mk 268 o 0 19807040629728136257213562880, .mk 269 o 0 19807040629728136257213562880, .mk 270 o 0
  19807040629728136257213562880, .mk 271 o 0 19807040629728136257213562880]) (n 1 (l [.mk 119 o 2
  41538553131644279289559156431290560, .mk 120 o 2 41538553131644279289559156431290560]) (l [.mk 6 o 0
  218514001553830412353638893464210899008, .mk 77 o 0 1207959552, .mk 130 o 0 1207959552, .mk 131 o 0 1207959552, .mk
  161 o 2 41538553131644279289559156431290560, .mk 162 o 0 134217728, .mk 163 o 0 134217728, .mk 164 o 0 134217728,
  .mk 172 o 0 1207959552, .mk 173 o 0 1207959552]))) (n 2 (n 1 (l [.mk 6 o 0 5502926848, .mk 90 o 0 1207959552, .mk 91
  o 0 1207959552, .mk 96 o 2 41538553131644279289559156431290560, .mk 97 o 0 134217728, .mk 98 o 0 134217728, .mk 99 o
  0 134217728, .mk 100 o 0 1207959552, .mk 102 o 0 134217728, .mk 103 o 0 1207959552, .mk 104 o 0 1207959552, .mk 105
  o 0 1207959552]) (l [.mk 6 o 0 4294967296, .mk 87 o 2 41538553131644279289559156431290560, .mk 88 o 0 1207959552,
  .mk 89 o 0 1207959552, .mk 90 o 0 1207959552, .mk 91 o 0 1207959552])) (n 1 (l [.mk 186 o 2
  41538553131644279289559156431290560]) (l [.mk 125 o 2 41538553131644279289559156431290560])))))) (n 13 (n 6 (n 3 (n
  1 (l [.mk 6 o 0 218514001553830412353638893464210899008, .mk 77 o 0 41538533324603649556919158929620992, .mk 127 o 2
  41538553131644279289559156431290560, .mk 128 o 2 41538553131644279289559156431290560, .mk 129 o 2
  41538553131644279289559156431290560, .mk 130 o 0 1207959552, .mk 131 o 0 1207959552, .mk 134 o 0 134217728, .mk 135
  o 0 134217728, .mk 136 o 0 134217728, .mk 148 o 0 1207959552, .mk 149 o 0 1207959552, .mk 150 o 0 1207959552, .mk
  151 o 0 1207959552, .mk 152 o 0 1207959552, .mk 153 o 0 1207959552]) (n 1 (l [.mk 2 o 0
  41538553131644279289559156431290560, .mk 6 o 0 218514001553830412353638893464210899008, .mk 51 o 0
  41538553131644279289559156431290560, .mk 56 o 0 41538553131644279289559156431290560, .mk 57 o 0
  41538553131644279289559156431290560, .mk 58 o 0 41538553131644279289559156431290560, .mk 59 o 0
  41538553131644279289559156431290560, .mk 60 o 0 41538553131644279289559156431290560, .mk 61 o 0
  41538553131644279289559156431290560, .mk 62 o 0 41538553131644279289559156431290560, .mk 63 o 0
  41538553131644279289559156431290560, .mk 64 o 0 41538553131644279289559156431290560, .mk 65 o 0
  41538553131644279289559156431290560, .mk 66 o 0 41538553131644279289559156431290560, .mk 67 o 0
  41538553131644279289559156431290560, .mk 68 o 0 41538553131644279289559156431290560, .mk 69 o 0
  41538553131644279289559156431290560, .mk 70 o 0 41538553131644279289559156431290560, .mk 71 o 0
  41538553131644279289559156431290560, .mk 72 o 0 41538553131644279289559156431290560, .mk 73 o 0
  41538553131644279289559156431290560, .mk 74 o 0 41538553131644279289559156431290560, .mk 75 o 0
  41538553131644279289559156431290560, .mk 76 o 0 41538553131644279289559156431290560, .mk 77 o 0
  41538553131644279289559152136323264, .mk 83 o 0 41538553131644279289559156431290560, .mk 86 o 0
  41538553131644279289559156431290560, .mk 87 o 0 41538553131644279289559156431290560, .mk 96 o 0
  41538553131644279289559156431290560, .mk 106 o 0 41538553131644279289559156431290560, .mk 119 o 0
  41538553131644279289559156431290560, .mk 120 o 0 41538553131644279289559156431290560, .mk 125 o 0
  41538553131644279289559156431290560, .mk 126 o 0 41538553131644279289559156431290560, .mk 127 o 0
  41538553131644279289559156431290560, .mk 128 o 0 41538553131644279289559156431290560, .mk 129 o 0
  41538553131644279289559156431290560, .mk 154 o 0 41538553131644279289559156431290560, .mk 155 o 0
  41538553131644279289559156431290560, .mk 156 o 0 41538553131644279289559156431290560, .mk 157 o 0
  41538553131644279289559152136323264, .mk 158 o 0 41538553131644279289559156431290560, .mk 159 o 0
  41538553131644279289559156431290560, .mk 160 o 0 41538553131644279289559156431290560, .mk 161 o 0
  41538553131644279289559156431290560, .mk 174 o 0 41538553131644279289559152136323264, .mk 175 o 0
  41538553131644279289559152136323264, .mk 176 o 0 41538553131644279289559152136323264, .mk 177 o 0
  218514326072384070798812420693941026880, .mk 184 o 0 41538553131644279289559152136323264, .mk 184 o 2
  41538553131644279289559152136323264, .mk 185 o 0 41538553131644279289559156431290560, .mk 185 o 2
  41538553131644279289559156431290560, .mk 186 o 0 41538553131644279289559156431290560, .mk 199 o 0
  41538553131644279289559156431290560, .mk 200 o 0 41538553131644279289559156431290560, .mk 201 o 0
  41538553131644279289559156431290560, .mk 202 o 0 41538553131644279289559156431290560, .mk 203 o 0
  41538553131644279289559156431290560, .mk 204 o 0 41538553131644279289559156431290560, .mk 205 o 0
  41538553131644279289559156431290560, .mk 206 o 0 41538553131644279289559156431290560, .mk 207 o 0
  41538553131644279289559156431290560, .mk 208 o 0 41538553131644279289559156431290560, .mk 209 o 0
  41538553131644279289559156431290560, .mk 210 o 0 41538553131644279289559156431290560, .mk 211 o 0
  41538553131644279289559156431290560, .mk 212 o 0 41538553131644279289559156431290560, .mk 213 o 0
  41538553131644279289559156431290560, .mk 214 o 0 41538553131644279289559156431290560, .mk 215 o 0
  41538553131644279289559156431290560, .mk 216 o 0 41538553131644279289559156431290560, .mk 217 o 0
  41538553131644279289559156431290560, .mk 218 o 0 41538553131644279289559156431290560, .mk 219 o 0
  41538553131644279289559152136323264, .mk 220 o 0 41538553131644279289559152136323264, .mk 221 o 0
  41538553131644279289559152136323264, .mk 222 o 0 41538553131644279289559152136323264, .mk 223 o 0
  41538553131644279289559156431290560, .mk 224 o 0 41538553131644279289559156431290560, .mk 225 o 0
  41538553131644279289559156431290560, .mk 226 o 0 41538553131644279289559156431290560]) (l [.mk 221 o 2
  41538553131644279289559152136323264, .mk 225 o 2 41538553131644279289559156431290560]))) (n 1 (l [.mk 222 o 2
  41538553131644279289559152136323264, .mk 226 o 2 41538553131644279289559156431290560]) (n 1 (l [.mk 227 o 0
  29710560944011178456406556672, .mk 268 o 1 29710560944011178456406556672]) (l [.mk 6 o 0
  218514001553830412353638893464210899008, .mk 77 o 0 41538533324603649556919158929620992, .mk 130 o 0 1207959552, .mk
  131 o 0 1207959552, .mk 134 o 0 134217728, .mk 135 o 0 134217728, .mk 136 o 0 134217728, .mk 148 o 0 1207959552, .mk
  149 o 0 1207959552, .mk 150 o 0 1207959552, .mk 151 o 0 1207959552, .mk 152 o 0 1207959552, .mk 153 o 0 1207959552,
  .mk 154 o 2 41538553131644279289559156431290560, .mk 155 o 2 41538553131644279289559156431290560, .mk 156 o 2
  41538553131644279289559156431290560])))) (n 3 (n 1 (l [.mk 2 o 0 41538553131644279289559156431290560, .mk 6 o 0
  218514001553830412353638893464210899008, .mk 51 o 0 41538553131644279289559156431290560, .mk 56 o 0
  41538553131644279289559156431290560, .mk 57 o 0 41538553131644279289559156431290560, .mk 58 o 0
  41538553131644279289559156431290560, .mk 59 o 0 41538553131644279289559156431290560, .mk 60 o 0
  41538553131644279289559156431290560, .mk 61 o 0 41538553131644279289559156431290560, .mk 62 o 0
  41538553131644279289559156431290560, .mk 63 o 0 41538553131644279289559156431290560, .mk 64 o 0
  41538553131644279289559156431290560, .mk 65 o 0 41538553131644279289559156431290560, .mk 66 o 0
  41538553131644279289559156431290560, .mk 67 o 0 41538553131644279289559156431290560, .mk 68 o 0
  41538553131644279289559156431290560, .mk 69 o 0 41538553131644279289559156431290560, .mk 70 o 0
  41538553131644279289559156431290560, .mk 71 o 0 41538553131644279289559156431290560, .mk 72 o 0
  41538553131644279289559156431290560, .mk 73 o 0 41538553131644279289559156431290560, .mk 74 o 0
  41538553131644279289559156431290560, .mk 75 o 0 41538553131644279289559156431290560, .mk 76 o 0
  41538553131644279289559156431290560, .mk 77 o 0 41538553131644279289559152136323264, .mk 83 o 0
  41538553131644279289559156431290560, .mk 86 o 0 41538553131644279289559156431290560, .mk 87 o 0
  41538553131644279289559156431290560, .mk 96 o 0 41538553131644279289559156431290560, .mk 106 o 0
  41538553131644279289559156431290560, .mk 119 o 0 41538553131644279289559156431290560, .mk 120 o 0
  41538553131644279289559156431290560, .mk 125 o 0 41538553131644279289559156431290560, .mk 126 o 0
  41538553131644279289559156431290560, .mk 127 o 0 41538553131644279289559156431290560, .mk 128 o 0
  41538553131644279289559156431290560, .mk 129 o 0 41538553131644279289559156431290560, .mk 154 o 0
  41538553131644279289559156431290560, .mk 155 o 0 41538553131644279289559156431290560, .mk 156 o 0
  41538553131644279289559156431290560, .mk 157 o 0 41538553131644279289559152136323264, .mk 157 o 2
  41538553131644279289559152136323264, .mk 158 o 0 41538553131644279289559156431290560, .mk 158 o 2
  41538553131644279289559156431290560, .mk 159 o 0 41538553131644279289559156431290560, .mk 160 o 0
  41538553131644279289559156431290560, .mk 161 o 0 41538553131644279289559156431290560, .mk 174 o 0
  41538553131644279289559152136323264, .mk 175 o 0 41538553131644279289559152136323264, .mk 176 o 0
  41538553131644279289559152136323264, .mk 177 o 0 218514326072384070798812420693941026880, .mk 184 o 0
  41538553131644279289559152136323264, .mk 185 o 0 41538553131644279289559156431290560, .mk 186 o 0
  41538553131644279289559156431290560, .mk 199 o 0 41538553131644279289559156431290560, .mk 200 o 0
  41538553131644279289559156431290560, .mk 201 o 0 41538553131644279289559156431290560, .mk 202 o 0
  41538553131644279289559156431290560, .mk 203 o 0 41538553131644279289559156431290560, .mk 204 o 0
  41538553131644279289559156431290560, .mk 205 o 0 41538553131644279289559156431290560, .mk 206 o 0
  41538553131644279289559156431290560, .mk 207 o 0 41538553131644279289559156431290560, .mk 208 o 0
  41538553131644279289559156431290560, .mk 209 o 0 41538553131644279289559156431290560, .mk 210 o 0
  41538553131644279289559156431290560, .mk 211 o 0 41538553131644279289559156431290560, .mk 212 o 0
  41538553131644279289559156431290560, .mk 213 o 0 41538553131644279289559156431290560, .mk 214 o 0
  41538553131644279289559156431290560, .mk 215 o 0 41538553131644279289559156431290560, .mk 216 o 0
  41538553131644279289559156431290560, .mk 217 o 0 41538553131644279289559156431290560, .mk 218 o 0
  41538553131644279289559156431290560, .mk 219 o 0 41538553131644279289559152136323264, .mk 220 o 0
  41538553131644279289559152136323264, .mk 221 o 0 41538553131644279289559152136323264, .mk 222 o 0
  41538553131644279289559152136323264, .mk 223 o 0 41538553131644279289559156431290560, .mk 224 o 0
  41538553131644279289559156431290560, .mk 225 o 0 41538553131644279289559156431290560, .mk 226 o 0
  41538553131644279289559156431290560]) (n 1 (l [.mk 219 o 2 41538553131644279289559152136323264, .mk 223 o 2
  41538553131644279289559156431290560]) (l [.mk 220 o 2 41538553131644279289559152136323264, .mk 224 o 2
  41538553131644279289559156431290560]))) (n 2 (n 1 (l [.mk 160 o 2 41538553131644279289559156431290560]) (l [.mk 174
  o 2 41538553131644279289559152136323264, .mk 217 o 1 41538553131644279289559156431290560, .mk 227 o 0
  41538553131644279289559156431290560])) (n 1 (l [.mk 2 o 0 41538553131644279289559156431290560, .mk 51 o 0
  41538553131644279289559156431290560, .mk 56 o 0 41538553131644279289559156431290560, .mk 57 o 0
  41538553131644279289559156431290560, .mk 58 o 0 41538553131644279289559156431290560, .mk 59 o 0
  41538553131644279289559156431290560, .mk 60 o 0 41538553131644279289559156431290560, .mk 61 o 0
  41538553131644279289559156431290560, .mk 62 o 0 41538553131644279289559156431290560, .mk 63 o 0
  41538553131644279289559156431290560, .mk 64 o 0 41538553131644279289559156431290560, .mk 65 o 0
  41538553131644279289559156431290560, .mk 66 o 0 41538553131644279289559156431290560, .mk 67 o 0
  41538553131644279289559156431290560, .mk 68 o 0 41538553131644279289559156431290560, .mk 69 o 0
  41538553131644279289559156431290560, .mk 70 o 0 41538553131644279289559156431290560, .mk 71 o 0
  41538553131644279289559156431290560, .mk 72 o 0 41538553131644279289559156431290560, .mk 73 o 0
  41538553131644279289559156431290560, .mk 74 o 0 41538553131644279289559156431290560, .mk 75 o 0
  41538553131644279289559156431290560, .mk 76 o 0 41538553131644279289559156431290560, .mk 83 o 0
  41538553131644279289559156431290560, .mk 86 o 0 41538553131644279289559156431290560, .mk 87 o 0
  41538553131644279289559156431290560, .mk 96 o 0 41538553131644279289559156431290560, .mk 106 o 0
  41538553131644279289559156431290560, .mk 119 o 0 41538553131644279289559156431290560, .mk 120 o 0
  41538553131644279289559156431290560, .mk 125 o 0 41538553131644279289559156431290560, .mk 126 o 0
  41538553131644279289559156431290560, .mk 127 o 0 41538553131644279289559156431290560, .mk 128 o 0
  41538553131644279289559156431290560, .mk 129 o 0 41538553131644279289559156431290560, .mk 154 o 0
  41538553131644279289559156431290560, .mk 155 o 0 41538553131644279289559156431290560, .mk 156 o 0
  41538553131644279289559156431290560, .mk 157 o 0 41538553131644279289559152136323264, .mk 158 o 0
  41538553131644279289559156431290560, .mk 159 o 0 41538553131644279289559156431290560, .mk 160 o 0
  41538553131644279289559156431290560, .mk 161 o 0 41538553131644279289559156431290560, .mk 174 o 0
  41538553131644279289559152136323264, .mk 175 o 0 41538553131644279289559152136323264, .mk 175 o 2
  41538553131644279289559152136323264, .mk 176 o 0 41538553131644279289559152136323264, .mk 177 o 0
  218514326072384070798812420693941026880, .mk 184 o 0 41538553131644279289559152136323264, .mk 185 o 0
  41538553131644279289559156431290560, .mk 186 o 0 41538553131644279289559156431290560, .mk 199 o 0
  41538553131644279289559156431290560, .mk 200 o 0 41538553131644279289559156431290560, .mk 201 o 0
  41538553131644279289559156431290560, .mk 202 o 0 41538553131644279289559156431290560, .mk 203 o 0
  41538553131644279289559156431290560, .mk 204 o 0 41538553131644279289559156431290560, .mk 205 o 0
  41538553131644279289559156431290560, .mk 206 o 0 41538553131644279289559156431290560, .mk 207 o 0
  41538553131644279289559156431290560, .mk 208 o 0 41538553131644279289559156431290560, .mk 209 o 0
  41538553131644279289559156431290560, .mk 210 o 0 41538553131644279289559156431290560, .mk 211 o 0
  41538553131644279289559156431290560, .mk 212 o 0 41538553131644279289559156431290560, .mk 213 o 0
  41538553131644279289559156431290560, .mk 214 o 0 41538553131644279289559156431290560, .mk 215 o 0
  41538553131644279289559156431290560, .mk 216 o 0 41538553131644279289559156431290560, .mk 217 o 0
  41538553131644279289559156431290560, .mk 218 o 0 41538553131644279289559156431290560, .mk 219 o 0
  41538553131644279289559152136323264, .mk 220 o 0 41538553131644279289559152136323264, .mk 221 o 0
  41538553131644279289559152136323264, .mk 222 o 0 41538553131644279289559152136323264, .mk 223 o 0
  41538553131644279289559156431290560, .mk 224 o 0 41538553131644279289559156431290560, .mk 225 o 0
  41538553131644279289559156431290560, .mk 226 o 0 41538553131644279289559156431290560]) (l [.mk 2 o 0
  41538553131644279289559156431290560, .mk 51 o 0 41538553131644279289559156431290560, .mk 56 o 0
  41538553131644279289559156431290560, .mk 57 o 0 41538553131644279289559156431290560, .mk 58 o 0
  41538553131644279289559156431290560, .mk 59 o 0 41538553131644279289559156431290560, .mk 60 o 0
  41538553131644279289559156431290560, .mk 61 o 0 41538553131644279289559156431290560, .mk 62 o 0
  41538553131644279289559156431290560, .mk 63 o 0 41538553131644279289559156431290560, .mk 64 o 0
  41538553131644279289559156431290560, .mk 65 o 0 41538553131644279289559156431290560, .mk 66 o 0
  41538553131644279289559156431290560, .mk 67 o 0 41538553131644279289559156431290560, .mk 68 o 0
  41538553131644279289559156431290560, .mk 69 o 0 41538553131644279289559156431290560, .mk 70 o 0
  41538553131644279289559156431290560, .mk 71 o 0 41538553131644279289559156431290560, .mk 72 o 0
  41538553131644279289559156431290560, .mk 73 o 0 41538553131644279289559156431290560, .mk 74 o 0
  41538553131644279289559156431290560, .mk 75 o 0 41538553131644279289559156431290560, .mk 76 o 0
  41538553131644279289559156431290560, .mk 83 o 0 41538553131644279289559156431290560, .mk 86 o 0
  41538553131644279289559156431290560, .mk 87 o 0 41538553131644279289559156431290560, .mk 96 o 0
  41538553131644279289559156431290560, .mk 106 o 0 41538553131644279289559156431290560, .mk 119 o 0
  41538553131644279289559156431290560, .mk 120 o 0 41538553131644279289559156431290560, .mk 125 o 0
  41538553131644279289559156431290560, .mk 126 o 0 41538553131644279289559156431290560, .mk 127 o 0
  41538553131644279289559156431290560, .mk 128 o 0 41538553131644279289559156431290560, .mk 129 o 0
  41538553131644279289559156431290560, .mk 154 o 0 41538553131644279289559156431290560, .mk 155 o 0
  41538553131644279289559156431290560, .mk 156 o 0 41538553131644279289559156431290560, .mk 157 o 0
  41538553131644279289559152136323264, .mk 158 o 0 41538553131644279289559156431290560, .mk 159 o 0
  41538553131644279289559156431290560, .mk 160 o 0 41538553131644279289559156431290560, .mk 161 o 0
  41538553131644279289559156431290560, .mk 174 o 0 41538553131644279289559152136323264, .mk 175 o 0
  41538553131644279289559152136323264, .mk 176 o 0 41538553131644279289559152136323264, .mk 176 o 2
  41538553131644279289559152136323264, .mk 177 o 0 218514326072384070798812420693941026880, .mk 184 o 0
  41538553131644279289559152136323264, .mk 185 o 0 41538553131644279289559156431290560, .mk 186 o 0
  41538553131644279289559156431290560, .mk 199 o 0 41538553131644279289559156431290560, .mk 200 o 0
  41538553131644279289559156431290560, .mk 201 o 0 41538553131644279289559156431290560, .mk 202 o 0
  41538553131644279289559156431290560, .mk 203 o 0 41538553131644279289559156431290560, .mk 204 o 0
  41538553131644279289559156431290560, .mk 205 o 0 41538553131644279289559156431290560, .mk 206 o 0
  41538553131644279289559156431290560, .mk 207 o 0 41538553131644279289559156431290560, .mk 208 o 0
  41538553131644279289559156431290560, .mk 209 o 0 41538553131644279289559156431290560, .mk 210 o 0
  41538553131644279289559156431290560, .mk 211 o 0 41538553131644279289559156431290560, .mk 212 o 0
  41538553131644279289559156431290560, .mk 213 o 0 41538553131644279289559156431290560, .mk 214 o 0
  41538553131644279289559156431290560, .mk 215 o 0 41538553131644279289559156431290560, .mk 216 o 0
  41538553131644279289559156431290560, .mk 217 o 0 41538553131644279289559156431290560, .mk 218 o 0
  41538553131644279289559156431290560, .mk 219 o 0 41538553131644279289559152136323264, .mk 220 o 0
  41538553131644279289559152136323264, .mk 221 o 0 41538553131644279289559152136323264, .mk 222 o 0
  41538553131644279289559152136323264, .mk 223 o 0 41538553131644279289559156431290560, .mk 224 o 0
  41538553131644279289559156431290560, .mk 225 o 0 41538553131644279289559156431290560, .mk 226 o 0
  41538553131644279289559156431290560]))))) (n 7 (n 3 (n 1 (l [.mk 214 o 2 41538553131644279289559156431290560]) (n 1
  (l [.mk 3 o 0 2147483648, .mk 4 o 0 34359738368, .mk 5 o 0 34359738368, .mk 52 o 0 34359738368, .mk 53 o 0
  34359738368, .mk 177 o 2 218514326072384070798812420693941026880, .mk 178 o 0 34359738368, .mk 179 o 0 34359738368])
  (l [.mk 180 o 1 448]))) (n 2 (n 1 (l [.mk 181 o 1 448]) (l [.mk 182 o 1 448])) (n 1 (l [.mk 36 o 3 4398046511296])
  (l [.mk 3 o 0 2147483648, .mk 4 o 0 4398046511296, .mk 37 o 1 4398046511296, .mk 38 o 0 4398046511296, .mk 39 o 0
  4398046511296, .mk 40 o 0 4398046511104, .mk 52 o 0 4398046511296, .mk 53 o 0 4398046511296, .mk 187 o 0
  4398046511296, .mk 188 o 0 4398046511296])))) (n 3 (n 1 (l [.mk 55 o 4 4503599627370688]) (n 1 (l [.mk 78 o 1
  19807040629732639857244176576]) (l [.mk 79 o 1 19807040629732639857244176576]))) (n 2 (n 1 (l [.mk 80 o 1
  19807040629732639857244176576]) (l [.mk 81 o 1 19807040629732639857244176576])) (n 1 (l [.mk 82 o 1
  19807040629732639857244176576]) (l [.mk 84 o 1 19807040629732639857244176576]))))))) (n 27 (n 13 (n 6 (n 3 (n 1 (l
  [.mk 85 o 1 19807040629732639857244176576]) (n 1 (l [.mk 94 o 1 19807040629732639857244176576]) (l [.mk 95 o 1
  19807040629732639857244176576]))) (n 1 (l [.mk 3 o 0 2147483648, .mk 4 o 0 134218176, .mk 6 o 0 4294967296, .mk 52 o
  0 134218176, .mk 53 o 0 134218176, .mk 187 o 1 19807040629732644255290687680, .mk 188 o 1
  19807040629732644255290687680, .mk 189 ol 0 134217728, .mk 190 ol 0 134217728, .mk 192 o 0 134217728, .mk 192 oh 0
  448, .mk 193 o 0 134217728, .mk 193 oh 0 448, .mk 194 o 0 134217728, .mk 195 nf 0 134218176, .mk 197 o 0 134218176])
  (n 1 (l [.mk 107 o 1 19807040629732639857244176576]) (l [.mk 108 o 1 19807040629732639857244176576])))) (n 3 (n 1 (l
  [.mk 92 o 1 19807040629732639857244176576, .mk 114 o 1 19807040629732639857244176576, .mk 115 o 1
  19807040629732639857244176576, .mk 116 o 1 19807040629732639857244176576]) (n 1 (l [.mk 93 o 1
  19807040629732639857244176576, .mk 110 o 1 19807040629732639857244176576, .mk 114 o 0 19807040629732639857244176576,
  .mk 115 o 0 19807040629732639857244176576, .mk 116 o 0 19807040629732639857244176576]) (l [.mk 109 o 1
  19807040629732639857244176576]))) (n 2 (n 1 (l [.mk 111 o 1 19807040629732639857244176576]) (l [.mk 112 o 1
  19807040629732639857244176576])) (n 1 (l [.mk 227 o 2 51923156752234248829803085771079872, .mk 287 o 0 8589934592,
  .mk 288 o 0 8589934592]) (l [.mk 228 o 1 35192962023424]))))) (n 7 (n 3 (n 1 (l [.mk 229 o 1 35192962023424]) (n 1
  (l [.mk 230 o 1 35192962023424, .mk 231 o 1 35192962023424, .mk 232 o 1 35192962023424]) (l [.mk 233 o 1
  35194035765248]))) (n 2 (n 1 (l [.mk 235 o 1 35194035765248, .mk 239 o 1 19807040628566101990572032000]) (l [.mk 236
  o 1 35194035765248, .mk 246 o 0 35194035765248])) (n 1 (l [.mk 237 o 1 19807040628566137184607797248, .mk 242 o 1
  9077567998918656]) (l [.mk 238 o 1 19807040628566137184607797248, .mk 247 o 0
  303585242321250925883012047128183701952, .mk 248 o 0 303585242321250925883012047128183701952])))) (n 3 (n 1 (l [.mk
  240 o 1 19807040628575214752606715904]) (n 1 (l [.mk 241 o 1 19807040628575214752606715904, .mk 249 o 0
  303585242321250925883012047128183701952, .mk 250 o 0 303585242321250925883012047128183701952]) (l [.mk 243 o 1
  19807040628575214752606715904, .mk 245 o 1 1152921504606846976]))) (n 2 (n 1 (l [.mk 244 o 1
  19807040628575214752606715904, .mk 246 o 0 19807040628575214752606715904]) (l [.mk 251 o 1
  19807040629728136257213562880])) (n 1 (l [.mk 2 o 0 19807040629728101076062699520, .mk 6 o 0
  19807040629728101072036233216, .mk 51 o 0 19807040629728101076062699520, .mk 56 o 0 19807040629728101076062699520,
  .mk 57 o 0 19807040629728101076062699520, .mk 58 o 0 19807040629728101076062699520, .mk 59 o 0
  19807040629728101076062699520, .mk 60 o 0 19807040629728101076062699520, .mk 61 o 0 19807040629728101076062699520,
  .mk 62 o 0 19807040629728101076062699520, .mk 63 o 0 19807040629728101076062699520, .mk 64 o 0
  19807040629728101076062699520, .mk 65 o 0 19807040629728101076062699520, .mk 66 o 0 19807040629728101076062699520,
  .mk 67 o 0 19807040629728101076062699520, .mk 68 o 0 19807040629728101076062699520, .mk 69 o 0
  19807040629728101076062699520, .mk 70 o 0 19807040629728101076062699520, .mk 71 o 0 19807040629728101076062699520,
  .mk 72 o 0 19807040629728101076062699520, .mk 73 o 0 19807040629728101076062699520, .mk 74 o 0
  19807040629728101076062699520, .mk 75 o 0 19807040629728101076062699520, .mk 76 o 0 19807040629728101076062699520,
  .mk 78 o 0 19807040629728101072036233216, .mk 79 o 0 19807040629728101072036233216, .mk 80 o 0
  19807040629728101072036233216, .mk 81 o 0 19807040629728101072036233216, .mk 82 o 0 19807040629728101072036233216,
  .mk 83 o 0 19807040629728101076062699520, .mk 84 o 0 19807040629728101072036233216, .mk 85 o 0
  19807040629728101072036233216, .mk 86 o 0 19807040629728101076062699520, .mk 87 o 0 19807040629728101076062699520,
  .mk 92 o 0 19807040629728101072036233216, .mk 93 o 0 19807040629728101072036233216, .mk 94 o 0
  19807040629728101072036233216, .mk 95 o 0 19807040629728101072036233216, .mk 96 o 0 19807040629728101076062699520,
  .mk 106 o 0 19807040629728101076062699520, .mk 107 o 0 19807040629728101072036233216, .mk 108 o 0
  19807040629728101072036233216, .mk 109 o 0 19807040629728101072036233216, .mk 110 o 0 19807040629728101072036233216,
  .mk 111 o 0 19807040629728101072036233216, .mk 112 o 0 19807040629728101072036233216, .mk 114 o 0
  19807040629728101072036233216, .mk 115 o 0 19807040629728101072036233216, .mk 116 o 0 19807040629728101072036233216,
  .mk 119 o 0 19807040629728101076062699520, .mk 120 o 0 19807040629728101076062699520, .mk 125 o 0
  19807040629728101076062699520, .mk 126 o 0 19807040629728101076062699520, .mk 127 o 0 19807040629728101076062699520,
  .mk 128 o 0 19807040629728101076062699520, .mk 129 o 0 19807040629728101076062699520, .mk 154 o 0
  19807040629728101076062699520, .mk 155 o 0 19807040629728101076062699520, .mk 156 o 0 19807040629728101076062699520,
  .mk 157 o 0 19807040629728101071767732224, .mk 158 o 0 19807040629728101076062699520, .mk 159 o 0
  19807040629728101076062699520, .mk 160 o 0 19807040629728101076062699520, .mk 161 o 0 19807040629728101076062699520,
  .mk 174 o 0 19807040629728101071767732224, .mk 175 o 0 19807040629728101071767732224, .mk 176 o 0
  19807040629728101071767732224, .mk 177 o 0 218514326072384070798812420693941026880, .mk 184 o 0
  19807040629728101071767732224, .mk 185 o 0 19807040629728101076062699520, .mk 186 o 0 19807040629728101076062699520,
  .mk 187 o 0 19807040629728101072036233216, .mk 188 o 0 19807040629728101072036233216, .mk 199 o 0
  19807040629728101076062699520, .mk 200 o 0 19807040629728101076062699520, .mk 201 o 0 19807040629728101076062699520,
  .mk 202 o 0 19807040629728101076062699520, .mk 203 o 0 19807040629728101076062699520, .mk 204 o 0
  19807040629728101076062699520, .mk 205 o 0 19807040629728101076062699520, .mk 206 o 0 19807040629728101076062699520,
  .mk 207 o 0 19807040629728101076062699520, .mk 208 o 0 19807040629728101076062699520, .mk 209 o 0
  19807040629728101076062699520, .mk 210 o 0 19807040629728101076062699520, .mk 211 o 0 19807040629728101076062699520,
  .mk 212 o 0 19807040629728101076062699520, .mk 213 o 0 19807040629728101076062699520, .mk 214 o 0
  19807040629728101076062699520, .mk 215 o 0 19807040629728101076062699520, .mk 216 o 0 19807040629728101076062699520,
  .mk 217 o 0 19807040629728101076062699520, .mk 218 o 0 19807040629728101076062699520, .mk 219 o 0
  19807040629728101071767732224, .mk 220 o 0 19807040629728101071767732224, .mk 221 o 0 19807040629728101071767732224,
  .mk 222 o 0 19807040629728101071767732224, .mk 223 o 0 19807040629728101076062699520, .mk 224 o 0
  19807040629728101076062699520, .mk 225 o 0 19807040629728101076062699520, .mk 226 o 0 19807040629728101076062699520,
  .mk 235 o 0 8589934592, .mk 236 o 0 8589934592, .mk 237 o 0 19807040628566101999161966592, .mk 238 o 0
  19807040628566101999161966592, .mk 239 o 0 19807040628566101990572032000, .mk 240 o 0 19807040628575179567160885248,
  .mk 241 o 0 19807040628575179567160885248, .mk 242 o 0 9077567998918656, .mk 243 o 0 19807040628575179567160885248,
  .mk 244 o 0 19807040628575179567160885248, .mk 245 o 0 1152921504606846976, .mk 251 o 0
  19807040629728101071767732224, .mk 252 o 0 19807040629728101071767732224, .mk 252 o 1 19807040629728136257213562880,
  .mk 253 o 0 19807040629728101071767732224, .mk 254 o 0 19807040629728101071767732224, .mk 255 o 0
  19807040629728101071767732224, .mk 256 o 0 19807040629728101071767732224, .mk 257 o 0 19807040629728101071767732224,
  .mk 258 o 0 19807040629728101071767732224, .mk 259 o 0 19807040629728101071767732224, .mk 260 o 0 65536, .mk 261 o 0
  65536, .mk 264 o 0 268500992, .mk 265 o 0 268500992, .mk 268 o 0 19807040629728101071767732224, .mk 269 o 0
  19807040629728101071767732224, .mk 270 o 0 19807040629728101071767732224, .mk 271 o 0
  19807040629728101071767732224]) (l [.mk 253 o 1 19807040629728136257213562880])))))) (n 13 (n 6 (n 3 (n 1 (l [.mk
  254 o 1 19807040629728136257213562880]) (n 1 (l [.mk 255 o 1 19807040629728136257213562880]) (l [.mk 256 o 1
  19807040629728136257213562880]))) (n 1 (l [.mk 257 o 1 19807040629728136257213562880]) (n 1 (l [.mk 258 o 1
  19807040629728136257213562880, .mk 264 o 1 268500992]) (l [.mk 259 o 1 19807040629728136257213562880])))) (n 3 (n 1
  (l [.mk 217 o 1 19807040629728136261508530176, .mk 227 o 0 19807040629728136261508530176, .mk 269 o 1
  19807040629728136257213562880]) (n 1 (l [.mk 270 o 1 19807040629728136257213562880, .mk 271 o 1
  19807040629728136257213562880]) (l [.mk 260 o 1 65536, .mk 261 o 1 65536]))) (n 2 (n 1 (l [.mk 265 o 1 268500992])
  (l [.mk 6 o 0 4294967296, .mk 120 o 3 41538553131644279289559156431290560, .mk 121 o 0 1207959552, .mk 122 o 0
  1207959552, .mk 123 o 0 1207959552, .mk 124 o 0 1207959552])) (n 1 (l [.mk 161 o 3
  41538553131644279289559156431290560]) (l [.mk 162 o 1 134217728, .mk 163 o 1 134217728, .mk 173 o 1 1207959552])))))
  (n 7 (n 3 (n 1 (l [.mk 164 o 1 134217728, .mk 166 o 0 134217728, .mk 167 o 0 134217728]) (n 1 (l [.mk 172 o 1
  1207959552]) (l [.mk 130 o 1 1207959552, .mk 131 o 1 1207959552, .mk 287 ex 0 1207959552]))) (n 2 (n 1 (l [.mk 2 o 0
  41538553131644279289559156431290560, .mk 51 o 0 41538553131644279289559156431290560, .mk 56 o 0
  41538553131644279289559156431290560, .mk 57 o 0 41538553131644279289559156431290560, .mk 58 o 0
  41538553131644279289559156431290560, .mk 59 o 0 41538553131644279289559156431290560, .mk 60 o 0
  41538553131644279289559156431290560, .mk 61 o 0 41538553131644279289559156431290560, .mk 62 o 0
  41538553131644279289559156431290560, .mk 63 o 0 41538553131644279289559156431290560, .mk 64 o 0
  41538553131644279289559156431290560, .mk 65 o 0 41538553131644279289559156431290560, .mk 66 o 0
  41538553131644279289559156431290560, .mk 67 o 0 41538553131644279289559156431290560, .mk 68 o 0
  41538553131644279289559156431290560, .mk 69 o 0 41538553131644279289559156431290560, .mk 70 o 0
  41538553131644279289559156431290560, .mk 71 o 0 41538553131644279289559156431290560, .mk 72 o 0
  41538553131644279289559156431290560, .mk 73 o 0 41538553131644279289559156431290560, .mk 74 o 0
  41538553131644279289559156431290560, .mk 75 o 0 41538553131644279289559156431290560, .mk 76 o 0
  41538553131644279289559156431290560, .mk 77 o 1 41538553131644279289559152136323264, .mk 83 o 0
  41538553131644279289559156431290560, .mk 86 o 0 41538553131644279289559156431290560, .mk 87 o 0
  41538553131644279289559156431290560, .mk 96 o 0 41538553131644279289559156431290560, .mk 106 o 0
  41538553131644279289559156431290560, .mk 119 o 0 41538553131644279289559156431290560, .mk 120 o 0
  41538553131644279289559156431290560, .mk 125 o 0 41538553131644279289559156431290560, .mk 126 o 0
  41538553131644279289559156431290560, .mk 127 o 0 41538553131644279289559156431290560, .mk 128 o 0
  41538553131644279289559156431290560, .mk 129 o 0 41538553131644279289559156431290560, .mk 154 o 0
  41538553131644279289559156431290560, .mk 155 o 0 41538553131644279289559156431290560, .mk 156 o 0
  41538553131644279289559156431290560, .mk 157 o 0 41538553131644279289559152136323264, .mk 158 o 0
  41538553131644279289559156431290560, .mk 159 o 0 41538553131644279289559156431290560, .mk 160 o 0
  41538553131644279289559156431290560, .mk 161 o 0 41538553131644279289559156431290560, .mk 174 o 0
  41538553131644279289559152136323264, .mk 175 o 0 41538553131644279289559152136323264, .mk 176 o 0
  41538553131644279289559152136323264, .mk 177 o 0 218514326072384070798812420693941026880, .mk 184 o 0
  41538553131644279289559152136323264, .mk 185 o 0 41538553131644279289559156431290560, .mk 186 o 0
  41538553131644279289559156431290560, .mk 199 o 0 41538553131644279289559156431290560, .mk 200 o 0
  41538553131644279289559156431290560, .mk 201 o 0 41538553131644279289559156431290560, .mk 202 o 0
  41538553131644279289559156431290560, .mk 203 o 0 41538553131644279289559156431290560, .mk 204 o 0
  41538553131644279289559156431290560, .mk 205 o 0 41538553131644279289559156431290560, .mk 206 o 0
  41538553131644279289559156431290560, .mk 207 o 0 41538553131644279289559156431290560, .mk 208 o 0
  41538553131644279289559156431290560, .mk 209 o 0 41538553131644279289559156431290560, .mk 210 o 0
  41538553131644279289559156431290560, .mk 211 o 0 41538553131644279289559156431290560, .mk 212 o 0
  41538553131644279289559156431290560, .mk 213 o 0 41538553131644279289559156431290560, .mk 214 o 0
  41538553131644279289559156431290560, .mk 215 o 0 41538553131644279289559156431290560, .mk 216 o 0
  41538553131644279289559156431290560, .mk 217 o 0 41538553131644279289559156431290560, .mk 218 o 0
  41538553131644279289559156431290560, .mk 219 o 0 41538553131644279289559152136323264, .mk 220 o 0
  41538553131644279289559152136323264, .mk 221 o 0 41538553131644279289559152136323264, .mk 222 o 0
  41538553131644279289559152136323264, .mk 223 o 0 41538553131644279289559156431290560, .mk 224 o 0
  41538553131644279289559156431290560, .mk 225 o 0 41538553131644279289559156431290560, .mk 226 o 0
  41538553131644279289559156431290560]) (l [.mk 96 o 3 41538553131644279289559156431290560])) (n 1 (l [.mk 97 o 1
  134217728, .mk 98 o 1 134217728, .mk 99 o 1 134217728]) (l [.mk 100 o 1 1207959552])))) (n 3 (n 1 (l [.mk 102 o 1
  134217728, .mk 103 o 1 1207959552]) (n 1 (l [.mk 104 o 1 1207959552]) (l [.mk 90 o 1 1207959552, .mk 91 o 1
  1207959552, .mk 105 o 1 1207959552]))) (n 2 (n 1 (l [.mk 87 o 3 41538553131644279289559156431290560, .mk 89 o 1
  1207959552]) (l [.mk 88 o 1 1207959552])) (n 1 (l [.mk 90 o 1 1207959552, .mk 91 o 1 1207959552]) (l [.mk 127 o 3
  41538553131644279289559156431290560]))))))))) (n 108 (n 54 (n 27 (n 13 (n 6 (n 3 (n 1 (l [.mk 128 o 3
  41538553131644279289559156431290560, .mk 132 o 0 134217728, .mk 133 o 0 134217728]) (n 1 (l [.mk 129 o 3
  41538553131644279289559156431290560]) (l [.mk 134 o 1 134217728, .mk 135 o 1 134217728, .mk 136 o 1 134217728, .mk
  149 o 1 1207959552]))) (n 1 (l [.mk 148 o 1 1208483840]) (n 1 (l [.mk 150 o 1 1208483840, .mk 151 o 1 1208483840,
  .mk 152 o 1 1208483840]) (l [.mk 153 o 1 1208483840])))) (n 3 (n 1 (l [.mk 184 o 3
  41538553131644279289559152136323264, .mk 217 o 1 41538553131644279289559156431290560, .mk 227 o 0
  41538553131644279289559156431290560]) (n 1 (l [.mk 185 o 3 41538553131644279289559156431290560]) (l [.mk 2 o 0
  41538553131644279289559156431290560, .mk 6 o 0 218514001553830412353638893464210899008, .mk 51 o 0
  41538553131644279289559156431290560, .mk 56 o 0 41538553131644279289559156431290560, .mk 57 o 0
  41538553131644279289559156431290560, .mk 58 o 0 41538553131644279289559156431290560, .mk 59 o 0
  41538553131644279289559156431290560, .mk 60 o 0 41538553131644279289559156431290560, .mk 61 o 0
  41538553131644279289559156431290560, .mk 62 o 0 41538553131644279289559156431290560, .mk 63 o 0
  41538553131644279289559156431290560, .mk 64 o 0 41538553131644279289559156431290560, .mk 65 o 0
  41538553131644279289559156431290560, .mk 66 o 0 41538553131644279289559156431290560, .mk 67 o 0
  41538553131644279289559156431290560, .mk 68 o 0 41538553131644279289559156431290560, .mk 69 o 0
  41538553131644279289559156431290560, .mk 70 o 0 41538553131644279289559156431290560, .mk 71 o 0
  41538553131644279289559156431290560, .mk 72 o 0 41538553131644279289559156431290560, .mk 73 o 0
  41538553131644279289559156431290560, .mk 74 o 0 41538553131644279289559156431290560, .mk 75 o 0
  41538553131644279289559156431290560, .mk 76 o 0 41538553131644279289559156431290560, .mk 77 o 0
  41538553131644279289559152136323264, .mk 83 o 0 41538553131644279289559156431290560, .mk 86 o 0
  41538553131644279289559156431290560, .mk 87 o 0 41538553131644279289559156431290560, .mk 96 o 0
  41538553131644279289559156431290560, .mk 106 o 0 41538553131644279289559156431290560, .mk 119 o 0
  41538553131644279289559156431290560, .mk 120 o 0 41538553131644279289559156431290560, .mk 125 o 0
  41538553131644279289559156431290560, .mk 126 o 0 41538553131644279289559156431290560, .mk 127 o 0
  41538553131644279289559156431290560, .mk 128 o 0 41538553131644279289559156431290560, .mk 129 o 0
  41538553131644279289559156431290560, .mk 154 o 0 41538553131644279289559156431290560, .mk 155 o 0
  41538553131644279289559156431290560, .mk 156 o 0 41538553131644279289559156431290560, .mk 157 o 0
  41538553131644279289559152136323264, .mk 158 o 0 41538553131644279289559156431290560, .mk 159 o 0
  41538553131644279289559156431290560, .mk 160 o 0 41538553131644279289559156431290560, .mk 161 o 0
  41538553131644279289559156431290560, .mk 174 o 0 41538553131644279289559152136323264, .mk 175 o 0
  41538553131644279289559152136323264, .mk 176 o 0 41538553131644279289559152136323264, .mk 177 o 0
  218514326072384070798812420693941026880, .mk 184 o 0 41538553131644279289559152136323264, .mk 185 o 0
  41538553131644279289559156431290560, .mk 186 o 0 41538553131644279289559156431290560, .mk 199 o 0
  41538553131644279289559156431290560, .mk 200 o 0 41538553131644279289559156431290560, .mk 201 o 0
  41538553131644279289559156431290560, .mk 202 o 0 41538553131644279289559156431290560, .mk 203 o 0
  41538553131644279289559156431290560, .mk 204 o 0 41538553131644279289559156431290560, .mk 205 o 0
  41538553131644279289559156431290560, .mk 206 o 0 41538553131644279289559156431290560, .mk 207 o 0
  41538553131644279289559156431290560, .mk 208 o 0 41538553131644279289559156431290560, .mk 209 o 0
  41538553131644279289559156431290560, .mk 210 o 0 41538553131644279289559156431290560, .mk 211 o 0
  41538553131644279289559156431290560, .mk 212 o 0 41538553131644279289559156431290560, .mk 213 o 0
  41538553131644279289559156431290560, .mk 214 o 0 41538553131644279289559156431290560, .mk 215 o 0
  41538553131644279289559156431290560, .mk 216 o 0 41538553131644279289559156431290560, .mk 217 o 0
  41538553131644279289559156431290560, .mk 218 o 0 41538553131644279289559156431290560, .mk 219 o 0
  41538553131644279289559152136323264, .mk 220 o 0 41538553131644279289559152136323264, .mk 221 o 0
  41538553131644279289559152136323264, .mk 221 o 3 41538553131644279289559152136323264, .mk 222 o 0
  41538553131644279289559152136323264, .mk 223 o 0 41538553131644279289559156431290560, .mk 224 o 0
  41538553131644279289559156431290560, .mk 225 o 0 41538553131644279289559156431290560, .mk 225 o 3
  41538553131644279289559156431290560, .mk 226 o 0 41538553131644279289559156431290560]))) (n 2 (n 1 (l [.mk 2 o 0
  41538553131644279289559156431290560, .mk 6 o 0 218514001553830412353638893464210899008, .mk 51 o 0
  41538553131644279289559156431290560, .mk 56 o 0 41538553131644279289559156431290560, .mk 57 o 0
  41538553131644279289559156431290560, .mk 58 o 0 41538553131644279289559156431290560, .mk 59 o 0
  41538553131644279289559156431290560, .mk 60 o 0 41538553131644279289559156431290560, .mk 61 o 0
  41538553131644279289559156431290560, .mk 62 o 0 41538553131644279289559156431290560, .mk 63 o 0
  41538553131644279289559156431290560, .mk 64 o 0 41538553131644279289559156431290560, .mk 65 o 0
  41538553131644279289559156431290560, .mk 66 o 0 41538553131644279289559156431290560, .mk 67 o 0
  41538553131644279289559156431290560, .mk 68 o 0 41538553131644279289559156431290560, .mk 69 o 0
  41538553131644279289559156431290560, .mk 70 o 0 41538553131644279289559156431290560, .mk 71 o 0
  41538553131644279289559156431290560, .mk 72 o 0 41538553131644279289559156431290560, .mk 73 o 0
  41538553131644279289559156431290560, .mk 74 o 0 41538553131644279289559156431290560, .mk 75 o 0
  41538553131644279289559156431290560, .mk 76 o 0 41538553131644279289559156431290560, .mk 77 o 0
  41538553131644279289559152136323264, .mk 83 o 0 41538553131644279289559156431290560, .mk 86 o 0
  41538553131644279289559156431290560, .mk 87 o 0 41538553131644279289559156431290560, .mk 96 o 0
  41538553131644279289559156431290560, .mk 106 o 0 41538553131644279289559156431290560, .mk 119 o 0
  41538553131644279289559156431290560, .mk 120 o 0 41538553131644279289559156431290560, .mk 125 o 0
  41538553131644279289559156431290560, .mk 126 o 0 41538553131644279289559156431290560, .mk 127 o 0
  41538553131644279289559156431290560, .mk 128 o 0 41538553131644279289559156431290560, .mk 129 o 0
  41538553131644279289559156431290560, .mk 154 o 0 41538553131644279289559156431290560, .mk 155 o 0
  41538553131644279289559156431290560, .mk 156 o 0 41538553131644279289559156431290560, .mk 157 o 0
  41538553131644279289559152136323264, .mk 158 o 0 41538553131644279289559156431290560, .mk 159 o 0
  41538553131644279289559156431290560, .mk 160 o 0 41538553131644279289559156431290560, .mk 161 o 0
  41538553131644279289559156431290560, .mk 174 o 0 41538553131644279289559152136323264, .mk 175 o 0
  41538553131644279289559152136323264, .mk 176 o 0 41538553131644279289559152136323264, .mk 177 o 0
  218514326072384070798812420693941026880, .mk 184 o 0 41538553131644279289559152136323264, .mk 185 o 0
  41538553131644279289559156431290560, .mk 186 o 0 41538553131644279289559156431290560, .mk 199 o 0
  41538553131644279289559156431290560, .mk 200 o 0 41538553131644279289559156431290560, .mk 201 o 0
  41538553131644279289559156431290560, .mk 202 o 0 41538553131644279289559156431290560, .mk 203 o 0
  41538553131644279289559156431290560, .mk 204 o 0 41538553131644279289559156431290560, .mk 205 o 0
  41538553131644279289559156431290560, .mk 206 o 0 41538553131644279289559156431290560, .mk 207 o 0
  41538553131644279289559156431290560, .mk 208 o 0 41538553131644279289559156431290560, .mk 209 o 0
  41538553131644279289559156431290560, .mk 210 o 0 41538553131644279289559156431290560, .mk 211 o 0
  41538553131644279289559156431290560, .mk 212 o 0 41538553131644279289559156431290560, .mk 213 o 0
  41538553131644279289559156431290560, .mk 214 o 0 41538553131644279289559156431290560, .mk 215 o 0
  41538553131644279289559156431290560, .mk 216 o 0 41538553131644279289559156431290560, .mk 217 o 0
  41538553131644279289559156431290560, .mk 218 o 0 41538553131644279289559156431290560, .mk 219 o 0
  41538553131644279289559152136323264, .mk 220 o 0 41538553131644279289559152136323264, .mk 221 o 0
  41538553131644279289559152136323264, .mk 222 o 0 41538553131644279289559152136323264, .mk 222 o 3
  41538553131644279289559152136323264, .mk 223 o 0 41538553131644279289559156431290560, .mk 224 o 0
  41538553131644279289559156431290560, .mk 225 o 0 41538553131644279289559156431290560, .mk 226 o 0
  41538553131644279289559156431290560, .mk 226 o 3 41538553131644279289559156431290560]) (l [.mk 268 o 2
  29710560944011178456406556672])) (n 1 (l [.mk 154 o 3 41538553131644279289559156431290560]) (l [.mk 132 o 0
  134217728, .mk 133 o 0 134217728, .mk 155 o 3 41538553131644279289559156431290560]))))) (n 7 (n 3 (n 1 (l [.mk 156 o
  3 41538553131644279289559156431290560]) (n 1 (l [.mk 157 o 3 41538553131644279289559152136323264, .mk 217 o 1
  41538553131644279289559156431290560, .mk 227 o 0 41538553131644279289559156431290560]) (l [.mk 158 o 3
  41538553131644279289559156431290560]))) (n 2 (n 1 (l [.mk 2 o 0 41538553131644279289559156431290560, .mk 6 o 0
  218514001553830412353638893464210899008, .mk 51 o 0 41538553131644279289559156431290560, .mk 56 o 0
  41538553131644279289559156431290560, .mk 57 o 0 41538553131644279289559156431290560, .mk 58 o 0
  41538553131644279289559156431290560, .mk 59 o 0 41538553131644279289559156431290560, .mk 60 o 0
  41538553131644279289559156431290560, .mk 61 o 0 41538553131644279289559156431290560, .mk 62 o 0
  41538553131644279289559156431290560, .mk 63 o 0 41538553131644279289559156431290560, .mk 64 o 0
  41538553131644279289559156431290560, .mk 65 o 0 41538553131644279289559156431290560, .mk 66 o 0
  41538553131644279289559156431290560, .mk 67 o 0 41538553131644279289559156431290560, .mk 68 o 0
  41538553131644279289559156431290560, .mk 69 o 0 41538553131644279289559156431290560, .mk 70 o 0
  41538553131644279289559156431290560, .mk 71 o 0 41538553131644279289559156431290560, .mk 72 o 0
  41538553131644279289559156431290560, .mk 73 o 0 41538553131644279289559156431290560, .mk 74 o 0
  41538553131644279289559156431290560, .mk 75 o 0 41538553131644279289559156431290560, .mk 76 o 0
  41538553131644279289559156431290560, .mk 77 o 0 41538553131644279289559152136323264, .mk 83 o 0
  41538553131644279289559156431290560, .mk 86 o 0 41538553131644279289559156431290560, .mk 87 o 0
  41538553131644279289559156431290560, .mk 96 o 0 41538553131644279289559156431290560, .mk 106 o 0
  41538553131644279289559156431290560, .mk 119 o 0 41538553131644279289559156431290560, .mk 120 o 0
  41538553131644279289559156431290560, .mk 125 o 0 41538553131644279289559156431290560, .mk 126 o 0
  41538553131644279289559156431290560, .mk 127 o 0 41538553131644279289559156431290560, .mk 128 o 0
  41538553131644279289559156431290560, .mk 129 o 0 41538553131644279289559156431290560, .mk 154 o 0
  41538553131644279289559156431290560, .mk 155 o 0 41538553131644279289559156431290560, .mk 156 o 0
  41538553131644279289559156431290560, .mk 157 o 0 41538553131644279289559152136323264, .mk 158 o 0
  41538553131644279289559156431290560, .mk 159 o 0 41538553131644279289559156431290560, .mk 160 o 0
  41538553131644279289559156431290560, .mk 161 o 0 41538553131644279289559156431290560, .mk 174 o 0
  41538553131644279289559152136323264, .mk 175 o 0 41538553131644279289559152136323264, .mk 176 o 0
  41538553131644279289559152136323264, .mk 177 o 0 218514326072384070798812420693941026880, .mk 184 o 0
  41538553131644279289559152136323264, .mk 185 o 0 41538553131644279289559156431290560, .mk 186 o 0
  41538553131644279289559156431290560, .mk 199 o 0 41538553131644279289559156431290560, .mk 200 o 0
  41538553131644279289559156431290560, .mk 201 o 0 41538553131644279289559156431290560, .mk 202 o 0
  41538553131644279289559156431290560, .mk 203 o 0 41538553131644279289559156431290560, .mk 204 o 0
  41538553131644279289559156431290560, .mk 205 o 0 41538553131644279289559156431290560, .mk 206 o 0
  41538553131644279289559156431290560, .mk 207 o 0 41538553131644279289559156431290560, .mk 208 o 0
  41538553131644279289559156431290560, .mk 209 o 0 41538553131644279289559156431290560, .mk 210 o 0
  41538553131644279289559156431290560, .mk 211 o 0 41538553131644279289559156431290560, .mk 212 o 0
  41538553131644279289559156431290560, .mk 213 o 0 41538553131644279289559156431290560, .mk 214 o 0
  41538553131644279289559156431290560, .mk 215 o 0 41538553131644279289559156431290560, .mk 216 o 0
  41538553131644279289559156431290560, .mk 217 o 0 41538553131644279289559156431290560, .mk 218 o 0
  41538553131644279289559156431290560, .mk 219 o 0 41538553131644279289559152136323264, .mk 219 o 3
  41538553131644279289559152136323264, .mk 220 o 0 41538553131644279289559152136323264, .mk 221 o 0
  41538553131644279289559152136323264, .mk 222 o 0 41538553131644279289559152136323264, .mk 223 o 0
  41538553131644279289559156431290560, .mk 223 o 3 41538553131644279289559156431290560, .mk 224 o 0
  41538553131644279289559156431290560, .mk 225 o 0 41538553131644279289559156431290560, .mk 226 o 0
  41538553131644279289559156431290560]) (l [.mk 2 o 0 41538553131644279289559156431290560, .mk 6 o 0
  218514001553830412353638893464210899008, .mk 51 o 0 41538553131644279289559156431290560, .mk 56 o 0
  41538553131644279289559156431290560, .mk 57 o 0 41538553131644279289559156431290560, .mk 58 o 0
  41538553131644279289559156431290560, .mk 59 o 0 41538553131644279289559156431290560, .mk 60 o 0
  41538553131644279289559156431290560, .mk 61 o 0 41538553131644279289559156431290560, .mk 62 o 0
  41538553131644279289559156431290560, .mk 63 o 0 41538553131644279289559156431290560, .mk 64 o 0
  41538553131644279289559156431290560, .mk 65 o 0 41538553131644279289559156431290560, .mk 66 o 0
  41538553131644279289559156431290560, .mk 67 o 0 41538553131644279289559156431290560, .mk 68 o 0
  41538553131644279289559156431290560, .mk 69 o 0 41538553131644279289559156431290560, .mk 70 o 0
  41538553131644279289559156431290560, .mk 71 o 0 41538553131644279289559156431290560, .mk 72 o 0
  41538553131644279289559156431290560, .mk 73 o 0 41538553131644279289559156431290560, .mk 74 o 0
  41538553131644279289559156431290560, .mk 75 o 0 41538553131644279289559156431290560, .mk 76 o 0
  41538553131644279289559156431290560, .mk 77 o 0 41538553131644279289559152136323264, .mk 83 o 0
  41538553131644279289559156431290560, .mk 86 o 0 41538553131644279289559156431290560, .mk 87 o 0
  41538553131644279289559156431290560, .mk 96 o 0 41538553131644279289559156431290560, .mk 106 o 0
  41538553131644279289559156431290560, .mk 119 o 0 41538553131644279289559156431290560, .mk 120 o 0
  41538553131644279289559156431290560, .mk 125 o 0 41538553131644279289559156431290560, .mk 126 o 0
  41538553131644279289559156431290560, .mk 127 o 0 41538553131644279289559156431290560, .mk 128 o 0
  41538553131644279289559156431290560, .mk 129 o 0 41538553131644279289559156431290560, .mk 154 o 0
  41538553131644279289559156431290560, .mk 155 o 0 41538553131644279289559156431290560, .mk 156 o 0
  41538553131644279289559156431290560, .mk 157 o 0 41538553131644279289559152136323264, .mk 158 o 0
  41538553131644279289559156431290560, .mk 159 o 0 41538553131644279289559156431290560, .mk 160 o 0
  41538553131644279289559156431290560, .mk 161 o 0 41538553131644279289559156431290560, .mk 174 o 0
  41538553131644279289559152136323264, .mk 175 o 0 41538553131644279289559152136323264, .mk 176 o 0
  41538553131644279289559152136323264, .mk 177 o 0 218514326072384070798812420693941026880, .mk 184 o 0
  41538553131644279289559152136323264, .mk 185 o 0 41538553131644279289559156431290560, .mk 186 o 0
  41538553131644279289559156431290560, .mk 199 o 0 41538553131644279289559156431290560, .mk 200 o 0
  41538553131644279289559156431290560, .mk 201 o 0 41538553131644279289559156431290560, .mk 202 o 0
  41538553131644279289559156431290560, .mk 203 o 0 41538553131644279289559156431290560, .mk 204 o 0
  41538553131644279289559156431290560, .mk 205 o 0 41538553131644279289559156431290560, .mk 206 o 0
  41538553131644279289559156431290560, .mk 207 o 0 41538553131644279289559156431290560, .mk 208 o 0
  41538553131644279289559156431290560, .mk 209 o 0 41538553131644279289559156431290560, .mk 210 o 0
  41538553131644279289559156431290560, .mk 211 o 0 41538553131644279289559156431290560, .mk 212 o 0
  41538553131644279289559156431290560, .mk 213 o 0 41538553131644279289559156431290560, .mk 214 o 0
  41538553131644279289559156431290560, .mk 215 o 0 41538553131644279289559156431290560, .mk 216 o 0
  41538553131644279289559156431290560, .mk 217 o 0 41538553131644279289559156431290560, .mk 218 o 0
  41538553131644279289559156431290560, .mk 219 o 0 41538553131644279289559152136323264, .mk 220 o 0
  41538553131644279289559152136323264, .mk 220 o 3 41538553131644279289559152136323264, .mk 221 o 0
  41538553131644279289559152136323264, .mk 222 o 0 41538553131644279289559152136323264, .mk 223 o 0
  41538553131644279289559156431290560, .mk 224 o 0 41538553131644279289559156431290560, .mk 224 o 3
  41538553131644279289559156431290560, .mk 225 o 0 41538553131644279289559156431290560, .mk 226 o 0
  41538553131644279289559156431290560])) (n 1 (l [.mk 6 o 0 41538553131644279289559156431290560, .mk 160 o 3
  41538553131644279289559156431290560]) (l [.mk 175 o 3 41538553131644279289559152136323264, .mk 217 o 1
  41538553131644279289559156431290560, .mk 227 o 0 41538553131644279289559156431290560])))) (n 3 (n 1 (l [.mk 176 o 3
  41538553131644279289559152136323264, .mk 217 o 1 41538553131644279289559156431290560, .mk 227 o 0
  41538553131644279289559156431290560]) (n 1 (l [.mk 177 o 3 218514326072384070798812420693941026880]) (l [.mk 178 o 1
  34359738368]))) (n 2 (n 1 (l [.mk 179 o 1 34359738368]) (l [.mk 5 o 1 42949672960])) (n 1 (l [.mk 52 o 1
  4442204144064]) (l [.mk 53 o 1 4442204144064])))))) (n 13 (n 6 (n 3 (n 1 (l [.mk 37 o 2 4398046511296]) (n 1 (l [.mk
  38 o 1 4398046511296]) (l [.mk 39 o 1 4398046511296]))) (n 1 (l [.mk 187 o 2 19807040629732644255290687680]) (n 1 (l
  [.mk 3 o 0 2147483648, .mk 4 o 0 134218176, .mk 6 o 0 4294967296, .mk 52 o 0 134218176, .mk 53 o 0 134218176, .mk
  188 o 2 19807040629732644255290687680, .mk 189 o 0 134217728, .mk 190 o 0 134217728, .mk 192 o 0 134218176, .mk 193
  o 0 134218176, .mk 194 o 0 134218176, .mk 194 o 1 134217728, .mk 195 nf 0 134218176, .mk 197 o 0 134218176]) (l [.mk
  3 o 0 2147483648, .mk 4 o 0 134218176, .mk 6 o 0 4294967296, .mk 52 o 0 134218176, .mk 53 o 0 134218176, .mk 189 o 0
  134217728, .mk 189 o 1 134217728, .mk 189 ol 1 134217728, .mk 190 o 0 134217728, .mk 190 o 1 134217728, .mk 190 ol 1
  134217728, .mk 192 o 0 134218176, .mk 193 o 0 134218176, .mk 194 o 0 134218176, .mk 195 nf 0 134218176, .mk 197 o 0
  134218176])))) (n 3 (n 1 (l []) (n 1 (l [.mk 192 o 1 134218176, .mk 192 oh 1 448]) (l [.mk 193 o 1 134218176, .mk
  193 oh 1 448]))) (n 2 (n 1 (l [.mk 4 o 1 134218176, .mk 6 o 1 4294967296]) (l [.mk 197 o 1 134218176])) (n 1 (l [.mk
  195 o 1 8589934592, .mk 195 nf 1 134218176]) (l [.mk 114 o 2 19807040629732639857244176576, .mk 115 o 2
  19807040629732639857244176576]))))) (n 7 (n 3 (n 1 (l [.mk 116 o 2 19807040629732639857244176576, .mk 117 o 0
  19807040629732639857244176576, .mk 118 o 0 19807040629732639857244176576]) (n 1 (l [.mk 93 o 2
  19807040629732639857244176576, .mk 114 o 1 19807040629732639857244176576, .mk 115 o 1 19807040629732639857244176576,
  .mk 116 o 1 19807040629732639857244176576]) (l [.mk 110 o 2 19807040629732639857244176576]))) (n 2 (n 1 (l [.mk 227
  o 3 51923156752234248829803085771079872]) (l [.mk 2 o 0 141733920768, .mk 3 o 0 2147483648, .mk 4 o 0 9797894144,
  .mk 51 o 0 141733920768, .mk 52 o 0 9797894144, .mk 53 o 0 9797894144, .mk 56 o 0 141733920768, .mk 57 o 0
  141733920768, .mk 58 o 0 141733920768, .mk 59 o 0 141733920768, .mk 60 o 0 141733920768, .mk 61 o 0 141733920768,
  .mk 62 o 0 141733920768, .mk 63 o 0 141733920768, .mk 64 o 0 141733920768, .mk 65 o 0 141733920768, .mk 66 o 0
  141733920768, .mk 67 o 0 141733920768, .mk 68 o 0 141733920768, .mk 69 o 0 141733920768, .mk 70 o 0 141733920768,
  .mk 71 o 0 141733920768, .mk 72 o 0 141733920768, .mk 73 o 0 141733920768, .mk 74 o 0 141733920768, .mk 75 o 0
  141733920768, .mk 76 o 0 141733920768, .mk 83 o 0 141733920768, .mk 86 o 0 141733920768, .mk 87 o 0 141733920768,
  .mk 92 o 0 9797894144, .mk 93 o 0 9797894144, .mk 96 o 0 141733920768, .mk 106 o 0 141733920768, .mk 119 o 0
  141733920768, .mk 120 o 0 141733920768, .mk 125 o 0 141733920768, .mk 126 o 0 141733920768, .mk 127 o 0
  141733920768, .mk 128 o 0 141733920768, .mk 129 o 0 141733920768, .mk 154 o 0 141733920768, .mk 155 o 0
  141733920768, .mk 156 o 0 141733920768, .mk 157 o 0 137438953472, .mk 158 o 0 141733920768, .mk 159 o 0
  141733920768, .mk 160 o 0 141733920768, .mk 161 o 0 141733920768, .mk 174 o 0 137438953472, .mk 175 o 0
  137438953472, .mk 176 o 0 137438953472, .mk 177 o 0 218514326072384070798812420693941026880, .mk 184 o 0
  137438953472, .mk 185 o 0 141733920768, .mk 186 o 0 141733920768, .mk 199 o 0 141733920768, .mk 200 o 0
  141733920768, .mk 201 o 0 141733920768, .mk 202 o 0 141733920768, .mk 203 o 0 141733920768, .mk 204 o 0
  141733920768, .mk 205 o 0 141733920768, .mk 206 o 0 141733920768, .mk 207 o 0 141733920768, .mk 208 o 0
  141733920768, .mk 209 o 0 141733920768, .mk 210 o 0 141733920768, .mk 211 o 0 141733920768, .mk 212 o 0
  141733920768, .mk 213 o 0 141733920768, .mk 214 o 0 141733920768, .mk 215 o 0 141733920768, .mk 216 o 0
  141733920768, .mk 217 o 0 141733920768, .mk 218 o 0 141733920768, .mk 219 o 0 137438953472, .mk 220 o 0
  137438953472, .mk 221 o 0 137438953472, .mk 222 o 0 137438953472, .mk 223 o 0 141733920768, .mk 224 o 0
  141733920768, .mk 225 o 0 141733920768, .mk 226 o 0 141733920768, .mk 287 o 1 9797894144, .mk 287 ex 1 1207959552,
  .mk 289 o 0 9797894144, .mk 290 o 0 9797894144, .mk 291 o 0 9797894144])) (n 1 (l [.mk 231 o 2 35192962023424, .mk
  232 o 2 35192962023424]) (l [.mk 236 o 2 35194035765248])))) (n 3 (n 1 (l [.mk 2 o 0 19807040628575214756901683200,
  .mk 6 o 0 19807040628575214752875216896, .mk 51 o 0 19807040628575214756901683200, .mk 56 o 0
  19807040628575214756901683200, .mk 57 o 0 19807040628575214756901683200, .mk 58 o 0 19807040628575214756901683200,
  .mk 59 o 0 19807040628575214756901683200, .mk 60 o 0 19807040628575214756901683200, .mk 61 o 0
  19807040628575214756901683200, .mk 62 o 0 19807040628575214756901683200, .mk 63 o 0 19807040628575214756901683200,
  .mk 64 o 0 19807040628575214756901683200, .mk 65 o 0 19807040628575214756901683200, .mk 66 o 0
  19807040628575214756901683200, .mk 67 o 0 19807040628575214756901683200, .mk 68 o 0 19807040628575214756901683200,
  .mk 69 o 0 19807040628575214756901683200, .mk 70 o 0 19807040628575214756901683200, .mk 71 o 0
  19807040628575214756901683200, .mk 72 o 0 19807040628575214756901683200, .mk 73 o 0 19807040628575214756901683200,
  .mk 74 o 0 19807040628575214756901683200, .mk 75 o 0 19807040628575214756901683200, .mk 76 o 0
  19807040628575214756901683200, .mk 78 o 0 19807040628575214752875216896, .mk 79 o 0 19807040628575214752875216896,
  .mk 80 o 0 19807040628575214752875216896, .mk 81 o 0 19807040628575214752875216896, .mk 82 o 0
  19807040628575214752875216896, .mk 83 o 0 19807040628575214756901683200, .mk 84 o 0 19807040628575214752875216896,
  .mk 85 o 0 19807040628575214752875216896, .mk 86 o 0 19807040628575214756901683200, .mk 87 o 0
  19807040628575214756901683200, .mk 92 o 0 19807040628575214752875216896, .mk 93 o 0 19807040628575214752875216896,
  .mk 94 o 0 19807040628575214752875216896, .mk 95 o 0 19807040628575214752875216896, .mk 96 o 0
  19807040628575214756901683200, .mk 106 o 0 19807040628575214756901683200, .mk 107 o 0 19807040628575214752875216896,
  .mk 108 o 0 19807040628575214752875216896, .mk 109 o 0 19807040628575214752875216896, .mk 110 o 0
  19807040628575214752875216896, .mk 111 o 0 19807040628575214752875216896, .mk 112 o 0 19807040628575214752875216896,
  .mk 114 o 0 19807040628575214752875216896, .mk 115 o 0 19807040628575214752875216896, .mk 116 o 0
  19807040628575214752875216896, .mk 119 o 0 19807040628575214756901683200, .mk 120 o 0 19807040628575214756901683200,
  .mk 125 o 0 19807040628575214756901683200, .mk 126 o 0 19807040628575214756901683200, .mk 127 o 0
  19807040628575214756901683200, .mk 128 o 0 19807040628575214756901683200, .mk 129 o 0 19807040628575214756901683200,
  .mk 154 o 0 19807040628575214756901683200, .mk 155 o 0 19807040628575214756901683200, .mk 156 o 0
  19807040628575214756901683200, .mk 157 o 0 19807040628575214752606715904, .mk 158 o 0 19807040628575214756901683200,
  .mk 159 o 0 19807040628575214756901683200, .mk 160 o 0 19807040628575214756901683200, .mk 161 o 0
  19807040628575214756901683200, .mk 174 o 0 19807040628575214752606715904, .mk 175 o 0 19807040628575214752606715904,
  .mk 176 o 0 19807040628575214752606715904, .mk 177 o 0 218514326072384070798812420693941026880, .mk 184 o 0
  19807040628575214752606715904, .mk 185 o 0 19807040628575214756901683200, .mk 186 o 0 19807040628575214756901683200,
  .mk 187 o 0 19807040628575214752875216896, .mk 188 o 0 19807040628575214752875216896, .mk 199 o 0
  19807040628575214756901683200, .mk 200 o 0 19807040628575214756901683200, .mk 201 o 0 19807040628575214756901683200,
  .mk 202 o 0 19807040628575214756901683200, .mk 203 o 0 19807040628575214756901683200, .mk 204 o 0
  19807040628575214756901683200, .mk 205 o 0 19807040628575214756901683200, .mk 206 o 0 19807040628575214756901683200,
  .mk 207 o 0 19807040628575214756901683200, .mk 208 o 0 19807040628575214756901683200, .mk 209 o 0
  19807040628575214756901683200, .mk 210 o 0 19807040628575214756901683200, .mk 211 o 0 19807040628575214756901683200,
  .mk 212 o 0 19807040628575214756901683200, .mk 213 o 0 19807040628575214756901683200, .mk 214 o 0
  19807040628575214756901683200, .mk 215 o 0 19807040628575214756901683200, .mk 216 o 0 19807040628575214756901683200,
  .mk 217 o 0 19807040628575214756901683200, .mk 218 o 0 19807040628575214756901683200, .mk 219 o 0
  19807040628575214752606715904, .mk 220 o 0 19807040628575214752606715904, .mk 221 o 0 19807040628575214752606715904,
  .mk 222 o 0 19807040628575214752606715904, .mk 223 o 0 19807040628575214756901683200, .mk 224 o 0
  19807040628575214756901683200, .mk 225 o 0 19807040628575214756901683200, .mk 226 o 0 19807040628575214756901683200,
  .mk 246 o 1 19807040628575214752606715904, .mk 251 o 0 19807040628575214752606715904, .mk 252 o 0
  19807040628575214752606715904, .mk 253 o 0 19807040628575214752606715904, .mk 254 o 0 19807040628575214752606715904,
  .mk 255 o 0 19807040628575214752606715904, .mk 256 o 0 19807040628575214752606715904, .mk 257 o 0
  19807040628575214752606715904, .mk 258 o 0 19807040628575214752606715904, .mk 259 o 0 19807040628575214752606715904,
  .mk 260 o 0 65536, .mk 261 o 0 65536, .mk 264 o 0 268500992, .mk 265 o 0 268500992, .mk 268 o 0
  19807040628575214752606715904, .mk 269 o 0 19807040628575214752606715904, .mk 270 o 0 19807040628575214752606715904,
  .mk 271 o 0 19807040628575214752606715904]) (n 1 (l [.mk 2 o 0 19807040629728136261508530176, .mk 6 o 0
  19807040629728136257482063872, .mk 51 o 0 19807040629728136261508530176, .mk 56 o 0 19807040629728136261508530176,
  .mk 57 o 0 19807040629728136261508530176, .mk 58 o 0 19807040629728136261508530176, .mk 59 o 0
  19807040629728136261508530176, .mk 60 o 0 19807040629728136261508530176, .mk 61 o 0 19807040629728136261508530176,
  .mk 62 o 0 19807040629728136261508530176, .mk 63 o 0 19807040629728136261508530176, .mk 64 o 0
  19807040629728136261508530176, .mk 65 o 0 19807040629728136261508530176, .mk 66 o 0 19807040629728136261508530176,
  .mk 67 o 0 19807040629728136261508530176, .mk 68 o 0 19807040629728136261508530176, .mk 69 o 0
  19807040629728136261508530176, .mk 70 o 0 19807040629728136261508530176, .mk 71 o 0 19807040629728136261508530176,
  .mk 72 o 0 19807040629728136261508530176, .mk 73 o 0 19807040629728136261508530176, .mk 74 o 0
  19807040629728136261508530176, .mk 75 o 0 19807040629728136261508530176, .mk 76 o 0 19807040629728136261508530176,
  .mk 78 o 0 19807040629728136257482063872, .mk 79 o 0 19807040629728136257482063872, .mk 80 o 0
  19807040629728136257482063872, .mk 81 o 0 19807040629728136257482063872, .mk 82 o 0 19807040629728136257482063872,
  .mk 83 o 0 19807040629728136261508530176, .mk 84 o 0 19807040629728136257482063872, .mk 85 o 0
  19807040629728136257482063872, .mk 86 o 0 19807040629728136261508530176, .mk 87 o 0 19807040629728136261508530176,
  .mk 92 o 0 19807040629728136257482063872, .mk 93 o 0 19807040629728136257482063872, .mk 94 o 0
  19807040629728136257482063872, .mk 95 o 0 19807040629728136257482063872, .mk 96 o 0 19807040629728136261508530176,
  .mk 106 o 0 19807040629728136261508530176, .mk 107 o 0 19807040629728136257482063872, .mk 108 o 0
  19807040629728136257482063872, .mk 109 o 0 19807040629728136257482063872, .mk 110 o 0 19807040629728136257482063872,
  .mk 111 o 0 19807040629728136257482063872, .mk 112 o 0 19807040629728136257482063872, .mk 114 o 0
  19807040629728136257482063872, .mk 115 o 0 19807040629728136257482063872, .mk 116 o 0 19807040629728136257482063872,
  .mk 119 o 0 19807040629728136261508530176, .mk 120 o 0 19807040629728136261508530176, .mk 125 o 0
  19807040629728136261508530176, .mk 126 o 0 19807040629728136261508530176, .mk 127 o 0 19807040629728136261508530176,
  .mk 128 o 0 19807040629728136261508530176, .mk 129 o 0 19807040629728136261508530176, .mk 154 o 0
  19807040629728136261508530176, .mk 155 o 0 19807040629728136261508530176, .mk 156 o 0 19807040629728136261508530176,
  .mk 157 o 0 19807040629728136257213562880, .mk 158 o 0 19807040629728136261508530176, .mk 159 o 0
  19807040629728136261508530176, .mk 160 o 0 19807040629728136261508530176, .mk 161 o 0 19807040629728136261508530176,
  .mk 174 o 0 19807040629728136257213562880, .mk 175 o 0 19807040629728136257213562880, .mk 176 o 0
  19807040629728136257213562880, .mk 177 o 0 218514326072384070798812420693941026880, .mk 184 o 0
  19807040629728136257213562880, .mk 185 o 0 19807040629728136261508530176, .mk 186 o 0 19807040629728136261508530176,
  .mk 187 o 0 19807040629728136257482063872, .mk 188 o 0 19807040629728136257482063872, .mk 199 o 0
  19807040629728136261508530176, .mk 200 o 0 19807040629728136261508530176, .mk 201 o 0 19807040629728136261508530176,
  .mk 202 o 0 19807040629728136261508530176, .mk 203 o 0 19807040629728136261508530176, .mk 204 o 0
  19807040629728136261508530176, .mk 205 o 0 19807040629728136261508530176, .mk 206 o 0 19807040629728136261508530176,
  .mk 207 o 0 19807040629728136261508530176, .mk 208 o 0 19807040629728136261508530176, .mk 209 o 0
  19807040629728136261508530176, .mk 210 o 0 19807040629728136261508530176, .mk 211 o 0 19807040629728136261508530176,
  .mk 212 o 0 19807040629728136261508530176, .mk 213 o 0 19807040629728136261508530176, .mk 214 o 0
  19807040629728136261508530176, .mk 215 o 0 19807040629728136261508530176, .mk 216 o 0 19807040629728136261508530176,
  .mk 217 o 0 19807040629728136261508530176, .mk 218 o 0 19807040629728136261508530176, .mk 219 o 0
  19807040629728136257213562880, .mk 220 o 0 19807040629728136257213562880, .mk 221 o 0 19807040629728136257213562880,
  .mk 222 o 0 19807040629728136257213562880, .mk 223 o 0 19807040629728136261508530176, .mk 224 o 0
  19807040629728136261508530176, .mk 225 o 0 19807040629728136261508530176, .mk 226 o 0 19807040629728136261508530176,
  .mk 238 o 2 19807040628566137184607797248, .mk 240 o 0 19807040628575214752606715904, .mk 241 o 0
  19807040628575214752606715904, .mk 242 o 0 9077567998918656, .mk 243 o 0 19807040628575214752606715904, .mk 244 o 0
  19807040628575214752606715904, .mk 245 o 0 1152921504606846976, .mk 251 o 0 19807040629728136257213562880, .mk 252 o
  0 19807040629728136257213562880, .mk 253 o 0 19807040629728136257213562880, .mk 254 o 0
  19807040629728136257213562880, .mk 255 o 0 19807040629728136257213562880, .mk 256 o 0 19807040629728136257213562880,
  .mk 257 o 0 19807040629728136257213562880, .mk 258 o 0 19807040629728136257213562880, .mk 259 o 0
  19807040629728136257213562880, .mk 260 o 0 65536, .mk 261 o 0 65536, .mk 264 o 0 268500992, .mk 265 o 0 268500992,
  .mk 268 o 0 19807040629728136257213562880, .mk 269 o 0 19807040629728136257213562880, .mk 270 o 0
  19807040629728136257213562880, .mk 271 o 0 19807040629728136257213562880]) (l [.mk 247 o 1
  303585242321250925883012047128183701952]))) (n 2 (n 1 (l [.mk 248 o 1 303585242321250925883012047128183701952]) (l
  [.mk 2 o 0 19807040629728136261508530176, .mk 6 o 0 19807040629728136257482063872, .mk 51 o 0
  19807040629728136261508530176, .mk 56 o 0 19807040629728136261508530176, .mk 57 o 0 19807040629728136261508530176,
  .mk 58 o 0 19807040629728136261508530176, .mk 59 o 0 19807040629728136261508530176, .mk 60 o 0
  19807040629728136261508530176, .mk 61 o 0 19807040629728136261508530176, .mk 62 o 0 19807040629728136261508530176,
  .mk 63 o 0 19807040629728136261508530176, .mk 64 o 0 19807040629728136261508530176, .mk 65 o 0
  19807040629728136261508530176, .mk 66 o 0 19807040629728136261508530176, .mk 67 o 0 19807040629728136261508530176,
  .mk 68 o 0 19807040629728136261508530176, .mk 69 o 0 19807040629728136261508530176, .mk 70 o 0
  19807040629728136261508530176, .mk 71 o 0 19807040629728136261508530176, .mk 72 o 0 19807040629728136261508530176,
  .mk 73 o 0 19807040629728136261508530176, .mk 74 o 0 19807040629728136261508530176, .mk 75 o 0
  19807040629728136261508530176, .mk 76 o 0 19807040629728136261508530176, .mk 78 o 0 19807040629728136257482063872,
  .mk 79 o 0 19807040629728136257482063872, .mk 80 o 0 19807040629728136257482063872, .mk 81 o 0
  19807040629728136257482063872, .mk 82 o 0 19807040629728136257482063872, .mk 83 o 0 19807040629728136261508530176,
  .mk 84 o 0 19807040629728136257482063872, .mk 85 o 0 19807040629728136257482063872, .mk 86 o 0
  19807040629728136261508530176, .mk 87 o 0 19807040629728136261508530176, .mk 92 o 0 19807040629728136257482063872,
  .mk 93 o 0 19807040629728136257482063872, .mk 94 o 0 19807040629728136257482063872, .mk 95 o 0
  19807040629728136257482063872, .mk 96 o 0 19807040629728136261508530176, .mk 106 o 0 19807040629728136261508530176,
  .mk 107 o 0 19807040629728136257482063872, .mk 108 o 0 19807040629728136257482063872, .mk 109 o 0
  19807040629728136257482063872, .mk 110 o 0 19807040629728136257482063872, .mk 111 o 0 19807040629728136257482063872,
  .mk 112 o 0 19807040629728136257482063872, .mk 114 o 0 19807040629728136257482063872, .mk 115 o 0
  19807040629728136257482063872, .mk 116 o 0 19807040629728136257482063872, .mk 119 o 0 19807040629728136261508530176,
  .mk 120 o 0 19807040629728136261508530176, .mk 125 o 0 19807040629728136261508530176, .mk 126 o 0
  19807040629728136261508530176, .mk 127 o 0 19807040629728136261508530176, .mk 128 o 0 19807040629728136261508530176,
  .mk 129 o 0 19807040629728136261508530176, .mk 154 o 0 19807040629728136261508530176, .mk 155 o 0
  19807040629728136261508530176, .mk 156 o 0 19807040629728136261508530176, .mk 157 o 0 19807040629728136257213562880,
  .mk 158 o 0 19807040629728136261508530176, .mk 159 o 0 19807040629728136261508530176, .mk 160 o 0
  19807040629728136261508530176, .mk 161 o 0 19807040629728136261508530176, .mk 174 o 0 19807040629728136257213562880,
  .mk 175 o 0 19807040629728136257213562880, .mk 176 o 0 19807040629728136257213562880, .mk 177 o 0
  218514326072384070798812420693941026880, .mk 184 o 0 19807040629728136257213562880, .mk 185 o 0
  19807040629728136261508530176, .mk 186 o 0 19807040629728136261508530176, .mk 187 o 0 19807040629728136257482063872,
  .mk 188 o 0 19807040629728136257482063872, .mk 199 o 0 19807040629728136261508530176, .mk 200 o 0
  19807040629728136261508530176, .mk 201 o 0 19807040629728136261508530176, .mk 202 o 0 19807040629728136261508530176,
  .mk 203 o 0 19807040629728136261508530176, .mk 204 o 0 19807040629728136261508530176, .mk 205 o 0
  19807040629728136261508530176, .mk 206 o 0 19807040629728136261508530176, .mk 207 o 0 19807040629728136261508530176,
  .mk 208 o 0 19807040629728136261508530176, .mk 209 o 0 19807040629728136261508530176, .mk 210 o 0
  19807040629728136261508530176, .mk 211 o 0 19807040629728136261508530176, .mk 212 o 0 19807040629728136261508530176,
  .mk 213 o 0 19807040629728136261508530176, .mk 214 o 0 19807040629728136261508530176, .mk 215 o 0
  19807040629728136261508530176, .mk 216 o 0 19807040629728136261508530176, .mk 217 o 0 19807040629728136261508530176,
  .mk 218 o 0 19807040629728136261508530176, .mk 219 o 0 19807040629728136257213562880, .mk 220 o 0
  19807040629728136257213562880, .mk 221 o 0 19807040629728136257213562880, .mk 222 o 0 19807040629728136257213562880,
  .mk 223 o 0 19807040629728136261508530176, .mk 224 o 0 19807040629728136261508530176, .mk 225 o 0
  19807040629728136261508530176, .mk 226 o 0 19807040629728136261508530176, .mk 241 o 2 19807040628575214752606715904,
  .mk 243 o 0 19807040628575214752606715904, .mk 244 o 0 19807040628575214752606715904, .mk 245 o 0
  1152921504606846976, .mk 251 o 0 19807040629728136257213562880, .mk 252 o 0 19807040629728136257213562880, .mk 253 o
  0 19807040629728136257213562880, .mk 254 o 0 19807040629728136257213562880, .mk 255 o 0
  19807040629728136257213562880, .mk 256 o 0 19807040629728136257213562880, .mk 257 o 0 19807040629728136257213562880,
  .mk 258 o 0 19807040629728136257213562880, .mk 259 o 0 19807040629728136257213562880, .mk 260 o 0 65536, .mk 261 o 0
  65536, .mk 264 o 0 268500992, .mk 265 o 0 268500992, .mk 268 o 0 19807040629728136257213562880, .mk 269 o 0
  19807040629728136257213562880, .mk 270 o 0 19807040629728136257213562880, .mk 271 o 0
  19807040629728136257213562880])) (n 1 (l [.mk 249 o 1 303585242321250925883012047128183701952]) (l [.mk 250 o 1
  303585242321250925883012047128183701952]))))))) (n 27 (n 13 (n 6 (n 3 (n 1 (l [.mk 244 o 2
  19807040628575214752606715904]) (n 1 (l [.mk 252 o 2 19807040629728136257213562880]) (l [.mk 6 o 0
  19807040629728136257213562880, .mk 78 o 0 19807040629728136257213562880, .mk 79 o 0 19807040629728136257213562880,
  .mk 80 o 0 19807040629728136257213562880, .mk 81 o 0 19807040629728136257213562880, .mk 82 o 0
  19807040629728136257213562880, .mk 84 o 0 19807040629728136257213562880, .mk 85 o 0 19807040629728136257213562880,
  .mk 92 o 0 19807040629728136257213562880, .mk 93 o 0 19807040629728136257213562880, .mk 94 o 0
  19807040629728136257213562880, .mk 95 o 0 19807040629728136257213562880, .mk 107 o 0 19807040629728136257213562880,
  .mk 108 o 0 19807040629728136257213562880, .mk 109 o 0 19807040629728136257213562880, .mk 110 o 0
  19807040629728136257213562880, .mk 111 o 0 19807040629728136257213562880, .mk 112 o 0 19807040629728136257213562880,
  .mk 114 o 0 19807040629728136257213562880, .mk 115 o 0 19807040629728136257213562880, .mk 116 o 0
  19807040629728136257213562880, .mk 187 o 0 19807040629728136257213562880, .mk 188 o 0 19807040629728136257213562880,
  .mk 259 o 2 19807040629728136257213562880, .mk 262 o 0 19807040629728136257213562880, .mk 263 o 0
  19807040629728136257213562880, .mk 266 o 0 19807040629728136257213562880, .mk 267 o 0
  19807040629728136257213562880]))) (n 1 (l [.mk 227 o 0 19807040629728136257213562880, .mk 270 o 2
  19807040629728136257213562880, .mk 272 o 0 19807040629728136257213562880]) (n 1 (l [.mk 271 o 2
  19807040629728136257213562880, .mk 273 o 0 19807040629728136257213562880, .mk 274 o 0 19807040629728136257213562880,
  .mk 275 o 0 19807040629728136257213562880, .mk 276 o 0 19807040629728136257213562880]) (l [.mk 261 o 2 65536])))) (n
  3 (n 1 (l [.mk 120 o 4 41538553131644279289559156431290560, .mk 122 o 1 1207959552]) (n 1 (l [.mk 121 o 1
  1207959552]) (l [.mk 123 o 1 1207959552, .mk 124 o 1 1207959552]))) (n 2 (n 1 (l [.mk 161 o 4
  41538553131644279289559156431290560]) (l [.mk 6 o 0 218514001553830412353638893464210899008, .mk 77 o 0 1207959552,
  .mk 130 o 0 1207959552, .mk 131 o 0 1207959552, .mk 162 o 2 134217728, .mk 173 o 2 1207959552])) (n 1 (l [.mk 132 o
  0 134217728, .mk 133 o 0 134217728, .mk 164 o 2 134217728]) (l [.mk 6 o 0 218514001553830412353638893464210899008,
  .mk 77 o 0 1207959552, .mk 166 o 1 134217728, .mk 168 o 0 1207959552, .mk 169 o 0 1207959552, .mk 170 o 0
  1207959552]))))) (n 7 (n 3 (n 1 (l [.mk 131 o 2 1207959552]) (n 1 (l [.mk 77 o 2
  41538553131644279289559152136323264, .mk 217 o 1 41538553131644279289559156431290560, .mk 227 o 0
  41538553131644279289559156431290560]) (l [.mk 96 o 4 41538553131644279289559156431290560]))) (n 2 (n 1 (l [.mk 98 o
  2 134217728, .mk 99 o 2 134217728]) (l [.mk 6 o 0 5502926848, .mk 90 o 0 1207959552, .mk 91 o 0 1207959552, .mk 102
  o 0 134217728, .mk 103 o 0 1207959552, .mk 103 o 2 1207959552, .mk 104 o 0 1207959552, .mk 105 o 0 1207959552])) (n
  1 (l [.mk 3 o 0 2147483648, .mk 4 o 0 8589934592, .mk 52 o 0 8589934592, .mk 53 o 0 8589934592, .mk 90 o 2
  1207959552, .mk 91 o 2 1207959552, .mk 92 o 0 8589934592, .mk 93 o 0 8589934592]) (l [.mk 87 o 4
  41538553131644279289559156431290560])))) (n 3 (n 1 (l [.mk 6 o 0 4294967296, .mk 89 o 2 1207959552, .mk 90 o 0
  1207959552, .mk 91 o 0 1207959552]) (n 1 (l [.mk 128 o 4 41538553131644279289559156431290560]) (l [.mk 132 o 1
  134217728]))) (n 2 (n 1 (l [.mk 129 o 4 41538553131644279289559156431290560]) (l [.mk 6 o 0
  218514001553830412353638893464210899008, .mk 77 o 0 41538533324603649556919158929620992, .mk 130 o 0 1207959552, .mk
  131 o 0 1207959552, .mk 135 o 2 134217728, .mk 136 o 2 134217728, .mk 149 o 2 1207959552, .mk 150 o 0 1207959552,
  .mk 151 o 0 1207959552, .mk 152 o 0 1207959552, .mk 153 o 0 1207959552])) (n 1 (l [.mk 151 o 2 1208483840]) (l [.mk
  6 o 0 1208483840, .mk 78 o 0 1208483840, .mk 79 o 0 1208483840, .mk 80 o 0 1208483840, .mk 81 o 0 1208483840, .mk 82
  o 0 1208483840, .mk 84 o 0 1208483840, .mk 85 o 0 1208483840, .mk 92 o 0 1208483840, .mk 93 o 0 1208483840, .mk 94 o
  0 1208483840, .mk 95 o 0 1208483840, .mk 107 o 0 1208483840, .mk 108 o 0 1208483840, .mk 109 o 0 1208483840, .mk 110
  o 0 1208483840, .mk 111 o 0 1208483840, .mk 112 o 0 1208483840, .mk 114 o 0 1208483840, .mk 115 o 0 1208483840, .mk
  116 o 0 1208483840, .mk 152 o 2 1208483840, .mk 187 o 0 1208483840, .mk 188 o 0 1208483840])))))) (n 13 (n 6 (n 3 (n
  1 (l [.mk 2 o 0 5503451136, .mk 51 o 0 5503451136, .mk 56 o 0 5503451136, .mk 57 o 0 5503451136, .mk 58 o 0
  5503451136, .mk 59 o 0 5503451136, .mk 60 o 0 5503451136, .mk 61 o 0 5503451136, .mk 62 o 0 5503451136, .mk 63 o 0
  5503451136, .mk 64 o 0 5503451136, .mk 65 o 0 5503451136, .mk 66 o 0 5503451136, .mk 67 o 0 5503451136, .mk 68 o 0
  5503451136, .mk 69 o 0 5503451136, .mk 70 o 0 5503451136, .mk 71 o 0 5503451136, .mk 72 o 0 5503451136, .mk 73 o 0
  5503451136, .mk 74 o 0 5503451136, .mk 75 o 0 5503451136, .mk 76 o 0 5503451136, .mk 83 o 0 5503451136, .mk 86 o 0
  5503451136, .mk 87 o 0 5503451136, .mk 96 o 0 5503451136, .mk 106 o 0 5503451136, .mk 119 o 0 5503451136, .mk 120 o
  0 5503451136, .mk 125 o 0 5503451136, .mk 126 o 0 5503451136, .mk 127 o 0 5503451136, .mk 128 o 0 5503451136, .mk
  129 o 0 5503451136, .mk 153 o 2 1208483840, .mk 154 o 0 5503451136, .mk 155 o 0 5503451136, .mk 156 o 0 5503451136,
  .mk 157 o 0 1208483840, .mk 158 o 0 5503451136, .mk 159 o 0 5503451136, .mk 160 o 0 5503451136, .mk 161 o 0
  5503451136, .mk 174 o 0 1208483840, .mk 175 o 0 1208483840, .mk 176 o 0 1208483840, .mk 177 o 0
  218514326072384070798812420693941026880, .mk 184 o 0 1208483840, .mk 185 o 0 5503451136, .mk 186 o 0 5503451136, .mk
  199 o 0 5503451136, .mk 200 o 0 5503451136, .mk 201 o 0 5503451136, .mk 202 o 0 5503451136, .mk 203 o 0 5503451136,
  .mk 204 o 0 5503451136, .mk 205 o 0 5503451136, .mk 206 o 0 5503451136, .mk 207 o 0 5503451136, .mk 208 o 0
  5503451136, .mk 209 o 0 5503451136, .mk 210 o 0 5503451136, .mk 211 o 0 5503451136, .mk 212 o 0 5503451136, .mk 213
  o 0 5503451136, .mk 214 o 0 5503451136, .mk 215 o 0 5503451136, .mk 216 o 0 5503451136, .mk 217 o 0 5503451136, .mk
  218 o 0 5503451136, .mk 219 o 0 1208483840, .mk 220 o 0 1208483840, .mk 221 o 0 1208483840, .mk 222 o 0 1208483840,
  .mk 223 o 0 5503451136, .mk 224 o 0 5503451136, .mk 225 o 0 5503451136, .mk 226 o 0 5503451136]) (n 1 (l [.mk 217 o
  1 41538553131644279289559156431290560, .mk 221 o 4 41538553131644279289559152136323264, .mk 227 o 0
  41538553131644279289559156431290560]) (l [.mk 225 o 4 41538553131644279289559156431290560]))) (n 1 (l [.mk 217 o 1
  41538553131644279289559156431290560, .mk 222 o 4 41538553131644279289559152136323264, .mk 227 o 0
  41538553131644279289559156431290560]) (n 1 (l [.mk 226 o 4 41538553131644279289559156431290560]) (l [.mk 155 o 4
  41538553131644279289559156431290560])))) (n 3 (n 1 (l [.mk 156 o 4 41538553131644279289559156431290560]) (n 1 (l
  [.mk 217 o 1 41538553131644279289559156431290560, .mk 219 o 4 41538553131644279289559152136323264, .mk 227 o 0
  41538553131644279289559156431290560]) (l [.mk 223 o 4 41538553131644279289559156431290560]))) (n 2 (n 1 (l [.mk 217
  o 1 41538553131644279289559156431290560, .mk 220 o 4 41538553131644279289559152136323264, .mk 227 o 0
  41538553131644279289559156431290560]) (l [.mk 224 o 4 41538553131644279289559156431290560])) (n 1 (l [.mk 160 o 4
  41538553131644279289559156431290560]) (l [.mk 177 o 4 218514326072384070798812420693941026880]))))) (n 7 (n 3 (n 1
  (l [.mk 4 o 0 4442204144064, .mk 52 o 2 4442204144064]) (n 1 (l [.mk 187 o 3 19807040629732644255290687680]) (l [.mk
  188 o 3 19807040629732644255290687680]))) (n 2 (n 1 (l [.mk 194 o 1 134218176]) (l [.mk 190 o 2 134217728, .mk 190
  ol 2 134217728])) (n 1 (l [.mk 3 o 0 2147483648, .mk 4 o 0 8589934592, .mk 52 o 0 8589934592, .mk 53 o 0 8589934592,
  .mk 195 o 0 8589934592, .mk 196 o 0 8589934592, .mk 197 o 2 134218176]) (l [.mk 114 o 3
  19807040629732639857244176576, .mk 115 o 3 19807040629732639857244176576])))) (n 3 (n 1 (l [.mk 116 o 3
  19807040629732639857244176576]) (n 1 (l [.mk 117 o 1 19807040629732639857244176576]) (l [.mk 118 o 1
  19807040629732639857244176576]))) (n 2 (n 1 (l [.mk 227 o 4 51923156752234248829803085771079872]) (l [.mk 287 o 2
  9797894144, .mk 287 ex 2 1207959552])) (n 1 (l [.mk 289 o 1 9797894144]) (l [.mk 290 o 1 9797894144])))))))) (n 54
  (n 27 (n 13 (n 6 (n 3 (n 1 (l [.mk 217 o 1 141733920768, .mk 227 o 0 141733920768, .mk 291 o 1 9797894144]) (n 1 (l
  [.mk 92 o 1 9797894144]) (l [.mk 93 o 1 9797894144]))) (n 1 (l [.mk 231 o 3 35192962023424, .mk 232 o 3
  35192962023424]) (n 1 (l [.mk 246 o 2 19807040628575214752606715904]) (l [.mk 238 o 3 19807040628566137184607797248,
  .mk 242 o 1 9077567998918656])))) (n 3 (n 1 (l [.mk 241 o 3 19807040628575214752606715904]) (n 1 (l [.mk 252 o 3
  19807040629728136257213562880]) (l [.mk 259 o 3 19807040629728136257213562880]))) (n 2 (n 1 (l [.mk 262 o 1
  19807040629728136257213562880]) (l [.mk 6 o 0 19807040629728136257213562880, .mk 78 o 0
  19807040629728136257213562880, .mk 79 o 0 19807040629728136257213562880, .mk 80 o 0 19807040629728136257213562880,
  .mk 81 o 0 19807040629728136257213562880, .mk 82 o 0 19807040629728136257213562880, .mk 84 o 0
  19807040629728136257213562880, .mk 85 o 0 19807040629728136257213562880, .mk 92 o 0 19807040629728136257213562880,
  .mk 93 o 0 19807040629728136257213562880, .mk 94 o 0 19807040629728136257213562880, .mk 95 o 0
  19807040629728136257213562880, .mk 107 o 0 19807040629728136257213562880, .mk 108 o 0 19807040629728136257213562880,
  .mk 109 o 0 19807040629728136257213562880, .mk 110 o 0 19807040629728136257213562880, .mk 111 o 0
  19807040629728136257213562880, .mk 112 o 0 19807040629728136257213562880, .mk 114 o 0 19807040629728136257213562880,
  .mk 115 o 0 19807040629728136257213562880, .mk 116 o 0 19807040629728136257213562880, .mk 187 o 0
  19807040629728136257213562880, .mk 188 o 0 19807040629728136257213562880, .mk 263 o 1 19807040629728136257213562880,
  .mk 266 o 0 19807040629728136257213562880, .mk 267 o 0 19807040629728136257213562880])) (n 1 (l [.mk 266 o 1
  19807040629728136257213562880]) (l [.mk 267 o 1 19807040629728136257213562880]))))) (n 7 (n 3 (n 1 (l [.mk 270 o 3
  19807040629728136257213562880]) (n 1 (l [.mk 272 o 1 19807040629728136257213562880]) (l [.mk 271 o 3
  19807040629728136257213562880]))) (n 2 (n 1 (l [.mk 273 o 1 19807040629728136257213562880]) (l [.mk 274 o 1
  19807040629728136257213562880])) (n 1 (l [.mk 6 o 0 10384752173394683785876922737623040, .mk 275 o 1
  19807040629728136257213562880, .mk 276 o 1 19807040629728136257213562880, .mk 277 o 0 134217728, .mk 278 o 0
  134217728, .mk 279 o 0 1207959552]) (l [.mk 120 o 5 41538553131644279289559156431290560])))) (n 3 (n 1 (l [.mk 6 o 0
  4294967296, .mk 122 o 2 1207959552, .mk 123 o 0 1207959552, .mk 124 o 0 1207959552]) (n 1 (l [.mk 3 o 0 2147483648,
  .mk 4 o 0 8589934592, .mk 5 o 0 8589934592, .mk 52 o 0 8589934592, .mk 53 o 0 8589934592, .mk 123 o 2 1207959552,
  .mk 124 o 2 1207959552]) (l [.mk 162 o 3 134217728, .mk 166 o 0 134217728, .mk 167 o 0 134217728]))) (n 2 (n 1 (l
  [.mk 173 o 3 1207959552]) (l [.mk 164 o 3 134217728])) (n 1 (l [.mk 166 o 2 134217728, .mk 169 o 1 1207959552]) (l
  [.mk 168 o 1 1207959552])))))) (n 13 (n 6 (n 3 (n 1 (l [.mk 170 o 1 1207959552]) (n 1 (l [.mk 98 o 3 134217728, .mk
  99 o 3 134217728, .mk 287 o 0 1207959552, .mk 288 o 0 1207959552]) (l [.mk 103 o 3 1207959552]))) (n 1 (l [.mk 90 o
  3 1207959552]) (n 1 (l [.mk 91 o 3 1207959552]) (l [.mk 89 o 3 1207959552])))) (n 3 (n 1 (l [.mk 128 o 5
  41538553131644279289559156431290560]) (n 1 (l [.mk 132 o 2 134217728]) (l [.mk 135 o 3 134217728, .mk 136 o 3
  134217728, .mk 139 o 0 134217728, .mk 140 o 0 134217728]))) (n 2 (n 1 (l [.mk 149 o 3 1208483840]) (l [.mk 152 o 3
  1208483840])) (n 1 (l [.mk 153 o 3 1208483840, .mk 217 o 1 5503451136, .mk 227 o 0 5503451136]) (l [.mk 155 o 5
  41538553131644279289559156431290560]))))) (n 7 (n 3 (n 1 (l [.mk 52 o 3 4442204144064]) (n 1 (l [.mk 188 o 4
  19807040629732644255290687680]) (l [.mk 197 o 3 134218176]))) (n 2 (n 1 (l [.mk 196 o 1 8589934592]) (l [.mk 115 o 4
  19807040629732639857244176576, .mk 117 o 0 19807040629732639857244176576, .mk 118 o 0
  19807040629732639857244176576])) (n 1 (l [.mk 118 o 2 19807040629732639857244176576]) (l [.mk 6 o 0 9797894144, .mk
  78 o 0 9797894144, .mk 79 o 0 9797894144, .mk 80 o 0 9797894144, .mk 81 o 0 9797894144, .mk 82 o 0 9797894144, .mk
  84 o 0 9797894144, .mk 85 o 0 9797894144, .mk 92 o 0 9797894144, .mk 93 o 0 9797894144, .mk 94 o 0 9797894144, .mk
  95 o 0 9797894144, .mk 107 o 0 9797894144, .mk 108 o 0 9797894144, .mk 109 o 0 9797894144, .mk 110 o 0 9797894144,
  .mk 111 o 0 9797894144, .mk 112 o 0 9797894144, .mk 114 o 0 9797894144, .mk 115 o 0 9797894144, .mk 116 o 0
  9797894144, .mk 187 o 0 9797894144, .mk 188 o 0 9797894144, .mk 291 o 2 9797894144])))) (n 3 (n 1 (l [.mk 93 o 2
  9797894144]) (n 1 (l [.mk 2 o 0 19807040629728136260434788352, .mk 6 o 0 19807040629728136256408322048, .mk 51 o 0
  19807040629728136260434788352, .mk 56 o 0 19807040629728136260434788352, .mk 57 o 0 19807040629728136260434788352,
  .mk 58 o 0 19807040629728136260434788352, .mk 59 o 0 19807040629728136260434788352, .mk 60 o 0
  19807040629728136260434788352, .mk 61 o 0 19807040629728136260434788352, .mk 62 o 0 19807040629728136260434788352,
  .mk 63 o 0 19807040629728136260434788352, .mk 64 o 0 19807040629728136260434788352, .mk 65 o 0
  19807040629728136260434788352, .mk 66 o 0 19807040629728136260434788352, .mk 67 o 0 19807040629728136260434788352,
  .mk 68 o 0 19807040629728136260434788352, .mk 69 o 0 19807040629728136260434788352, .mk 70 o 0
  19807040629728136260434788352, .mk 71 o 0 19807040629728136260434788352, .mk 72 o 0 19807040629728136260434788352,
  .mk 73 o 0 19807040629728136260434788352, .mk 74 o 0 19807040629728136260434788352, .mk 75 o 0
  19807040629728136260434788352, .mk 76 o 0 19807040629728136260434788352, .mk 78 o 0 19807040629728136256408322048,
  .mk 79 o 0 19807040629728136256408322048, .mk 80 o 0 19807040629728136256408322048, .mk 81 o 0
  19807040629728136256408322048, .mk 82 o 0 19807040629728136256408322048, .mk 83 o 0 19807040629728136260434788352,
  .mk 84 o 0 19807040629728136256408322048, .mk 85 o 0 19807040629728136256408322048, .mk 86 o 0
  19807040629728136260434788352, .mk 87 o 0 19807040629728136260434788352, .mk 92 o 0 19807040629728136256408322048,
  .mk 93 o 0 19807040629728136256408322048, .mk 94 o 0 19807040629728136256408322048, .mk 95 o 0
  19807040629728136256408322048, .mk 96 o 0 19807040629728136260434788352, .mk 106 o 0 19807040629728136260434788352,
  .mk 107 o 0 19807040629728136256408322048, .mk 108 o 0 19807040629728136256408322048, .mk 109 o 0
  19807040629728136256408322048, .mk 110 o 0 19807040629728136256408322048, .mk 111 o 0 19807040629728136256408322048,
  .mk 112 o 0 19807040629728136256408322048, .mk 114 o 0 19807040629728136256408322048, .mk 115 o 0
  19807040629728136256408322048, .mk 116 o 0 19807040629728136256408322048, .mk 119 o 0 19807040629728136260434788352,
  .mk 120 o 0 19807040629728136260434788352, .mk 125 o 0 19807040629728136260434788352, .mk 126 o 0
  19807040629728136260434788352, .mk 127 o 0 19807040629728136260434788352, .mk 128 o 0 19807040629728136260434788352,
  .mk 129 o 0 19807040629728136260434788352, .mk 154 o 0 19807040629728136260434788352, .mk 155 o 0
  19807040629728136260434788352, .mk 156 o 0 19807040629728136260434788352, .mk 157 o 0 19807040629728136256139821056,
  .mk 158 o 0 19807040629728136260434788352, .mk 159 o 0 19807040629728136260434788352, .mk 160 o 0
  19807040629728136260434788352, .mk 161 o 0 19807040629728136260434788352, .mk 174 o 0 19807040629728136256139821056,
  .mk 175 o 0 19807040629728136256139821056, .mk 176 o 0 19807040629728136256139821056, .mk 177 o 0
  218514326072384070798812420693941026880, .mk 184 o 0 19807040629728136256139821056, .mk 185 o 0
  19807040629728136260434788352, .mk 186 o 0 19807040629728136260434788352, .mk 187 o 0 19807040629728136256408322048,
  .mk 188 o 0 19807040629728136256408322048, .mk 199 o 0 19807040629728136260434788352, .mk 200 o 0
  19807040629728136260434788352, .mk 201 o 0 19807040629728136260434788352, .mk 202 o 0 19807040629728136260434788352,
  .mk 203 o 0 19807040629728136260434788352, .mk 204 o 0 19807040629728136260434788352, .mk 205 o 0
  19807040629728136260434788352, .mk 206 o 0 19807040629728136260434788352, .mk 207 o 0 19807040629728136260434788352,
  .mk 208 o 0 19807040629728136260434788352, .mk 209 o 0 19807040629728136260434788352, .mk 210 o 0
  19807040629728136260434788352, .mk 211 o 0 19807040629728136260434788352, .mk 212 o 0 19807040629728136260434788352,
  .mk 213 o 0 19807040629728136260434788352, .mk 214 o 0 19807040629728136260434788352, .mk 215 o 0
  19807040629728136260434788352, .mk 216 o 0 19807040629728136260434788352, .mk 217 o 0 19807040629728136260434788352,
  .mk 218 o 0 19807040629728136260434788352, .mk 219 o 0 19807040629728136256139821056, .mk 220 o 0
  19807040629728136256139821056, .mk 221 o 0 19807040629728136256139821056, .mk 222 o 0 19807040629728136256139821056,
  .mk 223 o 0 19807040629728136260434788352, .mk 224 o 0 19807040629728136260434788352, .mk 225 o 0
  19807040629728136260434788352, .mk 226 o 0 19807040629728136260434788352, .mk 232 o 4 35192962023424, .mk 234 o 0
  35192962023424, .mk 235 o 0 35192962023424, .mk 236 o 0 35192962023424, .mk 237 o 0 19807040628566137183534055424,
  .mk 238 o 0 19807040628566137183534055424, .mk 239 o 0 19807040628566101990572032000, .mk 240 o 0
  19807040628575214751532974080, .mk 241 o 0 19807040628575214751532974080, .mk 242 o 0 9077567998918656, .mk 243 o 0
  19807040628575214751532974080, .mk 244 o 0 19807040628575214751532974080, .mk 245 o 0 1152921504606846976, .mk 251 o
  0 19807040629728136256139821056, .mk 252 o 0 19807040629728136256139821056, .mk 253 o 0
  19807040629728136256139821056, .mk 254 o 0 19807040629728136256139821056, .mk 255 o 0 19807040629728136256139821056,
  .mk 256 o 0 19807040629728136256139821056, .mk 257 o 0 19807040629728136256139821056, .mk 258 o 0
  19807040629728136256139821056, .mk 259 o 0 19807040629728136256139821056, .mk 260 o 0 65536, .mk 261 o 0 65536, .mk
  264 o 0 268500992, .mk 265 o 0 268500992, .mk 268 o 0 19807040629728136256139821056, .mk 269 o 0
  19807040629728136256139821056, .mk 270 o 0 19807040629728136256139821056, .mk 271 o 0
  19807040629728136256139821056]) (l [.mk 263 o 2 19807040629728136257213562880]))) (n 2 (n 1 (l [.mk 275 o 2
  19807040629728136257213562880]) (l [.mk 276 o 2 19807040629728136257213562880])) (n 1 (l [.mk 277 o 1 134217728, .mk
  278 o 1 134217728]) (l [.mk 227 o 0 10384752173394683785876918442655744, .mk 279 o 1 1207959552, .mk 280 o 0
  1207959552, .mk 281 o 0 10384752173394683785876918442655744, .mk 282 o 0 10384752173394683785876918442655744])))))))
  (n 27 (n 13 (n 6 (n 3 (n 1 (l [.mk 122 o 3 1207959552]) (n 1 (l [.mk 123 o 3 1207959552]) (l [.mk 124 o 3
  1207959552]))) (n 1 (l [.mk 132 o 0 134217728, .mk 133 o 0 134217728, .mk 162 o 4 134217728]) (n 1 (l [.mk 6 o 0
  218514001553830412353638893464210899008, .mk 77 o 0 1207959552, .mk 169 o 2 1207959552, .mk 170 o 0 1207959552]) (l
  [.mk 98 o 4 134217728, .mk 99 o 4 134217728])))) (n 3 (n 1 (l [.mk 90 o 4 1207959552]) (n 1 (l [.mk 91 o 4
  1207959552]) (l [.mk 132 o 0 134217728, .mk 133 o 0 134217728, .mk 135 o 4 134217728, .mk 136 o 4 134217728, .mk 138
  o 0 1073741824]))) (n 2 (n 1 (l [.mk 6 o 0 218514001553830412353638893464210899008, .mk 77 o 0
  41538533324603649556919158929620992, .mk 139 o 1 134217728, .mk 141 o 0 1207959552, .mk 142 o 0 1207959552, .mk 143
  o 0 1207959552, .mk 144 o 0 1207959552, .mk 145 o 0 1207959552, .mk 150 o 0 1207959552, .mk 151 o 0 1207959552, .mk
  152 o 0 1207959552, .mk 153 o 0 1207959552]) (l [.mk 197 o 4 134218176])) (n 1 (l [.mk 115 o 5
  19807040629732639857244176576]) (l [.mk 291 o 3 9797894144]))))) (n 7 (n 3 (n 1 (l [.mk 232 o 5 35192962023424]) (n
  1 (l [.mk 234 o 1 35192962023424]) (l [.mk 275 o 3 19807040629728136257213562880]))) (n 2 (n 1 (l [.mk 6 o 0
  10384752173394683785876922737623040, .mk 276 o 3 19807040629728136257213562880, .mk 277 o 0 134217728, .mk 278 o 0
  134217728, .mk 279 o 0 1207959552]) (l [.mk 6 o 0 10384752173394683785876922737623040, .mk 277 o 0 134217728, .mk
  278 o 0 134217728, .mk 278 o 2 134217728, .mk 279 o 0 1207959552])) (n 1 (l [.mk 279 o 2 1207959552]) (l [.mk 280 o
  1 1207959552, .mk 283 o 0 1207959552, .mk 284 o 0 1207959552, .mk 285 o 0 1207959552, .mk 286 o 0 1207959552])))) (n
  3 (n 1 (l [.mk 281 o 1 10384752173394683785876918442655744]) (n 1 (l [.mk 123 o 4 1207959552]) (l [.mk 124 o 4
  1207959552]))) (n 2 (n 1 (l [.mk 162 o 5 134217728]) (l [.mk 169 o 3 1207959552])) (n 1 (l [.mk 6 o 0 5502926848,
  .mk 90 o 0 1207959552, .mk 91 o 0 1207959552, .mk 99 o 5 134217728, .mk 101 o 0 134217728, .mk 102 o 0 134217728,
  .mk 103 o 0 134217728, .mk 104 o 0 1207959552, .mk 105 o 0 1207959552]) (l [.mk 135 o 5 134217728])))))) (n 13 (n 6
  (n 3 (n 1 (l [.mk 136 o 5 134217728]) (n 1 (l [.mk 132 o 1 134217728, .mk 138 o 1 1073741824]) (l [.mk 139 o 2
  134217728, .mk 142 o 1 1207959552]))) (n 1 (l [.mk 141 o 1 1207959552]) (n 1 (l [.mk 143 o 1 1207959552]) (l [.mk
  144 o 1 1207959552])))) (n 3 (n 1 (l [.mk 145 o 1 1207959552, .mk 146 o 0 10141204801825835211973625643136, .mk 147
  o 0 10141204801825835211973625643136]) (n 1 (l [.mk 276 o 4 19807040629728136257213562880]) (l [.mk 278 o 3
  134217728]))) (n 2 (n 1 (l [.mk 280 o 2 1207959552]) (l [.mk 283 o 1 1207959552])) (n 1 (l [.mk 284 o 1 1207959552])
  (l [.mk 285 o 1 1207959552]))))) (n 7 (n 3 (n 1 (l [.mk 99 o 6 134217728]) (n 1 (l [.mk 101 o 1 134217728]) (l [.mk
  6 o 0 218514001553830412353638893464210899008, .mk 77 o 0 41538533324603649556919158929620992, .mk 136 o 6
  134217728, .mk 148 o 0 1207959552, .mk 149 o 0 1207959552, .mk 150 o 0 1207959552, .mk 151 o 0 1207959552, .mk 152 o
  0 1207959552, .mk 153 o 0 1207959552]))) (n 2 (n 1 (l [.mk 132 o 2 134217728, .mk 138 o 2 1073741824]) (l [.mk 6 o 0
  218514001553830412353638893464210899008, .mk 77 o 0 41538533324603649556919158929620992, .mk 142 o 2 1207959552, .mk
  143 o 0 1207959552, .mk 144 o 0 1207959552, .mk 145 o 0 1207959552, .mk 150 o 0 1207959552, .mk 151 o 0 1207959552,
  .mk 152 o 0 1207959552, .mk 153 o 0 1207959552])) (n 1 (l [.mk 6 o 0 218514001553830412353638893464210899008, .mk 77
  o 0 41538533324603649556919158795927552, .mk 145 o 2 1207959552, .mk 148 o 0 1074266112, .mk 149 o 0 1074266112, .mk
  150 o 0 1074266112, .mk 151 o 0 1074266112, .mk 152 o 0 1074266112, .mk 153 o 0 1074266112]) (l [.mk 147 o 1
  10141204801825835211973625643136])))) (n 3 (n 1 (l [.mk 276 o 5 19807040629728136257213562880]) (n 1 (l [.mk 136 o 7
  134217728, .mk 149 o 1 1207959552]) (l [.mk 142 o 3 1207959552]))) (n 2 (n 1 (l [.mk 145 o 3 1207959552, .mk 149 o 1
  1074266112]) (l [.mk 147 o 2 10141204801825835211973625643136])) (n 1 (l [.mk 6 o 0
  218514001553830412353638893464210899008, .mk 77 o 0 41538533324603649556919158930145280, .mk 149 o 2 1208483840, .mk
  150 o 0 1208483840, .mk 151 o 0 1208483840, .mk 152 o 0 1208483840, .mk 153 o 0 1208483840]) (l [.mk 145 o 4
  1207959552]))))))))))

end Asn1go.LR
