/-! Generated by /verif/tools/gen_cert.py: certificates about the tables of /repo/y.go.  Nothing here is trusted, all
uses are checked in `Check.lean`. -/

namespace Asn1go.LR

/-- Balanced lookup tree. -/
inductive Tri (α : Type)
  | l (v : α)
  | n (k : Nat) (a b : Tri α)

/-- Lookup. -/
def Tri.get {α : Type} : Tri α → Nat → α
  | .l v, _ => v
  | .n k a b, i => if i < k then a.get i else b.get (i - k)

open Tri

/-- States from which a state can be entered. -/
def predsT : Tri (List Nat) :=
  (n 216 (n 108 (n 54 (n 27 (n 13 (n 6 (n 3 (n 1 (l []) (n 1 (l [0]) (l [0]))) (n 1 (l [0]) (n 1 (l
  [0,123,149,154,165,247,248,288,315,345]) (l [2])))) (n 3 (n 1 (l [3]) (n 1 (l [3]) (l [5]))) (n 2 (n 1 (l [5])
  (l [5])) (n 1 (l [5]) (l [7]))))) (n 7 (n 3 (n 1 (l [7,13]) (n 1 (l [7,13]) (l [7,13]))) (n 2 (n 1 (l [7,13])
  (l [7,13])) (n 1 (l [7,13,27]) (l
  [7,13,126,128,130,131,132,135,136,140,141,187,199,224,225,232,233,234,263,264,267,272,280,282,287,290,294,296,334,342,344,370,372,382,387,394,395,403,420,422,423,430]))))
  (n 3 (n 1 (l [8]) (n 1 (l [8]) (l [9]))) (n 2 (n 1 (l [10]) (l [11])) (n 1 (l [12]) (l [13])))))) (n 13 (n 6 (n
  3 (n 1 (l [17]) (n 1 (l [20]) (l [21]))) (n 1 (l [27]) (n 1 (l [28]) (l [30])))) (n 3 (n 1 (l [31]) (n 1 (l
  [31]) (l [31]))) (n 2 (n 1 (l [33]) (l [34])) (n 1 (l [34]) (l [35]))))) (n 7 (n 3 (n 1 (l [35]) (n 1 (l [35])
  (l [35,38,57]))) (n 2 (n 1 (l [35,38,57,62]) (l [35,38,57,62])) (n 1 (l [35,38,57,62]) (l [35,38,57,62])))) (n
  3 (n 1 (l [35,38,57,62,260]) (n 1 (l [35,37,38,49,57,62,149,154,260,288,310,315,345]) (l [37]))) (n 2 (n 1 (l
  [37]) (l [37,49])) (n 1 (l [37,49]) (l [37,49]))))))) (n 27 (n 13 (n 6 (n 3 (n 1 (l [37,49]) (n 1 (l
  [37,49,54,64,102,128,136,141,146,147,187,205,224,225,232,233,263,264,267,297,372]) (l [38]))) (n 1 (l [38]) (n
  1 (l [38]) (l [38,57])))) (n 3 (n 1 (l [39]) (n 1 (l [40]) (l [41,59]))) (n 2 (n 1 (l [49]) (l [53])) (n 1 (l
  [54]) (l [54,64,102,128,136,141,146,147,187,205,224,225,232,233,260,263,264,267,297,372]))))) (n 7 (n 3 (n 1 (l
  [54,64,102,128,136,141,146,147,187,205,224,225,232,233,260,263,264,267,297,372]) (n 1 (l
  [54,64,102,128,136,141,146,147,187,205,224,225,232,233,260,263,264,267,297,372]) (l
  [54,64,102,128,136,141,146,147,187,205,224,225,232,233,260,263,264,267,297,372]))) (n 2 (n 1 (l
  [54,64,102,128,136,141,146,147,187,205,224,225,232,233,260,263,264,267,297,372]) (l
  [54,64,102,128,136,141,146,147,187,205,224,225,232,233,260,263,264,267,297,372])) (n 1 (l
  [54,64,102,128,136,141,146,147,187,205,224,225,232,233,260,263,264,267,297,372]) (l
  [54,64,102,128,136,141,146,147,187,205,224,225,232,233,260,263,264,267,297,372])))) (n 3 (n 1 (l
  [54,64,102,128,136,141,146,147,187,205,224,225,232,233,260,263,264,267,297,372]) (n 1 (l
  [54,64,102,128,136,141,146,147,187,205,224,225,232,233,260,263,264,267,297,372]) (l
  [54,64,102,128,136,141,146,147,187,205,224,225,232,233,260,263,264,267,297,372]))) (n 2 (n 1 (l
  [54,64,102,128,136,141,146,147,187,205,224,225,232,233,260,263,264,267,297,372]) (l
  [54,64,102,128,136,141,146,147,187,205,224,225,232,233,260,263,264,267,297,372])) (n 1 (l
  [54,64,102,128,136,141,146,147,187,205,224,225,232,233,260,263,264,267,297,372]) (l
  [54,64,102,128,136,141,146,147,187,205,224,225,232,233,260,263,264,267,297,372])))))) (n 13 (n 6 (n 3 (n 1 (l
  [54,64,102,128,136,141,146,147,187,205,224,225,232,233,260,263,264,267,297,372]) (n 1 (l
  [54,64,102,128,136,141,146,147,187,205,224,225,232,233,260,263,264,267,297,372]) (l
  [54,64,102,128,136,141,146,147,187,205,224,225,232,233,260,263,264,267,297,372]))) (n 1 (l
  [54,64,102,128,136,141,146,147,187,205,224,225,232,233,260,263,264,267,297,372]) (n 1 (l
  [54,64,102,128,136,141,146,147,187,205,224,225,232,233,260,263,264,267,297,372]) (l
  [54,64,102,128,136,141,146,147,187,205,224,225,232,233,260,263,264,267,297,372])))) (n 3 (n 1 (l
  [54,64,102,128,136,141,146,147,187,205,224,225,232,233,260,263,264,267,297,372]) (n 1 (l
  [54,64,102,128,136,141,146,147,187,205,224,225,232,233,260,263,264,267,297,372]) (l
  [54,64,102,128,136,141,146,147,187,205,224,225,232,233,260,263,264,267,297,372]))) (n 2 (n 1 (l
  [54,64,102,128,136,141,146,147,187,205,224,225,232,233,260,263,264,267,297,372]) (l
  [54,64,102,128,136,141,146,147,187,205,224,225,232,233,260,263,264,267,297,372])) (n 1 (l
  [54,64,102,128,136,141,146,147,187,205,224,225,232,233,260,263,264,267,297,372]) (l
  [54,64,102,128,136,141,146,147,187,205,224,225,232,233,260,263,264,267,297,372]))))) (n 7 (n 3 (n 1 (l
  [54,64,102,128,136,141,146,147,187,205,224,225,232,233,260,263,264,267,297,372]) (n 1 (l
  [54,64,102,128,136,141,146,147,187,205,224,225,232,233,260,263,264,267,297,372]) (l
  [54,64,102,128,136,141,146,147,187,205,224,225,232,233,260,263,264,267,297,372]))) (n 2 (n 1 (l
  [54,64,102,128,136,141,146,147,187,205,224,225,232,233,260,263,264,267,297,372]) (l
  [54,64,102,128,136,141,146,147,187,205,224,225,232,233,260,263,264,267,297,372])) (n 1 (l
  [54,64,102,128,136,141,146,147,187,205,224,225,232,233,260,263,264,267,297,372]) (l
  [54,64,102,128,136,141,146,147,187,205,224,225,232,233,260,263,264,267,297,372])))) (n 3 (n 1 (l
  [54,64,102,128,136,141,146,147,187,205,224,225,232,233,260,263,264,267,297,372]) (n 1 (l
  [54,64,102,128,136,141,146,147,187,205,224,225,232,233,260,263,264,267,297,372]) (l
  [54,64,102,128,136,141,146,147,187,205,224,225,232,233,260,263,264,267,297,372]))) (n 2 (n 1 (l
  [54,64,102,128,136,141,146,147,187,205,224,225,232,233,260,263,264,267,297,372]) (l
  [54,64,102,128,136,141,146,147,187,205,224,225,232,233,260,263,264,267,297,372])) (n 1 (l
  [54,64,102,128,136,141,146,147,187,205,224,225,232,233,260,263,264,267,297,372]) (l
  [54,64,102,128,136,141,146,147,187,205,224,225,232,233,260,263,264,267,297,372])))))))) (n 54 (n 27 (n 13 (n 6
  (n 3 (n 1 (l [54,64,102,128,136,141,146,147,187,205,224,225,232,233,260,263,264,267,297,372]) (n 1 (l
  [54,64,102,128,136,141,146,147,187,205,224,225,232,233,260,263,264,267,297,372]) (l
  [54,64,102,128,136,141,146,147,187,205,224,225,232,233,260,263,264,267,297,372]))) (n 1 (l
  [54,64,102,128,136,141,146,147,187,205,224,225,232,233,260,263,264,267,297,372]) (n 1 (l
  [54,64,102,128,136,141,146,147,187,205,224,225,232,233,260,263,264,267,297,372]) (l
  [54,64,102,128,136,141,146,147,187,205,224,225,232,233,260,263,264,267,297,372])))) (n 3 (n 1 (l
  [54,64,102,128,136,141,146,147,187,205,224,225,232,233,260,263,264,267,297,372]) (n 1 (l
  [54,64,102,128,136,141,146,147,187,205,224,225,232,233,260,263,264,267,297,372]) (l
  [54,64,102,128,136,141,146,147,187,205,224,225,232,233,260,263,264,267,297,372]))) (n 2 (n 1 (l
  [54,64,102,128,136,141,146,147,187,205,224,225,232,233,260,263,264,267,297,372]) (l
  [54,64,102,128,136,141,146,147,187,205,224,225,232,233,260,263,264,267,297,372])) (n 1 (l
  [54,64,102,128,136,141,146,147,187,205,224,225,232,233,260,263,264,267,297,372]) (l
  [54,64,102,128,136,141,146,147,187,205,224,225,232,233,260,263,264,267,297,372]))))) (n 7 (n 3 (n 1 (l [56]) (n
  1 (l [57]) (l [59]))) (n 2 (n 1 (l [62]) (l [64])) (n 1 (l [65]) (l
  [65,125,145,195,222,230,235,236,284,298,300,304,306,324,362])))) (n 3 (n 1 (l
  [65,99,100,125,139,145,195,222,230,235,236,273,284,298,300,304,306,324,362,377]) (n 1 (l [88]) (l [92]))) (n 2
  (n 1 (l [93]) (l [94])) (n 1 (l [96]) (l [97])))))) (n 13 (n 6 (n 3 (n 1 (l [99]) (n 1 (l [99]) (l [99]))) (n 1
  (l [99]) (n 1 (l [99,100,128,187,263,264,267,372]) (l [100])))) (n 3 (n 1 (l [100]) (n 1 (l [100]) (l [100])))
  (n 2 (n 1 (l [101]) (l [102])) (n 1 (l [102]) (l [102]))))) (n 7 (n 3 (n 1 (l [119]) (n 1 (l [120]) (l [120])))
  (n 2 (n 1 (l [120]) (l [120])) (n 1 (l [123]) (l [123])))) (n 3 (n 1 (l [126]) (n 1 (l
  [126,128,187,263,264,267,272,296,334,370,372]) (l [126,128,187,263,264,267,272,296,334,370,372]))) (n 2 (n 1 (l
  [126,128,187,263,264,267,272,296,334,370,372]) (l [126,128,187,263,264,267,272,296,334,370,372])) (n 1 (l
  [126,128,187,263,264,267,272,296,334,370,372]) (l [126,128,187,263,264,267,272,296,334,370,372]))))))) (n 27 (n
  13 (n 6 (n 3 (n 1 (l [126,128,187,263,264,267,272,296,334,370,372]) (n 1 (l
  [126,128,187,263,264,267,272,296,334,370,372]) (l [126,128,187,263,264,267,272,296,334,370,372]))) (n 1 (l
  [126,128,154,187,263,264,267,272,296,334,370,372]) (n 1 (l [126,128,187,263,264,267,272,296,334,370,372]) (l
  [126,128,187,263,264,267,272,296,334,370,372])))) (n 3 (n 1 (l [126,128,187,263,264,267,272,296,334,370,372])
  (n 1 (l [126,128,187,263,264,267,272,296,334,370,372]) (l [126,128,187,263,264,267,272,296,334,370,372]))) (n 2
  (n 1 (l [126,128,187,263,264,267,272,296,334,370,372]) (l [126,128,187,263,264,267,272,296,334,370,372])) (n 1
  (l [128]) (l [128]))))) (n 7 (n 3 (n 1 (l [128]) (n 1 (l [128]) (l [128]))) (n 2 (n 1 (l [128,187,372]) (l
  [128,187,372])) (n 1 (l [128,187,372]) (l [128,187,372])))) (n 3 (n 1 (l [128,187,264,372]) (n 1 (l
  [128,187,264,372]) (l [128,187,264,267,372]))) (n 2 (n 1 (l [128,187,264,267,372]) (l
  [128,187,263,264,267,372])) (n 1 (l [128,187,263,264,267,372]) (l [128,187,263,264,267,372])))))) (n 13 (n 6 (n
  3 (n 1 (l [128,187,263,264,267,372]) (n 1 (l [128,187,263,264,267,372]) (l [128,187,263,264,267,372]))) (n 1 (l
  [128,187,263,264,267,372]) (n 1 (l [128,187,263,264,267,372]) (l [128,187,263,264,267,372])))) (n 3 (n 1 (l
  [128,187,263,264,267,372]) (n 1 (l [128,187,263,264,267,372]) (l [128,187,263,264,267,372]))) (n 2 (n 1 (l
  [128,187,263,264,267,372]) (l [129])) (n 1 (l [130]) (l [130]))))) (n 7 (n 3 (n 1 (l [130]) (n 1 (l [130]) (l
  [130,135,140,280,294]))) (n 2 (n 1 (l
  [130,135,136,140,141,224,225,232,233,280,282,294,382,387,420,422,423,430]) (l [131])) (n 1 (l [131]) (l
  [131])))) (n 3 (n 1 (l [131,287,403]) (n 1 (l [131,287,403]) (l [131,287,403]))) (n 2 (n 1 (l [132]) (l [132]))
  (n 1 (l [132,290]) (l [135]))))))))) (n 108 (n 54 (n 27 (n 13 (n 6 (n 3 (n 1 (l [135]) (n 1 (l [135]) (l
  [135,140]))) (n 1 (l [135,140,420,423]) (n 1 (l [135,140,294,387,420,422,423,430]) (l
  [135,140,294,387,420,422,423,430])))) (n 3 (n 1 (l [136]) (n 1 (l [136]) (l [137]))) (n 2 (n 1 (l [138]) (l
  [139])) (n 1 (l [140]) (l [140]))))) (n 7 (n 3 (n 1 (l [140]) (n 1 (l [141]) (l [141]))) (n 2 (n 1 (l [142]) (l
  [143])) (n 1 (l [144]) (l [146])))) (n 3 (n 1 (l [147]) (n 1 (l [149]) (l [149]))) (n 2 (n 1 (l [149]) (l
  [149,345])) (n 1 (l [149,154,165,247,248,260,288,315,345]) (l [149,154,165,247,248,260,288,315,345])))))) (n 13
  (n 6 (n 3 (n 1 (l [154]) (n 1 (l [154]) (l [154]))) (n 1 (l [165]) (n 1 (l [165]) (l [165,247,248])))) (n 3 (n
  1 (l [165,247,248]) (n 1 (l [165,247,248]) (l [165,247,248]))) (n 2 (n 1 (l [165,247,248]) (l [165,247,248]))
  (n 1 (l [165,247,248,315]) (l [168,257]))))) (n 7 (n 3 (n 1 (l [168,257]) (n 1 (l [169]) (l [169]))) (n 2 (n 1
  (l [173]) (l [173,204,352])) (n 1 (l [176]) (l [179])))) (n 3 (n 1 (l [179,185]) (n 1 (l [181]) (l [181]))) (n
  2 (n 1 (l [181]) (l [183])) (n 1 (l [183]) (l [183]))))))) (n 27 (n 13 (n 6 (n 3 (n 1 (l [185]) (n 1 (l [187])
  (l [194]))) (n 1 (l [196]) (n 1 (l [196]) (l [197])))) (n 3 (n 1 (l [199]) (n 1 (l [199]) (l [199,344]))) (n 2
  (n 1 (l [200]) (l [201])) (n 1 (l [202]) (l [202,346]))))) (n 7 (n 3 (n 1 (l [204]) (n 1 (l [205]) (l [206])))
  (n 2 (n 1 (l [207]) (l [209])) (n 1 (l [211,214]) (l [212])))) (n 3 (n 1 (l [212]) (n 1 (l [216]) (l
  [216,228,281,381]))) (n 2 (n 1 (l [217]) (l [218])) (n 1 (l [220]) (l [220])))))) (n 13 (n 6 (n 3 (n 1 (l
  [221]) (n 1 (l [224]) (l [224]))) (n 1 (l [225]) (n 1 (l [225]) (l [228])))) (n 3 (n 1 (l [229]) (n 1 (l [232])
  (l [232]))) (n 2 (n 1 (l [233]) (l [233])) (n 1 (l [234]) (l [237]))))) (n 7 (n 3 (n 1 (l [241]) (n 1 (l [246])
  (l [247]))) (n 2 (n 1 (l [247,248]) (l [248])) (n 1 (l [253]) (l [255])))) (n 3 (n 1 (l [256]) (n 1 (l
  [256,368]) (l [256,368]))) (n 2 (n 1 (l [259]) (l [260])) (n 1 (l [260]) (l [260])))))))) (n 54 (n 27 (n 13 (n
  6 (n 3 (n 1 (l [260]) (n 1 (l [260,288]) (l [260,288]))) (n 1 (l [261]) (n 1 (l [263]) (l [264])))) (n 3 (n 1
  (l [267]) (n 1 (l [271]) (l [272]))) (n 2 (n 1 (l [272]) (l [272])) (n 1 (l [272,334]) (l [272,334]))))) (n 7
  (n 3 (n 1 (l [273]) (n 1 (l [273]) (l [274]))) (n 2 (n 1 (l [274]) (l [274])) (n 1 (l [274]) (l [276])))) (n 3
  (n 1 (l [276]) (n 1 (l [278]) (l [280]))) (n 2 (n 1 (l [280]) (l [281])) (n 1 (l [282]) (l [282])))))) (n 13 (n
  6 (n 3 (n 1 (l [282,382]) (n 1 (l [286]) (l [287]))) (n 1 (l [288]) (n 1 (l [288]) (l [290])))) (n 3 (n 1 (l
  [291]) (n 1 (l [292]) (l [294]))) (n 2 (n 1 (l [294,430]) (l [296])) (n 1 (l [297]) (l [302]))))) (n 7 (n 3 (n
  1 (l [310]) (n 1 (l [312]) (l [315]))) (n 2 (n 1 (l [315]) (l [316])) (n 1 (l [319]) (l [324])))) (n 3 (n 1 (l
  [326]) (n 1 (l [327]) (l [334]))) (n 2 (n 1 (l [342]) (l [342])) (n 1 (l [342,394,395]) (l [342,394,395])))))))
  (n 27 (n 13 (n 6 (n 3 (n 1 (l [344]) (n 1 (l [345]) (l [345]))) (n 1 (l [346]) (n 1 (l [349]) (l [352])))) (n 3
  (n 1 (l [354]) (n 1 (l [355]) (l [359]))) (n 2 (n 1 (l [359]) (l [366])) (n 1 (l [368]) (l [370]))))) (n 7 (n 3
  (n 1 (l [372]) (n 1 (l [372]) (l [374]))) (n 2 (n 1 (l [375]) (l [376])) (n 1 (l [377]) (l [377])))) (n 3 (n 1
  (l [377]) (n 1 (l [379]) (l [380]))) (n 2 (n 1 (l [381]) (l [382])) (n 1 (l [383]) (l [386])))))) (n 13 (n 6 (n
  3 (n 1 (l [386]) (n 1 (l [386]) (l [387]))) (n 1 (l [387]) (n 1 (l [387,422]) (l [387,422])))) (n 3 (n 1 (l
  [387,422]) (n 1 (l [394]) (l [395]))) (n 2 (n 1 (l [397]) (l [397])) (n 1 (l [397]) (l [397]))))) (n 7 (n 3 (n
  1 (l [403]) (n 1 (l [403]) (l [405]))) (n 2 (n 1 (l [406]) (l [407])) (n 1 (l [411]) (l [411])))) (n 3 (n 1 (l
  [412]) (n 1 (l [420]) (l [422]))) (n 2 (n 1 (l [423]) (l [424])) (n 1 (l [426,428]) (l [428]))))))))))

/-- Bound on the number of reductions that follow without a shift and without shortening the stack. -/
def rankT : Tri Nat :=
  (n 216 (n 108 (n 54 (n 27 (n 13 (n 6 (n 3 (n 1 (l 0) (n 1 (l 0) (l 0))) (n 1 (l 2) (n 1 (l 3) (l 2)))) (n 3 (n
  1 (l 1) (n 1 (l 0) (l 1))) (n 2 (n 1 (l 0) (l 0)) (n 1 (l 0) (l 0))))) (n 7 (n 3 (n 1 (l 1) (n 1 (l 2) (l 2)))
  (n 2 (n 1 (l 2) (l 3)) (n 1 (l 3) (l 16)))) (n 3 (n 1 (l 0) (n 1 (l 0) (l 0))) (n 2 (n 1 (l 0) (l 0)) (n 1 (l
  0) (l 0)))))) (n 13 (n 6 (n 3 (n 1 (l 0) (n 1 (l 0) (l 0))) (n 1 (l 0) (n 1 (l 2) (l 0)))) (n 3 (n 1 (l 0) (n 1
  (l 1) (l 1))) (n 2 (n 1 (l 0) (l 0)) (n 1 (l 1) (l 0))))) (n 7 (n 3 (n 1 (l 0) (n 1 (l 0) (l 1))) (n 2 (n 1 (l
  2) (l 3)) (n 1 (l 3) (l 3)))) (n 3 (n 1 (l 16) (n 1 (l 4) (l 0))) (n 2 (n 1 (l 1) (l 2)) (n 1 (l 2) (l 0)))))))
  (n 27 (n 13 (n 6 (n 3 (n 1 (l 0) (n 1 (l 16) (l 0))) (n 1 (l 0) (n 1 (l 1) (l 0)))) (n 3 (n 1 (l 0) (n 1 (l 0)
  (l 0))) (n 2 (n 1 (l 0) (l 0)) (n 1 (l 0) (l 13))))) (n 7 (n 3 (n 1 (l 13) (n 1 (l 13) (l 14))) (n 2 (n 1 (l
  14) (l 14)) (n 1 (l 14) (l 14)))) (n 3 (n 1 (l 14) (n 1 (l 14) (l 14))) (n 2 (n 1 (l 14) (l 14)) (n 1 (l 14) (l
  14)))))) (n 13 (n 6 (n 3 (n 1 (l 14) (n 1 (l 14) (l 14))) (n 1 (l 14) (n 1 (l 14) (l 14)))) (n 3 (n 1 (l 14) (n
  1 (l 0) (l 15))) (n 2 (n 1 (l 15) (l 15)) (n 1 (l 0) (l 0))))) (n 7 (n 3 (n 1 (l 15) (n 1 (l 15) (l 0))) (n 2
  (n 1 (l 0) (l 15)) (n 1 (l 0) (l 0)))) (n 3 (n 1 (l 15) (n 1 (l 0) (l 15))) (n 2 (n 1 (l 15) (l 15)) (n 1 (l
  16) (l 16)))))))) (n 54 (n 27 (n 13 (n 6 (n 3 (n 1 (l 16) (n 1 (l 16) (l 16))) (n 1 (l 16) (n 1 (l 16) (l
  16)))) (n 3 (n 1 (l 16) (n 1 (l 16) (l 16))) (n 2 (n 1 (l 16) (l 16)) (n 1 (l 0) (l 1))))) (n 7 (n 3 (n 1 (l 0)
  (n 1 (l 0) (l 0))) (n 2 (n 1 (l 0) (l 0)) (n 1 (l 0) (l 0)))) (n 3 (n 1 (l 0) (n 1 (l 0) (l 0))) (n 2 (n 1 (l
  0) (l 0)) (n 1 (l 0) (l 0)))))) (n 13 (n 6 (n 3 (n 1 (l 0) (n 1 (l 0) (l 0))) (n 1 (l 0) (n 1 (l 0) (l 0)))) (n
  3 (n 1 (l 0) (n 1 (l 0) (l 0))) (n 2 (n 1 (l 0) (l 0)) (n 1 (l 0) (l 0))))) (n 7 (n 3 (n 1 (l 0) (n 1 (l 0) (l
  0))) (n 2 (n 1 (l 0) (l 0)) (n 1 (l 0) (l 2)))) (n 3 (n 1 (l 0) (n 1 (l 13) (l 14))) (n 2 (n 1 (l 14) (l 14))
  (n 1 (l 14) (l 15))))))) (n 27 (n 13 (n 6 (n 3 (n 1 (l 15) (n 1 (l 15) (l 15))) (n 1 (l 0) (n 1 (l 15) (l
  15)))) (n 3 (n 1 (l 16) (n 1 (l 0) (l 16))) (n 2 (n 1 (l 16) (l 16)) (n 1 (l 1) (l 2))))) (n 7 (n 3 (n 1 (l 3)
  (n 1 (l 4) (l 5))) (n 2 (n 1 (l 6) (l 0)) (n 1 (l 7) (l 0)))) (n 3 (n 1 (l 8) (n 1 (l 0) (l 9))) (n 2 (n 1 (l
  0) (l 10)) (n 1 (l 0) (l 11)))))) (n 13 (n 6 (n 3 (n 1 (l 11) (n 1 (l 11) (l 11))) (n 1 (l 11) (n 1 (l 12) (l
  0)))) (n 3 (n 1 (l 12) (n 1 (l 0) (l 1))) (n 2 (n 1 (l 2) (l 0)) (n 1 (l 0) (l 1))))) (n 7 (n 3 (n 1 (l 3) (n 1
  (l 2) (l 4))) (n 2 (n 1 (l 0) (l 0)) (n 1 (l 1) (l 2)))) (n 3 (n 1 (l 3) (n 1 (l 4) (l 4))) (n 2 (n 1 (l 0) (l
  1)) (n 1 (l 0) (l 0))))))))) (n 108 (n 54 (n 27 (n 13 (n 6 (n 3 (n 1 (l 1) (n 1 (l 0) (l 1))) (n 1 (l 2) (n 1
  (l 3) (l 0)))) (n 3 (n 1 (l 0) (n 1 (l 0) (l 0))) (n 2 (n 1 (l 0) (l 0)) (n 1 (l 0) (l 1))))) (n 7 (n 3 (n 1 (l
  0) (n 1 (l 0) (l 0))) (n 2 (n 1 (l 0) (l 0)) (n 1 (l 0) (l 0)))) (n 3 (n 1 (l 0) (n 1 (l 0) (l 1))) (n 2 (n 1
  (l 1) (l 2)) (n 1 (l 0) (l 3)))))) (n 13 (n 6 (n 3 (n 1 (l 1) (n 1 (l 0) (l 0))) (n 1 (l 0) (n 1 (l 2) (l 1))))
  (n 3 (n 1 (l 2) (n 1 (l 2) (l 2))) (n 2 (n 1 (l 4) (l 3)) (n 1 (l 3) (l 0))))) (n 7 (n 3 (n 1 (l 0) (n 1 (l 0)
  (l 0))) (n 2 (n 1 (l 0) (l 0)) (n 1 (l 0) (l 0)))) (n 3 (n 1 (l 0) (n 1 (l 0) (l 1))) (n 2 (n 1 (l 1) (l 0)) (n
  1 (l 1) (l 1))))))) (n 27 (n 13 (n 6 (n 3 (n 1 (l 0) (n 1 (l 0) (l 0))) (n 1 (l 0) (n 1 (l 0) (l 0)))) (n 3 (n
  1 (l 0) (n 1 (l 1) (l 0))) (n 2 (n 1 (l 0) (l 0)) (n 1 (l 2) (l 0))))) (n 7 (n 3 (n 1 (l 4) (n 1 (l 0) (l 0)))
  (n 2 (n 1 (l 0) (l 0)) (n 1 (l 0) (l 0)))) (n 3 (n 1 (l 0) (n 1 (l 0) (l 0))) (n 2 (n 1 (l 0) (l 0)) (n 1 (l 0)
  (l 0)))))) (n 13 (n 6 (n 3 (n 1 (l 0) (n 1 (l 0) (l 0))) (n 1 (l 0) (n 1 (l 0) (l 0)))) (n 3 (n 1 (l 0) (n 1 (l
  0) (l 0))) (n 2 (n 1 (l 0) (l 0)) (n 1 (l 0) (l 0))))) (n 7 (n 3 (n 1 (l 0) (n 1 (l 0) (l 0))) (n 2 (n 1 (l 2)
  (l 0)) (n 1 (l 0) (l 0)))) (n 3 (n 1 (l 0) (n 1 (l 1) (l 0))) (n 2 (n 1 (l 0) (l 0)) (n 1 (l 1) (l 1)))))))) (n
  54 (n 27 (n 13 (n 6 (n 3 (n 1 (l 0) (n 1 (l 2) (l 0))) (n 1 (l 0) (n 1 (l 0) (l 1)))) (n 3 (n 1 (l 0) (n 1 (l
  0) (l 0))) (n 2 (n 1 (l 1) (l 0)) (n 1 (l 2) (l 2))))) (n 7 (n 3 (n 1 (l 0) (n 1 (l 1) (l 0))) (n 2 (n 1 (l 1)
  (l 1)) (n 1 (l 0) (l 0)))) (n 3 (n 1 (l 0) (n 1 (l 0) (l 2))) (n 2 (n 1 (l 0) (l 1)) (n 1 (l 0) (l 1)))))) (n
  13 (n 6 (n 3 (n 1 (l 2) (n 1 (l 1) (l 0))) (n 1 (l 0) (n 1 (l 0) (l 0)))) (n 3 (n 1 (l 0) (n 1 (l 0) (l 2))) (n
  2 (n 1 (l 0) (l 0)) (n 1 (l 0) (l 0))))) (n 7 (n 3 (n 1 (l 0) (n 1 (l 0) (l 0))) (n 2 (n 1 (l 1) (l 0)) (n 1 (l
  0) (l 0)))) (n 3 (n 1 (l 0) (n 1 (l 0) (l 0))) (n 2 (n 1 (l 0) (l 0)) (n 1 (l 1) (l 5))))))) (n 27 (n 13 (n 6
  (n 3 (n 1 (l 0) (n 1 (l 0) (l 0))) (n 1 (l 1) (n 1 (l 0) (l 0)))) (n 3 (n 1 (l 0) (n 1 (l 0) (l 1))) (n 2 (n 1
  (l 0) (l 0)) (n 1 (l 0) (l 0))))) (n 7 (n 3 (n 1 (l 0) (n 1 (l 1) (l 0))) (n 2 (n 1 (l 0) (l 0)) (n 1 (l 2) (l
  4)))) (n 3 (n 1 (l 0) (n 1 (l 0) (l 0))) (n 2 (n 1 (l 0) (l 0)) (n 1 (l 0) (l 0)))))) (n 13 (n 6 (n 3 (n 1 (l
  0) (n 1 (l 0) (l 0))) (n 1 (l 1) (n 1 (l 2) (l 2)))) (n 3 (n 1 (l 1) (n 1 (l 0) (l 0))) (n 2 (n 1 (l 3) (l 0))
  (n 1 (l 0) (l 0))))) (n 7 (n 3 (n 1 (l 0) (n 1 (l 1) (l 0))) (n 2 (n 1 (l 0) (l 0)) (n 1 (l 0) (l 0)))) (n 3 (n
  1 (l 0) (n 1 (l 0) (l 0))) (n 2 (n 1 (l 0) (l 0)) (n 1 (l 0) (l 0))))))))))

/-- Nonterminals that derive the empty word. -/
def nullableNT : List Nat := [6, 7, 13, 44, 89, 95, 96, 102, 109, 111, 122, 123, 124, 126, 129, 139, 140, 141]

end Asn1go.LR
