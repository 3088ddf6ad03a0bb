import Verif.Proofs.LR.Cert

/-! Generated by /verif/tools/gen_finish.py.  Nothing here is trusted, all uses are checked in `Finish.lean`. -/

namespace Asn1go.LR

open Tri

/-- How to go on in a state: tokens to read (by number), the rule then reduced and how many symbols of it stand on the
stack up to the state; the tokens (as a mask) with which going on can begin; a rank. -/
def finishT : Tri (Nat × Nat × List Nat × Nat × Nat) :=
  (n 216 (n 108 (n 54 (n 27 (n 13 (n 6 (n 3 (n 1 (l (0, 0, [], 0, 0)) (n 1 (l (0, 0, [], 2, 0)) (l (1, 1, [119,
  15, 67, 52], 664613997892457936451903530140172288, 1)))) (n 1 (l (7, 1, [],
  664613997892457936451903530140172288, 2)) (n 1 (l (3, 1, [], 664613997892457936451907930334167040, 4)) (l (1,
  2, [15, 67, 52], 32768, 0))))) (n 3 (n 1 (l (7, 2, [], 664613997892457936451903530140172288, 0)) (n 1 (l (8, 1,
  [7, 27], 128, 1)) (l (1, 3, [15, 67, 52], 32768, 0)))) (n 2 (n 1 (l (17, 1, [78], 302231454903657293676544, 1))
  (l (18, 1, [78], 302231454903657293676544, 1))) (n 1 (l (19, 1, [78], 302231454903657293676544, 1)) (l (8, 2,
  [27], 134217728, 0)))))) (n 7 (n 3 (n 1 (l (10, 1, [], 134217728, 1)) (n 1 (l (12, 1, [], 134217728, 2)) (l
  (13, 1, [], 134217728, 2)))) (n 2 (n 1 (l (14, 1, [], 134217728, 2)) (l (198, 1, [], 134217728, 3))) (n 1 (l
  (15, 1, [], 8724152320, 3)) (l (6, 1, [], 4503750086000704, 15))))) (n 3 (n 1 (l (1, 4, [15, 67, 52], 32768,
  0)) (n 1 (l (21, 1, [112], 5192296858534827628530496329220096, 1)) (l (17, 2, [], 32768, 0)))) (n 2 (n 1 (l
  (18, 2, [], 32768, 0)) (l (19, 2, [], 32768, 0))) (n 1 (l (8, 3, [], 664613997892457936451903530140172288, 0))
  (l (11, 2, [], 134217728, 0))))))) (n 13 (n 6 (n 3 (n 1 (l (16, 2, [8, 33], 256, 0)) (n 1 (l (1, 5, [67, 52],
  147573952589676412928, 0)) (l (21, 2, [], 32768, 0)))) (n 1 (l (16, 3, [33], 8589934592, 0)) (n 1 (l (1, 6,
  [52], 4503599627370496, 0)) (l (16, 4, [], 134217728, 0))))) (n 3 (n 1 (l (1, 7, [52], 4503599627370496, 0)) (n
  1 (l (23, 1, [6, 15, 6], 64, 1)) (l (25, 1, [42], 4398046511104, 2)))) (n 2 (n 1 (l (1, 8, [], 2, 0)) (l (23,
  2, [6, 15, 6], 64, 0))) (n 1 (l (30, 1, [42], 4398046511104, 1)) (l (25, 2, [42], 4398046511104, 0)))))) (n 7
  (n 3 (n 1 (l (26, 2, [42], 4398046511104, 0)) (n 1 (l (28, 1, [], 4398046511104, 1)) (l (41, 1, [],
  19342813113838464841809920, 4)))) (n 2 (n 1 (l (43, 1, [], 19342813113838464841809920, 5)) (l (44, 1, [],
  19342813113838464841809920, 6))) (n 1 (l (45, 1, [], 19342813113838464841809920, 6)) (l (46, 1, [],
  19342813113838464841809920, 6))))) (n 3 (n 1 (l (2, 1, [], 19342813118342210632843264, 15)) (n 1 (l (4, 1, [],
  19342813113838507925700672, 7)) (l (23, 3, [], 4503599627370496, 0)))) (n 2 (n 1 (l (47, 1, [],
  4503599627370496, 1)) (l (49, 1, [], 4503599627370496, 2))) (n 1 (l (50, 1, [], 4503599627370496, 2)) (l (54,
  1, [15, 6], 32768, 3)))))))) (n 27 (n 13 (n 6 (n 3 (n 1 (l (55, 1, [6, 15, 7], 64, 3)) (n 1 (l (2, 1, [],
  4503745791033344, 15)) (l (30, 2, [42], 4398046511104, 0)))) (n 1 (l (32, 1, [], 4398046511104, 1)) (n 1 (l
  (34, 1, [], 4398046511104, 2)) (l (36, 1, [84, 6], 19342813113834066795298816, 3))))) (n 3 (n 1 (l (25, 3, [],
  64, 0)) (n 1 (l (26, 3, [], 64, 0)) (l (42, 2, [6], 64, 0)))) (n 2 (n 1 (l (48, 2, [], 4503599627370496, 0)) (l
  (54, 2, [6], 64, 0))) (n 1 (l (55, 2, [15, 7], 32768, 0)) (l (56, 1, [], 4503745791033344, 12)))))) (n 7 (n 3
  (n 1 (l (57, 1, [], 4503745791033344, 12)) (n 1 (l (58, 1, [], 4503745791033344, 12)) (l (59, 1, [],
  4503745791033344, 13)))) (n 2 (n 1 (l (60, 1, [], 4503745791033344, 13)) (l (61, 1, [], 4503745791033344, 13)))
  (n 1 (l (62, 1, [], 4503745791033344, 13)) (l (63, 1, [], 4503745791033344, 13))))) (n 3 (n 1 (l (64, 1, [],
  4503745791033344, 13)) (n 1 (l (65, 1, [], 4503745791033344, 13)) (l (66, 1, [], 4503745791033344, 13)))) (n 2
  (n 1 (l (67, 1, [], 4503745791033344, 13)) (l (68, 1, [], 4503745791033344, 13))) (n 1 (l (69, 1, [],
  4503745791033344, 13)) (l (70, 1, [], 4503745791033344, 13))))))) (n 13 (n 6 (n 3 (n 1 (l (71, 1, [],
  4503745791033344, 13)) (n 1 (l (72, 1, [], 4503745791033344, 13)) (l (73, 1, [], 4503745791033344, 13)))) (n 1
  (l (74, 1, [], 4503745791033344, 13)) (n 1 (l (75, 1, [], 4503745791033344, 13)) (l (76, 1, [],
  4503745791033344, 13))))) (n 3 (n 1 (l (218, 1, [], 4503745791033344, 13)) (n 1 (l (119, 1, [66],
  73786976294838206464, 14)) (l (83, 1, [], 4503745791033344, 14)))) (n 2 (n 1 (l (199, 1, [], 4503745791033344,
  14)) (l (200, 1, [], 4503745791033344, 14))) (n 1 (l (161, 1, [26, 17, 27], 67108864, 14)) (l (96, 1, [26, 7,
  27], 67108864, 14)))))) (n 7 (n 3 (n 1 (l (86, 1, [], 4503745791033344, 14)) (n 1 (l (126, 1, [],
  4503745791033344, 14)) (l (186, 1, [104], 20282409603651670423947251286016, 14)))) (n 2 (n 1 (l (125, 1, [66],
  73786976294838206464, 14)) (l (106, 1, [], 4503745791033344, 14))) (n 1 (l (127, 1, [26, 27], 67108864, 14)) (l
  (154, 1, [26, 27], 67108864, 14))))) (n 3 (n 1 (l (159, 1, [], 4503745791033344, 14)) (n 1 (l (174, 1, [6], 64,
  14)) (l (51, 1, [], 4503745791033344, 14)))) (n 2 (n 1 (l (215, 1, [], 4503745791033344, 14)) (l (216, 1, [],
  4503745791033344, 14))) (n 1 (l (201, 1, [], 4503745791033344, 15)) (l (202, 1, [], 4503745791033344,
  15))))))))) (n 54 (n 27 (n 13 (n 6 (n 3 (n 1 (l (203, 1, [], 4503745791033344, 15)) (n 1 (l (204, 1, [],
  4503745791033344, 15)) (l (205, 1, [], 4503745791033344, 15)))) (n 1 (l (206, 1, [], 4503745791033344, 15)) (n
  1 (l (207, 1, [], 4503745791033344, 15)) (l (208, 1, [], 4503745791033344, 15))))) (n 3 (n 1 (l (209, 1, [],
  4503745791033344, 15)) (n 1 (l (210, 1, [], 4503745791033344, 15)) (l (211, 1, [], 4503745791033344, 15)))) (n
  2 (n 1 (l (212, 1, [], 4503745791033344, 15)) (l (213, 1, [], 4503745791033344, 15))) (n 1 (l (214, 1, [66],
  73786976294838206464, 15)) (l (177, 1, [7, 35], 128, 15)))))) (n 7 (n 3 (n 1 (l (30, 3, [], 64, 0)) (n 1 (l
  (35, 2, [], 4398046511104, 0)) (l (36, 2, [6], 64, 0)))) (n 2 (n 1 (l (42, 3, [], 19342813113838464841809920,
  0)) (l (54, 3, [], 4503599627370496, 0))) (n 1 (l (55, 3, [7], 128, 0)) (l (217, 2, [], 4503745791033344,
  0))))) (n 3 (n 1 (l (227, 1, [6, 33], 64, 3)) (n 1 (l (119, 2, [], 4503745791033344, 0)) (l (161, 2, [17, 27],
  131072, 0)))) (n 2 (n 1 (l (96, 2, [7, 27], 128, 0)) (l (87, 2, [7, 32, 7, 33, 27], 128, 0))) (n 1 (l (186, 2,
  [], 4503745791033344, 0)) (l (125, 2, [], 4503745791033344, 0))))))) (n 13 (n 6 (n 3 (n 1 (l (127, 2, [27],
  134217728, 0)) (n 1 (l (184, 2, [6], 64, 0)) (l (221, 2, [93, 6], 9903520314283042199192993792, 0)))) (n 1 (l
  (222, 2, [93, 6], 9903520314283042199192993792, 0)) (n 1 (l (268, 1, [32, 6, 33], 4294967296, 11)) (l (154, 2,
  [27], 134217728, 0))))) (n 3 (n 1 (l (157, 2, [6], 64, 0)) (n 1 (l (219, 2, [93, 6],
  9903520314283042199192993792, 0)) (l (220, 2, [93, 6], 9903520314283042199192993792, 0)))) (n 2 (n 1 (l (160,
  2, [83, 7], 9671406556917033397649408, 0)) (l (174, 2, [], 4503745791033344, 0))) (n 1 (l (175, 2, [6], 64, 0))
  (l (176, 2, [6], 64, 0)))))) (n 7 (n 3 (n 1 (l (214, 2, [], 4503745791033344, 0)) (n 1 (l (177, 2, [7, 35],
  128, 0)) (l (180, 1, [], 128, 1)))) (n 2 (n 1 (l (181, 1, [], 128, 1)) (l (182, 1, [], 128, 1))) (n 1 (l (36,
  3, [], 4398046511104, 0)) (l (37, 1, [], 4398046511104, 1))))) (n 3 (n 1 (l (55, 4, [], 4503599627370496, 0))
  (n 1 (l (78, 1, [], 4503608352047104, 12)) (l (79, 1, [], 4503608352047104, 13)))) (n 2 (n 1 (l (80, 1, [],
  4503608352047104, 13)) (l (81, 1, [], 4503608352047104, 13))) (n 1 (l (82, 1, [], 4503608352047104, 13)) (l
  (84, 1, [], 4503608352047104, 14)))))))) (n 27 (n 13 (n 6 (n 3 (n 1 (l (85, 1, [], 4503608352047104, 14)) (n 1
  (l (94, 1, [], 4503608352047104, 14)) (l (95, 1, [], 4503608352047104, 14)))) (n 1 (l (187, 1, [7, 27], 128,
  14)) (n 1 (l (107, 1, [], 4503608352047104, 14)) (l (108, 1, [], 4503608352047104, 14))))) (n 3 (n 1 (l (92, 1,
  [], 4503608352047104, 15)) (n 1 (l (93, 1, [8], 256, 15)) (l (109, 1, [], 4503608352047104, 15)))) (n 2 (n 1 (l
  (111, 1, [], 4503608352047104, 15)) (l (112, 1, [], 4503608352047104, 15))) (n 1 (l (227, 2, [33], 8589934592,
  0)) (l (228, 1, [], 8589934592, 1)))))) (n 7 (n 3 (n 1 (l (229, 1, [], 8589934592, 2)) (n 1 (l (230, 1, [],
  8589934592, 3)) (l (233, 1, [], 8589934592, 4)))) (n 2 (n 1 (l (235, 1, [], 8589934592, 5)) (l (236, 1, [60,
  6], 1152921504606846976, 5))) (n 1 (l (237, 1, [], 8589934592, 6)) (l (238, 1, [44, 6], 17592186044416, 6)))))
  (n 3 (n 1 (l (240, 1, [], 8589934592, 7)) (n 1 (l (241, 1, [46, 6], 70368744177664, 7)) (l (243, 1, [],
  8589934592, 8)))) (n 2 (n 1 (l (244, 1, [60, 6], 1152921504606846976, 8)) (l (251, 1, [], 8589934592, 9))) (n 1
  (l (252, 1, [6, 33], 64, 9)) (l (253, 1, [], 8589934592, 10))))))) (n 13 (n 6 (n 3 (n 1 (l (254, 1, [],
  8589934592, 10)) (n 1 (l (255, 1, [], 8589934592, 10)) (l (256, 1, [], 8589934592, 10)))) (n 1 (l (257, 1, [],
  8589934592, 10)) (n 1 (l (258, 1, [], 8589934592, 11)) (l (259, 1, [16, 7], 65536, 11))))) (n 3 (n 1 (l (269,
  1, [], 8589934592, 11)) (n 1 (l (270, 1, [99, 32, 6, 33], 633825300114114700748351602688, 11)) (l (260, 1, [],
  65536, 12)))) (n 2 (n 1 (l (265, 1, [], 65536, 13)) (l (120, 3, [7, 32, 7, 33, 27], 128, 0))) (n 1 (l (161, 3,
  [27], 134217728, 0)) (l (163, 1, [], 134217728, 1)))))) (n 7 (n 3 (n 1 (l (164, 1, [], 134217728, 1)) (n 1 (l
  (172, 1, [], 134217728, 2)) (l (130, 1, [], 134217728, 2)))) (n 2 (n 1 (l (77, 1, [6], 64, 4)) (l (96, 3, [27],
  134217728, 0))) (n 1 (l (97, 1, [], 134217728, 1)) (l (100, 1, [], 134217728, 2))))) (n 3 (n 1 (l (102, 1, [],
  134217728, 3)) (n 1 (l (104, 1, [], 134217728, 4)) (l (105, 1, [], 134217728, 4)))) (n 2 (n 1 (l (87, 3, [27],
  134217728, 0)) (l (88, 1, [], 134217728, 1))) (n 1 (l (90, 1, [32, 8, 33], 4294967296, 2)) (l (127, 3, [],
  4503745791033344, 0)))))))))) (n 108 (n 54 (n 27 (n 13 (n 6 (n 3 (n 1 (l (128, 3, [27], 134217728, 0)) (n 1 (l
  (129, 3, [27], 134217728, 0)) (l (134, 1, [], 134217728, 1)))) (n 1 (l (148, 1, [], 134742016, 2)) (n 1 (l
  (150, 1, [], 134742016, 3)) (l (153, 1, [93, 6], 9903520314283042199192993792, 3))))) (n 3 (n 1 (l (184, 3, [],
  4503745791033344, 0)) (n 1 (l (185, 3, [], 4503745791033344, 0)) (l (221, 3, [6], 64, 0)))) (n 2 (n 1 (l (222,
  3, [6], 64, 0)) (l (268, 2, [], 9903520314283042207782928384, 0))) (n 1 (l (154, 3, [], 4503745791033344, 0))
  (l (155, 3, [27], 134217728, 0)))))) (n 7 (n 3 (n 1 (l (156, 3, [27], 134217728, 0)) (n 1 (l (157, 3, [],
  4503745791033344, 0)) (l (158, 3, [], 4503745791033344, 0)))) (n 2 (n 1 (l (219, 3, [6], 64, 0)) (l (220, 3,
  [6], 64, 0))) (n 1 (l (160, 3, [7], 128, 0)) (l (175, 3, [], 4503745791033344, 0))))) (n 3 (n 1 (l (176, 3, [],
  4503745791033344, 0)) (n 1 (l (177, 3, [35], 34359738368, 0)) (l (178, 1, [], 34359738368, 1)))) (n 2 (n 1 (l
  (179, 1, [], 34359738368, 1)) (l (5, 1, [], 42949672960, 2))) (n 1 (l (52, 1, [31, 7], 2147483648, 3)) (l (53,
  1, [], 4441130401792, 3))))))) (n 13 (n 6 (n 3 (n 1 (l (37, 2, [], 4398046511104, 0)) (n 1 (l (38, 1, [],
  4398046511104, 1)) (l (39, 1, [], 4398046511104, 1)))) (n 1 (l (187, 2, [27], 134217728, 0)) (n 1 (l (194, 1,
  [], 134217728, 2)) (l (189, 1, [], 134217728, 1))))) (n 3 (n 1 (l (191, 1, [], 134217728, 2)) (n 1 (l (192, 1,
  [], 134217728, 2)) (l (193, 1, [], 134217728, 2)))) (n 2 (n 1 (l (4, 1, [], 4441130401792, 4)) (l (198, 1, [],
  134217728, 3))) (n 1 (l (195, 1, [], 8724152320, 3)) (l (114, 2, [8], 256, 0)))))) (n 7 (n 3 (n 1 (l (116, 2,
  [8], 256, 0)) (n 1 (l (93, 2, [], 4503608352047104, 0)) (l (110, 2, [], 4503608352047104, 0)))) (n 2 (n 1 (l
  (227, 3, [33], 8589934592, 0)) (l (287, 1, [7], 128, 1))) (n 1 (l (231, 2, [17], 131072, 0)) (l (236, 2, [],
  8589934592, 0))))) (n 3 (n 1 (l (246, 1, [6], 64, 1)) (n 1 (l (238, 2, [6], 64, 0)) (l (247, 1, [], 64, 1))))
  (n 2 (n 1 (l (248, 1, [], 64, 1)) (l (241, 2, [6], 64, 0))) (n 1 (l (249, 1, [], 64, 1)) (l (250, 1, [], 64,
  1)))))))) (n 27 (n 13 (n 6 (n 3 (n 1 (l (244, 2, [], 8589934592, 0)) (n 1 (l (252, 2, [33], 8589934592, 0)) (l
  (259, 2, [7], 128, 0)))) (n 1 (l (270, 2, [32, 6, 33], 4294967296, 0)) (n 1 (l (271, 2, [26, 7, 27], 67108864,
  0)) (l (261, 2, [], 65536, 0))))) (n 3 (n 1 (l (120, 4, [27], 134217728, 0)) (n 1 (l (121, 1, [], 134217728,
  1)) (l (123, 1, [32, 8, 33], 4294967296, 2)))) (n 2 (n 1 (l (161, 4, [], 4503745791033344, 0)) (l (162, 2,
  [17], 131072, 0))) (n 1 (l (164, 2, [], 134217728, 0)) (l (166, 1, [7, 6], 128, 1)))))) (n 7 (n 3 (n 1 (l (131,
  2, [], 134217728, 0)) (n 1 (l (77, 2, [], 4503745791033344, 0)) (l (96, 4, [], 4503745791033344, 0)))) (n 2 (n
  1 (l (98, 2, [17], 131072, 0)) (l (103, 2, [7], 128, 0))) (n 1 (l (90, 2, [8, 33], 256, 0)) (l (87, 4, [],
  4503745791033344, 0))))) (n 3 (n 1 (l (89, 2, [7, 32, 7, 33], 128, 0)) (n 1 (l (128, 4, [27], 134217728, 0)) (l
  (132, 1, [17], 131072, 1)))) (n 2 (n 1 (l (129, 4, [], 4503745791033344, 0)) (l (135, 2, [17], 131072, 0))) (n
  1 (l (151, 2, [], 134742016, 0)) (l (152, 2, [7], 128, 0))))))) (n 13 (n 6 (n 3 (n 1 (l (153, 2, [6], 64, 0))
  (n 1 (l (221, 4, [], 4503745791033344, 0)) (l (225, 4, [], 4503745791033344, 0)))) (n 1 (l (222, 4, [],
  4503745791033344, 0)) (n 1 (l (226, 4, [], 4503745791033344, 0)) (l (155, 4, [27], 134217728, 0))))) (n 3 (n 1
  (l (156, 4, [], 4503745791033344, 0)) (n 1 (l (219, 4, [], 4503745791033344, 0)) (l (223, 4, [],
  4503745791033344, 0)))) (n 2 (n 1 (l (220, 4, [], 4503745791033344, 0)) (l (224, 4, [], 4503745791033344, 0)))
  (n 1 (l (160, 4, [], 4503745791033344, 0)) (l (177, 4, [], 64, 0)))))) (n 7 (n 3 (n 1 (l (52, 2, [7], 128, 0))
  (n 1 (l (187, 3, [], 4508006398558208, 0)) (l (188, 3, [27], 134217728, 0)))) (n 2 (n 1 (l (194, 1, [],
  134217728, 2)) (l (190, 2, [], 134217728, 0))) (n 1 (l (197, 2, [7, 33], 128, 0)) (l (114, 3, [],
  4503608352047104, 0))))) (n 3 (n 1 (l (116, 3, [], 4503608352047104, 0)) (n 1 (l (117, 1, [], 4503608352047104,
  1)) (l (118, 1, [8], 256, 1)))) (n 2 (n 1 (l (227, 4, [], 9903520314287545944984027136, 0)) (l (287, 2, [],
  8724152320, 0))) (n 1 (l (289, 1, [], 8724152320, 1)) (l (290, 1, [], 8724152320, 1))))))))) (n 54 (n 27 (n 13
  (n 6 (n 3 (n 1 (l (291, 1, [37, 7], 137438953472, 1)) (n 1 (l (92, 1, [], 8724152320, 2)) (l (93, 1, [8], 256,
  2)))) (n 1 (l (231, 3, [], 8589934592, 0)) (n 1 (l (246, 2, [], 8589934592, 0)) (l (238, 3, [], 8589934592,
  0))))) (n 3 (n 1 (l (241, 3, [], 8589934592, 0)) (n 1 (l (252, 3, [], 8589934592, 0)) (l (259, 3, [],
  8589934592, 0)))) (n 2 (n 1 (l (262, 1, [], 8589934592, 1)) (l (263, 1, [7], 128, 1))) (n 1 (l (266, 1, [],
  8589934592, 2)) (l (267, 1, [], 8589934592, 2)))))) (n 7 (n 3 (n 1 (l (270, 3, [], 8589934592, 0)) (n 1 (l
  (272, 1, [], 8589934592, 1)) (l (271, 3, [], 8589934592, 0)))) (n 2 (n 1 (l (273, 1, [], 8589934592, 1)) (l
  (274, 1, [], 8589934592, 1))) (n 1 (l (275, 1, [7, 27], 128, 2)) (l (120, 5, [], 4503745791033344, 0))))) (n 3
  (n 1 (l (122, 2, [7, 32, 7, 33], 128, 0)) (n 1 (l (123, 2, [8, 33], 256, 0)) (l (162, 3, [], 134217728, 0))))
  (n 2 (n 1 (l (173, 3, [], 134217728, 0)) (l (164, 3, [], 134217728, 0))) (n 1 (l (166, 2, [], 134217728, 0)) (l
  (168, 1, [], 134217728, 1))))))) (n 13 (n 6 (n 3 (n 1 (l (170, 1, [], 134217728, 2)) (n 1 (l (98, 3, [],
  134217728, 0)) (l (103, 3, [], 134217728, 0)))) (n 1 (l (90, 3, [33], 8589934592, 0)) (n 1 (l (91, 3, [33],
  8589934592, 0)) (l (89, 3, [], 134217728, 0))))) (n 3 (n 1 (l (128, 5, [], 4503745791033344, 0)) (n 1 (l (132,
  2, [], 134217728, 0)) (l (135, 3, [], 134217728, 0)))) (n 2 (n 1 (l (149, 3, [], 134742016, 0)) (l (152, 3, [],
  134742016, 0))) (n 1 (l (153, 3, [], 134742016, 0)) (l (155, 5, [], 4503745791033344, 0)))))) (n 7 (n 3 (n 1 (l
  (52, 3, [], 4441130401792, 0)) (n 1 (l (188, 4, [], 4508006398558208, 0)) (l (197, 3, [33], 8589934592, 0))))
  (n 2 (n 1 (l (196, 1, [], 8589934592, 1)) (l (115, 4, [8], 256, 0))) (n 1 (l (118, 2, [], 4503608352047104, 0))
  (l (291, 2, [7], 128, 0))))) (n 3 (n 1 (l (93, 2, [], 8724152320, 0)) (n 1 (l (232, 4, [6], 64, 0)) (l (263, 2,
  [], 8589934592, 0)))) (n 2 (n 1 (l (275, 2, [27], 134217728, 0)) (l (276, 2, [30, 7, 27], 1073741824, 0))) (n 1
  (l (277, 1, [], 134217728, 1)) (l (279, 1, [], 134217728, 2)))))))) (n 27 (n 13 (n 6 (n 3 (n 1 (l (122, 3, [],
  134217728, 0)) (n 1 (l (123, 3, [33], 8589934592, 0)) (l (124, 3, [33], 8589934592, 0)))) (n 1 (l (162, 4, [],
  134217728, 0)) (n 1 (l (169, 2, [7, 6], 128, 0)) (l (98, 4, [], 134217728, 0))))) (n 3 (n 1 (l (90, 4, [],
  134217728, 0)) (n 1 (l (91, 4, [], 134217728, 0)) (l (135, 4, [], 134217728, 0)))) (n 2 (n 1 (l (139, 1, [7,
  6], 128, 1)) (l (197, 4, [], 134217728, 0))) (n 1 (l (115, 5, [], 4503608352047104, 0)) (l (291, 3, [],
  8724152320, 0)))))) (n 7 (n 3 (n 1 (l (232, 5, [], 8589934592, 0)) (n 1 (l (234, 1, [], 8589934592, 1)) (l
  (275, 3, [], 8589934592, 0)))) (n 2 (n 1 (l (276, 3, [7, 27], 128, 0)) (l (278, 2, [7], 128, 0))) (n 1 (l (279,
  2, [], 134217728, 0)) (l (280, 1, [], 134217728, 1))))) (n 3 (n 1 (l (281, 1, [], 134217728, 2)) (n 1 (l (123,
  4, [], 134217728, 0)) (l (124, 4, [], 134217728, 0)))) (n 2 (n 1 (l (162, 5, [], 134217728, 0)) (l (169, 3, [],
  134217728, 0))) (n 1 (l (99, 5, [7], 128, 0)) (l (135, 5, [], 134217728, 0))))))) (n 13 (n 6 (n 3 (n 1 (l (136,
  5, [30, 7, 6], 1073741824, 0)) (n 1 (l (132, 1, [17], 131072, 1)) (l (139, 2, [], 134217728, 0)))) (n 1 (l
  (141, 1, [], 134217728, 1)) (n 1 (l (143, 1, [], 134217728, 2)) (l (144, 1, [], 134217728, 2))))) (n 3 (n 1 (l
  (145, 1, [7, 6, 19], 128, 3)) (n 1 (l (276, 4, [27], 134217728, 0)) (l (278, 3, [], 134217728, 0)))) (n 2 (n 1
  (l (280, 2, [], 134217728, 0)) (l (283, 1, [], 134217728, 1))) (n 1 (l (284, 1, [], 134217728, 1)) (l (285, 1,
  [], 134217728, 1)))))) (n 7 (n 3 (n 1 (l (99, 6, [], 134217728, 0)) (n 1 (l (101, 1, [], 134217728, 1)) (l
  (136, 6, [7, 6], 128, 0)))) (n 2 (n 1 (l (132, 2, [], 134217728, 0)) (l (142, 2, [7, 6], 128, 0))) (n 1 (l
  (145, 2, [7, 6, 19], 128, 0)) (l (147, 1, [37], 137438953472, 1))))) (n 3 (n 1 (l (276, 5, [], 8589934592, 0))
  (n 1 (l (136, 7, [], 134217728, 0)) (l (142, 3, [], 134217728, 0)))) (n 2 (n 1 (l (145, 3, [19], 524288, 0)) (l
  (147, 2, [], 128, 0))) (n 1 (l (149, 2, [7, 6], 128, 0)) (l (145, 4, [], 134217728, 0)))))))))))

end Asn1go.LR
