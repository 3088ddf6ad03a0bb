import Verif.Model.Tables

/-! Generated by /verif/tools/gen_tables.py: the tables of /repo/y.go as printed there. -/

namespace Asn1go.Spec

/-- y.go:341-376 -/
def yyExca : List Int := [
  -1, 1, 1, -1, -2, 0, -1, 31, 52, 24, -2, 27, -1, 47, 31, 3,
  -2, 2, -1, 178, 44, 239, 94, 239, -2, 235, -1, 180, 46, 242, 53, 242,
  -2, 237, -1, 184, 60, 245, -2, 243, -1, 193, 16, 264, 28, 264, -2, 258,
  -1, 252, 32, 6, -2, 4, -1, 329, 46, 242, 53, 242, -2, 238, -1, 421,
  30, 138, -2, 132]

/-- y.go:382-475 -/
def yyAct : List Int := [
  219, 205, 408, 218, 374, 208, 350, 220, 127, 17, 193, 177, 259, 317, 313, 17,
  281, 277, 238, 291, 333, 242, 250, 210, 202, 262, 163, 184, 182, 180, 246, 159,
  170, 217, 241, 3, 144, 151, 5, 19, 168, 38, 29, 295, 19, 416, 11, 9,
  19, 168, 265, 19, 133, 19, 168, 19, 19, 46, 165, 54, 46, 296, 411, 297,
  233, 204, 204, 165, 169, 334, 45, 54, 165, 45, 273, 227, 215, 169, 274, 46,
  150, 232, 169, 190, 46, 225, 19, 224, 62, 24, 234, 10, 45, 336, 23, 417,
  204, 45, 22, 152, 266, 172, 336, 21, 35, 31, 148, 42, 137, 142, 172, 415,
  162, 134, 263, 172, 195, 129, 161, 58, 36, 162, 50, 140, 121, 135, 162, 161,
  164, 128, 164, 128, 161, 211, 214, 61, 268, 155, 203, 260, 221, 171, 123, 269,
  223, 47, 48, 221, 226, 231, 171, 221, 221, 60, 429, 171, 213, 103, 154, 139,
  216, 139, 59, 128, 239, 228, 400, 253, 370, 245, 124, 65, 63, 309, 229, 318,
  399, 122, 388, 385, 247, 125, 221, 138, 143, 384, 244, 331, 320, 164, 141, 126,
  136, 44, 40, 53, 44, 32, 41, 271, 128, 278, 258, 319, 4, 48, 325, 53,
  128, 345, 256, 270, 315, 288, 27, 44, 255, 283, 431, 145, 44, 343, 310, 289,
  344, 430, 290, 422, 342, 430, 420, 406, 299, 301, 326, 403, 308, 292, 395, 394,
  305, 307, 387, 382, 282, 372, 294, 287, 302, 253, 253, 286, 280, 222, 261, 62,
  275, 15, 230, 425, 4, 48, 393, 235, 236, 164, 164, 365, 363, 164, 357, 311,
  303, 293, 164, 323, 285, 279, 312, 314, 165, 199, 338, 335, 25, 30, 132, 322,
  347, 211, 351, 328, 214, 353, 329, 360, 330, 131, 164, 130, 7, 348, 368, 355,
  421, 346, 19, 361, 19, 358, 352, 327, 272, 64, 356, 354, 375, 28, 204, 359,
  249, 12, 284, 4, 48, 240, 19, 18, 14, 424, 367, 371, 364, 369, 14, 26,
  164, 316, 366, 257, 18, 298, 300, 19, 377, 335, 278, 47, 48, 304, 306, 4,
  48, 254, 48, 373, 4, 252, 254, 4, 380, 321, 378, 381, 379, 383, 55, 48,
  414, 397, 396, 376, 164, 341, 164, 340, 339, 324, 337, 267, 264, 390, 389, 423,
  392, 410, 398, 405, 409, 402, 351, 55, 19, 168, 39, 34, 377, 377, 1, 412,
  413, 401, 209, 418, 207, 211, 404, 206, 212, 419, 407, 165, 386, 349, 362, 201,
  200, 187, 72, 120, 153, 169, 243, 409, 426, 427, 43, 428, 57, 56, 37, 360,
  276, 69, 94, 77, 86, 149, 237, 99, 179, 93, 110, 100, 102, 84, 82, 139,
  81, 80, 198, 79, 67, 85, 172, 91, 88, 90, 95, 114, 106, 71, 111, 197,
  89, 162, 96, 113, 332, 194, 192, 161, 119, 104, 97, 191, 92, 107, 55, 19,
  168, 108, 186, 189, 188, 109, 185, 183, 181, 178, 391, 115, 176, 175, 171, 105,
  174, 173, 165, 116, 87, 68, 112, 117, 187, 33, 120, 118, 169, 49, 98, 196,
  101, 51, 52, 167, 166, 157, 160, 78, 158, 94, 156, 248, 251, 83, 99, 73,
  93, 110, 100, 75, 66, 70, 139, 74, 76, 198, 6, 16, 13, 172, 2, 88,
  8, 95, 114, 106, 20, 111, 0, 89, 162, 96, 113, 0, 0, 0, 161, 119,
  104, 97, 0, 92, 107, 47, 48, 325, 108, 0, 0, 0, 109, 0, 0, 0,
  0, 0, 115, 0, 0, 171, 105, 0, 0, 0, 116, 0, 0, 112, 117, 0,
  0, 120, 118, 326, 0, 98, 196, 101, 0, 0, 0, 0, 0, 0, 0, 0,
  94, 0, 0, 0, 0, 99, 0, 93, 110, 100, 0, 0, 0, 0, 0, 0,
  0, 0, 0, 0, 0, 0, 88, 0, 95, 114, 106, 0, 111, 0, 89, 55,
  96, 113, 0, 0, 0, 0, 119, 104, 97, 0, 92, 107, 0, 0, 0, 108,
  0, 0, 0, 109, 0, 0, 0, 0, 0, 115, 0, 120, 0, 105, 0, 0,
  0, 116, 0, 0, 112, 117, 0, 0, 0, 118, 94, 0, 98, 0, 101, 99,
  0, 93, 110, 100, 0, 0, 0, 0, 0, 147, 0, 0, 0, 0, 0, 0,
  88, 0, 95, 114, 106, 0, 111, 0, 89, 0, 96, 113, 55, 19, 0, 0,
  119, 104, 97, 0, 92, 107, 0, 0, 0, 108, 0, 0, 0, 109, 0, 0,
  0, 0, 0, 115, 0, 146, 0, 105, 120, 0, 0, 116, 0, 0, 112, 117,
  0, 0, 0, 118, 0, 0, 98, 94, 101, 0, 0, 0, 99, 0, 93, 110,
  100, 0, 0, 0, 0, 0, 0, 0, 0, 0, 0, 0, 0, 88, 0, 95,
  114, 106, 0, 111, 0, 89, 55, 96, 113, 0, 0, 0, 0, 119, 104, 97,
  0, 92, 107, 0, 0, 0, 108, 0, 0, 0, 109, 0, 0, 0, 0, 0,
  115, 0, 120, 0, 105, 0, 0, 0, 116, 0, 0, 112, 117, 0, 0, 0,
  118, 94, 0, 98, 0, 101, 99, 0, 93, 110, 100, 0, 0, 0, 0, 0,
  0, 0, 0, 0, 0, 0, 0, 88, 0, 95, 114, 106, 0, 111, 0, 89,
  0, 96, 113, 0, 0, 0, 0, 119, 104, 97, 0, 92, 107, 0, 0, 0,
  108, 0, 0, 0, 109, 0, 0, 0, 0, 0, 115, 0, 0, 0, 105, 0,
  0, 0, 116, 0, 0, 112, 117, 0, 0, 0, 118, 0, 0, 98, 0, 101]

/-- y.go:477-522 -/
def yyPact : List Int := [
  353, -1000, -81, 274, -1000, -17, -1000, 319, 31, 20, 16, 11, 257, 319, -1000, -1000,
  -1000, 182, -1000, -1000, 302, -70, -1000, -1000, -1000, -1000, -1000, 332, 38, -1000, 164, 36,
  -1000, 68, -75, 139, -1000, 360, 341, 111, 93, 225, -1000, -1000, -1000, -1000, -1000, -1000,
  -1000, 360, -1000, -1000, -1000, 298, 784, -1000, 82, 341, -1000, 58, -1000, -1000, 341, -1000,
  784, 176, -1000, -1000, -1000, -1000, -1000, -1000, -1000, -1000, -1000, -1000, -1000, -1000, -1000, -1000,
  -1000, -1000, -1000, -1000, -1000, -1000, -1000, -1000, 51, -1000, -1000, -1000, 273, 271, 260, -1000,
  -52, 47, -1000, 99, 97, -92, 633, -1000, -1000, -1000, -1000, -1000, -1000, -1000, -1000, -1000,
  -1000, -1000, -1000, -1000, -1000, -1000, -1000, 40, -22, -1000, -1000, 353, -1000, 168, 46, -1000,
  385, 255, 301, 336, 336, -1000, -1000, 49, 710, -6, -8, 168, 48, 710, -12, -29,
  7, 168, 784, 784, -1000, 317, -1000, -1000, -1000, -1000, 254, -1000, -1000, -1000, -1000, -1000,
  -1000, -1000, -1000, -1000, -1000, 350, -1000, -1000, 185, 331, -1000, -1000, -1000, 94, -1000, -1000,
  224, -1000, -1000, 54, -1000, 6, -1000, 90, -1000, 54, -1000, 385, -1000, -1000, -1000, -1000,
  -1000, -1000, 296, 168, -25, 228, -1000, 336, 250, 222, 214, -1000, 94, 784, 249, 221,
  -1000, 217, -1000, 181, 196, -1000, 181, -1000, 207, 246, 216, -1000, -54, -30, 168, -1000,
  710, 710, -1000, -1000, 207, 245, 168, -1000, 710, 710, 336, 168, 168, 138, -1000, -1000,
  -1000, 191, -1000, -1000, -1000, -1000, 244, 350, 350, -1000, -1000, -1000, -1000, 180, -1000, 329,
  167, 185, -1000, 155, 559, 294, -1000, 472, 472, -1000, -1000, 472, -1000, -1000, -1000, 154,
  41, 168, 202, -1000, 194, -1000, 177, -1000, 301, 207, 336, -1000, 168, -1000, 293, 336,
  198, -1000, 336, 243, 292, -1000, 79, -1000, 46, 784, 168, -1000, 168, -1000, 241, -1000,
  168, -1000, 168, -1000, -1000, -1000, 347, -1000, 240, -1000, -1000, 345, 277, -1000, -1000, 325,
  -1000, -1000, -1000, -1000, 131, -1000, 323, 215, -1000, -1000, -1000, -1000, -1000, -1000, 32, -1000,
  -1000, -1000, -1000, -1000, -1000, -1000, 299, -1000, 336, 317, 214, -1000, -1000, 213, -1000, -1000,
  94, -1000, 152, 146, -1000, -1000, -1000, 212, -1000, -1000, 168, -1000, -1000, -1000, 145, -1000,
  167, -1000, 46, -1000, 385, -1000, 235, 209, 208, 168, -1000, 143, 133, 207, 336, 205,
  -1000, -1000, 201, 44, -1000, -1000, -1000, -1000, -1000, -1000, 336, 336, -1000, -2, -1000, -1000,
  -1000, -1000, -1000, 336, -1000, 200, 287, 197, -1000, -1000, -1000, 321, 232, -1000, -1000, -1000,
  -1000, -1000, -1000, -1000, 37, -1000, 44, 37, 117, -1000, 195, -1000, 199, -1000, 37, -1000]

/-- y.go:524-540 -/
def yyPgo : List Int := [
  0, 32, 13, 34, 157, 1, 548, 544, 542, 540, 257, 321, 539, 538, 320, 14,
  536, 535, 533, 532, 116, 531, 527, 525, 7, 22, 524, 523, 30, 31, 522, 10,
  520, 519, 518, 517, 516, 515, 26, 18, 122, 514, 513, 509, 505, 21, 501, 500,
  8, 497, 496, 493, 492, 490, 11, 489, 488, 29, 487, 28, 25, 27, 486, 484,
  483, 482, 475, 470, 83, 469, 468, 463, 20, 461, 457, 455, 453, 452, 451, 449,
  448, 446, 0, 3, 446, 33, 445, 444, 438, 437, 436, 435, 433, 432, 17, 430,
  429, 428, 119, 162, 107, 426, 422, 420, 418, 416, 415, 415, 6, 16, 413, 412,
  410, 2, 23, 408, 407, 5, 404, 403, 402, 398, 395, 394, 12, 24, 19, 387,
  385, 383, 383, 380, 379, 378, 376, 375, 373, 4, 371, 370, 369, 368, 361]

/-- y.go:542-573 -/
def yyR1 : List Int := [
  0, 121, 4, 3, 45, 39, 5, 8, 13, 13, 11, 11, 9, 9, 9, 10,
  12, 7, 7, 7, 7, 6, 6, 44, 44, 122, 122, 122, 123, 123, 95, 95,
  96, 96, 97, 97, 98, 103, 102, 102, 102, 99, 99, 100, 101, 101, 101, 43,
  43, 40, 40, 76, 15, 15, 42, 41, 20, 20, 20, 19, 19, 19, 19, 19,
  19, 19, 19, 19, 19, 19, 19, 19, 19, 19, 19, 77, 77, 24, 31, 30,
  30, 30, 30, 18, 35, 35, 17, 17, 115, 115, 114, 114, 38, 38, 32, 32,
  22, 116, 116, 116, 118, 119, 117, 117, 120, 120, 33, 34, 34, 36, 36, 37,
  37, 1, 1, 1, 1, 2, 2, 92, 92, 93, 93, 94, 94, 91, 21, 78,
  78, 78, 125, 125, 126, 126, 85, 85, 85, 84, 127, 111, 111, 112, 112, 113,
  113, 128, 129, 129, 83, 83, 82, 82, 82, 82, 80, 80, 80, 81, 81, 23,
  23, 104, 105, 105, 105, 107, 109, 109, 110, 110, 108, 130, 106, 106, 86, 86,
  86, 87, 88, 88, 89, 89, 89, 89, 79, 79, 16, 29, 29, 28, 28, 27,
  27, 27, 27, 25, 25, 26, 14, 73, 73, 74, 74, 74, 74, 74, 74, 74,
  74, 74, 74, 74, 74, 74, 75, 90, 90, 46, 46, 47, 47, 47, 47, 47,
  47, 47, 47, 48, 49, 50, 51, 51, 51, 52, 53, 54, 54, 55, 55, 56,
  57, 57, 58, 59, 59, 62, 60, 131, 131, 132, 132, 61, 61, 65, 65, 65,
  65, 65, 63, 64, 69, 69, 70, 70, 71, 71, 72, 72, 68, 66, 67, 67,
  133, 134, 134, 135, 136, 137, 137, 138, 139, 140, 140, 141, 141, 141, 141, 124,
  124, 142, 142, 142]

/-- y.go:575-606 -/
def yyR2 : List Int := [
  0, 8, 1, 1, 1, 1, 1, 2, 3, 0, 1, 2, 1, 1, 1, 1,
  4, 2, 2, 2, 0, 2, 0, 3, 0, 3, 3, 0, 1, 0, 3, 0,
  1, 0, 1, 2, 3, 2, 1, 1, 0, 1, 3, 1, 1, 1, 1, 1,
  2, 1, 1, 1, 3, 1, 3, 4, 1, 1, 1, 1, 1, 1, 1, 1,
  1, 1, 1, 1, 1, 1, 1, 1, 1, 1, 1, 1, 1, 2, 1, 1,
  1, 1, 1, 1, 1, 1, 1, 4, 1, 3, 4, 4, 1, 2, 1, 1,
  4, 1, 4, 6, 1, 1, 1, 3, 1, 1, 1, 1, 1, 1, 2, 1,
  1, 1, 3, 5, 3, 1, 2, 2, 5, 1, 3, 4, 4, 2, 1, 3,
  5, 4, 1, 2, 2, 0, 1, 5, 7, 1, 2, 2, 0, 1, 3, 1,
  1, 4, 0, 2, 1, 3, 1, 2, 3, 3, 3, 5, 4, 3, 3, 1,
  4, 4, 5, 1, 3, 1, 2, 0, 1, 3, 1, 4, 1, 3, 2, 3,
  3, 4, 1, 1, 1, 1, 1, 0, 3, 3, 2, 3, 4, 1, 2, 1,
  1, 1, 1, 1, 1, 4, 1, 1, 1, 1, 1, 1, 1, 1, 1, 1,
  1, 1, 1, 1, 1, 1, 2, 1, 1, 2, 1, 4, 4, 4, 4, 4,
  4, 4, 4, 4, 1, 1, 1, 3, 5, 1, 1, 1, 2, 1, 3, 1,
  1, 3, 1, 1, 2, 1, 2, 1, 1, 1, 1, 1, 3, 1, 1, 1,
  1, 1, 1, 3, 1, 2, 1, 2, 1, 1, 1, 1, 2, 1, 3, 3,
  1, 1, 1, 3, 5, 1, 3, 2, 2, 1, 0, 1, 1, 1, 0, 2,
  0, 1, 1, 3]

/-- y.go:608-653 -/
def yyChk : List Int := [
  -1000, -121, -8, -3, 6, 119, -13, 26, -7, 64, 108, 63, -11, -9, -14, -10,
  -12, -5, 8, 7, -6, 72, 78, 78, 78, 27, -11, 32, 15, 112, -10, 67,
  33, -44, -122, 68, 52, -95, 116, -123, 55, -99, -100, -101, -4, -3, -45, 6,
  7, -43, -40, -42, -41, -4, -45, 6, -96, -97, -98, -99, 42, 42, 30, -40,
  15, -20, -19, -77, -46, -92, -18, -73, -104, -22, -17, -21, -16, -91, -33, -78,
  -79, -80, -81, -23, -86, -76, -90, -47, 71, 79, -74, -75, 91, 56, 49, 73,
  81, 89, 125, 54, 58, 127, -87, -4, 88, 110, 75, 92, 96, 100, 57, 77,
  117, 82, 74, 106, 114, 118, 122, 87, 34, 42, -98, 84, -100, -20, 15, -48,
  32, 66, 26, 26, 26, 104, 66, 26, 93, -48, -68, 62, 26, 93, -48, -68,
  128, -20, 108, 64, 66, -89, 102, 59, 121, -103, -3, -31, -30, -35, -32, -29,
  -34, 86, 80, -38, -5, 26, -36, -37, 8, 36, -1, 109, 69, -49, -50, -51,
  -52, -54, -55, 55, -57, -56, -59, -58, -61, -62, -65, 32, -63, -64, -68, -66,
  -67, -31, -69, -20, 126, -71, 65, 26, -105, -106, -125, -24, 17, -5, -116, -118,
  -117, -120, -114, -5, -115, -114, -5, 27, -125, -85, -83, -82, -24, 103, -20, -24,
  93, 93, -48, 27, -125, -85, -20, -24, 93, 93, 83, -20, -20, -88, -39, -15,
  8, -3, -45, -102, -29, -15, -28, -15, -27, -14, -25, -26, 7, -5, 8, 31,
  25, 8, -1, -124, 45, 30, -60, 60, -131, 44, 94, -132, 46, 53, -60, -54,
  16, 99, 103, 28, -93, -94, -5, 27, 30, -109, 30, -124, -20, 27, 30, 30,
  32, 27, 30, -126, 30, 27, 30, 97, 115, 93, -20, -24, -20, -24, -126, 27,
  -20, -24, -20, -24, -5, 35, 31, 27, -28, -15, -28, 32, 8, -2, 8, 36,
  33, -142, -38, -15, -20, 8, 36, 17, -61, -57, -59, 33, -70, -72, 28, -31,
  61, -133, -48, -134, -135, -136, 26, 27, 30, 32, -125, -24, -126, -110, -108, -24,
  17, -117, -38, -15, -114, 27, 17, -125, -82, -31, -20, 27, -45, 27, -25, -15,
  25, 8, 37, 8, 30, -72, -137, 17, -138, -5, -94, -39, -15, -109, 30, -124,
  33, 33, -111, 30, 33, -2, -31, -53, -54, 27, 30, 30, -139, -140, -48, 33,
  33, -126, -108, 30, -126, -127, 30, -112, -113, -82, -128, 18, -137, -137, -141, 113,
  47, 97, -119, -117, 30, 17, 30, -129, 8, 27, -83, -113, -83, 37, 30, 19]

/-- y.go:655-700 -/
def yyDef : List Int := [
  0, -2, 0, 9, 3, 20, 7, 0, 22, 0, 0, 0, 0, 10, 12, 13,
  14, 198, 15, 6, 0, 0, 17, 18, 19, 8, 11, 0, 0, 21, 0, -2,
  16, 0, 31, 29, 1, 0, 33, 0, 0, 28, 41, 43, 44, 45, 46, -2,
  4, 23, 47, 49, 50, 0, 0, 2, 0, 32, 34, 0, 25, 26, 0, 48,
  0, 0, 56, 57, 58, 59, 60, 61, 62, 63, 64, 65, 66, 67, 68, 69,
  70, 71, 72, 73, 74, 75, 76, 218, 0, 83, 199, 200, 0, 0, 86, 126,
  0, 0, 106, 0, 0, 159, 0, 51, 215, 216, 201, 202, 203, 204, 205, 206,
  207, 208, 209, 210, 211, 212, 213, 0, 183, 30, 35, 0, 42, 54, 0, 217,
  0, 119, 0, 0, 0, 186, 125, 0, 0, 0, 0, 0, 0, 0, 0, 0,
  0, 174, 0, 0, 214, 0, 180, 181, 182, 36, 40, 55, 78, 79, 80, 81,
  82, 84, 85, 94, 95, 0, 107, 108, 92, 0, 109, 111, 112, 288, 228, 229,
  230, 233, -2, 0, -2, 0, 240, 0, -2, 0, 251, 0, 253, 254, 255, 256,
  257, -2, 0, 269, 0, 260, 265, 0, 0, 163, 167, 172, 130, 0, 0, 97,
  100, 102, 104, 105, 0, 88, 0, 127, 133, 0, 134, 148, 150, 0, 184, 185,
  0, 0, 268, 154, 133, 0, 157, 158, 0, 0, 0, 175, 176, 0, 178, 179,
  5, 0, 53, 37, 38, 39, 0, 194, 189, 191, 192, 193, -2, 198, 195, 0,
  0, 93, 110, 0, 0, 0, 236, 0, 0, 247, 248, 0, 249, 250, 244, 0,
  0, 0, 0, 261, 0, 121, 0, 161, 0, 133, 0, 131, 77, 96, 0, 0,
  0, 87, 0, 0, 0, 129, 0, 151, 0, 0, 221, 225, 222, 226, 0, 156,
  219, 223, 220, 224, 160, 177, 0, 187, 0, 194, 190, 0, 114, 116, 117, 0,
  227, 287, 289, 290, 0, 92, 0, 231, 246, -2, 241, 252, 259, 262, 0, 266,
  267, 270, 272, 271, 273, 274, 0, 120, 0, 0, 167, 173, 164, 166, 168, 170,
  288, 103, 0, 0, 89, 128, 132, 140, 149, 152, 153, 155, 52, 188, 0, 196,
  0, 118, 0, 93, 0, 263, 0, 0, 277, 282, 122, 0, 0, 133, 0, 98,
  90, 91, 133, 0, 197, 115, 291, 232, 234, 275, 0, 0, 279, 286, 281, 123,
  124, 162, 169, 0, 135, 0, 0, 139, 141, 143, 144, 146, 0, 278, 280, 283,
  284, 285, 99, 101, 0, -2, 0, 0, 0, 276, 136, 142, 0, 147, 0, 145]

/-- y.go:702-704 -/
def yyTok1 : List Int := [
  1]

/-- y.go:706-720 -/
def yyTok2 : List Int := [
  2, 3, 4, 5, 6, 7, 8, 9, 10, 11, 12, 13, 14, 15, 16, 17,
  18, 19, 20, 21, 22, 23, 24, 25, 26, 27, 28, 29, 30, 31, 32, 33,
  34, 35, 36, 37, 38, 39, 40, 41, 42, 43, 44, 45, 46, 47, 48, 49,
  50, 51, 52, 53, 54, 55, 56, 57, 58, 59, 60, 61, 62, 63, 64, 65,
  66, 67, 68, 69, 70, 71, 72, 73, 74, 75, 76, 77, 78, 79, 80, 81,
  82, 83, 84, 85, 86, 87, 88, 89, 90, 91, 92, 93, 94, 95, 96, 97,
  98, 99, 100, 101, 102, 103, 104, 105, 106, 107, 108, 109, 110, 111, 112, 113,
  114, 115, 116, 117, 118, 119, 120, 121, 122, 123, 124, 125, 126, 127, 128]

/-- y.go:722-724 -/
def yyTok3 : List Int := [
  0]

end Asn1go.Spec
