import Verif.Model.Api

/-
Tables of the LTPF: resampling, `src/ltpf.c`, and synthesis, `src/tables.c`; generated by
tools/genltpf.py. Do not edit.
-/

namespace LC3

/-- Decimal constant `m e-k`. -/
def dec (m : Int) (e : Nat) : Rat := mkRat m (10 ^ e)

/-- `h_8k_12k8_q15`, src/ltpf.c:37-46 (8 phases of 10 coefficients). -/
def h8k : List Int := [
  214, 417, -1052, -4529, 26233, -4529, -1052, 417, 214, 0, 180, 0, -1522, -2427, 24506, -5289, 0,
  763, 156, -28, 92, -323, -1361, 0, 19741, -3885, 1317, 861, 0, -61, 0, -457, -752, 1873, 13068,
  0, 2389, 598, -213, -79, -61, -398, 0, 2686, 5997, 5997, 2686, 0, -398, -61, -79, -213, 598,
  2389, 0, 13068, 1873, -752, -457, 0, -61, 0, 861, 1317, -3885, 19741, 0, -1361, -323, 92, -28,
  156, 763, 0, -5289, 24506, -2427, -1522, 0, 180]

/-- `h_16k_12k8_q15`, src/ltpf.c:50-62 (4 phases of 20 coefficients). -/
def h16k : List Int := [
  -61, 214, -398, 417, 0, -1052, 2686, -4529, 5997, 26233, 5997, -4529, 2686, -1052, 0, 417, -398,
  214, -61, 0, -79, 180, -213, 0, 598, -1522, 2389, -2427, 0, 24506, 13068, -5289, 1873, 0, -752,
  763, -457, 156, 0, -28, -61, 92, 0, -323, 861, -1361, 1317, 0, -3885, 19741, 19741, -3885, 0,
  1317, -1361, 861, -323, 0, 92, -61, -28, 0, 156, -457, 763, -752, 0, 1873, -5289, 13068, 24506,
  0, -2427, 2389, -1522, 598, 0, -213, 180, -79]

/-- `h_32k_12k8_q15`, src/ltpf.c:66-76 (2 phases of 40 coefficients). -/
def h32k : List Int := [
  -30, -31, 46, 107, 0, -199, -162, 209, 430, 0, -681, -526, 658, 1343, 0, -2264, -1943, 2999,
  9871, 13116, 9871, 2999, -1943, -2264, 0, 1343, 658, -526, -681, 0, 430, 209, -162, -199, 0,
  107, 46, -31, -30, 0, -14, -39, 0, 90, 78, -106, -229, 0, 382, 299, -376, -761, 0, 1194, 937,
  -1214, -2644, 0, 6534, 12253, 12253, 6534, 0, -2644, -1214, 937, 1194, 0, -761, -376, 299, 382,
  0, -229, -106, 78, 90, 0, -39, -14]

/-- `h_24k_12k8_q15`, src/ltpf.c:80-112 (8 phases of 30 coefficients). -/
def h24k : List Int := [
  -50, 19, 143, -93, -290, 278, 485, -658, -701, 1396, 901, -3019, -1042, 10276, 17488, 10276,
  -1042, -3019, 901, 1396, -701, -658, 485, 278, -290, -93, 143, 19, -50, 0, -46, 0, 141, -45,
  -305, 185, 543, -501, -854, 1153, 1249, -2619, -1908, 8712, 17358, 11772, 0, -3319, 480, 1593,
  -504, -796, 399, 367, -261, -142, 138, 40, -52, -5, -41, -17, 133, 0, -304, 91, 574, -334, -959,
  878, 1516, -2143, -2590, 7118, 16971, 13161, 1202, -3495, 0, 1731, -267, -908, 287, 445, -215,
  -188, 125, 62, -52, -12, -34, -30, 120, 41, -291, 0, 577, -164, -1015, 585, 1697, -1618, -3084,
  5534, 16337, 14406, 2544, -3526, -523, 1800, 0, -985, 152, 509, -156, -230, 104, 83, -48, -19,
  -26, -41, 103, 76, -265, -83, 554, 0, -1023, 288, 1791, -1070, -3393, 3998, 15474, 15474, 3998,
  -3393, -1070, 1791, 288, -1023, 0, 554, -83, -265, 76, 103, -41, -26, -19, -48, 83, 104, -230,
  -156, 509, 152, -985, 0, 1800, -523, -3526, 2544, 14406, 16337, 5534, -3084, -1618, 1697, 585,
  -1015, -164, 577, 0, -291, 41, 120, -30, -34, -12, -52, 62, 125, -188, -215, 445, 287, -908,
  -267, 1731, 0, -3495, 1202, 13161, 16971, 7118, -2590, -2143, 1516, 878, -959, -334, 574, 91,
  -304, 0, 133, -17, -41, -5, -52, 40, 138, -142, -261, 367, 399, -796, -504, 1593, 480, -3319, 0,
  11772, 17358, 8712, -1908, -2619, 1249, 1153, -854, -501, 543, 185, -305, -45, 141, 0, -46]

/-- `h_48k_12k8_q15`, src/ltpf.c:116-144 (4 phases of 60 coefficients). -/
def h48k : List Int := [
  -13, -25, -20, 10, 51, 71, 38, -47, -133, -145, -42, 139, 277, 242, 0, -329, -511, -351, 144,
  698, 895, 450, -535, -1510, -1697, -521, 1999, 5138, 7737, 8744, 7737, 5138, 1999, -521, -1697,
  -1510, -535, 450, 895, 698, 144, -351, -511, -329, 0, 242, 277, 139, -42, -145, -133, -47, 38,
  71, 51, 10, -20, -25, -13, 0, -9, -23, -24, 0, 41, 71, 52, -23, -115, -152, -78, 92, 254, 272,
  76, -251, -493, -427, 0, 576, 900, 624, -262, -1309, -1763, -954, 1272, 4356, 7203, 8679, 8169,
  5886, 2767, 0, -1542, -1660, -809, 240, 848, 796, 292, -252, -507, -398, -82, 199, 288, 183, 0,
  -130, -145, -71, 20, 69, 60, 20, -15, -26, -17, -3, -6, -20, -26, -8, 31, 67, 62, 0, -94, -152,
  -108, 45, 223, 287, 143, -167, -454, -480, -134, 439, 866, 758, 0, -1071, -1748, -1295, 601,
  3559, 6580, 8485, 8485, 6580, 3559, 601, -1295, -1748, -1071, 0, 758, 866, 439, -134, -480,
  -454, -167, 143, 287, 223, 45, -108, -152, -94, 0, 62, 67, 31, -8, -26, -20, -6, -3, -17, -26,
  -15, 20, 60, 69, 20, -71, -145, -130, 0, 183, 288, 199, -82, -398, -507, -252, 292, 796, 848,
  240, -809, -1660, -1542, 0, 2767, 5886, 8169, 8679, 7203, 4356, 1272, -954, -1763, -1309, -262,
  624, 900, 576, 0, -427, -493, -251, 76, 272, 254, 92, -78, -152, -115, -23, 52, 71, 41, 0, -24,
  -23, -9]

/-- `h_96k_12k8_q15`, src/ltpf.c:148-174 (2 phases of 120 coefficients). -/
def h96k : List Int := [
  -3, -7, -10, -13, -13, -10, -4, 5, 15, 26, 33, 36, 31, 19, 0, -23, -47, -66, -76, -73, -54, -21,
  23, 70, 111, 139, 143, 121, 72, 0, -84, -165, -227, -256, -240, -175, -67, 72, 219, 349, 433,
  448, 379, 225, 0, -268, -536, -755, -874, -848, -648, -260, 301, 1000, 1780, 2569, 3290, 3869,
  4243, 4372, 4243, 3869, 3290, 2569, 1780, 1000, 301, -260, -648, -848, -874, -755, -536, -268,
  0, 225, 379, 448, 433, 349, 219, 72, -67, -175, -240, -256, -227, -165, -84, 0, 72, 121, 143,
  139, 111, 70, 23, -21, -54, -73, -76, -66, -47, -23, 0, 19, 31, 36, 33, 26, 15, 5, -4, -10, -13,
  -13, -10, -7, -3, 0, -1, -5, -8, -12, -13, -12, -8, 0, 10, 21, 30, 35, 34, 26, 10, -11, -35,
  -58, -73, -76, -65, -39, 0, 46, 92, 127, 144, 136, 100, 38, -41, -125, -199, -246, -254, -214,
  -126, 0, 146, 288, 398, 450, 424, 312, 120, -131, -405, -655, -830, -881, -771, -477, 0, 636,
  1384, 2178, 2943, 3601, 4084, 4340, 4340, 4084, 3601, 2943, 2178, 1384, 636, 0, -477, -771,
  -881, -830, -655, -405, -131, 120, 312, 424, 450, 398, 288, 146, 0, -126, -214, -254, -246,
  -199, -125, -41, 38, 100, 136, 144, 127, 92, 46, 0, -39, -65, -76, -73, -58, -35, -11, 10, 26,
  34, 35, 30, 21, 10, 0, -8, -12, -13, -12, -8, -5, -1]

/-- `lc3_ltpf_cnum`, src/tables.c:4755-4827: numerators, for each gain (no table for the high-resolution rates). -/
def ltpfCnum : Srate → List (List Rat)
  | .k8 => [
    [
      dec 602361821 9, dec 419760926 9, dec (-188342453) 10, 0],
    [
      dec 599476858 9, dec 419760926 9, dec (-159492828) 10, 0],
    [
      dec 596776466 9, dec 419760926 9, dec (-132488910) 10, 0],
    [
      dec 594241012 9, dec 419760926 9, dec (-107134366) 10, 0]]
  | .k16 => [
    [
      dec 602361821 9, dec 419760926 9, dec (-188342453) 10, 0],
    [
      dec 599476858 9, dec 419760926 9, dec (-159492828) 10, 0],
    [
      dec 596776466 9, dec 419760926 9, dec (-132488910) 10, 0],
    [
      dec 594241012 9, dec 419760926 9, dec (-107134366) 10, 0]]
  | .k24 => [
    [
      dec 398969559 9, dec 514250861 9, dec 100438297 9, dec (-127889396) 10, dec (-157228008) 11,
      0],
    [
      dec 394863491 9, dec 512381921 9, dec 104319493 9, dec (-109199996) 10, dec (-134740833) 11,
      0],
    [
      dec 390984448 9, dec 510605352 9, dec 107983252 9, dec (-914343107) 11, dec (-113212462) 11,
      0],
    [
      dec 387309389 9, dec 508912208 9, dec 111451738 9, dec (-745028713) 11, dec (-925551405) 12,
      0]]
  | .k32 => [
    [
      dec 298237945 9, dec 465280920 9, dec 210599743 9, dec 376678038 10, dec (-101569616) 10,
      dec (-253588100) 11, dec (-318294617) 12, 0],
    [
      dec 294383415 9, dec 461929400 9, dec 212946577 9, dec 406617500 10, dec (-869327230) 11,
      dec (-217830711) 11, dec (-274288806) 12, 0],
    [
      dec 290743921 9, dec 458746191 9, dec 215145697 9, dec 435010477 10, dec (-729549535) 11,
      dec (-183439564) 11, dec (-231692019) 12, 0],
    [
      dec 287297585 9, dec 455714889 9, dec 217212695 9, dec 462008888 10, dec (-595746380) 11,
      dec (-150293428) 11, dec (-190385191) 12, 0]]
  | .k48 => [
    [
      dec 198136374 9, dec 352449490 9, dec 251369527 9, dec 142414624 9, dec 570473102 10,
      dec 929336624 11, dec (-722602537) 11, dec (-317267989) 11, dec (-112183596) 11,
      dec (-290295724) 12, dec (-427081559) 13, 0],
    [
      dec 195070943 9, dec 348466041 9, dec 250998846 9, dec 144116741 9, dec 592894732 10,
      dec 110892383 10, dec (-619290811) 11, dec (-272670551) 11, dec (-966712583) 12,
      dec (-250810092) 12, dec (-369993877) 13, 0],
    [
      dec 192181006 9, dec 344694556 9, dec 250622009 9, dec 145710245 9, dec 614113213 10,
      dec 127994140 10, dec (-520372109) 11, dec (-229732451) 11, dec (-816560813) 12,
      dec (-212385575) 12, dec (-314127133) 13, 0],
    [
      dec 189448531 9, dec 341113925 9, dec 250240688 9, dec 147206563 9, dec 634247723 10,
      dec 144320343 10, dec (-425444914) 11, dec (-188308147) 11, dec (-670961906) 12,
      dec (-174936334) 12, dec (-259386474) 13, 0]]
  | _ => []

/-- `lc3_ltpf_cden`, src/tables.c:4829-4901: denominators, for each phase (no table for the high-resolution rates). -/
def ltpfCden : Srate → List (List Rat)
  | .k8 => [
    [
      dec 209880463 9, dec 583527575 9, dec 209880463 9, 0],
    [
      dec 106999186 9, dec 550075002 9, dec 335690625 9, dec 669885837 11],
    [
      dec 396711478 10, dec 459220930 9, dec 459220930 9, dec 396711478 10],
    [
      dec 669885837 11, dec 335690625 9, dec 550075002 9, dec 106999186 9]]
  | .k16 => [
    [
      dec 209880463 9, dec 583527575 9, dec 209880463 9, 0],
    [
      dec 106999186 9, dec 550075002 9, dec 335690625 9, dec 669885837 11],
    [
      dec 396711478 10, dec 459220930 9, dec 459220930 9, dec 396711478 10],
    [
      dec 669885837 11, dec 335690625 9, dec 550075002 9, dec 106999186 9]]
  | .k24 => [
    [
      dec 632223163 10, dec 250730961 9, dec 371390943 9, dec 250730961 9, dec 632223163 10, 0],
    [
      dec 345927217 10, dec 198651560 9, dec 362641173 9, dec 298675055 9, dec 101309287 9,
      dec 426354371 11],
    [
      dec 153574678 10, dec 147434488 9, dec 337425955 9, dec 337425955 9, dec 147434488 9,
      dec 153574678 10],
    [
      dec 426354371 11, dec 101309287 9, dec 298675055 9, dec 362641173 9, dec 198651560 9,
      dec 345927217 10]]
  | .k32 => [
    [
      dec 290040188 10, dec 112985742 9, dec 221202403 9, dec 272390947 9, dec 221202403 9,
      dec 112985742 9, dec 290040188 10, 0],
    [
      dec 170315342 10, dec 872250379 10, dec 196140776 9, dec 268923798 9, dec 242499910 9,
      dec 140577336 9, dec 447487717 10, dec 312703024 11],
    [
      dec 856367375 11, dec 642622294 10, dec 168767671 9, dec 258744594 9, dec 258744594 9,
      dec 168767671 9, dec 642622294 10, dec 856367375 11],
    [
      dec 312703024 11, dec 447487717 10, dec 140577336 9, dec 242499910 9, dec 268923798 9,
      dec 196140776 9, dec 872250379 10, dec 170315342 10]]
  | .k48 => [
    [
      dec 108235939 10, dec 360896922 10, dec 767640147 10, dec 124153058 9, dec 162759644 9,
      dec 177677142 9, dec 162759644 9, dec 124153058 9, dec 767640147 10, dec 360896922 10,
      dec 108235939 10, 0],
    [
      dec 704140493 11, dec 281970232 10, dec 654704494 10, dec 112464799 9, dec 154841896 9,
      dec 176712238 9, dec 169150721 9, dec 135290158 9, dec 885142501 10, dec 449935385 10,
      dec 155761371 10, dec 203972196 11],
    [
      dec 414699847 11, dec 213575731 10, dec 548273558 10, dec 100497144 9, dec 145606034 9,
      dec 173843984 9, dec 173843984 9, dec 145606034 9, dec 100497144 9, dec 548273558 10,
      dec 213575731 10, dec 414699847 11],
    [
      dec 203972196 11, dec 155761371 10, dec 449935385 10, dec 885142501 10, dec 135290158 9,
      dec 169150721 9, dec 176712238 9, dec 154841896 9, dec 112464799 9, dec 654704494 10,
      dec 281970232 10, dec 704140493 11]]
  | _ => []

end LC3
