/-!
Generated by tools/gen_duals.py; checked in Lemmas/DualCheck.lean.
-/

namespace Composipy

/-- Rounding of `ii_FF` in units of `1e-22`, upwards. -/
def err_FF : List (List Nat) := [
  [1428572, 2380953, 1428572, 47620, 333334, 15874, 104084, 56003, 138778, 416334, 0, 1110224, 0, 2775558, 8881785, 0, 8881785, 17763569, 0, 142108548, 94750597, 270894419, 2629008123, 1719457910, 5488942634, 8526512830, 0, 3637923296, 74275412210, 291038304568],
  [2380953, 476191, 47620, 142858, 142858, 73016, 11006, 63002, 0, 86737, 69389, 277556, 138778, 832668, 0, 2775558, 4440893, 3885781, 17763569, 39968029, 35527137, 125455202, 0, 415674440, 2069455718, 2078337503, 2046418591, 25579538488, 0, 12126595843],
  [1428572, 47620, 1428572, 2380953, 333334, 15874, 34695, 56003, 346945, 468376, 277556, 797973, 2220447, 2220447, 1110224, 4440893, 13322677, 0, 0, 122124533, 189466499, 426325642, 1492139746, 1776356840, 6057376823, 7688016890, 18189894036, 142108548, 1515836068, 9094947018],
  [47620, 142858, 2380953, 523810, 142858, 73016, 41006, 63002, 0, 69389, 0, 277556, 208167, 277556, 0, 0, 1804113, 8326673, 8881785, 4440893, 79936058, 195399253, 0, 415674440, 1083577673, 757912613, 0, 4547473509, 0, 12126595843],
  [333334, 142858, 333334, 142858, 0, 0, 0, 0, 0, 0, 0, 0, 0, 0, 0, 0, 0, 0, 0, 0, 0, 0, 0, 0, 0, 0, 0, 0, 0, 0],
  [15874, 73016, 15874, 73016, 0, 0, 0, 0, 0, 0, 0, 0, 0, 0, 0, 0, 0, 0, 0, 0, 0, 0, 0, 0, 0, 0, 0, 0, 0, 0],
  [104084, 11006, 34695, 41006, 0, 0, 0, 0, 0, 0, 0, 0, 0, 0, 0, 0, 0, 0, 0, 0, 0, 0, 0, 0, 0, 0, 0, 0, 0, 0],
  [56003, 63002, 56003, 63002, 0, 0, 0, 0, 0, 0, 0, 0, 0, 0, 0, 0, 0, 0, 0, 0, 0, 0, 0, 0, 0, 0, 0, 0, 0, 0],
  [138778, 0, 346945, 0, 0, 0, 0, 0, 0, 0, 0, 0, 0, 0, 0, 0, 0, 0, 0, 0, 0, 0, 0, 0, 0, 0, 0, 0, 0, 0],
  [416334, 86737, 468376, 69389, 0, 0, 0, 0, 0, 0, 0, 0, 0, 0, 0, 0, 0, 0, 0, 0, 0, 0, 0, 0, 0, 0, 0, 0, 0, 0],
  [0, 69389, 277556, 0, 0, 0, 0, 0, 0, 0, 0, 0, 0, 0, 0, 0, 0, 0, 0, 0, 0, 0, 0, 0, 0, 0, 0, 0, 0, 0],
  [1110224, 277556, 797973, 277556, 0, 0, 0, 0, 0, 0, 0, 0, 0, 0, 0, 0, 0, 0, 0, 0, 0, 0, 0, 0, 0, 0, 0, 0, 0, 0],
  [0, 138778, 2220447, 208167, 0, 0, 0, 0, 0, 0, 0, 0, 0, 0, 0, 0, 0, 0, 0, 0, 0, 0, 0, 0, 0, 0, 0, 0, 0, 0],
  [2775558, 832668, 2220447, 277556, 0, 0, 0, 0, 0, 0, 0, 0, 0, 0, 0, 0, 0, 0, 0, 0, 0, 0, 0, 0, 0, 0, 0, 0, 0, 0],
  [8881785, 0, 1110224, 0, 0, 0, 0, 0, 0, 0, 0, 0, 0, 0, 0, 0, 0, 0, 0, 0, 0, 0, 0, 0, 0, 0, 0, 0, 0, 0],
  [0, 2775558, 4440893, 0, 0, 0, 0, 0, 0, 0, 0, 0, 0, 0, 0, 0, 0, 0, 0, 0, 0, 0, 0, 0, 0, 0, 0, 0, 0, 0],
  [8881785, 4440893, 13322677, 1804113, 0, 0, 0, 0, 0, 0, 0, 0, 0, 0, 0, 0, 0, 0, 0, 0, 0, 0, 0, 0, 0, 0, 0, 0, 0, 0],
  [17763569, 3885781, 0, 8326673, 0, 0, 0, 0, 0, 0, 0, 0, 0, 0, 0, 0, 0, 0, 0, 0, 0, 0, 0, 0, 0, 0, 0, 0, 0, 0],
  [0, 17763569, 0, 8881785, 0, 0, 0, 0, 0, 0, 0, 0, 0, 0, 0, 0, 0, 0, 0, 0, 0, 0, 0, 0, 0, 0, 0, 0, 0, 0],
  [142108548, 39968029, 122124533, 4440893, 0, 0, 0, 0, 0, 0, 0, 0, 0, 0, 0, 0, 0, 0, 0, 0, 0, 0, 0, 0, 0, 0, 0, 0, 0, 0],
  [94750597, 35527137, 189466499, 79936058, 0, 0, 0, 0, 0, 0, 0, 0, 0, 0, 0, 0, 0, 0, 0, 0, 0, 0, 0, 0, 0, 0, 0, 0, 0, 0],
  [270894419, 125455202, 426325642, 195399253, 0, 0, 0, 0, 0, 0, 0, 0, 0, 0, 0, 0, 0, 0, 0, 0, 0, 0, 0, 0, 0, 0, 0, 0, 0, 0],
  [2629008123, 0, 1492139746, 0, 0, 0, 0, 0, 0, 0, 0, 0, 0, 0, 0, 0, 0, 0, 0, 0, 0, 0, 0, 0, 0, 0, 0, 0, 0, 0],
  [1719457910, 415674440, 1776356840, 415674440, 0, 0, 0, 0, 0, 0, 0, 0, 0, 0, 0, 0, 0, 0, 0, 0, 0, 0, 0, 0, 0, 0, 0, 0, 0, 0],
  [5488942634, 2069455718, 6057376823, 1083577673, 0, 0, 0, 0, 0, 0, 0, 0, 0, 0, 0, 0, 0, 0, 0, 0, 0, 0, 0, 0, 0, 0, 0, 0, 0, 0],
  [8526512830, 2078337503, 7688016890, 757912613, 0, 0, 0, 0, 0, 0, 0, 0, 0, 0, 0, 0, 0, 0, 0, 0, 0, 0, 0, 0, 0, 0, 0, 0, 0, 0],
  [0, 2046418591, 18189894036, 0, 0, 0, 0, 0, 0, 0, 0, 0, 0, 0, 0, 0, 0, 0, 0, 0, 0, 0, 0, 0, 0, 0, 0, 0, 0, 0],
  [3637923296, 25579538488, 142108548, 4547473509, 0, 0, 0, 0, 0, 0, 0, 0, 0, 0, 0, 0, 0, 0, 0, 0, 0, 0, 0, 0, 0, 0, 0, 0, 0, 0],
  [74275412210, 0, 1515836068, 0, 0, 0, 0, 0, 0, 0, 0, 0, 0, 0, 0, 0, 0, 0, 0, 0, 0, 0, 0, 0, 0, 0, 0, 0, 0, 0],
  [291038304568, 12126595843, 9094947018, 12126595843, 0, 0, 0, 0, 0, 0, 0, 0, 0, 0, 0, 0, 0, 0, 0, 0, 0, 0, 0, 0, 0, 0, 0, 0, 0, 0]]

/-- Rounding of `ii_FXI_F` in units of `1e-22`, upwards. -/
def err_FXI_F : List (List Nat) := [
  [0, 0, 0, 0, 142858, 0, 146032, 0, 0, 0, 0, 0, 0, 0, 4440893, 0, 28865799, 0, 139124823, 0, 213162821, 0, 0, 0, 14210854716, 0, 0, 0, 0, 0],
  [0, 0, 0, 333334, 38096, 19048, 26985, 52042, 34695, 372966, 190820, 0, 369713, 1110224, 0, 12212454, 0, 8881785, 0, 119904087, 8881785, 29605225, 189475172, 1513442150, 6584362640, 0, 378959017, 18047785489, 0, 6063297651],
  [0, 0, 0, 0, 142858, 0, 46032, 0, 0, 0, 0, 0, 1387779, 0, 3330670, 0, 35527137, 0, 71054274, 0, 239808174, 0, 14432900, 0, 4026431966, 0, 3637090629, 0, 0, 0],
  [0, 333334, 0, 0, 38096, 119048, 73016, 52042, 69389, 138778, 86737, 277556, 277556, 1387779, 0, 8881785, 2220447, 11102231, 35527137, 118423067, 133226763, 11865509, 473692266, 1515825226, 5448974605, 284217095, 9473906035, 18189894036, 0, 0],
  [142858, 138096, 142858, 138096, 0, 0, 0, 0, 0, 0, 0, 0, 0, 0, 0, 0, 0, 0, 0, 0, 0, 0, 0, 0, 0, 0, 0, 0, 0, 0],
  [0, 19048, 0, 119048, 0, 0, 0, 0, 0, 0, 0, 0, 0, 0, 0, 0, 0, 0, 0, 0, 0, 0, 0, 0, 0, 0, 0, 0, 0, 0],
  [146032, 73016, 353969, 26985, 0, 0, 0, 0, 0, 0, 0, 0, 0, 0, 0, 0, 0, 0, 0, 0, 0, 0, 0, 0, 0, 0, 0, 0, 0, 0],
  [0, 69389, 0, 208167, 0, 0, 0, 0, 0, 0, 0, 0, 0, 0, 0, 0, 0, 0, 0, 0, 0, 0, 0, 0, 0, 0, 0, 0, 0, 0],
  [0, 0, 0, 0, 0, 0, 0, 0, 0, 0, 0, 0, 0, 0, 0, 0, 0, 0, 0, 0, 0, 0, 0, 0, 0, 0, 0, 0, 0, 0],
  [1110224, 416334, 555112, 277556, 0, 0, 0, 0, 0, 0, 0, 0, 0, 0, 0, 0, 0, 0, 0, 0, 0, 0, 0, 0, 0, 0, 0, 0, 0, 0],
  [0, 416334, 0, 555112, 0, 0, 0, 0, 0, 0, 0, 0, 0, 0, 0, 0, 0, 0, 0, 0, 0, 0, 0, 0, 0, 0, 0, 0, 0, 0],
  [0, 2220447, 0, 1526557, 0, 0, 0, 0, 0, 0, 0, 0, 0, 0, 0, 0, 0, 0, 0, 0, 0, 0, 0, 0, 0, 0, 0, 0, 0, 0],
  [6661339, 3053114, 7771562, 832668, 0, 0, 0, 0, 0, 0, 0, 0, 0, 0, 0, 0, 0, 0, 0, 0, 0, 0, 0, 0, 0, 0, 0, 0, 0, 0],
  [0, 4440893, 17763569, 0, 0, 0, 0, 0, 0, 0, 0, 0, 0, 0, 0, 0, 0, 0, 0, 0, 0, 0, 0, 0, 0, 0, 0, 0, 0, 0],
  [17763569, 4440893, 22204461, 8881785, 0, 0, 0, 0, 0, 0, 0, 0, 0, 0, 0, 0, 0, 0, 0, 0, 0, 0, 0, 0, 0, 0, 0, 0, 0, 0],
  [71054274, 17763569, 35527137, 17763569, 0, 0, 0, 0, 0, 0, 0, 0, 0, 0, 0, 0, 0, 0, 0, 0, 0, 0, 0, 0, 0, 0, 0, 0, 0, 0],
  [44408921, 35527137, 71054274, 17763569, 0, 0, 0, 0, 0, 0, 0, 0, 0, 0, 0, 0, 0, 0, 0, 0, 0, 0, 0, 0, 0, 0, 0, 0, 0, 0],
  [0, 0, 284217095, 106581411, 0, 0, 0, 0, 0, 0, 0, 0, 0, 0, 0, 0, 0, 0, 0, 0, 0, 0, 0, 0, 0, 0, 0, 0, 0, 0],
  [888178420, 284217095, 1136868378, 355271368, 0, 0, 0, 0, 0, 0, 0, 0, 0, 0, 0, 0, 0, 0, 0, 0, 0, 0, 0, 0, 0, 0, 0, 0, 0, 0],
  [0, 479616347, 0, 852651283, 0, 0, 0, 0, 0, 0, 0, 0, 0, 0, 0, 0, 0, 0, 0, 0, 0, 0, 0, 0, 0, 0, 0, 0, 0, 0],
  [568434189, 1278976925, 2629008123, 710542736, 0, 0, 0, 0, 0, 0, 0, 0, 0, 0, 0, 0, 0, 0, 0, 0, 0, 0, 0, 0, 0, 0, 0, 0, 0, 0],
  [3037570196, 759392549, 6062927938, 852651283, 0, 0, 0, 0, 0, 0, 0, 0, 0, 0, 0, 0, 0, 0, 0, 0, 0, 0, 0, 0, 0, 0, 0, 0, 0, 0],
  [0, 3031654789, 57731598, 1515818721, 0, 0, 0, 0, 0, 0, 0, 0, 0, 0, 0, 0, 0, 0, 0, 0, 0, 0, 0, 0, 0, 0, 0, 0, 0, 0],
  [0, 12163603458, 0, 12126688543, 0, 0, 0, 0, 0, 0, 0, 0, 0, 0, 0, 0, 0, 0, 0, 0, 0, 0, 0, 0, 0, 0, 0, 0, 0, 0],
  [26147972676, 13642420527, 28421709431, 31832314563, 0, 0, 0, 0, 0, 0, 0, 0, 0, 0, 0, 0, 0, 0, 0, 0, 0, 0, 0, 0, 0, 0, 0, 0, 0, 0],
  [0, 18189894036, 145519152284, 15916157282, 0, 0, 0, 0, 0, 0, 0, 0, 0, 0, 0, 0, 0, 0, 0, 0, 0, 0, 0, 0, 0, 0, 0, 0, 0, 0],
  [0, 75791230931, 0, 69727921354, 0, 0, 0, 0, 0, 0, 0, 0, 0, 0, 0, 0, 0, 0, 0, 0, 0, 0, 0, 0, 0, 0, 0, 0, 0, 0],
  [1164153218270, 291038304568, 0, 284975099075, 0, 0, 0, 0, 0, 0, 0, 0, 0, 0, 0, 0, 0, 0, 0, 0, 0, 0, 0, 0, 0, 0, 0, 0, 0, 0],
  [0, 0, 0, 0, 0, 0, 0, 0, 0, 0, 0, 0, 0, 0, 0, 0, 0, 0, 0, 0, 0, 0, 0, 0, 0, 0, 0, 0, 0, 0],
  [4656612873078, 1067140542599, 0, 1164153218270, 0, 0, 0, 0, 0, 0, 0, 0, 0, 0, 0, 0, 0, 0, 0, 0, 0, 0, 0, 0, 0, 0, 0, 0, 0, 0]]

/-- Rounding of `ii_FXI_FXI` in units of `1e-22`, upwards. -/
def err_FXI_FXI : List (List Nat) := [
  [0, 0, 0, 0, 0, 285715, 0, 0, 0, 0, 0, 0, 0, 26645353, 0, 142108548, 0, 0, 0, 710542736, 0, 0, 0, 0, 0, 14566126084, 0, 0, 0, 0],
  [0, 333334, 0, 333334, 333334, 142858, 0, 138778, 416334, 555112, 1457168, 0, 0, 3330670, 8881785, 0, 35527137, 0, 0, 852651283, 1563194019, 852651283, 3031637442, 9094947018, 0, 0, 12126584459, 0, 0, 0],
  [0, 0, 0, 0, 0, 285715, 0, 0, 0, 0, 0, 0, 0, 26645353, 0, 115463195, 0, 0, 0, 710542736, 0, 0, 0, 0, 0, 0, 0, 0, 0, 0],
  [0, 333334, 0, 333334, 333334, 142858, 0, 0, 346945, 1110224, 1110224, 0, 0, 4440893, 8881785, 0, 35527137, 0, 0, 248689958, 1515836068, 852651283, 3126388038, 0, 0, 0, 0, 0, 24253203613, 1164153218270],
  [0, 333334, 0, 333334, 0, 0, 0, 0, 0, 0, 0, 0, 0, 0, 0, 0, 0, 0, 0, 0, 0, 0, 0, 0, 0, 0, 0, 0, 0, 0],
  [285715, 142858, 285715, 142858, 0, 0, 0, 0, 0, 0, 0, 0, 0, 0, 0, 0, 0, 0, 0, 0, 0, 0, 0, 0, 0, 0, 0, 0, 0, 0],
  [0, 0, 0, 0, 0, 0, 0, 0, 0, 0, 0, 0, 0, 0, 0, 0, 0, 0, 0, 0, 0, 0, 0, 0, 0, 0, 0, 0, 0, 0],
  [0, 138778, 0, 0, 0, 0, 0, 0, 0, 0, 0, 0, 0, 0, 0, 0, 0, 0, 0, 0, 0, 0, 0, 0, 0, 0, 0, 0, 0, 0],
  [0, 416334, 0, 346945, 0, 0, 0, 0, 0, 0, 0, 0, 0, 0, 0, 0, 0, 0, 0, 0, 0, 0, 0, 0, 0, 0, 0, 0, 0, 0],
  [0, 555112, 0, 1110224, 0, 0, 0, 0, 0, 0, 0, 0, 0, 0, 0, 0, 0, 0, 0, 0, 0, 0, 0, 0, 0, 0, 0, 0, 0, 0],
  [0, 1457168, 0, 1110224, 0, 0, 0, 0, 0, 0, 0, 0, 0, 0, 0, 0, 0, 0, 0, 0, 0, 0, 0, 0, 0, 0, 0, 0, 0, 0],
  [0, 0, 0, 0, 0, 0, 0, 0, 0, 0, 0, 0, 0, 0, 0, 0, 0, 0, 0, 0, 0, 0, 0, 0, 0, 0, 0, 0, 0, 0],
  [0, 0, 0, 0, 0, 0, 0, 0, 0, 0, 0, 0, 0, 0, 0, 0, 0, 0, 0, 0, 0, 0, 0, 0, 0, 0, 0, 0, 0, 0],
  [26645353, 3330670, 26645353, 4440893, 0, 0, 0, 0, 0, 0, 0, 0, 0, 0, 0, 0, 0, 0, 0, 0, 0, 0, 0, 0, 0, 0, 0, 0, 0, 0],
  [0, 8881785, 0, 8881785, 0, 0, 0, 0, 0, 0, 0, 0, 0, 0, 0, 0, 0, 0, 0, 0, 0, 0, 0, 0, 0, 0, 0, 0, 0, 0],
  [142108548, 0, 115463195, 0, 0, 0, 0, 0, 0, 0, 0, 0, 0, 0, 0, 0, 0, 0, 0, 0, 0, 0, 0, 0, 0, 0, 0, 0, 0, 0],
  [0, 35527137, 0, 35527137, 0, 0, 0, 0, 0, 0, 0, 0, 0, 0, 0, 0, 0, 0, 0, 0, 0, 0, 0, 0, 0, 0, 0, 0, 0, 0],
  [0, 0, 0, 0, 0, 0, 0, 0, 0, 0, 0, 0, 0, 0, 0, 0, 0, 0, 0, 0, 0, 0, 0, 0, 0, 0, 0, 0, 0, 0],
  [0, 0, 0, 0, 0, 0, 0, 0, 0, 0, 0, 0, 0, 0, 0, 0, 0, 0, 0, 0, 0, 0, 0, 0, 0, 0, 0, 0, 0, 0],
  [710542736, 852651283, 710542736, 248689958, 0, 0, 0, 0, 0, 0, 0, 0, 0, 0, 0, 0, 0, 0, 0, 0, 0, 0, 0, 0, 0, 0, 0, 0, 0, 0],
  [0, 1563194019, 0, 1515836068, 0, 0, 0, 0, 0, 0, 0, 0, 0, 0, 0, 0, 0, 0, 0, 0, 0, 0, 0, 0, 0, 0, 0, 0, 0, 0],
  [0, 852651283, 0, 852651283, 0, 0, 0, 0, 0, 0, 0, 0, 0, 0, 0, 0, 0, 0, 0, 0, 0, 0, 0, 0, 0, 0, 0, 0, 0, 0],
  [0, 3031637442, 0, 3126388038, 0, 0, 0, 0, 0, 0, 0, 0, 0, 0, 0, 0, 0, 0, 0, 0, 0, 0, 0, 0, 0, 0, 0, 0, 0, 0],
  [0, 9094947018, 0, 0, 0, 0, 0, 0, 0, 0, 0, 0, 0, 0, 0, 0, 0, 0, 0, 0, 0, 0, 0, 0, 0, 0, 0, 0, 0, 0],
  [0, 0, 0, 0, 0, 0, 0, 0, 0, 0, 0, 0, 0, 0, 0, 0, 0, 0, 0, 0, 0, 0, 0, 0, 0, 0, 0, 0, 0, 0],
  [14566126084, 0, 0, 0, 0, 0, 0, 0, 0, 0, 0, 0, 0, 0, 0, 0, 0, 0, 0, 0, 0, 0, 0, 0, 0, 0, 0, 0, 0, 0],
  [0, 12126584459, 0, 0, 0, 0, 0, 0, 0, 0, 0, 0, 0, 0, 0, 0, 0, 0, 0, 0, 0, 0, 0, 0, 0, 0, 0, 0, 0, 0],
  [0, 0, 0, 0, 0, 0, 0, 0, 0, 0, 0, 0, 0, 0, 0, 0, 0, 0, 0, 0, 0, 0, 0, 0, 0, 0, 0, 0, 0, 0],
  [0, 0, 0, 24253203613, 0, 0, 0, 0, 0, 0, 0, 0, 0, 0, 0, 0, 0, 0, 0, 0, 0, 0, 0, 0, 0, 0, 0, 0, 0, 0],
  [0, 0, 0, 1164153218270, 0, 0, 0, 0, 0, 0, 0, 0, 0, 0, 0, 0, 0, 0, 0, 0, 0, 0, 0, 0, 0, 0, 0, 0, 0, 0]]

/-- Rounding of `ii_FXIXI_F` in units of `1e-22`, upwards. -/
def err_FXIXI_F : List (List Nat) := [
  [0, 0, 0, 0, 0, 285715, 0, 0, 0, 0, 0, 0, 0, 1665335, 0, 8881785, 0, 0, 0, 79936058, 0, 0, 0, 0, 0, 909272658, 0, 0, 0, 0],
  [0, 333334, 0, 333334, 333334, 142858, 104084, 0, 86737, 138778, 104084, 0, 0, 1942891, 555112, 8881785, 4440893, 17763569, 0, 35527137, 88817842, 284217095, 189483846, 1136868378, 764943664, 455191441, 23678976, 0, 0, 0],
  [0, 0, 0, 0, 0, 285715, 0, 0, 0, 0, 0, 0, 0, 1665335, 0, 7216450, 0, 0, 0, 79936058, 0, 0, 0, 0, 0, 0, 0, 0, 0, 0],
  [0, 333334, 0, 333334, 333334, 142858, 17348, 0, 104084, 0, 138778, 0, 0, 1110224, 0, 8881785, 2220447, 0, 8881785, 106581411, 94733250, 284217095, 177635684, 0, 1518785098, 4092837181, 0, 0, 757918034, 72759576142],
  [0, 666667, 0, 666667, 0, 0, 0, 0, 0, 0, 0, 0, 0, 0, 0, 0, 0, 0, 0, 0, 0, 0, 0, 0, 0, 0, 0, 0, 0, 0],
  [285715, 142858, 1285715, 142858, 0, 0, 0, 0, 0, 0, 0, 0, 0, 0, 0, 0, 0, 0, 0, 0, 0, 0, 0, 0, 0, 0, 0, 0, 0, 0],
  [0, 0, 0, 0, 0, 0, 0, 0, 0, 0, 0, 0, 0, 0, 0, 0, 0, 0, 0, 0, 0, 0, 0, 0, 0, 0, 0, 0, 0, 0],
  [0, 555112, 0, 0, 0, 0, 0, 0, 0, 0, 0, 0, 0, 0, 0, 0, 0, 0, 0, 0, 0, 0, 0, 0, 0, 0, 0, 0, 0, 0],
  [4440893, 1665335, 0, 1110224, 0, 0, 0, 0, 0, 0, 0, 0, 0, 0, 0, 0, 0, 0, 0, 0, 0, 0, 0, 0, 0, 0, 0, 0, 0, 0],
  [0, 0, 0, 1110224, 0, 0, 0, 0, 0, 0, 0, 0, 0, 0, 0, 0, 0, 0, 0, 0, 0, 0, 0, 0, 0, 0, 0, 0, 0, 0],
  [0, 8881785, 17763569, 6661339, 0, 0, 0, 0, 0, 0, 0, 0, 0, 0, 0, 0, 0, 0, 0, 0, 0, 0, 0, 0, 0, 0, 0, 0, 0, 0],
  [0, 0, 0, 0, 0, 0, 0, 0, 0, 0, 0, 0, 0, 0, 0, 0, 0, 0, 0, 0, 0, 0, 0, 0, 0, 0, 0, 0, 0, 0],
  [0, 17763569, 0, 17763569, 0, 0, 0, 0, 0, 0, 0, 0, 0, 0, 0, 0, 0, 0, 0, 0, 0, 0, 0, 0, 0, 0, 0, 0, 0, 0],
  [106581411, 13322677, 106581411, 35527137, 0, 0, 0, 0, 0, 0, 0, 0, 0, 0, 0, 0, 0, 0, 0, 0, 0, 0, 0, 0, 0, 0, 0, 0, 0, 0],
  [0, 266453526, 0, 124344979, 0, 0, 0, 0, 0, 0, 0, 0, 0, 0, 0, 0, 0, 0, 0, 0, 0, 0, 0, 0, 0, 0, 0, 0, 0, 0],
  [568434189, 142108548, 461852779, 142108548, 0, 0, 0, 0, 0, 0, 0, 0, 0, 0, 0, 0, 0, 0, 0, 0, 0, 0, 0, 0, 0, 0, 0, 0, 0, 0],
  [0, 0, 0, 568434189, 0, 0, 0, 0, 0, 0, 0, 0, 0, 0, 0, 0, 0, 0, 0, 0, 0, 0, 0, 0, 0, 0, 0, 0, 0, 0],
  [0, 568434189, 0, 0, 0, 0, 0, 0, 0, 0, 0, 0, 0, 0, 0, 0, 0, 0, 0, 0, 0, 0, 0, 0, 0, 0, 0, 0, 0, 0],
  [0, 0, 0, 0, 0, 0, 0, 0, 0, 0, 0, 0, 0, 0, 0, 0, 0, 0, 0, 0, 0, 0, 0, 0, 0, 0, 0, 0, 0, 0],
  [12505552150, 0, 13073986338, 2273736755, 0, 0, 0, 0, 0, 0, 0, 0, 0, 0, 0, 0, 0, 0, 0, 0, 0, 0, 0, 0, 0, 0, 0, 0, 0, 0],
  [0, 11368683773, 0, 12128076322, 0, 0, 0, 0, 0, 0, 0, 0, 0, 0, 0, 0, 0, 0, 0, 0, 0, 0, 0, 0, 0, 0, 0, 0, 0, 0],
  [0, 11368683773, 0, 11368683773, 0, 0, 0, 0, 0, 0, 0, 0, 0, 0, 0, 0, 0, 0, 0, 0, 0, 0, 0, 0, 0, 0, 0, 0, 0, 0],
  [0, 97011287892, 0, 22737367545, 0, 0, 0, 0, 0, 0, 0, 0, 0, 0, 0, 0, 0, 0, 0, 0, 0, 0, 0, 0, 0, 0, 0, 0, 0, 0],
  [0, 145519152284, 3694822226, 0, 0, 0, 0, 0, 0, 0, 0, 0, 0, 0, 0, 0, 0, 0, 0, 0, 0, 0, 0, 0, 0, 0, 0, 0, 0, 0],
  [0, 289190893455, 0, 291038304568, 0, 0, 0, 0, 0, 0, 0, 0, 0, 0, 0, 0, 0, 0, 0, 0, 0, 0, 0, 0, 0, 0, 0, 0, 0, 0],
  [0, 28990143620, 0, 552979884106, 0, 0, 0, 0, 0, 0, 0, 0, 0, 0, 0, 0, 0, 0, 0, 0, 0, 0, 0, 0, 0, 0, 0, 0, 0, 0],
  [9313225746155, 2328306436539, 0, 2328306436539, 0, 0, 0, 0, 0, 0, 0, 0, 0, 0, 0, 0, 0, 0, 0, 0, 0, 0, 0, 0, 0, 0, 0, 0, 0, 0],
  [0, 0, 0, 0, 0, 0, 0, 0, 0, 0, 0, 0, 0, 0, 0, 0, 0, 0, 0, 0, 0, 0, 0, 0, 0, 0, 0, 0, 0, 0],
  [37252902984620, 4656612873078, 0, 0, 0, 0, 0, 0, 0, 0, 0, 0, 0, 0, 0, 0, 0, 0, 0, 0, 0, 0, 0, 0, 0, 0, 0, 0, 0, 0],
  [74505805969239, 0, 0, 9313225746155, 0, 0, 0, 0, 0, 0, 0, 0, 0, 0, 0, 0, 0, 0, 0, 0, 0, 0, 0, 0, 0, 0, 0, 0, 0, 0]]

/-- Rounding of `ii_FXIXI_FXI` in units of `1e-22`, upwards. -/
def err_FXIXI_FXI : List (List Nat) := [
  [0, 0, 0, 0, 0, 0, 0, 0, 0, 0, 0, 0, 0, 0, 57731598, 0, 0, 0, 0, 0, 0, 0, 0, 0, 0, 0, 0, 0, 0, 0],
  [0, 0, 0, 0, 0, 0, 0, 0, 0, 832668, 0, 0, 0, 0, 11102231, 48849814, 0, 0, 568434189, 0, 0, 1421085472, 0, 0, 36379788071, 0, 0, 1516009541, 0, 2328306436539],
  [0, 0, 0, 0, 0, 0, 0, 0, 0, 0, 0, 0, 0, 0, 53290706, 0, 0, 0, 0, 0, 0, 0, 0, 0, 0, 0, 0, 0, 0, 0],
  [0, 0, 0, 0, 0, 0, 277556, 0, 0, 832668, 0, 0, 0, 0, 11102231, 35527137, 0, 0, 0, 0, 0, 1516009541, 0, 0, 0, 0, 0, 0, 0, 2328306436539],
  [0, 0, 0, 0, 0, 0, 0, 0, 0, 0, 0, 0, 0, 0, 0, 0, 0, 0, 0, 0, 0, 0, 0, 0, 0, 0, 0, 0, 0, 0],
  [0, 0, 0, 0, 0, 0, 0, 0, 0, 0, 0, 0, 0, 0, 0, 0, 0, 0, 0, 0, 0, 0, 0, 0, 0, 0, 0, 0, 0, 0],
  [0, 0, 0, 0, 0, 0, 0, 0, 0, 0, 0, 0, 0, 0, 0, 0, 0, 0, 0, 0, 0, 0, 0, 0, 0, 0, 0, 0, 0, 0],
  [0, 0, 0, 0, 0, 0, 0, 0, 0, 0, 0, 0, 0, 0, 0, 0, 0, 0, 0, 0, 0, 0, 0, 0, 0, 0, 0, 0, 0, 0],
  [0, 0, 0, 0, 0, 0, 0, 0, 0, 0, 0, 0, 0, 0, 0, 0, 0, 0, 0, 0, 0, 0, 0, 0, 0, 0, 0, 0, 0, 0],
  [0, 6661339, 0, 6106227, 0, 0, 0, 0, 0, 0, 0, 0, 0, 0, 0, 0, 0, 0, 0, 0, 0, 0, 0, 0, 0, 0, 0, 0, 0, 0],
  [0, 0, 0, 0, 0, 0, 0, 0, 0, 0, 0, 0, 0, 0, 0, 0, 0, 0, 0, 0, 0, 0, 0, 0, 0, 0, 0, 0, 0, 0],
  [0, 0, 0, 0, 0, 0, 0, 0, 0, 0, 0, 0, 0, 0, 0, 0, 0, 0, 0, 0, 0, 0, 0, 0, 0, 0, 0, 0, 0, 0],
  [0, 0, 0, 0, 0, 0, 0, 0, 0, 0, 0, 0, 0, 0, 0, 0, 0, 0, 0, 0, 0, 0, 0, 0, 0, 0, 0, 0, 0, 0],
  [0, 0, 0, 0, 0, 0, 0, 0, 0, 0, 0, 0, 0, 0, 0, 0, 0, 0, 0, 0, 0, 0, 0, 0, 0, 0, 0, 0, 0, 0],
  [284217095, 106581411, 284217095, 106581411, 0, 0, 0, 0, 0, 0, 0, 0, 0, 0, 0, 0, 0, 0, 0, 0, 0, 0, 0, 0, 0, 0, 0, 0, 0, 0],
  [0, 355271368, 0, 0, 0, 0, 0, 0, 0, 0, 0, 0, 0, 0, 0, 0, 0, 0, 0, 0, 0, 0, 0, 0, 0, 0, 0, 0, 0, 0],
  [0, 0, 0, 0, 0, 0, 0, 0, 0, 0, 0, 0, 0, 0, 0, 0, 0, 0, 0, 0, 0, 0, 0, 0, 0, 0, 0, 0, 0, 0],
  [0, 0, 0, 0, 0, 0, 0, 0, 0, 0, 0, 0, 0, 0, 0, 0, 0, 0, 0, 0, 0, 0, 0, 0, 0, 0, 0, 0, 0, 0],
  [0, 4547473509, 0, 0, 0, 0, 0, 0, 0, 0, 0, 0, 0, 0, 0, 0, 0, 0, 0, 0, 0, 0, 0, 0, 0, 0, 0, 0, 0, 0],
  [0, 0, 0, 0, 0, 0, 0, 0, 0, 0, 0, 0, 0, 0, 0, 0, 0, 0, 0, 0, 0, 0, 0, 0, 0, 0, 0, 0, 0, 0],
  [0, 0, 0, 0, 0, 0, 0, 0, 0, 0, 0, 0, 0, 0, 0, 0, 0, 0, 0, 0, 0, 0, 0, 0, 0, 0, 0, 0, 0, 0],
  [0, 25011104299, 0, 24252821973, 0, 0, 0, 0, 0, 0, 0, 0, 0, 0, 0, 0, 0, 0, 0, 0, 0, 0, 0, 0, 0, 0, 0, 0, 0, 0],
  [0, 0, 0, 0, 0, 0, 0, 0, 0, 0, 0, 0, 0, 0, 0, 0, 0, 0, 0, 0, 0, 0, 0, 0, 0, 0, 0, 0, 0, 0],
  [0, 0, 0, 0, 0, 0, 0, 0, 0, 0, 0, 0, 0, 0, 0, 0, 0, 0, 0, 0, 0, 0, 0, 0, 0, 0, 0, 0, 0, 0],
  [0, 291038304568, 0, 0, 0, 0, 0, 0, 0, 0, 0, 0, 0, 0, 0, 0, 0, 0, 0, 0, 0, 0, 0, 0, 0, 0, 0, 0, 0, 0],
  [0, 0, 0, 0, 0, 0, 0, 0, 0, 0, 0, 0, 0, 0, 0, 0, 0, 0, 0, 0, 0, 0, 0, 0, 0, 0, 0, 0, 0, 0],
  [0, 0, 0, 0, 0, 0, 0, 0, 0, 0, 0, 0, 0, 0, 0, 0, 0, 0, 0, 0, 0, 0, 0, 0, 0, 0, 0, 0, 0, 0],
  [0, 48506754169, 0, 0, 0, 0, 0, 0, 0, 0, 0, 0, 0, 0, 0, 0, 0, 0, 0, 0, 0, 0, 0, 0, 0, 0, 0, 0, 0, 0],
  [0, 0, 37252902984620, 0, 0, 0, 0, 0, 0, 0, 0, 0, 0, 0, 0, 0, 0, 0, 0, 0, 0, 0, 0, 0, 0, 0, 0, 0, 0, 0],
  [0, 37252902984620, 0, 37252902984620, 0, 0, 0, 0, 0, 0, 0, 0, 0, 0, 0, 0, 0, 0, 0, 0, 0, 0, 0, 0, 0, 0, 0, 0, 0, 0]]

/-- Rounding of `ii_FXIXI_FXIXI` in units of `1e-22`, upwards. -/
def err_FXIXI_FXIXI : List (List Nat) := [
  [0, 0, 0, 0, 0, 0, 0, 0, 0, 0, 0, 0, 0, 0, 0, 0, 0, 0, 0, 0, 0, 0, 0, 0, 0, 0, 0, 0, 0, 74505805969239],
  [0, 0, 0, 0, 0, 0, 0, 0, 0, 0, 0, 0, 0, 0, 0, 0, 0, 0, 0, 0, 0, 0, 0, 0, 0, 0, 0, 0, 0, 37252902984620],
  [0, 0, 0, 0, 0, 0, 0, 0, 0, 0, 0, 0, 0, 0, 0, 0, 0, 0, 0, 0, 0, 0, 0, 0, 0, 0, 0, 0, 0, 0],
  [0, 0, 0, 0, 0, 0, 0, 0, 0, 0, 0, 0, 0, 0, 0, 0, 0, 0, 0, 0, 0, 0, 0, 0, 0, 0, 0, 0, 0, 37252902984620],
  [0, 0, 0, 0, 0, 0, 0, 0, 0, 0, 0, 0, 0, 0, 0, 0, 0, 0, 0, 0, 0, 0, 0, 0, 0, 0, 0, 0, 0, 0],
  [0, 0, 0, 0, 0, 0, 0, 0, 0, 0, 0, 0, 0, 0, 0, 0, 0, 0, 0, 0, 0, 0, 0, 0, 0, 0, 0, 0, 0, 0],
  [0, 0, 0, 0, 0, 0, 0, 0, 0, 0, 0, 0, 0, 0, 0, 0, 0, 0, 0, 0, 0, 0, 0, 0, 0, 0, 0, 0, 0, 0],
  [0, 0, 0, 0, 0, 0, 0, 0, 0, 0, 0, 0, 0, 0, 0, 0, 0, 0, 0, 0, 0, 0, 0, 0, 0, 0, 0, 0, 0, 0],
  [0, 0, 0, 0, 0, 0, 0, 0, 0, 0, 0, 0, 0, 0, 0, 0, 0, 0, 0, 0, 0, 0, 0, 0, 0, 0, 0, 0, 0, 0],
  [0, 0, 0, 0, 0, 0, 0, 0, 0, 0, 0, 0, 0, 0, 0, 0, 0, 0, 0, 0, 0, 0, 0, 0, 0, 0, 0, 0, 0, 0],
  [0, 0, 0, 0, 0, 0, 0, 0, 0, 0, 0, 0, 0, 0, 0, 0, 0, 0, 0, 0, 0, 0, 0, 0, 0, 0, 0, 0, 0, 0],
  [0, 0, 0, 0, 0, 0, 0, 0, 0, 0, 0, 0, 0, 0, 0, 0, 0, 0, 0, 0, 0, 0, 0, 0, 0, 0, 0, 0, 0, 0],
  [0, 0, 0, 0, 0, 0, 0, 0, 0, 0, 0, 0, 0, 0, 0, 0, 0, 0, 0, 0, 0, 0, 0, 0, 0, 0, 0, 0, 0, 0],
  [0, 0, 0, 0, 0, 0, 0, 0, 0, 0, 0, 0, 0, 0, 0, 0, 0, 0, 0, 0, 0, 0, 0, 0, 0, 0, 0, 0, 0, 0],
  [0, 0, 0, 0, 0, 0, 0, 0, 0, 0, 0, 0, 0, 0, 0, 0, 0, 0, 0, 0, 0, 0, 0, 0, 0, 0, 0, 0, 0, 0],
  [0, 0, 0, 0, 0, 0, 0, 0, 0, 0, 0, 0, 0, 0, 0, 0, 0, 0, 0, 0, 0, 0, 0, 0, 0, 0, 0, 0, 0, 0],
  [0, 0, 0, 0, 0, 0, 0, 0, 0, 0, 0, 0, 0, 0, 0, 0, 0, 0, 0, 0, 0, 0, 0, 0, 0, 0, 0, 0, 0, 0],
  [0, 0, 0, 0, 0, 0, 0, 0, 0, 0, 0, 0, 0, 0, 0, 0, 0, 0, 0, 0, 0, 0, 0, 0, 0, 0, 0, 0, 0, 0],
  [0, 0, 0, 0, 0, 0, 0, 0, 0, 0, 0, 0, 0, 0, 0, 0, 0, 0, 0, 0, 0, 0, 0, 0, 0, 0, 0, 0, 0, 0],
  [0, 0, 0, 0, 0, 0, 0, 0, 0, 0, 0, 0, 0, 0, 0, 0, 0, 0, 0, 0, 0, 0, 0, 0, 0, 0, 0, 0, 0, 0],
  [0, 0, 0, 0, 0, 0, 0, 0, 0, 0, 0, 0, 0, 0, 0, 0, 0, 0, 0, 0, 0, 0, 0, 0, 0, 0, 0, 0, 0, 0],
  [0, 0, 0, 0, 0, 0, 0, 0, 0, 0, 0, 0, 0, 0, 0, 0, 0, 0, 0, 0, 0, 0, 0, 0, 0, 0, 0, 0, 0, 0],
  [0, 0, 0, 0, 0, 0, 0, 0, 0, 0, 0, 0, 0, 0, 0, 0, 0, 0, 0, 0, 0, 0, 0, 0, 0, 0, 0, 0, 0, 0],
  [0, 0, 0, 0, 0, 0, 0, 0, 0, 0, 0, 0, 0, 0, 0, 0, 0, 0, 0, 0, 0, 0, 0, 0, 0, 0, 0, 0, 0, 0],
  [0, 0, 0, 0, 0, 0, 0, 0, 0, 0, 0, 0, 0, 0, 0, 0, 0, 0, 0, 0, 0, 0, 0, 0, 0, 0, 0, 0, 0, 0],
  [0, 0, 0, 0, 0, 0, 0, 0, 0, 0, 0, 0, 0, 0, 0, 0, 0, 0, 0, 0, 0, 0, 0, 0, 0, 0, 0, 0, 0, 0],
  [0, 0, 0, 0, 0, 0, 0, 0, 0, 0, 0, 0, 0, 0, 0, 0, 0, 0, 0, 0, 0, 0, 0, 0, 0, 0, 0, 0, 0, 0],
  [0, 0, 0, 0, 0, 0, 0, 0, 0, 0, 0, 0, 0, 0, 0, 0, 0, 0, 0, 0, 0, 0, 0, 0, 0, 0, 0, 0, 0, 0],
  [0, 0, 0, 0, 0, 0, 0, 0, 0, 0, 0, 0, 0, 0, 0, 0, 0, 0, 0, 0, 0, 0, 0, 0, 0, 0, 0, 0, 0, 0],
  [74505805969239, 37252902984620, 0, 37252902984620, 0, 0, 0, 0, 0, 0, 0, 0, 0, 0, 0, 0, 0, 0, 0, 0, 0, 0, 0, 0, 0, 0, 0, 0, 0, 0]]

/-- Numerators of the dual polynomials, derivatives of order 0, shapes below 14. -/
def dualNum0_14 : List (List Int) := [
  [],
  [-135135, 2297295, 11621610, -75044970, -156981825, 683828145, 756575820, -2618916300, -1614998385, 4796496705, 1561650090, -4157639850, -557732175, 1368978975],
  [],
  [135135, 2297295, -11621610, -75044970, 156981825, 683828145, -756575820, -2618916300, 1614998385, 4796496705, -1561650090, -4157639850, 557732175, 1368978975],
  [172635, 0, -14515875, 0, 196069500, 0, -944920350, 0, 2016949275, 0, -1950223935, 0, 696468750],
  [0, 4035885, 0, -130945815, 0, 1193061870, 0, -4568553990, 0, 8365982625, 0, -7250518275, 0, 2386937700],
  [566865, 0, -51453900, 0, 697898025, 0, -3361422240, 0, 7170362595, 0, -6928136820, 0, 2472185475],
  [0, 12091695, 0, -403436880, 0, 3681032355, 0, -14083949880, 0, 25767226485, 0, -22309287000, 0, 7336323225],
  [1841385, 0, -146117790, 0, 1931664735, 0, -9253504260, 0, 19685520855, 0, -18962893950, 0, 6743489025],
  [0, 33841395, 0, -1056277530, 0, 9489044565, 0, -36141044940, 0, 65923943085, 0, -56888681850, 0, 18639175275],
  [1601145, 0, -154448910, 0, 2169058815, 0, -10529622180, 0, 22317867495, 0, -21296788590, 0, 7492332225],
  [0, 31365675, 0, -1096717050, 0, 10221965325, 0, -39200604300, 0, 71150690325, 0, -60829023450, 0, 19722323475],
  [1195425, 0, -90852300, 0, 1105768125, 0, -4877334000, 0, 9653056875, 0, -8752104900, 0, 2960270775],
  [0, 19980675, 0, -586099800, 0, 4868624475, 0, -17210021400, 0, 29400453225, 0, -23989726800, 0, 7496789625],
  [],
  [],
  [],
  [],
  [],
  [],
  [],
  [],
  [],
  [],
  [],
  [],
  [],
  [],
  [],
  []]

/-- Their denominators. -/
def dualDen0_14 : List Nat := [1, 1024, 1, 1024, 512, 512, 1024, 1024, 2048, 2048, 2048, 2048, 1024, 1024, 1, 1, 1, 1, 1, 1, 1, 1, 1, 1, 1, 1, 1, 1, 1, 1]

/-- Bounds for their norms. -/
def dualNorm0_14 : List Nat := [0, 553, 0, 553, 865, 1497, 1514, 2252, 1979, 2723, 2034, 2652, 1455, 1821, 0, 0, 0, 0, 0, 0, 0, 0, 0, 0, 0, 0, 0, 0, 0, 0]

/-- Numerators of the dual polynomials, derivatives of order 1, shapes below 14. -/
def dualNum1_14 : List (List Int) := [
  [],
  [1979, 36036, -270270, -900900, 3828825, 6126120, -19399380, -16628040, 43648605, 19399380, -44618574, -8112468, 16900975],
  [],
  [1979, -36036, -270270, 900900, 3828825, -6126120, -19399380, 16628040, 43648605, -19399380, -44618574, 8112468, 16900975],
  [0, -48885, 0, 1126125, 0, -7657650, 0, 20785050, 0, -24249225, 0, 10140585],
  [31773, 0, -1945650, 0, 26801775, 0, -135795660, 0, 305540235, 0, -312330018, 0, 118306825],
  [0, -63801, 0, 1986705, 0, -13783770, 0, 37413090, 0, -43648605, 0, 18253053],
  [11913, 0, -2677290, 0, 41673555, 0, -213393180, 0, 480134655, 0, -490804314, 0, 185910725],
  [0, -160797, 0, 3190005, 0, -20198178, 0, 54041130, 0, -63047985, 0, 26365521],
  [78645, 0, -4961250, 0, 60758775, 0, -293873580, 0, 654729075, 0, -669278610, 0, 253514625],
  [0, -67473, 0, 2886345, 0, -23585562, 0, 68918850, 0, -82447365, 0, 34477989],
  [9177, 0, -3028410, 0, 59053995, 0, -341200860, 0, 812695455, 0, -847752906, 0, 321118525],
  [0, -334719, 0, 7252245, 0, -43513470, 0, 105675570, 0, -111546435, 0, 42590457],
  [132825, 0, -10360350, 0, 129504375, 0, -587086500, 0, 1195140375, 0, -1115464350, 0, 388722425],
  [],
  [],
  [],
  [],
  [],
  [],
  [],
  [],
  [],
  [],
  [],
  [],
  [],
  [],
  [],
  []]

/-- Their denominators. -/
def dualDen1_14 : List Nat := [1, 1024, 1, 1024, 512, 2048, 512, 2048, 512, 2048, 512, 2048, 512, 2048, 1, 1, 1, 1, 1, 1, 1, 1, 1, 1, 1, 1, 1, 1, 1, 1]

/-- Bounds for their norms. -/
def dualNorm1_14 : List Nat := [0, 19, 0, 19, 31, 46, 53, 68, 70, 85, 78, 92, 72, 82, 0, 0, 0, 0, 0, 0, 0, 0, 0, 0, 0, 0, 0, 0, 0, 0]

/-- Numerators of the dual polynomials, derivatives of order 2, shapes below 14. -/
def dualNum2_14 : List (List Int) := [
  [],
  [-1, 1],
  [],
  [1, 1],
  [-5, 0, 15],
  [0, -21, 0, 35],
  [27, 0, -270, 0, 315],
  [0, 165, 0, -770, 0, 693],
  [-65, 0, 1365, 0, -4095, 0, 3003],
  [0, -525, 0, 4725, 0, -10395, 0, 6435],
  [595, 0, -21420, 0, 117810, 0, -204204, 0, 109395],
  [0, 5985, 0, -87780, 0, 342342, 0, -489060, 0, 230945],
  [-1323, 0, 72765, 0, -630630, 0, 1891890, 0, -2297295, 0, 969969],
  [0, -15939, 0, 345345, 0, -2072070, 0, 5032170, 0, -5311735, 0, 2028117],
  [],
  [],
  [],
  [],
  [],
  [],
  [],
  [],
  [],
  [],
  [],
  [],
  [],
  [],
  [],
  []]

/-- Their denominators. -/
def dualDen2_14 : List Nat := [1, 1, 1, 1, 4, 4, 16, 16, 32, 32, 256, 256, 512, 512, 1, 1, 1, 1, 1, 1, 1, 1, 1, 1, 1, 1, 1, 1, 1, 1]

/-- Bounds for their norms. -/
def dualNorm2_14 : List Nat := [0, 2, 0, 2, 2, 2, 3, 3, 3, 3, 3, 4, 4, 4, 0, 0, 0, 0, 0, 0, 0, 0, 0, 0, 0, 0, 0, 0, 0, 0]

/-- Numerators of the dual polynomials, derivatives of order 0, shapes below 20. -/
def dualNum0_20 : List (List Int) := [
  [],
  [43648605, -1003917915, -8074991925, 67931778915, 242278856820, -1331864433900, -2764120659300, 11745839605500, 15631001936550, -55607013311850, -49202017014150, 153428774949450, 90252220558500, -254094713264700, -95806203362100, 248540730461100, 54498456260325, -132213377401875, -12843585233325, 29464695535275],
  [],
  [-43648605, -1003917915, 8074991925, 67931778915, -242278856820, -1331864433900, 2764120659300, 11745839605500, -15631001936550, -55607013311850, 49202017014150, 153428774949450, -90252220558500, -254094713264700, 95806203362100, 248540730461100, -54498456260325, -132213377401875, 12843585233325, 29464695535275],
  [-54060120, 0, 10092016935, 0, -302795733240, 0, 3454534383300, 0, -19535185870200, 0, 61491029049450, 0, -112793684257800, 0, 119734264613700, 0, -68109368065200, 0, 16051167923175],
  [0, -1752203250, 0, 118796953275, 0, -2329089562800, 0, 20540160540900, 0, -97239489246900, 0, 268295237478450, 0, -444318624288000, 0, 434599154381700, 0, -231184534199850, 0, 51520140146475],
  [-200350125, 0, 36275388975, 0, -1087401615300, 0, 12405255162300, 0, -70146914988150, 0, 220788496778850, 0, -404969054735700, 0, 429859477327500, 0, -244503131120325, 0, 57617198151975],
  [0, -5532721425, 0, 371897808975, 0, -7288444062900, 0, 64270824918300, 0, -304237324140750, 0, 839345651194050, 0, -1389884196600900, 0, 1359337291181100, 0, -723018298134825, 0, 161108130558375],
  [-538431075, 0, 103318017075, 0, -3110421213900, 0, 35484799650300, 0, -200606576420250, 0, 631259886307050, 0, -1157560298703900, 0, 1228380222969900, 0, -698504685954075, 0, 164554293778875],
  [0, -14564633895, 0, 999203044455, 0, -19614342007260, 0, 172934900037900, 0, -818383845128850, 0, 2257125988694850, 0, -3736441931121900, 0, 3653132189067900, 0, -1942403390286975, 0, 432665792333775],
  [-759858435, 0, 133801706115, 0, -3974108998860, 0, 45235769358780, 0, -255540964729050, 0, 803612513954250, 0, -1472622595926300, 0, 1561619191185900, 0, -887340101276475, 0, 208877254584075],
  [0, -18744945615, 0, 1237766722335, 0, -24127492912380, 0, 212397296199660, 0, -1004378283072450, 0, 2768164536272850, 0, -4579060465039500, 0, 4473534791771100, 0, -2376710843891175, 0, 528961438895175],
  [-383149305, 0, 75686005395, 0, -2309698771380, 0, 26427171951180, 0, -149273455320990, 0, 468836535217050, 0, -857871106992900, 0, 908295424551900, 0, -515259792795825, 0, 121079619304875],
  [0, -9875238945, 0, 691990125255, 0, -13690008420660, 0, 120828309467580, 0, -571027330846830, 0, 1571677955154450, 0, -2595891891096900, 0, 2532021088855500, 0, -1342964126540025, 0, 298363888540575],
  [-256005750, 0, 44007388425, 0, -1274294221200, 0, 14283584815500, 0, -79982852449500, 0, 250065443778150, 0, -456011219664000, 0, 481223378443500, 0, -272035539294750, 0, 63687747209625],
  [0, -5966750790, 0, 383678129835, 0, -7328775373920, 0, 63729233027460, 0, -299091240908460, 0, 819829486926450, 0, -1349617821274800, 0, 1312128437350500, 0, -693553602599550, 0, 153526571473275],
  [-713677965, 0, 144368909685, 0, -4525024844340, 0, 52618681255140, 0, -298978485075270, 0, 937470466882950, 0, -1703943536595300, 0, 1786555494731700, 0, -1001890996600725, 0, 232549745014125],
  [0, -17859426585, 0, 1285000381665, 0, -25967020699620, 0, 231834094832340, 0, -1099036906517550, 0, 3015867070493550, 0, -4945947913487700, 0, 4777813706796900, 0, -2506010130525825, 0, 550179958152825],
  [-934999065, 0, 158014841985, 0, -4372055627940, 0, 46364733635220, 0, -245371804627950, 0, 727083322915950, 0, -1262029437969300, 0, 1273542872609700, 0, -691525668089025, 0, 156150957310425],
  [0, -20994979005, 0, 1308687024645, 0, -23822302844340, 0, 196373036960100, 0, -874020975978150, 0, 2278775934858150, 0, -3582192681440100, 0, 3339332160664500, 0, -1699130775867525, 0, 363397911601725],
  [],
  [],
  [],
  [],
  [],
  [],
  [],
  [],
  [],
  []]

/-- Their denominators. -/
def dualDen0_20 : List Nat := [1, 131072, 1, 131072, 65536, 65536, 131072, 131072, 262144, 262144, 262144, 262144, 131072, 131072, 65536, 65536, 262144, 262144, 262144, 262144, 1, 1, 1, 1, 1, 1, 1, 1, 1, 1]

/-- Bounds for their norms. -/
def dualNorm0_20 : List Nat := [0, 1623, 0, 1623, 2644, 4299, 4727, 6678, 6663, 8818, 8224, 10441, 9091, 11192, 8908, 10701, 7385, 8696, 4458, 5161, 0, 0, 0, 0, 0, 0, 0, 0, 0, 0]

/-- Numerators of the dual polynomials, derivatives of order 1, shapes below 20. -/
def dualNum1_20 : List (List Int) := [
  [],
  [-296481, -4157010, 43648605, 232792560, -1338557220, -3747960216, 15616500900, 26771144400, -90352612350, -100391791500, 291136195350, 211735414800, -546983154900, -252453763800, 595069586100, 158685222960, -347123925225, -40838108850, 83945001525],
  [],
  [-296481, 4157010, 43648605, -232792560, -1338557220, 3747960216, 15616500900, -26771144400, -90352612350, 100391791500, 291136195350, -211735414800, -546983154900, 252453763800, 595069586100, -158685222960, -347123925225, 40838108850, 83945001525],
  [0, 9901005, 0, -581981400, 0, 9369900540, 0, -66927861000, 0, 250979478750, 0, -529338537000, 0, 631134409500, 0, -396713057400, 0, 102095272125],
  [-928487, 0, 302099595, 0, -9369900540, 0, 109315506300, 0, -632468286450, 0, 2037953367450, 0, -3828882084300, 0, 4165487102700, 0, -2429867476575, 0, 587615010675],
  [0, 20918385, 0, -1052727480, 0, 16865820972, 0, -120470149800, 0, 451763061750, 0, -952809366600, 0, 1136041937100, 0, -714083503320, 0, 183771489825],
  [-3892075, 0, 499058175, 0, -14752514700, 0, 171781509900, 0, -993878735850, 0, 3202498148850, 0, -6016814703900, 0, 6545765447100, 0, -3818363177475, 0, 923395016775],
  [0, 21429525, 0, -1479605400, 0, 24324840540, 0, -174012438600, 0, 652546644750, 0, -1376280196200, 0, 1640949464700, 0, -1031453949240, 0, 265447707525],
  [-1313775, 0, 596668275, 0, -19865468700, 0, 234063009180, 0, -1355289185250, 0, 4367042930250, 0, -8204747323500, 0, 8926043791500, 0, -5206858878375, 0, 1259175022875],
  [0, 46301625, 0, -2099374200, 0, 32171319180, 0, -227778768360, 0, 853330227750, 0, -1799751025800, 0, 2145856992300, 0, -1348824395160, 0, 347123925225],
  [-7452275, 0, 964153575, 0, -26308982700, 0, 298466308140, 0, -1717763829210, 0, 5531587711650, 0, -10392679943100, 0, 11306322135900, 0, -6595354579275, 0, 1594955028975],
  [0, 25020765, 0, -2121439320, 0, 37900610748, 0, -278744586120, 0, 1052872250430, 0, -2223221855400, 0, 2650764519900, 0, -1666194841080, 0, 428800142925],
  [-1231351, 0, 738692955, 0, -28134566460, 0, 350161872060, 0, -2065871846610, 0, 6690421315578, 0, -12580612562700, 0, 13686600480300, 0, -7983850280175, 0, 1930735035075],
  [0, 80791425, 0, -3630627000, 0, 51750398700, 0, -347941737000, 0, 1270416897750, 0, -2653182659400, 0, 3155672047500, 0, -1983565287000, 0, 510476360625],
  [-11424699, 0, 1645538895, 0, -42757254540, 0, 455167652940, 0, -2514945322890, 0, 7937778170322, 0, -14797750067100, 0, 16066878824700, 0, -9372345981075, 0, 2266515041175],
  [0, 18474885, 0, -1954232280, 0, 40843454652, 0, -334173719880, 0, 1352165885070, 0, -2976058885800, 0, 3628004895900, 0, -2300935732920, 0, 592152578325],
  [-775775, 0, 593467875, 0, -27062135100, 0, 383079556860, 0, -2468968792290, 0, 8471951738250, 0, -16503802087500, 0, 18302897875500, 0, -10760841681975, 0, 2602295047275],
  [0, 126351225, 0, -6401795400, 0, 94106392380, 0, -618413435640, 0, 2147268873750, 0, -4216455243000, 0, 4702969309500, 0, -2776991401800, 0, 673828796025],
  [-15740725, 0, 2691663975, 0, -75366591300, 0, 808934746620, 0, -4333578999750, 0, 13000736999250, 0, -22849780180500, 0, 23351973151500, 0, -12843585233325, 0, 2938075053375],
  [],
  [],
  [],
  [],
  [],
  [],
  [],
  [],
  [],
  []]

/-- Their denominators. -/
def dualDen1_20 : List Nat := [1, 65536, 1, 65536, 65536, 131072, 65536, 131072, 65536, 131072, 65536, 131072, 65536, 131072, 65536, 131072, 65536, 131072, 65536, 131072, 1, 1, 1, 1, 1, 1, 1, 1, 1, 1]

/-- Bounds for their norms. -/
def dualNorm1_20 : List Nat := [0, 27, 0, 27, 46, 68, 81, 103, 113, 136, 140, 162, 160, 182, 171, 190, 167, 184, 139, 151, 0, 0, 0, 0, 0, 0, 0, 0, 0, 0]

/-- Numerators of the dual polynomials, derivatives of order 2, shapes below 20. -/
def dualNum2_20 : List (List Int) := [
  [],
  [-1, 1],
  [],
  [1, 1],
  [-5, 0, 15],
  [0, -21, 0, 35],
  [27, 0, -270, 0, 315],
  [0, 165, 0, -770, 0, 693],
  [-65, 0, 1365, 0, -4095, 0, 3003],
  [0, -525, 0, 4725, 0, -10395, 0, 6435],
  [595, 0, -21420, 0, 117810, 0, -204204, 0, 109395],
  [0, 5985, 0, -87780, 0, 342342, 0, -489060, 0, 230945],
  [-1323, 0, 72765, 0, -630630, 0, 1891890, 0, -2297295, 0, 969969],
  [0, -15939, 0, 345345, 0, -2072070, 0, 5032170, 0, -5311735, 0, 2028117],
  [5775, 0, -450450, 0, 5630625, 0, -25525500, 0, 51962625, 0, -48498450, 0, 16900975],
  [0, 81081, 0, -2432430, 0, 20675655, 0, -74826180, 0, 130945815, 0, -109518318, 0, 35102025],
  [-12441, 0, 1306305, 0, -22207185, 0, 140645505, 0, -421936515, 0, 646969323, 0, -490128275, 0, 145422675],
  [0, -199485, 0, 7912905, 0, -90207117, 0, 451035585, 0, -1152646495, 0, 1571790675, 0, -1088162775, 0, 300540195],
  [212355, 0, -28880280, 0, 640179540, 0, -5377508136, 0, 22086194130, 0, -49080431400, 0, 60235074900, 0, -38391586200, 0, 9917826435],
  [0, 3828825, 0, -193993800, 0, 2851708860, 0, -18739801080, 0, 65068753750, 0, -127771371000, 0, 142514221500, 0, -84151254600, 0, 20419054425],
  [],
  [],
  [],
  [],
  [],
  [],
  [],
  [],
  [],
  []]

/-- Their denominators. -/
def dualDen2_20 : List Nat := [1, 1, 1, 1, 4, 4, 16, 16, 32, 32, 256, 256, 512, 512, 2048, 2048, 4096, 4096, 65536, 65536, 1, 1, 1, 1, 1, 1, 1, 1, 1, 1]

/-- Bounds for their norms. -/
def dualNorm2_20 : List Nat := [0, 2, 0, 2, 2, 2, 3, 3, 3, 3, 3, 4, 4, 4, 4, 4, 4, 4, 5, 5, 0, 0, 0, 0, 0, 0, 0, 0, 0, 0]

/-- Numerators of the dual polynomials, derivatives of order 0, shapes below 30. -/
def dualNum0_30 : List (List Int) := [
  [],
  [-31556720475, 1041371775675, 13569389804250, -158982757753050, -961186148948025, 7170538923372825, 26660505952980900, -150269947229902500, -383856231868384275, 1774799387857170675, 3294919042927662150, -13111665106705114950, -18243606426750329625, 64465306461804072825, 68292014151317556600, -219005424692156302200, -177500364367433132025, 524916939400910681625, 323902235475290622150, -894093528605027300550, -413465786702324831475, 1075490773677475830675, 361431625794240046500, -892659558288249051300, -206080496112000080025, 486264548857019877945, 69027520499212780890, -156406161922300047450, -10299917980249027515, 22507228179062689755],
  [],
  [31556720475, 1041371775675, -13569389804250, -158982757753050, 961186148948025, 7170538923372825, -26660505952980900, -150269947229902500, 383856231868384275, 1774799387857170675, -3294919042927662150, -13111665106705114950, 18243606426750329625, 64465306461804072825, -68292014151317556600, -219005424692156302200, 177500364367433132025, 524916939400910681625, -323902235475290622150, -894093528605027300550, 413465786702324831475, 1075490773677475830675, -361431625794240046500, -892659558288249051300, 206080496112000080025, 486264548857019877945, -69027520499212780890, -156406161922300047450, 10299917980249027515, 22507228179062689755],
  [39570476070, 0, -16961193173925, 0, 1201443784365825, 0, -33324543190288350, 0, 479804456795063400, 0, -4118511583975964175, 0, 22803740850661345575, 0, -85362117569639925300, 0, 221867842645585486350, 0, -404863762883557252275, 0, 516814140178768006575, 0, -451773553833171665550, 0, 257591415186627221700, 0, -86281285101335924985, 0, 12874427674272229065],
  [0, 1823026921590, 0, -278180634656925, 0, 12546659906705925, 0, -262934705515031550, 0, 3105449644947249600, 0, -22942064730203994375, 0, 112797669091143111075, 0, -383202519895796901300, 0, 918466818798712733550, 0, -1564426712515248056475, 0, 1881821113704129472875, 0, -1561913116612862381550, 0, 850830349784419384380, 0, -273667713217154268705, 0, 39381390351129711885],
  [140805083295, 0, -61024946489640, 0, 4323236972028975, 0, -119913457237774200, 0, 1726498059225214275, 0, -14819725830259350000, 0, 82054801050441894675, 0, -307157457227549900400, 0, 798340547713328945325, 0, -1456802360768782427400, 0, 1859619007407007972125, 0, -1625579481954147010200, 0, 926865165021864930225, 0, -310455604021734753120, 0, 46324261655011636065],
  [0, 5712257150985, 0, -873513890074980, 0, 39398733476227125, 0, -825655262743911600, 0, 9751512389552858925, 0, -72040475543219082900, 0, 354193606765614040425, 0, -1203276422866373856000, 0, 2884011013341627644475, 0, -4912301231369556324300, 0, 5908868970134145990975, 0, -4904323141970753701200, 0, 2671537582975570484175, 0, -859286347341492345660, 0, 123652057815784899555],
  [415049938485, 0, -176109030254430, 0, 12467288344365855, 0, -345793602706051500, 0, 4978604560865460525, 0, -42734051628388970850, 0, 236608374486413904975, 0, -885684896966017348200, 0, 2301962608398714636375, 0, -4200514157893991587650, 0, 5361883378157734953525, 0, -4686978853115650809900, 0, 2672345243400545615175, 0, -895089665978688930750, 0, 133556918586805078365],
  [0, 15625061123175, 0, -2376712019439450, 0, 107173477461415365, 0, -2245905546792207300, 0, 26524945516452958575, 0, -195951547990106058150, 0, 963390278052033556725, 0, -3272775134239392982200, 0, 7843983857991373016925, 0, -13360219019668670098950, 0, 16070209715168239605975, 0, -13337813529743868792900, 0, 7265324318336371332045, 0, -2336789277110404815930, 0, 336256486844261386095],
  [521653592565, 0, -228755132013870, 0, 16227455010862095, 0, -450116094596788620, 0, 6480336778331741325, 0, -55621724313370064850, 0, 307950235244881804575, 0, -1152681499260348057000, 0, 2995763998302230930775, 0, -5466264151731931998450, 0, 6977244197201300547525, 0, -6098703300603391596300, 0, 3477079087071060846375, 0, -1164569915712391254990, 0, 173756853896691448845],
  [0, 19465637701455, 0, -2990794093977690, 0, 134957058208617645, 0, -2828108364043531140, 0, 33399244432880501175, 0, -246721691319645291750, 0, 1212933399839662225725, 0, -4120277619089432057400, 0, 9874660281924318405525, 0, -16817976455146176860550, 0, 20228138271162125679375, 0, -16787758789743522480900, 0, 9144001378530112459365, 0, -2940854239851700231290, 0, 423152341895668840455],
  [335670368355, 0, -140712250147560, 0, 9934420406785875, 0, -275414638216437720, 0, 3964662373674337335, 0, -34026090506275467600, 0, 188367921495915135975, 0, -705007451678643313200, 0, 1832099746468796429625, 0, -3342630659498597867400, 0, 4266159238358470478025, 0, -3728593843604664161400, 0, 2125571013051572738925, 0, -711834621938081611200, 0, 106195706072222731965],
  [0, 11872423010745, 0, -1794188889038700, 0, 80799341570712765, 0, -1692700220033428320, 0, 19988009173141454445, 0, -147636851505100857900, 0, 725735588093861169825, 0, -2465023745501903757600, 0, 5907028538017479948075, 0, -10059398491604948986500, 0, 12097750291219636017975, 0, -10039010040919120060800, 0, 5467426128188069380335, 0, -1758197229804133877220, 0, 252951487837948312875],
  [183574843200, 0, -81532045972125, 0, 5806436678917875, 0, -161152623304422750, 0, 2319821324953382250, 0, -19906441226044347975, 0, 110182790370474446625, 0, -412309990313097376500, 0, 1071275144698284025500, 0, -1954161511637659198875, 0, 2493604705203676189125, 0, -2178975721023895452750, 0, 1241932309068744452250, 0, -415828812106423987425, 0, 62023133176084501575],
  [0, 6641723052090, 0, -1028477559827025, 0, 46497673454036805, 0, -974544558242845590, 0, 11506701334541753340, 0, -84976980135511975875, 0, 417642889101418255275, 0, -1418293715475166229700, 0, 3398059454972496964650, 0, -5785609759726079658375, 0, 6956572258602709818075, 0, -5771562776118829585350, 0, 3142646621505115845120, 0, -1010388728320557828165, 0, 145333102980488224725],
  [905016042315, 0, -374905122045930, 0, 26300937983945625, 0, -727549269480093060, 0, 10464250420703033955, 0, -89759748318544053750, 0, 496671494452147020825, 0, -1858013764323777660600, 0, 4826067120736428191625, 0, -8800700438265811024950, 0, 11226540573963124485075, 0, -9806844779883713261700, 0, 5587664436031587662025, 0, -1870248264834691838250, 0, 278860742354149596795],
  [0, 30914538266745, 0, -4627562581628910, 0, 207561056894546355, 0, -4341823659564250860, 0, 51233252742396549825, 0, -378223890086852204850, 0, 1858309160504356761075, 0, -6308769169357921866600, 0, 15110283432335982365475, 0, -25718831219544611598450, 0, 30913988352388108592625, 0, -25639403485188320837100, 0, 13956027462606546352035, 0, -4485423541176595019310, 0, 644948504027623971945],
  [880950605535, 0, -395970266544930, 0, 28411301302589205, 0, -790536137974963380, 0, 11383676062056473175, 0, -97639031640974773950, 0, 540055763697479354325, 0, -2019350775333314669400, 0, 5242518481705550770725, 0, -9555256261126633607550, 0, 12182729962009880247975, 0, -10636443807789855755700, 0, 6057043418421399529125, 0, -2026223792288771485410, 0, 301944886209172230255],
  [0, 31310506223325, 0, -4898369889116550, 0, 222516025570373535, 0, -4670116827304628700, 0, 55137890329174577925, 0, -406959414902429693850, 0, 1998634297692043583775, 0, -6781869893797446155400, 0, 16235251708765480966575, 0, -27619406225981104585050, 0, 33181052530260763653525, 0, -27504909029133820475100, 0, 14963262678970502751855, 0, -4806456110195396249670, 0, 690714035853348773805],
  [266640374385, 0, -109317422395755, 0, 7584976651682430, 0, -208444283172175050, 0, 2987287246434766275, 0, -25569294398655032025, 0, 141263098432533031500, 0, -527734419212722283100, 0, 1368939448557915193575, 0, -2493025722831259140525, 0, 3175863058300615833150, 0, -2770368618189961438650, 0, 1576219395758193929925, 0, -526803729969845148975, 0, 78430464664052802840],
  [0, 8891970800895, 0, -1315442679285735, 0, 58488277806258300, 0, -1217304753779164050, 0, 14322553869612213225, 0, -105535642921004184525, 0, 517758105959347903650, 0, -1755375575317050386700, 0, 4198791757557818646225, 0, -7137108700965936918225, 0, 8567095439793793102200, 0, -7095465491907035347650, 0, 3856698490584077713575, 0, -1237725269260964679195, 0, 177704455634023328010],
  [445614170505, 0, -202364100818460, 0, 14686182996009525, 0, -411441702611940000, 0, 5942124337085261325, 0, -50989415084940231900, 0, 281768625313413863625, 0, -1051851948559644909600, 0, 2725343854216330052475, 0, -4956663267796608868500, 0, 6305479899604419909375, 0, -5492482439302177300800, 0, 3120368733965279753775, 0, -1041307376398848446580, 0, 154788167143793495235],
  [0, 15624403535895, 0, -2473309836320400, 0, 113378318041163175, 0, -2391251798686350600, 0, 28283320213235962875, 0, -208730715182187798600, 0, 1023911721514176662475, 0, -3468425703995904498000, 0, 8286590173367215034325, 0, -14067102074955591261600, 0, 16862399678106334477125, 0, -13946100603342050543400, 0, 7569343855505510143065, 0, -2425612225714272773640, 0, 347722905649612567305],
  [1068990048945, 0, -434617196822550, 0, 29673108008619075, 0, -803168404974035100, 0, 11372778322266386025, 0, -96466093724316566250, 0, 529306743353598285075, 0, -1966699683109473265800, 0, 5078226275710171058475, 0, -9209608108350032032650, 0, 11685010329877760100225, 0, -10152106255134020022300, 0, 5752396281592618278075, 0, -1914438838528537030710, 0, 283780498835136999465],
  [0, 35007579937275, 0, -5111167739450850, 0, 223730451017298225, 0, -4593959554993766100, 0, 53484631757861379075, 0, -390954881792629504350, 0, 1906161937097285585025, 0, -6430035333256608130200, 0, 15313341550599111044025, 0, -25924784600544057978750, 0, 30997311922866090505275, 0, -25571892575547752534100, 0, 13843725131079960181065, 0, -4424534659257512357250, 0, 632552182262387791635],
  [652589547225, 0, -298822345356150, 0, 22017591399278475, 0, -625565527571684700, 0, 9129873706984055025, 0, -78855471298322368650, 0, 437006418572669420475, 0, -1631014439036529947400, 0, 4214636611187299171875, 0, -7630112008946644267050, 0, 9647911258939868139225, 0, -8344418018925736647900, 0, 4703473434846386675475, 0, -1556527593044263503510, 0, 229373780104217487585],
  [0, 22609500133275, 0, -3624040964624850, 0, 168561306543254625, 0, -3598849384745858100, 0, 42936678894927492675, 0, -318470093791237738350, 0, 1565042643944766011025, 0, -5296706550038181821400, 0, 12615914599224759848025, 0, -21314913759431375633550, 0, 25396697764871277691275, 0, -20858242910678131058100, 0, 11234552473101947334345, 0, -3571007405840460328050, 0, 507630449251375297155],
  [388825130925, 0, -157085352893700, 0, 10498667360105925, 0, -275785888862484000, 0, 3773095691999859225, 0, -30867335610933521700, 0, 163329021693389977425, 0, -585714070766143519200, 0, 1461670381956581371575, 0, -2566190534837798969100, 0, 3157611820606846778175, 0, -2665303995538139155200, 0, 1469810134767720420675, 0, -476874363499345779660, 0, 69021289453852678635],
  [0, 12552449037975, 0, -1807552661468400, 0, 77185009134508275, 0, -1536520181840443800, 0, 17290040379533997075, 0, -122026507774636865400, 0, 574556232996217446975, 0, -1873434541712784850800, 0, 4318542123727632725925, 0, -7087730681031031231200, 0, 8229264228216317511225, 0, -6603398826193170401400, 0, 3482812050805281379185, 0, -1086155269544444641080, 0, 151742280304003295445]]

/-- Their denominators. -/
def dualDen0_30 : List Nat := [1, 33554432, 1, 33554432, 16777216, 16777216, 33554432, 33554432, 67108864, 67108864, 67108864, 67108864, 33554432, 33554432, 16777216, 16777216, 67108864, 67108864, 67108864, 67108864, 16777216, 16777216, 33554432, 33554432, 67108864, 67108864, 67108864, 67108864, 33554432, 33554432]

/-- Bounds for their norms. -/
def dualNorm0_30 : List Nat := [0, 5497, 0, 5497, 9217, 14261, 16568, 22355, 23814, 30271, 30769, 37771, 37136, 44505, 42507, 50018, 46388, 53781, 48242, 55236, 47542, 53850, 43852, 49201, 36929, 41087, 26895, 29698, 14507, 15911]

/-- Numerators of the dual polynomials, derivatives of order 1, shapes below 30. -/
def dualNum1_30 : List (List Int) := [
  [],
  [111868243, 4071834900, -63113440950, -546983154900, 4512611027925, 21660532934040, -126353108781900, -397109770457400, 1836632688365475, 4081405974145500, -15917483299167450, -26046790853183100, 88993202081708925, 109530094869795600, -336413862814372200, -313986271960080720, 883086389887727025, 623355098744277900, -1627649424498947850, -856657591841551500, 2098811100011801175, 799547085718781400, -1853495516893538700, -483520569624401400, 1067774591253886425, 170843934600621828, -361400630885930790, -26770417102661540, 54496920530418135],
  [],
  [111868243, -4071834900, -63113440950, 546983154900, 4512611027925, -21660532934040, -126353108781900, 397109770457400, 1836632688365475, -4081405974145500, -15917483299167450, 26046790853183100, 88993202081708925, -109530094869795600, -336413862814372200, 313986271960080720, 883086389887727025, -623355098744277900, -1627649424498947850, 856657591841551500, 2098811100011801175, -799547085718781400, -1853495516893538700, 483520569624401400, 1067774591253886425, -170843934600621828, -361400630885930790, 26770417102661540, 54496920530418135],
  [0, -5215622745, 0, 683728943625, 0, -27075666167550, 0, 496387213071750, 0, -5101757467681875, 0, 32558488566478875, 0, -136912618587244500, 0, 392482839950100900, 0, -779193873430347375, 0, 1070821989801939375, 0, -999433857148476750, 0, 604400712030501750, 0, -213554918250777285, 0, 33463021378326925],
  [1370280261, 0, -443555694330, 0, 31588277195475, 0, -884471761473300, 0, 12856428818558325, 0, -111422383094172150, 0, 622952414571962475, 0, -2354897039700605400, 0, 6181604729214089175, 0, -11393545971492634950, 0, 14691677700082608225, 0, -12974468618254770900, 0, 7474422138777204975, 0, -2529804416201515530, 0, 381478443712926945],
  [0, -8595397485, 0, 1229390892765, 0, -48736199101590, 0, 893496983529150, 0, -9183163441827375, 0, 58605279419661975, 0, -246442713457040100, 0, 706469111910181620, 0, -1402548972174625275, 0, 1927479581643490875, 0, -1798980942867258150, 0, 1087921281654903150, 0, -384398852851399113, 0, 60233438480988465],
  [907589265, 0, -684559008210, 0, 49624188043815, 0, -1389884196600900, 0, 20202959572020225, 0, -175092316290841950, 0, 978925222898798175, 0, -3700552490958094200, 0, 9713950288764997275, 0, -17904143669488426350, 0, 23086922100129812925, 0, -20388450685828925700, 0, 11745520503792750675, 0, -3975406939745238690, 0, 599466125834599485],
  [0, -14664769665, 0, 1786283090865, 0, -70406178656814, 0, 1290606753986550, 0, -13264569415972875, 0, 84652070272845075, 0, -355972808326835700, 0, 1020455383870262340, 0, -2025904070918903175, 0, 2784137173485042375, 0, -2598528028586039550, 0, 1571441851279304550, 0, -555242787452020941, 0, 87003855583650005],
  [3282344925, 0, -976428743850, 0, 67798164894075, 0, -1895391097940340, 0, 27549490325482125, 0, -238762249487511750, 0, 1334898031225633875, 0, -5046207942215583000, 0, 13246295848315905375, 0, -24414741367484217750, 0, 31482166500177017625, 0, -27802432753403080500, 0, 16016618868808296375, 0, -5421009463288961850, 0, 817453807956272025],
  [0, -14497736085, 0, 2293795223685, 0, -91976968689606, 0, 1687659169958190, 0, -17345975390118375, 0, 110698861126028175, 0, -465502903196631300, 0, 1334441655830343060, 0, -2649259169663181075, 0, 3640794765326593875, 0, -3398075114304820950, 0, 2054962420903705950, 0, -726086722052642769, 0, 113774272686311545],
  [1194098985, 0, -1130122377090, 0, 85290895024335, 0, -2399811637843620, 0, 34895476211329305, 0, -302432182684181550, 0, 1690870839552469575, 0, -6391863393473071800, 0, 16778641407866813475, 0, -30925339065480009150, 0, 39877410900224222325, 0, -35216414820977235300, 0, 20287717233823842075, 0, -6866611986832685010, 0, 1035441490077944565],
  [0, -26145860265, 0, 2954319498585, 0, -114089758612830, 0, 2085428517001830, 0, -21427699203705795, 0, 136745651979211275, 0, -575032998066426900, 0, 1648427927790423780, 0, -3272614268407458975, 0, 4497452357168145375, 0, -4197622200023602350, 0, 2538482990528107350, 0, -896930656653264597, 0, 140544689788973085],
  [5433878133, 0, -1587404321370, 0, 105148005437475, 0, -2910738538087380, 0, 42248817809975205, 0, -366105040003717014, 0, 2046843647879305275, 0, -7737518844730560600, 0, 20310986967417721575, 0, -37435936763475800550, 0, 48272655300271427025, 0, -42630396888551390100, 0, 24558815598839387775, 0, -8312214510376408170, 0, 1253429172199617105],
  [0, -18068795325, 0, 3234140398125, 0, -134123701461750, 0, 2478530642766750, 0, -25504814345385375, 0, 162790781398947975, 0, -684563092936222500, 0, 1962414199750504500, 0, -3895969367151736875, 0, 5354109949009696875, 0, -4997169285742383750, 0, 3022003560152508750, 0, -1067774591253886425, 0, 167315106891634625],
  [1269550017, 0, -1464945306930, 0, 118452998438775, 0, -3394370607247620, 0, 49550465093674545, 0, -429732573418834686, 0, 2402801503305123375, 0, -9083174295988049400, 0, 23843332526968629675, 0, -43946534461471591950, 0, 56667899700318631725, 0, -50044378956125544900, 0, 28829913963854933475, 0, -9757817033920131330, 0, 1471416854321289645],
  [0, -40222053585, 0, 4329470392065, 0, -160495367702670, 0, 2892871851539670, 0, -29616693176024955, 0, 188863324470550275, 0, -794101526923893300, 0, 2276400471710585220, 0, -4519324465896014775, 0, 6210767540851248375, 0, -5796716371461165150, 0, 3505524129776910150, 0, -1238618525854508253, 0, 194085523994296165],
  [7776465165, 0, -2345451776010, 0, 147280708890315, 0, -3968674741411380, 0, 57105577980896445, 0, -493725256676802150, 0, 2759021034498749475, 0, -10428903608003861400, 0, 27375678086519537775, 0, -50457132159467383350, 0, 65063144100365836425, 0, -57458361023699699700, 0, 33101012328870479175, 0, -11203419557463854490, 0, 1689404536442962185],
  [0, -18805934565, 0, 3857067178965, 0, -170439544208934, 0, 3230923080695310, 0, -33545953382316375, 0, 214700982388667775, 0, -903485687230872900, 0, 2590346120253588180, 0, -5142679564640292675, 0, 7067425132692799875, 0, -6596263457179946550, 0, 3989044699401311550, 0, -1409462460455130081, 0, 220855941096957705],
  [1169076825, 0, -1613021479650, 0, 143340636614175, 0, -4288031913225060, 0, 63682470458231625, 0, -555672698747916750, 0, 3112864923543204375, 0, -11773192635232371000, 0, 30907668191171015475, 0, -56967729857463174750, 0, 73458388500413041125, 0, -64872343091273854500, 0, 37372110693886024875, 0, -12649022081007577650, 0, 1907392218564634725],
  [0, -57352072185, 0, 6162099746985, 0, -218110269222846, 0, 3800053516609350, 0, -38228460785389875, 0, 241935594316436475, 0, -1014348998570966100, 0, 2905124548846685220, 0, -5766228072668084175, 0, 7924082724534351375, 0, -7395810542898727950, 0, 4472565269025712950, 0, -1580306395055751909, 0, 247626358199619245],
  [10282994085, 0, -3332999541690, 0, 202720140658035, 0, -5239601532465300, 0, 73432835809658325, 0, -626595256216279350, 0, 3481657040823691275, 0, -13132022999255760600, 0, 34447300576160246775, 0, -63480003769249417350, 0, 81853632900460245825, 0, -72286325158848009300, 0, 41643209058901570575, 0, -14094624604551300810, 0, 2125379900686307265],
  [0, -16284321165, 0, 3850390265085, 0, -186896721121110, 0, 3754261474113150, 0, -40306528481794575, 0, 262673754849753975, 0, -1115396646977081700, 0, 3211072462152504180, 0, -6385424871816819675, 0, 8779836043146843675, 0, -8195357628617509350, 0, 4956085838650114350, 0, -1751150329656373737, 0, 274396775302280785],
  [914465649, 0, -1485974804370, 0, 147995905832775, 0, -4770115973122500, 0, 74167964742096225, 0, -664581852986040990, 0, 3777032867318085375, 0, -14389373297640468600, 0, 37902023672048041275, 0, -69952886656960056750, 0, 90241100550737541405, 0, -79700307226422164100, 0, 45914307423917116275, 0, -15540227128095023970, 0, 2343367582807979805],
  [0, -77933515905, 0, 8830674932625, 0, -308734876399950, 0, 5186175411309750, 0, -50247923795944875, 0, 308621980810818675, 0, -1267203658947880500, 0, 3581664926846876100, 0, -7055174022443922375, 0, 9657744055871286375, 0, -8999070830284456350, 0, 5439606408274515750, 0, -1921994264256995565, 0, 301167192404942325],
  [12935441661, 0, -4643990107050, 0, 287587345520475, 0, -7252202626168500, 0, 97956536900604525, 0, -807847024537663110, 0, 4372715573448297075, 0, -16197786596093909400, 0, 42007295881687110975, 0, -76903280948225481750, 0, 98826875320147519545, 0, -87149890648462461300, 0, 50185405788932661975, 0, -16985829651638747130, 0, 2561355264929652345],
  [0, -10128884325, 0, 2765185420725, 0, -151216139864790, 0, 3348357382720350, 0, -38878149610475175, 0, 269542769308988175, 0, -1200772470634020900, 0, 3584528190114892020, 0, -7320395568522111075, 0, 10255892538355539075, 0, -9692381959325014950, 0, 5904165386933254350, 0, -2092838198857617393, 0, 327937609507603865],
  [520958625, 0, -984611801250, 0, 111359594721375, 0, -3989148148685700, 0, 67629212158075425, 0, -649770861910920750, 0, 3902844462776634375, 0, -15522169977671643000, 0, 42244388465094290475, 0, -79870257929845533150, 0, 104808411010359181125, 0, -93620436822683842500, 0, 54295330630740073875, 0, -18431432175182470290, 0, 2779342947051324885],
  [0, -102322402875, 0, 12858515294625, 0, -478336768960050, 0, 8268392720595150, 0, -80387151450230625, 0, 486707662416850875, 0, -1946830649667403500, 0, 5321337109090902900, 0, -10094889515775389325, 0, 13282749362862354375, 0, -11891223239133917250, 0, 6909129708113382750, 0, -2349104100758550135, 0, 354708026610265405],
  [15720692625, 0, -6382601205750, 0, 428698047652875, 0, -11317628458035900, 0, 155617391297993625, 0, -1279520772894614250, 0, 6804724110394084875, 0, -24526917672629229000, 0, 61521685162178316075, 0, -108567679697961734250, 0, 134281077521163197625, 0, -113935459714926349500, 0, 63159874407187432875, 0, -20599835960498055030, 0, 2997330629172997425]]

/-- Their denominators. -/
def dualDen1_30 : List Nat := [1, 33554432, 1, 33554432, 16777216, 67108864, 16777216, 67108864, 16777216, 67108864, 16777216, 67108864, 16777216, 67108864, 16777216, 67108864, 16777216, 67108864, 16777216, 67108864, 16777216, 67108864, 16777216, 67108864, 16777216, 67108864, 16777216, 67108864, 16777216, 67108864]

/-- Bounds for their norms. -/
def dualNorm1_30 : List Nat := [0, 41, 0, 41, 71, 103, 127, 160, 181, 214, 232, 266, 279, 313, 321, 355, 356, 390, 384, 416, 402, 432, 406, 435, 394, 420, 357, 379, 278, 294]

/-- Numerators of the dual polynomials, derivatives of order 2, shapes below 30. -/
def dualNum2_30 : List (List Int) := [
  [],
  [-1, 1],
  [],
  [1, 1],
  [-5, 0, 15],
  [0, -21, 0, 35],
  [27, 0, -270, 0, 315],
  [0, 165, 0, -770, 0, 693],
  [-65, 0, 1365, 0, -4095, 0, 3003],
  [0, -525, 0, 4725, 0, -10395, 0, 6435],
  [595, 0, -21420, 0, 117810, 0, -204204, 0, 109395],
  [0, 5985, 0, -87780, 0, 342342, 0, -489060, 0, 230945],
  [-1323, 0, 72765, 0, -630630, 0, 1891890, 0, -2297295, 0, 969969],
  [0, -15939, 0, 345345, 0, -2072070, 0, 5032170, 0, -5311735, 0, 2028117],
  [5775, 0, -450450, 0, 5630625, 0, -25525500, 0, 51962625, 0, -48498450, 0, 16900975],
  [0, 81081, 0, -2432430, 0, 20675655, 0, -74826180, 0, 130945815, 0, -109518318, 0, 35102025],
  [-12441, 0, 1306305, 0, -22207185, 0, 140645505, 0, -421936515, 0, 646969323, 0, -490128275, 0, 145422675],
  [0, -199485, 0, 7912905, 0, -90207117, 0, 451035585, 0, -1152646495, 0, 1571790675, 0, -1088162775, 0, 300540195],
  [212355, 0, -28880280, 0, 640179540, 0, -5377508136, 0, 22086194130, 0, -49080431400, 0, 60235074900, 0, -38391586200, 0, 9917826435],
  [0, 3828825, 0, -193993800, 0, 2851708860, 0, -18739801080, 0, 65068753750, 0, -127771371000, 0, 142514221500, 0, -84151254600, 0, 20419054425],
  [-449735, 0, 76904685, 0, -2153331180, 0, 23112421332, 0, -123816542850, 0, 371449628550, 0, -652850862300, 0, 667199232900, 0, -366959578095, 0, 83945001525],
  [0, -9006855, 0, 567431865, 0, -10440746316, 0, 87006219300, 0, -391527986850, 0, 1032210147150, 0, -1640949464700, 0, 1547180923860, 0, -796343122575, 0, 172308161025],
  [1893749, 0, -397687290, 0, 13720211505, 0, -182936153400, 0, 1234819035450, 0, -4774633603740, 0, 11213154675450, 0, -16265235353400, 0, 14232080934225, 0, -6883490125050, 0, 1412926920405],
  [0, 41708667, 0, -3197664470, 0, 71947450575, 0, -740030920200, 0, 4172952133350, 0, -14112165396420, 0, 29852657569350, 0, -39803543425800, 0, 32486715590175, 0, -14818501848150, 0, 2893136075115],
  [-3968055, 0, 1003917915, 0, -41829913125, 0, 677644592625, 0, -5614769481750, 0, 27075666167550, 0, -81226998502650, 0, 156205766351250, 0, -192653778499875, 0, 147323477676375, 0, -63581711418225, 0, 11835556670925],
  [0, -95321499, 0, 8737804075, 0, -235920710025, 0, 2932157396025, 0, -20199306505950, 0, 84837087324990, 0, -228407542798050, 0, 402432337310850, 0, -461613563385975, 0, 332037826295175, 0, -135977395530405, 0, 24185702762325],
  [33125911, 0, -9937773300, 0, 491919778350, 0, -9510449048100, 0, 94764831586425, 0, -555953678640360, 0, 2063767443437700, 0, -5034685411463400, 0, 8181363793628025, 0, -8769566419313700, 0, 5954074042586670, 0, -2319769107501300, 0, 395033145117975],
  [0, 861949725, 0, -93090570300, 0, 2969589192570, 0, -43836792842700, 0, 361653540952275, 0, -1841145299393400, 0, 6113546571062700, 0, -13624475215511160, 0, 20536892788086675, 0, -20656991576321100, 0, 13279494584777850, 0, -4933883363514300, 0, 805867616040669],
  [-68903975, 0, 24185295225, 0, -1402747123050, 0, 31889117930670, 0, -375836032754325, 0, 2630852229280275, 0, -11798973634347900, 0, 35396920903043700, 0, -72563687851239585, 0, 101968580967428175, 0, -96601813548089850, 0, 58964743334548350, 0, -20936756691252675, 0, 3285460280781189],
  [0, -1930611375, 0, 242613496125, 0, -9025222055850, 0, 156007409822550, 0, -1516738706608125, 0, 9183163441827375, 0, -36732653767309500, 0, 100402586963979300, 0, -190469613505196025, 0, 250617912506836875, 0, -224362702625168250, 0, 130360937888931750, 0, -44322718882236795, 0, 6692604275665385]]

/-- Their denominators. -/
def dualDen2_30 : List Nat := [1, 1, 1, 1, 4, 4, 16, 16, 32, 32, 256, 256, 512, 512, 2048, 2048, 4096, 4096, 65536, 65536, 131072, 131072, 524288, 524288, 1048576, 1048576, 8388608, 8388608, 16777216, 16777216]

/-- Bounds for their norms. -/
def dualNorm2_30 : List Nat := [0, 2, 0, 2, 2, 2, 3, 3, 3, 3, 3, 4, 4, 4, 4, 4, 4, 4, 5, 5, 5, 5, 5, 5, 5, 5, 5, 6, 6, 6]

end Composipy
