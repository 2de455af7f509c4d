import Mathlib.Data.Rat.Defs

/-!
# Tables, generated mechanically from the text of /repo (decimal literals kept exactly)

Do not edit by hand.  Decimal literals become exact rationals.
-/

namespace Pysolar

namespace Constants

/-- `aberration_sin_terms`, constants.py:79-144. -/
def aberration_sin_terms : List (List ℚ) :=
  [
    [0, 0, 0, 0, 1],
    [(-2), 0, 0, 2, 2],
    [0, 0, 0, 2, 2],
    [0, 0, 0, 0, 2],
    [0, 1, 0, 0, 0],
    [0, 0, 1, 0, 0],
    [(-2), 1, 0, 2, 2],
    [0, 0, 0, 2, 1],
    [0, 0, 1, 2, 2],
    [(-2), (-1), 0, 2, 2],
    [(-2), 0, 1, 0, 0],
    [(-2), 0, 0, 2, 1],
    [0, 0, (-1), 2, 2],
    [2, 0, 0, 0, 0],
    [0, 0, 1, 0, 1],
    [2, 0, (-1), 2, 2],
    [0, 0, (-1), 0, 1],
    [0, 0, 1, 2, 1],
    [(-2), 0, 2, 0, 0],
    [0, 0, (-2), 2, 1],
    [2, 0, 0, 2, 2],
    [0, 0, 2, 2, 2],
    [0, 0, 2, 0, 0],
    [(-2), 0, 1, 2, 2],
    [0, 0, 0, 2, 0],
    [(-2), 0, 0, 2, 0],
    [0, 0, (-1), 2, 1],
    [0, 2, 0, 0, 0],
    [2, 0, (-1), 0, 1],
    [(-2), 2, 0, 2, 2],
    [0, 1, 0, 0, 1],
    [(-2), 0, 1, 0, 1],
    [0, (-1), 0, 0, 1],
    [0, 0, 2, (-2), 0],
    [2, 0, (-1), 2, 1],
    [2, 0, 1, 2, 2],
    [0, 1, 0, 2, 2],
    [(-2), 1, 1, 0, 0],
    [0, (-1), 0, 2, 2],
    [2, 0, 0, 2, 1],
    [2, 0, 1, 0, 0],
    [(-2), 0, 2, 2, 2],
    [(-2), 0, 1, 2, 1],
    [2, 0, (-2), 0, 1],
    [2, 0, 0, 0, 1],
    [0, (-1), 1, 0, 0],
    [(-2), (-1), 0, 2, 1],
    [(-2), 0, 0, 0, 1],
    [0, 0, 2, 2, 1],
    [(-2), 0, 2, 0, 1],
    [(-2), 1, 0, 2, 1],
    [0, 0, 1, (-2), 0],
    [(-1), 0, 1, 0, 0],
    [(-2), 1, 0, 0, 0],
    [1, 0, 0, 0, 0],
    [0, 0, 1, 2, 0],
    [0, 0, (-2), 2, 2],
    [(-1), (-1), 1, 0, 0],
    [0, 1, 1, 0, 0],
    [0, (-1), 1, 2, 2],
    [2, (-1), (-1), 2, 2],
    [0, 0, 3, 2, 2],
    [2, (-1), 0, 2, 2]]

/-- `nutation_coefficients`, constants.py:146-211. -/
def nutation_coefficients : List (ℚ × ℚ × ℚ × ℚ) :=
  [
    ((-171996), (-174.2), 92025, 8.9),
    ((-13187), (-1.6), 5736, (-3.1)),
    ((-2274), (-0.2), 977, (-0.5)),
    (2062, 0.2, (-895), 0.5),
    (1426, (-3.4), 54, (-0.1)),
    (712, 0.1, (-7), 0),
    ((-517), 1.2, 224, (-0.6)),
    ((-386), (-0.4), 200, 0),
    ((-301), 0, 129, (-0.1)),
    (217, (-0.5), (-95), 0.3),
    ((-158), 0, 0, 0),
    (129, 0.1, (-70), 0),
    (123, 0, (-53), 0),
    (63, 0, 0, 0),
    (63, 0.1, (-33), 0),
    ((-59), 0, 26, 0),
    ((-58), (-0.1), 32, 0),
    ((-51), 0, 27, 0),
    (48, 0, 0, 0),
    (46, 0, (-24), 0),
    ((-38), 0, 16, 0),
    ((-31), 0, 13, 0),
    (29, 0, 0, 0),
    (29, 0, (-12), 0),
    (26, 0, 0, 0),
    ((-22), 0, 0, 0),
    (21, 0, (-10), 0),
    (17, (-0.1), 0, 0),
    (16, 0, (-8), 0),
    ((-16), 0.1, 7, 0),
    ((-15), 0, 9, 0),
    ((-13), 0, 7, 0),
    ((-12), 0, 6, 0),
    (11, 0, 0, 0),
    ((-10), 0, 5, 0),
    ((-8), 0, 3, 0),
    (7, 0, (-3), 0),
    ((-7), 0, 0, 0),
    ((-7), 0, 3, 0),
    ((-7), 0, 3, 0),
    (6, 0, 0, 0),
    (6, 0, (-3), 0),
    (6, 0, (-3), 0),
    ((-6), 0, 3, 0),
    ((-6), 0, 3, 0),
    (5, 0, 0, 0),
    ((-5), 0, 3, 0),
    ((-5), 0, 3, 0),
    ((-5), 0, 3, 0),
    (4, 0, 0, 0),
    (4, 0, 0, 0),
    (4, 0, 0, 0),
    ((-4), 0, 0, 0),
    ((-4), 0, 0, 0),
    ((-4), 0, 0, 0),
    (3, 0, 0, 0),
    ((-3), 0, 0, 0),
    ((-3), 0, 0, 0),
    ((-3), 0, 0, 0),
    ((-3), 0, 0, 0),
    ((-3), 0, 0, 0),
    ((-3), 0, 0, 0),
    ((-3), 0, 0, 0)]

/-- `heliocentric_longitude_coeffs`, constants.py:213-356. -/
def heliocentric_longitude_coeffs : List (List (ℚ × ℚ × ℚ)) :=
  [
    [
      (175347046, 0, 0),
      (3341656, 4.6692568, 6283.07585),
      (34894, 4.6261, 12566.1517),
      (3497, 2.7441, 5753.3849),
      (3418, 2.8289, 3.5231),
      (3136, 3.6277, 77713.7715),
      (2676, 4.4181, 7860.4194),
      (2343, 6.1352, 3930.2097),
      (1324, 0.7425, 11506.7698),
      (1273, 2.0371, 529.691),
      (1199, 1.1096, 1577.3435),
      (990, 5.233, 5884.927),
      (902, 2.045, 26.298),
      (857, 3.508, 398.149),
      (780, 1.179, 5223.694),
      (753, 2.533, 5507.553),
      (505, 4.583, 18849.228),
      (492, 4.205, 775.523),
      (357, 2.92, 0.067),
      (317, 5.849, 11790.629),
      (284, 1.899, 796.298),
      (271, 0.315, 10977.079),
      (243, 0.345, 5486.778),
      (206, 4.806, 2544.314),
      (205, 1.869, 5573.143),
      (202, 2.458, 6069.777),
      (156, 0.833, 213.299),
      (132, 3.411, 2942.463),
      (126, 1.083, 20.775),
      (115, 0.645, 0.98),
      (103, 0.636, 4694.003),
      (102, 0.976, 15720.839),
      (102, 4.267, 7.114),
      (99, 6.21, 2146.17),
      (98, 0.68, 155.42),
      (86, 5.98, 161000.69),
      (85, 1.3, 6275.96),
      (85, 3.67, 71430.7),
      (80, 1.81, 17260.15),
      (79, 3.04, 12036.46),
      (75, 1.76, 5088.63),
      (74, 3.5, 3154.69),
      (74, 4.68, 801.82),
      (70, 0.83, 9437.76),
      (62, 3.98, 8827.39),
      (61, 1.82, 7084.9),
      (57, 2.78, 6286.6),
      (56, 4.39, 14143.5),
      (56, 3.47, 6279.55),
      (52, 0.19, 12139.55),
      (52, 1.33, 1748.02),
      (51, 0.28, 5856.48),
      (49, 0.49, 1194.45),
      (41, 5.37, 8429.24),
      (41, 2.4, 19651.05),
      (39, 6.17, 10447.39),
      (37, 6.04, 10213.29),
      (37, 2.57, 1059.38),
      (36, 1.71, 2352.87),
      (36, 1.78, 6812.77),
      (33, 0.59, 17789.85),
      (30, 0.44, 83996.85),
      (30, 2.74, 1349.87),
      (25, 3.16, 4690.48)],
    [
      (628331966747, 0, 0),
      (206059, 2.678235, 6283.07585),
      (4303, 2.6351, 12566.1517),
      (425, 1.59, 3.523),
      (119, 5.796, 26.298),
      (109, 2.966, 1577.344),
      (93, 2.59, 18849.23),
      (72, 1.14, 529.69),
      (68, 1.87, 398.15),
      (67, 4.41, 5507.55),
      (59, 2.89, 5223.69),
      (56, 2.17, 155.42),
      (45, 0.4, 796.3),
      (36, 0.47, 775.52),
      (29, 2.65, 7.11),
      (21, 5.34, 0.98),
      (19, 1.85, 5486.78),
      (19, 4.97, 213.3),
      (17, 2.99, 6275.96),
      (16, 0.03, 2544.31),
      (16, 1.43, 2146.17),
      (15, 1.21, 10977.08),
      (12, 2.83, 1748.02),
      (12, 3.26, 5088.63),
      (12, 5.27, 1194.45),
      (12, 2.08, 4694),
      (11, 0.77, 553.57),
      (10, 1.3, 6286.6),
      (10, 4.24, 1349.87),
      (9, 2.7, 242.73),
      (9, 5.64, 951.72),
      (8, 5.3, 2352.87),
      (6, 2.65, 9437.76),
      (6, 4.67, 4690.48)],
    [
      (52919, 0, 0),
      (8720, 1.0721, 6283.0758),
      (309, 0.867, 12566.152),
      (27, 0.05, 3.52),
      (16, 5.19, 26.3),
      (16, 3.68, 155.42),
      (10, 0.76, 18849.23),
      (9, 2.06, 77713.77),
      (7, 0.83, 775.52),
      (5, 4.66, 1577.34),
      (4, 1.03, 7.11),
      (4, 3.44, 5573.14),
      (3, 5.14, 796.3),
      (3, 6.05, 5507.55),
      (3, 1.19, 242.73),
      (3, 6.12, 529.69),
      (3, 0.31, 398.15),
      (3, 2.28, 553.57),
      (2, 4.38, 5223.69),
      (2, 3.75, 0.98)],
    [
      (289, 5.844, 6283.076),
      (35, 0, 0),
      (17, 5.49, 12566.15),
      (3, 5.2, 155.42),
      (1, 4.72, 3.52),
      (1, 5.3, 18849.23),
      (1, 5.97, 242.73)],
    [
      (114, 3.142, 0),
      (8, 4.13, 6283.08),
      (1, 3.84, 12566.15)],
    [
      (1, 3.14, 0)]]

/-- `heliocentric_latitude_coeffs`, constants.py:358-371. -/
def heliocentric_latitude_coeffs : List (List (ℚ × ℚ × ℚ)) :=
  [
    [
      (280, 3.199, 84334.662),
      (102, 5.422, 5507.553),
      (80, 3.88, 5223.69),
      (44, 3.7, 2352.87),
      (32, 4, 1577.34)],
    [
      (9, 3.9, 5507.55),
      (6, 1.73, 5223.69)]]

/-- `sun_earth_distance_coeffs`, constants.py:373-444. -/
def sun_earth_distance_coeffs : List (List (ℚ × ℚ × ℚ)) :=
  [
    [
      (100013989, 0, 0),
      (1670700, 3.0984635, 6283.07585),
      (13956, 3.05525, 12566.1517),
      (3084, 5.1985, 77713.7715),
      (1628, 1.1739, 5753.3849),
      (1576, 2.8469, 7860.4194),
      (925, 5.453, 11506.77),
      (542, 4.564, 3930.21),
      (472, 3.661, 5884.927),
      (346, 0.964, 5507.553),
      (329, 5.9, 5223.694),
      (307, 0.299, 5573.143),
      (243, 4.273, 11790.629),
      (212, 5.847, 1577.344),
      (186, 5.022, 10977.079),
      (175, 3.012, 18849.228),
      (110, 5.055, 5486.778),
      (98, 0.89, 6069.78),
      (86, 5.69, 15720.84),
      (86, 1.27, 161000.69),
      (65, 0.27, 17260.15),
      (63, 0.92, 529.69),
      (57, 2.01, 83996.85),
      (56, 5.24, 71430.7),
      (49, 3.25, 2544.31),
      (47, 2.58, 775.52),
      (45, 5.54, 9437.76),
      (43, 6.01, 6275.96),
      (39, 5.36, 4694),
      (38, 2.39, 8827.39),
      (37, 0.83, 19651.05),
      (37, 4.9, 12139.55),
      (36, 1.67, 12036.46),
      (35, 1.84, 2942.46),
      (33, 0.24, 7084.9),
      (32, 0.18, 5088.63),
      (32, 1.78, 398.15),
      (28, 1.21, 6286.6),
      (28, 1.9, 6279.55),
      (26, 4.59, 10447.39)],
    [
      (103019, 1.10749, 6283.07585),
      (1721, 1.0644, 12566.1517),
      (702, 3.142, 0),
      (32, 1.02, 18849.23),
      (31, 2.84, 5507.55),
      (25, 1.32, 5223.69),
      (18, 1.42, 1577.34),
      (10, 5.91, 10977.08),
      (9, 1.42, 6275.96),
      (9, 0.27, 5486.78)],
    [
      (4359, 5.7846, 6283.0758),
      (124, 5.579, 12566.152),
      (12, 3.14, 0),
      (9, 3.63, 77713.77),
      (6, 1.87, 5573.14),
      (3, 5.47, 18849.23)],
    [
      (145, 4.273, 6283.076),
      (7, 3.92, 12566.15)],
    [
      (4, 2.56, 6283.08)]]

end Constants

namespace Solartime

/-- `leap_seconds_adjustments`, solartime.py:37-96. -/
def leap_seconds_adjustments : List (ℤ × ℤ) :=
  [
    (1, 1),
    (0, 1),
    (0, 1),
    (0, 1),
    (0, 1),
    (0, 1),
    (0, 1),
    (0, 1),
    (0, 0),
    (1, 0),
    (1, 0),
    (1, 0),
    (0, 0),
    (1, 0),
    (0, 0),
    (0, 1),
    (0, 0),
    (0, 1),
    (0, 1),
    (0, 0),
    (1, 0),
    (1, 0),
    (1, 0),
    (0, 1),
    (0, 0),
    (1, 0),
    (0, 1),
    (0, 0),
    (0, 0),
    (0, 0),
    (0, 0),
    (0, 0),
    (0, 0),
    (0, 1),
    (0, 0),
    (0, 0),
    (0, 1),
    (0, 0),
    (0, 0),
    (0, 0),
    (1, 0),
    (0, 0),
    (0, 0),
    (1, 0),
    (0, 1),
    (0, 0),
    (0, 0),
    (0, 0),
    (0, 0),
    (0, 0),
    (0, 0),
    (0, 0),
    (0, 0),
    (0, 0)]

/-- `delta_t`, solartime.py:141-722. -/
def delta_t : List (List ℚ) :=
  [
    [43.4724, 43.5648, 43.6737, 43.7782, 43.8763, 43.9562, 44.0315, 44.1132, 44.1982, 44.2952, 44.3936],
    [44.4841, 44.5646, 44.6425, 44.7386, 44.8370, 44.9302, 44.9986, 45.0584, 45.1284, 45.2064, 45.2980, 45.3897],
    [45.4761, 45.5633, 45.6450, 45.7375, 45.8284, 45.9133, 45.9820, 46.0408, 46.1067, 46.1825, 46.2789, 46.3713],
    [46.4567, 46.5445, 46.6311, 46.7302, 46.8284, 46.9247, 46.9970, 47.0709, 47.1451, 47.2362, 47.3413, 47.4319],
    [47.5214, 47.6049, 47.6837, 47.7781, 47.8771, 47.9687, 48.0348, 48.0942, 48.1608, 48.2460, 48.3439, 48.4355],
    [48.5344, 48.6325, 48.7294, 48.8365, 48.9353, 49.0319, 49.1013, 49.1591, 49.2286, 49.3070, 49.4018, 49.4945],
    [49.5862, 49.6805, 49.7602, 49.8556, 49.9489, 50.0347, 50.1019, 50.1622, 50.2260, 50.2968, 50.3831, 50.4599],
    [50.5387, 50.6161, 50.6866, 50.7658, 50.8454, 50.9187, 50.9761, 51.0278, 51.0843, 51.1538, 51.2319, 51.3063],
    [51.3808, 51.4526, 51.5160, 51.5985, 51.6809, 51.7573, 51.8133, 51.8532, 51.9014, 51.9603, 52.0328, 52.0985],
    [52.1668, 52.2316, 52.2938, 52.3680, 52.4465, 52.5180, 52.5752, 52.6178, 52.6668, 52.7340, 52.8056, 52.8792],
    [52.9565, 53.0445, 53.1268, 53.2197, 53.3024, 53.3747, 53.4335, 53.4778, 53.5300, 53.5845, 53.6523, 53.7256],
    [53.7882, 53.8367, 53.8830, 53.9443, 54.0042, 54.0536, 54.0856, 54.1084, 54.1463, 54.1914, 54.2452, 54.2958],
    [54.3427, 54.3911, 54.4320, 54.4898, 54.5456, 54.5977, 54.6355, 54.6532, 54.6776, 54.7174, 54.7741, 54.8253],
    [54.8713, 54.9161, 54.9581, 54.9997, 55.0476, 55.0912, 55.1132, 55.1328, 55.1532, 55.1898, 55.2416, 55.2838],
    [55.3222, 55.3613, 55.4063, 55.4629, 55.5111, 55.5524, 55.5812, 55.6004, 55.6262, 55.6656, 55.7168, 55.7698],
    [55.8197, 55.8615, 55.9130, 55.9663, 56.0220, 56.0700, 56.0939, 56.1105, 56.1314, 56.1611, 56.2068, 56.2583],
    [56.3000, 56.3399, 56.3790, 56.4283, 56.4804, 56.5352, 56.5697, 56.5983, 56.6328, 56.6739, 56.7332, 56.7972],
    [56.8553, 56.9111, 56.9755, 57.0471, 57.1136, 57.1738, 57.2226, 57.2597, 57.3073, 57.3643, 57.4334, 57.5016],
    [57.5653, 57.6333, 57.6973, 57.7711, 57.8407, 57.9058, 57.9576, 57.9975, 58.0426, 58.1043, 58.1679, 58.2389],
    [58.3092, 58.3833, 58.4537, 58.5401, 58.6228, 58.6917, 58.7410, 58.7836, 58.8406, 58.8986, 58.9714, 59.0438],
    [59.1218, 59.2003, 59.2747, 59.3574, 59.4434, 59.5242, 59.5850, 59.6344, 59.6928, 59.7588, 59.8386, 59.9111],
    [59.9845, 60.0564, 60.1231, 60.2042, 60.2804, 60.3530, 60.4012, 60.4440, 60.4900, 60.5578, 60.6324, 60.7059],
    [60.7853, 60.8664, 60.9387, 61.0277, 61.1103, 61.1870, 61.2454, 61.2881, 61.3378, 61.4036, 61.4760, 61.5525],
    [61.6287, 61.6846, 61.7433, 61.8132, 61.8823, 61.9497, 61.9969, 62.0343, 62.0714, 62.1202, 62.1810, 62.2382],
    [62.2950, 62.3506, 62.3995, 62.4754, 62.5463, 62.6136, 62.6571, 62.6942, 62.7383, 62.7926, 62.8567, 62.9146],
    [62.9659, 63.0217, 63.0807, 63.1462, 63.2053, 63.2599, 63.2844, 63.2961, 63.3126, 63.3422, 63.3871, 63.4339],
    [63.4673, 63.4979, 63.5319, 63.5679, 63.6104, 63.6444, 63.6642, 63.6739, 63.6926, 63.7147, 63.7518, 63.7927],
    [63.8285, 63.8557, 63.8804, 63.9075, 63.9393, 63.9691, 63.9799, 63.9833, 63.9938, 64.0093, 64.0400, 64.0670],
    [64.0908, 64.1068, 64.1282, 64.1584, 64.1833, 64.2094, 64.2117, 64.2073, 64.2116, 64.2223, 64.2500, 64.2761],
    [64.2998, 64.3192, 64.3450, 64.3735, 64.3943, 64.4151, 64.4132, 64.4118, 64.4097, 64.4168, 64.4329, 64.4511],
    [64.4734, 64.4893, 64.5053, 64.5269, 64.5471, 64.5597, 64.5512, 64.5371, 64.5359, 64.5415, 64.5544, 64.5654],
    [64.5736, 64.5891, 64.6015, 64.6176, 64.6374, 64.6549, 64.6530, 64.6379, 64.6372, 64.6400, 64.6543, 64.6723],
    [64.6876, 64.7052, 64.7313, 64.7575, 64.7811, 64.8001, 64.7995, 64.7876, 64.7831, 64.7921, 64.8096, 64.8311],
    [64.8452, 64.8597, 64.8850, 64.9175, 64.9480, 64.9794, 64.9895, 65.0028, 65.0138, 65.0371, 65.0773, 65.1122],
    [65.1464, 65.1833, 65.2145, 65.2494, 65.2921, 65.3279, 65.3413, 65.3452, 65.3496, 65.3711, 65.3972, 65.4296],
    [65.4573, 65.4868, 65.5152, 65.5450, 65.5781, 65.6127, 65.6288, 65.6370, 65.6493, 65.6760, 65.7097, 65.7461],
    [65.7768, 65.8025, 65.8237, 65.8595, 65.8973, 65.9323, 65.9509, 65.9534, 65.9628, 65.9839, 66.0147, 66.0420],
    [66.0699, 66.0961, 66.1310, 66.1683, 66.2072, 66.2356, 66.2409, 66.2335, 66.2349, 66.2441, 66.2751, 66.3054],
    [66.3246, 66.3406, 66.3624, 66.3957, 66.4289, 66.4619, 66.4749, 66.4751, 66.4829, 66.5056, 66.5383, 66.5706],
    [66.6030, 66.6340, 66.6569, 66.6925, 66.7289, 66.7579, 66.7708, 66.7740, 66.7846, 66.8103, 66.8400, 66.8779],
    [66.9069, 66.9443, 66.9763, 67.0258, 67.0716, 67.1100, 67.1266, 67.1331, 67.1458, 67.1718, 67.2091, 67.2460],
    [67.2810, 67.3136, 67.3457, 67.3890]]

end Solartime

end Pysolar
