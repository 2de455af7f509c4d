import Mathlib.Data.Rat.Defs

/-!
# The delta-T data as published: year, month, TT - UT1 in seconds on the first of the month

Generated by tools/gen_delta_labels.py from the labels written beside each value in
/repo/pysolar/solartime.py:141-721. Independent of the position of the values in the list.
-/

namespace Verif.Spec

/-- Year, month, value. -/
def deltaTData : List (ℤ × ℤ × ℚ) :=
  [
    (1973, 2, 43.4724),
    (1973, 3, 43.5648),
    (1973, 4, 43.6737),
    (1973, 5, 43.7782),
    (1973, 6, 43.8763),
    (1973, 7, 43.9562),
    (1973, 8, 44.0315),
    (1973, 9, 44.1132),
    (1973, 10, 44.1982),
    (1973, 11, 44.2952),
    (1973, 12, 44.3936),
    (1974, 1, 44.4841),
    (1974, 2, 44.5646),
    (1974, 3, 44.6425),
    (1974, 4, 44.7386),
    (1974, 5, 44.8370),
    (1974, 6, 44.9302),
    (1974, 7, 44.9986),
    (1974, 8, 45.0584),
    (1974, 9, 45.1284),
    (1974, 10, 45.2064),
    (1974, 11, 45.2980),
    (1974, 12, 45.3897),
    (1975, 1, 45.4761),
    (1975, 2, 45.5633),
    (1975, 3, 45.6450),
    (1975, 4, 45.7375),
    (1975, 5, 45.8284),
    (1975, 6, 45.9133),
    (1975, 7, 45.9820),
    (1975, 8, 46.0408),
    (1975, 9, 46.1067),
    (1975, 10, 46.1825),
    (1975, 11, 46.2789),
    (1975, 12, 46.3713),
    (1976, 1, 46.4567),
    (1976, 2, 46.5445),
    (1976, 3, 46.6311),
    (1976, 4, 46.7302),
    (1976, 5, 46.8284),
    (1976, 6, 46.9247),
    (1976, 7, 46.9970),
    (1976, 8, 47.0709),
    (1976, 9, 47.1451),
    (1976, 10, 47.2362),
    (1976, 11, 47.3413),
    (1976, 12, 47.4319),
    (1977, 1, 47.5214),
    (1977, 2, 47.6049),
    (1977, 3, 47.6837),
    (1977, 4, 47.7781),
    (1977, 5, 47.8771),
    (1977, 6, 47.9687),
    (1977, 7, 48.0348),
    (1977, 8, 48.0942),
    (1977, 9, 48.1608),
    (1977, 10, 48.2460),
    (1977, 11, 48.3439),
    (1977, 12, 48.4355),
    (1978, 1, 48.5344),
    (1978, 2, 48.6325),
    (1978, 3, 48.7294),
    (1978, 4, 48.8365),
    (1978, 5, 48.9353),
    (1978, 6, 49.0319),
    (1978, 7, 49.1013),
    (1978, 8, 49.1591),
    (1978, 9, 49.2286),
    (1978, 10, 49.3070),
    (1978, 11, 49.4018),
    (1978, 12, 49.4945),
    (1979, 1, 49.5862),
    (1979, 2, 49.6805),
    (1979, 3, 49.7602),
    (1979, 4, 49.8556),
    (1979, 5, 49.9489),
    (1979, 6, 50.0347),
    (1979, 7, 50.1019),
    (1979, 8, 50.1622),
    (1979, 9, 50.2260),
    (1979, 10, 50.2968),
    (1979, 11, 50.3831),
    (1979, 12, 50.4599),
    (1980, 1, 50.5387),
    (1980, 2, 50.6161),
    (1980, 3, 50.6866),
    (1980, 4, 50.7658),
    (1980, 5, 50.8454),
    (1980, 6, 50.9187),
    (1980, 7, 50.9761),
    (1980, 8, 51.0278),
    (1980, 9, 51.0843),
    (1980, 10, 51.1538),
    (1980, 11, 51.2319),
    (1980, 12, 51.3063),
    (1981, 1, 51.3808),
    (1981, 2, 51.4526),
    (1981, 3, 51.5160),
    (1981, 4, 51.5985),
    (1981, 5, 51.6809),
    (1981, 6, 51.7573),
    (1981, 7, 51.8133),
    (1981, 8, 51.8532),
    (1981, 9, 51.9014),
    (1981, 10, 51.9603),
    (1981, 11, 52.0328),
    (1981, 12, 52.0985),
    (1982, 1, 52.1668),
    (1982, 2, 52.2316),
    (1982, 3, 52.2938),
    (1982, 4, 52.3680),
    (1982, 5, 52.4465),
    (1982, 6, 52.5180),
    (1982, 7, 52.5752),
    (1982, 8, 52.6178),
    (1982, 9, 52.6668),
    (1982, 10, 52.7340),
    (1982, 11, 52.8056),
    (1982, 12, 52.8792),
    (1983, 1, 52.9565),
    (1983, 2, 53.0445),
    (1983, 3, 53.1268),
    (1983, 4, 53.2197),
    (1983, 5, 53.3024),
    (1983, 6, 53.3747),
    (1983, 7, 53.4335),
    (1983, 8, 53.4778),
    (1983, 9, 53.5300),
    (1983, 10, 53.5845),
    (1983, 11, 53.6523),
    (1983, 12, 53.7256),
    (1984, 1, 53.7882),
    (1984, 2, 53.8367),
    (1984, 3, 53.8830),
    (1984, 4, 53.9443),
    (1984, 5, 54.0042),
    (1984, 6, 54.0536),
    (1984, 7, 54.0856),
    (1984, 8, 54.1084),
    (1984, 9, 54.1463),
    (1984, 10, 54.1914),
    (1984, 11, 54.2452),
    (1984, 12, 54.2958),
    (1985, 1, 54.3427),
    (1985, 2, 54.3911),
    (1985, 3, 54.4320),
    (1985, 4, 54.4898),
    (1985, 5, 54.5456),
    (1985, 6, 54.5977),
    (1985, 7, 54.6355),
    (1985, 8, 54.6532),
    (1985, 9, 54.6776),
    (1985, 10, 54.7174),
    (1985, 11, 54.7741),
    (1985, 12, 54.8253),
    (1986, 1, 54.8713),
    (1986, 2, 54.9161),
    (1986, 3, 54.9581),
    (1986, 4, 54.9997),
    (1986, 5, 55.0476),
    (1986, 6, 55.0912),
    (1986, 7, 55.1132),
    (1986, 8, 55.1328),
    (1986, 9, 55.1532),
    (1986, 10, 55.1898),
    (1986, 11, 55.2416),
    (1986, 12, 55.2838),
    (1987, 1, 55.3222),
    (1987, 2, 55.3613),
    (1987, 3, 55.4063),
    (1987, 4, 55.4629),
    (1987, 5, 55.5111),
    (1987, 6, 55.5524),
    (1987, 7, 55.5812),
    (1987, 8, 55.6004),
    (1987, 9, 55.6262),
    (1987, 10, 55.6656),
    (1987, 11, 55.7168),
    (1987, 12, 55.7698),
    (1988, 1, 55.8197),
    (1988, 2, 55.8615),
    (1988, 3, 55.9130),
    (1988, 4, 55.9663),
    (1988, 5, 56.0220),
    (1988, 6, 56.0700),
    (1988, 7, 56.0939),
    (1988, 8, 56.1105),
    (1988, 9, 56.1314),
    (1988, 10, 56.1611),
    (1988, 11, 56.2068),
    (1988, 12, 56.2583),
    (1989, 1, 56.3000),
    (1989, 2, 56.3399),
    (1989, 3, 56.3790),
    (1989, 4, 56.4283),
    (1989, 5, 56.4804),
    (1989, 6, 56.5352),
    (1989, 7, 56.5697),
    (1989, 8, 56.5983),
    (1989, 9, 56.6328),
    (1989, 10, 56.6739),
    (1989, 11, 56.7332),
    (1989, 12, 56.7972),
    (1990, 1, 56.8553),
    (1990, 2, 56.9111),
    (1990, 3, 56.9755),
    (1990, 4, 57.0471),
    (1990, 5, 57.1136),
    (1990, 6, 57.1738),
    (1990, 7, 57.2226),
    (1990, 8, 57.2597),
    (1990, 9, 57.3073),
    (1990, 10, 57.3643),
    (1990, 11, 57.4334),
    (1990, 12, 57.5016),
    (1991, 1, 57.5653),
    (1991, 2, 57.6333),
    (1991, 3, 57.6973),
    (1991, 4, 57.7711),
    (1991, 5, 57.8407),
    (1991, 6, 57.9058),
    (1991, 7, 57.9576),
    (1991, 8, 57.9975),
    (1991, 9, 58.0426),
    (1991, 10, 58.1043),
    (1991, 11, 58.1679),
    (1991, 12, 58.2389),
    (1992, 1, 58.3092),
    (1992, 2, 58.3833),
    (1992, 3, 58.4537),
    (1992, 4, 58.5401),
    (1992, 5, 58.6228),
    (1992, 6, 58.6917),
    (1992, 7, 58.7410),
    (1992, 8, 58.7836),
    (1992, 9, 58.8406),
    (1992, 10, 58.8986),
    (1992, 11, 58.9714),
    (1992, 12, 59.0438),
    (1993, 1, 59.1218),
    (1993, 2, 59.2003),
    (1993, 3, 59.2747),
    (1993, 4, 59.3574),
    (1993, 5, 59.4434),
    (1993, 6, 59.5242),
    (1993, 7, 59.5850),
    (1993, 8, 59.6344),
    (1993, 9, 59.6928),
    (1993, 10, 59.7588),
    (1993, 11, 59.8386),
    (1993, 12, 59.9111),
    (1994, 1, 59.9845),
    (1994, 2, 60.0564),
    (1994, 3, 60.1231),
    (1994, 4, 60.2042),
    (1994, 5, 60.2804),
    (1994, 6, 60.3530),
    (1994, 7, 60.4012),
    (1994, 8, 60.4440),
    (1994, 9, 60.4900),
    (1994, 10, 60.5578),
    (1994, 11, 60.6324),
    (1994, 12, 60.7059),
    (1995, 1, 60.7853),
    (1995, 2, 60.8664),
    (1995, 3, 60.9387),
    (1995, 4, 61.0277),
    (1995, 5, 61.1103),
    (1995, 6, 61.1870),
    (1995, 7, 61.2454),
    (1995, 8, 61.2881),
    (1995, 9, 61.3378),
    (1995, 10, 61.4036),
    (1995, 11, 61.4760),
    (1995, 12, 61.5525),
    (1996, 1, 61.6287),
    (1996, 2, 61.6846),
    (1996, 3, 61.7433),
    (1996, 4, 61.8132),
    (1996, 5, 61.8823),
    (1996, 6, 61.9497),
    (1996, 7, 61.9969),
    (1996, 8, 62.0343),
    (1996, 9, 62.0714),
    (1996, 10, 62.1202),
    (1996, 11, 62.1810),
    (1996, 12, 62.2382),
    (1997, 1, 62.2950),
    (1997, 2, 62.3506),
    (1997, 3, 62.3995),
    (1997, 4, 62.4754),
    (1997, 5, 62.5463),
    (1997, 6, 62.6136),
    (1997, 7, 62.6571),
    (1997, 8, 62.6942),
    (1997, 9, 62.7383),
    (1997, 10, 62.7926),
    (1997, 11, 62.8567),
    (1997, 12, 62.9146),
    (1998, 1, 62.9659),
    (1998, 2, 63.0217),
    (1998, 3, 63.0807),
    (1998, 4, 63.1462),
    (1998, 5, 63.2053),
    (1998, 6, 63.2599),
    (1998, 7, 63.2844),
    (1998, 8, 63.2961),
    (1998, 9, 63.3126),
    (1998, 10, 63.3422),
    (1998, 11, 63.3871),
    (1998, 12, 63.4339),
    (1999, 1, 63.4673),
    (1999, 2, 63.4979),
    (1999, 3, 63.5319),
    (1999, 4, 63.5679),
    (1999, 5, 63.6104),
    (1999, 6, 63.6444),
    (1999, 7, 63.6642),
    (1999, 8, 63.6739),
    (1999, 9, 63.6926),
    (1999, 10, 63.7147),
    (1999, 11, 63.7518),
    (1999, 12, 63.7927),
    (2000, 1, 63.8285),
    (2000, 2, 63.8557),
    (2000, 3, 63.8804),
    (2000, 4, 63.9075),
    (2000, 5, 63.9393),
    (2000, 6, 63.9691),
    (2000, 7, 63.9799),
    (2000, 8, 63.9833),
    (2000, 9, 63.9938),
    (2000, 10, 64.0093),
    (2000, 11, 64.0400),
    (2000, 12, 64.0670),
    (2001, 1, 64.0908),
    (2001, 2, 64.1068),
    (2001, 3, 64.1282),
    (2001, 4, 64.1584),
    (2001, 5, 64.1833),
    (2001, 6, 64.2094),
    (2001, 7, 64.2117),
    (2001, 8, 64.2073),
    (2001, 9, 64.2116),
    (2001, 10, 64.2223),
    (2001, 11, 64.2500),
    (2001, 12, 64.2761),
    (2002, 1, 64.2998),
    (2002, 2, 64.3192),
    (2002, 3, 64.3450),
    (2002, 4, 64.3735),
    (2002, 5, 64.3943),
    (2002, 6, 64.4151),
    (2002, 7, 64.4132),
    (2002, 8, 64.4118),
    (2002, 9, 64.4097),
    (2002, 10, 64.4168),
    (2002, 11, 64.4329),
    (2002, 12, 64.4511),
    (2003, 1, 64.4734),
    (2003, 2, 64.4893),
    (2003, 3, 64.5053),
    (2003, 4, 64.5269),
    (2003, 5, 64.5471),
    (2003, 6, 64.5597),
    (2003, 7, 64.5512),
    (2003, 8, 64.5371),
    (2003, 9, 64.5359),
    (2003, 10, 64.5415),
    (2003, 11, 64.5544),
    (2003, 12, 64.5654),
    (2004, 1, 64.5736),
    (2004, 2, 64.5891),
    (2004, 3, 64.6015),
    (2004, 4, 64.6176),
    (2004, 5, 64.6374),
    (2004, 6, 64.6549),
    (2004, 7, 64.6530),
    (2004, 8, 64.6379),
    (2004, 9, 64.6372),
    (2004, 10, 64.6400),
    (2004, 11, 64.6543),
    (2004, 12, 64.6723),
    (2005, 1, 64.6876),
    (2005, 2, 64.7052),
    (2005, 3, 64.7313),
    (2005, 4, 64.7575),
    (2005, 5, 64.7811),
    (2005, 6, 64.8001),
    (2005, 7, 64.7995),
    (2005, 8, 64.7876),
    (2005, 9, 64.7831),
    (2005, 10, 64.7921),
    (2005, 11, 64.8096),
    (2005, 12, 64.8311),
    (2006, 1, 64.8452),
    (2006, 2, 64.8597),
    (2006, 3, 64.8850),
    (2006, 4, 64.9175),
    (2006, 5, 64.9480),
    (2006, 6, 64.9794),
    (2006, 7, 64.9895),
    (2006, 8, 65.0028),
    (2006, 9, 65.0138),
    (2006, 10, 65.0371),
    (2006, 11, 65.0773),
    (2006, 12, 65.1122),
    (2007, 1, 65.1464),
    (2007, 2, 65.1833),
    (2007, 3, 65.2145),
    (2007, 4, 65.2494),
    (2007, 5, 65.2921),
    (2007, 6, 65.3279),
    (2007, 7, 65.3413),
    (2007, 8, 65.3452),
    (2007, 9, 65.3496),
    (2007, 10, 65.3711),
    (2007, 11, 65.3972),
    (2007, 12, 65.4296),
    (2008, 1, 65.4573),
    (2008, 2, 65.4868),
    (2008, 3, 65.5152),
    (2008, 4, 65.5450),
    (2008, 5, 65.5781),
    (2008, 6, 65.6127),
    (2008, 7, 65.6288),
    (2008, 8, 65.6370),
    (2008, 9, 65.6493),
    (2008, 10, 65.6760),
    (2008, 11, 65.7097),
    (2008, 12, 65.7461),
    (2009, 1, 65.7768),
    (2009, 2, 65.8025),
    (2009, 3, 65.8237),
    (2009, 4, 65.8595),
    (2009, 5, 65.8973),
    (2009, 6, 65.9323),
    (2009, 7, 65.9509),
    (2009, 8, 65.9534),
    (2009, 9, 65.9628),
    (2009, 10, 65.9839),
    (2009, 11, 66.0147),
    (2009, 12, 66.0420),
    (2010, 1, 66.0699),
    (2010, 2, 66.0961),
    (2010, 3, 66.1310),
    (2010, 4, 66.1683),
    (2010, 5, 66.2072),
    (2010, 6, 66.2356),
    (2010, 7, 66.2409),
    (2010, 8, 66.2335),
    (2010, 9, 66.2349),
    (2010, 10, 66.2441),
    (2010, 11, 66.2751),
    (2010, 12, 66.3054),
    (2011, 1, 66.3246),
    (2011, 2, 66.3406),
    (2011, 3, 66.3624),
    (2011, 4, 66.3957),
    (2011, 5, 66.4289),
    (2011, 6, 66.4619),
    (2011, 7, 66.4749),
    (2011, 8, 66.4751),
    (2011, 9, 66.4829),
    (2011, 10, 66.5056),
    (2011, 11, 66.5383),
    (2011, 12, 66.5706),
    (2012, 1, 66.6030),
    (2012, 2, 66.6340),
    (2012, 3, 66.6569),
    (2012, 4, 66.6925),
    (2012, 5, 66.7289),
    (2012, 6, 66.7579),
    (2012, 7, 66.7708),
    (2012, 8, 66.7740),
    (2012, 9, 66.7846),
    (2012, 10, 66.8103),
    (2012, 11, 66.8400),
    (2012, 12, 66.8779),
    (2013, 1, 66.9069),
    (2013, 2, 66.9443),
    (2013, 3, 66.9763),
    (2013, 4, 67.0258),
    (2013, 5, 67.0716),
    (2013, 6, 67.1100),
    (2013, 7, 67.1266),
    (2013, 8, 67.1331),
    (2013, 9, 67.1458),
    (2013, 10, 67.1718),
    (2013, 11, 67.2091),
    (2013, 12, 67.2460),
    (2014, 1, 67.2810),
    (2014, 2, 67.3136),
    (2014, 3, 67.3457),
    (2014, 4, 67.3890)]

end Verif.Spec
