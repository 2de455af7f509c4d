import Verif.Proofs.Almanac
import Verif.Props.FastAccuracy
import Verif.Props.Float

/-!
# C108 to C110: the computed position of the sun against the Astronomical Almanac, 1950 to 2050
-/

namespace Verif.Props

open Verif.Spec Pysolar Pysolar.Solar Pysolar.Solartime Pysolar.Constants Real

/-- C108: for every aware datetime whose UTC year lies between 1950 and 2050, the apparent longitude of the sun, the
obliquity and the distance computed from the periodic series are within 0.038 degrees (modulo full turns), 0.004 degrees
and 0.00023 astronomical units of the Almanac's low-precision formulas, and the apparent sidereal time is within 0.0186
degrees of the Almanac's. -/
theorem C108_almanac (tp : ℝ) (d : DateTime) (c : Civil) (h : UtcFields d c) (hy1 : 1950 ≤ c.year)
    (hy2 : c.year ≤ 2050) :
    ∃ jd jde gl ab R lam eps st : ℝ, ∃ nut : Nutation (mathB tp),
      get_julian_solar_day (mathB tp) (.dt d) = .ok (num jd) ∧
      get_julian_ephemeris_day (mathB tp) (.dt d) = .ok (num jde) ∧
      let jce := get_julian_ephemeris_century (mathB tp) (num jde)
      let jme := get_julian_ephemeris_millennium (mathB tp) jce
      get_nutation (mathB tp) jce = .ok nut ∧
      get_geocentric_longitude (mathB tp) jme = .ok (num gl) ∧
      get_sun_earth_distance (mathB tp) jme = .ok (num R) ∧
      get_aberration_correction (mathB tp) (num R) = .ok (num ab) ∧
      get_apparent_sun_longitude (mathB tp) (num gl) nut (num ab) = num lam ∧
      get_true_ecliptic_obliquity (mathB tp) jme nut = num eps ∧
      get_apparent_sidereal_time (mathB tp) (num jd) jme nut = .ok (num st) ∧
      (∃ k : ℤ, |lam - almLongitude (daysJ2000 c) - 360 * k| ≤ 0.038) ∧
      |eps - almObliquity (daysJ2000 c)| ≤ 0.004 ∧
      |R - almDistance (daysJ2000 c)| ≤ 0.00023 ∧
      ∃ k : ℤ, |st - almSidereal c - 360 * k| ≤ 0.0186 := by
  have e1 := jd_eq (tp := tp) h
  have e2 := jde_eq (tp := tp) h
  rw [← jdOf] at e1
  rw [← jdeOf] at e2
  have ec : get_julian_ephemeris_century (mathB tp) (num (jdeOf c)) = num (jceOf c) := jce_eval _
  have em : get_julian_ephemeris_millennium (mathB tp) (num (jceOf c)) = num (jmeOf c) := jme_eval _
  refine ⟨jdOf c, jdeOf c, mod360 (helioLon (jmeOf c) + 180), -20.4898 / (3600 * sunDist (jmeOf c)), sunDist (jmeOf c),
    lamOf c, oblOf c, astOf c, ⟨num (nutPsi (jceOf c)), num (nutEps (jceOf c))⟩, e1, e2, ?_⟩
  dsimp only
  rw [ec, em]
  exact ⟨nutation_eval _, glon_eval _, dist_eval _, aberr_eval (sunDist_ne h.1), asl_eval _ _ _ _, teo_eval _ _ _,
    ast_eval _ _ _ _, alm_lam h.1 hy1 hy2, alm_obl h.1 hy1 hy2, alm_dist h.1 hy1 hy2, alm_sidereal h.1 hy1 hy2⟩

/-- C109: for every aware datetime whose UTC year lies between 1950 and 2050 and every place between the poles, the
direction given by `get_azimuth` and the elevation angle before refraction is within 0.075 degrees of the direction
given by the Almanac's algorithm for the approximate position of the sun. In particular the elevation angle is within
0.075 degrees of the altitude given by that algorithm. -/
theorem C109_almanac_direction (tp : ℝ) (d : DateTime) (c : Civil) (h : UtcFields d c) (hy1 : 1950 ≤ c.year)
    (hy2 : c.year ≤ 2050) (lat lon elev : ℝ) (h1 : -90 < lat) (h2 : lat < 90) (he : |elev| ≤ 50000) :
    ∃ dec H e a, get_topocentric_position (mathB tp) (num lat) (num lon) (.dt d) (num elev)
        = .ok (num dec, num H) ∧
      get_topocentric_elevation_angle (mathB tp) (num lat) (num dec) (num H) = .ok (num e) ∧
      get_azimuth (mathB tp) (num lat) (num lon) (.dt d) (num elev) = .ok (num a) ∧
      angleBetween (horizontal e a) (almanacSun lat lon c) ≤ 0.075 ∧
      |e - deg (arcsin (almanacSun lat lon c).z)| ≤ 0.075 := by
  refine ⟨_, _, _, _, topo_eval h lat lon elev, tea_eval _ _ _, azimuth_eval h lat lon elev, ?_⟩
  obtain ⟨hs1, hs2⟩ := topo_small tp h.1 (lon := lon) h1 h2 he
  have hb := abs_le.mp hs1
  have hb' := abs_le.mp (decOf_bound h.1)
  have hdir : horizontal (deg (arcsin (sunENU lat (topoH tp lat lon elev c) (topoDec tp lat lon elev c)).z))
      (aziOf tp lat lon elev c) = sunENU lat (topoH tp lat lon elev c) (topoDec tp lat lon elev c) := by
    unfold aziOf
    exact azimuth_direction tp lat _ _ (by norm_num at *; linarith) (by norm_num at *; linarith)
  have hang : angleBetween (sunENU lat (topoH tp lat lon elev c) (topoDec tp lat lon elev c)) (almanacSun lat lon c)
      ≤ 0.075 := by
    have hs2' : |topoH tp lat lon elev c - lhaOf tp lon c - 360 * ((0 : ℤ) : ℝ)| ≤ 0.0066 := by
      rw [Int.cast_zero, mul_zero, sub_zero]; exact hs2
    have t1 := angleBetween_pyth lat (x := 0.0129) hs1 hs2' (by norm_num) (by norm_num) (by norm_num)
    have t2 := alm_geo tp h.1 hy1 hy2 lat lon
    have t3 := angleBetween_triangle (sunENU lat (topoH tp lat lon elev c) (topoDec tp lat lon elev c))
      (sunENU lat (lhaOf tp lon c) (decOf c)) (almanacSun lat lon c)
    norm_num at *
    linarith
  refine ⟨by rw [hdir]; exact hang, ?_⟩
  refine (altitude_diff (sunENU_unit _ _ _) ?_).trans hang
  unfold almanacSun
  rw [toHorizon_dot, toMeridian_dot, rotX_dot, sph_unit]

/-- C110: the direction computed in double precision against the Almanac, 1950 to 2050. `get_azimuth` raises no exception,
and unless the elevation angle raises `ValueError`, which it does only with the Almanac's sun within 0.0751 degrees of the
zenith or the nadir, the two angles give a direction within 0.0751 degrees of the Almanac's. -/
theorem C110_double_precision (F : F64) (d : DateTime) (c : Civil) (h : UtcFields d c) (hy1 : 1950 ≤ c.year)
    (hy2 : c.year ≤ 2050) (lat lon elev : ℝ) (hlat : |lat| ≤ 90 - 1 / 10 ^ 9) (hlon : |lon| ≤ 360)
    (helev : |elev| ≤ 50000) :
    ∃ dec' H' a',
      get_topocentric_position (rndB F) (flt F lat) (flt F lon) (.dt d) (flt F elev) = .ok (flt F dec', flt F H') ∧
      get_azimuth (rndB F) (flt F lat) (flt F lon) (.dt d) (flt F elev) = .ok (flt F a') ∧
      ((∃ e', get_topocentric_elevation_angle (rndB F) (flt F lat) (flt F dec') (flt F H') = .ok (flt F e') ∧
          angleBetween (horizontal e' a') (almanacSun lat lon c) ≤ 0.0751 ∧
          |e' - deg (arcsin (almanacSun lat lon c).z)| ≤ 0.0751) ∨
        (get_topocentric_elevation_angle (rndB F) (flt F lat) (flt F dec') (flt F H') = .error .valueError ∧
          90 - 0.0751 ≤ |deg (arcsin (almanacSun lat lon c).z)|)) := by
  have hl := abs_le.1 hlat
  obtain ⟨dec', H', a', jd, jde, dec, H, a, e, f1, f2, -, -, -, -, m1, m2, m3, hor⟩ :=
    C85_direction F 0 d c h lat lon elev (.inl hlat) hlon helev
  obtain ⟨dec2, H2, e2, a2, n1, n2, n3, n4, n5⟩ := C109_almanac_direction 0 d c h hy1 hy2 lat lon elev
    (by norm_num at hl ⊢; linarith) (by norm_num at hl ⊢; linarith) helev
  have hpair := Except.ok.inj (n1.symm.trans m1)
  obtain rfl : dec2 = dec := num_injective (congrArg Prod.fst hpair)
  obtain rfl : H2 = H := num_injective (congrArg Prod.snd hpair)
  obtain rfl : e2 = e := num_injective (Except.ok.inj (n2.symm.trans m3))
  obtain rfl : a2 = a := num_injective (Except.ok.inj (n3.symm.trans m2))
  refine ⟨dec', H', a', f1, f2, ?_⟩
  rcases hor with ⟨e', g1, g2, g3, -⟩ | ⟨g1, g2⟩
  · refine .inl ⟨e', g1, ?_, ?_⟩
    · have := angleBetween_triangle (horizontal e' a') (horizontal e2 a2) (almanacSun lat lon c)
      norm_num at *
      linarith
    · have := abs_le.1 n5
      have := abs_le.1 g2
      rw [abs_le]
      norm_num at *
      constructor <;> linarith
  · refine .inr ⟨g1, ?_⟩
    have := abs_sub_abs_le_abs_sub e2 (deg (arcsin (almanacSun lat lon c).z))
    norm_num at *
    linarith

/-- The sample datetime lies in the years covered. -/
example : UtcFields sampleDT sampleUTC ∧ 1950 ≤ sampleUTC.year ∧ sampleUTC.year ≤ 2050 ∧
    (-90 : ℝ) < 42.2 ∧ (42.2 : ℝ) < 90 ∧ |(62 : ℝ)| ≤ 50000 :=
  ⟨sample_utc, by decide, by decide, by norm_num, by norm_num, by norm_num⟩

end Verif.Props
