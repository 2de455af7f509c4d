import Verif.Proofs.Series
import Verif.Props.Time

/-!
# The whole position pipeline over the exact `math` backend
-/

namespace Verif

open Verif.Spec Pysolar Pysolar.Solar Pysolar.Constants Pysolar.Solartime Real

variable {tp : ℝ}

/-! ## Range of the time arguments -/

theorem ord_bounds {c : YMD} (h : c.Valid) (h1 : 1 ≤ c.year) (h2 : c.year ≤ 9999) :
    1 ≤ ymd2ord c.year c.month c.day ∧ ymd2ord c.year c.month c.day ≤ 3652059 := by
  have hy := yday_bounds h
  rw [ymd2ord_eq]
  have m1 := daysBeforeYear_mono h1
  have e1 : daysBeforeYear 1 = 0 := by decide
  have e2 : daysBeforeYear 10000 = 3652059 := by decide
  have m2 := daysBeforeYear_mono (show c.year + 1 ≤ 10000 by omega)
  have s := daysBeforeYear_succ c.year
  constructor <;> omega

theorem micros_bounds {c : Civil} (h : c.Valid) :
    86400000000 ≤ c.micros ∧ c.micros < 3652060 * 86400000000 := by
  obtain ⟨h1, h2, hv⟩ := h
  have ho := ord_bounds hv.1 h1 h2
  obtain ⟨-, a1, a2, a3, a4, a5, a6, a7, a8⟩ := hv
  unfold Civil.micros
  simp only at ho
  constructor <;> omega

/-- Julian ephemeris day of a UTC time. -/
noncomputable def jdeOf (c : Civil) : ℝ :=
  (((c.micros - epochMicros : ℤ) : ℝ) / 1000000 + taiMinusUtc c.year c.month + 32.184)
    / 86400 + 719163 + (1721425 - 0.5)

/-- Julian solar day of a UTC time. -/
noncomputable def jdOf (c : Civil) : ℝ :=
  (((c.micros - epochMicros : ℤ) : ℝ) / 1000000 + taiMinusUtc c.year c.month + 32.184
    - (dtVal c.year c.month : ℝ)) / 86400 + 719163 + (1721425 - 0.5)

/-- Julian ephemeris century and millennium of a UTC time. -/
noncomputable def jceOf (c : Civil) : ℝ := (jdeOf c - 2451545) / 36525
noncomputable def jmeOf (c : Civil) : ℝ := jceOf c / 10

theorem jceOf_bounds {c : Civil} (h : c.Valid) : -20 ≤ jceOf c ∧ jceOf c ≤ 80 := by
  have hm := micros_bounds h
  have hl := taiMinusUtc_bounds c.year c.month
  have h1 : (86400000000 : ℝ) ≤ c.micros := by exact_mod_cast hm.1
  have h2 : (c.micros : ℝ) < 3652060 * 86400000000 := by exact_mod_cast hm.2
  have h3 : (10 : ℝ) ≤ taiMinusUtc c.year c.month := by exact_mod_cast hl.1
  have h4 : (taiMinusUtc c.year c.month : ℝ) ≤ 37 := by exact_mod_cast hl.2
  unfold jceOf jdeOf epochMicros usPerDay
  push_cast
  constructor
  · rw [le_div_iff₀ (by norm_num)]
    norm_num
    linarith
  · rw [div_le_iff₀ (by norm_num)]
    norm_num
    linarith

theorem jmeOf_bounds {c : Civil} (h : c.Valid) : -2 ≤ jmeOf c ∧ jmeOf c ≤ 8 := by
  have := jceOf_bounds h
  unfold jmeOf
  constructor <;> linarith

theorem abs_jceOf {c : Civil} (h : c.Valid) : |jceOf c| ≤ 80 := by
  have := jceOf_bounds h
  rw [abs_le]
  constructor <;> linarith

theorem abs_jmeOf {c : Civil} (h : c.Valid) : |jmeOf c| ≤ 8 := by
  have := jmeOf_bounds h
  rw [abs_le]
  constructor <;> linarith

theorem jce_eval (x : ℝ) : get_julian_ephemeris_century (mathB tp) (num x) = num ((x - 2451545) / 36525) := by
  simp [get_julian_ephemeris_century]
  norm_num

theorem jme_eval (x : ℝ) : get_julian_ephemeris_millennium (mathB tp) (num x) = num (x / 10) := by
  simp [get_julian_ephemeris_millennium]
  norm_num

/-! ## The sun's geocentric coordinates as functions of time -/

noncomputable section

/-- Heliocentric latitude, longitude and distance of the earth. -/
def helioLat (t : ℝ) : ℝ := deg (vsop t heliocentric_latitude_coeffs / 100000000)
def helioLon (t : ℝ) : ℝ := mod360 (deg (vsop t heliocentric_longitude_coeffs / 100000000))
def sunDist (t : ℝ) : ℝ := vsop t sun_earth_distance_coeffs / 100000000
def nutPsi (T : ℝ) : ℝ := nutationLongitude T nutation_coefficients aberration_sin_terms
def nutEps (T : ℝ) : ℝ := nutationObliquity T nutation_coefficients aberration_sin_terms
/-- True obliquity, apparent longitude, right ascension and declination at a UTC time. -/
def oblOf (c : Civil) : ℝ := meanObl (jmeOf c / 10) / 3600 + nutEps (jceOf c)
def lamOf (c : Civil) : ℝ :=
  mod360 (helioLon (jmeOf c) + 180) + nutPsi (jceOf c) + -20.4898 / (3600 * sunDist (jmeOf c))
def betaOf (c : Civil) : ℝ := -helioLat (jmeOf c)
def raOf (tp : ℝ) (c : Civil) : ℝ :=
  mod360 (deg (Complex.arg ⟨cos (rad (lamOf c)),
    sin (rad (lamOf c)) * cos (rad (oblOf c)) - tanP tp (rad (betaOf c)) * sin (rad (oblOf c))⟩))
def decOf (c : Civil) : ℝ := deg (arcsin (rotX (oblOf c) (sph (lamOf c) (betaOf c))).z)
/-- Apparent sidereal time, local hour angle, parallax. -/
def astOf (c : Civil) : ℝ :=
  mod360 (280.46061837 + 360.98564736629 * (jdOf c - 2451545)
    + 0.000387933 * ((jdOf c - 2451545) / 36525) * ((jdOf c - 2451545) / 36525)
      * (1 - (jdOf c - 2451545) / 36525 / 38710000)) + nutPsi (jceOf c) * cos (oblOf c)
def lhaOf (tp lon : ℝ) (c : Civil) : ℝ := mod360 (astOf c + lon - raOf tp c)
def parOf (c : Civil) : ℝ := 8.794 / (3600 / sunDist (jmeOf c))
def rhoOf (tp lat elev : ℝ) : ℝ :=
  cos (arctan (0.99664719 * tanP tp (rad lat))) + elev * cos (rad lat) / 6378140
def zetaOf (tp lat elev : ℝ) : ℝ :=
  0.99664719 * sin (arctan (0.99664719 * tanP tp (rad lat))) + elev * sin (rad lat) / 6378140
/-- Parallax in right ascension; topocentric hour angle and declination. -/
def psraOf (tp lat lon elev : ℝ) (c : Civil) : ℝ :=
  deg (Complex.arg ⟨cos (rad (decOf c)) - rhoOf tp lat elev * sin (rad (parOf c)) * cos (rad (lhaOf tp lon c)),
    -(rhoOf tp lat elev * sin (rad (parOf c)) * sin (rad (lhaOf tp lon c)))⟩)
def topoH (tp lat lon elev : ℝ) (c : Civil) : ℝ := lhaOf tp lon c - psraOf tp lat lon elev c
def topoDec (tp lat lon elev : ℝ) (c : Civil) : ℝ :=
  deg (Complex.arg ⟨cos (rad (decOf c)) - zetaOf tp lat elev * sin (rad (parOf c)) * cos (rad (lhaOf tp lon c)),
    (sin (rad (decOf c)) - zetaOf tp lat elev * sin (rad (parOf c)))
      * cos (rad (psraOf tp lat lon elev c))⟩)
/-- Elevation angle (without refraction) and azimuth. -/
def teaOf (tp lat lon elev : ℝ) (c : Civil) : ℝ :=
  deg (arcsin (sunENU lat (topoH tp lat lon elev c) (topoDec tp lat lon elev c)).z)
def aziOf (tp lat lon elev : ℝ) (c : Civil) : ℝ :=
  mod360 (180 + deg (Complex.arg
    ⟨cos (rad (topoH tp lat lon elev c)) * sin (rad lat)
      - tanP tp (rad (topoDec tp lat lon elev c)) * cos (rad lat), sin (rad (topoH tp lat lon elev c))⟩))

end

theorem hlat_eval (t : ℝ) : get_heliocentric_latitude (mathB tp) (num t) = .ok (num (helioLat t)) := by
  have h : ((1e8 : ℚ) : ℝ) = 100000000 := by norm_num
  simp only [get_heliocentric_latitude, coeff_eval, ok_bind, m_divq, m_degrees, pure_eq_ok, h, helioLat]

theorem hlon_eval (t : ℝ) : get_heliocentric_longitude (mathB tp) (num t) = .ok (num (helioLon t)) := by
  have h : ((1e8 : ℚ) : ℝ) = 100000000 := by norm_num
  simp only [get_heliocentric_longitude, coeff_eval, ok_bind, m_divq, m_degrees, m_mod360, pure_eq_ok, h,
    helioLon]

theorem glat_eval (t : ℝ) : get_geocentric_latitude (mathB tp) (num t) = .ok (num (-helioLat t)) := by
  simp [get_geocentric_latitude, hlat_eval]

theorem glon_eval (t : ℝ) :
    get_geocentric_longitude (mathB tp) (num t) = .ok (num (mod360 (helioLon t + 180))) := by
  simp [get_geocentric_longitude, hlon_eval]

theorem dist_eval (t : ℝ) : get_sun_earth_distance (mathB tp) (num t) = .ok (num (sunDist t)) := by
  have h : ((1e8 : ℚ) : ℝ) = 100000000 := by norm_num
  simp only [get_sun_earth_distance, coeff_eval, ok_bind, m_divq, pure_eq_ok, h, sunDist]

theorem sunDist_bounds {t : ℝ} (h : |t| ≤ 8) : 0.97 ≤ sunDist t ∧ sunDist t ≤ 1.03 := by
  have := abs_le.mp (abs_dist_le h)
  unfold sunDist
  constructor
  · rw [le_div_iff₀ (by norm_num)]; norm_num; linarith
  · rw [div_le_iff₀ (by norm_num)]; norm_num; linarith

theorem sunDist_ne {c : Civil} (h : c.Valid) : sunDist (jmeOf c) ≠ 0 := by
  have := (sunDist_bounds (abs_jmeOf h)).1
  have : 0 < sunDist (jmeOf c) := by linarith
  exact this.ne'

theorem topo_eval {d : DateTime} {c : Civil} (h : UtcFields d c) (lat lon elev : ℝ) :
    get_topocentric_position (mathB tp) (num lat) (num lon) (.dt d) (num elev)
      = .ok (num (topoDec tp lat lon elev c), num (topoH tp lat lon elev c)) := by
  have hR := sunDist_ne h.1
  have e1 := Props.jd_eq (tp := tp) h
  have e2 := Props.jde_eq (tp := tp) h
  rw [← jdOf] at e1
  rw [← jdeOf] at e2
  unfold get_topocentric_position
  rw [guard_denotes h.2]
  simp -implicitDefEqProofs only [ok_bind, prd_eval, pad_eval, e1, e2, jce_eval, jme_eval]
  rw [← jceOf, ← jmeOf]
  simp -implicitDefEqProofs only [ok_bind, glat_eval, glon_eval, dist_eval, aberr_eval hR, ehp_eval hR, nutation_eval, ast_eval,
    teo_eval, asl_eval, gsra_eval, gsd_eval, lha_eval, psra_eval, tlha_eval, tsd_eval, pure_eq_ok,
    topoDec, topoH, psraOf, lhaOf, parOf, astOf, raOf, decOf, lamOf, betaOf, oblOf, rhoOf, zetaOf, nutPsi, nutEps]

theorem azimuth_eval {d : DateTime} {c : Civil} (h : UtcFields d c) (lat lon elev : ℝ) :
    get_azimuth (mathB tp) (num lat) (num lon) (.dt d) (num elev) = .ok (num (aziOf tp lat lon elev c)) := by
  unfold get_azimuth
  rw [guard_denotes h.2, topo_eval h]
  simp -implicitDefEqProofs only [ok_bind, taa_eval]
  rfl

theorem altitude_eval {d : DateTime} {c : Civil} (h : UtcFields d c) (lat lon elev : ℝ)
    (T P : (mathB tp).α) :
    get_altitude (mathB tp) (num lat) (num lon) (.dt d) (num elev) T P = do
      let r ← get_refraction_correction (mathB tp) P T (num (teaOf tp lat lon elev c))
      return num (teaOf tp lat lon elev c) + r := by
  unfold get_altitude
  rw [guard_denotes h.2, topo_eval h]
  simp -implicitDefEqProofs only [ok_bind, tea_eval]
  rfl

theorem position_eval {d : DateTime} {c : Civil} (h : UtcFields d c) (lat lon elev : ℝ)
    (T P : (mathB tp).α) :
    get_position (mathB tp) (num lat) (num lon) (.dt d) (num elev) T P = do
      let r ← get_refraction_correction (mathB tp) P T (num (teaOf tp lat lon elev c))
      return (num (aziOf tp lat lon elev c), num (teaOf tp lat lon elev c) + r) := by
  unfold get_position
  rw [guard_denotes h.2, topo_eval h]
  simp -implicitDefEqProofs only [ok_bind, tea_eval, taa_eval]
  rfl

end Verif
