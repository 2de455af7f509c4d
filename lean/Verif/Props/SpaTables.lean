import Verif.Props.Accuracy

/-!
# C114: the sun's place is the published Solar Position Algorithm

Tables and formulas of NREL/TP-560-34302, section 3.1 to 3.10, exact arithmetic. `UtcFields d c`: the aware datetime `d`
has the UTC fields `c`, of years 1 to 9999.
-/

namespace Verif.Props

open Verif.Spec Pysolar Pysolar.Solar Pysolar.Solartime Real

variable {tp : ℝ}

noncomputable section

/-- Sections 3.2, 3.3: heliocentric longitude, latitude (degrees) and radius vector at the millennium `t`. -/
def spaL (t : ℝ) : ℝ := mod360 (deg (vsop t Spa.longitude / 10 ^ 8))
def spaB (t : ℝ) : ℝ := deg (vsop t Spa.latitude / 10 ^ 8)
def spaR (t : ℝ) : ℝ := vsop t Spa.radius / 10 ^ 8
/-- Sections 3.4, 3.5: nutation and true obliquity at the century `T`, degrees. -/
def spaPsi (T : ℝ) : ℝ := nutationLongitude T Spa.nutation Spa.multiples
def spaEps (T : ℝ) : ℝ := meanObliquity (T / 100) / 3600 + nutationObliquity T Spa.nutation Spa.multiples
/-- Sections 3.6, 3.7: apparent longitude. -/
def spaLambda (T : ℝ) : ℝ := mod360 (spaL (T / 10) + 180) + spaPsi T + -20.4898 / (3600 * spaR (T / 10))

end

/-- C114: the five tables of `constants.py` are the published ones. -/
theorem C114_tables :
    Constants.heliocentric_longitude_coeffs = Spa.longitude ∧ Constants.heliocentric_latitude_coeffs = Spa.latitude ∧
    Constants.sun_earth_distance_coeffs = Spa.radius ∧ Constants.nutation_coefficients = Spa.nutation ∧
    Constants.aberration_sin_terms = Spa.multiples :=
  ⟨longitude_table, latitude_table, radius_table, nutation_table, multiples_table⟩

theorem spaL_eq (t : ℝ) : helioLon t = spaL t := by
  unfold helioLon spaL; rw [longitude_table]; norm_num
theorem spaB_eq (t : ℝ) : helioLat t = spaB t := by
  unfold helioLat spaB; rw [latitude_table]; norm_num
theorem spaR_eq (t : ℝ) : sunDist t = spaR t := by
  unfold sunDist spaR; rw [radius_table]; norm_num
theorem spaPsi_eq (T : ℝ) : nutPsi T = spaPsi T := by
  unfold nutPsi spaPsi; rw [nutation_table, multiples_table]
theorem spaEps_eq (c : Civil) : oblOf c = spaEps (jceOf c) := by
  unfold oblOf spaEps nutEps jmeOf meanObliquity meanObl; rw [nutation_table, multiples_table]; ring
theorem spaLambda_eq (c : Civil) : lamOf c = spaLambda (jceOf c) := by
  unfold lamOf spaLambda; rw [spaL_eq, spaR_eq, spaPsi_eq, jmeOf]

/-- C114: heliocentric longitude, latitude and radius vector, for every millennium `t`. -/
theorem C114_heliocentric (tp t : ℝ) :
    get_heliocentric_longitude (mathB tp) (num t) = .ok (num (spaL t)) ∧
    get_heliocentric_latitude (mathB tp) (num t) = .ok (num (spaB t)) ∧
    get_sun_earth_distance (mathB tp) (num t) = .ok (num (spaR t)) ∧
    get_geocentric_longitude (mathB tp) (num t) = .ok (num (mod360 (spaL t + 180))) ∧
    get_geocentric_latitude (mathB tp) (num t) = .ok (num (-spaB t)) := by
  rw [← spaL_eq, ← spaB_eq, ← spaR_eq]
  exact ⟨hlon_eval t, hlat_eval t, dist_eval t, glon_eval t, glat_eval t⟩

/-- C114: nutation and true obliquity, for every century `T`. -/
theorem C114_obliquity (tp T : ℝ) :
    ∃ n, get_nutation (mathB tp) (num T) = .ok n ∧ n.longitude = num (spaPsi T) ∧
      get_true_ecliptic_obliquity (mathB tp) (num (T / 10)) n = num (spaEps T) := by
  refine ⟨_, nutation_eval T, ?_, ?_⟩
  · rw [← spaPsi_eq]; rfl
  · rw [teo_eval]
    congr 1
    unfold spaEps meanObliquity meanObl; rw [nutation_table, multiples_table]; ring

/-- C114: from a datetime to right ascension and declination, the functions called as `get_topocentric_position` does.
The right ascension is in [0, 360), the declination in [-90, 90], and together they are the direction with ecliptic
longitude `spaLambda`, latitude `-spaB` in the equatorial frame. -/
theorem C114_place (tp : ℝ) (d : DateTime) (c : Civil) (h : UtcFields d c) :
    ∃ T t R n ab lam eps beta, TimeArgs tp d T t ∧ t = T / 10 ∧
      get_sun_earth_distance (mathB tp) (num t) = .ok (num R) ∧ R = spaR t ∧
      get_aberration_correction (mathB tp) (num R) = .ok ab ∧
      get_nutation (mathB tp) (num T) = .ok n ∧
      get_true_ecliptic_obliquity (mathB tp) (num t) n = num eps ∧ eps = spaEps T ∧
      (∃ g, get_geocentric_longitude (mathB tp) (num t) = .ok g ∧
        get_apparent_sun_longitude (mathB tp) g n ab = num lam) ∧ lam = spaLambda T ∧
      get_geocentric_latitude (mathB tp) (num t) = .ok (num beta) ∧ beta = -spaB t ∧
      ∃ ra dec, get_geocentric_sun_right_ascension (mathB tp) (num lam) (num eps) (num beta) = .ok (num ra) ∧
        get_geocentric_sun_declination (mathB tp) (num lam) (num eps) (num beta) = .ok (num dec) ∧
        0 ≤ ra ∧ ra < 360 ∧ -90 ≤ dec ∧ dec ≤ 90 ∧ sph ra dec = rotX eps (sph lam beta) := by
  have hR := sunDist_ne h.1
  refine ⟨jceOf c, jmeOf c, sunDist (jmeOf c), _, _, lamOf c, oblOf c, betaOf c, timeArgs_eq h, rfl, dist_eval _,
    spaR_eq _, aberr_eval hR, nutation_eval _, teo_eval _ _ _, spaEps_eq c, ⟨_, glon_eval _, asl_eval _ _ _ _⟩,
    spaLambda_eq c, glat_eval _, ?_, raOf tp c, decOf c, gsra_eval _ _ _, gsd_eval _ _ _, ?_, ?_, ?_, ?_,
    equatorial_eq tp h.1⟩
  · unfold betaOf; rw [spaB_eq]
  · exact mod360_nonneg _
  · exact mod360_lt _
  · unfold decOf deg
    rw [le_div_iff₀ pi_pos]
    have := neg_pi_div_two_le_arcsin (rotX (oblOf c) (sph (lamOf c) (betaOf c))).z
    linarith
  · unfold decOf deg
    rw [div_le_iff₀ pi_pos]
    have := arcsin_le_pi_div_two (rotX (oblOf c) (sph (lamOf c) (betaOf c))).z
    linarith

/-- The hypotheses hold of a datetime; and the first rows of the tables, to read the specification: at J2000 the sum L0
of the longitude starts with 1.75347046 and 0.03341656 cos 4.6692568. -/
example : UtcFields sampleDT sampleUTC := sample_utc
example : Spa.longitude.map List.length = [64, 34, 20, 7, 3, 1] ∧ Spa.latitude.map List.length = [5, 2] ∧
    Spa.radius.map List.length = [40, 10, 6, 2, 1] := by decide
example : spaR 0 = rowSum 0 Spa.R0 / 10 ^ 8 := by simp [spaR, vsop, Spa.radius]

end Verif.Props
