import Verif.Proofs.SolarEval
import Verif.Proofs.Time

/-!
# The fast position functions and the radiation functions over the exact `math` backend
-/

namespace Verif

open Verif.Spec Pysolar Pysolar.Solar Pysolar.Numeric Real

variable {tp : ℝ}

theorem yday_eval {d : DateTime} {c : Civil} (h : UtcFields d c) :
    tm_yday (mathB tp) (.dt d) = .ok (num (yday c.date)) := by
  simp [tm_yday, tm_yday_math, utctimetuple_dt, utctimetuple_of_utcFields h]

theorem hour_eval {d : DateTime} {c : Civil} (h : UtcFields d c) :
    tm_hour (mathB tp) (.dt d) = .ok (num c.hour) := by
  simp [tm_hour, tm_hour_math, utctimetuple_dt, utctimetuple_of_utcFields h]

theorem min_eval {d : DateTime} {c : Civil} (h : UtcFields d c) :
    tm_min (mathB tp) (.dt d) = .ok (num c.minute) := by
  simp [tm_min, tm_min_math, utctimetuple_dt, utctimetuple_of_utcFields h]

noncomputable section

/-- Declination of the fast functions on day `n`. -/
def decF (n : ℝ) : ℝ := 23.45 * sin (2 * π / 365 * (n - 81))

/-- Equation of time of the fast functions on day `n`. -/
def eotF (n : ℝ) : ℝ :=
  9.87 * sin (2 * (2 * π / 364 * (n - 81))) - 7.53 * cos (2 * π / 364 * (n - 81))
    - 1.5 * sin (2 * π / 364 * (n - 81))

/-- Solar time in hours. -/
def solF (lon : ℝ) (c : Civil) : ℝ := ((c.hour : ℝ) * 60 + c.minute + 4 * lon + eotF (yday c.date)) / 60

/-- Hour angle in degrees. -/
def haF (lon : ℝ) (c : Civil) : ℝ := 15 * (solF lon c - 12)

/-- Altitude in degrees. -/
def altF (lat lon : ℝ) (c : Civil) : ℝ := deg (arcsin (sunENU lat (haF lon c) (decF (yday c.date))).z)

end

theorem decl_eval (n : ℝ) : get_declination (mathB tp) (num n) = .ok (num (decF n)) := by
  have h1 : ((365.0 : ℚ) : ℝ) = 365 := by norm_num
  have h2 : ((Constants.earth_axis_inclination : ℚ) : ℝ) = 23.45 := by
    norm_num [Constants.earth_axis_inclination]
  simp only [get_declination, m_ofNat, m_pi, m_mul, m_divq, m_sub, m_sin, ok_bind, m_lit, pure_eq_ok, h1, h2]
  congr 2

theorem eot_eval (n : ℝ) : equation_of_time (mathB tp) (num n) = .ok (num (eotF n)) := by
  have h1 : ((364.0 : ℚ) : ℝ) = 364 := by norm_num
  simp only [equation_of_time, m_ofNat, m_sci, m_pi, m_mul, m_divq, m_sub, m_sin, m_cos, ok_bind, pure_eq_ok,
    h1]
  congr 2

theorem soltime_eval {d : DateTime} {c : Civil} (h : UtcFields d c) (lon : ℝ) :
    get_solar_time (mathB tp) (num lon) (.dt d) = .ok (num (solF lon c)) := by
  unfold get_solar_time
  rw [guard_denotes h.2, hour_eval h, min_eval h, yday_eval h]
  simp only [ok_bind, m_ofNat, m_mul, m_add, eot_eval, m_divq, pure_eq_ok]
  congr 2

theorem ha_eval {d : DateTime} {c : Civil} (h : UtcFields d c) (lon : ℝ) :
    get_hour_angle (mathB tp) (.dt d) (num lon) = .ok (num (haF lon c)) := by
  unfold get_hour_angle
  rw [guard_denotes h.2, soltime_eval h]
  simp only [ok_bind, m_sci, m_sub, m_mul, pure_eq_ok]
  congr 2
  unfold haF
  norm_num

theorem altF_eval {d : DateTime} {c : Civil} (h : UtcFields d c) (lat lon : ℝ) :
    get_altitude_fast (mathB tp) (num lat) (num lon) (.dt d) = .ok (num (altF lat lon c)) := by
  have hz := unit_z (sunENU_unit lat (haF lon c) (decF (yday c.date)))
  unfold get_altitude_fast
  rw [guard_denotes h.2, yday_eval h, ha_eval h]
  have e : cos (rad lat) * cos (rad (decF (yday c.date))) * cos (rad (haF lon c))
      + sin (rad lat) * sin (rad (decF (yday c.date))) = (sunENU lat (haF lon c) (decF (yday c.date))).z := by
    rw [← up_eq]; ring
  simp only [ok_bind, decl_eval, m_radians, m_cos, m_sin, m_mul, m_add, e, m_asin hz, m_degrees, pure_eq_ok]
  rfl

open scoped Classical in
/-- `get_azimuth_fast` where it does not divide by zero. -/
theorem aziF_eval {d : DateTime} {c : Civil} (h : UtcFields d c) (lat lon : ℝ)
    (hc : cos (rad (altF lat lon c)) ≠ 0) {s : ℝ}
    (hs : s = -cos (rad (decF (yday c.date))) * sin (rad (haF lon c)) / cos (rad (altF lat lon c)))
    (h1 : -1 ≤ s ∧ s ≤ 1) :
    get_azimuth_fast (mathB tp) (num lat) (num lon) (.dt d)
      = .ok (num (if tanP tp (rad (decF (yday c.date))) ≤ cos (rad (haF lon c)) * tanP tp (rad lat)
          then 180 - deg (arcsin s)
          else deg (arcsin s) + 360 * if arcsin s < 0 then 1 else 0)) := by
  unfold get_azimuth_fast
  rw [yday_eval h, ha_eval h, altF_eval h]
  simp only [ok_bind, decl_eval, m_radians, m_cos, m_sin, m_tan, m_mul, m_neg, m_div _ hc, ← hs, m_asin h1,
    m_le, m_lt, m_ofNat, m_degrees, m_where, m_ofC, pure_eq_ok]
  have e0 : ((OfNat.ofNat 0 : ℕ) : ℝ) = 0 := by norm_num
  rw [e0]
  split_ifs <;> simp

end Verif
