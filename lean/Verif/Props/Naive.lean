import Verif.Proofs.Time
import Verif.Model.Simulate

/-!
# C01: naive datetimes are rejected
-/

namespace Verif.Props

open Pysolar Pysolar.Numeric Pysolar.TzCheck

/-- The exception demanded by the documentation, naming the argument. -/
abbrev naiveError : PyErr := .noTimeZoneInfo "when"

theorem guard_naive {B : Backend} {d : DateTime} (h : d.Naive) :
    TzCheck.guard (B := B) (.dt d) = .error naiveError := by
  simp [TzCheck.guard, checkValue, whenView, show d.tz = none from h]

/-- C01, solartime: every backend. -/
theorem C01_solartime (B : Backend) (d : DateTime) (h : d.Naive) :
    Solartime.get_leap_seconds_warn (B := B) (.dt d) = .error naiveError ∧
    Solartime.get_leap_seconds (B := B) (.dt d) = .error naiveError ∧
    Solartime.get_delta_t (B := B) (.dt d) = .error naiveError ∧
    Solartime.get_julian_solar_day B (.dt d) = .error naiveError ∧
    Solartime.get_julian_ephemeris_day B (.dt d) = .error naiveError := by
  refine ⟨?_, ?_, ?_, ?_, ?_⟩ <;>
    simp [Solartime.get_leap_seconds_warn, Solartime.get_leap_seconds, Solartime.get_delta_t,
      Solartime.get_julian_solar_day, Solartime.get_julian_ephemeris_day, guard_naive h]

/-- C01, solar: every backend, every value of the other arguments. -/
theorem C01_solar (B : Backend) (d : DateTime) (h : d.Naive) (lat lon elev temp press : B.α) :
    Solar.get_topocentric_position B lat lon (.dt d) elev = .error naiveError ∧
    Solar.get_position B lat lon (.dt d) elev temp press = .error naiveError ∧
    Solar.get_altitude B lat lon (.dt d) elev temp press = .error naiveError ∧
    Solar.get_azimuth B lat lon (.dt d) elev = .error naiveError ∧
    Solar.get_altitude_fast B lat lon (.dt d) = .error naiveError ∧
    Solar.get_hour_angle B (.dt d) lon = .error naiveError ∧
    Solar.get_solar_time B lon (.dt d) = .error naiveError := by
  refine ⟨?_, ?_, ?_, ?_, ?_, ?_, ?_⟩ <;>
    simp [Solar.get_topocentric_position, Solar.get_position, Solar.get_altitude, Solar.get_azimuth,
      Solar.get_altitude_fast, Solar.get_hour_angle, Solar.get_solar_time, guard_naive h]

/-- C01, util: every backend, every value of the other arguments. -/
theorem C01_util (B : Backend) (d : DateTime) (h : d.Naive)
    (lat lon elev temp press TY AM TL SC ghi : B.α) :
    Util.get_sunrise_sunset_transit B lat lon (.dt d) = .error naiveError ∧
    Util.get_sunrise_sunset B lat lon (.dt d) = .error naiveError ∧
    Util.get_sunrise_time B lat lon (.dt d) = .error naiveError ∧
    Util.get_sunset_time B lat lon (.dt d) = .error naiveError ∧
    Util.get_transit_time B lat lon (.dt d) = .error naiveError ∧
    Util.mean_earth_sun_distance B (.dt d) = .error naiveError ∧
    Util.extraterrestrial_irrad B lat lon (.dt d) SC = .error naiveError ∧
    Util.declination_degree B (.dt d) TY = .error naiveError ∧
    Util.solarelevation_function_clear B lat lon (.dt d) temp press elev = .error naiveError ∧
    Util.solarelevation_function_overcast B lat lon (.dt d) elev temp press = .error naiveError ∧
    Util.diffuse_underclear B lat lon (.dt d) elev temp press TL = .error naiveError ∧
    Util.diffuse_underovercast B lat lon (.dt d) elev temp press TL = .error naiveError ∧
    Util.direct_underclear B lat lon (.dt d) TY AM TL elev temp press = .error naiveError ∧
    Util.global_irradiance_clear B lat lon (.dt d) TY AM TL elev temp press = .error naiveError ∧
    Util.global_irradiance_overcast B lat lon (.dt d) elev temp press = .error naiveError ∧
    Util.clear_index B ghi lat lon (.dt d) = .error naiveError := by
  refine ⟨?_, ?_, ?_, ?_, ?_, ?_, ?_, ?_, ?_, ?_, ?_, ?_, ?_, ?_, ?_, ?_⟩ <;>
    simp [Util.get_sunrise_sunset_transit, Util.get_sunrise_sunset, Util.get_sunrise_time,
      Util.get_sunset_time, Util.get_transit_time, Util.mean_earth_sun_distance,
      Util.extraterrestrial_irrad, Util.declination_degree, Util.solarelevation_function_clear,
      Util.solarelevation_function_overcast, Util.diffuse_underclear, Util.diffuse_underovercast,
      Util.direct_underclear, Util.global_irradiance_clear, Util.global_irradiance_overcast,
      Util.clear_index, guard_naive h]

/-- C01, `get_azimuth_fast` (which has no decorator of its own): never a value, in any arithmetic. -/
theorem C01_azimuth_fast_no_value (B : Backend) (d : DateTime) (h : d.Naive) (lat lon : B.α) :
    ∀ y, Solar.get_azimuth_fast B lat lon (.dt d) ≠ .ok y := by
  intro y
  unfold Solar.get_azimuth_fast
  cases tm_yday B (.dt d) with
  | error e => simp
  | ok day =>
    simp only [ok_bind]
    cases Solar.get_declination B day with
    | error e => simp
    | ok dec => simp [Solar.get_hour_angle, guard_naive h]

/-- C01, `get_azimuth_fast` with the math backend: the documented exception, for any location. -/
theorem C01_azimuth_fast_math (tp : ℝ) (d : DateTime) (h : d.Naive) (hd : d.civil.Valid)
    (lat lon : (mathB tp).α) :
    Solar.get_azimuth_fast (mathB tp) lat lon (.dt d) = .error naiveError := by
  have ht : d.utctimetuple = .ok d.civil := by
    unfold DateTime.utctimetuple civilChecked DateTime.utcMicros DateTime.utcoffset
    simp only [show d.tz = none from h, Option.getD_none, sub_zero]
    rw [civilOfMicros_micros hd.2.2]
    simp [hd.1, hd.2.1]
  simp [Solar.get_azimuth_fast, tm_yday, tm_yday_math, ht, Solar.get_declination, Solar.get_hour_angle,
    guard_naive h]

/-- C01, `get_azimuth_fast` with the numpy backend. -/
theorem C01_azimuth_fast_numpy (tp : ℝ) (d : DateTime) (h : d.Naive) (lat lon : (npB tp).α) :
    Solar.get_azimuth_fast (npB tp) lat lon (.dt d) = .error naiveError := by
  have h1 : tm_yday (npB tp) (.dt d) = .ok ((npB tp).lit (tm_yday_numpy d)) := rfl
  have h2 : ∃ y, Solar.get_declination (npB tp) ((npB tp).lit (tm_yday_numpy d)) = .ok y := ⟨_, rfl⟩
  obtain ⟨y, hy⟩ := h2
  simp [Solar.get_azimuth_fast, h1, hy, Solar.get_hour_angle, guard_naive h]

/-! Non-vacuity: a naive datetime. -/
example : (⟨⟨2007, 2, 18, 15, 13, 1, 130320⟩, false, none⟩ : DateTime).Naive := rfl

end Verif.Props
