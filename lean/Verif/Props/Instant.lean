import Verif.Proofs.Time
import Verif.Model.Radiation

/-!
# C04: results depend only on the instant.  C16: get_position is the pair of azimuth and altitude.

Both hold for every backend: nothing is assumed about the arithmetic, which may be floating point.
-/

namespace Verif.Props

open Pysolar Pysolar.Numeric Pysolar.TzCheck Pysolar.Solartime Pysolar.Solar Verif.Spec

/-- What the functions look at in `when`. -/
structure SameView (B : Backend) (w w' : When B) : Prop where
  guard : TzCheck.guard w = TzCheck.guard w'
  tuple : utctimetuple w = utctimetuple w'
  stamp : timestamp w = timestamp w'
  yday : tm_yday B w = tm_yday B w'
  hour : tm_hour B w = tm_hour B w'
  min : tm_min B w = tm_min B w'

theorem sameView_of_denotes (B : Backend) {d d' : DateTime} {t : ℤ} (h : Denotes d t)
    (h' : Denotes d' t) : SameView B (.dt d) (.dt d') := by
  have hu : d.utctimetuple = d'.utctimetuple := by
    unfold DateTime.utctimetuple
    rw [utcMicros_of_denotes h, utcMicros_of_denotes h']
  refine ⟨by rw [guard_denotes h, guard_denotes h'], hu, ?_, ?_, ?_, ?_⟩
  · rw [timestamp_dt, timestamp_dt, timestamp_of_denotes h, timestamp_of_denotes h']
  · simp only [tm_yday, tm_yday_numpy, tm_yday_math, utctimetuple_dt, hu, utcMicros_of_denotes h,
      utcMicros_of_denotes h']
  · simp only [tm_hour, tm_hour_numpy, tm_hour_math, utctimetuple_dt, hu, utcMicros_of_denotes h,
      utcMicros_of_denotes h']
  · simp only [tm_min, tm_min_numpy, tm_min_math, utctimetuple_dt, hu, utcMicros_of_denotes h,
      utcMicros_of_denotes h']

section

variable {B : Backend} {w w' : When B} (s : SameView B w w')
include s

theorem leap_same : get_leap_seconds_warn w = get_leap_seconds_warn w' := by
  simp only [get_leap_seconds_warn, s.guard, s.tuple]
theorem leap_same' : get_leap_seconds w = get_leap_seconds w' := by
  simp only [get_leap_seconds, leap_same s]
theorem delta_same : get_delta_t w = get_delta_t w' := by
  simp only [get_delta_t, s.guard, s.tuple]
theorem jd_same : get_julian_solar_day B w = get_julian_solar_day B w' := by
  simp only [get_julian_solar_day, s.guard, s.stamp, leap_same' s, delta_same s]
theorem jde_same : get_julian_ephemeris_day B w = get_julian_ephemeris_day B w' := by
  simp only [get_julian_ephemeris_day, s.guard, s.stamp, leap_same' s]
theorem solar_time_same (lon : B.α) : get_solar_time B lon w = get_solar_time B lon w' := by
  simp only [get_solar_time, s.guard, s.hour, s.min, s.yday]
theorem hour_angle_same (lon : B.α) : get_hour_angle B w lon = get_hour_angle B w' lon := by
  simp only [get_hour_angle, s.guard, solar_time_same s]
theorem altitude_fast_same (lat lon : B.α) :
    get_altitude_fast B lat lon w = get_altitude_fast B lat lon w' := by
  simp only [get_altitude_fast, s.guard, s.yday, hour_angle_same s]
theorem azimuth_fast_same (lat lon : B.α) :
    get_azimuth_fast B lat lon w = get_azimuth_fast B lat lon w' := by
  simp only [get_azimuth_fast, s.yday, hour_angle_same s, altitude_fast_same s]
theorem topocentric_same (lat lon elev : B.α) :
    get_topocentric_position B lat lon w elev = get_topocentric_position B lat lon w' elev := by
  simp only [get_topocentric_position, s.guard, jd_same s, jde_same s]
theorem position_same (lat lon elev temp press : B.α) :
    get_position B lat lon w elev temp press = get_position B lat lon w' elev temp press := by
  simp only [get_position, s.guard, topocentric_same s]
theorem altitude_same (lat lon elev temp press : B.α) :
    get_altitude B lat lon w elev temp press = get_altitude B lat lon w' elev temp press := by
  simp only [get_altitude, s.guard, topocentric_same s]
theorem azimuth_same (lat lon elev : B.α) :
    get_azimuth B lat lon w elev = get_azimuth B lat lon w' elev := by
  simp only [get_azimuth, s.guard, topocentric_same s]
theorem radiation_same (alt : B.α) :
    Radiation.get_radiation_direct B w alt = Radiation.get_radiation_direct B w' alt := by
  simp only [Radiation.get_radiation_direct, s.yday]
theorem distance_same : Util.mean_earth_sun_distance B w = Util.mean_earth_sun_distance B w' := by
  simp only [Util.mean_earth_sun_distance, Util.utcYday, s.guard, s.tuple]
theorem extraterrestrial_same (lat lon SC : B.α) :
    Util.extraterrestrial_irrad B lat lon w SC = Util.extraterrestrial_irrad B lat lon w' SC := by
  simp only [Util.extraterrestrial_irrad, Util.utcYday, s.guard, s.tuple, hour_angle_same s]
theorem declination_same (TY : B.α) :
    Util.declination_degree B w TY = Util.declination_degree B w' TY := by
  simp only [Util.declination_degree, Util.utcYday, s.guard, s.tuple]

end

/-- C04: time scales. -/
theorem C04_time_scales (B : Backend) (d d' : DateTime) (t : ℤ) (h : Denotes d t) (h' : Denotes d' t) :
    get_leap_seconds_warn (B := B) (.dt d) = get_leap_seconds_warn (B := B) (.dt d') ∧
    get_leap_seconds (B := B) (.dt d) = get_leap_seconds (B := B) (.dt d') ∧
    get_delta_t (B := B) (.dt d) = get_delta_t (B := B) (.dt d') ∧
    get_julian_solar_day B (.dt d) = get_julian_solar_day B (.dt d') ∧
    get_julian_ephemeris_day B (.dt d) = get_julian_ephemeris_day B (.dt d') := by
  have s := sameView_of_denotes B h h'
  exact ⟨leap_same s, leap_same' s, delta_same s, jd_same s, jde_same s⟩

/-- C04: solar positions, precise and fast. -/
theorem C04_positions (B : Backend) (d d' : DateTime) (t : ℤ) (h : Denotes d t) (h' : Denotes d' t)
    (lat lon elev temp press : B.α) :
    get_solar_time B lon (.dt d) = get_solar_time B lon (.dt d') ∧
    get_hour_angle B (.dt d) lon = get_hour_angle B (.dt d') lon ∧
    get_altitude_fast B lat lon (.dt d) = get_altitude_fast B lat lon (.dt d') ∧
    get_azimuth_fast B lat lon (.dt d) = get_azimuth_fast B lat lon (.dt d') ∧
    get_topocentric_position B lat lon (.dt d) elev = get_topocentric_position B lat lon (.dt d') elev ∧
    get_altitude B lat lon (.dt d) elev temp press = get_altitude B lat lon (.dt d') elev temp press ∧
    get_azimuth B lat lon (.dt d) elev = get_azimuth B lat lon (.dt d') elev ∧
    get_position B lat lon (.dt d) elev temp press = get_position B lat lon (.dt d') elev temp press := by
  have s := sameView_of_denotes B h h'
  exact ⟨solar_time_same s lon, hour_angle_same s lon, altitude_fast_same s lat lon,
    azimuth_fast_same s lat lon, topocentric_same s lat lon elev, altitude_same s lat lon elev temp press,
    azimuth_same s lat lon elev, position_same s lat lon elev temp press⟩

/-- C04: radiation and UTC-based irradiance results. -/
theorem C04_irradiance (B : Backend) (d d' : DateTime) (t : ℤ) (h : Denotes d t) (h' : Denotes d' t)
    (lat lon elev temp press SC TY AM TL ghi alt : B.α) :
    Radiation.get_radiation_direct B (.dt d) alt = Radiation.get_radiation_direct B (.dt d') alt ∧
    Util.mean_earth_sun_distance B (.dt d) = Util.mean_earth_sun_distance B (.dt d') ∧
    Util.extraterrestrial_irrad B lat lon (.dt d) SC = Util.extraterrestrial_irrad B lat lon (.dt d') SC ∧
    Util.declination_degree B (.dt d) TY = Util.declination_degree B (.dt d') TY ∧
    Util.solarelevation_function_clear B lat lon (.dt d) temp press elev =
      Util.solarelevation_function_clear B lat lon (.dt d') temp press elev ∧
    Util.solarelevation_function_overcast B lat lon (.dt d) elev temp press =
      Util.solarelevation_function_overcast B lat lon (.dt d') elev temp press ∧
    Util.diffuse_underclear B lat lon (.dt d) elev temp press TL =
      Util.diffuse_underclear B lat lon (.dt d') elev temp press TL ∧
    Util.diffuse_underovercast B lat lon (.dt d) elev temp press TL =
      Util.diffuse_underovercast B lat lon (.dt d') elev temp press TL ∧
    Util.direct_underclear B lat lon (.dt d) TY AM TL elev temp press =
      Util.direct_underclear B lat lon (.dt d') TY AM TL elev temp press ∧
    Util.global_irradiance_clear B lat lon (.dt d) TY AM TL elev temp press =
      Util.global_irradiance_clear B lat lon (.dt d') TY AM TL elev temp press ∧
    Util.global_irradiance_overcast B lat lon (.dt d) elev temp press =
      Util.global_irradiance_overcast B lat lon (.dt d') elev temp press ∧
    Util.clear_index B ghi lat lon (.dt d) = Util.clear_index B ghi lat lon (.dt d') := by
  have s := sameView_of_denotes B h h'
  refine ⟨radiation_same s alt, distance_same s, extraterrestrial_same s lat lon SC,
    declination_same s TY, ?_, ?_, ?_, ?_, ?_, ?_, ?_, ?_⟩
  · simp only [Util.solarelevation_function_clear, s.guard, altitude_same s]
  · simp only [Util.solarelevation_function_overcast, s.guard, altitude_same s]
  · simp only [Util.diffuse_underclear, s.guard, altitude_same s, distance_same s]
  · simp only [Util.diffuse_underovercast, s.guard, altitude_same s, distance_same s]
  · simp only [Util.direct_underclear, s.guard, altitude_same s, distance_same s, declination_same s]
  · simp only [Util.global_irradiance_clear, Util.direct_underclear, Util.diffuse_underclear, s.guard,
      altitude_same s, distance_same s, declination_same s]
  · simp only [Util.global_irradiance_overcast, s.guard, altitude_same s]
  · simp only [Util.clear_index, s.guard, extraterrestrial_same s]

/-- Non-vacuity of C04: the same instant in two zones. -/
example : ∃ d d' : DateTime, d.civil ≠ d'.civil ∧ ∃ t, Denotes d t ∧ Denotes d' t :=
  ⟨⟨⟨2007, 2, 18, 15, 13, 1, 130320⟩, false, some (fixedTz 1 (-18000000000))⟩,
    ⟨⟨2007, 2, 19, 1, 43, 1, 130320⟩, false, some (fixedTz 2 19800000000)⟩, by decide,
    _, ⟨-18000000000, rfl, rfl, rfl⟩, ⟨19800000000, rfl, rfl, by decide⟩⟩

/-! ## C16 -/

/-- C16: `get_position` is azimuth and altitude computed with the same arguments. Exceptions agree too:
the altitude's exception if it raises one, else the azimuth's. -/
theorem C16_position_is_pair (B : Backend) (lat lon : B.α) (w : When B) (elev temp press : B.α) :
    get_position B lat lon w elev temp press =
      (do
        let alt ← get_altitude B lat lon w elev temp press
        let azi ← get_azimuth B lat lon w elev
        return (azi, alt)) := by
  unfold get_position get_altitude get_azimuth
  cases TzCheck.guard w with
  | error e => rfl
  | ok u =>
    simp only [ok_bind]
    cases get_topocentric_position B lat lon w elev with
    | error e => rfl
    | ok p =>
      obtain ⟨dec, ha⟩ := p
      simp only [ok_bind]
      cases get_topocentric_elevation_angle B lat dec ha with
      | error e => rfl
      | ok tea =>
        simp only [ok_bind]
        cases get_refraction_correction B press temp tea with
        | error e => rfl
        | ok r => simp only [ok_bind, pure_eq_ok]

/-- C16 with the default elevation, temperature and pressure. -/
theorem C16_defaults (B : Backend) (lat lon : B.α) (w : When B) :
    get_position B lat lon w =
      (do
        let alt ← get_altitude B lat lon w
        let azi ← get_azimuth B lat lon w
        return (azi, alt)) := C16_position_is_pair B lat lon w _ _ _

end Verif.Props
