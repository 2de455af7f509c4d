import Verif.Proofs.Default
import Verif.Props.Refraction
import Verif.Props.Radiation

/-!
# C134, C135: Python numbers with the functions of numpy

Where numpy is installed pysolar uses its functions unless `use_math()` is called, and most callers pass Python numbers.
-/

namespace Verif.Props

open Pysolar Pysolar.Numeric Pysolar.Solar Pysolar.Solartime Verif.Spec

/-! ## Kinds of numbers -/

theorem kind_jd {d : DateTime} {c : Civil} (h : UtcFields d c) : get_julian_solar_day kindB (.dt d) = .ok false := by
  simp only [get_julian_solar_day, guard_denotes h.2, timestamp_dt, timestamp_of_denotes h.2, get_leap_seconds_eq h,
    get_delta_t_eq h, ok_bind]
  rfl

theorem kind_jde {d : DateTime} {c : Civil} (h : UtcFields d c) : get_julian_ephemeris_day kindB (.dt d) = .ok false := by
  simp only [get_julian_ephemeris_day, guard_denotes h.2, timestamp_dt, timestamp_of_denotes h.2, get_leap_seconds_eq h,
    ok_bind]
  rfl

set_option maxRecDepth 100000 in
theorem kind_topo {d : DateTime} {c : Civil} (h : UtcFields d c) (lat lon el : kindB.α) :
    get_topocentric_position kindB lat lon (.dt d) el = .ok (true, true) := by
  unfold get_topocentric_position
  rw [guard_denotes h.2, kind_jd h, kind_jde h]
  rfl

theorem kind_altitude {d : DateTime} {c : Civil} (h : UtcFields d c) (lat lon el T P : kindB.α) :
    get_altitude kindB lat lon (.dt d) el T P = .ok true := by
  unfold get_altitude
  rw [guard_denotes h.2, kind_topo h]
  cases T <;> cases P <;> rfl

theorem kind_azimuth {d : DateTime} {c : Civil} (h : UtcFields d c) (lat lon el : kindB.α) :
    get_azimuth kindB lat lon (.dt d) el = .ok true := by
  unfold get_azimuth
  rw [guard_denotes h.2, kind_topo h]
  rfl

theorem kind_position {d : DateTime} {c : Civil} (h : UtcFields d c) (lat lon el T P : kindB.α) :
    get_position kindB lat lon (.dt d) el T P = .ok (true, true) := by
  unfold get_position
  rw [guard_denotes h.2, kind_topo h]
  cases T <;> cases P <;> rfl

/-- The times accepted: aware datetimes, and a `datetime64`. -/
def Timely {B : Backend} (w : When B) : Prop := (∃ d c, UtcFields d c ∧ w = .dt d) ∨ ∃ t, w = .arr t

theorem kind_solar_time {w : When kindB} (hw : Timely w) (lon : kindB.α) : get_solar_time kindB lon w = .ok true := by
  rcases hw with ⟨d, c, h, rfl⟩ | ⟨t, rfl⟩
  · unfold get_solar_time
    rw [guard_denotes h.2]
    cases lon <;> rfl
  · cases lon <;> rfl

theorem kind_hour_angle {w : When kindB} (hw : Timely w) (lon : kindB.α) : get_hour_angle kindB w lon = .ok true := by
  unfold get_hour_angle
  rw [kind_solar_time hw]
  rcases hw with ⟨d, c, h, rfl⟩ | ⟨t, rfl⟩
  · rw [guard_denotes h.2]; rfl
  · rfl

theorem kind_altitude_fast {w : When kindB} (hw : Timely w) (lat lon : kindB.α) :
    get_altitude_fast kindB lat lon w = .ok true := by
  unfold get_altitude_fast
  rw [kind_hour_angle hw]
  rcases hw with ⟨d, c, h, rfl⟩ | ⟨t, rfl⟩
  · rw [guard_denotes h.2]; rfl
  · rfl

theorem kind_azimuth_fast {w : When kindB} (hw : Timely w) (lat lon : kindB.α) :
    get_azimuth_fast kindB lat lon w = .ok true := by
  unfold get_azimuth_fast
  rw [kind_hour_angle hw, kind_altitude_fast hw]
  rcases hw with ⟨d, c, h, rfl⟩ | ⟨t, rfl⟩ <;> rfl

theorem kind_direct {w : When kindB} (hw : Timely w) (alt : kindB.α) :
    Radiation.get_radiation_direct kindB w alt = .ok true := by
  rcases hw with ⟨d, c, h, rfl⟩ | ⟨t, rfl⟩ <;> rfl

theorem kind_yday {d : DateTime} {c : Civil} (h : UtcFields d c) : Util.utcYday (B := kindB) (.dt d) = .ok false := by
  simp only [Util.utcYday, utctimetuple_dt, utctimetuple_of_utcFields h, ok_bind]
  rfl

theorem kind_mean {d : DateTime} {c : Civil} (h : UtcFields d c) : Util.mean_earth_sun_distance kindB (.dt d) = .ok true := by
  unfold Util.mean_earth_sun_distance
  rw [guard_denotes h.2, kind_yday h]
  rfl

theorem kind_clear {d : DateTime} {c : Civil} (h : UtcFields d c) (lat lon T P el : kindB.α) :
    Util.solarelevation_function_clear kindB lat lon (.dt d) T P el = .ok true := by
  unfold Util.solarelevation_function_clear
  rw [guard_denotes h.2, kind_altitude h]
  rfl

theorem kind_overcast {d : DateTime} {c : Civil} (h : UtcFields d c) (lat lon el T P : kindB.α) :
    Util.solarelevation_function_overcast kindB lat lon (.dt d) el T P = .ok true := by
  unfold Util.solarelevation_function_overcast
  rw [guard_denotes h.2, kind_altitude h]
  rfl

theorem kind_diffuse_clear {d : DateTime} {c : Civil} (h : UtcFields d c) (lat lon el T P TL : kindB.α) :
    Util.diffuse_underclear kindB lat lon (.dt d) el T P TL = .ok true := by
  unfold Util.diffuse_underclear
  rw [guard_denotes h.2, kind_altitude h, kind_mean h]
  rfl

theorem kind_diffuse_overcast {d : DateTime} {c : Civil} (h : UtcFields d c) (lat lon el T P TL : kindB.α) :
    Util.diffuse_underovercast kindB lat lon (.dt d) el T P TL = .ok true := by
  unfold Util.diffuse_underovercast
  rw [guard_denotes h.2, kind_altitude h, kind_mean h]
  rfl

theorem kind_global_overcast {d : DateTime} {c : Civil} (h : UtcFields d c) (lat lon el T P : kindB.α) :
    Util.global_irradiance_overcast kindB lat lon (.dt d) el T P = .ok true := by
  unfold Util.global_irradiance_overcast
  rw [guard_denotes h.2, kind_altitude h]
  rfl

/-! ## C134 -/

/-- What is used of numpy's scalars `N` and of Python's operators. -/
structure Config (N : Backend) (pd pp : N.α → N.α → Py N.α) : Prop where
  div : ∀ x y, RelM False Eq (pd x y) (N.div x y)
  pow : ∀ x y, RelM False Eq (pp x y) (N.rpow x y)
  noRaise : NoRaise N
  inf : ∀ x, pd 1 x = .error .zeroDivision → N.div 1 x = .ok N.inf
  npTime : N.npTime = true

theorem config_exact (tp : ℝ) : Config (npB tp) (mathB tp).div (mathB tp).rpow :=
  ⟨mathNp_div tp, mathNp_rpow tp, np_noRaise tp, mathNp_recip tp, rfl⟩

theorem config_double (F : F64) : Config (nprB F) (rndB F).div (rndB F).rpow :=
  ⟨rndNp_div F, rndNp_rpow F, npr_noRaise F, rndNp_recip F, rfl⟩

/-- The call returns a numpy scalar, of the value returned for numpy scalars. -/
def Returns {N : Backend} (m : Py (N.α × Bool)) (m' : Py N.α) : Prop := ∃ v, m = .ok (v, true) ∧ m' = .ok v

/-- The same for pairs. -/
def Returns2 {N : Backend} (m : Py ((N.α × Bool) × (N.α × Bool))) (m' : Py (N.α × N.α)) : Prop :=
  ∃ v u, m = .ok ((v, true), (u, true)) ∧ m' = .ok (v, u)

section

variable {N : Backend} {pd pp : N.α → N.α → Py N.α} (D : Config N pd pp)

/-- Mixed numbers by numpy scalars. -/
abbrev Config.np : ScalarSim (tagB N pd pp) N := tagNp D.div D.pow D.noRaise D.inf D.npTime

/-- Kinds of numbers by mixed numbers. -/
abbrev Config.kind : Sim kindB (tagB N pd pp) := kindTag D.noRaise D.npTime

theorem returns_of {k : Py Bool} {m : Py (N.α × Bool)} {m' : Py N.α} (hk : k = .ok true)
    (h1 : RelM False (fun (x : Bool) (y : N.α × Bool) => x = true → y.2 = true) k m)
    (h2 : RelM False (fun (x : N.α × Bool) y => x.1 = y) m m') : Returns m m' := by
  obtain ⟨⟨v, b⟩, e, hb⟩ := h1.of_ok hk
  obtain ⟨u, e', rfl⟩ := h2.of_ok e
  cases (hb rfl : b = true)
  exact ⟨v, e, e'⟩

theorem returns2_of {k : Py (Bool × Bool)} {m : Py ((N.α × Bool) × (N.α × Bool))} {m' : Py (N.α × N.α)} (hk : k = .ok (true, true))
    (h1 : RelM False (fun (x : Bool × Bool) (y : (N.α × Bool) × (N.α × Bool)) =>
      (x.1 = true → y.1.2 = true) ∧ (x.2 = true → y.2.2 = true)) k m)
    (h2 : RelM False (fun (x : (N.α × Bool) × (N.α × Bool)) y => x.1.1 = y.1 ∧ x.2.1 = y.2) m m') : Returns2 m m' := by
  obtain ⟨⟨⟨v, b⟩, ⟨u, b'⟩⟩, e, hb, hb'⟩ := h1.of_ok hk
  obtain ⟨⟨y, y'⟩, e', hy, hy'⟩ := h2.of_ok e
  cases (hb rfl : b = true)
  cases (hb' rfl : b' = true)
  cases hy
  cases hy'
  exact ⟨v, u, e, e'⟩

/-- Any number is at least of kind Python number. -/
theorem kind_any (x : N.α × Bool) : (false = true → x.2 = true) := fun h => nomatch h

variable {d : DateTime} {c : Civil} (h : UtcFields d c) (lat lon el T P : N.α × Bool)
include D h

/-- C134: `get_altitude` with any mixture of Python numbers and numpy scalars. -/
theorem C134_altitude : Returns (N := N) (get_altitude (tagB N pd pp) lat lon (.dt d) el T P)
    (get_altitude N lat.1 lon.1 (.dt d) el.1 T.1 P.1) :=
  returns_of (kind_altitude h false false false false false)
    (D.kind.get_altitude (kind_any lat) (kind_any lon) (.inl ⟨d, rfl, rfl⟩) (kind_any el) (kind_any T) (kind_any P))
    (D.np.get_altitude rfl rfl rfl rfl rfl rfl)

theorem C134_azimuth : Returns (N := N) (get_azimuth (tagB N pd pp) lat lon (.dt d) el) (get_azimuth N lat.1 lon.1 (.dt d) el.1) :=
  returns_of (kind_azimuth h false false false)
    (D.kind.get_azimuth (kind_any lat) (kind_any lon) (.inl ⟨d, rfl, rfl⟩) (kind_any el))
    (D.np.get_azimuth rfl rfl rfl rfl)

theorem C134_topocentric : Returns2 (N := N) (get_topocentric_position (tagB N pd pp) lat lon (.dt d) el)
    (get_topocentric_position N lat.1 lon.1 (.dt d) el.1) :=
  returns2_of (kind_topo h false false false)
    (D.kind.get_topocentric_position (kind_any lat) (kind_any lon) (.inl ⟨d, rfl, rfl⟩) (kind_any el))
    (D.np.get_topocentric_position rfl rfl rfl rfl)

theorem C134_position : Returns2 (N := N) (get_position (tagB N pd pp) lat lon (.dt d) el T P)
    (get_position N lat.1 lon.1 (.dt d) el.1 T.1 P.1) :=
  returns2_of (kind_position h false false false false false)
    (D.kind.get_position (kind_any lat) (kind_any lon) (.inl ⟨d, rfl, rfl⟩) (kind_any el) (kind_any T) (kind_any P))
    (D.np.get_position rfl rfl rfl rfl rfl rfl)

theorem C134_mean_distance : Returns (N := N) (Util.mean_earth_sun_distance (tagB N pd pp) (.dt d))
    (Util.mean_earth_sun_distance N (.dt d)) :=
  returns_of (kind_mean h) (D.kind.mean_earth_sun_distance (.inl ⟨d, rfl, rfl⟩)) (D.np.mean_earth_sun_distance rfl)

theorem C134_elevation_clear : Returns (N := N) (Util.solarelevation_function_clear (tagB N pd pp) lat lon (.dt d) T P el)
    (Util.solarelevation_function_clear N lat.1 lon.1 (.dt d) T.1 P.1 el.1) :=
  returns_of (kind_clear h false false false false false)
    (D.kind.solarelevation_function_clear (kind_any lat) (kind_any lon) (.inl ⟨d, rfl, rfl⟩) (kind_any T) (kind_any P) (kind_any el))
    (D.np.solarelevation_function_clear rfl rfl rfl rfl rfl rfl)

theorem C134_elevation_overcast : Returns (N := N) (Util.solarelevation_function_overcast (tagB N pd pp) lat lon (.dt d) el T P)
    (Util.solarelevation_function_overcast N lat.1 lon.1 (.dt d) el.1 T.1 P.1) :=
  returns_of (kind_overcast h false false false false false)
    (D.kind.solarelevation_function_overcast (kind_any lat) (kind_any lon) (.inl ⟨d, rfl, rfl⟩) (kind_any el) (kind_any T) (kind_any P))
    (D.np.solarelevation_function_overcast rfl rfl rfl rfl rfl rfl)

theorem C134_diffuse_clear (TL : N.α × Bool) : Returns (N := N) (Util.diffuse_underclear (tagB N pd pp) lat lon (.dt d) el T P TL)
    (Util.diffuse_underclear N lat.1 lon.1 (.dt d) el.1 T.1 P.1 TL.1) :=
  returns_of (kind_diffuse_clear h false false false false false false)
    (D.kind.diffuse_underclear (kind_any lat) (kind_any lon) (.inl ⟨d, rfl, rfl⟩) (kind_any el) (kind_any T) (kind_any P) (kind_any TL))
    (D.np.diffuse_underclear rfl rfl rfl rfl rfl rfl rfl)

theorem C134_diffuse_overcast (TL : N.α × Bool) :
    Returns (N := N) (Util.diffuse_underovercast (tagB N pd pp) lat lon (.dt d) el T P TL)
      (Util.diffuse_underovercast N lat.1 lon.1 (.dt d) el.1 T.1 P.1 TL.1) :=
  returns_of (kind_diffuse_overcast h false false false false false false)
    (D.kind.diffuse_underovercast (kind_any lat) (kind_any lon) (.inl ⟨d, rfl, rfl⟩) (kind_any el) (kind_any T) (kind_any P) (kind_any TL))
    (D.np.diffuse_underovercast rfl rfl rfl rfl rfl rfl rfl)

theorem C134_global_overcast : Returns (N := N) (Util.global_irradiance_overcast (tagB N pd pp) lat lon (.dt d) el T P)
    (Util.global_irradiance_overcast N lat.1 lon.1 (.dt d) el.1 T.1 P.1) :=
  returns_of (kind_global_overcast h false false false false false)
    (D.kind.global_irradiance_overcast (kind_any lat) (kind_any lon) (.inl ⟨d, rfl, rfl⟩) (kind_any el) (kind_any T) (kind_any P))
    (D.np.global_irradiance_overcast rfl rfl rfl rfl rfl rfl)

end

section

variable {N : Backend} {pd pp : N.α → N.α → Py N.α} (D : Config N pd pp) (lat lon : N.α × Bool)

/-- A time of the same kind for the kinds of numbers. -/
theorem timely_kind {w : When (tagB N pd pp)} (hw : Timely w) :
    ∃ k : When kindB, Timely k ∧ ((∃ d, k = .dt d ∧ w = .dt d) ∨ ∃ t t', k = .arr t ∧ w = .arr t') := by
  rcases hw with ⟨d, c, h, rfl⟩ | ⟨t, rfl⟩
  · exact ⟨.dt d, .inl ⟨d, c, h, rfl⟩, .inl ⟨d, rfl, rfl⟩⟩
  · exact ⟨.arr (), .inr ⟨_, rfl⟩, .inr ⟨(), t, rfl, rfl⟩⟩

include D

/-- C134: the functions that take a datetime or a `datetime64`. -/
theorem C134_solar_time {w : When (tagB N pd pp)} (hw : Timely w) :
    Returns (N := N) (get_solar_time (tagB N pd pp) lon w) (get_solar_time N lon.1 (plainW w)) := by
  obtain ⟨k, hk, hkw⟩ := timely_kind hw
  exact returns_of (kind_solar_time hk false) (D.kind.get_solar_time (kind_any lon) hkw) (D.np.get_solar_time rfl rfl)

theorem C134_hour_angle {w : When (tagB N pd pp)} (hw : Timely w) :
    Returns (N := N) (get_hour_angle (tagB N pd pp) w lon) (get_hour_angle N (plainW w) lon.1) := by
  obtain ⟨k, hk, hkw⟩ := timely_kind hw
  exact returns_of (kind_hour_angle hk false) (D.kind.get_hour_angle hkw (kind_any lon)) (D.np.get_hour_angle rfl rfl)

theorem C134_altitude_fast {w : When (tagB N pd pp)} (hw : Timely w) :
    Returns (N := N) (get_altitude_fast (tagB N pd pp) lat lon w) (get_altitude_fast N lat.1 lon.1 (plainW w)) := by
  obtain ⟨k, hk, hkw⟩ := timely_kind hw
  exact returns_of (kind_altitude_fast hk false false) (D.kind.get_altitude_fast (kind_any lat) (kind_any lon) hkw)
    (D.np.get_altitude_fast rfl rfl rfl)

theorem C134_azimuth_fast {w : When (tagB N pd pp)} (hw : Timely w) :
    Returns (N := N) (get_azimuth_fast (tagB N pd pp) lat lon w) (get_azimuth_fast N lat.1 lon.1 (plainW w)) := by
  obtain ⟨k, hk, hkw⟩ := timely_kind hw
  exact returns_of (kind_azimuth_fast hk false false) (D.kind.get_azimuth_fast (kind_any lat) (kind_any lon) hkw)
    (D.np.get_azimuth_fast rfl rfl rfl)

theorem C134_direct_radiation {w : When (tagB N pd pp)} (hw : Timely w) (alt : N.α × Bool) :
    Returns (N := N) (Radiation.get_radiation_direct (tagB N pd pp) w alt)
      (Radiation.get_radiation_direct N (plainW w) alt.1) := by
  obtain ⟨k, hk, hkw⟩ := timely_kind hw
  exact returns_of (kind_direct hk false) (D.kind.get_radiation_direct hkw (kind_any alt)) (D.np.get_radiation_direct rfl rfl)

end

end Verif.Props
