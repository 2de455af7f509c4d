import Verif.Props.Elevation
import Verif.Model.Util
import Verif.Model.Rest
import Verif.Model.Simulate

/-!
# C116: default arguments and physical constants

What a call means when arguments are left out, written with numbers only.
-/

namespace Verif.Props

open Real Pysolar Pysolar.Solar Pysolar.Util Pysolar.Elevation Pysolar.Rest Pysolar.Constants

/-- C116: the position functions, whatever the arithmetic: at sea level, 288.15 K and 101325 Pa. -/
theorem C116_position_defaults (B : Backend) (lat lon elev T : B.α) (w : When B) :
    get_topocentric_position B lat lon w = get_topocentric_position B lat lon w 0 ∧
    get_azimuth B lat lon w = get_azimuth B lat lon w 0 ∧
    get_altitude B lat lon w = get_altitude B lat lon w 0 288.15 101325.00 ∧
    get_altitude B lat lon w elev = get_altitude B lat lon w elev 288.15 101325.00 ∧
    get_altitude B lat lon w elev T = get_altitude B lat lon w elev T 101325.00 ∧
    get_position B lat lon w = get_position B lat lon w 0 288.15 101325.00 ∧
    get_position B lat lon w elev = get_position B lat lon w elev 288.15 101325.00 ∧
    get_position B lat lon w elev T = get_position B lat lon w elev T 101325.00 :=
  ⟨rfl, rfl, rfl, rfl, rfl, rfl, rfl, rfl⟩

/-- C116: the irradiance functions, whatever the arithmetic: solar constant 1367 W/m², 365 days, air mass 2, turbidity 1,
sea level, 288.15 K and 101325 Pa. -/
theorem C116_irradiance_defaults (B : Backend) (lat lon : B.α) (w : When B) :
    extraterrestrial_irrad B lat lon w = extraterrestrial_irrad B lat lon w 1367.0 ∧
    declination_degree B w = declination_degree B w 365 ∧
    solarelevation_function_clear B lat lon w
      = solarelevation_function_clear B lat lon w (temperature := 288.15) (pressure := 101325.00) (elevation := 0.0) ∧
    solarelevation_function_overcast B lat lon w
      = solarelevation_function_overcast B lat lon w (elevation := 0.0) (temperature := 288.15) (pressure := 101325.00) ∧
    diffuse_transmittance B = diffuse_transmittance B 1.0 ∧
    diffuse_underclear B lat lon w
      = diffuse_underclear B lat lon w (elevation := 0.0) (temperature := 288.15) (pressure := 101325.00) (TL := 1.0) ∧
    diffuse_underovercast B lat lon w
      = diffuse_underovercast B lat lon w (elevation := 0.0) (temperature := 288.15) (pressure := 101325.00) (TL := 1.0) ∧
    direct_underclear B lat lon w
      = direct_underclear B lat lon w (TY := 365) (AM := 2.0) (TL := 1.0) (elevation := 0.0) (temperature := 288.15)
          (pressure := 101325.00) ∧
    global_irradiance_clear B lat lon w
      = global_irradiance_clear B lat lon w (TY := 365) (AM := 2.0) (TL := 1.0) (elevation := 0.0) ∧
    global_irradiance_overcast B lat lon w
      = global_irradiance_overcast B lat lon w (elevation := 0.0) (temperature := 288.15) (pressure := 101325.00) :=
  ⟨rfl, rfl, rfl, rfl, rfl, rfl, rfl, rfl, rfl, rfl⟩

/-- C116: the elevation functions, whatever the arithmetic. -/
theorem C116_elevation_defaults (B : Backend) (h : B.α) :
    get_pressure_with_elevation B h
      = get_pressure_with_elevation B h (Ps := 101325.00) (Ts := 288.15) (Tl := B.lit (-0.0065)) (Hb := 0.0) (R := 8.31432)
          (g := 9.80665) (M := 0.0289644) ∧
    get_temperature_with_elevation B h = get_temperature_with_elevation B h (Ts := 288.15) (Tl := B.lit (-0.0065)) :=
  ⟨rfl, rfl⟩

/-- C116: `simulate_span` and the functions of rest.py that have defaults, whatever the arithmetic, and
whatever a program may have bound to the names that rest.py reads but does not define (`g`; as shipped these functions stop
before they use most of their arguments). -/
theorem C116_simulation_and_rest_defaults (B : Backend) (lat lon x y : B.α) (horizon : List B.α) (start stop : DateTime)
    (step : ℤ) (band : String) (g : Globals B) :
    Simulate.simulate_span B lat lon horizon start stop step
      = Simulate.simulate_span B lat lon horizon start stop step 0 288.15 101325.00 ∧
    get_direct_normal_irradiance_by_band B band x (g := g)
      = get_direct_normal_irradiance_by_band B band x (B.lit 1013.25) 0.35 0.0002 5.0 1.3 0.6 g ∧
    get_broadband_direct_normal_irradiance B x (g := g)
      = get_broadband_direct_normal_irradiance B x (B.lit 1013.25) 0.35 0.0002 5.0 1.3 0.6 g ∧
    get_beam_broadband_irradiance B x (g := g)
      = get_beam_broadband_irradiance B x (B.lit 1013.25) 0.35 0.0002 5.0 1.3 0.6 g ∧
    get_beam_irradiance_by_band B band x (g := g)
      = get_beam_irradiance_by_band B band x (B.lit 1013.25) 0.35 0.0002 5.0 1.3 0.6 g ∧
    get_global_broadband_irradiance B x (g := g)
      = get_global_broadband_irradiance B x (B.lit 1013.25) 0.35 0.0002 5.0 1.3 0.6 g ∧
    get_backscattered_diffuse_irradiance_by_band B band x y
      = get_backscattered_diffuse_irradiance_by_band B band x y 1.3 0.6 := by
  have e : standard_pressure_millibars = 1013.25 := by norm_num [standard_pressure_millibars, standard_pressure]
  rw [← e]
  exact ⟨rfl, rfl, rfl, rfl, rfl, rfl, rfl⟩

/-- C116: pressure in Pa and temperature in K by height in m, with numbers only; the pressure is that of the standard
atmosphere, with exponent 5.2559 rounded to four decimals. -/
theorem C116_standard_atmosphere (tp h : ℝ) (h1 : h < 44330) :
    (∃ k : ℝ, get_pressure_with_elevation (mathB tp) (num h) = .ok (num (101325 * ((288.15 - 0.0065 * h) / 288.15) ^ k)) ∧
      k = 9.80665 * 0.0289644 / (8.31432 * 0.0065) ∧ |k - 5.2559| ≤ 0.00005) ∧
    get_temperature_with_elevation (mathB tp) (num h) = num (288.15 - 0.0065 * h) := by
  have hpos : 0 < (standard_temperature : ℝ) + earth_temperature_lapse_rate * (h - 0.0) := by
    norm_num [standard_temperature, earth_temperature_lapse_rate]
    linarith
  have hR : (air_gas_constant : ℝ) * earth_temperature_lapse_rate ≠ 0 := by
    norm_num [air_gas_constant, earth_temperature_lapse_rate]
  have hT : (0 : ℝ) < standard_temperature := by norm_num [standard_temperature]
  refine ⟨⟨_, ?_, rfl, by rw [abs_le]; norm_num⟩, ?_⟩
  · have := pressure_eval (tp := tp) (h := h) (Ps := standard_pressure) (g := earth_gravity)
      (M := earth_atmosphere_molar_mass) hR hT hpos
    have e : ((0.0 : ℝ)) = ((0.0 : ℚ) : ℝ) := by norm_num
    unfold get_pressure_with_elevation
    have e0 : (get_pressure_with_elevation_warn (mathB tp) (num h)) = get_pressure_with_elevation_warn (mathB tp) (num h)
      (num standard_pressure) (num standard_temperature) (num earth_temperature_lapse_rate) (num 0.0) (num air_gas_constant)
      (num earth_gravity) (num earth_atmosphere_molar_mass) := by
      rw [e]; rfl
    have e1 : ((standard_pressure : ℚ) : ℝ) * ((standard_temperature : ℝ) / (standard_temperature
        + earth_temperature_lapse_rate * (h - 0.0))) ^ ((earth_gravity : ℝ) * earth_atmosphere_molar_mass
          / (air_gas_constant * earth_temperature_lapse_rate))
        = 101325 * ((288.15 - 0.0065 * h) / 288.15) ^ ((9.80665 * 0.0289644 / (8.31432 * 0.0065) : ℝ)) := by
      rw [ratio_rpow hT hpos]
      congr 1
      · norm_num [standard_pressure]
      · congr 1
        · norm_num [standard_temperature, earth_temperature_lapse_rate]; ring
        · norm_num [earth_gravity, earth_atmosphere_molar_mass, air_gas_constant, earth_temperature_lapse_rate]
    rw [← e1]
    exact congrArg (fun r : Py _ => r >>= fun r => pure r.1) (e0.trans this)
  · simp only [get_temperature_with_elevation, m_lit, m_mul, m_add]
    congr 1
    norm_num [standard_temperature, earth_temperature_lapse_rate]
    ring

/-- The hypothesis holds on the summit of Everest. -/
example : (8849 : ℝ) < 44330 := by norm_num

end Verif.Props
