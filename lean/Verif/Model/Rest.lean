import Verif.Model.Constants

/-!
# Model of pysolar/rest.py
-/

open Verif

namespace Pysolar.Rest

open Pysolar.Constants

/-- rest.py:26-29 `albedo`. -/
def albedo : List (String × ℚ) := [("high-frequency", 0.92), ("low-frequency", 0.84)]
/-- rest.py:30 `standard_pressure_millibars`. -/
def standard_pressure_millibars : ℚ := standard_pressure / 100
/-- rest.py:31 `un`. -/
def un : ℚ := 0.0003
/-- rest.py:33-34 `E0n`. -/
def E0n : List (String × ℚ) := [("high-frequency", 635.4), ("low-frequency", 709.7)]

/-- rest.py:37-39 `get_aerosol_forward_scatterance_factor`. -/
def get_aerosol_forward_scatterance_factor (B : Backend) (altitude_deg : B.α) : Py B.α := do
  let Z := 90 - altitude_deg
  return 1 - (← B.rpow B.e (-0.6931 - 1.8326 * (← B.cos (B.radians Z))))

/-- rest.py:42-44 `get_aerosol_optical_depth`. -/
def get_aerosol_optical_depth (B : Backend)
    (turbidity_beta effective_wavelength turbidity_alpha : B.α) : Py B.α := do
  return turbidity_beta * (← B.rpow effective_wavelength (-turbidity_alpha))

/-- rest.py:46-63 `get_aerosol_scattering_correction_factor`. -/
def get_aerosol_scattering_correction_factor (B : Backend) (band : String) (ma tau_a : B.α) :
    Py B.α := do
  if band = "high-frequency" then
    let g0 ← B.div (3.715 + 0.368 * ma + 0.036294 * ma ^ 2) (1 + 0.0009391 * ma ^ 2)
    let g1 ← B.div (-0.164 - 0.72567 * ma + 0.20701 * ma ^ 2) (1 + 0.001901 * ma ^ 2)
    let g2 ← B.div (-0.052288 + 0.31902 * ma + 0.17871 * ma ^ 2) (1 + 0.0069592 * ma ^ 2)
    B.div (g0 + g1 * tau_a) (1 + g2 * tau_a)
  else
    let h0 ← B.div (3.4352 + 0.65267 * ma + 0.00034328 * ma ^ 2)
      (1 + 0.034388 * (← B.rpow ma 1.5))
    let h1 ← B.div (1.231 - 1.63853 * ma + 0.20667 * ma ^ 2) (1 + 0.1451 * (← B.rpow ma 1.5))
    let h2 ← B.div (0.8889 - 0.55063 * ma + 0.50152 * ma ^ 2) (1 + 0.14865 * (← B.rpow ma 1.5))
    B.div (h0 + h1 * tau_a) (1 + h2 * tau_a)

/-- rest.py:66-68 `get_aerosol_transmittance`. -/
def get_aerosol_transmittance (B : Backend) (_band : String) (ma tau_a : B.α) : Py B.α :=
  B.exp (-ma * tau_a)

/-- rest.py:71-73 `get_aerosol_scattering_transmittance`. -/
def get_aerosol_scattering_transmittance (B : Backend) (band : String) (ma tau_a : B.α) :
    Py B.α := do
  B.exp (-ma * B.lit (← pyLookup albedo band) * tau_a)

/-- rest.py:177-181 `get_gas_transmittance`. -/
def get_gas_transmittance (B : Backend) (band : String) (mRprime : B.α) : Py B.α :=
  if band = "high-frequency" then
    B.div (1 + 0.95885 * mRprime + 0.012871 * mRprime ^ 2)
      (1 + 0.96321 * mRprime + 0.015455 * mRprime ^ 2)
  else
    B.div (1 + 0.27284 * mRprime - 0.00063699 * mRprime ^ 2) (1 + 0.30306 * mRprime)

/-- rest.py:195-198 `get_ground_albedo`. -/
def get_ground_albedo (B : Backend) (_band : String) : B.α := 0.150

/-- Python's `min(x, y)`: `y` if `y < x`, else `x`. -/
def pyMin (B : Backend) (x y : B.α) : Py B.α := do
  if ← B.truth (B.lt y x) then return y else return x

/-- rest.py:201-210 `get_nitrogen_transmittance` (the argument `nitrogen_atm_cm` is unused; the module
constant `un` is used instead). -/
def get_nitrogen_transmittance (B : Backend) (band : String) (mw _nitrogen_atm_cm : B.α) :
    Py B.α := do
  if band = "high-frequency" then
    let un : B.α := B.lit un
    let g1 ← B.div (0.17499 + 41.654 * un - 2146.4 * un ^ 2) (1 + 22295.0 * un ^ 2)
    let g2 ← B.div (un * (-1.2134 + 59.324 * un)) (1 + 8847.8 * un ^ 2)
    let g3 ← B.div (0.17499 + 61.658 * un + 9196.4 * un ^ 2) (1 + 74109.0 * un ^ 2)
    pyMin B 1 (← B.div (1 + g1 * mw + g2 * mw ^ 2) (1 + g3 * mw))
  else
    return 1.0

/-- rest.py:214-217 `get_optical_mass_rayleigh`. -/
def get_optical_mass_rayleigh (B : Backend) (altitude_deg pressure_millibars : B.α) : Py B.α := do
  let Z := 90 - altitude_deg
  let Z_rad := B.radians Z
  B.div (pressure_millibars /. standard_pressure_millibars)
    (← B.div ((← B.cos Z_rad) + 0.48353 * (← B.rpow Z_rad 0.095846))
      (← B.rpow (96.741 - Z_rad) 1.754))

/-- rest.py:220-223 `get_optical_mass_ozone`. -/
def get_optical_mass_ozone (B : Backend) (altitude_deg : B.α) : Py B.α := do
  let Z := 90 - altitude_deg
  let Z_rad := B.radians Z
  B.div 1 (← B.div ((← B.cos Z_rad) + 1.0651 * (← B.rpow Z_rad 0.6379))
    (← B.rpow (101.8 - Z_rad) 2.2694))

/-- rest.py:226-229 `get_optical_mass_water`. -/
def get_optical_mass_water (B : Backend) (altitude_deg : B.α) : Py B.α := do
  let Z := 90 - altitude_deg
  let Z_rad := B.radians Z
  B.div 1 (← B.div ((← B.cos Z_rad) + 0.10648 * (← B.rpow Z_rad 0.11423))
    (← B.rpow (93.781 - Z_rad) 1.9203))

/-- rest.py:232-235 `get_optical_mass_aerosol`. -/
def get_optical_mass_aerosol (B : Backend) (altitude_deg : B.α) : Py B.α := do
  let Z := 90 - altitude_deg
  let Z_rad := B.radians Z
  B.div 1 (← B.div ((← B.cos Z_rad) + 0.16851 * (← B.rpow Z_rad 0.18198))
    (← B.rpow (95.318 - Z_rad) 1.9542))

/-- rest.py:238-246 `get_ozone_transmittance`. -/
def get_ozone_transmittance (B : Backend) (band : String) (mo uo : B.α) : Py B.α := do
  if band = "high-frequency" then
    let f1 ← B.div (uo * (10.979 - 8.5421 * uo)) (1 + 2.0115 * uo + 40.189 * uo ^ 2)
    let f2 ← B.div (uo * (-0.027589 - 0.005138 * uo)) (1 - 2.4857 * uo + 13.942 * uo ^ 2)
    let f3 ← B.div (uo * (10.995 - 5.5001 * uo)) (1 + 1.6784 * uo + 42.406 * uo ^ 2)
    B.div (1 + f1 * mo + f2 * mo ^ 2) (1 + f3 * mo)
  else
    return 1.0

/-- rest.py:249-254 `get_rayleigh_extinction_forward_scattering_fraction`. -/
def get_rayleigh_extinction_forward_scattering_fraction (B : Backend) (band : String) (mR : B.α) :
    B.α :=
  if band = "high-frequency" then
    0.5 * (0.89013 - 0.049558 * mR + 0.000045721 * mR ^ 2)
  else 0.5

/-- rest.py:257-261 `get_rayleigh_transmittance`. -/
def get_rayleigh_transmittance (B : Backend) (band : String) (mRprime : B.α) : Py B.α :=
  if band = "high-frequency" then
    B.div (1 + 1.8169 * mRprime + 0.033454 * mRprime ^ 2)
      (1 + 2.063 * mRprime + 0.31978 * mRprime ^ 2)
  else
    B.div (1 - 0.010394 * mRprime) (1 - 0.00011042 * mRprime ^ 2)

/-- rest.py:264-277 `get_sky_albedo`. -/
def get_sky_albedo (B : Backend) (band : String) (turbidity_alpha turbidity_beta : B.α) :
    Py B.α := do
  if band = "high-frequency" then
    let a1 := turbidity_alpha
    let b1 := turbidity_beta
    B.div (0.13363 + 0.00077358 * a1 + (← B.div (b1 * (0.37567 + 0.22946 * a1)) (1 - 0.10832 * a1)))
      (1 + (← B.div (b1 * (0.84057 + 0.68683 * a1)) (1 - 0.08158 * a1)))
  else
    let a2 := turbidity_alpha
    let b2 := turbidity_beta
    B.div (0.010191 + 0.00085547 * a2 + (← B.div (b2 * (0.14618 + 0.062758 * a2)) (1 - 0.19402 * a2)))
      (1 + (← B.div (b2 * (0.58101 + 0.17426 * a2)) (1 - 0.17586 * a2)))

/-- rest.py:289-303 `get_water_vapor_transmittance_coefficients`: the list without its unused NaN
entry at index 0 (so Python's `h[1]` is index 0 here). -/
def get_water_vapor_transmittance_coefficients (B : Backend) (band : String) (w : B.α) :
    Py (List B.α) := do
  if band = "high-frequency" then
    let h1 ← B.div (w * (0.065445 + 0.00029901 * w)) (1 + 1.2728 * w)
    let h2 ← B.div (w * (0.065687 + 0.0013218 * w)) (1 + 1.2008 * w)
    return [h1, h2]
  else
    let c1 ← B.div (w * (19.566 - 1.6506 * w + 1.0672 * w ^ 2)) (1 + 5.4248 * w + 1.6005 * w ^ 2)
    let c2 ← B.div (w * (0.50158 - 0.14732 * w + 0.047584 * w ^ 2))
      (1 + 1.1811 * w + 1.0699 * w ^ 2)
    let c3 ← B.div (w * (21.286 - 0.39232 * w + 1.2692 * w ^ 2)) (1 + 4.8318 * w + 1.412 * w ^ 2)
    let c4 ← B.div (w * (0.70992 - 0.23155 * w + 0.096514 * w ^ 2))
      (1 + 0.44907 * w + 0.75425 * w ^ 2)
    return [c1, c2, c3, c4]

/-- rest.py:280-286 `get_water_vapor_transmittance`. -/
def get_water_vapor_transmittance (B : Backend) (band : String) (mw w : B.α) : Py B.α := do
  if band = "high-frequency" then
    let h ← get_water_vapor_transmittance_coefficients B band w
    let h1 ← pyIndex h 0
    let h2 ← pyIndex h 1
    B.div (1 + h1 * mw) (1 + h2 * mw)
  else
    let c ← get_water_vapor_transmittance_coefficients B band w
    let c1 ← pyIndex c 0
    let c2 ← pyIndex c 1
    let c3 ← pyIndex c 2
    let c4 ← pyIndex c 3
    B.div (1 + c1 * mw + c2 * mw ^ 2) (1 + c3 * mw + c4 * mw ^ 2)

/-- rest.py:78-82 `get_backscattered_diffuse_irradiance_by_band`. -/
def get_backscattered_diffuse_irradiance_by_band (B : Backend) (band : String) (Ebi Edpi : B.α)
    (turbidity_alpha : B.α := 1.3) (turbidity_beta : B.α := 0.6) : Py B.α := do
  let rhos ← get_sky_albedo B band turbidity_alpha turbidity_beta
  let rhog := get_ground_albedo B band
  B.div (rhog * rhos * (Ebi + Edpi)) (1 - rhog * rhos)

/-- rest.py:75-76 `get_backscattered_diffuse_broadband_irradiance`: refers to the global name
`get_backscattered_diffuse_broadband_irradiance_by_band`, which no module defines: `NameError`. -/
def get_backscattered_diffuse_broadband_irradiance (B : Backend) (_band : String)
    (_turbidity_alpha : B.α := 1.3) (_turbidity_beta : B.α := 0.6) : Py B.α :=
  .error .nameError

/-- The names that rest.py reads and nothing in the package binds: the attribute `log` of `numeric` (rest.py:158; unbound
in every history of `use_numpy`/`use_math`, see C62), and the module globals `altitude_deg` (rest.py:100) and `air_mass`
(rest.py:187). The default `{}` is the package as shipped; an importing program may bind them, for instance by
`pysolar.numeric.log = math.log`. -/
structure Globals (B : Backend) where
  log : Option (B.α → Py B.α) := none
  altitude_deg : Option B.α := none
  air_mass : Option B.α := none

/-- rest.py:159-174: the rest of `get_effective_aerosol_wavelength` once `ua` is computed. -/
def effectiveWavelengthOf (B : Backend) (band : String) (turbidity_alpha ua : B.α) : Py B.α := do
  if band = "high-frequency" then
    let a1 := turbidity_alpha
    let d0 := 0.57664 - 0.024743 * a1
    let d1 ← B.div (0.093942 - 0.2269 * a1 + 0.12848 * a1 ^ 2) (1 + 0.6418 * a1)
    let d2 ← B.div (-0.093819 + 0.36668 * a1 - 0.12775 * a1 ^ 2) (1 - 0.11651 * a1)
    let d3 ← B.div (a1 * (0.15232 - 0.087214 * a1 + 0.012664 * a1 ^ 2))
      (1 - 0.90454 * a1 + 0.26167 * a1 ^ 2)
    B.div (d0 + d1 * ua + d2 * ua ^ 2) (1 + d3 * ua ^ 2)
  else
    let a2 := turbidity_alpha
    let e0 ← B.div (1.183 - 0.022989 * a2 + 0.020829 * a2 ^ 2) (1 + 0.11133 * a2)
    let e1 ← B.div (-0.50003 - 0.18329 * a2 + 0.23835 * a2 ^ 2) (1 + 1.6756 * a2)
    let e2 ← B.div (-0.50001 + 1.1414 * a2 + 0.0083589 * a2 ^ 2) (1 + 11.168 * a2)
    let e3 ← B.div (-0.70003 - 0.73587 * a2 + 0.51509 * a2 ^ 2) (1 + 4.7665 * a2)
    B.div (e0 + e1 * ua + e2 * ua ^ 2) (1 + e3 * ua)

/-- rest.py:156-174 `get_effective_aerosol_wavelength`. The attribute lookup `math.log` precedes
everything else and raises `AttributeError` unless the program has bound it. -/
def get_effective_aerosol_wavelength (B : Backend) (band : String)
    (ma turbidity_alpha turbidity_beta : B.α) (g : Globals B := {}) : Py B.α :=
  match g.log with
  | none => .error .attributeError
  | some log => do
    let ua ← log (1 + ma * turbidity_beta)
    effectiveWavelengthOf B band turbidity_alpha ua

/-- rest.py:134-153 `get_direct_normal_irradiance_by_band`. -/
def get_direct_normal_irradiance_by_band (B : Backend) (band : String) (altitude_deg : B.α)
    (pressure_millibars : B.α := B.lit standard_pressure_millibars) (ozone_atm_cm : B.α := 0.35)
    (nitrogen_atm_cm : B.α := 0.0002) (precipitable_water_cm : B.α := 5.0)
    (turbidity_alpha : B.α := 1.3) (turbidity_beta : B.α := 0.6)
    (g : Globals B := {}) : Py B.α := do
  let ma ← get_optical_mass_aerosol B altitude_deg
  let mo ← get_optical_mass_ozone B altitude_deg
  let mR ← get_optical_mass_rayleigh B altitude_deg pressure_millibars
  let mRprime := mR * pressure_millibars /. standard_pressure_millibars
  let mw ← get_optical_mass_water B altitude_deg
  let effective_wavelength ← get_effective_aerosol_wavelength B band ma turbidity_alpha turbidity_beta g
  let tau_a ← get_aerosol_optical_depth B turbidity_beta effective_wavelength turbidity_alpha
  let TR ← get_rayleigh_transmittance B band mRprime
  let Tg ← get_gas_transmittance B band mRprime
  let To ← get_ozone_transmittance B band mo ozone_atm_cm
  let Tn ← get_nitrogen_transmittance B band mw nitrogen_atm_cm
  let Tw ← get_water_vapor_transmittance B band mw precipitable_water_cm
  let Ta ← get_aerosol_transmittance B band ma tau_a
  return B.lit (← pyLookup E0n band) * TR * Tg * To * Tn * Tw * Ta

/-- rest.py:126-131 `get_broadband_direct_normal_irradiance`. -/
def get_broadband_direct_normal_irradiance (B : Backend) (altitude_deg : B.α)
    (pressure_millibars : B.α := B.lit standard_pressure_millibars) (ozone_atm_cm : B.α := 0.35)
    (nitrogen_atm_cm : B.α := 0.0002) (precipitable_water_cm : B.α := 5.0)
    (turbidity_alpha : B.α := 1.3) (turbidity_beta : B.α := 0.6)
    (g : Globals B := {}) : Py B.α := do
  let high ← get_direct_normal_irradiance_by_band B "high-frequency" altitude_deg pressure_millibars
    ozone_atm_cm nitrogen_atm_cm precipitable_water_cm turbidity_alpha turbidity_beta g
  let low ← get_direct_normal_irradiance_by_band B "low-frequency" altitude_deg pressure_millibars
    ozone_atm_cm nitrogen_atm_cm precipitable_water_cm turbidity_alpha turbidity_beta g
  return high + low

/-- rest.py:85-88 `get_beam_broadband_irradiance`. -/
def get_beam_broadband_irradiance (B : Backend) (altitude_deg : B.α)
    (pressure_millibars : B.α := B.lit standard_pressure_millibars) (ozone_atm_cm : B.α := 0.35)
    (nitrogen_atm_cm : B.α := 0.0002) (precipitable_water_cm : B.α := 5.0)
    (turbidity_alpha : B.α := 1.3) (turbidity_beta : B.α := 0.6)
    (g : Globals B := {}) : Py B.α := do
  let Z := 90 - altitude_deg
  let Ebn ← get_broadband_direct_normal_irradiance B altitude_deg pressure_millibars ozone_atm_cm
    nitrogen_atm_cm precipitable_water_cm turbidity_alpha turbidity_beta g
  return Ebn * (← B.cos (B.radians Z))

/-- rest.py:90-93 `get_beam_irradiance_by_band`. -/
def get_beam_irradiance_by_band (B : Backend) (band : String) (altitude_deg : B.α)
    (pressure_millibars : B.α := B.lit standard_pressure_millibars) (ozone_atm_cm : B.α := 0.35)
    (nitrogen_atm_cm : B.α := 0.0002) (precipitable_water_cm : B.α := 5.0)
    (turbidity_alpha : B.α := 1.3) (turbidity_beta : B.α := 0.6)
    (g : Globals B := {}) : Py B.α := do
  let Z := 90 - altitude_deg
  let Ebni ← get_direct_normal_irradiance_by_band B band altitude_deg pressure_millibars ozone_atm_cm
    nitrogen_atm_cm precipitable_water_cm turbidity_alpha turbidity_beta g
  return Ebni * (← B.cos (B.radians Z))

/-- rest.py:99-123 `get_diffuse_irradiance_by_band`: its first statement (line 100) reads the undefined name
`altitude_deg`. If a program binds it, the second (line 101) calls `get_effective_aerosol_wavelength` with two arguments
instead of four: `TypeError`. Nothing after that runs. -/
def get_diffuse_irradiance_by_band (B : Backend) (_band : String) (_air_mass : B.α := 1.66)
    (_turbidity_alpha : B.α := 1.3) (_turbidity_beta : B.α := 0.6) (g : Globals B := {}) : Py B.α :=
  match g.altitude_deg with
  | none => .error .nameError
  | some _ => .error .typeError

/-- rest.py:95-96 `get_diffuse_broadband_irradiance`. -/
def get_diffuse_broadband_irradiance (B : Backend) (air_mass : B.α := 1.66)
    (turbidity_alpha : B.α := 1.3) (turbidity_beta : B.α := 0.6) (g : Globals B := {}) : Py B.α := do
  return (← get_diffuse_irradiance_by_band B "high-frequency" air_mass turbidity_alpha turbidity_beta g)
    + (← get_diffuse_irradiance_by_band B "low-frequency" air_mass turbidity_alpha turbidity_beta g)

/-- rest.py:183-193 `get_global_broadband_irradiance`; line 187 reads the undefined name `air_mass`. -/
def get_global_broadband_irradiance (B : Backend) (altitude_deg : B.α)
    (pressure_millibars : B.α := B.lit standard_pressure_millibars) (ozone_atm_cm : B.α := 0.35)
    (nitrogen_atm_cm : B.α := 0.0002) (precipitable_water_cm : B.α := 5.0)
    (turbidity_alpha : B.α := 1.3) (turbidity_beta : B.α := 0.6) (g : Globals B := {}) : Py B.α := do
  let Eb_high ← get_beam_irradiance_by_band B "high-frequency" altitude_deg pressure_millibars
    ozone_atm_cm nitrogen_atm_cm precipitable_water_cm turbidity_alpha turbidity_beta g
  let Eb_low ← get_beam_irradiance_by_band B "low-frequency" altitude_deg pressure_millibars
    ozone_atm_cm nitrogen_atm_cm precipitable_water_cm turbidity_alpha turbidity_beta g
  match g.air_mass with
  | none => .error .nameError
  | some air_mass => do
    let Edp_high ← get_diffuse_irradiance_by_band B "high-frequency" air_mass turbidity_alpha turbidity_beta g
    let Edp_low ← get_diffuse_irradiance_by_band B "low-frequency" air_mass turbidity_alpha turbidity_beta g
    let Edd_high ← get_backscattered_diffuse_irradiance_by_band B "high-frequency" Eb_high Edp_high
      turbidity_alpha turbidity_beta
    let Edd_low ← get_backscattered_diffuse_irradiance_by_band B "low-frequency" Eb_low Edp_low
      turbidity_alpha turbidity_beta
    return Eb_high + Eb_low + Edp_high + Edp_low + Edd_high + Edd_low

end Pysolar.Rest
