import Verif.Model.Constants

/-!
# Model of pysolar/elevation.py (`elevation_test`: ElevationTest.lean)
-/

open Verif

namespace Pysolar.Elevation

open Pysolar.Constants

/-- elevation.py:30-54 `get_pressure_with_elevation`: the result, and whether the warning of lines
46-51 was issued. -/
def get_pressure_with_elevation_warn (B : Backend) (h : B.α)
    (Ps : B.α := B.lit standard_pressure) (Ts : B.α := B.lit standard_temperature)
    (Tl : B.α := B.lit earth_temperature_lapse_rate) (Hb : B.α := 0.0)
    (R : B.α := B.lit air_gas_constant) (g : B.α := B.lit earth_gravity)
    (M : B.α := B.lit earth_atmosphere_molar_mass) : Py (B.α × Bool) := do
  let warned ← B.truth (B.lt 11000.0 h)
  let ratio ← B.div Ts (Ts + Tl * (h - Hb))
  let expo ← B.div (g * M) (R * Tl)
  return (Ps * (← B.rpow ratio expo), warned)

/-- elevation.py:30-54 `get_pressure_with_elevation`. -/
def get_pressure_with_elevation (B : Backend) (h : B.α)
    (Ps : B.α := B.lit standard_pressure) (Ts : B.α := B.lit standard_temperature)
    (Tl : B.α := B.lit earth_temperature_lapse_rate) (Hb : B.α := 0.0)
    (R : B.α := B.lit air_gas_constant) (g : B.α := B.lit earth_gravity)
    (M : B.α := B.lit earth_atmosphere_molar_mass) : Py B.α := do
  let r ← get_pressure_with_elevation_warn B h Ps Ts Tl Hb R g M
  return r.1

/-- elevation.py:56-66 `get_temperature_with_elevation`. -/
def get_temperature_with_elevation (B : Backend) (h : B.α)
    (Ts : B.α := B.lit standard_temperature) (Tl : B.α := B.lit earth_temperature_lapse_rate) : B.α :=
  Ts + h * Tl

end Pysolar.Elevation
