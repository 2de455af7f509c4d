import Verif.Model.Numeric

/-!
# Model of pysolar/radiation.py
-/

open Verif

namespace Pysolar.Radiation

open Pysolar.Numeric

/-- radiation.py:23-31 `get_air_mass_ratio`. -/
def get_air_mass_ratio (B : Backend) (altitude_deg : B.α) : Py B.α :=
  match (do B.div 1 (← B.sin (B.radians altitude_deg)) : Py B.α) with
  | .error .zeroDivision => .ok B.inf
  | result => result

/-- radiation.py:33-36 `get_apparent_extraterrestrial_flux`. -/
def get_apparent_extraterrestrial_flux (B : Backend) (day : B.α) : Py B.α := do
  return 1160 + (75 * (← B.sin ((2 * B.pi) /. 365 * (day - 275))))

/-- radiation.py:38-41 `get_optical_depth`. -/
def get_optical_depth (B : Backend) (day : B.α) : Py B.α := do
  return 0.174 + (0.035 * (← B.sin ((2 * B.pi) /. 365 * (day - 100))))

/-- radiation.py:43-51 `get_radiation_direct`. -/
def get_radiation_direct (B : Backend) (w : When B) (altitude_deg : B.α) : Py B.α := do
  let is_daytime := B.lt 0 altitude_deg
  let day ← tm_yday B w
  let flux ← get_apparent_extraterrestrial_flux B day
  let optical_depth ← get_optical_depth B day
  let air_mass_ratio ← get_air_mass_ratio B altitude_deg
  return flux * (← B.exp (-1 * optical_depth * air_mass_ratio)) * B.ofC is_daytime

end Pysolar.Radiation
