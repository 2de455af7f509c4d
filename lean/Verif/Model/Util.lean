import Verif.Model.Solar

/-!
# Model of pysolar/util.py
-/

open Verif

namespace Pysolar.Util

open Pysolar.TzCheck Pysolar.Numeric Pysolar.Constants

/-- util.py:39. -/
def AM_default : ℚ := 2.0
/-- util.py:40. -/
def TL_default : ℚ := 1.0
/-- util.py:41. -/
def SC_default : ℚ := 1367.0
/-- util.py:42. -/
def TY_default : ℚ := 365
/-- util.py:43. -/
def elevation_default : ℚ := 0.0

/-- The attributes used by util.py:92,98,159 exist on datetimes only. -/
def asDatetime {B : Backend} (w : When B) : Py DateTime :=
  match w with
  | .dt d => .ok d
  | _ => .error .attributeError

/-- util.py:101-116: the solar declination in degrees used for sunrise. -/
def sunriseDecl (B : Backend) (day : B.α) : Py B.α := do
  let TT := 2 * B.pi * day /. 366
  return 0.322003 - 22.971 * (← B.cos TT) - 0.357898 * (← B.cos (2 * TT))
    - 0.14398 * (← B.cos (3 * TT)) + 3.94638 * (← B.sin TT) + 0.019334 * (← B.sin (2 * TT))
    + 0.05928 * (← B.sin (3 * TT))

/-- util.py:117-139: the time adjustment in hours. -/
def timeAdst (B : Backend) (day : B.α) : Py B.α := do
  let TT := B.radians (279.134 + 0.985647 * day)
  return (5.0323 - 100.976 * (← B.sin TT) + 595.275 * (← B.sin (2 * TT))
    + 3.6858 * (← B.sin (3 * TT)) - 12.47 * (← B.sin (4 * TT)) - 430.847 * (← B.cos TT)
    + 12.5024 * (← B.cos (2 * TT)) + 18.25 * (← B.cos (3 * TT))) /. 3600

/-- util.py:141-158: half the day arc in hours. -/
def sunriseHa (B : Backend) (latitude_deg decl : B.α) : Py B.α := do
  return (← B.acos
      ((← B.div (← B.cos (B.radians 90.833))
        ((← B.cos (B.radians latitude_deg)) * (← B.cos (B.radians decl))))
      - (← B.tan (B.radians latitude_deg)) * (← B.tan (B.radians decl))))
    * (← B.div 12 B.pi)

/-- `datetime(year = when.year, month = when.month, day = when.day, tzinfo = when.tzinfo)`
(util.py:159). -/
def sameDay (d : DateTime) : DateTime :=
  ⟨⟨d.civil.year, d.civil.month, d.civil.day, 0, 0, 0, 0⟩, false, d.tz⟩

/-- util.py:92-97: the UTC offset in seconds, 0 if unknown. -/
def utcOffsetSeconds (d : DateTime) : ℚ :=
  match d.utcoffset with
  | some us => (us : ℚ) / 1000000
  | none => 0

/-- util.py:47-163 `get_sunrise_sunset_transit`. -/
def get_sunrise_sunset_transit (B : Backend) (latitude_deg longitude_deg : B.α) (w : When B) :
    Py (DateTime × DateTime × DateTime) := do
  guard w
  let d ← asDatetime w
  let utc_offset := B.lit (utcOffsetSeconds d)
  let day := B.lit (yday d.civil.date)
  let SHA := utc_offset /. 3600 * 15.0 - longitude_deg
  let decl ← sunriseDecl B day
  let time_adst ← timeAdst B day
  let TON := 12 + SHA /. 15.0 - time_adst
  let ha ← sunriseHa B latitude_deg decl
  let same_day := sameDay d
  let sunrise_time ← same_day.add (← B.tdHours (TON - ha))
  let sunset_time ← same_day.add (← B.tdHours (TON + ha))
  let transit_time ← same_day.add (← B.tdHours TON)
  return (sunrise_time, sunset_time, transit_time)

/-- util.py:165-169 `get_sunrise_sunset`. -/
def get_sunrise_sunset (B : Backend) (latitude_deg longitude_deg : B.α) (w : When B) :
    Py (DateTime × DateTime) := do
  guard w
  let r ← get_sunrise_sunset_transit B latitude_deg longitude_deg w
  return (r.1, r.2.1)

/-- util.py:171-175 `get_sunrise_time`. -/
def get_sunrise_time (B : Backend) (latitude_deg longitude_deg : B.α) (w : When B) : Py DateTime := do
  guard w
  let r ← get_sunrise_sunset_transit B latitude_deg longitude_deg w
  return r.1

/-- util.py:177-181 `get_sunset_time`. -/
def get_sunset_time (B : Backend) (latitude_deg longitude_deg : B.α) (w : When B) : Py DateTime := do
  guard w
  let r ← get_sunrise_sunset_transit B latitude_deg longitude_deg w
  return r.2.1

/-- util.py:183-187 `get_transit_time`. -/
def get_transit_time (B : Backend) (latitude_deg longitude_deg : B.α) (w : When B) : Py DateTime := do
  guard w
  let r ← get_sunrise_sunset_transit B latitude_deg longitude_deg w
  return r.2.2

/-- `when.utctimetuple().tm_yday` (util.py:212,248,283). -/
def utcYday {B : Backend} (w : When B) : Py B.α := do
  let t ← utctimetuple w
  return B.lit (yday t.date)

/-- util.py:189-212 `mean_earth_sun_distance`. -/
def mean_earth_sun_distance (B : Backend) (w : When B) : Py B.α := do
  guard w
  return 1 - 0.0335 * (← B.sin (2 * B.pi * ((← utcYday w) - 94))) /. 365

/-- util.py:214-257 `extraterrestrial_irrad`. -/
def extraterrestrial_irrad (B : Backend) (latitude_deg longitude_deg : B.α) (w : When B)
    (SC : B.α := B.lit SC_default) : Py B.α := do
  guard w
  let day ← utcYday w
  let ab ← B.cos (2 * B.pi * (day - 1.0) /. 365.0)
  let bc ← B.sin (2 * B.pi * (day - 1.0) /. 365.0)
  let cd ← B.cos (2 * (2 * B.pi * (day - 1.0) /. 365.0))
  let df ← B.sin (2 * (2 * B.pi * (day - 1.0) /. 365.0))
  let decl := B.radians (← Solar.get_declination B day)
  let ha := B.radians (← Solar.get_hour_angle B w longitude_deg)
  let ZA := (← B.sin (B.radians latitude_deg)) * (← B.sin decl)
    + (← B.cos (B.radians latitude_deg)) * (← B.cos decl) * (← B.cos ha)
  if ← B.truth (B.lt 0 ZA) then
    return SC * ZA * (1.00010 + 0.034221 * ab + 0.001280 * bc + 0.000719 * cd + 0.000077 * df)
  else
    return 0.0

/-- util.py:260-283 `declination_degree`. -/
def declination_degree (B : Backend) (w : When B) (TY : B.α := B.lit TY_default) : Py B.α := do
  guard w
  return B.lit earth_axis_inclination
    * (← B.sin ((← B.div (2 * B.pi) TY) * ((← utcYday w) - 81)))

/-- util.py:286-321 `solarelevation_function_clear`. (The altitude, in degrees, is passed to `sin` and
`cos` without conversion: this is what the code does.) -/
def solarelevation_function_clear (B : Backend) (latitude_deg longitude_deg : B.α) (w : When B)
    (temperature : B.α := B.lit standard_temperature) (pressure : B.α := B.lit standard_pressure)
    (elevation : B.α := B.lit elevation_default) : Py B.α := do
  guard w
  let altitude ← Solar.get_altitude B latitude_deg longitude_deg w elevation temperature pressure
  return 0.038175 + (1.5458 * (← B.sin altitude))
    + ((-0.59980) * (0.5 * (1 - (← B.cos (2 * altitude)))))

/-- util.py:323-365 `solarelevation_function_overcast`. -/
def solarelevation_function_overcast (B : Backend) (latitude_deg longitude_deg : B.α) (w : When B)
    (elevation : B.α := B.lit elevation_default)
    (temperature : B.α := B.lit standard_temperature) (pressure : B.α := B.lit standard_pressure) :
    Py B.α := do
  guard w
  let altitude ← Solar.get_altitude B latitude_deg longitude_deg w elevation temperature pressure
  return ((-0.0067133) + (0.78600 * (← B.sin altitude)))
    + (0.22401 * (0.5 * (1 - (← B.cos (2 * altitude)))))

/-- util.py:368-388 `diffuse_transmittance`. -/
def diffuse_transmittance (B : Backend) (TL : B.α := B.lit TL_default) : B.α :=
  (-21.657) + (41.752 * TL) + (0.51905 * TL * TL)

/-- util.py:391-429 `diffuse_underclear`. -/
def diffuse_underclear (B : Backend) (latitude_deg longitude_deg : B.α) (w : When B)
    (elevation : B.α := B.lit elevation_default)
    (temperature : B.α := B.lit standard_temperature) (pressure : B.α := B.lit standard_pressure)
    (TL : B.α := B.lit TL_default) : Py B.α := do
  guard w
  let DT := (-21.657) + (41.752 * TL) + (0.51905 * TL * TL)
  let altitude ← Solar.get_altitude B latitude_deg longitude_deg w elevation temperature pressure
  return (← mean_earth_sun_distance B w) * DT * altitude

/-- util.py:431-471 `diffuse_underovercast`. -/
def diffuse_underovercast (B : Backend) (latitude_deg longitude_deg : B.α) (w : When B)
    (elevation : B.α := B.lit elevation_default)
    (temperature : B.α := B.lit standard_temperature) (pressure : B.α := B.lit standard_pressure)
    (TL : B.α := B.lit TL_default) : Py B.α := do
  guard w
  let DT := (-21.657) + (41.752 * TL) + (0.51905 * TL * TL)
  return (← mean_earth_sun_distance B w) * DT
    * (← Solar.get_altitude B latitude_deg longitude_deg w elevation temperature pressure)

/-- util.py:473-525 `direct_underclear`. -/
def direct_underclear (B : Backend) (latitude_deg longitude_deg : B.α) (w : When B)
    (TY : B.α := B.lit TY_default) (AM : B.α := B.lit AM_default) (TL : B.α := B.lit TL_default)
    (elevation : B.α := B.lit elevation_default)
    (temperature : B.α := B.lit standard_temperature) (pressure : B.α := B.lit standard_pressure) :
    Py B.α := do
  guard w
  let KD ← mean_earth_sun_distance B w
  let DEC ← declination_degree B w TY
  return 1367 * KD * (← B.exp (-0.8662 * AM * TL * DEC))
    * (← B.sin (← Solar.get_altitude B latitude_deg longitude_deg w elevation temperature pressure))

/-- util.py:527-585 `global_irradiance_clear`: `temperature` and `pressure` are received but the standard
values are passed on (lines 576-577, 580-581), and `TL` is not passed to `diffuse_underclear`. -/
def global_irradiance_clear (B : Backend) (latitude_deg longitude_deg : B.α) (w : When B)
    (TY : B.α := B.lit TY_default) (AM : B.α := B.lit AM_default) (TL : B.α := B.lit TL_default)
    (elevation : B.α := B.lit elevation_default)
    (_temperature : B.α := B.lit standard_temperature)
    (_pressure : B.α := B.lit standard_pressure) : Py B.α := do
  guard w
  let DIRC ← direct_underclear B latitude_deg longitude_deg w TY AM TL elevation
    (temperature := B.lit standard_temperature) (pressure := B.lit standard_pressure)
  let DIFFC ← diffuse_underclear B latitude_deg longitude_deg w elevation
    (temperature := B.lit standard_temperature) (pressure := B.lit standard_pressure)
  return DIRC + DIFFC

/-- util.py:588-630 `global_irradiance_overcast`. -/
def global_irradiance_overcast (B : Backend) (latitude_deg longitude_deg : B.α) (w : When B)
    (elevation : B.α := B.lit elevation_default)
    (temperature : B.α := B.lit standard_temperature) (pressure : B.α := B.lit standard_pressure) :
    Py B.α := do
  guard w
  return 572 * (← Solar.get_altitude B latitude_deg longitude_deg w elevation temperature pressure)

/-- util.py:633-656 `diffuse_ratio`. -/
def diffuse_ratio (B : Backend) (DIFF_data ghi_data : B.α) : Py B.α := B.div DIFF_data ghi_data

/-- util.py:659-692 `clear_index`. -/
def clear_index (B : Backend) (ghi_data latitude_deg longitude_deg : B.α) (w : When B) :
    Py B.α := do
  guard w
  let EXTR1 ← extraterrestrial_irrad B latitude_deg longitude_deg w
  B.div ghi_data EXTR1

end Pysolar.Util
