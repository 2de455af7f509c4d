import Mathlib.Analysis.SpecialFunctions.Trigonometric.Inverse
import Mathlib.Analysis.SpecialFunctions.Complex.Arg

/-!
# Specification of angles and directions

Angles in degrees unless said otherwise.
-/

namespace Verif.Spec

noncomputable section

/-- Degrees to radians. -/
def rad (x : ℝ) : ℝ := x * Real.pi / 180

/-- Radians to degrees. -/
def deg (x : ℝ) : ℝ := x * 180 / Real.pi

/-- Reduction to `[0, 360)`. -/
def mod360 (x : ℝ) : ℝ := x - 360 * ⌊x / 360⌋

/-- A vector; the meaning of the axes depends on the frame. -/
@[ext] structure Vec3 where
  x : ℝ
  y : ℝ
  z : ℝ

/-- Scalar product. -/
def Vec3.dot (u v : Vec3) : ℝ := u.x * v.x + u.y * v.y + u.z * v.z

/-- Unit vector of longitude `lon` and latitude `lat` (any spherical coordinates). -/
def sph (lon lat : ℝ) : Vec3 :=
  ⟨Real.cos (rad lat) * Real.cos (rad lon), Real.cos (rad lat) * Real.sin (rad lon), Real.sin (rad lat)⟩

/-- East, north, up components of the direction with altitude `alt` and azimuth `azi`
(eastward from north). -/
def horizontal (alt azi : ℝ) : Vec3 :=
  ⟨Real.cos (rad alt) * Real.sin (rad azi), Real.cos (rad alt) * Real.cos (rad azi), Real.sin (rad alt)⟩

/-- Rotation about the x axis by the angle `e`: ecliptic to equatorial coordinates. -/
def rotX (e : ℝ) (v : Vec3) : Vec3 :=
  ⟨v.x, Real.cos (rad e) * v.y - Real.sin (rad e) * v.z, Real.sin (rad e) * v.y + Real.cos (rad e) * v.z⟩

/-- From the equatorial frame of the local meridian (x: meridian, y: west, z: north pole) to the horizon
of latitude `lat` (x: east, y: north, z: up). -/
def toHorizon (lat : ℝ) (v : Vec3) : Vec3 :=
  ⟨-v.y, -Real.sin (rad lat) * v.x + Real.cos (rad lat) * v.z,
    Real.cos (rad lat) * v.x + Real.sin (rad lat) * v.z⟩

/-- East, north, up components of the sun with hour angle `ha` (westward) and declination `dec` at
latitude `lat`. -/
def sunENU (lat ha dec : ℝ) : Vec3 := toHorizon lat (sph ha dec)

end

end Verif.Spec
