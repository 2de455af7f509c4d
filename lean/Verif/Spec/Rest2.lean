import Mathlib.Analysis.SpecialFunctions.Pow.Real
import Mathlib.Analysis.SpecialFunctions.Trigonometric.Basic

/-!
# Specification for C79: the REST2 formulas

C. Gueymard, "REST2: High-performance solar radiation model for cloudless-sky irradiance, illuminance, and
photosynthetically active radiation", Solar Energy 82 (2008), appendix; optical masses from Gueymard, Solar Energy 74
(2003), appendix B. `1` is the band 290-700 nm, `2` the band 700-4000 nm. Angles in radians, amounts in atm cm
(gases) and cm (water).
-/

noncomputable section

namespace Verif.Spec.Rest2

open Real

def rayleigh1 (m : ℝ) : ℝ := (1 + 1.8169 * m + 0.033454 * m ^ 2) / (1 + 2.063 * m + 0.31978 * m ^ 2)
def rayleigh2 (m : ℝ) : ℝ := (1 - 0.010394 * m) / (1 - 0.00011042 * m ^ 2)

def gas1 (m : ℝ) : ℝ := (1 + 0.95885 * m + 0.012871 * m ^ 2) / (1 + 0.96321 * m + 0.015455 * m ^ 2)
def gas2 (m : ℝ) : ℝ := (1 + 0.27284 * m - 0.00063699 * m ^ 2) / (1 + 0.30306 * m)

/-- Ozone, with reduced amount `u`; the second band is not affected. -/
def ozone1 (u m : ℝ) : ℝ :=
  let f1 := u * (10.979 - 8.5421 * u) / (1 + 2.0115 * u + 40.189 * u ^ 2)
  let f2 := u * (-0.027589 - 0.005138 * u) / (1 - 2.4857 * u + 13.942 * u ^ 2)
  let f3 := u * (10.995 - 5.5001 * u) / (1 + 1.6784 * u + 42.406 * u ^ 2)
  (1 + f1 * m + f2 * m ^ 2) / (1 + f3 * m)

/-- Nitrogen dioxide, with reduced amount `u`; the second band is not affected. -/
def nitrogen1 (u m : ℝ) : ℝ :=
  let g1 := (0.17499 + 41.654 * u - 2146.4 * u ^ 2) / (1 + 22295 * u ^ 2)
  let g2 := u * (-1.2134 + 59.324 * u) / (1 + 8847.8 * u ^ 2)
  let g3 := (0.17499 + 61.658 * u + 9196.4 * u ^ 2) / (1 + 74109 * u ^ 2)
  min 1 ((1 + g1 * m + g2 * m ^ 2) / (1 + g3 * m))

/-- Water vapour, with reduced amount `w`. -/
def water1 (w m : ℝ) : ℝ :=
  let h1 := w * (0.065445 + 0.00029901 * w) / (1 + 1.2728 * w)
  let h2 := w * (0.065687 + 0.0013218 * w) / (1 + 1.2008 * w)
  (1 + h1 * m) / (1 + h2 * m)

def water2 (w m : ℝ) : ℝ :=
  let c1 := w * (19.566 - 1.6506 * w + 1.0672 * w ^ 2) / (1 + 5.4248 * w + 1.6005 * w ^ 2)
  let c2 := w * (0.50158 - 0.14732 * w + 0.047584 * w ^ 2) / (1 + 1.1811 * w + 1.0699 * w ^ 2)
  let c3 := w * (21.286 - 0.39232 * w + 1.2692 * w ^ 2) / (1 + 4.8318 * w + 1.412 * w ^ 2)
  let c4 := w * (0.70992 - 0.23155 * w + 0.096514 * w ^ 2) / (1 + 0.44907 * w + 0.75425 * w ^ 2)
  (1 + c1 * m + c2 * m ^ 2) / (1 + c3 * m + c4 * m ^ 2)

/-- Single-scattering correction factors. -/
def scatter1 (m t : ℝ) : ℝ :=
  let g0 := (3.715 + 0.368 * m + 0.036294 * m ^ 2) / (1 + 0.0009391 * m ^ 2)
  let g1 := (-0.164 - 0.72567 * m + 0.20701 * m ^ 2) / (1 + 0.001901 * m ^ 2)
  let g2 := (-0.052288 + 0.31902 * m + 0.17871 * m ^ 2) / (1 + 0.0069592 * m ^ 2)
  (g0 + g1 * t) / (1 + g2 * t)

def scatter2 (m t : ℝ) : ℝ :=
  let h0 := (3.4352 + 0.65267 * m + 0.00034328 * m ^ 2) / (1 + 0.034388 * m ^ (1.5 : ℝ))
  let h1 := (1.231 - 1.63853 * m + 0.20667 * m ^ 2) / (1 + 0.1451 * m ^ (1.5 : ℝ))
  let h2 := (0.8889 - 0.55063 * m + 0.50152 * m ^ 2) / (1 + 0.14865 * m ^ (1.5 : ℝ))
  (h0 + h1 * t) / (1 + h2 * t)

/-- Sky albedo for Angstrom's `a`, `b`. -/
def skyAlbedo1 (a b : ℝ) : ℝ :=
  (0.13363 + 0.00077358 * a + b * (0.37567 + 0.22946 * a) / (1 - 0.10832 * a))
    / (1 + b * (0.84057 + 0.68683 * a) / (1 - 0.08158 * a))

def skyAlbedo2 (a b : ℝ) : ℝ :=
  (0.010191 + 0.00085547 * a + b * (0.14618 + 0.062758 * a) / (1 - 0.19402 * a))
    / (1 + b * (0.58101 + 0.17426 * a) / (1 - 0.17586 * a))

/-- Effective wavelength (micrometres) for aerosol extinction in each band, with exponent `a` and `u = log (1 + m b)`. -/
def wavelength1 (a u : ℝ) : ℝ :=
  let d0 := 0.57664 - 0.024743 * a
  let d1 := (0.093942 - 0.2269 * a + 0.12848 * a ^ 2) / (1 + 0.6418 * a)
  let d2 := (-0.093819 + 0.36668 * a - 0.12775 * a ^ 2) / (1 - 0.11651 * a)
  let d3 := a * (0.15232 - 0.087214 * a + 0.012664 * a ^ 2) / (1 - 0.90454 * a + 0.26167 * a ^ 2)
  (d0 + d1 * u + d2 * u ^ 2) / (1 + d3 * u ^ 2)

/-- The coefficient of `u` in the denominator of `wavelength2`. -/
def wavelength2e3 (a : ℝ) : ℝ := (-0.70003 - 0.73587 * a + 0.51509 * a ^ 2) / (1 + 4.7665 * a)

def wavelength2 (a u : ℝ) : ℝ :=
  let e0 := (1.183 - 0.022989 * a + 0.020829 * a ^ 2) / (1 + 0.11133 * a)
  let e1 := (-0.50003 - 0.18329 * a + 0.23835 * a ^ 2) / (1 + 1.6756 * a)
  let e2 := (-0.50001 + 1.1414 * a + 0.0083589 * a ^ 2) / (1 + 11.168 * a)
  (e0 + e1 * u + e2 * u ^ 2) / (1 + wavelength2e3 a * u)

/-- Optical mass of an absorber for zenith angle `z` in degrees (Gueymard 2003, appendix B):
`1 / (cos z + a z^c (p - z)^(-q))`. It is 1 for `z = 0`. -/
def opticalMass (a c p q z : ℝ) : ℝ := 1 / (cos (z * π / 180) + z ^ c * a / (p - z) ^ q)

end Verif.Spec.Rest2
