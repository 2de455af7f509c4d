import Verif.Spec.Geometry

/-!
# Specification of the periodic series (C21-C24)

The specification says which sums over the coefficient tables are meant; the tables are in `SpaTables.lean`.
-/

namespace Verif.Spec

noncomputable section

/-- `∑ A cos (B + C t)` over the rows `(A, B, C)`. -/
def rowSum (t : ℝ) (row : List (ℚ × ℚ × ℚ)) : ℝ :=
  (row.map fun l => (l.1 : ℝ) * Real.cos ((l.2.1 : ℝ) + (l.2.2 : ℝ) * t)).sum

/-- `∑ₖ t^k ∑ A cos (B + C t)` over the rows of row list `k`. -/
def vsop (t : ℝ) (table : List (List (ℚ × ℚ × ℚ))) : ℝ :=
  (table.mapIdx fun k row => t ^ k * rowSum t row).sum

/-- `∑ₖ |t|^k ∑ |A|`. -/
def vsopBound (t : ℝ) (table : List (List (ℚ × ℚ × ℚ))) : ℝ :=
  (table.mapIdx fun k row => |t| ^ k * (row.map fun l => |(l.1 : ℝ)|).sum).sum

/-- Mean elongation of the moon from the sun (degrees), `T` in Julian ephemeris centuries. -/
def moonElongation (T : ℝ) : ℝ := 297.85036 + 445267.111480 * T - 0.0019142 * T ^ 2 + T ^ 3 / 189474
/-- Mean anomaly of the sun. -/
def sunAnomaly (T : ℝ) : ℝ := 357.52772 + 35999.050340 * T - 0.0001603 * T ^ 2 - T ^ 3 / 300000
/-- Mean anomaly of the moon. -/
def moonAnomaly (T : ℝ) : ℝ := 134.96298 + 477198.867398 * T + 0.0086972 * T ^ 2 + T ^ 3 / 56250
/-- Argument of latitude of the moon. -/
def moonLatitudeArg (T : ℝ) : ℝ := 93.27191 + 483202.017538 * T - 0.0036825 * T ^ 2 + T ^ 3 / 327270
/-- Longitude of the ascending node of the moon's orbit. -/
def moonNode (T : ℝ) : ℝ := 125.04452 - 1934.136261 * T + 0.0020708 * T ^ 2 + T ^ 3 / 450000

/-- The fundamental arguments in the order of the columns of the multiplier table. -/
def fundamental (T : ℝ) : List ℝ :=
  [moonElongation T, sunAnomaly T, moonAnomaly T, moonLatitudeArg T, moonNode T]

/-- The integer combination of the fundamental arguments for one row of multipliers. -/
def combine (T : ℝ) (y : List ℚ) : ℝ := (List.zipWith (fun x (n : ℚ) => x * (n : ℝ)) (fundamental T) y).sum

/-- Nutation in longitude (degrees): sum over all terms, in units of 0.0001 arc second. -/
def nutationLongitude (T : ℝ) (abcd : List (ℚ × ℚ × ℚ × ℚ)) (y : List (List ℚ)) : ℝ :=
  (List.zipWith (fun (c : ℚ × ℚ × ℚ × ℚ) r =>
    ((c.1 : ℝ) + (c.2.1 : ℝ) * T) * Real.sin (rad (combine T r))) abcd y).sum / 36000000

/-- Nutation in obliquity (degrees). -/
def nutationObliquity (T : ℝ) (abcd : List (ℚ × ℚ × ℚ × ℚ)) (y : List (List ℚ)) : ℝ :=
  (List.zipWith (fun (c : ℚ × ℚ × ℚ × ℚ) r =>
    ((c.2.2.1 : ℝ) + (c.2.2.2 : ℝ) * T) * Real.cos (rad (combine T r))) abcd y).sum / 36000000

end

end Verif.Spec
