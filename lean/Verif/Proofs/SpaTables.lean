import Verif.Spec.SpaTables
import Verif.Model.Tables

/-!
# The tables of `constants.py` are the published ones
-/

namespace Verif

open Verif.Spec Pysolar.Constants

theorem longitude_table : heliocentric_longitude_coeffs = Spa.longitude := by decide +kernel
theorem latitude_table : heliocentric_latitude_coeffs = Spa.latitude := by decide +kernel
theorem radius_table : sun_earth_distance_coeffs = Spa.radius := by decide +kernel
theorem nutation_table : nutation_coefficients = Spa.nutation := by decide +kernel
theorem multiples_table : aberration_sin_terms = Spa.multiples := by decide +kernel

end Verif
