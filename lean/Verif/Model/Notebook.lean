import Verif.Model.Rest

/-!
# rest2-validation.ipynb

The code cells of `/repo/pysolar/rest2-validation.ipynb` that call pysolar, as the lists of numbers they plot. Simplifications:
the plotting calls are left out, and `numpy.linspace` returns exact numbers.
-/

open Verif

namespace Pysolar.Notebook

open Pysolar.Rest

/-- `numpy.linspace(a, b, n)`. -/
def linspace (a b : ℚ) (n : ℕ) : List ℚ := (List.range n).map fun k : ℕ => a + k * ((b - a) / (n - 1))

/-- rest2-validation.ipynb:41-48, second code cell (execution count 49): the direct irradiance for an altitude of 45 degrees is
computed and discarded; then `ma = np.array([get_optical_mass_aerosol(alt) for alt in np.linspace(0, 90, 90)])`. -/
def aerosol_mass_plot (B : Backend) (g : Globals B := {}) : Py (List B.α) := do
  let _ ← get_broadband_direct_normal_irradiance B 45.0 (g := g)
  (linspace 0 90 90).mapM fun alt => get_optical_mass_aerosol B (B.lit alt)

/-- rest2-validation.ipynb:78-82,112-116, third and fourth code cells (execution counts 59 and 58):
`np.array([get_effective_aerosol_wavelength(band, mass, 1.3, 0.6) for mass in np.linspace(1, 15, 15)])`, for the bands
"high-frequency" and "low-frequency". -/
def wavelength_plot (B : Backend) (band : String) (g : Globals B := {}) : Py (List B.α) :=
  (linspace 1 15 15).mapM fun mass => get_effective_aerosol_wavelength B band (B.lit mass) 1.3 0.6 g

end Pysolar.Notebook
