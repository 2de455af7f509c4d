import Verif.Proofs.Sim

/-!
# Simulations through util.py, elevation.py, rest.py and simulate.py
-/

namespace Verif

open Pysolar Pysolar.TzCheck Pysolar.Numeric Pysolar.Solartime Pysolar.Constants

theorem RelM.ite {s : Prop} {β β' : Type} {R : β → β' → Prop} {c : Prop} [Decidable c] {a b : Py β} {a' b' : Py β'}
    (ha : RelM s R a a') (hb : RelM s R b b') : RelM s R (if c then a else b) (if c then a' else b') := by
  split_ifs <;> assumption

theorem Sim.ite {B B' : Backend} (S : Sim B B') {c : Prop} [Decidable c] {a b a' b'}
    (ha : S.r a a') (hb : S.r b b') : S.r (if c then a else b) (if c then a' else b') := by
  split_ifs <;> assumption

namespace Sim

variable {B B' : Backend} (S : Sim B B')

/-! ## util.py: functions that act elementwise -/

theorem utcYday {w w'} (hw : S.rW w w') : RelM S.strict S.r (Util.utcYday w) (Util.utcYday w') := by
  unfold Util.utcYday
  sim

theorem sunriseDecl {x x'} (hx : S.r x x') :
    RelM S.strict S.r (Util.sunriseDecl B x) (Util.sunriseDecl B' x') := by
  unfold Util.sunriseDecl
  sim

theorem timeAdst {x x'} (hx : S.r x x') :
    RelM S.strict S.r (Util.timeAdst B x) (Util.timeAdst B' x') := by
  unfold Util.timeAdst
  sim

theorem sunriseHa {x x'} (hx : S.r x x') {y y'} (hy : S.r y y') :
    RelM S.strict S.r (Util.sunriseHa B x y) (Util.sunriseHa B' x' y') := by
  unfold Util.sunriseHa
  sim

theorem mean_earth_sun_distance {w w'} (hw : S.rW w w') :
    RelM S.strict S.r (Util.mean_earth_sun_distance B w) (Util.mean_earth_sun_distance B' w') := by
  unfold Util.mean_earth_sun_distance
  sim

theorem declination_degree {w w'} (hw : S.rW w w') {x x'} (hx : S.r x x') :
    RelM S.strict S.r (Util.declination_degree B w x) (Util.declination_degree B' w' x') := by
  unfold Util.declination_degree
  sim

theorem solarelevation_function_clear {x x'} (hx : S.r x x') {y y'} (hy : S.r y y') {w w'} (hw : S.rW w w') {t t'} (ht : S.r t t') {p p'} (hp : S.r p p') {z z'} (hz : S.r z z') :
    RelM S.strict S.r (Util.solarelevation_function_clear B x y w t p z) (Util.solarelevation_function_clear B' x' y' w' t' p' z') := by
  unfold Util.solarelevation_function_clear
  sim

theorem solarelevation_function_overcast {x x'} (hx : S.r x x') {y y'} (hy : S.r y y') {w w'} (hw : S.rW w w') {z z'} (hz : S.r z z') {t t'} (ht : S.r t t') {p p'} (hp : S.r p p') :
    RelM S.strict S.r (Util.solarelevation_function_overcast B x y w z t p) (Util.solarelevation_function_overcast B' x' y' w' z' t' p') := by
  unfold Util.solarelevation_function_overcast
  sim

theorem diffuse_transmittance {x x'} (hx : S.r x x') :
    S.r (Util.diffuse_transmittance B x) (Util.diffuse_transmittance B' x') := by
  unfold Util.diffuse_transmittance
  sim

theorem diffuse_underclear {x x'} (hx : S.r x x') {y y'} (hy : S.r y y') {w w'} (hw : S.rW w w') {z z'} (hz : S.r z z') {t t'} (ht : S.r t t') {p p'} (hp : S.r p p') {u u'} (hu : S.r u u') :
    RelM S.strict S.r (Util.diffuse_underclear B x y w z t p u) (Util.diffuse_underclear B' x' y' w' z' t' p' u') := by
  unfold Util.diffuse_underclear
  sim

theorem diffuse_underovercast {x x'} (hx : S.r x x') {y y'} (hy : S.r y y') {w w'} (hw : S.rW w w') {z z'} (hz : S.r z z') {t t'} (ht : S.r t t') {p p'} (hp : S.r p p') {u u'} (hu : S.r u u') :
    RelM S.strict S.r (Util.diffuse_underovercast B x y w z t p u) (Util.diffuse_underovercast B' x' y' w' z' t' p' u') := by
  unfold Util.diffuse_underovercast
  sim

theorem direct_underclear {x x'} (hx : S.r x x') {y y'} (hy : S.r y y') {w w'} (hw : S.rW w w') {a a'} (ha : S.r a a') {b b'} (hb : S.r b b') {c c'} (hc : S.r c c') {z z'} (hz : S.r z z') {t t'} (ht : S.r t t') {p p'} (hp : S.r p p') :
    RelM S.strict S.r (Util.direct_underclear B x y w a b c z t p) (Util.direct_underclear B' x' y' w' a' b' c' z' t' p') := by
  unfold Util.direct_underclear
  sim

theorem global_irradiance_clear {x x'} (hx : S.r x x') {y y'} (hy : S.r y y') {w w'} (hw : S.rW w w') {a a'} (ha : S.r a a') {b b'} (hb : S.r b b') {c c'} (hc : S.r c c') {z z'} (hz : S.r z z') {t t'} (_ : S.r t t') {p p'} (_ : S.r p p') :
    RelM S.strict S.r (Util.global_irradiance_clear B x y w a b c z t p) (Util.global_irradiance_clear B' x' y' w' a' b' c' z' t' p') := by
  unfold Util.global_irradiance_clear
  sim

theorem global_irradiance_overcast {x x'} (hx : S.r x x') {y y'} (hy : S.r y y') {w w'} (hw : S.rW w w') {z z'} (hz : S.r z z') {t t'} (ht : S.r t t') {p p'} (hp : S.r p p') :
    RelM S.strict S.r (Util.global_irradiance_overcast B x y w z t p) (Util.global_irradiance_overcast B' x' y' w' z' t' p') := by
  unfold Util.global_irradiance_overcast
  sim

theorem diffuse_ratio {x x'} (hx : S.r x x') {y y'} (hy : S.r y y') :
    RelM S.strict S.r (Util.diffuse_ratio B x y) (Util.diffuse_ratio B' x' y') := by
  unfold Util.diffuse_ratio
  sim

/-! ## elevation.py, rest.py: functions that act elementwise -/

theorem get_temperature_with_elevation {x x'} (hx : S.r x x') {y y'} (hy : S.r y y') {z z'} (hz : S.r z z') :
    S.r (Elevation.get_temperature_with_elevation B x y z) (Elevation.get_temperature_with_elevation B' x' y' z') := by
  unfold Elevation.get_temperature_with_elevation
  sim

theorem get_gas_transmittance (band : String) {x x'} (hx : S.r x x') :
    RelM S.strict S.r (Rest.get_gas_transmittance B band x) (Rest.get_gas_transmittance B' band x') := by
  unfold Rest.get_gas_transmittance
  sim

theorem get_ground_albedo (band : String) :
    S.r (Rest.get_ground_albedo B band) (Rest.get_ground_albedo B' band) := by
  unfold Rest.get_ground_albedo
  sim

theorem get_ozone_transmittance (band : String) {x x'} (hx : S.r x x') {y y'} (hy : S.r y y') :
    RelM S.strict S.r (Rest.get_ozone_transmittance B band x y) (Rest.get_ozone_transmittance B' band x' y') := by
  unfold Rest.get_ozone_transmittance
  sim

theorem get_rayleigh_extinction_forward_scattering_fraction (band : String) {x x'} (hx : S.r x x') :
    S.r (Rest.get_rayleigh_extinction_forward_scattering_fraction B band x) (Rest.get_rayleigh_extinction_forward_scattering_fraction B' band x') := by
  unfold Rest.get_rayleigh_extinction_forward_scattering_fraction
  sim

theorem get_rayleigh_transmittance (band : String) {x x'} (hx : S.r x x') :
    RelM S.strict S.r (Rest.get_rayleigh_transmittance B band x) (Rest.get_rayleigh_transmittance B' band x') := by
  unfold Rest.get_rayleigh_transmittance
  sim

theorem get_sky_albedo (band : String) {x x'} (hx : S.r x x') {y y'} (hy : S.r y y') :
    RelM S.strict S.r (Rest.get_sky_albedo B band x y) (Rest.get_sky_albedo B' band x' y') := by
  unfold Rest.get_sky_albedo
  sim

theorem get_aerosol_transmittance (band : String) {x x'} (hx : S.r x x') {y y'} (hy : S.r y y') :
    RelM S.strict S.r (Rest.get_aerosol_transmittance B band x y) (Rest.get_aerosol_transmittance B' band x' y') := by
  unfold Rest.get_aerosol_transmittance
  sim

theorem get_aerosol_scattering_transmittance (band : String) {x x'} (hx : S.r x x') {y y'} (hy : S.r y y') :
    RelM S.strict S.r (Rest.get_aerosol_scattering_transmittance B band x y) (Rest.get_aerosol_scattering_transmittance B' band x' y') := by
  unfold Rest.get_aerosol_scattering_transmittance
  refine RelM.bind RelM.refl ?_
  rintro q _ rfl
  sim

theorem get_water_vapor_transmittance_coefficients (band : String) {x x'} (hx : S.r x x') :
    RelM S.strict (List.Forall₂ S.r) (Rest.get_water_vapor_transmittance_coefficients B band x) (Rest.get_water_vapor_transmittance_coefficients B' band x') := by
  unfold Rest.get_water_vapor_transmittance_coefficients
  refine RelM.ite ?_ ?_
  · refine RelM.bind (R := S.r) (by sim) fun _ _ h1 => RelM.bind (R := S.r) (by sim) fun _ _ h2 => ?_
    exact RelM.pure (.cons h1 (.cons h2 .nil))
  · refine RelM.bind (R := S.r) (by sim) fun _ _ h1 => RelM.bind (R := S.r) (by sim) fun _ _ h2 => ?_
    refine RelM.bind (R := S.r) (by sim) fun _ _ h3 => RelM.bind (R := S.r) (by sim) fun _ _ h4 => ?_
    exact RelM.pure (.cons h1 (.cons h2 (.cons h3 (.cons h4 .nil))))

theorem get_water_vapor_transmittance (band : String) {x x'} (hx : S.r x x') {y y'} (hy : S.r y y') :
    RelM S.strict S.r (Rest.get_water_vapor_transmittance B band x y) (Rest.get_water_vapor_transmittance B' band x' y') := by
  unfold Rest.get_water_vapor_transmittance
  refine RelM.ite ?_ ?_
  · refine RelM.bind (S.get_water_vapor_transmittance_coefficients band hy) fun h h' hh => ?_
    refine RelM.bind (RelM.pyIndex hh 0) fun _ _ h1 => RelM.bind (RelM.pyIndex hh 1) fun _ _ h2 => ?_
    sim
  · refine RelM.bind (S.get_water_vapor_transmittance_coefficients band hy) fun h h' hh => ?_
    refine RelM.bind (RelM.pyIndex hh 0) fun _ _ h1 => RelM.bind (RelM.pyIndex hh 1) fun _ _ h2 => ?_
    refine RelM.bind (RelM.pyIndex hh 2) fun _ _ h3 => RelM.bind (RelM.pyIndex hh 3) fun _ _ h4 => ?_
    sim

theorem get_backscattered_diffuse_irradiance_by_band (band : String) {x x'} (hx : S.r x x') {y y'} (hy : S.r y y') {a a'} (ha : S.r a a') {b b'} (hb : S.r b b') :
    RelM S.strict S.r (Rest.get_backscattered_diffuse_irradiance_by_band B band x y a b) (Rest.get_backscattered_diffuse_irradiance_by_band B' band x' y' a' b') := by
  unfold Rest.get_backscattered_diffuse_irradiance_by_band
  sim

end Sim

namespace ScalarSim

variable {B B' : Backend} (S : ScalarSim B B')

/-! ## util.py, elevation.py and rest.py: functions that need single values -/

theorem addAll {d : DateTime} {x x'} (hx : S.r x x') :
    RelM S.strict Eq (B.tdHours x >>= fun us => d.add us) (B'.tdHours x' >>= fun us => d.add us) := by
  refine RelM.bind (S.tdHours hx) ?_
  rintro us _ rfl
  exact RelM.refl

theorem get_sunrise_sunset_transit {x x'} (hx : S.r x x') {y y'} (hy : S.r y y') {w w'} (hw : S.rW w w') :
    RelM S.strict Eq (Util.get_sunrise_sunset_transit B x y w) (Util.get_sunrise_sunset_transit B' x' y' w') := by
  unfold Util.get_sunrise_sunset_transit
  refine RelM.bind (S.guard hw) fun _ _ _ => RelM.bind (S.asDatetime hw) ?_
  rintro d _ rfl
  dsimp only
  refine RelM.bind (R := S.r) (by sim) fun decl decl' hd => ?_
  refine RelM.bind (R := S.r) (by sim) fun ta ta' hta => ?_
  refine RelM.bind (R := S.r) (by sim) fun ha ha' hha => ?_
  refine RelM.bind (R := Eq) (by sim) ?_
  rintro us _ rfl
  refine RelM.bind RelM.refl ?_
  rintro t1 _ rfl
  refine RelM.bind (R := Eq) (by sim) ?_
  rintro us _ rfl
  refine RelM.bind RelM.refl ?_
  rintro t2 _ rfl
  refine RelM.bind (R := Eq) (by sim) ?_
  rintro us _ rfl
  refine RelM.bind RelM.refl ?_
  rintro t3 _ rfl
  exact RelM.refl

theorem get_sunrise_sunset {x x'} (hx : S.r x x') {y y'} (hy : S.r y y') {w w'} (hw : S.rW w w') :
    RelM S.strict Eq (Util.get_sunrise_sunset B x y w) (Util.get_sunrise_sunset B' x' y' w') := by
  unfold Util.get_sunrise_sunset
  refine RelM.bind (S.guard hw) fun _ _ _ => RelM.bind (S.get_sunrise_sunset_transit hx hy hw) ?_
  rintro p _ rfl
  exact RelM.refl

theorem get_sunrise_time {x x'} (hx : S.r x x') {y y'} (hy : S.r y y') {w w'} (hw : S.rW w w') :
    RelM S.strict Eq (Util.get_sunrise_time B x y w) (Util.get_sunrise_time B' x' y' w') := by
  unfold Util.get_sunrise_time
  refine RelM.bind (S.guard hw) fun _ _ _ => RelM.bind (S.get_sunrise_sunset_transit hx hy hw) ?_
  rintro p _ rfl
  exact RelM.refl

theorem get_sunset_time {x x'} (hx : S.r x x') {y y'} (hy : S.r y y') {w w'} (hw : S.rW w w') :
    RelM S.strict Eq (Util.get_sunset_time B x y w) (Util.get_sunset_time B' x' y' w') := by
  unfold Util.get_sunset_time
  refine RelM.bind (S.guard hw) fun _ _ _ => RelM.bind (S.get_sunrise_sunset_transit hx hy hw) ?_
  rintro p _ rfl
  exact RelM.refl

theorem get_transit_time {x x'} (hx : S.r x x') {y y'} (hy : S.r y y') {w w'} (hw : S.rW w w') :
    RelM S.strict Eq (Util.get_transit_time B x y w) (Util.get_transit_time B' x' y' w') := by
  unfold Util.get_transit_time
  refine RelM.bind (S.guard hw) fun _ _ _ => RelM.bind (S.get_sunrise_sunset_transit hx hy hw) ?_
  rintro p _ rfl
  exact RelM.refl

theorem extraterrestrial_irrad {x x'} (hx : S.r x x') {y y'} (hy : S.r y y') {w w'} (hw : S.rW w w') {z z'} (hz : S.r z z') :
    RelM S.strict S.r (Util.extraterrestrial_irrad B x y w z) (Util.extraterrestrial_irrad B' x' y' w' z') := by
  unfold Util.extraterrestrial_irrad
  sim

theorem clear_index {u u'} (hu : S.r u u') {x x'} (hx : S.r x x') {y y'} (hy : S.r y y') {w w'} (hw : S.rW w w') :
    RelM S.strict S.r (Util.clear_index B u x y w) (Util.clear_index B' u' x' y' w') := by
  unfold Util.clear_index
  sim

theorem get_pressure_with_elevation_warn {h h'} (hh : S.r h h') {a a'} (ha : S.r a a') {b b'} (hb : S.r b b')
    {c c'} (hc : S.r c c') {d d'} (hd : S.r d d') {e e'} (he : S.r e e') {f f'} (hf : S.r f f') {g g'} (hg : S.r g g') :
    RelM S.strict (fun p p' => S.r p.1 p'.1 ∧ p.2 = p'.2)
      (Elevation.get_pressure_with_elevation_warn B h a b c d e f g)
      (Elevation.get_pressure_with_elevation_warn B' h' a' b' c' d' e' f' g') := by
  unfold Elevation.get_pressure_with_elevation_warn
  refine RelM.bind (R := Eq) (by sim) ?_
  rintro t _ rfl
  refine RelM.bind (R := S.r) (by sim) fun _ _ h1 => RelM.bind (R := S.r) (by sim) fun _ _ h2 => ?_
  refine RelM.bind (R := S.r) (by sim) fun _ _ h3 => ?_
  exact RelM.pure ⟨by dsimp only; sim, rfl⟩

theorem get_pressure_with_elevation {h h'} (hh : S.r h h') {a a'} (ha : S.r a a') {b b'} (hb : S.r b b')
    {c c'} (hc : S.r c c') {d d'} (hd : S.r d d') {e e'} (he : S.r e e') {f f'} (hf : S.r f f') {g g'} (hg : S.r g g') :
    RelM S.strict S.r (Elevation.get_pressure_with_elevation B h a b c d e f g)
      (Elevation.get_pressure_with_elevation B' h' a' b' c' d' e' f' g') := by
  unfold Elevation.get_pressure_with_elevation
  exact RelM.bind (S.get_pressure_with_elevation_warn hh ha hb hc hd he hf hg) fun _ _ hp => RelM.pure hp.1

theorem get_aerosol_forward_scatterance_factor {x x'} (hx : S.r x x') :
    RelM S.strict S.r (Rest.get_aerosol_forward_scatterance_factor B x) (Rest.get_aerosol_forward_scatterance_factor B' x') := by
  unfold Rest.get_aerosol_forward_scatterance_factor
  sim

theorem get_aerosol_optical_depth {x x'} (hx : S.r x x') {y y'} (hy : S.r y y') {z z'} (hz : S.r z z') :
    RelM S.strict S.r (Rest.get_aerosol_optical_depth B x y z) (Rest.get_aerosol_optical_depth B' x' y' z') := by
  unfold Rest.get_aerosol_optical_depth
  sim

theorem get_aerosol_scattering_correction_factor (band : String) {x x'} (hx : S.r x x') {y y'} (hy : S.r y y') :
    RelM S.strict S.r (Rest.get_aerosol_scattering_correction_factor B band x y) (Rest.get_aerosol_scattering_correction_factor B' band x' y') := by
  unfold Rest.get_aerosol_scattering_correction_factor
  sim

theorem pyMin {x x'} (hx : S.r x x') {y y'} (hy : S.r y y') :
    RelM S.strict S.r (Rest.pyMin B x y) (Rest.pyMin B' x' y') := by
  unfold Rest.pyMin
  sim

theorem get_nitrogen_transmittance (band : String) {x x'} (hx : S.r x x') {y y'} (_ : S.r y y') :
    RelM S.strict S.r (Rest.get_nitrogen_transmittance B band x y) (Rest.get_nitrogen_transmittance B' band x' y') := by
  unfold Rest.get_nitrogen_transmittance
  sim

theorem get_optical_mass_rayleigh {x x'} (hx : S.r x x') {y y'} (hy : S.r y y') :
    RelM S.strict S.r (Rest.get_optical_mass_rayleigh B x y) (Rest.get_optical_mass_rayleigh B' x' y') := by
  unfold Rest.get_optical_mass_rayleigh
  sim

theorem get_optical_mass_ozone {x x'} (hx : S.r x x') :
    RelM S.strict S.r (Rest.get_optical_mass_ozone B x) (Rest.get_optical_mass_ozone B' x') := by
  unfold Rest.get_optical_mass_ozone
  sim

theorem get_optical_mass_water {x x'} (hx : S.r x x') :
    RelM S.strict S.r (Rest.get_optical_mass_water B x) (Rest.get_optical_mass_water B' x') := by
  unfold Rest.get_optical_mass_water
  sim

theorem get_optical_mass_aerosol {x x'} (hx : S.r x x') :
    RelM S.strict S.r (Rest.get_optical_mass_aerosol B x) (Rest.get_optical_mass_aerosol B' x') := by
  unfold Rest.get_optical_mass_aerosol
  sim

/-! ## simulate.py -/

/-- Related rows of a simulation. -/
def rRow (p : Simulate.Row B) (p' : Simulate.Row B') : Prop :=
  p.time = p'.time ∧ S.r p.alt p'.alt ∧ S.r p.azi p'.azi ∧ S.r p.rad p'.rad ∧ S.r p.shade p'.shade

theorem simulateRow {x x'} (hx : S.r x x') {y y'} (hy : S.r y y') {hz hz'} (hh : List.Forall₂ S.r hz hz')
    {z z'} (hzz : S.r z z') {t t'} (ht : S.r t t') {p p'} (hp : S.r p p') (time : DateTime) :
    RelM S.strict S.rRow (Simulate.simulateRow B x y hz z t p time) (Simulate.simulateRow B' x' y' hz' z' t' p' time) := by
  have hw := S.rW_dt time
  unfold Simulate.simulateRow
  refine RelM.bind (R := S.r) (by sim) fun alt alt' halt => RelM.bind (R := S.r) (by sim) fun azi azi' hazi => ?_
  refine RelM.bind (S.round hazi) ?_
  rintro i _ rfl
  refine RelM.bind (RelM.pyIndexInt hh i) fun sh sh' hsh => ?_
  refine RelM.bind (R := S.r) (by sim) fun s s' hs => ?_
  refine RelM.bind (S.round (S.mul (S.lit _) hs)) ?_
  rintro j _ rfl
  dsimp only
  refine RelM.bind (R := Eq) (by sim) ?_
  rintro b _ rfl
  refine RelM.ite ?_ ?_
  · exact RelM.pure ⟨rfl, halt, hazi, by dsimp only; sim, hsh⟩
  · refine RelM.bind (R := S.r) (by sim) fun rad rad' hrad => ?_
    exact RelM.pure ⟨rfl, halt, hazi, hrad, hsh⟩

end ScalarSim

end Verif
