import Verif.Model.Solar
import Verif.Model.Radiation
import Verif.Model.Elevation
import Verif.Model.Util
import Verif.Model.Simulate
import Verif.Model.Rest

/-!
# Which exceptions a call can raise

`Raises P m`: an exception raised by `m` is one of `P`. If the operations of a backend raise only exceptions of `P`,
so does every function of the model: the lemmas below, one for each function.
-/

namespace Verif

open Pysolar Pysolar.TzCheck Pysolar.Numeric Pysolar.Solartime Pysolar.Constants

/-- Every exception raised is one of `P`. -/
def Raises (P : PyErr → Prop) {β : Type} (m : Py β) : Prop := ∀ e, m = .error e → P e

namespace Raises

variable {P : PyErr → Prop} {β γ : Type}

theorem ok (y : β) : Raises P (.ok y) := fun _ h => by cases h

theorem pure (y : β) : Raises P (Pure.pure y : Py β) := ok y

theorem error {e : PyErr} (h : P e) : Raises P (.error e : Py β) := fun _ he => by cases he; exact h

theorem bind {m : Py β} {f : β → Py γ} (h : Raises P m) (hf : ∀ y, Raises P (f y)) : Raises P (m >>= f) := by
  cases m with
  | error e => exact fun e' he => h e' (by cases he; rfl)
  | ok y => exact hf y

theorem bind' {m : Py β} {f : β → Py γ} (h : Raises P m) (hf : ∀ y, m = .ok y → Raises P (f y)) : Raises P (m >>= f) := by
  cases m with
  | error e => exact fun e' he => h e' (by cases he; rfl)
  | ok y => exact hf y rfl

theorem pyIndex_lt {xs : List β} {i : ℕ} (h : i < xs.length) : Raises P (Verif.pyIndex xs i) := by
  unfold Verif.pyIndex
  rw [List.getElem?_eq_getElem h]
  exact ok _

theorem ite {c : Prop} [Decidable c] {a b : Py β} (ha : Raises P a) (hb : Raises P b) : Raises P (if c then a else b) := by
  split_ifs <;> assumption

theorem pyIndex (h : P .indexError) (xs : List β) (i : ℕ) : Raises P (Verif.pyIndex xs i) := by
  unfold Verif.pyIndex
  split
  · exact ok _
  · exact error h

theorem pyIndexInt (h : P .indexError) (xs : List β) (i : ℤ) : Raises P (Verif.pyIndexInt xs i) := by
  unfold Verif.pyIndexInt
  split_ifs
  · exact pyIndex h _ _
  · exact pyIndex h _ _
  · exact error h

theorem pyLookup (h : P .keyError) (d : List (String × β)) (k : String) : Raises P (Verif.pyLookup d k) := by
  unfold Verif.pyLookup
  split
  · exact ok _
  · exact error h

end Raises

/-- The elementwise operations of a backend raise only exceptions of `P`. -/
structure Elem (P : PyErr → Prop) (B : Backend) : Prop where
  div : ∀ x y, Raises P (B.div x y)
  sin : ∀ x, Raises P (B.sin x)
  cos : ∀ x, Raises P (B.cos x)
  tan : ∀ x, Raises P (B.tan x)
  asin : ∀ x, Raises P (B.asin x)
  acos : ∀ x, Raises P (B.acos x)
  atan : ∀ x, Raises P (B.atan x)
  atan2 : ∀ x y, Raises P (B.atan2 x y)
  exp : ∀ x, Raises P (B.exp x)

/-- The same of branching on a comparison and of `timedelta(hours = x)`. -/
structure Scal (P : PyErr → Prop) (B : Backend) : Prop extends Elem P B where
  truth : ∀ c, Raises P (B.truth c)
  tdHours : ∀ x, Raises P (B.tdHours x)

/-- All the operations of a backend raise only exceptions of `P`. -/
structure Ops (P : PyErr → Prop) (B : Backend) : Prop extends Scal P B where
  rpow : ∀ x y, Raises P (B.rpow x y)
  round : ∀ x, Raises P (B.round x)

/-- Looking at the argument `when` raises only exceptions of `P`. -/
structure At (P : PyErr → Prop) {B : Backend} (w : When B) : Prop where
  guard : Raises P (guard w)
  utctimetuple : Raises P (utctimetuple w)
  timestamp : Raises P (timestamp w)
  tm_yday : Raises P (tm_yday B w)
  tm_hour : Raises P (tm_hour B w)
  tm_min : Raises P (tm_min B w)
  asDatetime : Raises P (Util.asDatetime w)
  get_leap_seconds : Raises P (Solartime.get_leap_seconds w)
  get_delta_t : Raises P (Solartime.get_delta_t w)

open Lean Elab Tactic Meta in
/-- One step: the lemma for the outermost operation, found by its name in the namespaces `Raises`, `Elem`, `Scal`, `Ops` and `At`. -/
elab "raises_step" : tactic => withMainContext do
  let t := (← instantiateMVars (← (← getMainGoal).getType)).consumeMData
  unless t.isAppOf ``Raises do throwError "not a goal about exceptions"
  let op := (t.getAppArgs[2]!).consumeMData
  if op.isLet || op.getAppFn.isLambda then
    evalTactic (← `(tactic| dsimp only))
  else
    let some n := op.getAppFn.constName? | throwError "no constant"
    let base : Name := match n with
      | ``Bind.bind => `bind
      | ``Pure.pure => `pure
      | _ => .mkSimple n.getString!
    for ns in [`Verif.Raises, `Verif.Elem, `Verif.Scal, `Verif.Ops, `Verif.At] do
      if (← getEnv).contains (ns ++ base) then
        try
          let id := mkCIdent (ns ++ base)
          evalTactic (← `(tactic| with_reducible apply $id))
          return
        catch _ => pure ()
    evalTactic (← `(tactic| split))

/-- All the steps. -/
macro "raises" : tactic =>
  `(tactic| repeat' first | raises_step | with_reducible assumption | intro _)

theorem civilChecked_raises {P : PyErr → Prop} (h : P .overflow) (t : ℤ) : Raises P (civilChecked t) := by
  unfold civilChecked
  dsimp only
  split_ifs
  · exact Raises.ok _
  · exact Raises.error h

theorem add_raises {P : PyErr → Prop} (h : P .overflow) (d : DateTime) (us : ℤ) : Raises P (d.add us) :=
  Raises.bind (civilChecked_raises h _) fun _ => Raises.pure _

theorem mem_of_pyIndex {β : Type} {xs : List β} {i : ℕ} {x : β} (h : pyIndex xs i = .ok x) : x ∈ xs := by
  unfold pyIndex at h
  cases hx : xs[i]? with
  | none => rw [hx] at h; cases h
  | some y =>
    rw [hx] at h
    cases h
    exact List.mem_of_getElem? hx

/-- The five fundamental arguments are in the dictionary. -/
theorem nutationX_ok (B : Backend) (x : B.α) : ∃ xs,
    Solar.nutationX B (get_aberration_coeffs B (aberration_coeffs0 B)).1 x Solar.nutationArgs = .ok xs ∧ xs.length = 5 :=
  ⟨_, rfl, rfl⟩

theorem nutation_row_length : ∀ yi ∈ aberration_sin_terms, yi.length = 5 := by decide

theorem nutation_rows : aberration_sin_terms.length = nutation_coefficients.length := by decide

theorem deltaTLookup_raises {P : PyErr → Prop} (h : P .indexError) (table : List (List ℚ)) (by_ bm y m : ℤ) :
    Raises P (deltaTLookup table by_ bm y m) := by
  unfold deltaTLookup
  split
  dsimp only
  split_ifs
  · exact Raises.bind (Raises.pyIndexInt h _ _) fun _ => Raises.bind (Raises.pure _) fun _ =>
      Raises.bind (Raises.pyIndexInt h _ _) fun _ => Raises.pyIndexInt h _ _
  · exact Raises.bind (Raises.pure _) fun _ => Raises.bind (Raises.pyIndexInt h _ _) fun _ => Raises.pyIndexInt h _ _

theorem leapLoop_raises {P : PyErr → Prop} (h : P .indexError) (rows : List (ℤ × ℤ)) (y m a b : ℤ) :
    Raises P (leapLoop rows y m a b) := by
  induction a, b using leapLoop.induct rows y m with
  | case1 a b h1 => rw [leapLoop, if_pos h1]; exact Raises.ok _
  | case2 a b h1 h2 h3 => rw [leapLoop, if_neg h1, if_pos h2, if_pos h3]; exact Raises.ok _
  | case3 a b h1 h2 h3 => rw [leapLoop, if_neg h1, if_pos h2, if_neg h3]; exact Raises.ok _
  | case4 a b h1 h2 e he =>
    rw [leapLoop, if_neg h1, if_neg h2, he]
    exact Raises.error (Raises.pyIndexInt h _ _ e he)
  | case5 a en h1 h2 he => rw [leapLoop, if_neg h1, if_neg h2, he]; dsimp only; rw [if_pos rfl]; exact Raises.ok _
  | case6 a b h1 h2 en he h3 ih => rw [leapLoop, if_neg h1, if_neg h2, he]; dsimp only; rw [if_neg h3]; exact ih

set_option linter.unusedSectionVars false

namespace Elem

variable {P : PyErr → Prop} {B : Backend} (hB : Elem P B)

include hB in
theorem get_julian_solar_day {w : When B} (hw : At P w) :
    Raises P (Solartime.get_julian_solar_day B w) := by
  unfold Solartime.get_julian_solar_day
  raises

include hB in
theorem get_julian_ephemeris_day {w : When B} (hw : At P w) :
    Raises P (Solartime.get_julian_ephemeris_day B w) := by
  unfold Solartime.get_julian_ephemeris_day
  raises

include hB in
theorem equation_of_time (x : B.α) :
    Raises P (Solar.equation_of_time B x) := by
  unfold Solar.equation_of_time
  raises

include hB in
theorem get_aberration_correction (x : B.α) :
    Raises P (Solar.get_aberration_correction B x) := by
  unfold Solar.get_aberration_correction
  raises

include hB in
theorem coeffLine (x : B.α) (line : List (ℚ × ℚ × ℚ)) : ∀ c, Raises P (Solar.coeffLine B x c line) := by
  induction line with
  | nil => intro c; exact Raises.pure _
  | cons l line ih =>
    intro c
    unfold Solar.coeffLine
    exact Raises.bind (by raises) fun _ => ih _

include hB in
theorem coeffLoop (x : B.α) (rows : List (List (ℚ × ℚ × ℚ))) : ∀ c p, Raises P (Solar.coeffLoop B x c p rows) := by
  induction rows with
  | nil => intro c p; exact Raises.pure _
  | cons l line ih =>
    intro c p
    unfold Solar.coeffLoop
    exact Raises.bind (hB.coeffLine x l _) fun _ => ih _ _

include hB in
theorem get_coeff (x : B.α) (rows : List (List (ℚ × ℚ × ℚ))) : Raises P (Solar.get_coeff B x rows) :=
  hB.coeffLoop x rows _ _

include hB in
theorem get_declination (x : B.α) :
    Raises P (Solar.get_declination B x) := by
  unfold Solar.get_declination
  raises

include hB in
theorem get_equatorial_horizontal_parallax (x : B.α) :
    Raises P (Solar.get_equatorial_horizontal_parallax B x) := by
  unfold Solar.get_equatorial_horizontal_parallax
  raises

include hB in
theorem get_flattened_latitude (x : B.α) :
    Raises P (Solar.get_flattened_latitude B x) := by
  unfold Solar.get_flattened_latitude
  raises

include hB in
theorem get_heliocentric_latitude (x : B.α) :
    Raises P (Solar.get_heliocentric_latitude B x) := by
  unfold Solar.get_heliocentric_latitude
  raises

include hB in
theorem get_heliocentric_longitude (x : B.α) :
    Raises P (Solar.get_heliocentric_longitude B x) := by
  unfold Solar.get_heliocentric_longitude
  raises

include hB in
theorem get_geocentric_latitude (x : B.α) :
    Raises P (Solar.get_geocentric_latitude B x) := by
  unfold Solar.get_geocentric_latitude
  raises

include hB in
theorem get_geocentric_longitude (x : B.α) :
    Raises P (Solar.get_geocentric_longitude B x) := by
  unfold Solar.get_geocentric_longitude
  raises

include hB in
theorem get_geocentric_sun_declination (x y z : B.α) :
    Raises P (Solar.get_geocentric_sun_declination B x y z) := by
  unfold Solar.get_geocentric_sun_declination
  raises

include hB in
theorem get_geocentric_sun_right_ascension (x y z : B.α) :
    Raises P (Solar.get_geocentric_sun_right_ascension B x y z) := by
  unfold Solar.get_geocentric_sun_right_ascension
  raises

include hB in
theorem sigmaxyLoop (xs : List B.α) (yi : List ℚ) (hl : xs.length = yi.length) (js : List ℕ)
    (hj : ∀ j ∈ js, j < xs.length) : ∀ c, Raises P (Solar.sigmaxyLoop B xs yi c js) := by
  induction js with
  | nil => intro c; exact Raises.pure _
  | cons j js ih =>
    intro c
    unfold Solar.sigmaxyLoop
    have h1 := hj j List.mem_cons_self
    refine Raises.bind (Raises.pyIndex_lt h1) fun _ => Raises.bind (Raises.pyIndex_lt (hl ▸ h1)) fun _ => ?_
    exact ih (fun j h => hj j (List.mem_cons_of_mem _ h)) _

include hB in
theorem nutationLoop (x : B.α) (abcd : List (ℚ × ℚ × ℚ × ℚ)) (xs : List B.α) (y : List (List ℚ))
    (hy : ∀ yi ∈ y, xs.length = yi.length) (is : List ℕ) (hi : ∀ i ∈ is, i < y.length ∧ i < abcd.length) :
    Raises P (Solar.nutationLoop B x abcd xs y is) := by
  induction is with
  | nil => exact Raises.pure _
  | cons i is ih =>
    unfold Solar.nutationLoop
    obtain ⟨h1, h2⟩ := hi i List.mem_cons_self
    refine Raises.bind' (Raises.pyIndex_lt h1) fun yi hyi => ?_
    refine Raises.bind (hB.sigmaxyLoop _ _ (hy yi (mem_of_pyIndex hyi)) _ (fun j hj => List.mem_range.mp hj) _) fun _ => ?_
    refine Raises.bind (Raises.pyIndex_lt h2) fun _ => Raises.bind (hB.sin _) fun _ => ?_
    exact Raises.bind (hB.cos _) fun _ => Raises.bind (ih fun j h => hi j (List.mem_cons_of_mem _ h)) fun _ => Raises.pure _

include hB in
theorem get_nutation (x : B.α) : Raises P (Solar.get_nutation B x) := by
  unfold Solar.get_nutation
  obtain ⟨xs, hxs, hl⟩ := nutationX_ok B x
  refine Raises.bind' (m := Solar.nutationX B _ x Solar.nutationArgs) (hxs ▸ Raises.ok xs) fun xs' h => ?_
  obtain rfl : xs = xs' := by rw [hxs] at h; cases h; rfl
  refine Raises.bind (hB.nutationLoop _ _ _ _ ?_ _ ?_) fun _ => Raises.pure _
  · intro yi hyi
    rw [hl]
    exact (nutation_row_length yi hyi).symm
  · intro i hi
    have := List.mem_range.mp hi
    exact ⟨by rw [nutation_rows]; exact this, this⟩

include hB in
theorem get_parallax_sun_right_ascension (x y z u : B.α) :
    Raises P (Solar.get_parallax_sun_right_ascension B x y z u) := by
  unfold Solar.get_parallax_sun_right_ascension
  raises

include hB in
theorem get_projected_radial_distance (x y : B.α) :
    Raises P (Solar.get_projected_radial_distance B x y) := by
  unfold Solar.get_projected_radial_distance
  raises

include hB in
theorem get_projected_axial_distance (x y : B.α) :
    Raises P (Solar.get_projected_axial_distance B x y) := by
  unfold Solar.get_projected_axial_distance
  raises

include hB in
theorem get_sun_earth_distance (x : B.α) :
    Raises P (Solar.get_sun_earth_distance B x) := by
  unfold Solar.get_sun_earth_distance
  raises

include hB in
theorem get_refraction_correction (x y z : B.α) :
    Raises P (Solar.get_refraction_correction B x y z) := by
  unfold Solar.get_refraction_correction
  raises

include hB in
theorem get_apparent_sidereal_time (x y : B.α) (n : Solar.Nutation B) :
    Raises P (Solar.get_apparent_sidereal_time B x y n) := by
  unfold Solar.get_apparent_sidereal_time
  raises

include hB in
theorem get_topocentric_azimuth_angle (x y z : B.α) :
    Raises P (Solar.get_topocentric_azimuth_angle B x y z) := by
  unfold Solar.get_topocentric_azimuth_angle
  raises

include hB in
theorem get_topocentric_elevation_angle (x y z : B.α) :
    Raises P (Solar.get_topocentric_elevation_angle B x y z) := by
  unfold Solar.get_topocentric_elevation_angle
  raises

include hB in
theorem get_topocentric_sun_declination (x y z u v : B.α) :
    Raises P (Solar.get_topocentric_sun_declination B x y z u v) := by
  unfold Solar.get_topocentric_sun_declination
  raises

include hB in
theorem get_topocentric_sun_right_ascension (x y z u v t : B.α) :
    Raises P (Solar.get_topocentric_sun_right_ascension B x y z u v t) := by
  unfold Solar.get_topocentric_sun_right_ascension
  raises

include hB in
theorem get_topocentric_zenith_angle (x y z u v : B.α) :
    Raises P (Solar.get_topocentric_zenith_angle B x y z u v) := by
  unfold Solar.get_topocentric_zenith_angle
  raises

include hB in
theorem get_incidence_angle (x y z u : B.α) :
    Raises P (Solar.get_incidence_angle B x y z u) := by
  unfold Solar.get_incidence_angle
  raises

include hB in
theorem get_solar_time (x : B.α) {w : When B} (hw : At P w) :
    Raises P (Solar.get_solar_time B x w) := by
  unfold Solar.get_solar_time
  raises

include hB in
theorem get_hour_angle {w : When B} (hw : At P w) (x : B.α) :
    Raises P (Solar.get_hour_angle B w x) := by
  unfold Solar.get_hour_angle
  raises

include hB in
theorem get_altitude_fast (x y : B.α) {w : When B} (hw : At P w) :
    Raises P (Solar.get_altitude_fast B x y w) := by
  unfold Solar.get_altitude_fast
  raises

include hB in
theorem get_azimuth_fast (x y : B.α) {w : When B} (hw : At P w) :
    Raises P (Solar.get_azimuth_fast B x y w) := by
  unfold Solar.get_azimuth_fast
  raises

include hB in
theorem get_topocentric_position (x y : B.α) {w : When B} (hw : At P w) (z : B.α) :
    Raises P (Solar.get_topocentric_position B x y w z) := by
  unfold Solar.get_topocentric_position
  raises

include hB in
theorem get_position (x y : B.α) {w : When B} (hw : At P w) (z t p : B.α) :
    Raises P (Solar.get_position B x y w z t p) := by
  unfold Solar.get_position
  raises

include hB in
theorem get_altitude (x y : B.α) {w : When B} (hw : At P w) (z t p : B.α) :
    Raises P (Solar.get_altitude B x y w z t p) := by
  unfold Solar.get_altitude
  raises

include hB in
theorem get_azimuth (x y : B.α) {w : When B} (hw : At P w) (z : B.α) :
    Raises P (Solar.get_azimuth B x y w z) := by
  unfold Solar.get_azimuth
  raises

include hB in
theorem get_air_mass_ratio (x : B.α) : Raises P (Radiation.get_air_mass_ratio B x) := by
  unfold Radiation.get_air_mass_ratio
  split
  · exact Raises.ok _
  · have h : Raises P (do B.div 1 (← B.sin (B.radians x))) := by raises
    exact h

include hB in
theorem get_apparent_extraterrestrial_flux (x : B.α) :
    Raises P (Radiation.get_apparent_extraterrestrial_flux B x) := by
  unfold Radiation.get_apparent_extraterrestrial_flux
  raises

include hB in
theorem get_optical_depth (x : B.α) :
    Raises P (Radiation.get_optical_depth B x) := by
  unfold Radiation.get_optical_depth
  raises

include hB in
theorem get_radiation_direct {w : When B} (hw : At P w) (x : B.α) :
    Raises P (Radiation.get_radiation_direct B w x) := by
  unfold Radiation.get_radiation_direct
  raises

theorem utcYday {w : When B} (hw : At P w) : Raises P (Util.utcYday w) := by
  unfold Util.utcYday
  exact Raises.bind (At.utctimetuple hw) fun _ => Raises.pure _

include hB in
theorem sunriseDecl (x : B.α) :
    Raises P (Util.sunriseDecl B x) := by
  unfold Util.sunriseDecl
  raises

include hB in
theorem timeAdst (x : B.α) :
    Raises P (Util.timeAdst B x) := by
  unfold Util.timeAdst
  raises

include hB in
theorem sunriseHa (x y : B.α) :
    Raises P (Util.sunriseHa B x y) := by
  unfold Util.sunriseHa
  raises

include hB in
theorem mean_earth_sun_distance {w : When B} (hw : At P w) :
    Raises P (Util.mean_earth_sun_distance B w) := by
  unfold Util.mean_earth_sun_distance
  raises

include hB in
theorem declination_degree {w : When B} (hw : At P w) (x : B.α) :
    Raises P (Util.declination_degree B w x) := by
  unfold Util.declination_degree
  raises

include hB in
theorem solarelevation_function_clear (x y : B.α) {w : When B} (hw : At P w) (t p z : B.α) :
    Raises P (Util.solarelevation_function_clear B x y w t p z) := by
  unfold Util.solarelevation_function_clear
  raises

include hB in
theorem solarelevation_function_overcast (x y : B.α) {w : When B} (hw : At P w) (z t p : B.α) :
    Raises P (Util.solarelevation_function_overcast B x y w z t p) := by
  unfold Util.solarelevation_function_overcast
  raises

include hB in
theorem diffuse_underclear (x y : B.α) {w : When B} (hw : At P w) (z t p u : B.α) :
    Raises P (Util.diffuse_underclear B x y w z t p u) := by
  unfold Util.diffuse_underclear
  raises

include hB in
theorem diffuse_underovercast (x y : B.α) {w : When B} (hw : At P w) (z t p u : B.α) :
    Raises P (Util.diffuse_underovercast B x y w z t p u) := by
  unfold Util.diffuse_underovercast
  raises

include hB in
theorem direct_underclear (x y : B.α) {w : When B} (hw : At P w) (a b c z t p : B.α) :
    Raises P (Util.direct_underclear B x y w a b c z t p) := by
  unfold Util.direct_underclear
  raises

include hB in
theorem global_irradiance_clear (x y : B.α) {w : When B} (hw : At P w) (a b c z t p : B.α) :
    Raises P (Util.global_irradiance_clear B x y w a b c z t p) := by
  unfold Util.global_irradiance_clear
  raises

include hB in
theorem global_irradiance_overcast (x y : B.α) {w : When B} (hw : At P w) (z t p : B.α) :
    Raises P (Util.global_irradiance_overcast B x y w z t p) := by
  unfold Util.global_irradiance_overcast
  raises

include hB in
theorem diffuse_ratio (x y : B.α) :
    Raises P (Util.diffuse_ratio B x y) := by
  unfold Util.diffuse_ratio
  raises

include hB in
theorem get_gas_transmittance (band : String) (x : B.α) :
    Raises P (Rest.get_gas_transmittance B band x) := by
  unfold Rest.get_gas_transmittance
  raises

include hB in
theorem get_ozone_transmittance (band : String) (x y : B.α) :
    Raises P (Rest.get_ozone_transmittance B band x y) := by
  unfold Rest.get_ozone_transmittance
  raises

include hB in
theorem get_rayleigh_transmittance (band : String) (x : B.α) :
    Raises P (Rest.get_rayleigh_transmittance B band x) := by
  unfold Rest.get_rayleigh_transmittance
  raises

include hB in
theorem get_sky_albedo (band : String) (x y : B.α) :
    Raises P (Rest.get_sky_albedo B band x y) := by
  unfold Rest.get_sky_albedo
  raises

include hB in
theorem get_aerosol_transmittance (band : String) (x y : B.α) :
    Raises P (Rest.get_aerosol_transmittance B band x y) := by
  unfold Rest.get_aerosol_transmittance
  raises

include hB in
theorem get_aerosol_scattering_transmittance (hk : P .keyError) (band : String) (x y : B.α) :
    Raises P (Rest.get_aerosol_scattering_transmittance B band x y) := by
  unfold Rest.get_aerosol_scattering_transmittance
  raises

include hB in
theorem get_water_vapor_transmittance_coefficients (band : String) (x : B.α) :
    Raises P (Rest.get_water_vapor_transmittance_coefficients B band x) := by
  unfold Rest.get_water_vapor_transmittance_coefficients
  raises

include hB in
theorem get_water_vapor_transmittance (hi : P .indexError) (band : String) (x y : B.α) :
    Raises P (Rest.get_water_vapor_transmittance B band x y) := by
  unfold Rest.get_water_vapor_transmittance
  raises

include hB in
theorem get_backscattered_diffuse_irradiance_by_band (band : String) (x y a b : B.α) :
    Raises P (Rest.get_backscattered_diffuse_irradiance_by_band B band x y a b) := by
  unfold Rest.get_backscattered_diffuse_irradiance_by_band
  raises

end Elem

namespace Scal

variable {P : PyErr → Prop} {B : Backend} (hB : Scal P B)

include hB in
theorem get_sunrise_sunset_transit (ho : P .overflow) (x y : B.α) {w : When B} (hw : At P w) :
    Raises P (Util.get_sunrise_sunset_transit B x y w) := by
  unfold Util.get_sunrise_sunset_transit
  refine Raises.bind (At.guard hw) fun _ => Raises.bind (At.asDatetime hw) fun d => ?_
  dsimp only
  refine Raises.bind (hB.toElem.sunriseDecl _) fun _ => Raises.bind (hB.toElem.timeAdst _) fun _ => Raises.bind (hB.toElem.sunriseHa _ _) fun _ => ?_
  refine Raises.bind (hB.tdHours _) fun _ => Raises.bind (add_raises ho _ _) fun _ => ?_
  refine Raises.bind (hB.tdHours _) fun _ => Raises.bind (add_raises ho _ _) fun _ => ?_
  exact Raises.bind (hB.tdHours _) fun _ => Raises.bind (add_raises ho _ _) fun _ => Raises.pure _

include hB in
theorem get_sunrise_sunset (ho : P .overflow) (x y : B.α) {w : When B} (hw : At P w) :
    Raises P (Util.get_sunrise_sunset B x y w) := by
  have hE := hB.toElem
  unfold Util.get_sunrise_sunset
  raises

include hB in
theorem get_sunrise_time (ho : P .overflow) (x y : B.α) {w : When B} (hw : At P w) :
    Raises P (Util.get_sunrise_time B x y w) := by
  have hE := hB.toElem
  unfold Util.get_sunrise_time
  raises

include hB in
theorem get_sunset_time (ho : P .overflow) (x y : B.α) {w : When B} (hw : At P w) :
    Raises P (Util.get_sunset_time B x y w) := by
  have hE := hB.toElem
  unfold Util.get_sunset_time
  raises

include hB in
theorem get_transit_time (ho : P .overflow) (x y : B.α) {w : When B} (hw : At P w) :
    Raises P (Util.get_transit_time B x y w) := by
  have hE := hB.toElem
  unfold Util.get_transit_time
  raises

include hB in
theorem extraterrestrial_irrad (x y : B.α) {w : When B} (hw : At P w) (z : B.α) :
    Raises P (Util.extraterrestrial_irrad B x y w z) := by
  have hE := hB.toElem
  unfold Util.extraterrestrial_irrad
  raises

include hB in
theorem clear_index (u x y : B.α) {w : When B} (hw : At P w) :
    Raises P (Util.clear_index B u x y w) := by
  have hE := hB.toElem
  unfold Util.clear_index
  raises

end Scal

namespace Ops

variable {P : PyErr → Prop} {B : Backend} (hB : Ops P B)

include hB in
theorem get_pressure_with_elevation_warn (h a b c d e f g : B.α) :
    Raises P (Elevation.get_pressure_with_elevation_warn B h a b c d e f g) := by
  have hE := hB.toElem
  have hS := hB.toScal
  unfold Elevation.get_pressure_with_elevation_warn
  raises

include hB in
theorem get_pressure_with_elevation (h a b c d e f g : B.α) :
    Raises P (Elevation.get_pressure_with_elevation B h a b c d e f g) := by
  have hE := hB.toElem
  have hS := hB.toScal
  unfold Elevation.get_pressure_with_elevation
  raises

include hB in
theorem get_aerosol_forward_scatterance_factor (x : B.α) :
    Raises P (Rest.get_aerosol_forward_scatterance_factor B x) := by
  have hE := hB.toElem
  have hS := hB.toScal
  unfold Rest.get_aerosol_forward_scatterance_factor
  raises

include hB in
theorem get_aerosol_optical_depth (x y z : B.α) :
    Raises P (Rest.get_aerosol_optical_depth B x y z) := by
  have hE := hB.toElem
  have hS := hB.toScal
  unfold Rest.get_aerosol_optical_depth
  raises

include hB in
theorem get_aerosol_scattering_correction_factor (band : String) (x y : B.α) :
    Raises P (Rest.get_aerosol_scattering_correction_factor B band x y) := by
  have hE := hB.toElem
  have hS := hB.toScal
  unfold Rest.get_aerosol_scattering_correction_factor
  raises

include hB in
theorem pyMin (x y : B.α) :
    Raises P (Rest.pyMin B x y) := by
  have hE := hB.toElem
  have hS := hB.toScal
  unfold Rest.pyMin
  raises

include hB in
theorem get_nitrogen_transmittance (band : String) (x y : B.α) :
    Raises P (Rest.get_nitrogen_transmittance B band x y) := by
  have hE := hB.toElem
  have hS := hB.toScal
  unfold Rest.get_nitrogen_transmittance
  raises

include hB in
theorem get_optical_mass_rayleigh (x y : B.α) :
    Raises P (Rest.get_optical_mass_rayleigh B x y) := by
  have hE := hB.toElem
  have hS := hB.toScal
  unfold Rest.get_optical_mass_rayleigh
  raises

include hB in
theorem get_optical_mass_ozone (x : B.α) :
    Raises P (Rest.get_optical_mass_ozone B x) := by
  have hE := hB.toElem
  have hS := hB.toScal
  unfold Rest.get_optical_mass_ozone
  raises

include hB in
theorem get_optical_mass_water (x : B.α) :
    Raises P (Rest.get_optical_mass_water B x) := by
  have hE := hB.toElem
  have hS := hB.toScal
  unfold Rest.get_optical_mass_water
  raises

include hB in
theorem get_optical_mass_aerosol (x : B.α) :
    Raises P (Rest.get_optical_mass_aerosol B x) := by
  have hE := hB.toElem
  have hS := hB.toScal
  unfold Rest.get_optical_mass_aerosol
  raises

include hB in
theorem simulateRow (hi : P .indexError) (x y : B.α) (hz : List B.α) (z t p : B.α) {time : DateTime} (hw : At P (.dt time : When B)) :
    Raises P (Simulate.simulateRow B x y hz z t p time) := by
  have hE := hB.toElem
  have hS := hB.toScal
  unfold Simulate.simulateRow
  refine Raises.bind (hB.toElem.get_altitude _ _ hw _ _ _) fun _ => Raises.bind (hB.toElem.get_azimuth _ _ hw _) fun _ => ?_
  refine Raises.bind (hB.round _) fun _ => Raises.bind (Raises.pyIndexInt hi _ _) fun _ => ?_
  raises

end Ops

end Verif
