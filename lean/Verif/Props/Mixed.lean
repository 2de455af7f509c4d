import Verif.Proofs.Mixed
import Verif.Proofs.Position
import Verif.Proofs.SimInst
import Verif.Proofs.FloatNumpy

/-!
# C121 arrays are rejected with `TypeError` after `use_math`

Wherever a call with numbers returns, the same call with arrays (of a size other than 1) in place of some of the numbers
for latitude, longitude and elevation raises `TypeError`; and a call with numbers alone is not affected by arrays being
possible.
-/

namespace Verif.Props

open Pysolar Pysolar.Numeric

variable {B : Backend}

/-- `x'` is the number `x` or an array. -/
def MaybeArray (x : B.α) (x' : (mixB B).α) : Prop := x' = mixScalar x ∨ x' = mixArray B

/-- Follows `e'`: an array if `e'` is, and else a number. -/
def Follows (e' : (mixB B).α) (x : B.α) (x' : (mixB B).α) : Prop :=
  MaybeArray x x' ∧ (e' = mixArray B → x' = mixArray B) ∧ (e' ≠ mixArray B → x' = mixScalar x)

theorem mix_cases (x : (mixB B).α) : x = mixArray B ∨ ∃ y, x = mixScalar y := by
  cases x with
  | none => exact .inl rfl
  | some y => exact .inr ⟨y, rfl⟩

theorem scalar_ne (x : B.α) : (mixScalar x : (mixB B).α) ≠ mixArray B := fun h => by cases h

variable (h0 : ∀ x, B.sin x ≠ .error .zeroDivision)

include h0

theorem follows_radial {elev lat : B.α} {elev' : (mixB B).α} (h : MaybeArray elev elev') :
    RelM True (Follows elev') (Solar.get_projected_radial_distance B elev lat)
      (Solar.get_projected_radial_distance (mixB B) elev' (mixScalar lat)) := by
  rcases h with rfl | rfl
  · exact RelM.mono ((mixScal B h0).get_projected_radial_distance rfl rfl)
      fun y y' hy => ⟨.inl hy, fun hf => (scalar_ne _ hf).elim, fun _ => hy⟩
  · unfold Solar.get_projected_radial_distance
    refine RelM.bind ((mixScal B h0).get_flattened_latitude rfl) fun y y' hy => ?_
    subst hy
    refine RelM.bind ((mixScal B h0).cos ((mixScal B h0).radians rfl)) fun a a' ha => ?_
    subst ha
    refine RelM.bind ((mixScal B h0).cos ((mixScal B h0).radians rfl)) fun b b' hb => ?_
    subst hb
    exact ⟨.inr rfl, fun _ => rfl, fun h => (h rfl).elim⟩

theorem follows_axial {elev lat : B.α} {elev' : (mixB B).α} (h : MaybeArray elev elev') :
    RelM True (Follows elev') (Solar.get_projected_axial_distance B elev lat)
      (Solar.get_projected_axial_distance (mixB B) elev' (mixScalar lat)) := by
  rcases h with rfl | rfl
  · exact RelM.mono ((mixScal B h0).get_projected_axial_distance rfl rfl)
      fun y y' hy => ⟨.inl hy, fun hf => (scalar_ne _ hf).elim, fun _ => hy⟩
  · unfold Solar.get_projected_axial_distance
    refine RelM.bind ((mixScal B h0).get_flattened_latitude rfl) fun y y' hy => ?_
    subst hy
    refine RelM.bind ((mixScal B h0).sin ((mixScal B h0).radians rfl)) fun a a' ha => ?_
    subst ha
    refine RelM.bind ((mixScal B h0).sin ((mixScal B h0).radians rfl)) fun b b' hb => ?_
    subst hb
    exact ⟨.inr rfl, fun _ => rfl, fun h => (h rfl).elim⟩

/-- The parallax is the first function of all the places, and rejects arrays. -/
theorem parallax_array {prd ehp lha gsd : B.α} {v} (hok : Solar.get_parallax_sun_right_ascension B prd ehp lha gsd = .ok v)
    {prd' lha' : (mixB B).α} (h1 : MaybeArray prd prd') (h2 : MaybeArray lha lha')
    (h : prd' = mixArray B ∨ lha' = mixArray B) :
    Solar.get_parallax_sun_right_ascension (mixB B) prd' (mixScalar ehp) lha' (mixScalar gsd) = .error .typeError := by
  unfold Solar.get_parallax_sun_right_ascension at hok ⊢
  refine mix_step ((mixScal B h0).sin ((mixScal B h0).radians rfl)) hok fun a a' ha hok => ?_
  subst ha
  rcases h2 with rfl | rfl
  · refine mix_step ((mixScal B h0).sin ((mixScal B h0).radians rfl)) hok fun b b' hb hok => ?_
    subst hb
    refine mix_step ((mixScal B h0).cos ((mixScal B h0).radians rfl)) hok fun c c' hc hok => ?_
    subst hc
    refine mix_step ((mixScal B h0).sin ((mixScal B h0).radians rfl)) hok fun d d' hd hok => ?_
    subst hd
    refine mix_step ((mixScal B h0).cos ((mixScal B h0).radians rfl)) hok fun e e' he hok => ?_
    subst he
    rcases h with rfl | h
    · rfl
    · exact (scalar_ne _ h).elim
  · rfl

/-- **C121** the common part of the functions of position. -/
theorem C121_topocentric_position {lat lon elev : B.α} {w : When B} {p} (hok : Solar.get_topocentric_position B lat lon w elev = .ok p)
    {lat' lon' elev' : (mixB B).α} (h1 : MaybeArray lat lat') (h2 : MaybeArray lon lon') (h3 : MaybeArray elev elev')
    (h : lat' = mixArray B ∨ lon' = mixArray B ∨ elev' = mixArray B) :
    Solar.get_topocentric_position (mixB B) lat' lon' (mixWhen w) elev' = .error .typeError := by
  unfold Solar.get_topocentric_position at hok ⊢
  refine mix_step ((mixScal B h0).guard rfl) hok fun _ _ _ hok => ?_
  rcases h1 with rfl | rfl
  swap
  · rfl
  refine mix_step (follows_radial h0 h3) hok fun prd prd' hprd hok => ?_
  refine mix_step (follows_axial h0 h3) hok fun pad pad' hpad hok => ?_
  refine mix_step ((mixScal B h0).get_julian_solar_day rfl) hok fun jd jd' hjd hok => ?_
  refine mix_step ((mixScal B h0).get_julian_ephemeris_day rfl) hok fun jde jde' hjde hok => ?_
  have hjce := (mixScal B h0).get_julian_ephemeris_century hjde
  have hjme := (mixScal B h0).get_julian_ephemeris_millennium hjce
  refine mix_step ((mixScal B h0).get_geocentric_latitude hjme) hok fun glat glat' hglat hok => ?_
  refine mix_step ((mixScal B h0).get_geocentric_longitude hjme) hok fun glon glon' hglon hok => ?_
  refine mix_step ((mixScal B h0).get_sun_earth_distance hjme) hok fun sed sed' hsed hok => ?_
  refine mix_step ((mixScal B h0).get_aberration_correction hsed) hok fun ab ab' hab hok => ?_
  refine mix_step ((mixScal B h0).get_equatorial_horizontal_parallax hsed) hok fun ehp ehp' hehp hok => ?_
  refine mix_step ((mixScal B h0).get_nutation hjce) hok fun nut nut' hnut hok => ?_
  refine mix_step ((mixScal B h0).get_apparent_sidereal_time hjd hjme hnut) hok fun ast ast' hast hok => ?_
  have hobl := (mixScal B h0).get_true_ecliptic_obliquity hjme hnut
  have hasl := (mixScal B h0).get_apparent_sun_longitude hglon hnut hab
  refine mix_step ((mixScal B h0).get_geocentric_sun_right_ascension hasl hobl hglat) hok fun ra ra' hra hok => ?_
  refine mix_step ((mixScal B h0).get_geocentric_sun_declination hasl hobl hglat) hok fun gsd gsd' hgsd hok => ?_
  subst hast
  subst hra
  subst hehp
  subst hgsd
  cases hm : Solar.get_parallax_sun_right_ascension B prd ehp (Solar.get_local_hour_angle B ast lon ra) gsd with
  | error e =>
    dsimp only at hok
    rw [hm] at hok
    cases hok
  | ok v =>
    have hlha : MaybeArray (Solar.get_local_hour_angle B ast lon ra)
        (Solar.get_local_hour_angle (mixB B) (mixScalar ast) lon' (mixScalar ra)) := by
      rcases h2 with rfl | rfl
      · exact .inl rfl
      · exact .inr rfl
    have := parallax_array h0 hm hprd.1 hlha (by
      rcases h with h | h | h
      · exact (scalar_ne _ h).elim
      · subst h
        exact .inr rfl
      · exact .inl (hprd.2.1 h))
    dsimp only
    exact (congrArg (· >>= _) this).trans rfl

/-- A call that returns was let through by the decorator. -/
theorem guard_of_position {lat lon elev : B.α} {w : When B} {p} (hok : Solar.get_topocentric_position B lat lon w elev = .ok p) :
    TzCheck.guard (mixWhen w) = .ok () := by
  unfold Solar.get_topocentric_position at hok
  cases hm : TzCheck.guard w with
  | error e => rw [hm] at hok; cases hok
  | ok u =>
    obtain ⟨y', h', -⟩ := RelM.of_ok ((mixScal B h0).guard (w' := mixWhen w) rfl) hm
    exact h'

/-- **C121** `get_altitude`. -/
theorem C121_altitude {lat lon elev : B.α} {w : When B} {p} (hok : Solar.get_topocentric_position B lat lon w elev = .ok p)
    {lat' lon' elev' : (mixB B).α} (h1 : MaybeArray lat lat') (h2 : MaybeArray lon lon') (h3 : MaybeArray elev elev')
    (h : lat' = mixArray B ∨ lon' = mixArray B ∨ elev' = mixArray B) (temp' pres' : (mixB B).α) :
    Solar.get_altitude (mixB B) lat' lon' (mixWhen w) elev' temp' pres' = .error .typeError := by
  unfold Solar.get_altitude
  rw [guard_of_position h0 hok, C121_topocentric_position h0 hok h1 h2 h3 h]
  rfl

/-- **C121** `get_azimuth`. -/
theorem C121_azimuth {lat lon elev : B.α} {w : When B} {p} (hok : Solar.get_topocentric_position B lat lon w elev = .ok p)
    {lat' lon' elev' : (mixB B).α} (h1 : MaybeArray lat lat') (h2 : MaybeArray lon lon') (h3 : MaybeArray elev elev')
    (h : lat' = mixArray B ∨ lon' = mixArray B ∨ elev' = mixArray B) :
    Solar.get_azimuth (mixB B) lat' lon' (mixWhen w) elev' = .error .typeError := by
  unfold Solar.get_azimuth
  rw [guard_of_position h0 hok, C121_topocentric_position h0 hok h1 h2 h3 h]
  rfl

/-- **C121** `get_position`. -/
theorem C121_position {lat lon elev : B.α} {w : When B} {p} (hok : Solar.get_topocentric_position B lat lon w elev = .ok p)
    {lat' lon' elev' : (mixB B).α} (h1 : MaybeArray lat lat') (h2 : MaybeArray lon lon') (h3 : MaybeArray elev elev')
    (h : lat' = mixArray B ∨ lon' = mixArray B ∨ elev' = mixArray B) (temp' pres' : (mixB B).α) :
    Solar.get_position (mixB B) lat' lon' (mixWhen w) elev' temp' pres' = .error .typeError := by
  unfold Solar.get_position
  rw [guard_of_position h0 hok, C121_topocentric_position h0 hok h1 h2 h3 h]
  rfl

/-! ## The approximations -/

/-- Longitude enters the hour angle, without a function of `math`. -/
theorem hour_angle_array {lon : B.α} {lon' : (mixB B).α} {w : When B} (h : MaybeArray lon lon') :
    RelM True (Follows lon') (Solar.get_hour_angle B w lon) (Solar.get_hour_angle (mixB B) (mixWhen w) lon') := by
  rcases h with rfl | rfl
  · exact RelM.mono ((mixScal B h0).get_hour_angle rfl rfl)
      fun y y' hy => ⟨.inl hy, fun hf => (scalar_ne _ hf).elim, fun _ => hy⟩
  · unfold Solar.get_hour_angle Solar.get_solar_time
    refine RelM.bind ((mixScal B h0).guard rfl) fun _ _ _ => ?_
    refine RelM.bind (R := fun (_ : B.α) (x' : (mixB B).α) => x' = mixArray B) ?_ ?_
    · refine RelM.bind ((mixScal B h0).guard rfl) fun _ _ _ => ?_
      refine RelM.bind ((mixScal B h0).tm_hour rfl) fun y y' hy => ?_
      refine RelM.bind ((mixScal B h0).tm_min rfl) fun z z' hz => ?_
      refine RelM.bind ((mixScal B h0).tm_yday rfl) fun u u' hu => ?_
      refine RelM.bind ((mixScal B h0).equation_of_time hu) fun v v' hv => ?_
      subst hy hz hv
      rfl
    · rintro y _ rfl
      exact ⟨.inr rfl, fun _ => rfl, fun h => (h rfl).elim⟩

/-- **C121** `get_altitude_fast`. -/
theorem C121_altitude_fast {lat lon : B.α} {w : When B} {v} (hok : Solar.get_altitude_fast B lat lon w = .ok v)
    {lat' lon' : (mixB B).α} (h1 : MaybeArray lat lat') (h2 : MaybeArray lon lon')
    (h : lat' = mixArray B ∨ lon' = mixArray B) :
    Solar.get_altitude_fast (mixB B) lat' lon' (mixWhen w) = .error .typeError := by
  unfold Solar.get_altitude_fast at hok ⊢
  refine mix_step ((mixScal B h0).guard rfl) hok fun _ _ _ hok => ?_
  refine mix_step ((mixScal B h0).tm_yday rfl) hok fun y y' hy hok => ?_
  refine mix_step ((mixScal B h0).get_declination hy) hok fun d d' hd hok => ?_
  subst hd
  refine mix_step (hour_angle_array h0 h2) hok fun z z' hz hok => ?_
  rcases h1 with rfl | rfl
  swap
  · rfl
  rcases h with h | h
  · exact (scalar_ne _ h).elim
  · refine mix_step ((mixScal B h0).cos ((mixScal B h0).radians rfl)) hok fun a a' ha hok => ?_
    refine mix_step ((mixScal B h0).cos ((mixScal B h0).radians rfl)) hok fun b b' hb hok => ?_
    cases hz.2.1 h
    rfl

/-- **C121** `get_azimuth_fast`. -/
theorem C121_azimuth_fast {lat lon : B.α} {w : When B} {v} (hok : Solar.get_azimuth_fast B lat lon w = .ok v)
    {lat' lon' : (mixB B).α} (h1 : MaybeArray lat lat') (h2 : MaybeArray lon lon')
    (h : lat' = mixArray B ∨ lon' = mixArray B) :
    Solar.get_azimuth_fast (mixB B) lat' lon' (mixWhen w) = .error .typeError := by
  unfold Solar.get_azimuth_fast at hok ⊢
  refine mix_step ((mixScal B h0).tm_yday rfl) hok fun y y' hy hok => ?_
  refine mix_step ((mixScal B h0).get_declination hy) hok fun d d' hd hok => ?_
  refine mix_step (hour_angle_array h0 h2) hok fun z z' hz hok => ?_
  cases hm : Solar.get_altitude_fast B lat lon w with
  | error e => rw [hm] at hok; cases hok
  | ok p => rw [C121_altitude_fast h0 hm h1 h2 h]; rfl

/-! ## radiation.py -/

omit h0 in
/-- **C121** `get_air_mass_ratio`. -/
theorem C121_air_mass_ratio : Radiation.get_air_mass_ratio (mixB B) (mixArray B) = .error .typeError := rfl

/-- **C121** `get_radiation_direct`. -/
theorem C121_radiation_direct {alt : B.α} {w : When B} {v} (hok : Radiation.get_radiation_direct B w alt = .ok v) :
    Radiation.get_radiation_direct (mixB B) (mixWhen w) (mixArray B) = .error .typeError := by
  unfold Radiation.get_radiation_direct at hok ⊢
  refine mix_step ((mixScal B h0).tm_yday rfl) hok fun y y' hy hok => ?_
  refine mix_step ((mixScal B h0).get_apparent_extraterrestrial_flux hy) hok fun a a' ha hok => ?_
  refine mix_step ((mixScal B h0).get_optical_depth hy) hok fun b b' hb hok => ?_
  rfl

/-! ## util.py -/

/-- **C121** sunrise, sunset and transit. -/
theorem C121_sunrise {lat lon : B.α} {w : When B} {v} (hok : Util.get_sunrise_sunset_transit B lat lon w = .ok v)
    {lat' lon' : (mixB B).α} (h1 : MaybeArray lat lat') (h2 : MaybeArray lon lon')
    (h : lat' = mixArray B ∨ lon' = mixArray B) :
    Util.get_sunrise_sunset_transit (mixB B) lat' lon' (mixWhen w) = .error .typeError := by
  unfold Util.get_sunrise_sunset_transit at hok ⊢
  refine mix_step ((mixScal B h0).guard rfl) hok fun _ _ _ hok => ?_
  refine mix_step ((mixScalS B h0).asDatetime rfl) hok fun d d' hd hok => ?_
  subst hd
  refine mix_step ((mixScal B h0).sunriseDecl rfl) hok fun a a' ha hok => ?_
  refine mix_step ((mixScal B h0).timeAdst rfl) hok fun b b' hb hok => ?_
  subst ha hb
  rcases h1 with rfl | rfl
  swap
  · unfold Util.sunriseHa at hok ⊢
    cases hm : B.cos (B.radians 90.833) with
    | error e => rw [hm] at hok; cases hok
    | ok c =>
      have : (mixB B).cos ((mixB B).radians 90.833) = .ok (some c) := by
        show some <$> B.cos (B.radians 90.833) = _
        rw [hm]
        rfl
      rw [this]
      rfl
  rcases h with h | h
  · exact (scalar_ne _ h).elim
  subst h
  refine mix_step ((mixScal B h0).sunriseHa rfl rfl) hok fun c c' hc hok => ?_
  subst hc
  rfl

/-- **C121** the functions of util.py that call `get_sunrise_sunset_transit`. -/
theorem C121_sunrise_parts {lat lon : B.α} {w : When B} {v} (hok : Util.get_sunrise_sunset_transit B lat lon w = .ok v)
    {lat' lon' : (mixB B).α} (h1 : MaybeArray lat lat') (h2 : MaybeArray lon lon')
    (h : lat' = mixArray B ∨ lon' = mixArray B) :
    Util.get_sunrise_sunset (mixB B) lat' lon' (mixWhen w) = .error .typeError
    ∧ Util.get_sunrise_time (mixB B) lat' lon' (mixWhen w) = .error .typeError
    ∧ Util.get_sunset_time (mixB B) lat' lon' (mixWhen w) = .error .typeError
    ∧ Util.get_transit_time (mixB B) lat' lon' (mixWhen w) = .error .typeError := by
  have ht := C121_sunrise h0 hok h1 h2 h
  have hg : TzCheck.guard (mixWhen w) = .ok () := by
    unfold Util.get_sunrise_sunset_transit at hok
    cases hm : TzCheck.guard w with
    | error e => rw [hm] at hok; cases hok
    | ok u =>
      obtain ⟨y', h', -⟩ := RelM.of_ok ((mixScal B h0).guard (w' := mixWhen w) rfl) hm
      exact h'
  refine ⟨?_, ?_, ?_, ?_⟩
  · unfold Util.get_sunrise_sunset; rw [hg, ht]; rfl
  · unfold Util.get_sunrise_time; rw [hg, ht]; rfl
  · unfold Util.get_sunset_time; rw [hg, ht]; rfl
  · unfold Util.get_transit_time; rw [hg, ht]; rfl

/-- **C121** the functions of util.py that call `get_altitude`. -/
theorem C121_irradiance {lat lon elev : B.α} {w : When B} {p} (hok : Solar.get_topocentric_position B lat lon w elev = .ok p)
    {lat' lon' elev' : (mixB B).α} (h1 : MaybeArray lat lat') (h2 : MaybeArray lon lon') (h3 : MaybeArray elev elev')
    (h : lat' = mixArray B ∨ lon' = mixArray B ∨ elev' = mixArray B) (temp' pres' TL' : (mixB B).α) :
    Util.solarelevation_function_clear (mixB B) lat' lon' (mixWhen w) temp' pres' elev' = .error .typeError
    ∧ Util.solarelevation_function_overcast (mixB B) lat' lon' (mixWhen w) elev' temp' pres' = .error .typeError
    ∧ Util.global_irradiance_overcast (mixB B) lat' lon' (mixWhen w) elev' temp' pres' = .error .typeError
    ∧ Util.diffuse_underclear (mixB B) lat' lon' (mixWhen w) elev' temp' pres' TL' = .error .typeError := by
  have ht := C121_altitude h0 hok h1 h2 h3 h temp' pres'
  have hg := guard_of_position h0 hok
  refine ⟨?_, ?_, ?_, ?_⟩
  · unfold Util.solarelevation_function_clear; rw [hg, ht]; rfl
  · unfold Util.solarelevation_function_overcast; rw [hg, ht]; rfl
  · unfold Util.global_irradiance_overcast; rw [hg, ht]; rfl
  · unfold Util.diffuse_underclear; rw [hg, ht]; rfl

/-- **C121** `extraterrestrial_irrad`. -/
theorem C121_extraterrestrial {lat lon SC : B.α} {w : When B} {v} (hok : Util.extraterrestrial_irrad B lat lon w SC = .ok v)
    {lat' lon' : (mixB B).α} (h1 : MaybeArray lat lat') (h2 : MaybeArray lon lon')
    (h : lat' = mixArray B ∨ lon' = mixArray B) (SC' : (mixB B).α) :
    Util.extraterrestrial_irrad (mixB B) lat' lon' (mixWhen w) SC' = .error .typeError := by
  unfold Util.extraterrestrial_irrad at hok ⊢
  refine mix_step ((mixScal B h0).guard rfl) hok fun _ _ _ hok => ?_
  refine mix_step ((mixScal B h0).utcYday rfl) hok fun y y' hy hok => ?_
  subst hy
  refine mix_step ((mixScal B h0).cos rfl) hok fun a1 a1' _ hok => ?_
  refine mix_step ((mixScal B h0).sin rfl) hok fun a2 a2' _ hok => ?_
  refine mix_step ((mixScal B h0).cos rfl) hok fun a3 a3' _ hok => ?_
  refine mix_step ((mixScal B h0).sin rfl) hok fun a4 a4' _ hok => ?_
  refine mix_step ((mixScal B h0).get_declination rfl) hok fun d d' hd hok => ?_
  subst hd
  refine mix_step (hour_angle_array h0 h2) hok fun z z' hz hok => ?_
  rcases h1 with rfl | rfl
  swap
  · rfl
  rcases h with h | h
  · exact (scalar_ne _ h).elim
  refine mix_step ((mixScal B h0).sin ((mixScal B h0).radians rfl)) hok fun b1 b1' _ hok => ?_
  refine mix_step ((mixScal B h0).sin ((mixScal B h0).radians rfl)) hok fun b2 b2' _ hok => ?_
  refine mix_step ((mixScal B h0).cos ((mixScal B h0).radians rfl)) hok fun b3 b3' _ hok => ?_
  refine mix_step ((mixScal B h0).cos ((mixScal B h0).radians rfl)) hok fun b4 b4' _ hok => ?_
  cases hz.2.1 h
  rfl

/-- **C121** `clear_index`. -/
theorem C121_clear_index {lat lon : B.α} {w : When B} {v} (hok : Util.extraterrestrial_irrad B lat lon w = .ok v)
    {lat' lon' : (mixB B).α} (h1 : MaybeArray lat lat') (h2 : MaybeArray lon lon')
    (h : lat' = mixArray B ∨ lon' = mixArray B) (ghi' : (mixB B).α) :
    Util.clear_index (mixB B) ghi' lat' lon' (mixWhen w) = .error .typeError := by
  have ht := C121_extraterrestrial h0 hok h1 h2 h ((mixB B).lit Util.SC_default)
  have hg : TzCheck.guard (mixWhen w) = .ok () := by
    unfold Util.extraterrestrial_irrad at hok
    cases hm : TzCheck.guard w with
    | error e => rw [hm] at hok; cases hok
    | ok u => exact (RelM.of_ok ((mixScal B h0).guard (w' := mixWhen w) rfl) hm).choose_spec.1
  unfold Util.clear_index
  rw [hg, ht]
  rfl

/-- **C121** `direct_underclear` and `global_irradiance_clear`. -/
theorem C121_irradiance_clear {lat lon TY AM TL elev temp pres : B.α} {w : When B} {v}
    (hok : Util.direct_underclear B lat lon w TY AM TL elev temp pres = .ok v)
    {lat' lon' elev' : (mixB B).α} (h1 : MaybeArray lat lat') (h2 : MaybeArray lon lon') (h3 : MaybeArray elev elev')
    (h : lat' = mixArray B ∨ lon' = mixArray B ∨ elev' = mixArray B) (temp' pres' : (mixB B).α) :
    Util.direct_underclear (mixB B) lat' lon' (mixWhen w) (mixScalar TY) (mixScalar AM) (mixScalar TL) elev' temp' pres'
      = .error .typeError
    ∧ Util.global_irradiance_clear (mixB B) lat' lon' (mixWhen w) (mixScalar TY) (mixScalar AM) (mixScalar TL) elev'
        temp' pres' = .error .typeError := by
  have key : ∀ temp' pres', Util.direct_underclear (mixB B) lat' lon' (mixWhen w) (mixScalar TY) (mixScalar AM)
      (mixScalar TL) elev' temp' pres' = .error .typeError := by
    intro temp' pres'
    unfold Util.direct_underclear at hok ⊢
    refine mix_step ((mixScal B h0).guard rfl) hok fun _ _ _ hok => ?_
    refine mix_step ((mixScal B h0).mean_earth_sun_distance rfl) hok fun k k' _ hok => ?_
    refine mix_step ((mixScal B h0).declination_degree rfl rfl) hok fun d d' hd hok => ?_
    subst hd
    refine mix_step ((mixScal B h0).exp rfl) hok fun e e' _ hok => ?_
    cases ht : Solar.get_topocentric_position B lat lon w elev with
    | error x =>
      exfalso
      unfold Solar.get_altitude at hok
      cases hm : TzCheck.guard w with
      | error e => rw [hm] at hok; cases hok
      | ok u => rw [hm, ht] at hok; cases hok
    | ok p =>
      rw [C121_altitude h0 ht h1 h2 h3 h temp' pres']
      rfl
  refine ⟨key temp' pres', ?_⟩
  have hg : TzCheck.guard (mixWhen w) = .ok () := by
    unfold Util.direct_underclear at hok
    cases hm : TzCheck.guard w with
    | error e => rw [hm] at hok; cases hok
    | ok u => exact (RelM.of_ok ((mixScal B h0).guard (w' := mixWhen w) rfl) hm).choose_spec.1
  unfold Util.global_irradiance_clear
  rw [hg, key]
  rfl

/-! ## elevation.py: the comparison with the ceiling is ambiguous -/

omit h0 in
/-- **C121** `get_pressure_with_elevation` raises `ValueError` for an array of heights. -/
theorem C121_pressure (Ps Ts Tl Hb R g M : (mixB B).α) :
    Elevation.get_pressure_with_elevation (mixB B) (mixArray B) Ps Ts Tl Hb R g M = .error .valueError := rfl

/-! ## Numbers are not affected -/

/-- **C121** the outcome on numbers is what it is without arrays. -/
theorem C121_numbers (lat lon elev temp pres : B.α) (w : When B) :
    Solar.get_altitude (mixB B) (mixScalar lat) (mixScalar lon) (mixWhen w) (mixScalar elev) (mixScalar temp) (mixScalar pres)
      = (mixScalar <$> Solar.get_altitude B lat lon w elev temp pres)
    ∧ Solar.get_azimuth (mixB B) (mixScalar lat) (mixScalar lon) (mixWhen w) (mixScalar elev)
      = (mixScalar <$> Solar.get_azimuth B lat lon w elev)
    ∧ Solar.get_altitude_fast (mixB B) (mixScalar lat) (mixScalar lon) (mixWhen w)
      = (mixScalar <$> Solar.get_altitude_fast B lat lon w)
    ∧ Solar.get_azimuth_fast (mixB B) (mixScalar lat) (mixScalar lon) (mixWhen w)
      = (mixScalar <$> Solar.get_azimuth_fast B lat lon w) := by
  have key : ∀ {m : Py B.α} {m' : Py (mixB B).α}, RelM True (fun x y => y = mixScalar x) m m' → m' = (mixScalar <$> m) := by
    intro m m' h
    cases m with
    | error e => exact h trivial
    | ok y =>
      cases m' with
      | error e => exact h.elim
      | ok y' => exact congrArg Except.ok h
  exact ⟨key ((mixScal B h0).get_altitude rfl rfl rfl rfl rfl rfl), key ((mixScal B h0).get_azimuth rfl rfl rfl rfl),
    key ((mixScal B h0).get_altitude_fast rfl rfl rfl), key ((mixScal B h0).get_azimuth_fast rfl rfl rfl)⟩

/-! ## The math module -/

section

omit h0

open Verif.Spec

/-- **C121** with the `math` module, at every instant the library covers and for all numbers: an array for the
latitude, the longitude or the elevation makes the functions of position raise `TypeError`. -/
theorem C121_instant (tp : ℝ) {d : DateTime} {c : Civil} (hd : UtcFields d c) (lat lon elev : ℝ)
    {lat' lon' elev' : (mixB (mathB tp)).α} (h1 : MaybeArray (num lat) lat') (h2 : MaybeArray (num lon) lon')
    (h3 : MaybeArray (num elev) elev')
    (h : lat' = mixArray (mathB tp) ∨ lon' = mixArray (mathB tp) ∨ elev' = mixArray (mathB tp))
    (temp' pres' : (mixB (mathB tp)).α) :
    Solar.get_altitude (mixB (mathB tp)) lat' lon' (.dt d) elev' temp' pres' = .error .typeError
    ∧ Solar.get_azimuth (mixB (mathB tp)) lat' lon' (.dt d) elev' = .error .typeError
    ∧ Solar.get_position (mixB (mathB tp)) lat' lon' (.dt d) elev' temp' pres' = .error .typeError :=
  ⟨C121_altitude (math_sin_zero tp) (topo_eval hd lat lon elev) h1 h2 h3 h temp' pres',
    C121_azimuth (math_sin_zero tp) (topo_eval hd lat lon elev) h1 h2 h3 h,
    C121_position (math_sin_zero tp) (topo_eval hd lat lon elev) h1 h2 h3 h temp' pres'⟩

/-- **C121** the same for `get_altitude_fast`. -/
theorem C121_instant_fast (tp : ℝ) {d : DateTime} {c : Civil} (hd : UtcFields d c) (lat lon : ℝ)
    {lat' lon' : (mixB (mathB tp)).α} (h1 : MaybeArray (num lat) lat') (h2 : MaybeArray (num lon) lon')
    (h : lat' = mixArray (mathB tp) ∨ lon' = mixArray (mathB tp)) :
    Solar.get_altitude_fast (mixB (mathB tp)) lat' lon' (.dt d) = .error .typeError :=
  C121_altitude_fast (math_sin_zero tp) (altF_eval hd lat lon) h1 h2 h

/-- The call of test/test_numpy.py:10-17: arrays for latitude and longitude. -/
example (tp : ℝ) :
    Solar.get_altitude (mixB (mathB tp)) (mixArray _) (mixArray _) (.dt sampleDT) = .error .typeError :=
  (C121_instant tp sample_utc 0 0 0 (.inr rfl) (.inr rfl) (.inl (congrArg (fun x : V => some x) (by
    show V.fin _ = V.fin _
    norm_num))) (.inl rfl) _ _).1

end

end Verif.Props
