import Verif.Proofs.SimInst

/-!
# C58 arrays are computed entry by entry, C59 numpy returns what math returns

`arrB tp ι` are numpy arrays of any shape `ι`. For C58 every function of the library that accepts arrays is listed:
the `i`-th entry of its outcome on arrays is its outcome on the `i`-th entries.
-/

namespace Verif.Props

open Pysolar Verif.Spec

variable (tp : ℝ)

/-! ## C58 -/

section

variable {ι : Type} (i : ι)

theorem C58_julian_solar_day (w : When (arrB tp ι)) :
    Solartime.get_julian_solar_day (npB tp) (entryW i w) =
    entry (β := V) i (Solartime.get_julian_solar_day (arrB tp ι) w) :=
  entry_of_rel ((arrEntry tp i).get_julian_solar_day rfl)

theorem C58_julian_ephemeris_day (w : When (arrB tp ι)) :
    Solartime.get_julian_ephemeris_day (npB tp) (entryW i w) =
    entry (β := V) i (Solartime.get_julian_ephemeris_day (arrB tp ι) w) :=
  entry_of_rel ((arrEntry tp i).get_julian_ephemeris_day rfl)

theorem C58_julian_century (x : ι → V) :
    (Solartime.get_julian_century (npB tp) (x i) : V) =
    (show ι → V from Solartime.get_julian_century (arrB tp ι) x) i :=
  ((arrEntry tp i).get_julian_century rfl :).symm

theorem C58_julian_ephemeris_century (x : ι → V) :
    (Solartime.get_julian_ephemeris_century (npB tp) (x i) : V) =
    (show ι → V from Solartime.get_julian_ephemeris_century (arrB tp ι) x) i :=
  ((arrEntry tp i).get_julian_ephemeris_century rfl :).symm

theorem C58_julian_ephemeris_millennium (x : ι → V) :
    (Solartime.get_julian_ephemeris_millennium (npB tp) (x i) : V) =
    (show ι → V from Solartime.get_julian_ephemeris_millennium (arrB tp ι) x) i :=
  ((arrEntry tp i).get_julian_ephemeris_millennium rfl :).symm

theorem C58_equation_of_time (x : ι → V) :
    Solar.equation_of_time (npB tp) (x i) =
    entry (β := V) i (Solar.equation_of_time (arrB tp ι) x) :=
  entry_of_rel ((arrEntry tp i).equation_of_time rfl)

theorem C58_aberration_correction (x : ι → V) :
    Solar.get_aberration_correction (npB tp) (x i) =
    entry (β := V) i (Solar.get_aberration_correction (arrB tp ι) x) :=
  entry_of_rel ((arrEntry tp i).get_aberration_correction rfl)

theorem C58_declination (x : ι → V) :
    Solar.get_declination (npB tp) (x i) =
    entry (β := V) i (Solar.get_declination (arrB tp ι) x) :=
  entry_of_rel ((arrEntry tp i).get_declination rfl)

theorem C58_equatorial_horizontal_parallax (x : ι → V) :
    Solar.get_equatorial_horizontal_parallax (npB tp) (x i) =
    entry (β := V) i (Solar.get_equatorial_horizontal_parallax (arrB tp ι) x) :=
  entry_of_rel ((arrEntry tp i).get_equatorial_horizontal_parallax rfl)

theorem C58_flattened_latitude (x : ι → V) :
    Solar.get_flattened_latitude (npB tp) (x i) =
    entry (β := V) i (Solar.get_flattened_latitude (arrB tp ι) x) :=
  entry_of_rel ((arrEntry tp i).get_flattened_latitude rfl)

theorem C58_heliocentric_latitude (x : ι → V) :
    Solar.get_heliocentric_latitude (npB tp) (x i) =
    entry (β := V) i (Solar.get_heliocentric_latitude (arrB tp ι) x) :=
  entry_of_rel ((arrEntry tp i).get_heliocentric_latitude rfl)

theorem C58_heliocentric_longitude (x : ι → V) :
    Solar.get_heliocentric_longitude (npB tp) (x i) =
    entry (β := V) i (Solar.get_heliocentric_longitude (arrB tp ι) x) :=
  entry_of_rel ((arrEntry tp i).get_heliocentric_longitude rfl)

theorem C58_geocentric_latitude (x : ι → V) :
    Solar.get_geocentric_latitude (npB tp) (x i) =
    entry (β := V) i (Solar.get_geocentric_latitude (arrB tp ι) x) :=
  entry_of_rel ((arrEntry tp i).get_geocentric_latitude rfl)

theorem C58_geocentric_longitude (x : ι → V) :
    Solar.get_geocentric_longitude (npB tp) (x i) =
    entry (β := V) i (Solar.get_geocentric_longitude (arrB tp ι) x) :=
  entry_of_rel ((arrEntry tp i).get_geocentric_longitude rfl)

theorem C58_geocentric_sun_declination (x y z : ι → V) :
    Solar.get_geocentric_sun_declination (npB tp) (x i) (y i) (z i) =
    entry (β := V) i (Solar.get_geocentric_sun_declination (arrB tp ι) x y z) :=
  entry_of_rel ((arrEntry tp i).get_geocentric_sun_declination rfl rfl rfl)

theorem C58_geocentric_sun_right_ascension (x y z : ι → V) :
    Solar.get_geocentric_sun_right_ascension (npB tp) (x i) (y i) (z i) =
    entry (β := V) i (Solar.get_geocentric_sun_right_ascension (arrB tp ι) x y z) :=
  entry_of_rel ((arrEntry tp i).get_geocentric_sun_right_ascension rfl rfl rfl)

theorem C58_local_hour_angle (x y z : ι → V) :
    (Solar.get_local_hour_angle (npB tp) (x i) (y i) (z i) : V) =
    (show ι → V from Solar.get_local_hour_angle (arrB tp ι) x y z) i :=
  ((arrEntry tp i).get_local_hour_angle rfl rfl rfl :).symm

theorem C58_mean_sidereal_time (x : ι → V) :
    (Solar.get_mean_sidereal_time (npB tp) (x i) : V) =
    (show ι → V from Solar.get_mean_sidereal_time (arrB tp ι) x) i :=
  ((arrEntry tp i).get_mean_sidereal_time rfl :).symm

theorem C58_parallax_sun_right_ascension (x y z u : ι → V) :
    Solar.get_parallax_sun_right_ascension (npB tp) (x i) (y i) (z i) (u i) =
    entry (β := V) i (Solar.get_parallax_sun_right_ascension (arrB tp ι) x y z u) :=
  entry_of_rel ((arrEntry tp i).get_parallax_sun_right_ascension rfl rfl rfl rfl)

theorem C58_projected_radial_distance (x y : ι → V) :
    Solar.get_projected_radial_distance (npB tp) (x i) (y i) =
    entry (β := V) i (Solar.get_projected_radial_distance (arrB tp ι) x y) :=
  entry_of_rel ((arrEntry tp i).get_projected_radial_distance rfl rfl)

theorem C58_projected_axial_distance (x y : ι → V) :
    Solar.get_projected_axial_distance (npB tp) (x i) (y i) =
    entry (β := V) i (Solar.get_projected_axial_distance (arrB tp ι) x y) :=
  entry_of_rel ((arrEntry tp i).get_projected_axial_distance rfl rfl)

theorem C58_sun_earth_distance (x : ι → V) :
    Solar.get_sun_earth_distance (npB tp) (x i) =
    entry (β := V) i (Solar.get_sun_earth_distance (arrB tp ι) x) :=
  entry_of_rel ((arrEntry tp i).get_sun_earth_distance rfl)

theorem C58_refraction_correction (x y z : ι → V) :
    Solar.get_refraction_correction (npB tp) (x i) (y i) (z i) =
    entry (β := V) i (Solar.get_refraction_correction (arrB tp ι) x y z) :=
  entry_of_rel ((arrEntry tp i).get_refraction_correction rfl rfl rfl)

theorem C58_topocentric_azimuth_angle (x y z : ι → V) :
    Solar.get_topocentric_azimuth_angle (npB tp) (x i) (y i) (z i) =
    entry (β := V) i (Solar.get_topocentric_azimuth_angle (arrB tp ι) x y z) :=
  entry_of_rel ((arrEntry tp i).get_topocentric_azimuth_angle rfl rfl rfl)

theorem C58_topocentric_elevation_angle (x y z : ι → V) :
    Solar.get_topocentric_elevation_angle (npB tp) (x i) (y i) (z i) =
    entry (β := V) i (Solar.get_topocentric_elevation_angle (arrB tp ι) x y z) :=
  entry_of_rel ((arrEntry tp i).get_topocentric_elevation_angle rfl rfl rfl)

theorem C58_topocentric_local_hour_angle (x y : ι → V) :
    (Solar.get_topocentric_local_hour_angle (npB tp) (x i) (y i) : V) =
    (show ι → V from Solar.get_topocentric_local_hour_angle (arrB tp ι) x y) i :=
  ((arrEntry tp i).get_topocentric_local_hour_angle rfl rfl :).symm

theorem C58_topocentric_sun_declination (x y z u v : ι → V) :
    Solar.get_topocentric_sun_declination (npB tp) (x i) (y i) (z i) (u i) (v i) =
    entry (β := V) i (Solar.get_topocentric_sun_declination (arrB tp ι) x y z u v) :=
  entry_of_rel ((arrEntry tp i).get_topocentric_sun_declination rfl rfl rfl rfl rfl)

theorem C58_topocentric_sun_right_ascension (x y z u v t : ι → V) :
    Solar.get_topocentric_sun_right_ascension (npB tp) (x i) (y i) (z i) (u i) (v i) (t i) =
    entry (β := V) i (Solar.get_topocentric_sun_right_ascension (arrB tp ι) x y z u v t) :=
  entry_of_rel ((arrEntry tp i).get_topocentric_sun_right_ascension rfl rfl rfl rfl rfl rfl)

theorem C58_topocentric_zenith_angle (x y z u v : ι → V) :
    Solar.get_topocentric_zenith_angle (npB tp) (x i) (y i) (z i) (u i) (v i) =
    entry (β := V) i (Solar.get_topocentric_zenith_angle (arrB tp ι) x y z u v) :=
  entry_of_rel ((arrEntry tp i).get_topocentric_zenith_angle rfl rfl rfl rfl rfl)

theorem C58_incidence_angle (x y z u : ι → V) :
    Solar.get_incidence_angle (npB tp) (x i) (y i) (z i) (u i) =
    entry (β := V) i (Solar.get_incidence_angle (arrB tp ι) x y z u) :=
  entry_of_rel ((arrEntry tp i).get_incidence_angle rfl rfl rfl rfl)

theorem C58_solar_time (lon : ι → V) (w : When (arrB tp ι)) :
    Solar.get_solar_time (npB tp) (lon i) (entryW i w) =
    entry (β := V) i (Solar.get_solar_time (arrB tp ι) lon w) :=
  entry_of_rel ((arrEntry tp i).get_solar_time rfl rfl)

theorem C58_hour_angle (lon : ι → V) (w : When (arrB tp ι)) :
    Solar.get_hour_angle (npB tp) (entryW i w) (lon i) =
    entry (β := V) i (Solar.get_hour_angle (arrB tp ι) w lon) :=
  entry_of_rel ((arrEntry tp i).get_hour_angle rfl rfl)

theorem C58_altitude_fast (lat lon : ι → V) (w : When (arrB tp ι)) :
    Solar.get_altitude_fast (npB tp) (lat i) (lon i) (entryW i w) =
    entry (β := V) i (Solar.get_altitude_fast (arrB tp ι) lat lon w) :=
  entry_of_rel ((arrEntry tp i).get_altitude_fast rfl rfl rfl)

theorem C58_azimuth_fast (lat lon : ι → V) (w : When (arrB tp ι)) :
    Solar.get_azimuth_fast (npB tp) (lat i) (lon i) (entryW i w) =
    entry (β := V) i (Solar.get_azimuth_fast (arrB tp ι) lat lon w) :=
  entry_of_rel ((arrEntry tp i).get_azimuth_fast rfl rfl rfl)

theorem C58_topocentric_position (lat lon el : ι → V) (w : When (arrB tp ι)) :
    Solar.get_topocentric_position (npB tp) (lat i) (lon i) (entryW i w) (el i) =
    entry2 (β := V) i (Solar.get_topocentric_position (arrB tp ι) lat lon w el) :=
  entry2_of_rel ((arrEntry tp i).get_topocentric_position rfl rfl rfl rfl)

theorem C58_position (lat lon el t p : ι → V) (w : When (arrB tp ι)) :
    Solar.get_position (npB tp) (lat i) (lon i) (entryW i w) (el i) (t i) (p i) =
    entry2 (β := V) i (Solar.get_position (arrB tp ι) lat lon w el t p) :=
  entry2_of_rel ((arrEntry tp i).get_position rfl rfl rfl rfl rfl rfl)

theorem C58_altitude (lat lon el t p : ι → V) (w : When (arrB tp ι)) :
    Solar.get_altitude (npB tp) (lat i) (lon i) (entryW i w) (el i) (t i) (p i) =
    entry (β := V) i (Solar.get_altitude (arrB tp ι) lat lon w el t p) :=
  entry_of_rel ((arrEntry tp i).get_altitude rfl rfl rfl rfl rfl rfl)

theorem C58_azimuth (lat lon el : ι → V) (w : When (arrB tp ι)) :
    Solar.get_azimuth (npB tp) (lat i) (lon i) (entryW i w) (el i) =
    entry (β := V) i (Solar.get_azimuth (arrB tp ι) lat lon w el) :=
  entry_of_rel ((arrEntry tp i).get_azimuth rfl rfl rfl rfl)

theorem C58_air_mass_ratio (x : ι → V) :
    Radiation.get_air_mass_ratio (npB tp) (x i) =
    entry (β := V) i (Radiation.get_air_mass_ratio (arrB tp ι) x) :=
  entry_of_rel ((arrEntry tp i).get_air_mass_ratio rfl)

theorem C58_apparent_extraterrestrial_flux (x : ι → V) :
    Radiation.get_apparent_extraterrestrial_flux (npB tp) (x i) =
    entry (β := V) i (Radiation.get_apparent_extraterrestrial_flux (arrB tp ι) x) :=
  entry_of_rel ((arrEntry tp i).get_apparent_extraterrestrial_flux rfl)

theorem C58_optical_depth (x : ι → V) :
    Radiation.get_optical_depth (npB tp) (x i) =
    entry (β := V) i (Radiation.get_optical_depth (arrB tp ι) x) :=
  entry_of_rel ((arrEntry tp i).get_optical_depth rfl)

theorem C58_radiation_direct (x : ι → V) (w : When (arrB tp ι)) :
    Radiation.get_radiation_direct (npB tp) (entryW i w) (x i) =
    entry (β := V) i (Radiation.get_radiation_direct (arrB tp ι) w x) :=
  entry_of_rel ((arrEntry tp i).get_radiation_direct rfl rfl)

theorem C58_mean_earth_sun_distance (w : When (arrB tp ι)) :
    Util.mean_earth_sun_distance (npB tp) (entryW i w) =
    entry (β := V) i (Util.mean_earth_sun_distance (arrB tp ι) w) :=
  entry_of_rel ((arrEntry tp i).mean_earth_sun_distance rfl)

theorem C58_declination_degree (TY : ι → V) (w : When (arrB tp ι)) :
    Util.declination_degree (npB tp) (entryW i w) (TY i) =
    entry (β := V) i (Util.declination_degree (arrB tp ι) w TY) :=
  entry_of_rel ((arrEntry tp i).declination_degree rfl rfl)

theorem C58_solarelevation_function_clear (lat lon t p el : ι → V) (w : When (arrB tp ι)) :
    Util.solarelevation_function_clear (npB tp) (lat i) (lon i) (entryW i w) (t i) (p i) (el i) =
    entry (β := V) i (Util.solarelevation_function_clear (arrB tp ι) lat lon w t p el) :=
  entry_of_rel ((arrEntry tp i).solarelevation_function_clear rfl rfl rfl rfl rfl rfl)

theorem C58_solarelevation_function_overcast (lat lon el t p : ι → V) (w : When (arrB tp ι)) :
    Util.solarelevation_function_overcast (npB tp) (lat i) (lon i) (entryW i w) (el i) (t i) (p i) =
    entry (β := V) i (Util.solarelevation_function_overcast (arrB tp ι) lat lon w el t p) :=
  entry_of_rel ((arrEntry tp i).solarelevation_function_overcast rfl rfl rfl rfl rfl rfl)

theorem C58_diffuse_transmittance (x : ι → V) :
    (Util.diffuse_transmittance (npB tp) (x i) : V) =
    (show ι → V from Util.diffuse_transmittance (arrB tp ι) x) i :=
  ((arrEntry tp i).diffuse_transmittance rfl :).symm

theorem C58_diffuse_underclear (lat lon el t p TL : ι → V) (w : When (arrB tp ι)) :
    Util.diffuse_underclear (npB tp) (lat i) (lon i) (entryW i w) (el i) (t i) (p i) (TL i) =
    entry (β := V) i (Util.diffuse_underclear (arrB tp ι) lat lon w el t p TL) :=
  entry_of_rel ((arrEntry tp i).diffuse_underclear rfl rfl rfl rfl rfl rfl rfl)

theorem C58_diffuse_underovercast (lat lon el t p TL : ι → V) (w : When (arrB tp ι)) :
    Util.diffuse_underovercast (npB tp) (lat i) (lon i) (entryW i w) (el i) (t i) (p i) (TL i) =
    entry (β := V) i (Util.diffuse_underovercast (arrB tp ι) lat lon w el t p TL) :=
  entry_of_rel ((arrEntry tp i).diffuse_underovercast rfl rfl rfl rfl rfl rfl rfl)

theorem C58_direct_underclear (lat lon TY AM TL el t p : ι → V) (w : When (arrB tp ι)) :
    Util.direct_underclear (npB tp) (lat i) (lon i) (entryW i w) (TY i) (AM i) (TL i) (el i) (t i) (p i) =
    entry (β := V) i (Util.direct_underclear (arrB tp ι) lat lon w TY AM TL el t p) :=
  entry_of_rel ((arrEntry tp i).direct_underclear rfl rfl rfl rfl rfl rfl rfl rfl rfl)

theorem C58_global_irradiance_clear (lat lon TY AM TL el t p : ι → V) (w : When (arrB tp ι)) :
    Util.global_irradiance_clear (npB tp) (lat i) (lon i) (entryW i w) (TY i) (AM i) (TL i) (el i) (t i) (p i) =
    entry (β := V) i (Util.global_irradiance_clear (arrB tp ι) lat lon w TY AM TL el t p) :=
  entry_of_rel ((arrEntry tp i).global_irradiance_clear rfl rfl rfl rfl rfl rfl rfl rfl rfl)

theorem C58_global_irradiance_overcast (lat lon el t p : ι → V) (w : When (arrB tp ι)) :
    Util.global_irradiance_overcast (npB tp) (lat i) (lon i) (entryW i w) (el i) (t i) (p i) =
    entry (β := V) i (Util.global_irradiance_overcast (arrB tp ι) lat lon w el t p) :=
  entry_of_rel ((arrEntry tp i).global_irradiance_overcast rfl rfl rfl rfl rfl rfl)

theorem C58_diffuse_ratio (x y : ι → V) :
    Util.diffuse_ratio (npB tp) (x i) (y i) =
    entry (β := V) i (Util.diffuse_ratio (arrB tp ι) x y) :=
  entry_of_rel ((arrEntry tp i).diffuse_ratio rfl rfl)

theorem C58_temperature_with_elevation (x y z : ι → V) :
    (Elevation.get_temperature_with_elevation (npB tp) (x i) (y i) (z i) : V) =
    (show ι → V from Elevation.get_temperature_with_elevation (arrB tp ι) x y z) i :=
  ((arrEntry tp i).get_temperature_with_elevation rfl rfl rfl :).symm

theorem C58_gas_transmittance (band : String) (x : ι → V) :
    Rest.get_gas_transmittance (npB tp) band (x i) =
    entry (β := V) i (Rest.get_gas_transmittance (arrB tp ι) band x) :=
  entry_of_rel ((arrEntry tp i).get_gas_transmittance band rfl)

theorem C58_ozone_transmittance (band : String) (x y : ι → V) :
    Rest.get_ozone_transmittance (npB tp) band (x i) (y i) =
    entry (β := V) i (Rest.get_ozone_transmittance (arrB tp ι) band x y) :=
  entry_of_rel ((arrEntry tp i).get_ozone_transmittance band rfl rfl)

theorem C58_rayleigh_extinction_forward_scattering_fraction (band : String) (x : ι → V) :
    (Rest.get_rayleigh_extinction_forward_scattering_fraction (npB tp) band (x i) : V) =
    (show ι → V from Rest.get_rayleigh_extinction_forward_scattering_fraction (arrB tp ι) band x) i :=
  ((arrEntry tp i).get_rayleigh_extinction_forward_scattering_fraction band rfl :).symm

theorem C58_rayleigh_transmittance (band : String) (x : ι → V) :
    Rest.get_rayleigh_transmittance (npB tp) band (x i) =
    entry (β := V) i (Rest.get_rayleigh_transmittance (arrB tp ι) band x) :=
  entry_of_rel ((arrEntry tp i).get_rayleigh_transmittance band rfl)

theorem C58_sky_albedo (band : String) (x y : ι → V) :
    Rest.get_sky_albedo (npB tp) band (x i) (y i) =
    entry (β := V) i (Rest.get_sky_albedo (arrB tp ι) band x y) :=
  entry_of_rel ((arrEntry tp i).get_sky_albedo band rfl rfl)

theorem C58_aerosol_transmittance (band : String) (x y : ι → V) :
    Rest.get_aerosol_transmittance (npB tp) band (x i) (y i) =
    entry (β := V) i (Rest.get_aerosol_transmittance (arrB tp ι) band x y) :=
  entry_of_rel ((arrEntry tp i).get_aerosol_transmittance band rfl rfl)

theorem C58_aerosol_scattering_transmittance (band : String) (x y : ι → V) :
    Rest.get_aerosol_scattering_transmittance (npB tp) band (x i) (y i) =
    entry (β := V) i (Rest.get_aerosol_scattering_transmittance (arrB tp ι) band x y) :=
  entry_of_rel ((arrEntry tp i).get_aerosol_scattering_transmittance band rfl rfl)

theorem C58_water_vapor_transmittance (band : String) (x y : ι → V) :
    Rest.get_water_vapor_transmittance (npB tp) band (x i) (y i) =
    entry (β := V) i (Rest.get_water_vapor_transmittance (arrB tp ι) band x y) :=
  entry_of_rel ((arrEntry tp i).get_water_vapor_transmittance band rfl rfl)

theorem C58_backscattered_diffuse_irradiance_by_band (band : String) (x y a b : ι → V) :
    Rest.get_backscattered_diffuse_irradiance_by_band (npB tp) band (x i) (y i) (a i) (b i) =
    entry (β := V) i (Rest.get_backscattered_diffuse_irradiance_by_band (arrB tp ι) band x y a b) :=
  entry_of_rel ((arrEntry tp i).get_backscattered_diffuse_irradiance_by_band band rfl rfl rfl rfl)

end

/-! ## C59 -/

section

variable (d : DateTime)

theorem same_of_rel {m : Py V} {m' : Py V} (h : RelM False (fun x y => x = y) m m') {y : V} (hy : m = .ok y) : m' = .ok y := by
  obtain ⟨y', h1, h2⟩ := RelM.of_ok h hy
  rw [h1, ← h2]

theorem same_of_rel2 {m : Py (V × V)} {m' : Py (V × V)} (h : RelM False (fun x y => x.1 = y.1 ∧ x.2 = y.2) m m') {y : V × V}
    (hy : m = .ok y) : m' = .ok y := by
  obtain ⟨y', h1, h2, h3⟩ := RelM.of_ok h hy
  rw [h1, ← Prod.ext h2 h3]

theorem same_of_eq {β : Type} {m m' : Py β} (h : RelM False Eq m m') {y : β} (hy : m = .ok y) : m' = .ok y := by
  obtain ⟨y', h1, h2⟩ := RelM.of_ok h hy
  rw [h1, ← h2]

theorem C59_leap_seconds (res : ℤ)
    (hres : Solartime.get_leap_seconds (B := mathB tp) (.dt d) = .ok res) :
    Solartime.get_leap_seconds (B := npB tp) (.dt d) = .ok res :=
  same_of_eq ((mathNp tp).toSim.get_leap_seconds ⟨d, rfl, rfl⟩) hres

theorem C59_delta_t (res : ℚ)
    (hres : Solartime.get_delta_t (B := mathB tp) (.dt d) = .ok res) :
    Solartime.get_delta_t (B := npB tp) (.dt d) = .ok res :=
  same_of_eq ((mathNp tp).toSim.get_delta_t ⟨d, rfl, rfl⟩) hres

theorem C59_julian_solar_day (res : V)
    (hres : Solartime.get_julian_solar_day (mathB tp) (.dt d) = .ok res) :
    Solartime.get_julian_solar_day (npB tp) (.dt d) = .ok res :=
  same_of_rel ((mathNp tp).toSim.get_julian_solar_day ⟨d, rfl, rfl⟩) hres

theorem C59_julian_ephemeris_day (res : V)
    (hres : Solartime.get_julian_ephemeris_day (mathB tp) (.dt d) = .ok res) :
    Solartime.get_julian_ephemeris_day (npB tp) (.dt d) = .ok res :=
  same_of_rel ((mathNp tp).toSim.get_julian_ephemeris_day ⟨d, rfl, rfl⟩) hres

theorem C59_julian_century (x : V) :
    (Solartime.get_julian_century (mathB tp) x : V) = Solartime.get_julian_century (npB tp) x :=
  (mathNp tp).toSim.get_julian_century rfl

theorem C59_julian_ephemeris_century (x : V) :
    (Solartime.get_julian_ephemeris_century (mathB tp) x : V) = Solartime.get_julian_ephemeris_century (npB tp) x :=
  (mathNp tp).toSim.get_julian_ephemeris_century rfl

theorem C59_julian_ephemeris_millennium (x : V) :
    (Solartime.get_julian_ephemeris_millennium (mathB tp) x : V) = Solartime.get_julian_ephemeris_millennium (npB tp) x :=
  (mathNp tp).toSim.get_julian_ephemeris_millennium rfl

theorem C59_equation_of_time (x : V) (res : V)
    (hres : Solar.equation_of_time (mathB tp) x = .ok res) :
    Solar.equation_of_time (npB tp) x = .ok res :=
  same_of_rel ((mathNp tp).toSim.equation_of_time rfl) hres

theorem C59_aberration_correction (x : V) (res : V)
    (hres : Solar.get_aberration_correction (mathB tp) x = .ok res) :
    Solar.get_aberration_correction (npB tp) x = .ok res :=
  same_of_rel ((mathNp tp).toSim.get_aberration_correction rfl) hres

theorem C59_declination (x : V) (res : V)
    (hres : Solar.get_declination (mathB tp) x = .ok res) :
    Solar.get_declination (npB tp) x = .ok res :=
  same_of_rel ((mathNp tp).toSim.get_declination rfl) hres

theorem C59_equatorial_horizontal_parallax (x : V) (res : V)
    (hres : Solar.get_equatorial_horizontal_parallax (mathB tp) x = .ok res) :
    Solar.get_equatorial_horizontal_parallax (npB tp) x = .ok res :=
  same_of_rel ((mathNp tp).toSim.get_equatorial_horizontal_parallax rfl) hres

theorem C59_flattened_latitude (x : V) (res : V)
    (hres : Solar.get_flattened_latitude (mathB tp) x = .ok res) :
    Solar.get_flattened_latitude (npB tp) x = .ok res :=
  same_of_rel ((mathNp tp).toSim.get_flattened_latitude rfl) hres

theorem C59_heliocentric_latitude (x : V) (res : V)
    (hres : Solar.get_heliocentric_latitude (mathB tp) x = .ok res) :
    Solar.get_heliocentric_latitude (npB tp) x = .ok res :=
  same_of_rel ((mathNp tp).toSim.get_heliocentric_latitude rfl) hres

theorem C59_heliocentric_longitude (x : V) (res : V)
    (hres : Solar.get_heliocentric_longitude (mathB tp) x = .ok res) :
    Solar.get_heliocentric_longitude (npB tp) x = .ok res :=
  same_of_rel ((mathNp tp).toSim.get_heliocentric_longitude rfl) hres

theorem C59_geocentric_latitude (x : V) (res : V)
    (hres : Solar.get_geocentric_latitude (mathB tp) x = .ok res) :
    Solar.get_geocentric_latitude (npB tp) x = .ok res :=
  same_of_rel ((mathNp tp).toSim.get_geocentric_latitude rfl) hres

theorem C59_geocentric_longitude (x : V) (res : V)
    (hres : Solar.get_geocentric_longitude (mathB tp) x = .ok res) :
    Solar.get_geocentric_longitude (npB tp) x = .ok res :=
  same_of_rel ((mathNp tp).toSim.get_geocentric_longitude rfl) hres

theorem C59_geocentric_sun_declination (x y z : V) (res : V)
    (hres : Solar.get_geocentric_sun_declination (mathB tp) x y z = .ok res) :
    Solar.get_geocentric_sun_declination (npB tp) x y z = .ok res :=
  same_of_rel ((mathNp tp).toSim.get_geocentric_sun_declination rfl rfl rfl) hres

theorem C59_geocentric_sun_right_ascension (x y z : V) (res : V)
    (hres : Solar.get_geocentric_sun_right_ascension (mathB tp) x y z = .ok res) :
    Solar.get_geocentric_sun_right_ascension (npB tp) x y z = .ok res :=
  same_of_rel ((mathNp tp).toSim.get_geocentric_sun_right_ascension rfl rfl rfl) hres

theorem C59_local_hour_angle (x y z : V) :
    (Solar.get_local_hour_angle (mathB tp) x y z : V) = Solar.get_local_hour_angle (npB tp) x y z :=
  (mathNp tp).toSim.get_local_hour_angle rfl rfl rfl

theorem C59_mean_sidereal_time (x : V) :
    (Solar.get_mean_sidereal_time (mathB tp) x : V) = Solar.get_mean_sidereal_time (npB tp) x :=
  (mathNp tp).toSim.get_mean_sidereal_time rfl

theorem C59_nutation (x : V) (res : Solar.Nutation (mathB tp))
    (h : Solar.get_nutation (mathB tp) x = .ok res) : Solar.get_nutation (npB tp) x = .ok ⟨res.longitude, res.obliquity⟩ := by
  obtain ⟨y', h1, h2, h3⟩ := RelM.of_ok ((mathNp tp).toSim.get_nutation rfl) h
  rw [h1]
  cases res; cases y'
  cases h2; cases h3
  rfl

theorem C59_parallax_sun_right_ascension (x y z u : V) (res : V)
    (hres : Solar.get_parallax_sun_right_ascension (mathB tp) x y z u = .ok res) :
    Solar.get_parallax_sun_right_ascension (npB tp) x y z u = .ok res :=
  same_of_rel ((mathNp tp).toSim.get_parallax_sun_right_ascension rfl rfl rfl rfl) hres

theorem C59_projected_radial_distance (x y : V) (res : V)
    (hres : Solar.get_projected_radial_distance (mathB tp) x y = .ok res) :
    Solar.get_projected_radial_distance (npB tp) x y = .ok res :=
  same_of_rel ((mathNp tp).toSim.get_projected_radial_distance rfl rfl) hres

theorem C59_projected_axial_distance (x y : V) (res : V)
    (hres : Solar.get_projected_axial_distance (mathB tp) x y = .ok res) :
    Solar.get_projected_axial_distance (npB tp) x y = .ok res :=
  same_of_rel ((mathNp tp).toSim.get_projected_axial_distance rfl rfl) hres

theorem C59_sun_earth_distance (x : V) (res : V)
    (hres : Solar.get_sun_earth_distance (mathB tp) x = .ok res) :
    Solar.get_sun_earth_distance (npB tp) x = .ok res :=
  same_of_rel ((mathNp tp).toSim.get_sun_earth_distance rfl) hres

theorem C59_refraction_correction (x y z : V) (res : V)
    (hres : Solar.get_refraction_correction (mathB tp) x y z = .ok res) :
    Solar.get_refraction_correction (npB tp) x y z = .ok res :=
  same_of_rel ((mathNp tp).toSim.get_refraction_correction rfl rfl rfl) hres

theorem C59_topocentric_azimuth_angle (x y z : V) (res : V)
    (hres : Solar.get_topocentric_azimuth_angle (mathB tp) x y z = .ok res) :
    Solar.get_topocentric_azimuth_angle (npB tp) x y z = .ok res :=
  same_of_rel ((mathNp tp).toSim.get_topocentric_azimuth_angle rfl rfl rfl) hres

theorem C59_topocentric_elevation_angle (x y z : V) (res : V)
    (hres : Solar.get_topocentric_elevation_angle (mathB tp) x y z = .ok res) :
    Solar.get_topocentric_elevation_angle (npB tp) x y z = .ok res :=
  same_of_rel ((mathNp tp).toSim.get_topocentric_elevation_angle rfl rfl rfl) hres

theorem C59_topocentric_local_hour_angle (x y : V) :
    (Solar.get_topocentric_local_hour_angle (mathB tp) x y : V) = Solar.get_topocentric_local_hour_angle (npB tp) x y :=
  (mathNp tp).toSim.get_topocentric_local_hour_angle rfl rfl

theorem C59_topocentric_sun_declination (x y z u v : V) (res : V)
    (hres : Solar.get_topocentric_sun_declination (mathB tp) x y z u v = .ok res) :
    Solar.get_topocentric_sun_declination (npB tp) x y z u v = .ok res :=
  same_of_rel ((mathNp tp).toSim.get_topocentric_sun_declination rfl rfl rfl rfl rfl) hres

theorem C59_topocentric_sun_right_ascension (x y z u v t : V) (res : V)
    (hres : Solar.get_topocentric_sun_right_ascension (mathB tp) x y z u v t = .ok res) :
    Solar.get_topocentric_sun_right_ascension (npB tp) x y z u v t = .ok res :=
  same_of_rel ((mathNp tp).toSim.get_topocentric_sun_right_ascension rfl rfl rfl rfl rfl rfl) hres

theorem C59_topocentric_zenith_angle (x y z u v : V) (res : V)
    (hres : Solar.get_topocentric_zenith_angle (mathB tp) x y z u v = .ok res) :
    Solar.get_topocentric_zenith_angle (npB tp) x y z u v = .ok res :=
  same_of_rel ((mathNp tp).toSim.get_topocentric_zenith_angle rfl rfl rfl rfl rfl) hres

theorem C59_incidence_angle (x y z u : V) (res : V)
    (hres : Solar.get_incidence_angle (mathB tp) x y z u = .ok res) :
    Solar.get_incidence_angle (npB tp) x y z u = .ok res :=
  same_of_rel ((mathNp tp).toSim.get_incidence_angle rfl rfl rfl rfl) hres

theorem C59_solar_time (lon : V) (res : V)
    (hres : Solar.get_solar_time (mathB tp) lon (.dt d) = .ok res) :
    Solar.get_solar_time (npB tp) lon (.dt d) = .ok res :=
  same_of_rel ((mathNp tp).toSim.get_solar_time rfl ⟨d, rfl, rfl⟩) hres

theorem C59_hour_angle (lon : V) (res : V)
    (hres : Solar.get_hour_angle (mathB tp) (.dt d) lon = .ok res) :
    Solar.get_hour_angle (npB tp) (.dt d) lon = .ok res :=
  same_of_rel ((mathNp tp).toSim.get_hour_angle ⟨d, rfl, rfl⟩ rfl) hres

theorem C59_altitude_fast (lat lon : V) (res : V)
    (hres : Solar.get_altitude_fast (mathB tp) lat lon (.dt d) = .ok res) :
    Solar.get_altitude_fast (npB tp) lat lon (.dt d) = .ok res :=
  same_of_rel ((mathNp tp).toSim.get_altitude_fast rfl rfl ⟨d, rfl, rfl⟩) hres

theorem C59_azimuth_fast (lat lon : V) (res : V)
    (hres : Solar.get_azimuth_fast (mathB tp) lat lon (.dt d) = .ok res) :
    Solar.get_azimuth_fast (npB tp) lat lon (.dt d) = .ok res :=
  same_of_rel ((mathNp tp).toSim.get_azimuth_fast rfl rfl ⟨d, rfl, rfl⟩) hres

theorem C59_topocentric_position (lat lon el : V) (res : V × V)
    (hres : Solar.get_topocentric_position (mathB tp) lat lon (.dt d) el = .ok res) :
    Solar.get_topocentric_position (npB tp) lat lon (.dt d) el = .ok res :=
  same_of_rel2 ((mathNp tp).toSim.get_topocentric_position rfl rfl ⟨d, rfl, rfl⟩ rfl) hres

theorem C59_position (lat lon el t p : V) (res : V × V)
    (hres : Solar.get_position (mathB tp) lat lon (.dt d) el t p = .ok res) :
    Solar.get_position (npB tp) lat lon (.dt d) el t p = .ok res :=
  same_of_rel2 ((mathNp tp).toSim.get_position rfl rfl ⟨d, rfl, rfl⟩ rfl rfl rfl) hres

theorem C59_altitude (lat lon el t p : V) (res : V)
    (hres : Solar.get_altitude (mathB tp) lat lon (.dt d) el t p = .ok res) :
    Solar.get_altitude (npB tp) lat lon (.dt d) el t p = .ok res :=
  same_of_rel ((mathNp tp).toSim.get_altitude rfl rfl ⟨d, rfl, rfl⟩ rfl rfl rfl) hres

theorem C59_azimuth (lat lon el : V) (res : V)
    (hres : Solar.get_azimuth (mathB tp) lat lon (.dt d) el = .ok res) :
    Solar.get_azimuth (npB tp) lat lon (.dt d) el = .ok res :=
  same_of_rel ((mathNp tp).toSim.get_azimuth rfl rfl ⟨d, rfl, rfl⟩ rfl) hres

theorem C59_air_mass_ratio (x : V) (res : V)
    (hres : Radiation.get_air_mass_ratio (mathB tp) x = .ok res) :
    Radiation.get_air_mass_ratio (npB tp) x = .ok res :=
  same_of_rel ((mathNp tp).toSim.get_air_mass_ratio rfl) hres

theorem C59_apparent_extraterrestrial_flux (x : V) (res : V)
    (hres : Radiation.get_apparent_extraterrestrial_flux (mathB tp) x = .ok res) :
    Radiation.get_apparent_extraterrestrial_flux (npB tp) x = .ok res :=
  same_of_rel ((mathNp tp).toSim.get_apparent_extraterrestrial_flux rfl) hres

theorem C59_optical_depth (x : V) (res : V)
    (hres : Radiation.get_optical_depth (mathB tp) x = .ok res) :
    Radiation.get_optical_depth (npB tp) x = .ok res :=
  same_of_rel ((mathNp tp).toSim.get_optical_depth rfl) hres

theorem C59_radiation_direct (x : V) (res : V)
    (hres : Radiation.get_radiation_direct (mathB tp) (.dt d) x = .ok res) :
    Radiation.get_radiation_direct (npB tp) (.dt d) x = .ok res :=
  same_of_rel ((mathNp tp).toSim.get_radiation_direct ⟨d, rfl, rfl⟩ rfl) hres

theorem C59_mean_earth_sun_distance (res : V)
    (hres : Util.mean_earth_sun_distance (mathB tp) (.dt d) = .ok res) :
    Util.mean_earth_sun_distance (npB tp) (.dt d) = .ok res :=
  same_of_rel ((mathNp tp).toSim.mean_earth_sun_distance ⟨d, rfl, rfl⟩) hres

theorem C59_declination_degree (TY : V) (res : V)
    (hres : Util.declination_degree (mathB tp) (.dt d) TY = .ok res) :
    Util.declination_degree (npB tp) (.dt d) TY = .ok res :=
  same_of_rel ((mathNp tp).toSim.declination_degree ⟨d, rfl, rfl⟩ rfl) hres

theorem C59_solarelevation_function_clear (lat lon t p el : V) (res : V)
    (hres : Util.solarelevation_function_clear (mathB tp) lat lon (.dt d) t p el = .ok res) :
    Util.solarelevation_function_clear (npB tp) lat lon (.dt d) t p el = .ok res :=
  same_of_rel ((mathNp tp).toSim.solarelevation_function_clear rfl rfl ⟨d, rfl, rfl⟩ rfl rfl rfl) hres

theorem C59_solarelevation_function_overcast (lat lon el t p : V) (res : V)
    (hres : Util.solarelevation_function_overcast (mathB tp) lat lon (.dt d) el t p = .ok res) :
    Util.solarelevation_function_overcast (npB tp) lat lon (.dt d) el t p = .ok res :=
  same_of_rel ((mathNp tp).toSim.solarelevation_function_overcast rfl rfl ⟨d, rfl, rfl⟩ rfl rfl rfl) hres

theorem C59_diffuse_transmittance (x : V) :
    (Util.diffuse_transmittance (mathB tp) x : V) = Util.diffuse_transmittance (npB tp) x :=
  (mathNp tp).toSim.diffuse_transmittance rfl

theorem C59_diffuse_underclear (lat lon el t p TL : V) (res : V)
    (hres : Util.diffuse_underclear (mathB tp) lat lon (.dt d) el t p TL = .ok res) :
    Util.diffuse_underclear (npB tp) lat lon (.dt d) el t p TL = .ok res :=
  same_of_rel ((mathNp tp).toSim.diffuse_underclear rfl rfl ⟨d, rfl, rfl⟩ rfl rfl rfl rfl) hres

theorem C59_diffuse_underovercast (lat lon el t p TL : V) (res : V)
    (hres : Util.diffuse_underovercast (mathB tp) lat lon (.dt d) el t p TL = .ok res) :
    Util.diffuse_underovercast (npB tp) lat lon (.dt d) el t p TL = .ok res :=
  same_of_rel ((mathNp tp).toSim.diffuse_underovercast rfl rfl ⟨d, rfl, rfl⟩ rfl rfl rfl rfl) hres

theorem C59_direct_underclear (lat lon TY AM TL el t p : V) (res : V)
    (hres : Util.direct_underclear (mathB tp) lat lon (.dt d) TY AM TL el t p = .ok res) :
    Util.direct_underclear (npB tp) lat lon (.dt d) TY AM TL el t p = .ok res :=
  same_of_rel ((mathNp tp).toSim.direct_underclear rfl rfl ⟨d, rfl, rfl⟩ rfl rfl rfl rfl rfl rfl) hres

theorem C59_global_irradiance_clear (lat lon TY AM TL el t p : V) (res : V)
    (hres : Util.global_irradiance_clear (mathB tp) lat lon (.dt d) TY AM TL el t p = .ok res) :
    Util.global_irradiance_clear (npB tp) lat lon (.dt d) TY AM TL el t p = .ok res :=
  same_of_rel ((mathNp tp).toSim.global_irradiance_clear rfl rfl ⟨d, rfl, rfl⟩ rfl rfl rfl rfl rfl rfl) hres

theorem C59_global_irradiance_overcast (lat lon el t p : V) (res : V)
    (hres : Util.global_irradiance_overcast (mathB tp) lat lon (.dt d) el t p = .ok res) :
    Util.global_irradiance_overcast (npB tp) lat lon (.dt d) el t p = .ok res :=
  same_of_rel ((mathNp tp).toSim.global_irradiance_overcast rfl rfl ⟨d, rfl, rfl⟩ rfl rfl rfl) hres

theorem C59_diffuse_ratio (x y : V) (res : V)
    (hres : Util.diffuse_ratio (mathB tp) x y = .ok res) :
    Util.diffuse_ratio (npB tp) x y = .ok res :=
  same_of_rel ((mathNp tp).toSim.diffuse_ratio rfl rfl) hres

theorem C59_temperature_with_elevation (x y z : V) :
    (Elevation.get_temperature_with_elevation (mathB tp) x y z : V) = Elevation.get_temperature_with_elevation (npB tp) x y z :=
  (mathNp tp).toSim.get_temperature_with_elevation rfl rfl rfl

theorem C59_gas_transmittance (band : String) (x : V) (res : V)
    (hres : Rest.get_gas_transmittance (mathB tp) band x = .ok res) :
    Rest.get_gas_transmittance (npB tp) band x = .ok res :=
  same_of_rel ((mathNp tp).toSim.get_gas_transmittance band rfl) hres

theorem C59_ozone_transmittance (band : String) (x y : V) (res : V)
    (hres : Rest.get_ozone_transmittance (mathB tp) band x y = .ok res) :
    Rest.get_ozone_transmittance (npB tp) band x y = .ok res :=
  same_of_rel ((mathNp tp).toSim.get_ozone_transmittance band rfl rfl) hres

theorem C59_rayleigh_extinction_forward_scattering_fraction (band : String) (x : V) :
    (Rest.get_rayleigh_extinction_forward_scattering_fraction (mathB tp) band x : V) = Rest.get_rayleigh_extinction_forward_scattering_fraction (npB tp) band x :=
  (mathNp tp).toSim.get_rayleigh_extinction_forward_scattering_fraction band rfl

theorem C59_rayleigh_transmittance (band : String) (x : V) (res : V)
    (hres : Rest.get_rayleigh_transmittance (mathB tp) band x = .ok res) :
    Rest.get_rayleigh_transmittance (npB tp) band x = .ok res :=
  same_of_rel ((mathNp tp).toSim.get_rayleigh_transmittance band rfl) hres

theorem C59_sky_albedo (band : String) (x y : V) (res : V)
    (hres : Rest.get_sky_albedo (mathB tp) band x y = .ok res) :
    Rest.get_sky_albedo (npB tp) band x y = .ok res :=
  same_of_rel ((mathNp tp).toSim.get_sky_albedo band rfl rfl) hres

theorem C59_aerosol_transmittance (band : String) (x y : V) (res : V)
    (hres : Rest.get_aerosol_transmittance (mathB tp) band x y = .ok res) :
    Rest.get_aerosol_transmittance (npB tp) band x y = .ok res :=
  same_of_rel ((mathNp tp).toSim.get_aerosol_transmittance band rfl rfl) hres

theorem C59_aerosol_scattering_transmittance (band : String) (x y : V) (res : V)
    (hres : Rest.get_aerosol_scattering_transmittance (mathB tp) band x y = .ok res) :
    Rest.get_aerosol_scattering_transmittance (npB tp) band x y = .ok res :=
  same_of_rel ((mathNp tp).toSim.get_aerosol_scattering_transmittance band rfl rfl) hres

theorem C59_water_vapor_transmittance (band : String) (x y : V) (res : V)
    (hres : Rest.get_water_vapor_transmittance (mathB tp) band x y = .ok res) :
    Rest.get_water_vapor_transmittance (npB tp) band x y = .ok res :=
  same_of_rel ((mathNp tp).toSim.get_water_vapor_transmittance band rfl rfl) hres

theorem C59_backscattered_diffuse_irradiance_by_band (band : String) (x y a b : V) (res : V)
    (hres : Rest.get_backscattered_diffuse_irradiance_by_band (mathB tp) band x y a b = .ok res) :
    Rest.get_backscattered_diffuse_irradiance_by_band (npB tp) band x y a b = .ok res :=
  same_of_rel ((mathNp tp).toSim.get_backscattered_diffuse_irradiance_by_band band rfl rfl rfl rfl) hres

theorem C59_sunrise_sunset_transit (lat lon : V) (res : DateTime × DateTime × DateTime)
    (hres : Util.get_sunrise_sunset_transit (mathB tp) lat lon (.dt d) = .ok res) :
    Util.get_sunrise_sunset_transit (npB tp) lat lon (.dt d) = .ok res :=
  same_of_eq ((mathNp tp).get_sunrise_sunset_transit rfl rfl ⟨d, rfl, rfl⟩) hres

theorem C59_sunrise_sunset (lat lon : V) (res : DateTime × DateTime)
    (hres : Util.get_sunrise_sunset (mathB tp) lat lon (.dt d) = .ok res) :
    Util.get_sunrise_sunset (npB tp) lat lon (.dt d) = .ok res :=
  same_of_eq ((mathNp tp).get_sunrise_sunset rfl rfl ⟨d, rfl, rfl⟩) hres

theorem C59_sunrise_time (lat lon : V) (res : DateTime)
    (hres : Util.get_sunrise_time (mathB tp) lat lon (.dt d) = .ok res) :
    Util.get_sunrise_time (npB tp) lat lon (.dt d) = .ok res :=
  same_of_eq ((mathNp tp).get_sunrise_time rfl rfl ⟨d, rfl, rfl⟩) hres

theorem C59_sunset_time (lat lon : V) (res : DateTime)
    (hres : Util.get_sunset_time (mathB tp) lat lon (.dt d) = .ok res) :
    Util.get_sunset_time (npB tp) lat lon (.dt d) = .ok res :=
  same_of_eq ((mathNp tp).get_sunset_time rfl rfl ⟨d, rfl, rfl⟩) hres

theorem C59_transit_time (lat lon : V) (res : DateTime)
    (hres : Util.get_transit_time (mathB tp) lat lon (.dt d) = .ok res) :
    Util.get_transit_time (npB tp) lat lon (.dt d) = .ok res :=
  same_of_eq ((mathNp tp).get_transit_time rfl rfl ⟨d, rfl, rfl⟩) hres

theorem C59_extraterrestrial_irrad (lat lon SC : V) (res : V)
    (hres : Util.extraterrestrial_irrad (mathB tp) lat lon (.dt d) SC = .ok res) :
    Util.extraterrestrial_irrad (npB tp) lat lon (.dt d) SC = .ok res :=
  same_of_rel ((mathNp tp).extraterrestrial_irrad rfl rfl ⟨d, rfl, rfl⟩ rfl) hres

theorem C59_clear_index (ghi lat lon : V) (res : V)
    (hres : Util.clear_index (mathB tp) ghi lat lon (.dt d) = .ok res) :
    Util.clear_index (npB tp) ghi lat lon (.dt d) = .ok res :=
  same_of_rel ((mathNp tp).clear_index rfl rfl rfl ⟨d, rfl, rfl⟩) hres

theorem C59_pressure_with_elevation (h Ps Ts Tl Hb R g M : V) (res : V)
    (hres : Elevation.get_pressure_with_elevation (mathB tp) h Ps Ts Tl Hb R g M = .ok res) :
    Elevation.get_pressure_with_elevation (npB tp) h Ps Ts Tl Hb R g M = .ok res :=
  same_of_rel ((mathNp tp).get_pressure_with_elevation rfl rfl rfl rfl rfl rfl rfl rfl) hres

theorem C59_aerosol_forward_scatterance_factor (x : V) (res : V)
    (hres : Rest.get_aerosol_forward_scatterance_factor (mathB tp) x = .ok res) :
    Rest.get_aerosol_forward_scatterance_factor (npB tp) x = .ok res :=
  same_of_rel ((mathNp tp).get_aerosol_forward_scatterance_factor rfl) hres

theorem C59_aerosol_optical_depth (x y z : V) (res : V)
    (hres : Rest.get_aerosol_optical_depth (mathB tp) x y z = .ok res) :
    Rest.get_aerosol_optical_depth (npB tp) x y z = .ok res :=
  same_of_rel ((mathNp tp).get_aerosol_optical_depth rfl rfl rfl) hres

theorem C59_aerosol_scattering_correction_factor (band : String) (x y : V) (res : V)
    (hres : Rest.get_aerosol_scattering_correction_factor (mathB tp) band x y = .ok res) :
    Rest.get_aerosol_scattering_correction_factor (npB tp) band x y = .ok res :=
  same_of_rel ((mathNp tp).get_aerosol_scattering_correction_factor band rfl rfl) hres

theorem C59_nitrogen_transmittance (band : String) (x y : V) (res : V)
    (hres : Rest.get_nitrogen_transmittance (mathB tp) band x y = .ok res) :
    Rest.get_nitrogen_transmittance (npB tp) band x y = .ok res :=
  same_of_rel ((mathNp tp).get_nitrogen_transmittance band rfl rfl) hres

theorem C59_optical_mass_rayleigh (x y : V) (res : V)
    (hres : Rest.get_optical_mass_rayleigh (mathB tp) x y = .ok res) :
    Rest.get_optical_mass_rayleigh (npB tp) x y = .ok res :=
  same_of_rel ((mathNp tp).get_optical_mass_rayleigh rfl rfl) hres

theorem C59_optical_mass_ozone (x : V) (res : V)
    (hres : Rest.get_optical_mass_ozone (mathB tp) x = .ok res) :
    Rest.get_optical_mass_ozone (npB tp) x = .ok res :=
  same_of_rel ((mathNp tp).get_optical_mass_ozone rfl) hres

theorem C59_optical_mass_water (x : V) (res : V)
    (hres : Rest.get_optical_mass_water (mathB tp) x = .ok res) :
    Rest.get_optical_mass_water (npB tp) x = .ok res :=
  same_of_rel ((mathNp tp).get_optical_mass_water rfl) hres

theorem C59_optical_mass_aerosol (x : V) (res : V)
    (hres : Rest.get_optical_mass_aerosol (mathB tp) x = .ok res) :
    Rest.get_optical_mass_aerosol (npB tp) x = .ok res :=
  same_of_rel ((mathNp tp).get_optical_mass_aerosol rfl) hres

theorem ofLoop_rel {α β β' : Type} {R : β → β' → Prop} {f : α → Py β} {g : α → Py β'} (h : ∀ x, RelM False R (f x) (g x))
    (xs : List α) (n : ℕ) (y : β) (hy : (Simulate.Gen.ofLoop f xs).yields[n]? = some y) :
    ∃ y', (Simulate.Gen.ofLoop g xs).yields[n]? = some y' ∧ R y y' := by
  induction xs generalizing n with
  | nil => simp [Simulate.Gen.ofLoop] at hy
  | cons x xs ih =>
    unfold Simulate.Gen.ofLoop at hy ⊢
    cases hf : f x with
    | error e => rw [hf] at hy; simp at hy
    | ok z =>
      rw [hf] at hy
      obtain ⟨z', hz', hr⟩ := RelM.of_ok (h x) hf
      rw [hz']
      cases n with
      | zero =>
        simp only [List.getElem?_cons_zero, Option.some.injEq] at hy ⊢
        subst hy
        exact ⟨z', rfl, hr⟩
      | succ n =>
        simp only [List.getElem?_cons_succ] at hy ⊢
        exact ih n hy

/-- C59: every row that `simulate_span` yields with math is yielded with numpy, at the same place and with the same
values. -/
theorem C59_simulate_span (lat lon : V) (horizon : List V) (start stop : DateTime) (step : ℤ) (el t p : V) (n : ℕ)
    (row : Simulate.Row (mathB tp))
    (h : (Simulate.simulate_span (mathB tp) lat lon horizon start stop step el t p).yields[n]? = some row) :
    (Simulate.simulate_span (npB tp) lat lon horizon start stop step el t p).yields[n]?
      = some ⟨row.time, row.alt, row.azi, row.rad, row.shade⟩ := by
  have hh : List.Forall₂ (mathNp tp).r horizon horizon := by
    induction horizon with
    | nil => exact .nil
    | cons a l ih => exact .cons rfl (List.forall₂_same.mpr fun _ _ => rfl)
  have key : ∀ (B : Backend) (f : DateTime → Py (Simulate.Row B)) (g : Simulate.Gen DateTime),
      (Simulate.Gen.bindLoop f g).yields = (Simulate.Gen.ofLoop f g.yields).yields := by
    intro B f g
    unfold Simulate.Gen.bindLoop
    dsimp only
    cases (Simulate.Gen.ofLoop f g.yields).err <;> rfl
  unfold Simulate.simulate_span at h ⊢
  rw [key] at h ⊢
  obtain ⟨y', h1, h2⟩ := ofLoop_rel (fun time => (mathNp tp).simulateRow (x := lat) (x' := lat) rfl (y := lon) (y' := lon)
    rfl hh (z := el) (z' := el) rfl (t := t) (t' := t) rfl (p := p) (p' := p) rfl time) _ n row h
  rw [h1]
  cases row; cases y'
  obtain ⟨h3, h4, h5, h6, h7⟩ := h2
  cases h3; cases h4; cases h5; cases h6; cases h7
  rfl

end

/-! ## C58: the outcomes exist, and single datetimes -/

/-- A backend with a single value in which nothing raises: evaluating a function in it shows which of its steps can
raise for reasons other than the numbers. -/
def unitB : Backend where
  α := Unit
  C := Unit
  T := Unit
  lit _ := ()
  pi := ()
  e := ()
  inf := ()
  add _ _ := ()
  sub _ _ := ()
  mul _ _ := ()
  neg _ := ()
  divq _ _ := ()
  modq _ _ := ()
  powN _ _ := ()
  div _ _ := .ok ()
  rpow _ _ := .error .unmodelled
  sin _ := .ok ()
  cos _ := .ok ()
  tan _ := .ok ()
  asin _ := .ok ()
  acos _ := .ok ()
  atan _ := .ok ()
  atan2 _ _ := .ok ()
  exp _ := .ok ()
  radians _ := ()
  degrees _ := ()
  lt _ _ := ()
  le _ _ := ()
  where_ _ _ _ := ()
  ofC _ := ()
  truth _ := .error .unmodelled
  tdHours _ := .error .unmodelled
  round _ := .error .unmodelled
  npTime := true
  arrYday _ := ()
  arrHour _ := ()
  arrMin _ := ()

theorem rel_true {β : Type} {ι : Type} {f : ι → Py β} (h : ∀ i, ∃ y, f i = .ok y) :
    RelM False (fun _ _ => True) (Except.ok () : Py Unit) (seqV f) := by
  unfold seqV
  rw [dif_pos h]
  trivial

/-- Nothing raises in array computations but what raises in `unitB`. -/
noncomputable def arrTotal (tp : ℝ) (ι : Type) : Sim unitB (arrB tp ι) where
  strict := False
  r := fun _ _ => True
  rC := fun _ _ => True
  rW := fun w w' => (∃ d, w = .dt d ∧ w' = .dt d) ∨ ∃ t t', w = .arr t ∧ w' = .arr t'
  lit _ := trivial
  pi := trivial
  e := trivial
  inf := trivial
  add _ _ := trivial
  sub _ _ := trivial
  mul _ _ := trivial
  neg _ := trivial
  divq _ _ := trivial
  modq _ _ := trivial
  powN _ _ := trivial
  div _ _ := rel_true (β := V) fun _ => np_div_ok tp _ _
  sin _ := rel_true (β := V) fun _ => np_sin_ok tp _
  cos _ := rel_true (β := V) fun _ => np_cos_ok tp _
  tan _ := rel_true (β := V) fun _ => np_tan_ok tp _
  asin _ := rel_true (β := V) fun _ => np_asin_ok tp _
  acos _ := rel_true (β := V) fun _ => np_acos_ok tp _
  atan _ := rel_true (β := V) fun _ => ⟨_, rfl⟩
  atan2 _ _ := rel_true (β := V) fun _ => ⟨_, rfl⟩
  exp _ := rel_true (β := V) fun _ => np_exp_ok tp _
  radians _ := trivial
  degrees _ := trivial
  lt _ _ := trivial
  le _ _ := trivial
  where_ _ _ _ := trivial
  ofC _ := trivial
  recip_zero := by intro _ _ _ h; cases h
  sin_zero := by intro _ h; cases h
  guard := by
    rintro _ _ (⟨d, rfl, rfl⟩ | ⟨t, t', rfl, rfl⟩)
    · exact RelM.mono (R := Eq) RelM.refl fun _ _ _ => trivial
    · trivial
  utctimetuple := by rintro _ _ (⟨d, rfl, rfl⟩ | ⟨t, t', rfl, rfl⟩) <;> exact RelM.refl
  timestamp := by rintro _ _ (⟨d, rfl, rfl⟩ | ⟨t, t', rfl, rfl⟩) <;> exact RelM.refl
  tm_yday := by rintro _ _ (⟨d, rfl, rfl⟩ | ⟨t, t', rfl, rfl⟩) <;> trivial
  tm_hour := by rintro _ _ (⟨d, rfl, rfl⟩ | ⟨t, t', rfl, rfl⟩) <;> trivial
  tm_min := by rintro _ _ (⟨d, rfl, rfl⟩ | ⟨t, t', rfl, rfl⟩) <;> trivial

theorem ok_of_total {β γ : Type} {m : Py β} {m' : Py γ} {R : β → γ → Prop} (h : RelM False R m m') (hm : ∃ y, m = .ok y) :
    ∃ y, m' = .ok y := by
  obtain ⟨y, hy⟩ := hm
  obtain ⟨y', h', -⟩ := RelM.of_ok h hy
  exact ⟨y', h'⟩

section

variable {ι : Type} (lat lon : ι → V) (t : ι → ℤ)

/-- C58: with an array of `datetime64` the altitude is an array; its entries are the scalar results, also for the
datetime of the same instant. -/
theorem C58_altitude_fast_datetime64 : ∃ y : ι → V,
    Solar.get_altitude_fast (arrB tp ι) lat lon (.arr t) = .ok y ∧
    ∀ (i : ι) (d : DateTime), Denotes d (t i) → Solar.get_altitude_fast (npB tp) (lat i) (lon i) (.dt d) = .ok (y i) := by
  obtain ⟨y, hy⟩ := ok_of_total ((arrTotal tp ι).get_altitude_fast (x := ()) (x' := lat) trivial (y := ()) (y' := lon) trivial
    (w := .arr ()) (w' := .arr t) (.inr ⟨_, _, rfl, rfl⟩)) ⟨(), rfl⟩
  refine ⟨y, hy, fun i d hd => ?_⟩
  have h1 := C58_altitude_fast tp i lat lon (.arr t)
  rw [hy] at h1
  obtain ⟨z, hz, hr⟩ := RelM.of_ok ((npInstant tp).get_altitude_fast (x := lat i) rfl (y := lon i) rfl
    (w := .arr (t i)) (w' := .dt d) ⟨d, t i, hd, rfl, rfl⟩) h1
  rw [hz, ← hr]

/-- C58, azimuth. -/
theorem C58_azimuth_fast_datetime64 : ∃ y : ι → V,
    Solar.get_azimuth_fast (arrB tp ι) lat lon (.arr t) = .ok y ∧
    ∀ (i : ι) (d : DateTime), Denotes d (t i) → Solar.get_azimuth_fast (npB tp) (lat i) (lon i) (.dt d) = .ok (y i) := by
  obtain ⟨y, hy⟩ := ok_of_total ((arrTotal tp ι).get_azimuth_fast (x := ()) (x' := lat) trivial (y := ()) (y' := lon) trivial
    (w := .arr ()) (w' := .arr t) (.inr ⟨_, _, rfl, rfl⟩)) ⟨(), rfl⟩
  refine ⟨y, hy, fun i d hd => ?_⟩
  have h1 := C58_azimuth_fast tp i lat lon (.arr t)
  rw [hy] at h1
  obtain ⟨z, hz, hr⟩ := RelM.of_ok ((npInstant tp).get_azimuth_fast (x := lat i) rfl (y := lon i) rfl
    (w := .arr (t i)) (w' := .dt d) ⟨d, t i, hd, rfl, rfl⟩) h1
  rw [hz, ← hr]

/-- C58, radiation. -/
theorem C58_radiation_direct_datetime64 (alt : ι → V) : ∃ y : ι → V,
    Radiation.get_radiation_direct (arrB tp ι) (.arr t) alt = .ok y ∧
    ∀ (i : ι) (d : DateTime), Denotes d (t i) →
      Radiation.get_radiation_direct (npB tp) (.dt d) (alt i) = .ok (y i) := by
  obtain ⟨y, hy⟩ := ok_of_total ((arrTotal tp ι).get_radiation_direct (w := .arr ()) (w' := .arr t)
    (.inr ⟨_, _, rfl, rfl⟩) (x := ()) (x' := alt) trivial) ⟨(), rfl⟩
  refine ⟨y, hy, fun i d hd => ?_⟩
  have h1 := C58_radiation_direct tp i alt (.arr t)
  rw [hy] at h1
  obtain ⟨z, hz, hr⟩ := RelM.of_ok ((npInstant tp).get_radiation_direct (w := .arr (t i)) (w' := .dt d)
    ⟨d, t i, hd, rfl, rfl⟩ (x := alt i) rfl) h1
  rw [hz, ← hr]

set_option maxRecDepth 100000 in
/-- C58: for a datetime whose UTC time is in the years 1..9999 and any arrays of locations, elevations, temperatures and
pressures, `get_position` returns two arrays. (Their entries: `C58_position`.) -/
theorem C58_position_exists (el T P : ι → V) (d : DateTime) (c : Civil) (h : UtcFields d c) :
    ∃ az alt : ι → V, Solar.get_position (arrB tp ι) lat lon (.dt d) el T P = .ok (az, alt) := by
  obtain ⟨y, hy⟩ := ok_of_total ((arrTotal tp ι).get_position (x := ()) (x' := lat) trivial (y := ()) (y' := lon) trivial
    (w := .dt d) (w' := .dt d) (.inl ⟨_, rfl, rfl⟩) (z := ()) (z' := el) trivial (t := ()) (t' := T) trivial
    (p := ()) (p' := P) trivial) (by
      refine ⟨((), ()), ?_⟩
      have g := guard_denotes (B := unitB) h.2
      have hts : Solartime.timestamp (B := unitB) (.dt d) = .ok _ := timestamp_of_denotes h.2
      have hj : Solartime.get_julian_solar_day unitB (.dt d) = .ok () := by
        unfold Solartime.get_julian_solar_day
        rw [g, hts, get_leap_seconds_eq h, get_delta_t_eq h]
        rfl
      have hj' : Solartime.get_julian_ephemeris_day unitB (.dt d) = .ok () := by
        unfold Solartime.get_julian_ephemeris_day
        rw [g, hts, get_leap_seconds_eq h]
        rfl
      unfold Solar.get_position Solar.get_topocentric_position
      rw [g, hj, hj']
      rfl)
  exact ⟨y.1, y.2, hy⟩

end

/-- Three `datetime64` entries, each the instant of an aware datetime. -/
example : ∃ y : Fin 3 → V, Solar.get_altitude_fast (arrB tp (Fin 3)) (fun i => .fin (10 * i)) (fun _ => .fin 5)
    (.arr fun _ => sampleUTC.micros) = .ok y ∧
    ∀ i : Fin 3, Solar.get_altitude_fast (npB tp) (.fin (10 * i)) (.fin 5) (.dt sampleDT) = .ok (y i) := by
  obtain ⟨y, h, hy⟩ := C58_altitude_fast_datetime64 tp (fun i : Fin 3 => .fin (10 * i)) (fun _ => .fin 5)
    (fun _ => sampleUTC.micros)
  exact ⟨y, h, fun i => hy i _ sample_utc.2⟩

/-- The sun's position for any two places at the sample time. -/
example (lat lon : Fin 2 → V) : ∃ az alt : Fin 2 → V, Solar.get_position (arrB tp (Fin 2)) lat lon (.dt sampleDT) 0 0 0
    = .ok (az, alt) := C58_position_exists tp lat lon _ _ _ _ _ sample_utc

/-- A call that succeeds with math. -/
example : Radiation.get_optical_depth (npB tp) (.fin 100) = .ok (.fin 0.174) := by
  refine C59_optical_depth tp _ _ ?_
  show Radiation.get_optical_depth (mathB tp) (num 100) = .ok (num 0.174)
  simp only [Radiation.get_optical_depth, m_ofNat, m_sci, m_pi, m_mul, m_divq, m_sub, m_sin, ok_bind, m_add, pure_eq_ok]
  norm_num

end Verif.Props
