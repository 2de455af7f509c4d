{
 "claims": [
  {
   "property": "C01",
   "status": "proved",
   "theorems": [
    "Verif.Props.C01_solartime",
    "Verif.Props.C01_solar",
    "Verif.Props.C01_util",
    "Verif.Props.C01_azimuth_fast_no_value",
    "Verif.Props.C01_azimuth_fast_math",
    "Verif.Props.C01_azimuth_fast_numpy"
   ],
   "note": "All decorated functions for every backend; get_azimuth_fast has no decorator of its own: never a value in any arithmetic, exactly the documented exception with the math and numpy backends. get_radiation_direct and simulate_span are not decorated and not claimed."
  },
  {
   "property": "C02",
   "status": "proved",
   "theorems": [
    "Verif.Props.C02_guard_transparent",
    "Verif.Props.C02_guard_eq_decorator"
   ],
   "note": ""
  },
  {
   "property": "C03",
   "status": "proved",
   "theorems": [
    "Verif.Props.C03_first_offender",
    "Verif.Props.C03_complete",
    "Verif.Props.C03_when"
   ],
   "note": ""
  },
  {
   "property": "C04",
   "status": "proved",
   "theorems": [
    "Verif.Props.C04_time_scales",
    "Verif.Props.C04_positions",
    "Verif.Props.C04_irradiance"
   ],
   "note": ""
  },
  {
   "property": "C05",
   "status": "proved",
   "theorems": [
    "Verif.Props.C05_leap_seconds_historical"
   ],
   "note": ""
  },
  {
   "property": "C06",
   "status": "proved",
   "theorems": [
    "Verif.Props.C06_leap_seconds_bounded",
    "Verif.Props.C06_leap_seconds_monotone"
   ],
   "note": ""
  },
  {
   "property": "C07",
   "status": "proved",
   "theorems": [
    "Verif.Props.C07_warning"
   ],
   "note": ""
  },
  {
   "property": "C08",
   "status": "proved",
   "theorems": [
    "Verif.Props.C08_delta_t_labelled",
    "Verif.Props.C08_labels_complete",
    "Verif.Props.C08_before",
    "Verif.Props.C08_total"
   ],
   "note": ""
  },
  {
   "property": "C09",
   "status": "partial",
   "theorems": [
    "Verif.Props.C09_refuted",
    "Verif.Props.C09_after_table_partial"
   ],
   "note": "False as stated: January to March of every year from 2015 on return the 2014 value of that month. C09_refuted is the counterexample, C09_after_table_partial the exact behaviour."
  },
  {
   "property": "C10",
   "status": "proved",
   "theorems": [
    "Verif.Props.C10_ephemeris_day",
    "Verif.Props.C10_solar_day"
   ],
   "note": "Exact real arithmetic (rounding not modelled)."
  },
  {
   "property": "C11",
   "status": "proved",
   "theorems": [
    "Verif.Props.C11_difference",
    "Verif.Props.C11_rescaling"
   ],
   "note": "Exact real arithmetic."
  },
  {
   "property": "C12",
   "status": "proved",
   "theorems": [
    "Verif.Props.C12_elapsed",
    "Verif.Props.C12_strictly_increasing"
   ],
   "note": "Exact real arithmetic."
  },
  {
   "property": "C13",
   "status": "proved",
   "theorems": [
    "Verif.Props.C13_solar_day_increases"
   ],
   "note": "Exact real arithmetic."
  },
  {
   "property": "C14",
   "status": "proved",
   "theorems": [
    "Verif.Props.C14_tables_consistent"
   ],
   "note": ""
  },
  {
   "property": "C15",
   "status": "proved",
   "theorems": [
    "Verif.Props.C15_date_parts"
   ],
   "note": ""
  },
  {
   "property": "C16",
   "status": "proved",
   "theorems": [
    "Verif.Props.C16_position_is_pair",
    "Verif.Props.C16_defaults"
   ],
   "note": ""
  },
  {
   "property": "C17",
   "status": "proved",
   "theorems": [
    "Verif.Props.C17_azimuth_bearing"
   ],
   "note": ""
  },
  {
   "property": "C18",
   "status": "proved",
   "theorems": [
    "Verif.Props.C18_elevation_range"
   ],
   "note": ""
  },
  {
   "property": "C19",
   "status": "proved",
   "theorems": [
    "Verif.Props.C19_direction"
   ],
   "note": ""
  },
  {
   "property": "C20",
   "status": "proved",
   "theorems": [
    "Verif.Props.C20_ecliptic_to_equatorial"
   ],
   "note": ""
  },
  {
   "property": "C21",
   "status": "proved",
   "theorems": [
    "Verif.Props.C21_distance"
   ],
   "note": ""
  },
  {
   "property": "C22",
   "status": "proved",
   "theorems": [
    "Verif.Props.C22_obliquity",
    "Verif.Props.C22_declination"
   ],
   "note": ""
  },
  {
   "property": "C23",
   "status": "proved",
   "theorems": [
    "Verif.Props.C23_sixty_three_terms",
    "Verif.Props.C23_nutation",
    "Verif.Props.C23_bounds"
   ],
   "note": ""
  },
  {
   "property": "C24",
   "status": "proved",
   "theorems": [
    "Verif.Props.C24_get_coeff"
   ],
   "note": ""
  },
  {
   "property": "C25",
   "status": "proved",
   "theorems": [
    "Verif.Props.C25_ellipsoid"
   ],
   "note": ""
  },
  {
   "property": "C26",
   "status": "proved",
   "theorems": [
    "Verif.Props.C26_parallax_right_ascension"
   ],
   "note": ""
  },
  {
   "property": "C27",
   "status": "partial",
   "theorems": [
    "Verif.Props.C27_refuted",
    "Verif.Props.C27_rigorous_partial",
    "Verif.Props.C27_error_partial"
   ],
   "note": "False as stated (the declination parallax uses the axial distance in the denominator and is not the rigorous projection). C27_refuted is the counterexample; the partial theorems give the rigorous special case and the error bound of 0.003 degrees."
  },
  {
   "property": "C28",
   "status": "partial",
   "theorems": [
    "Verif.Props.C28_refuted",
    "Verif.Props.C28_value_partial"
   ],
   "note": "False as stated: the parallax is multiplied by the distance instead of divided (8.794/(3600/R))."
  },
  {
   "property": "C29",
   "status": "proved",
   "theorems": [
    "Verif.Props.C29_fast",
    "Verif.Props.C29_precise"
   ],
   "note": ""
  },
  {
   "property": "C30",
   "status": "proved",
   "theorems": [
    "Verif.Props.C30_zero_below",
    "Verif.Props.C30_sign",
    "Verif.Props.C30_zenith_zero",
    "Verif.Props.C30_bound",
    "Verif.Props.C30_scaling"
   ],
   "note": "Exact real arithmetic. The value of the float tangent at its pole is a parameter tp; the bound needs |tp| >= 1 (floats give about 1.6e16), existence and sign need tp different from 0."
  },
  {
   "property": "C31",
   "status": "proved",
   "theorems": [
    "Verif.Props.C31_exceptions",
    "Verif.Props.C31_position",
    "Verif.Props.C31_singular_region",
    "Verif.Props.C31_returns"
   ],
   "note": "UtcFields d c says that d is an aware datetime whose UTC fields are c (years 1..9999)."
  },
  {
   "property": "C32",
   "status": "proved",
   "theorems": [
    "Verif.Props.C32_complement",
    "Verif.Props.C32_errors"
   ],
   "note": ""
  },
  {
   "property": "C33",
   "status": "proved",
   "theorems": [
    "Verif.Props.C33_mean_sidereal_time",
    "Verif.Props.C33_all_dates",
    "Verif.Props.C33_near_J2000"
   ],
   "note": ""
  },
  {
   "property": "C34",
   "status": "proved",
   "theorems": [
    "Verif.Props.C34_incidence",
    "Verif.Props.C34_horizontal_panel"
   ],
   "note": ""
  },
  {
   "property": "C35",
   "status": "proved",
   "theorems": [
    "Verif.Props.C35_declination",
    "Verif.Props.C35_declination_degree",
    "Verif.Props.C35_equation_of_time"
   ],
   "note": ""
  },
  {
   "property": "C36",
   "status": "proved",
   "theorems": [
    "Verif.Props.C36_altitude_fast"
   ],
   "note": ""
  },
  {
   "property": "C37",
   "status": "proved",
   "theorems": [
    "Verif.Props.C37_azimuth_fast"
   ],
   "note": ""
  },
  {
   "property": "C38",
   "status": "proved",
   "theorems": [
    "Verif.Props.C38_minute_granularity",
    "Verif.Props.C38_linear"
   ],
   "note": ""
  },
  {
   "property": "C39",
   "status": "proved",
   "theorems": [
    "Verif.Props.C39_ranges",
    "Verif.Props.C39_attained"
   ],
   "note": ""
  },
  {
   "property": "C40",
   "status": "proved",
   "theorems": [
    "Verif.Props.C40_range",
    "Verif.Props.C40_increasing"
   ],
   "note": ""
  },
  {
   "property": "C41",
   "status": "partial",
   "theorems": [
    "Verif.Props.C41_refuted",
    "Verif.Props.C41_zero_partial",
    "Verif.Props.C41_band_partial"
   ],
   "note": "False as stated: for altitudes just below the horizon math.exp raises OverflowError before the result is multiplied by 0. The partial theorems give the exact behaviour; C106 adds the band where double precision returns nan."
  },
  {
   "property": "C42",
   "status": "proved",
   "theorems": [
    "Verif.Props.C42_extraterrestrial"
   ],
   "note": ""
  },
  {
   "property": "C43",
   "status": "partial",
   "theorems": [
    "Verif.Props.C43_constant_partial",
    "Verif.Props.C43_refuted"
   ],
   "note": "False as stated: the function is constantly 1 in exact arithmetic."
  },
  {
   "property": "C44",
   "status": "partial",
   "theorems": [
    "Verif.Props.C44_value_partial",
    "Verif.Props.C44_default_partial",
    "Verif.Props.C44_refuted"
   ],
   "note": "False as stated: temperature, pressure and the turbidity of the diffuse part are ignored."
  },
  {
   "property": "C45",
   "status": "proved",
   "theorems": [
    "Verif.Props.C45_clear_index",
    "Verif.Props.C45_diffuse_ratio"
   ],
   "note": ""
  },
  {
   "property": "C46",
   "status": "proved",
   "theorems": [
    "Verif.Props.C46_value",
    "Verif.Props.C46_decreasing"
   ],
   "note": ""
  },
  {
   "property": "C47",
   "status": "proved",
   "theorems": [
    "Verif.Props.C47_at_ceiling",
    "Verif.Props.C47_above_ceiling"
   ],
   "note": "A complex result is represented by the error complexResult in the model."
  },
  {
   "property": "C48",
   "status": "proved",
   "theorems": [
    "Verif.Props.C48_ordered"
   ],
   "note": ""
  },
  {
   "property": "C49",
   "status": "proved",
   "theorems": [
    "Verif.Props.C49_altitude"
   ],
   "note": ""
  },
  {
   "property": "C50",
   "status": "proved",
   "theorems": [
    "Verif.Props.C50_value_error",
    "Verif.Props.C50_returns_or_overflows",
    "Verif.Props.C50_returns",
    "Verif.Props.C50_polar"
   ],
   "note": ""
  },
  {
   "property": "C51",
   "status": "proved",
   "theorems": [
    "Verif.Props.C51_projections",
    "Verif.Props.C51_same_date"
   ],
   "note": ""
  },
  {
   "property": "C52",
   "status": "partial",
   "theorems": [
    "Verif.Props.C52_same_day_partial",
    "Verif.Props.C52_iff_partial",
    "Verif.Props.C52_refuted"
   ],
   "note": "False of the code: with a UTC clock at longitude 180 the equatorial sunrise is reported for the evening before the requested day (C52_refuted). The partial theorems give the exact condition and a sufficient one (clock within one hour of mean solar time, day at most 21 h)."
  },
  {
   "property": "C53",
   "status": "proved",
   "theorems": [
    "Verif.Props.C53_equator",
    "Verif.Props.C53_monotone"
   ],
   "note": ""
  },
  {
   "property": "C54",
   "status": "proved",
   "theorems": [
    "Verif.Props.C54_nth",
    "Verif.Props.C54_count",
    "Verif.Props.C54_window",
    "Verif.Props.C54_half_open",
    "Verif.Props.C54_complete",
    "Verif.Props.C54_empty",
    "Verif.Props.C54_zero",
    "Verif.Props.C54_mixed"
   ],
   "note": ""
  },
  {
   "property": "C55",
   "status": "proved",
   "theorems": [
    "Verif.Props.C55_rows",
    "Verif.Props.C55_row_count",
    "Verif.Props.C55_exception",
    "Verif.Props.C55_math"
   ],
   "note": ""
  },
  {
   "property": "C56",
   "status": "proved",
   "theorems": [
    "Verif.Props.C56_index",
    "Verif.Props.C56_no_index_error",
    "Verif.Props.C56_span_no_index_error",
    "Verif.Props.C56_short_horizon",
    "Verif.Props.C56_short_fails"
   ],
   "note": ""
  },
  {
   "property": "C57",
   "status": "partial",
   "theorems": [
    "Verif.Props.C57_all_but_where_partial",
    "Verif.Props.C57_where_partial",
    "Verif.Props.C57_without_numpy",
    "Verif.Props.C57_refuted",
    "Verif.Props.C57_where_iff_partial"
   ],
   "note": "False as stated for `where` only: once numpy is installed, use_math() leaves `where` bound to numpy.where (C57_refuted). All other names follow the last switch; C57_where_iff_partial gives the exact condition."
  },
  {
   "property": "C58",
   "status": "proved",
   "theorems": [
    "Verif.Props.C58_julian_solar_day",
    "Verif.Props.C58_julian_ephemeris_day",
    "Verif.Props.C58_julian_century",
    "Verif.Props.C58_julian_ephemeris_century",
    "Verif.Props.C58_julian_ephemeris_millennium",
    "Verif.Props.C58_equation_of_time",
    "Verif.Props.C58_aberration_correction",
    "Verif.Props.C58_declination",
    "Verif.Props.C58_equatorial_horizontal_parallax",
    "Verif.Props.C58_flattened_latitude",
    "Verif.Props.C58_heliocentric_latitude",
    "Verif.Props.C58_heliocentric_longitude",
    "Verif.Props.C58_geocentric_latitude",
    "Verif.Props.C58_geocentric_longitude",
    "Verif.Props.C58_geocentric_sun_declination",
    "Verif.Props.C58_geocentric_sun_right_ascension",
    "Verif.Props.C58_local_hour_angle",
    "Verif.Props.C58_mean_sidereal_time",
    "Verif.Props.C58_parallax_sun_right_ascension",
    "Verif.Props.C58_projected_radial_distance",
    "Verif.Props.C58_projected_axial_distance",
    "Verif.Props.C58_sun_earth_distance",
    "Verif.Props.C58_refraction_correction",
    "Verif.Props.C58_topocentric_azimuth_angle",
    "Verif.Props.C58_topocentric_elevation_angle",
    "Verif.Props.C58_topocentric_local_hour_angle",
    "Verif.Props.C58_topocentric_sun_declination",
    "Verif.Props.C58_topocentric_sun_right_ascension",
    "Verif.Props.C58_topocentric_zenith_angle",
    "Verif.Props.C58_incidence_angle",
    "Verif.Props.C58_solar_time",
    "Verif.Props.C58_hour_angle",
    "Verif.Props.C58_altitude_fast",
    "Verif.Props.C58_azimuth_fast",
    "Verif.Props.C58_topocentric_position",
    "Verif.Props.C58_position",
    "Verif.Props.C58_altitude",
    "Verif.Props.C58_azimuth",
    "Verif.Props.C58_air_mass_ratio",
    "Verif.Props.C58_apparent_extraterrestrial_flux",
    "Verif.Props.C58_optical_depth",
    "Verif.Props.C58_radiation_direct",
    "Verif.Props.C58_mean_earth_sun_distance",
    "Verif.Props.C58_declination_degree",
    "Verif.Props.C58_solarelevation_function_clear",
    "Verif.Props.C58_solarelevation_function_overcast",
    "Verif.Props.C58_diffuse_transmittance",
    "Verif.Props.C58_diffuse_underclear",
    "Verif.Props.C58_diffuse_underovercast",
    "Verif.Props.C58_direct_underclear",
    "Verif.Props.C58_global_irradiance_clear",
    "Verif.Props.C58_global_irradiance_overcast",
    "Verif.Props.C58_diffuse_ratio",
    "Verif.Props.C58_temperature_with_elevation",
    "Verif.Props.C58_gas_transmittance",
    "Verif.Props.C58_ozone_transmittance",
    "Verif.Props.C58_rayleigh_extinction_forward_scattering_fraction",
    "Verif.Props.C58_rayleigh_transmittance",
    "Verif.Props.C58_sky_albedo",
    "Verif.Props.C58_aerosol_transmittance",
    "Verif.Props.C58_aerosol_scattering_transmittance",
    "Verif.Props.C58_water_vapor_transmittance",
    "Verif.Props.C58_backscattered_diffuse_irradiance_by_band",
    "Verif.Props.C58_altitude_fast_datetime64",
    "Verif.Props.C58_azimuth_fast_datetime64",
    "Verif.Props.C58_radiation_direct_datetime64",
    "Verif.Props.C58_position_exists"
   ],
   "note": "arrB tp ι are numpy arrays of arbitrary shape over idealised numpy scalars; one theorem for each function that accepts arrays. The functions using `if`, timedelta or round on a number do not accept arrays and are not listed."
  },
  {
   "property": "C59",
   "status": "proved",
   "theorems": [
    "Verif.Props.C59_leap_seconds",
    "Verif.Props.C59_delta_t",
    "Verif.Props.C59_julian_solar_day",
    "Verif.Props.C59_julian_ephemeris_day",
    "Verif.Props.C59_julian_century",
    "Verif.Props.C59_julian_ephemeris_century",
    "Verif.Props.C59_julian_ephemeris_millennium",
    "Verif.Props.C59_equation_of_time",
    "Verif.Props.C59_aberration_correction",
    "Verif.Props.C59_declination",
    "Verif.Props.C59_equatorial_horizontal_parallax",
    "Verif.Props.C59_flattened_latitude",
    "Verif.Props.C59_heliocentric_latitude",
    "Verif.Props.C59_heliocentric_longitude",
    "Verif.Props.C59_geocentric_latitude",
    "Verif.Props.C59_geocentric_longitude",
    "Verif.Props.C59_geocentric_sun_declination",
    "Verif.Props.C59_geocentric_sun_right_ascension",
    "Verif.Props.C59_local_hour_angle",
    "Verif.Props.C59_mean_sidereal_time",
    "Verif.Props.C59_nutation",
    "Verif.Props.C59_parallax_sun_right_ascension",
    "Verif.Props.C59_projected_radial_distance",
    "Verif.Props.C59_projected_axial_distance",
    "Verif.Props.C59_sun_earth_distance",
    "Verif.Props.C59_refraction_correction",
    "Verif.Props.C59_topocentric_azimuth_angle",
    "Verif.Props.C59_topocentric_elevation_angle",
    "Verif.Props.C59_topocentric_local_hour_angle",
    "Verif.Props.C59_topocentric_sun_declination",
    "Verif.Props.C59_topocentric_sun_right_ascension",
    "Verif.Props.C59_topocentric_zenith_angle",
    "Verif.Props.C59_incidence_angle",
    "Verif.Props.C59_solar_time",
    "Verif.Props.C59_hour_angle",
    "Verif.Props.C59_altitude_fast",
    "Verif.Props.C59_azimuth_fast",
    "Verif.Props.C59_topocentric_position",
    "Verif.Props.C59_position",
    "Verif.Props.C59_altitude",
    "Verif.Props.C59_azimuth",
    "Verif.Props.C59_air_mass_ratio",
    "Verif.Props.C59_apparent_extraterrestrial_flux",
    "Verif.Props.C59_optical_depth",
    "Verif.Props.C59_radiation_direct",
    "Verif.Props.C59_mean_earth_sun_distance",
    "Verif.Props.C59_declination_degree",
    "Verif.Props.C59_solarelevation_function_clear",
    "Verif.Props.C59_solarelevation_function_overcast",
    "Verif.Props.C59_diffuse_transmittance",
    "Verif.Props.C59_diffuse_underclear",
    "Verif.Props.C59_diffuse_underovercast",
    "Verif.Props.C59_direct_underclear",
    "Verif.Props.C59_global_irradiance_clear",
    "Verif.Props.C59_global_irradiance_overcast",
    "Verif.Props.C59_diffuse_ratio",
    "Verif.Props.C59_temperature_with_elevation",
    "Verif.Props.C59_gas_transmittance",
    "Verif.Props.C59_ozone_transmittance",
    "Verif.Props.C59_rayleigh_extinction_forward_scattering_fraction",
    "Verif.Props.C59_rayleigh_transmittance",
    "Verif.Props.C59_sky_albedo",
    "Verif.Props.C59_aerosol_transmittance",
    "Verif.Props.C59_aerosol_scattering_transmittance",
    "Verif.Props.C59_water_vapor_transmittance",
    "Verif.Props.C59_backscattered_diffuse_irradiance_by_band",
    "Verif.Props.C59_sunrise_sunset_transit",
    "Verif.Props.C59_sunrise_sunset",
    "Verif.Props.C59_sunrise_time",
    "Verif.Props.C59_sunset_time",
    "Verif.Props.C59_transit_time",
    "Verif.Props.C59_extraterrestrial_irrad",
    "Verif.Props.C59_clear_index",
    "Verif.Props.C59_pressure_with_elevation",
    "Verif.Props.C59_aerosol_forward_scatterance_factor",
    "Verif.Props.C59_aerosol_optical_depth",
    "Verif.Props.C59_aerosol_scattering_correction_factor",
    "Verif.Props.C59_nitrogen_transmittance",
    "Verif.Props.C59_optical_mass_rayleigh",
    "Verif.Props.C59_optical_mass_ozone",
    "Verif.Props.C59_optical_mass_water",
    "Verif.Props.C59_optical_mass_aerosol",
    "Verif.Props.C59_simulate_span"
   ],
   "note": "The elementary functions of math and numpy are assumed to agree where math does not raise (they are the same real functions in the model). One theorem per function; simulate_span row by row."
  },
  {
   "property": "C60",
   "status": "proved",
   "theorems": [
    "Verif.Props.C60_same",
    "Verif.Props.C60_polynomials",
    "Verif.Props.C60_names",
    "Verif.Props.C60_built_once",
    "Verif.Props.C60_kept"
   ],
   "note": ""
  },
  {
   "property": "C61",
   "status": "proved",
   "theorems": [
    "Verif.Props.C61_rayleigh",
    "Verif.Props.C61_gas",
    "Verif.Props.C61_nitrogen",
    "Verif.Props.C61_water",
    "Verif.Props.C61_aerosol",
    "Verif.Props.C61_aerosol_scattering",
    "Verif.Props.C61_rayleigh_range"
   ],
   "note": ""
  },
  {
   "property": "C62",
   "status": "partial",
   "theorems": [
    "Verif.Props.C62_no_log",
    "Verif.Props.C62_effective_wavelength",
    "Verif.Props.C62_direct_by_band",
    "Verif.Props.C62_direct_broadband",
    "Verif.Props.C62_beam_broadband",
    "Verif.Props.C62_beam_by_band",
    "Verif.Props.C62_diffuse_by_band",
    "Verif.Props.C62_diffuse_broadband",
    "Verif.Props.C62_backscattered_broadband",
    "Verif.Props.C62_global",
    "Verif.Props.C62_diffuse_any_globals",
    "Verif.Props.C62_global_any_globals",
    "Verif.Props.C62_refuted",
    "Verif.Props.C62_masses_partial",
    "Verif.Props.C62_exceptions_partial"
   ],
   "note": "False as stated: every broadband, beam, diffuse and global entry point raises (missing name, wrong arity, list used as number); C62_exceptions_partial gives the exceptions, C62_masses_partial what does work."
  },
  {
   "property": "C63",
   "status": "proved",
   "theorems": [
    "Verif.Props.C63_sky_albedo",
    "Verif.Props.C63_backscatter"
   ],
   "note": ""
  },
  {
   "property": "C64",
   "status": "proved",
   "theorems": [
    "Verif.Props.C64_round_trip",
    "Verif.Props.C64_four_decimals",
    "Verif.Props.C64_rounding",
    "Verif.Props.C64_rejects_other_days",
    "Verif.Props.C64_accepts"
   ],
   "note": "The model starts from parsed rows and represents the printed source by tokens; months need not be checked beyond consecutiveness (C64_accepts)."
  },
  {
   "property": "C65",
   "status": "proved",
   "theorems": [
    "Verif.Props.C65_reduced"
   ],
   "note": ""
  },
  {
   "property": "C66",
   "status": "proved",
   "theorems": [
    "Verif.Props.C66_order"
   ],
   "note": ""
  },
  {
   "property": "C67",
   "status": "proved",
   "theorems": [
    "Verif.Props.C67_same_diffuse"
   ],
   "note": ""
  },
  {
   "property": "C68",
   "status": "partial",
   "theorems": [
    "Verif.Props.C68_value_partial",
    "Verif.Props.C68_refuted"
   ],
   "note": "False as stated: the altitude in degrees is passed to sin. C68_refuted has a concrete witness (the pressure is chosen to place the altitude at 67.5 degrees)."
  },
  {
   "property": "C69",
   "status": "partial",
   "theorems": [
    "Verif.Props.C69_value_partial",
    "Verif.Props.C69_refuted"
   ],
   "note": "False as stated: the altitude in degrees is passed to sin and cos."
  },
  {
   "property": "C70",
   "status": "partial",
   "theorems": [
    "Verif.Props.C70_value_partial",
    "Verif.Props.C70_error_partial",
    "Verif.Props.C70_refuted"
   ],
   "note": "False as stated: the obliquity in degrees is passed to cos. C70_error_partial bounds the effect."
  },
  {
   "property": "C71",
   "status": "proved",
   "theorems": [
    "Verif.Props.C71_direction",
    "Verif.Props.C71_direction_poles",
    "Verif.Props.C71_direction_near_J2000"
   ],
   "note": ""
  },
  {
   "property": "C72",
   "status": "proved",
   "theorems": [
    "Verif.Props.C72_declination",
    "Verif.Props.C72_equation_of_time",
    "Verif.Props.C72_solar_time",
    "Verif.Props.C72_hour_angle"
   ],
   "note": ""
  },
  {
   "property": "C73",
   "status": "proved",
   "theorems": [
    "Verif.Props.C73_range",
    "Verif.Props.C73_attained"
   ],
   "note": ""
  },
  {
   "property": "C74",
   "status": "proved",
   "theorems": [
    "Verif.Props.C74_flux_depth",
    "Verif.Props.C74_air_mass",
    "Verif.Props.C74_direct"
   ],
   "note": ""
  },
  {
   "property": "C75",
   "status": "proved",
   "theorems": [
    "Verif.Props.C75_obliquity",
    "Verif.Props.C75_apparent_longitude",
    "Verif.Props.C75_topocentric_right_ascension"
   ],
   "note": ""
  },
  {
   "property": "C76",
   "status": "proved",
   "theorems": [
    "Verif.Props.C76_zone",
    "Verif.Props.C76_longitude"
   ],
   "note": ""
  },
  {
   "property": "C77",
   "status": "proved",
   "theorems": [
    "Verif.Props.C77_extraterrestrial"
   ],
   "note": ""
  },
  {
   "property": "C78",
   "status": "proved",
   "theorems": [
    "Verif.Props.C78_rate",
    "Verif.Props.C78_rate_near_J2000",
    "Verif.Props.C78_distinct"
   ],
   "note": ""
  },
  {
   "property": "C79",
   "status": "proved",
   "theorems": [
    "Verif.Props.C79_rayleigh",
    "Verif.Props.C79_gas",
    "Verif.Props.C79_ozone",
    "Verif.Props.C79_nitrogen",
    "Verif.Props.C79_water",
    "Verif.Props.C79_aerosol",
    "Verif.Props.C79_forward_scatterance",
    "Verif.Props.C79_optical_depth",
    "Verif.Props.C79_scattering_correction",
    "Verif.Props.C79_forward_fraction",
    "Verif.Props.C79_sky_albedo"
   ],
   "note": ""
  },
  {
   "property": "C80",
   "status": "partial",
   "theorems": [
    "Verif.Props.C80_optical_masses_partial",
    "Verif.Props.C80_masses_above_900_partial",
    "Verif.Props.C80_refuted"
   ],
   "note": "False as stated: the parentheses put the zenith term and the cosine over the same denominator and the zenith angle is in radians; the results are above 900 for every altitude from 0 to 90."
  },
  {
   "property": "C81",
   "status": "proved",
   "theorems": [
    "Verif.Props.C81_diffuse_transmittance",
    "Verif.Props.C81_declination_degree",
    "Verif.Props.C81_diffuse_overcast",
    "Verif.Props.C81_direct"
   ],
   "note": ""
  },
  {
   "property": "C82",
   "status": "partial",
   "theorems": [
    "Verif.Props.C82_sign_partial",
    "Verif.Props.C82_refuted"
   ],
   "note": "False as stated: both are proportional to the altitude in degrees and negative at night."
  },
  {
   "property": "C83",
   "status": "partial",
   "theorems": [
    "Verif.Props.C83_harmless_partial",
    "Verif.Props.C83_pop_partial",
    "Verif.Props.C83_refuted"
   ],
   "note": "False as stated: get_aberration_coeffs returns the global dictionary itself; deleting an entry makes every later get_nutation raise KeyError (C83_pop_partial, C83_refuted). C83_harmless_partial: reads and writes under other names have no effect."
  },
  {
   "property": "C84",
   "status": "proved",
   "theorems": [
    "Verif.Props.C84_topocentric_position"
   ],
   "note": "rndB F rounds every operation; F : F64 states the assumptions on rounding and library functions, and binary64 : F64 (Proofs/Binary64.lean) shows that IEEE round-to-nearest-even meets them. LatOk: latitudes within 1e-9 degrees of a pole are included if radians(90) falls short of a right angle by 2^-54 or more (it does in binary64, binary64_pole), the exact side then taking the tangent at the pole to be at least 1e15 and of its sign."
  },
  {
   "property": "C85",
   "status": "proved",
   "theorems": [
    "Verif.Props.C85_direction"
   ],
   "note": "Same arithmetic as C84. The elevation angle is before refraction."
  },
  {
   "property": "C86",
   "status": "proved",
   "theorems": [
    "Verif.Props.C86_altitude",
    "Verif.Props.C86_default",
    "Verif.Props.C86_applies"
   ],
   "note": "Same arithmetic as C84; the exact side takes math.tan at odd multiples of 90 degrees to be some value of size at least 1e6."
  },
  {
   "property": "C87",
   "status": "proved",
   "theorems": [
    "Verif.Props.C87_fast_angles"
   ],
   "note": ""
  },
  {
   "property": "C88",
   "status": "proved",
   "theorems": [
    "Verif.Props.C88_fast_altitude",
    "Verif.Props.C88_fast_direction"
   ],
   "note": ""
  },
  {
   "property": "C89",
   "status": "proved",
   "theorems": [
    "Verif.Props.C89_declination_sign"
   ],
   "note": ""
  },
  {
   "property": "C90",
   "status": "proved",
   "theorems": [
    "Verif.Props.C90_polar_day",
    "Verif.Props.C90_polar_night"
   ],
   "note": ""
  },
  {
   "property": "C91",
   "status": "proved",
   "theorems": [
    "Verif.Props.C91_speed_limit"
   ],
   "note": ""
  },
  {
   "property": "C92",
   "status": "partial",
   "theorems": [
    "Verif.Props.C92_shift_partial",
    "Verif.Props.C92_refuted"
   ],
   "note": "False of the code on days of a clock change (C92_refuted: a zone moving one hour forward). C92_shift_partial: for every time zone the answers for two datetimes of one date differ by exactly the difference of their UTC offsets, hence are equal when the offsets are."
  },
  {
   "property": "C93",
   "status": "proved",
   "theorems": [
    "Verif.Props.C93_transit"
   ],
   "note": ""
  },
  {
   "property": "C94",
   "status": "proved",
   "theorems": [
    "Verif.Props.C94_elevation"
   ],
   "note": ""
  },
  {
   "property": "C95",
   "status": "proved",
   "theorems": [
    "Verif.Props.C95_daylight"
   ],
   "note": "Real-number arithmetic. Outside means within half a day of the transit (the interval is about one day only)."
  },
  {
   "property": "C96",
   "status": "proved",
   "theorems": [
    "Verif.Props.C96_polar"
   ],
   "note": ""
  },
  {
   "property": "C97",
   "status": "proved",
   "theorems": [
    "Verif.Props.C97_side",
    "Verif.Props.C97_noon",
    "Verif.Props.C97_azimuth",
    "Verif.Props.C97_fast"
   ],
   "note": ""
  },
  {
   "property": "C98",
   "status": "proved",
   "theorems": [
    "Verif.Props.C98_course"
   ],
   "note": ""
  },
  {
   "property": "C99",
   "status": "proved",
   "theorems": [
    "Verif.Props.C99_fast",
    "Verif.Props.C99_precise"
   ],
   "note": ""
  },
  {
   "property": "C100",
   "status": "partial",
   "theorems": [
    "Verif.Props.C100_integer_partial",
    "Verif.Props.C100_positive_partial",
    "Verif.Props.C100_negative_partial",
    "Verif.Props.C100_exact_partial",
    "Verif.Props.C100_refuted"
   ],
   "note": "False of the code (C100_refuted: longitude -0.5). C100_exact_partial: sent correctly if and only if a whole number of degrees, or not negative and a whole number of minutes. C100_integer_partial: whole degrees, with the date, time and height; C100_positive_partial: too small by less than one minute of arc for non-negative coordinates; C100_negative_partial: too far out by twice the part after the whole degrees rounded down, within one minute, for negative ones."
  },
  {
   "property": "C101",
   "status": "partial",
   "theorems": [
    "Verif.Props.C101_errors_partial",
    "Verif.Props.C101_refuted"
   ],
   "note": "False of the code (C101_refuted: 80 N on 15 June 2013, any non-zero value tp of tan at a pole, as math.tan has). C101_errors_partial gives the reported errors exactly."
  },
  {
   "property": "C102",
   "status": "partial",
   "theorems": [
    "Verif.Props.C102_round_trip_partial",
    "Verif.Props.C102_value_error_partial",
    "Verif.Props.C102_refuted"
   ],
   "note": "False of the code (C102_refuted). C102_round_trip_partial is the round trip for naive timestamps in whole seconds; C102_value_error_partial says every other timestamp makes the log unreadable."
  },
  {
   "property": "C103",
   "status": "proved",
   "theorems": [
    "Verif.Props.C103_fast_altitude"
   ],
   "note": ""
  },
  {
   "property": "C104",
   "status": "proved",
   "theorems": [
    "Verif.Props.C104_fast_azimuth",
    "Verif.Props.C104_outside_tropics"
   ],
   "note": ""
  },
  {
   "property": "C105",
   "status": "proved",
   "theorems": [
    "Verif.Props.C105_direct_radiation",
    "Verif.Props.C105_flux_depth"
   ],
   "note": ""
  },
  {
   "property": "C106",
   "status": "partial",
   "theorems": [
    "Verif.Props.C106_refuted",
    "Verif.Props.C106_zero_partial",
    "Verif.Props.C106_overflow_partial",
    "Verif.Props.C106_nan_partial",
    "Verif.Props.C106_outcomes_partial"
   ],
   "note": "False of the code (C106_refuted: nan on 10 April 2003, 0.0141 degrees below the horizon). C106_zero_partial, C106_overflow_partial and C106_nan_partial describe the three regions; the altitudes between them, where the outcome depends on the last bits, and those within 1e-6 degrees of the horizon are covered by C106_outcomes_partial only: at every altitude from -90 to 0 the outcome is 0, nan or OverflowError."
  },
  {
   "property": "C107",
   "status": "proved",
   "theorems": [
    "Verif.Props.C107_sunrise"
   ],
   "note": "Against the exact-arithmetic model of the same code. Latitudes within 1 degree of a pole are not covered."
  },
  {
   "property": "C108",
   "status": "proved",
   "theorems": [
    "Verif.Props.C108_almanac"
   ],
   "note": "The Almanac's formulas are in Spec/Almanac.lean; exact arithmetic."
  },
  {
   "property": "C109",
   "status": "proved",
   "theorems": [
    "Verif.Props.C109_almanac_direction"
   ],
   "note": "Geometric direction: refraction is not part of the comparison. Exact arithmetic; C84-C86 bound the rounding."
  },
  {
   "property": "C110",
   "status": "proved",
   "theorems": [
    "Verif.Props.C110_double_precision"
   ],
   "note": "Double precision as described by F64; geometric direction, before refraction."
  },
  {
   "property": "C111",
   "status": "proved",
   "theorems": [
    "Verif.Props.C111_direction_arrays",
    "Verif.Props.C111_altitude_arrays",
    "Verif.Props.C111_position_arrays"
   ],
   "note": "Double precision as described by F64, for numpy's own library; signed zeros are not modelled."
  },
  {
   "property": "C112",
   "status": "proved",
   "theorems": [
    "Verif.Props.C112_fast_altitude_arrays",
    "Verif.Props.C112_fast_azimuth_arrays"
   ],
   "note": "As C111."
  },
  {
   "property": "C113",
   "status": "partial",
   "theorems": [
    "Verif.Props.C113_refuted",
    "Verif.Props.C113_direct_radiation_arrays_partial",
    "Verif.Props.C113_night_entries_partial"
   ],
   "note": "False: from 0.011 degrees to a millionth of a degree below the horizon the entry is nan (C113_refuted). Missing from the partial theorem: the bands from -0.0171 to -0.011 degrees, where zero or nan depends on the day, and within a millionth of a degree of the horizon; there C113_night_entries_partial says that an entry is 0 or nan, whatever the array contains."
  },
  {
   "property": "C114",
   "status": "proved",
   "theorems": [
    "Verif.Props.C114_tables",
    "Verif.Props.C114_heliocentric",
    "Verif.Props.C114_obliquity",
    "Verif.Props.C114_place"
   ],
   "note": "Exact real arithmetic. The tables of the specification were written down from the report, apart from constants.py."
  },
  {
   "property": "C115",
   "status": "proved",
   "theorems": [
    "Verif.Props.C115_pole_to_pole"
   ],
   "note": "The rounding is IEEE round-to-nearest-even throughout; library functions (sin, cos, tan, ...) are correctly rounded in binary64 : F64."
  },
  {
   "property": "C116",
   "status": "proved",
   "theorems": [
    "Verif.Props.C116_position_defaults",
    "Verif.Props.C116_irradiance_defaults",
    "Verif.Props.C116_elevation_defaults",
    "Verif.Props.C116_simulation_and_rest_defaults",
    "Verif.Props.C116_standard_atmosphere"
   ],
   "note": "The defaults hold by definition of the model (rfl), whatever the numeric backend; the theorem states them with numbers only, so that a changed constant breaks it."
  },
  {
   "property": "C117",
   "status": "proved",
   "theorems": [
    "Verif.Props.C117_mean_distance",
    "Verif.Props.C117_declination",
    "Verif.Props.C117_extraterrestrial",
    "Verif.Props.C117_clear_index",
    "Verif.Props.C117_elevation",
    "Verif.Props.C117_diffuse",
    "Verif.Props.C117_direct",
    "Verif.Props.C117_global",
    "Verif.Props.C117_overflow",
    "Verif.Props.C117_applies"
   ],
   "note": "The altitude error of 2e-5 degrees is a hypothesis, discharged by C86 (C117_applies shows it met at every time)."
  },
  {
   "property": "C118",
   "status": "proved",
   "theorems": [
    "Verif.Props.C118_atmosphere",
    "Verif.Props.C118_altitude",
    "Verif.Props.C118_applies"
   ],
   "note": "The excluded intervals around the jumps are those of C86; C118_applies shows the hypotheses met at every time."
  },
  {
   "property": "C119",
   "status": "partial",
   "theorems": [
    "Verif.Props.C119_formula",
    "Verif.Props.C119_refuted",
    "Verif.Props.C119_positive_partial"
   ],
   "note": "False of the code: with default turbidity and the sun on the horizon the low band is negative (C119_refuted), because the optical masses are computed from radians (C80). The formulas hold; the high band is positive for exponents 0.6 to 2.5, the low band for masses up to 38 (C119_positive_partial)."
  },
  {
   "property": "C120",
   "status": "partial",
   "theorems": [
    "Verif.Props.C120_formula_partial",
    "Verif.Props.C120_low_negative_partial",
    "Verif.Props.C120_sums_partial",
    "Verif.Props.C120_refuted",
    "Verif.Props.C120_overhead_partial",
    "Verif.Props.C120_horizon_partial"
   ],
   "note": "False of the code: at pressures above 750 millibars the low band is negative whenever it is returned (C120_low_negative_partial), overhead with the defaults less than 1 W/m2 is returned, and on the horizon the call fails on a complex power. The product, sum and cosine formulas hold (C120_formula_partial, C120_sums_partial)."
  },
  {
   "property": "C121",
   "status": "proved",
   "theorems": [
    "Verif.Props.C121_topocentric_position",
    "Verif.Props.C121_altitude",
    "Verif.Props.C121_azimuth",
    "Verif.Props.C121_position",
    "Verif.Props.C121_altitude_fast",
    "Verif.Props.C121_azimuth_fast",
    "Verif.Props.C121_air_mass_ratio",
    "Verif.Props.C121_radiation_direct",
    "Verif.Props.C121_sunrise",
    "Verif.Props.C121_sunrise_parts",
    "Verif.Props.C121_irradiance",
    "Verif.Props.C121_extraterrestrial",
    "Verif.Props.C121_clear_index",
    "Verif.Props.C121_irradiance_clear",
    "Verif.Props.C121_pressure",
    "Verif.Props.C121_numbers",
    "Verif.Props.C121_instant",
    "Verif.Props.C121_instant_fast"
   ],
   "note": "The entries of arrays are left out of the model (Py/Mixed.lean); radians and where of an array raise in numpy's terms but are pure in the model, and the exception is raised by the next function of math."
  },
  {
   "property": "C122",
   "status": "proved",
   "theorems": [
    "Verif.Props.C122_end_to_end",
    "Verif.Props.C122_first_of_month",
    "Verif.Props.C122_missing_field"
   ],
   "note": "Characters in, characters out (Model/DeltaTText.lean); the reader of Python source is a separate specification (Spec/PySource.lean). Only ASCII space and digits; what is printed before a failure is not part of the outcome."
  },
  {
   "property": "C123",
   "status": "partial",
   "theorems": [
    "Verif.Props.C123_completes_partial",
    "Verif.Props.C123_stops_partial",
    "Verif.Props.C123_refuted",
    "Verif.Props.C123_refuted_double",
    "Verif.Props.C123_exact_partial",
    "Verif.Props.C123_whole_day_partial"
   ],
   "note": "False of the code: at a half-hour with altitude just below 0 the air mass overflows in math.exp and the run ends with OverflowError; witness 2020-06-01 09:11:37 UTC, enclosed by interval arithmetic in the kernel, exact and in double precision (C123_refuted, C123_refuted_double). Proved: the run ends with an exception exactly if some half-hour has an altitude from which exp overflows, which is decided by a formula, at the first such half-hour and after the lines of those before it (C123_exact_partial); the run of a whole day from 2020-06-01 12:05:00 completes with 30 lines (C123_whole_day_partial)."
  },
  {
   "property": "C124",
   "status": "partial",
   "theorems": [
    "Verif.Props.C124_exact_partial",
    "Verif.Props.C124_completes_iff_partial",
    "Verif.Props.C124_sunrise_partial",
    "Verif.Props.C124_refuted_double",
    "Verif.Props.C124_completes_partial",
    "Verif.Props.C124_refuted"
   ],
   "note": "False of the code for the same reason (C124_refuted); also in double precision (C124_refuted_double). Proved for spans without a time at which the altitude is between -0.0171 and 0, and exactly: the span ends normally if and only if at none of its times the sun is unhidden with exp(depth/|sin altitude|) at least 2^1024, and otherwise it yields the rows before the first such time."
  },
  {
   "property": "C125",
   "status": "proved",
   "theorems": [
    "Verif.Props.C125_ctime",
    "Verif.Props.C125_timestamp",
    "Verif.Props.C125_lines",
    "Verif.Props.C125_complete",
    "Verif.Props.C125_distinct"
   ],
   "note": "The clock is a parameter; the digits print() writes for floats are not modelled, the values are."
  },
  {
   "property": "C126",
   "status": "proved",
   "theorems": [
    "Verif.Props.C126_outcome",
    "Verif.Props.C126_fast",
    "Verif.Props.C126_radiation_direct",
    "Verif.Props.C126_elementwise",
    "Verif.Props.C126_topocentric_position",
    "Verif.Props.C126_altitude",
    "Verif.Props.C126_azimuth",
    "Verif.Props.C126_position",
    "Verif.Props.C126_irradiance",
    "Verif.Props.C126_global_clear"
   ],
   "note": "Shapes only (backend shapeB); that the entries are those computed one by one is C58 and C111. An operation on arrays that do not fit is followed up to the end of the function, where it counts as ValueError."
  },
  {
   "property": "C127",
   "status": "proved",
   "theorems": [
    "Verif.Props.C127_pressure",
    "Verif.Props.C127_extraterrestrial",
    "Verif.Props.C127_clear_index",
    "Verif.Props.C127_sunrise",
    "Verif.Props.C127_sunrise_wrappers"
   ],
   "note": "Arrays without entries are left out for the functions with a scalar branch: their truth value depends on the version of numpy."
  },
  {
   "property": "C128",
   "status": "proved",
   "theorems": [
    "Verif.Props.C128_exact",
    "Verif.Props.C128_double",
    "Verif.Props.C128_binary64"
   ],
   "note": "C128_exact (exact arithmetic), C128_double (any rounding that fixes its own values and powers of 1), C128_binary64."
  },
  {
   "property": "C129",
   "status": "proved",
   "theorems": [
    "Verif.Props.C129_response",
    "Verif.Props.C129_short"
   ],
   "note": "Words of line 22 separated by spaces; that the words are numbers is a hypothesis. Exact arithmetic."
  },
  {
   "property": "C130",
   "status": "proved",
   "theorems": [
    "Verif.Props.C130_csv",
    "Verif.Props.C130_main"
   ],
   "note": "C130_csv for any backend and any comparisons; C130_main from the log on, exact arithmetic, for entries where pysolar returns numbers. The statistics printed before the file is written (scipy) are not modelled."
  },
  {
   "property": "C131",
   "status": "partial",
   "theorems": [
    "Verif.Props.C131_effect_winter_partial",
    "Verif.Props.C131_effect_summer_partial",
    "Verif.Props.C131_criterion_partial",
    "Verif.Props.C131_exact_partial",
    "Verif.Props.C131_refuted",
    "Verif.Props.C131_direct_underclear_partial",
    "Verif.Props.C131_sidereal_partial",
    "Verif.Props.C131_positional_partial"
   ],
   "note": "False of the code (C131_refuted). Proved: a criterion for all signatures and calls (C131_criterion_partial); exactly five of the 73 stubs fail it (C131_exact_partial); what the calls do instead (C131_direct_underclear_partial, C131_sidereal_partial, C131_positional_partial). C131_effect_winter_partial and C131_effect_summer_partial: direct_underclear with temperature and pressure where its stub has them raises OverflowError on the first 80 days of the year and returns zero to 100 digits on days 82 to 181. Parameters only; the declared types are not modelled."
  },
  {
   "property": "C132",
   "status": "partial",
   "theorems": [
    "Verif.Props.C132_int_partial",
    "Verif.Props.C132_float_partial",
    "Verif.Props.C132_type_error_partial",
    "Verif.Props.C132_refuted"
   ],
   "note": "False of the code (C132_refuted: half a minute). C132_float_partial: with a float step of any value nothing is yielded and the generator ends with an exception, given exactly; C132_type_error_partial: TypeError for every float from a millionth of a minute to a million minutes, 1.0 included; C132_int_partial: with an int the model is that of C54 and C55."
  },
  {
   "property": "C133",
   "status": "partial",
   "theorems": [
    "Verif.Props.C133_partial",
    "Verif.Props.C133_refuted"
   ],
   "note": "False of the code (C133_refuted: the azimuth of the first place in testGetPosition). C133_partial: the 52 other comparisons succeed, and those eight do with a tolerance of 1.6e-7 degrees. By evaluation on intervals in the kernel; also evidence that the model computes what the code does."
  },
  {
   "property": "C134",
   "status": "proved",
   "theorems": [
    "Verif.Props.C134_altitude",
    "Verif.Props.C134_azimuth",
    "Verif.Props.C134_topocentric",
    "Verif.Props.C134_position",
    "Verif.Props.C134_mean_distance",
    "Verif.Props.C134_elevation_clear",
    "Verif.Props.C134_elevation_overcast",
    "Verif.Props.C134_diffuse_clear",
    "Verif.Props.C134_diffuse_overcast",
    "Verif.Props.C134_global_overcast",
    "Verif.Props.C134_solar_time",
    "Verif.Props.C134_hour_angle",
    "Verif.Props.C134_altitude_fast",
    "Verif.Props.C134_azimuth_fast",
    "Verif.Props.C134_direct_radiation",
    "Verif.Props.C134_math",
    "Verif.Props.C134_math_double"
   ],
   "note": "Values carry their kind (tagB); that every division in these functions has a numpy operand is computed once for all arguments with kinds only (kindB) and carried over by simulation."
  },
  {
   "property": "C135",
   "status": "proved",
   "theorems": [
    "Verif.Props.C135_diffuse_ratio",
    "Verif.Props.C135_declination",
    "Verif.Props.C135_direct",
    "Verif.Props.C135_global",
    "Verif.Props.C135_extraterrestrial",
    "Verif.Props.C135_clear_index",
    "Verif.Props.C135_sunrise",
    "Verif.Props.C135_clear_index_night",
    "Verif.Props.C135_pressure",
    "Verif.Props.C135_pressure_double",
    "Verif.Props.C135_zero_temperature"
   ],
   "note": "C135_zero_temperature is limited to elevation angles up to 89 degrees because the sign of zero is not modelled."
  },
  {
   "property": "C136",
   "status": "proved",
   "theorems": [
    "Verif.Props.C136_examples"
   ],
   "note": "By evaluation on intervals in the kernel, as C133. The exact values differ from the printed ones from the seventh or eighth decimal on."
  },
  {
   "property": "C137",
   "status": "proved",
   "theorems": [
    "Verif.Props.C137_exact",
    "Verif.Props.C137_undecorated",
    "Verif.Props.C137_backends"
   ],
   "note": "The hypothesis on the operations is discharged for all backends of the model in C137_backends. For get_azimuth_fast the converse is C01."
  },
  {
   "property": "C138",
   "status": "proved",
   "theorems": [
    "Verif.Props.C138_sources",
    "Verif.Props.C138_math",
    "Verif.Props.C138_scalar",
    "Verif.Props.C138_numpy"
   ],
   "note": "C138_sources is the general form, for an arbitrary backend and an arbitrary set of exceptions."
  },
  {
   "property": "C139",
   "status": "proved",
   "theorems": [
    "Verif.Props.C139_steady",
    "Verif.Props.C139_no_repeat"
   ],
   "note": "Exact arithmetic; unlike C91 there is no additive constant. The value the tangent takes at its poles is arbitrary."
  },
  {
   "property": "C140",
   "status": "proved",
   "theorems": [
    "Verif.Props.C140_lift_decreases",
    "Verif.Props.C140_apparent_slower",
    "Verif.Props.C140_gap",
    "Verif.Props.C140_altitude_motion"
   ],
   "note": "C140_gap assumes that the tangent at its pole has absolute value at least 1; in double precision it is about 1.6e16."
  },
  {
   "property": "C141",
   "status": "proved",
   "theorems": [
    "Verif.Props.C141_climb",
    "Verif.Props.C141_altitude",
    "Verif.Props.C141_clock"
   ],
   "note": "C141_clock is the statement in local mean solar time; C141_climb the one in hour angles. Exact arithmetic."
  },
  {
   "property": "C142",
   "status": "proved",
   "theorems": [
    "Verif.Props.C142_double"
   ],
   "note": "From C141 with its rate, a rate for C66, and the error bound of C86, whose exclusions it inherits."
  },
  {
   "property": "C143",
   "status": "proved",
   "theorems": [
    "Verif.Props.C143_topocentric_position",
    "Verif.Props.C143_position",
    "Verif.Props.C143_altitude",
    "Verif.Props.C143_azimuth",
    "Verif.Props.C143_altitude_fast",
    "Verif.Props.C143_azimuth_fast",
    "Verif.Props.C143_solar_time",
    "Verif.Props.C143_hour_angle",
    "Verif.Props.C143_radiation_direct",
    "Verif.Props.C143_sunrise_sunset_transit",
    "Verif.Props.C143_sunrise_sunset",
    "Verif.Props.C143_extraterrestrial_irrad",
    "Verif.Props.C143_clear_index",
    "Verif.Props.C143_global_irradiance_clear",
    "Verif.Props.C143_global_irradiance_overcast",
    "Verif.Props.C143_diffuse_underclear",
    "Verif.Props.C143_direct_underclear",
    "Verif.Props.C143_pressure_with_elevation",
    "Verif.Props.C143_azimuth_returns",
    "Verif.Props.C143_infinite_day",
    "Verif.Props.C143_altitude_double"
   ],
   "note": "A simulation from mathB to a backend whose values carry the history of their calls and whose schedule decides the module at each call. tm_yday, tm_hour and tm_min come from one module in any one call."
  },
  {
   "property": "C144",
   "status": "partial",
   "theorems": [
    "Verif.Props.C144_refuted",
    "Verif.Props.C144_attribute_error",
    "Verif.Props.C144_wavelengths_partial",
    "Verif.Props.C144_masses_partial"
   ],
   "note": "False: every such cell raises (AttributeError with math). With numeric.log bound the cells run; the plotted masses all exceed 900, the wavelengths grow with the mass and lie in the stated ranges."
  },
  {
   "property": "C145",
   "status": "proved",
   "theorems": [
    "Verif.Props.C145_request",
    "Verif.Props.C145_gather",
    "Verif.Props.C145_loop",
    "Verif.Props.C145_bad_log",
    "Verif.Props.C145_main"
   ],
   "note": "The server is any function from requests to answers; the draws are given. str and float are assumed faithful on the numbers written."
  },
  {
   "property": "C146",
   "status": "proved",
   "theorems": [
    "Verif.Props.C146_stats",
    "Verif.Props.C146_empty",
    "Verif.Props.C146_order",
    "Verif.Props.C146_zero",
    "Verif.Props.C146_report"
   ],
   "note": "Exact arithmetic; numpy's mean and std and scipy's tmin and tmax are modelled by their definitions."
  },
  {
   "property": "C147",
   "status": "partial",
   "theorems": [
    "Verif.Props.C147_same_date_partial",
    "Verif.Props.C147_step_partial",
    "Verif.Props.C147_refuted"
   ],
   "note": "False of the code (C147_refuted: equator, 150 E, the second before midnight UTC on 10 March 2020, by evaluation on intervals in the kernel). C147_same_date_partial: within one UTC date the claim holds; C147_step_partial: in general the later morning value is at most 3.3 W/m2 lower, the later afternoon value at most 3.3 W/m2 higher."
  },
  {
   "property": "C148",
   "status": "proved",
   "theorems": [
    "Verif.Props.C148_double"
   ],
   "note": "Assumes the error bounds of F64 and that the tangent exceeds 1e6 next to its pole, as C142."
  },
  {
   "property": "C149",
   "status": "proved",
   "theorems": [
    "Verif.Props.C149_angle",
    "Verif.Props.C149_azimuth",
    "Verif.Props.C149_clock",
    "Verif.Props.C149_tropics"
   ],
   "note": "Exact arithmetic. C149_clock is the claim by the clock, C149_azimuth by the hour angle, C149_angle for the formula of the azimuth alone; C149_tropics shows that the band of latitudes cannot be dropped."
  },
  {
   "property": "C150",
   "status": "partial",
   "theorems": [
    "Verif.Props.C150_same_date_partial",
    "Verif.Props.C150_step_partial",
    "Verif.Props.C150_refuted"
   ],
   "note": "False of the code (C150_refuted, by evaluation on intervals in the kernel). C150_same_date_partial: within one UTC date the claim holds, strictly from minute to minute, for all latitudes between the poles, with the afternoon and the azimuth; C150_step_partial: in general the later morning altitude is at most 0.53 degrees lower."
  },
  {
   "property": "C151",
   "status": "proved",
   "theorems": [
    "Verif.Props.C151_double"
   ],
   "note": "The floating-point model of C84. C151_double is the claim; turn_minute gives the least turn in a minute in exact arithmetic, 0.001 degrees, azimuth_double the error of the computed azimuth, 0.00045 degrees outside the tropics."
  },
  {
   "property": "C152",
   "status": "proved",
   "theorems": [
    "Verif.Props.C152_place",
    "Verif.Props.C152_altitude",
    "Verif.Props.C152_double"
   ],
   "note": "C152_place: direction and elevation angle in exact arithmetic; C152_altitude: with refraction; C152_double: in double precision, up to 89.8 degrees of elevation."
  },
  {
   "property": "C153",
   "status": "proved",
   "theorems": [
    "Verif.Props.C153_day",
    "Verif.Props.C153_place",
    "Verif.Props.C153_double",
    "Verif.Props.C153_place_double"
   ],
   "note": "C153_day, C153_place: exact arithmetic; C153_double, C153_place_double: existence and the bounds in double precision. The 367 steps between consecutive day numbers are all the steps there are; the latitude is a real variable."
  },
  {
   "property": "C154",
   "status": "proved",
   "theorems": [
    "Verif.Props.C154_rayleigh",
    "Verif.Props.C154_gas",
    "Verif.Props.C154_forward_fraction",
    "Verif.Props.C154_forward_scatterance",
    "Verif.Props.C154_mass_ozone",
    "Verif.Props.C154_mass_water",
    "Verif.Props.C154_mass_aerosol",
    "Verif.Props.C154_mass_rayleigh",
    "Verif.Props.C154_ozone",
    "Verif.Props.C154_water",
    "Verif.Props.C154_aerosol",
    "Verif.Props.C154_aerosol_scattering",
    "Verif.Props.C154_correction",
    "Verif.Props.C154_sky_albedo",
    "Verif.Props.C154_optical_depth",
    "Verif.Props.C154_backscattered",
    "Verif.Props.C154_nitrogen"
   ],
   "note": "One theorem per function. Proved by evaluating the calculus of rounding errors (Proofs/Ball.lean, extended in Proofs/BallExp.lean by exponentials and powers) on a finite cover of the ranges of the arguments; the arguments are real variables. Not covered: the effective wavelength (rest.py:156-174) and the irradiances built on it, which raise in the package as shipped (C62)."
  },
  {
   "property": "C155",
   "status": "proved",
   "theorems": [
    "Verif.Props.C155_math",
    "Verif.Props.C155_numpy",
    "Verif.Props.C155_float",
    "Verif.Props.C155_float_numpy",
    "Verif.Props.C155_simulate",
    "Verif.Props.C155_numpy_returns",
    "Verif.Props.C155_altitude_fast",
    "Verif.Props.C155_infinite_latitude"
   ],
   "note": "Proved once for every backend whose operations treat non-finite values as IEEE arithmetic, math or numpy do (Proofs/NonFinite.lean), then instantiated for the four backends. An infinite elevation is not covered: atan2 of two infinities is finite, and the functions return a position."
  },
  {
   "property": "C156",
   "status": "partial",
   "theorems": [
    "Verif.Props.C156_refuted",
    "Verif.Props.C156_partial"
   ],
   "note": "False: the latitude nan (or the longitude nan) gives 0.0 at every time, and clear_index raises ZeroDivisionError. C156_partial: nothing but 0.0 is ever returned for coordinates that are not finite, and with math an infinite latitude raises ValueError."
  },
  {
   "property": "C157",
   "status": "partial",
   "theorems": [
    "Verif.Props.C157_refuted",
    "Verif.Props.C157_partial",
    "Verif.Props.C157_backends"
   ],
   "note": "False: the documented times have no time zone, so that get_altitude raises NoTimeZoneInfoError before the first row, in every arithmetic (C157_refuted, for every naive start followed by at least one step). C157_partial: NoTimeZoneInfoError is raised for nothing but a start without tzinfo."
  },
  {
   "property": "C158",
   "status": "proved",
   "theorems": [
    "Verif.Props.C158_altitude",
    "Verif.Props.C158_date",
    "Verif.Props.C158_double",
    "Verif.Props.C158_extraterrestrial"
   ],
   "note": "The declination and the equation of time change at midnight UTC (C150); the statement for one date excludes this step, the general one bounds it by the difference of the declinations and hour angles."
  },
  {
   "property": "C159",
   "status": "proved",
   "theorems": [
    "Verif.Props.C159_atmosphere",
    "Verif.Props.C159_vacuum",
    "Verif.Props.C159_monotone",
    "Verif.Props.C159_double"
   ],
   "note": "Exact real arithmetic with IEEE special values; C159_double adds double precision, for temperatures 180 to 340 K and pressures 1 to 120000 Pa, outside the ranges excluded by C86. Above 89.891 degrees the formula of the refraction changes sign (C30)."
  },
  {
   "property": "C160",
   "status": "partial",
   "theorems": [
    "Verif.Props.C160_refuted",
    "Verif.Props.C160_equator_partial"
   ],
   "note": "False: atan2 of two infinities is finite, so that at every time and every latitude between the equator and the north pole a quarter of the longitudes gives finite angles (declination 135 degrees); at 45 degrees north the sun is found at the zenith (C160_refuted). C160_equator_partial: on the equator everything returned is nan."
  },
  {
   "property": "C161",
   "status": "proved",
   "theorems": [
    "Verif.Props.C161_altitude",
    "Verif.Props.C161_next_day",
    "Verif.Props.C161_place",
    "Verif.Props.C161_time",
    "Verif.Props.C161_double"
   ],
   "note": "For calls that return (C41 and C106 tell which raise just below the horizon). The bound 84 is nearly sharp: it is the largest slope for the smallest optical depth and the largest flux."
  },
  {
   "property": "C162",
   "status": "partial",
   "theorems": [
    "Verif.Props.C162_refuted",
    "Verif.Props.C162_numpy",
    "Verif.Props.C162_double_partial",
    "Verif.Props.C162_horizontal"
   ],
   "note": "C162_refuted: get_incidence_angle(8, 8, 0, 180) raises ValueError in IEEE double precision, though the exact angle is 0; C162_numpy: nan with numpy. C162_double_partial: everywhere else the result is close to the exact angle, in every arithmetic with the rounding error of double precision; C162_horizontal: no failure for a horizontal panel."
  },
  {
   "property": "C163",
   "status": "partial",
   "theorems": [
    "Verif.Props.C163_refuted",
    "Verif.Props.C163_azimuth_refuted",
    "Verif.Props.C163_numpy",
    "Verif.Props.C163_fast_altitude_partial",
    "Verif.Props.C163_elevation_refuted"
   ],
   "note": "C163_refuted, C163_azimuth_refuted: a place and time, with coordinates of seven decimals, at which the fast functions raise ValueError in IEEE double precision; C163_elevation_refuted: the same for the elevation angle of the precise algorithm. C163_fast_altitude_partial: no failure farther than 0.000014 degrees from zenith and nadir."
  },
  {
   "property": "C164",
   "status": "partial",
   "theorems": [
    "Verif.Props.C164_refuted",
    "Verif.Props.C164_fast_azimuth_partial"
   ],
   "note": "C164_refuted: get_azimuth_fast(0, 0, 22 March 2007 12:05 UTC) raises ValueError in IEEE double precision (eq_exact_alt: the exact altitude is below 89.4 degrees). C164_fast_azimuth_partial: no failure if the exact azimuth is at least 0.00003 degrees / cos(altitude) away from due east and due west, and the result is close to the exact azimuth."
  },
  {
   "property": "C165",
   "status": "partial",
   "theorems": [
    "Verif.Props.C165_azimuth_partial",
    "Verif.Props.C165_fast_partial",
    "Verif.Props.C165_refuted",
    "Verif.Props.C165_azimuth_everywhere"
   ],
   "note": "C165_refuted: get_azimuth_fast returns 360.0 in IEEE double precision. C165_azimuth_partial: get_azimuth returns a number in [0, 360) or nan, for all arguments; C165_azimuth_everywhere: a number at every place on earth. C165_fast_partial: get_azimuth_fast returns a number in [0, 360] or nan, for all arguments."
  },
  {
   "property": "C166",
   "status": "partial",
   "theorems": [
    "Verif.Props.C166_reduced_partial",
    "Verif.Props.C166_reduced_numpy_partial",
    "Verif.Props.C166_refuted",
    "Verif.Props.C166_arcs",
    "Verif.Props.C166_arcs_numpy"
   ],
   "note": "C166_refuted: get_local_hour_angle(0, -1e-15, 0) is 360.0 in IEEE double precision. C166_reduced_partial, C166_reduced_numpy_partial: [0, 360] in every floating-point arithmetic; C166_arcs, C166_arcs_numpy: altitudes and declinations in [-90, 90], incidence angles in [0, 180]."
  },
  {
   "property": "C167",
   "status": "proved",
   "theorems": [
    "Verif.Props.C167_nonneg",
    "Verif.Props.C167_nonneg_numpy",
    "Verif.Props.C167_bounded",
    "Verif.Props.C167_bounded_numpy",
    "Verif.Props.C167_within",
    "Verif.Props.C167_fast",
    "Verif.Props.C167_within_numpy",
    "Verif.Props.C167_fast_numpy"
   ],
   "note": "C167_nonneg, C167_nonneg_numpy: never a negative number. C167_bounded, C167_bounded_numpy: nan or a number in [0, 1235] for altitudes up to 180 degrees. C167_fast, C167_fast_numpy: hence at every altitude returned by get_altitude_fast."
  },
  {
   "property": "C168",
   "status": "partial",
   "theorems": [
    "Verif.Props.C168_underflow",
    "Verif.Props.C168_refuted",
    "Verif.Props.C168_positive_partial",
    "Verif.Props.C168_numpy_partial"
   ],
   "note": "C168_refuted: 0.0 at an altitude of 1/128 degree; C168_underflow: 0.0 at every instant for all altitudes above 0 up to 0.01 degrees. C168_positive_partial: positive from 0.017 degrees to 90. C168_numpy_partial: the same with numpy, for whatever times, if not nan."
  },
  {
   "property": "C169",
   "status": "proved",
   "theorems": [
    "Verif.Props.C169_declination",
    "Verif.Props.C169_equation_of_time",
    "Verif.Props.C169_flux",
    "Verif.Props.C169_optical_depth"
   ],
   "note": "C169_declination, C169_equation_of_time, C169_flux, C169_optical_depth: each for scalar math and numpy."
  },
  {
   "property": "C170",
   "status": "proved",
   "theorems": [
    "Verif.Props.C170_rayleigh",
    "Verif.Props.C170_gas",
    "Verif.Props.C170_aerosol",
    "Verif.Props.C170_aerosol_scattering"
   ],
   "note": "C170_rayleigh, C170_gas, C170_aerosol, C170_aerosol_scattering: each for scalar math and numpy."
  },
  {
   "property": "C171",
   "status": "proved",
   "theorems": [
    "Verif.Props.C171_pressure",
    "Verif.Props.C171_pressure_numpy",
    "Verif.Props.C171_temperature"
   ],
   "note": "C171_pressure, C171_pressure_numpy, C171_temperature."
  },
  {
   "property": "C172",
   "status": "proved",
   "theorems": [
    "Verif.Props.C172_air_mass",
    "Verif.Props.C172_rises",
    "Verif.Props.C172_rises_numpy",
    "Verif.Props.C172_datetime"
   ],
   "note": "C172_air_mass, C172_rises(_numpy) (any time argument, nan allowed), C172_datetime (numbers)."
  },
  {
   "property": "C173",
   "status": "partial",
   "theorems": [
    "Verif.Props.C173_advances_partial",
    "Verif.Props.C173_refuted"
   ],
   "note": "C173_refuted: two instants a microsecond apart have the same ephemeris day. C173_advances_partial: never backward, and strictly forward for instants at least a millisecond apart; scalar math and numpy."
  },
  {
   "property": "C174",
   "status": "partial",
   "theorems": [
    "Verif.Props.C174_refuted",
    "Verif.Props.C174_same_month_partial",
    "Verif.Props.C174_refuted_double",
    "Verif.Props.C174_double_partial"
   ],
   "note": "C174_refuted, C174_refuted_double: the last microsecond of January 1993 and the next. C174_same_month_partial: within a month exactly the elapsed time. C174_double_partial: in double precision never backward within a month, strictly forward after a second."
  },
  {
   "property": "C175",
   "status": "proved",
   "theorems": [
    "Verif.Props.C175_range",
    "Verif.Props.C175_number"
   ],
   "note": "C175_range: both scalar backends, every argument including infinities and nan; C175_number: at an aware datetime never nan."
  },
  {
   "property": "C176",
   "status": "proved",
   "theorems": [
    "Verif.Props.C176_distance",
    "Verif.Props.C176_declination",
    "Verif.Props.C176_clear",
    "Verif.Props.C176_overcast"
   ],
   "note": "C176_distance, C176_declination, C176_clear, C176_overcast: every argument, nan allowed as a result."
  },
  {
   "property": "C177",
   "status": "proved",
   "theorems": [
    "Verif.Props.C177_math",
    "Verif.Props.C177_numpy"
   ],
   "note": "C177_math, C177_numpy: the value and the exceptions."
  },
  {
   "property": "C178",
   "status": "partial",
   "theorems": [
    "Verif.Props.C178_summer_partial",
    "Verif.Props.C178_winter_partial",
    "Verif.Props.C178_december_partial",
    "Verif.Props.C178_documented_partial",
    "Verif.Props.C178_refuted",
    "Verif.Props.C178_double_partial"
   ],
   "note": "False: C178_refuted and C178_documented_partial (the place and date of the documentation's examples at 14:40 UTC, all defaults: more than 1e11 W/m2; by evaluation on intervals in the kernel). C178_summer_partial: true from day 81 to day 263. C178_winter_partial: exceeded on every other day in every atmosphere, with the exact value; C178_december_partial: more than 1e20 W/m2. C178_double_partial: the same excess in IEEE double precision."
  },
  {
   "property": "C179",
   "status": "partial",
   "theorems": [
    "Verif.Props.C179_exact_partial",
    "Verif.Props.C179_refuted",
    "Verif.Props.C179_scaled_partial",
    "Verif.Props.C179_double_partial"
   ],
   "note": "False: C179_refuted (the place and date of the documentation's examples, default turbidity). C179_exact_partial: the value, and the claim holds if and only if the altitude is at most one degree. C179_scaled_partial: diffuse_transmittance against the published formula, and its growth with the turbidity. C179_double_partial: the same in IEEE double precision."
  },
  {
   "property": "C180",
   "status": "partial",
   "theorems": [
    "Verif.Props.C180_double_partial",
    "Verif.Props.C180_exact_partial",
    "Verif.Props.C180_refuted"
   ],
   "note": "False: C180_refuted (turbidity 2 against 1 at the place and date of the documentation's examples). C180_exact_partial: exactly when the irradiance falls and when it rises with the turbidity. C180_double_partial: the same in IEEE double precision."
  },
  {
   "property": "C181",
   "status": "partial",
   "theorems": [
    "Verif.Props.C181_summer_partial",
    "Verif.Props.C181_low_partial",
    "Verif.Props.C181_refuted",
    "Verif.Props.C181_double_partial"
   ],
   "note": "False: C181_refuted (a June morning at the place of the documentation's examples). C181_summer_partial: in the summer half of the year it fails at every place with the sun above 2.48 degrees. C181_low_partial: in the other half it holds with the sun up to 1.57 degrees. C181_double_partial: the failure in the summer half of the year in double precision."
  },
  {
   "property": "C182",
   "status": "proved",
   "theorems": [
    "Verif.Props.C182_fraction",
    "Verif.Props.C182_monotone"
   ],
   "note": ""
  },
  {
   "property": "C183",
   "status": "proved",
   "theorems": [
    "Verif.Props.C183_value",
    "Verif.Props.C183_monotone"
   ],
   "note": ""
  },
  {
   "property": "C184",
   "status": "proved",
   "theorems": [
    "Verif.Props.C184_overcast",
    "Verif.Props.C184_diffuse"
   ],
   "note": ""
  }
 ]
}