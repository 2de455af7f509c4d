# Axioms of the property theorems

Output of `#print axioms`, grouped (`tools/gen_axioms.py`).

## propext, Classical.choice, Quot.sound

- `Verif.Props.C01_solartime`
- `Verif.Props.C01_solar`
- `Verif.Props.C01_util`
- `Verif.Props.C01_azimuth_fast_no_value`
- `Verif.Props.C01_azimuth_fast_math`
- `Verif.Props.C01_azimuth_fast_numpy`
- `Verif.Props.C02_guard_transparent`
- `Verif.Props.C02_guard_eq_decorator`
- `Verif.Props.C03_first_offender`
- `Verif.Props.C03_complete`
- `Verif.Props.C04_time_scales`
- `Verif.Props.C04_positions`
- `Verif.Props.C04_irradiance`
- `Verif.Props.C05_leap_seconds_historical`
- `Verif.Props.C06_leap_seconds_bounded`
- `Verif.Props.C06_leap_seconds_monotone`
- `Verif.Props.C07_warning`
- `Verif.Props.C08_delta_t_labelled`
- `Verif.Props.C08_labels_complete`
- `Verif.Props.C08_before`
- `Verif.Props.C08_total`
- `Verif.Props.C09_refuted`
- `Verif.Props.C09_after_table_partial`
- `Verif.Props.C10_ephemeris_day`
- `Verif.Props.C10_solar_day`
- `Verif.Props.C11_difference`
- `Verif.Props.C11_rescaling`
- `Verif.Props.C12_elapsed`
- `Verif.Props.C12_strictly_increasing`
- `Verif.Props.C13_solar_day_increases`
- `Verif.Props.C14_tables_consistent`
- `Verif.Props.C15_date_parts`
- `Verif.Props.C16_position_is_pair`
- `Verif.Props.C16_defaults`
- `Verif.Props.C17_azimuth_bearing`
- `Verif.Props.C18_elevation_range`
- `Verif.Props.C19_direction`
- `Verif.Props.C20_ecliptic_to_equatorial`
- `Verif.Props.C21_distance`
- `Verif.Props.C22_obliquity`
- `Verif.Props.C22_declination`
- `Verif.Props.C23_sixty_three_terms`
- `Verif.Props.C23_nutation`
- `Verif.Props.C23_bounds`
- `Verif.Props.C24_get_coeff`
- `Verif.Props.C25_ellipsoid`
- `Verif.Props.C26_parallax_right_ascension`
- `Verif.Props.C27_refuted`
- `Verif.Props.C27_rigorous_partial`
- `Verif.Props.C27_error_partial`
- `Verif.Props.C28_refuted`
- `Verif.Props.C28_value_partial`
- `Verif.Props.C29_fast`
- `Verif.Props.C29_precise`
- `Verif.Props.C30_zero_below`
- `Verif.Props.C30_sign`
- `Verif.Props.C30_zenith_zero`
- `Verif.Props.C30_bound`
- `Verif.Props.C30_scaling`
- `Verif.Props.C31_exceptions`
- `Verif.Props.C31_position`
- `Verif.Props.C31_singular_region`
- `Verif.Props.C31_returns`
- `Verif.Props.C32_complement`
- `Verif.Props.C32_errors`
- `Verif.Props.C33_mean_sidereal_time`
- `Verif.Props.C33_all_dates`
- `Verif.Props.C33_near_J2000`
- `Verif.Props.C34_incidence`
- `Verif.Props.C34_horizontal_panel`
- `Verif.Props.C35_declination`
- `Verif.Props.C35_declination_degree`
- `Verif.Props.C35_equation_of_time`
- `Verif.Props.C36_altitude_fast`
- `Verif.Props.C37_azimuth_fast`
- `Verif.Props.C38_minute_granularity`
- `Verif.Props.C38_linear`
- `Verif.Props.C39_ranges`
- `Verif.Props.C39_attained`
- `Verif.Props.C40_range`
- `Verif.Props.C40_increasing`
- `Verif.Props.C41_refuted`
- `Verif.Props.C41_zero_partial`
- `Verif.Props.C41_band_partial`
- `Verif.Props.C42_extraterrestrial`
- `Verif.Props.C43_constant_partial`
- `Verif.Props.C43_refuted`
- `Verif.Props.C44_value_partial`
- `Verif.Props.C44_default_partial`
- `Verif.Props.C44_refuted`
- `Verif.Props.C45_clear_index`
- `Verif.Props.C45_diffuse_ratio`
- `Verif.Props.C46_value`
- `Verif.Props.C46_decreasing`
- `Verif.Props.C47_at_ceiling`
- `Verif.Props.C47_above_ceiling`
- `Verif.Props.C48_ordered`
- `Verif.Props.C49_altitude`
- `Verif.Props.C50_value_error`
- `Verif.Props.C50_returns_or_overflows`
- `Verif.Props.C50_returns`
- `Verif.Props.C50_polar`
- `Verif.Props.C51_projections`
- `Verif.Props.C51_same_date`
- `Verif.Props.C52_same_day_partial`
- `Verif.Props.C52_iff_partial`
- `Verif.Props.C52_refuted`
- `Verif.Props.C53_equator`
- `Verif.Props.C53_monotone`
- `Verif.Props.C54_nth`
- `Verif.Props.C54_count`
- `Verif.Props.C54_window`
- `Verif.Props.C54_half_open`
- `Verif.Props.C54_complete`
- `Verif.Props.C54_empty`
- `Verif.Props.C54_zero`
- `Verif.Props.C55_rows`
- `Verif.Props.C55_row_count`
- `Verif.Props.C55_exception`
- `Verif.Props.C55_math`
- `Verif.Props.C56_index`
- `Verif.Props.C56_no_index_error`
- `Verif.Props.C56_span_no_index_error`
- `Verif.Props.C56_short_horizon`
- `Verif.Props.C56_short_fails`
- `Verif.Props.C57_all_but_where_partial`
- `Verif.Props.C57_without_numpy`
- `Verif.Props.C57_refuted`
- `Verif.Props.C57_where_iff_partial`
- `Verif.Props.C58_julian_solar_day`
- `Verif.Props.C58_julian_ephemeris_day`
- `Verif.Props.C58_julian_century`
- `Verif.Props.C58_julian_ephemeris_century`
- `Verif.Props.C58_julian_ephemeris_millennium`
- `Verif.Props.C58_equation_of_time`
- `Verif.Props.C58_aberration_correction`
- `Verif.Props.C58_declination`
- `Verif.Props.C58_equatorial_horizontal_parallax`
- `Verif.Props.C58_flattened_latitude`
- `Verif.Props.C58_heliocentric_latitude`
- `Verif.Props.C58_heliocentric_longitude`
- `Verif.Props.C58_geocentric_latitude`
- `Verif.Props.C58_geocentric_longitude`
- `Verif.Props.C58_geocentric_sun_declination`
- `Verif.Props.C58_geocentric_sun_right_ascension`
- `Verif.Props.C58_local_hour_angle`
- `Verif.Props.C58_mean_sidereal_time`
- `Verif.Props.C58_parallax_sun_right_ascension`
- `Verif.Props.C58_projected_radial_distance`
- `Verif.Props.C58_projected_axial_distance`
- `Verif.Props.C58_sun_earth_distance`
- `Verif.Props.C58_refraction_correction`
- `Verif.Props.C58_topocentric_azimuth_angle`
- `Verif.Props.C58_topocentric_elevation_angle`
- `Verif.Props.C58_topocentric_local_hour_angle`
- `Verif.Props.C58_topocentric_sun_declination`
- `Verif.Props.C58_topocentric_sun_right_ascension`
- `Verif.Props.C58_topocentric_zenith_angle`
- `Verif.Props.C58_incidence_angle`
- `Verif.Props.C58_solar_time`
- `Verif.Props.C58_hour_angle`
- `Verif.Props.C58_altitude_fast`
- `Verif.Props.C58_azimuth_fast`
- `Verif.Props.C58_topocentric_position`
- `Verif.Props.C58_position`
- `Verif.Props.C58_altitude`
- `Verif.Props.C58_azimuth`
- `Verif.Props.C58_air_mass_ratio`
- `Verif.Props.C58_apparent_extraterrestrial_flux`
- `Verif.Props.C58_optical_depth`
- `Verif.Props.C58_radiation_direct`
- `Verif.Props.C58_mean_earth_sun_distance`
- `Verif.Props.C58_declination_degree`
- `Verif.Props.C58_solarelevation_function_clear`
- `Verif.Props.C58_solarelevation_function_overcast`
- `Verif.Props.C58_diffuse_transmittance`
- `Verif.Props.C58_diffuse_underclear`
- `Verif.Props.C58_diffuse_underovercast`
- `Verif.Props.C58_direct_underclear`
- `Verif.Props.C58_global_irradiance_clear`
- `Verif.Props.C58_global_irradiance_overcast`
- `Verif.Props.C58_diffuse_ratio`
- `Verif.Props.C58_temperature_with_elevation`
- `Verif.Props.C58_gas_transmittance`
- `Verif.Props.C58_ozone_transmittance`
- `Verif.Props.C58_rayleigh_extinction_forward_scattering_fraction`
- `Verif.Props.C58_rayleigh_transmittance`
- `Verif.Props.C58_sky_albedo`
- `Verif.Props.C58_aerosol_transmittance`
- `Verif.Props.C58_aerosol_scattering_transmittance`
- `Verif.Props.C58_water_vapor_transmittance`
- `Verif.Props.C58_backscattered_diffuse_irradiance_by_band`
- `Verif.Props.C58_altitude_fast_datetime64`
- `Verif.Props.C58_azimuth_fast_datetime64`
- `Verif.Props.C58_radiation_direct_datetime64`
- `Verif.Props.C58_position_exists`
- `Verif.Props.C59_leap_seconds`
- `Verif.Props.C59_delta_t`
- `Verif.Props.C59_julian_solar_day`
- `Verif.Props.C59_julian_ephemeris_day`
- `Verif.Props.C59_julian_century`
- `Verif.Props.C59_julian_ephemeris_century`
- `Verif.Props.C59_julian_ephemeris_millennium`
- `Verif.Props.C59_equation_of_time`
- `Verif.Props.C59_aberration_correction`
- `Verif.Props.C59_declination`
- `Verif.Props.C59_equatorial_horizontal_parallax`
- `Verif.Props.C59_flattened_latitude`
- `Verif.Props.C59_heliocentric_latitude`
- `Verif.Props.C59_heliocentric_longitude`
- `Verif.Props.C59_geocentric_latitude`
- `Verif.Props.C59_geocentric_longitude`
- `Verif.Props.C59_geocentric_sun_declination`
- `Verif.Props.C59_geocentric_sun_right_ascension`
- `Verif.Props.C59_local_hour_angle`
- `Verif.Props.C59_mean_sidereal_time`
- `Verif.Props.C59_nutation`
- `Verif.Props.C59_parallax_sun_right_ascension`
- `Verif.Props.C59_projected_radial_distance`
- `Verif.Props.C59_projected_axial_distance`
- `Verif.Props.C59_sun_earth_distance`
- `Verif.Props.C59_refraction_correction`
- `Verif.Props.C59_topocentric_azimuth_angle`
- `Verif.Props.C59_topocentric_elevation_angle`
- `Verif.Props.C59_topocentric_local_hour_angle`
- `Verif.Props.C59_topocentric_sun_declination`
- `Verif.Props.C59_topocentric_sun_right_ascension`
- `Verif.Props.C59_topocentric_zenith_angle`
- `Verif.Props.C59_incidence_angle`
- `Verif.Props.C59_solar_time`
- `Verif.Props.C59_hour_angle`
- `Verif.Props.C59_altitude_fast`
- `Verif.Props.C59_azimuth_fast`
- `Verif.Props.C59_topocentric_position`
- `Verif.Props.C59_position`
- `Verif.Props.C59_altitude`
- `Verif.Props.C59_azimuth`
- `Verif.Props.C59_air_mass_ratio`
- `Verif.Props.C59_apparent_extraterrestrial_flux`
- `Verif.Props.C59_optical_depth`
- `Verif.Props.C59_radiation_direct`
- `Verif.Props.C59_mean_earth_sun_distance`
- `Verif.Props.C59_declination_degree`
- `Verif.Props.C59_solarelevation_function_clear`
- `Verif.Props.C59_solarelevation_function_overcast`
- `Verif.Props.C59_diffuse_transmittance`
- `Verif.Props.C59_diffuse_underclear`
- `Verif.Props.C59_diffuse_underovercast`
- `Verif.Props.C59_direct_underclear`
- `Verif.Props.C59_global_irradiance_clear`
- `Verif.Props.C59_global_irradiance_overcast`
- `Verif.Props.C59_diffuse_ratio`
- `Verif.Props.C59_temperature_with_elevation`
- `Verif.Props.C59_gas_transmittance`
- `Verif.Props.C59_ozone_transmittance`
- `Verif.Props.C59_rayleigh_extinction_forward_scattering_fraction`
- `Verif.Props.C59_rayleigh_transmittance`
- `Verif.Props.C59_sky_albedo`
- `Verif.Props.C59_aerosol_transmittance`
- `Verif.Props.C59_aerosol_scattering_transmittance`
- `Verif.Props.C59_water_vapor_transmittance`
- `Verif.Props.C59_backscattered_diffuse_irradiance_by_band`
- `Verif.Props.C59_sunrise_sunset_transit`
- `Verif.Props.C59_sunrise_sunset`
- `Verif.Props.C59_sunrise_time`
- `Verif.Props.C59_sunset_time`
- `Verif.Props.C59_transit_time`
- `Verif.Props.C59_extraterrestrial_irrad`
- `Verif.Props.C59_clear_index`
- `Verif.Props.C59_pressure_with_elevation`
- `Verif.Props.C59_aerosol_forward_scatterance_factor`
- `Verif.Props.C59_aerosol_optical_depth`
- `Verif.Props.C59_aerosol_scattering_correction_factor`
- `Verif.Props.C59_nitrogen_transmittance`
- `Verif.Props.C59_optical_mass_rayleigh`
- `Verif.Props.C59_optical_mass_ozone`
- `Verif.Props.C59_optical_mass_water`
- `Verif.Props.C59_optical_mass_aerosol`
- `Verif.Props.C59_simulate_span`
- `Verif.Props.C60_same`
- `Verif.Props.C60_polynomials`
- `Verif.Props.C60_names`
- `Verif.Props.C60_built_once`
- `Verif.Props.C60_kept`
- `Verif.Props.C61_rayleigh`
- `Verif.Props.C61_gas`
- `Verif.Props.C61_nitrogen`
- `Verif.Props.C61_water`
- `Verif.Props.C61_aerosol`
- `Verif.Props.C61_aerosol_scattering`
- `Verif.Props.C61_rayleigh_range`
- `Verif.Props.C62_effective_wavelength`
- `Verif.Props.C62_direct_by_band`
- `Verif.Props.C62_direct_broadband`
- `Verif.Props.C62_beam_broadband`
- `Verif.Props.C62_beam_by_band`
- `Verif.Props.C62_diffuse_by_band`
- `Verif.Props.C62_diffuse_broadband`
- `Verif.Props.C62_backscattered_broadband`
- `Verif.Props.C62_global`
- `Verif.Props.C62_diffuse_any_globals`
- `Verif.Props.C62_global_any_globals`
- `Verif.Props.C62_refuted`
- `Verif.Props.C62_masses_partial`
- `Verif.Props.C62_exceptions_partial`
- `Verif.Props.C63_sky_albedo`
- `Verif.Props.C63_backscatter`
- `Verif.Props.C64_round_trip`
- `Verif.Props.C64_four_decimals`
- `Verif.Props.C64_rounding`
- `Verif.Props.C64_rejects_other_days`
- `Verif.Props.C64_accepts`
- `Verif.Props.C65_reduced`
- `Verif.Props.C66_order`
- `Verif.Props.C67_same_diffuse`
- `Verif.Props.C68_value_partial`
- `Verif.Props.C68_refuted`
- `Verif.Props.C69_value_partial`
- `Verif.Props.C69_refuted`
- `Verif.Props.C70_value_partial`
- `Verif.Props.C70_error_partial`
- `Verif.Props.C70_refuted`
- `Verif.Props.C71_direction`
- `Verif.Props.C71_direction_poles`
- `Verif.Props.C71_direction_near_J2000`
- `Verif.Props.C72_declination`
- `Verif.Props.C72_equation_of_time`
- `Verif.Props.C72_solar_time`
- `Verif.Props.C72_hour_angle`
- `Verif.Props.C73_range`
- `Verif.Props.C73_attained`
- `Verif.Props.C74_flux_depth`
- `Verif.Props.C74_air_mass`
- `Verif.Props.C74_direct`
- `Verif.Props.C75_obliquity`
- `Verif.Props.C75_apparent_longitude`
- `Verif.Props.C75_topocentric_right_ascension`
- `Verif.Props.C76_zone`
- `Verif.Props.C76_longitude`
- `Verif.Props.C77_extraterrestrial`
- `Verif.Props.C78_rate`
- `Verif.Props.C78_rate_near_J2000`
- `Verif.Props.C78_distinct`
- `Verif.Props.C79_rayleigh`
- `Verif.Props.C79_gas`
- `Verif.Props.C79_ozone`
- `Verif.Props.C79_nitrogen`
- `Verif.Props.C79_water`
- `Verif.Props.C79_aerosol`
- `Verif.Props.C79_forward_scatterance`
- `Verif.Props.C79_optical_depth`
- `Verif.Props.C79_scattering_correction`
- `Verif.Props.C79_forward_fraction`
- `Verif.Props.C79_sky_albedo`
- `Verif.Props.C80_optical_masses_partial`
- `Verif.Props.C80_masses_above_900_partial`
- `Verif.Props.C80_refuted`
- `Verif.Props.C81_diffuse_transmittance`
- `Verif.Props.C81_declination_degree`
- `Verif.Props.C81_diffuse_overcast`
- `Verif.Props.C81_direct`
- `Verif.Props.C82_sign_partial`
- `Verif.Props.C82_refuted`
- `Verif.Props.C83_harmless_partial`
- `Verif.Props.C83_pop_partial`
- `Verif.Props.C83_refuted`
- `Verif.Props.C84_topocentric_position`
- `Verif.Props.C85_direction`
- `Verif.Props.C86_altitude`
- `Verif.Props.C86_default`
- `Verif.Props.C86_applies`
- `Verif.Props.C87_fast_angles`
- `Verif.Props.C88_fast_altitude`
- `Verif.Props.C88_fast_direction`
- `Verif.Props.C89_declination_sign`
- `Verif.Props.C90_polar_day`
- `Verif.Props.C90_polar_night`
- `Verif.Props.C91_speed_limit`
- `Verif.Props.C92_shift_partial`
- `Verif.Props.C92_refuted`
- `Verif.Props.C93_transit`
- `Verif.Props.C94_elevation`
- `Verif.Props.C95_daylight`
- `Verif.Props.C96_polar`
- `Verif.Props.C97_side`
- `Verif.Props.C97_noon`
- `Verif.Props.C97_azimuth`
- `Verif.Props.C97_fast`
- `Verif.Props.C98_course`
- `Verif.Props.C99_fast`
- `Verif.Props.C99_precise`
- `Verif.Props.C100_integer_partial`
- `Verif.Props.C100_positive_partial`
- `Verif.Props.C100_negative_partial`
- `Verif.Props.C100_exact_partial`
- `Verif.Props.C100_refuted`
- `Verif.Props.C101_errors_partial`
- `Verif.Props.C101_refuted`
- `Verif.Props.C102_round_trip_partial`
- `Verif.Props.C102_value_error_partial`
- `Verif.Props.C102_refuted`
- `Verif.Props.C103_fast_altitude`
- `Verif.Props.C104_fast_azimuth`
- `Verif.Props.C104_outside_tropics`
- `Verif.Props.C105_direct_radiation`
- `Verif.Props.C105_flux_depth`
- `Verif.Props.C106_refuted`
- `Verif.Props.C106_zero_partial`
- `Verif.Props.C106_overflow_partial`
- `Verif.Props.C106_nan_partial`
- `Verif.Props.C106_outcomes_partial`
- `Verif.Props.C107_sunrise`
- `Verif.Props.C108_almanac`
- `Verif.Props.C109_almanac_direction`
- `Verif.Props.C110_double_precision`
- `Verif.Props.C111_direction_arrays`
- `Verif.Props.C111_altitude_arrays`
- `Verif.Props.C111_position_arrays`
- `Verif.Props.C112_fast_altitude_arrays`
- `Verif.Props.C112_fast_azimuth_arrays`
- `Verif.Props.C113_refuted`
- `Verif.Props.C113_direct_radiation_arrays_partial`
- `Verif.Props.C113_night_entries_partial`
- `Verif.Props.C114_tables`
- `Verif.Props.C114_heliocentric`
- `Verif.Props.C114_obliquity`
- `Verif.Props.C114_place`
- `Verif.Props.C115_pole_to_pole`
- `Verif.Props.C116_position_defaults`
- `Verif.Props.C116_irradiance_defaults`
- `Verif.Props.C116_elevation_defaults`
- `Verif.Props.C116_simulation_and_rest_defaults`
- `Verif.Props.C116_standard_atmosphere`
- `Verif.Props.C117_mean_distance`
- `Verif.Props.C117_declination`
- `Verif.Props.C117_extraterrestrial`
- `Verif.Props.C117_clear_index`
- `Verif.Props.C117_elevation`
- `Verif.Props.C117_diffuse`
- `Verif.Props.C117_direct`
- `Verif.Props.C117_global`
- `Verif.Props.C117_overflow`
- `Verif.Props.C117_applies`
- `Verif.Props.C118_atmosphere`
- `Verif.Props.C118_altitude`
- `Verif.Props.C118_applies`
- `Verif.Props.C119_formula`
- `Verif.Props.C119_refuted`
- `Verif.Props.C119_positive_partial`
- `Verif.Props.C120_formula_partial`
- `Verif.Props.C120_low_negative_partial`
- `Verif.Props.C120_sums_partial`
- `Verif.Props.C120_refuted`
- `Verif.Props.C120_overhead_partial`
- `Verif.Props.C120_horizon_partial`
- `Verif.Props.C121_topocentric_position`
- `Verif.Props.C121_altitude`
- `Verif.Props.C121_azimuth`
- `Verif.Props.C121_position`
- `Verif.Props.C121_altitude_fast`
- `Verif.Props.C121_azimuth_fast`
- `Verif.Props.C121_radiation_direct`
- `Verif.Props.C121_sunrise`
- `Verif.Props.C121_sunrise_parts`
- `Verif.Props.C121_irradiance`
- `Verif.Props.C121_extraterrestrial`
- `Verif.Props.C121_clear_index`
- `Verif.Props.C121_irradiance_clear`
- `Verif.Props.C121_pressure`
- `Verif.Props.C121_numbers`
- `Verif.Props.C121_instant`
- `Verif.Props.C121_instant_fast`
- `Verif.Props.C122_end_to_end`
- `Verif.Props.C122_first_of_month`
- `Verif.Props.C122_missing_field`
- `Verif.Props.C123_completes_partial`
- `Verif.Props.C123_stops_partial`
- `Verif.Props.C123_refuted`
- `Verif.Props.C123_refuted_double`
- `Verif.Props.C123_exact_partial`
- `Verif.Props.C123_whole_day_partial`
- `Verif.Props.C124_exact_partial`
- `Verif.Props.C124_completes_iff_partial`
- `Verif.Props.C124_sunrise_partial`
- `Verif.Props.C124_refuted_double`
- `Verif.Props.C124_completes_partial`
- `Verif.Props.C124_refuted`
- `Verif.Props.C125_ctime`
- `Verif.Props.C125_timestamp`
- `Verif.Props.C125_lines`
- `Verif.Props.C125_complete`
- `Verif.Props.C125_distinct`
- `Verif.Props.C126_outcome`
- `Verif.Props.C126_fast`
- `Verif.Props.C126_radiation_direct`
- `Verif.Props.C126_elementwise`
- `Verif.Props.C126_topocentric_position`
- `Verif.Props.C126_altitude`
- `Verif.Props.C126_azimuth`
- `Verif.Props.C126_position`
- `Verif.Props.C126_irradiance`
- `Verif.Props.C126_global_clear`
- `Verif.Props.C127_pressure`
- `Verif.Props.C127_extraterrestrial`
- `Verif.Props.C127_clear_index`
- `Verif.Props.C127_sunrise`
- `Verif.Props.C127_sunrise_wrappers`
- `Verif.Props.C128_exact`
- `Verif.Props.C128_double`
- `Verif.Props.C128_binary64`
- `Verif.Props.C129_response`
- `Verif.Props.C129_short`
- `Verif.Props.C130_csv`
- `Verif.Props.C130_main`
- `Verif.Props.C131_effect_winter_partial`
- `Verif.Props.C131_effect_summer_partial`
- `Verif.Props.C131_criterion_partial`
- `Verif.Props.C131_exact_partial`
- `Verif.Props.C131_refuted`
- `Verif.Props.C131_direct_underclear_partial`
- `Verif.Props.C131_sidereal_partial`
- `Verif.Props.C131_positional_partial`
- `Verif.Props.C132_int_partial`
- `Verif.Props.C132_float_partial`
- `Verif.Props.C132_type_error_partial`
- `Verif.Props.C132_refuted`
- `Verif.Props.C133_partial`
- `Verif.Props.C133_refuted`
- `Verif.Props.C134_altitude`
- `Verif.Props.C134_azimuth`
- `Verif.Props.C134_topocentric`
- `Verif.Props.C134_position`
- `Verif.Props.C134_mean_distance`
- `Verif.Props.C134_elevation_clear`
- `Verif.Props.C134_elevation_overcast`
- `Verif.Props.C134_diffuse_clear`
- `Verif.Props.C134_diffuse_overcast`
- `Verif.Props.C134_global_overcast`
- `Verif.Props.C134_solar_time`
- `Verif.Props.C134_hour_angle`
- `Verif.Props.C134_altitude_fast`
- `Verif.Props.C134_azimuth_fast`
- `Verif.Props.C134_direct_radiation`
- `Verif.Props.C134_math`
- `Verif.Props.C134_math_double`
- `Verif.Props.C135_diffuse_ratio`
- `Verif.Props.C135_declination`
- `Verif.Props.C135_direct`
- `Verif.Props.C135_global`
- `Verif.Props.C135_extraterrestrial`
- `Verif.Props.C135_clear_index`
- `Verif.Props.C135_sunrise`
- `Verif.Props.C135_clear_index_night`
- `Verif.Props.C135_pressure`
- `Verif.Props.C135_pressure_double`
- `Verif.Props.C135_zero_temperature`
- `Verif.Props.C136_examples`
- `Verif.Props.C137_exact`
- `Verif.Props.C137_undecorated`
- `Verif.Props.C137_backends`
- `Verif.Props.C138_sources`
- `Verif.Props.C138_math`
- `Verif.Props.C138_scalar`
- `Verif.Props.C138_numpy`
- `Verif.Props.C139_steady`
- `Verif.Props.C139_no_repeat`
- `Verif.Props.C140_lift_decreases`
- `Verif.Props.C140_apparent_slower`
- `Verif.Props.C140_gap`
- `Verif.Props.C140_altitude_motion`
- `Verif.Props.C141_climb`
- `Verif.Props.C141_altitude`
- `Verif.Props.C141_clock`
- `Verif.Props.C142_double`
- `Verif.Props.C143_topocentric_position`
- `Verif.Props.C143_position`
- `Verif.Props.C143_altitude`
- `Verif.Props.C143_azimuth`
- `Verif.Props.C143_altitude_fast`
- `Verif.Props.C143_azimuth_fast`
- `Verif.Props.C143_solar_time`
- `Verif.Props.C143_hour_angle`
- `Verif.Props.C143_radiation_direct`
- `Verif.Props.C143_sunrise_sunset_transit`
- `Verif.Props.C143_sunrise_sunset`
- `Verif.Props.C143_extraterrestrial_irrad`
- `Verif.Props.C143_clear_index`
- `Verif.Props.C143_global_irradiance_clear`
- `Verif.Props.C143_global_irradiance_overcast`
- `Verif.Props.C143_diffuse_underclear`
- `Verif.Props.C143_direct_underclear`
- `Verif.Props.C143_pressure_with_elevation`
- `Verif.Props.C143_azimuth_returns`
- `Verif.Props.C143_infinite_day`
- `Verif.Props.C143_altitude_double`
- `Verif.Props.C144_refuted`
- `Verif.Props.C144_attribute_error`
- `Verif.Props.C144_wavelengths_partial`
- `Verif.Props.C144_masses_partial`
- `Verif.Props.C145_request`
- `Verif.Props.C145_gather`
- `Verif.Props.C145_loop`
- `Verif.Props.C145_bad_log`
- `Verif.Props.C145_main`
- `Verif.Props.C146_stats`
- `Verif.Props.C146_empty`
- `Verif.Props.C146_order`
- `Verif.Props.C146_zero`
- `Verif.Props.C146_report`
- `Verif.Props.C147_same_date_partial`
- `Verif.Props.C147_step_partial`
- `Verif.Props.C147_refuted`
- `Verif.Props.C148_double`
- `Verif.Props.C149_angle`
- `Verif.Props.C149_azimuth`
- `Verif.Props.C149_clock`
- `Verif.Props.C149_tropics`
- `Verif.Props.C150_same_date_partial`
- `Verif.Props.C150_step_partial`
- `Verif.Props.C150_refuted`
- `Verif.Props.C151_double`
- `Verif.Props.C152_place`
- `Verif.Props.C152_altitude`
- `Verif.Props.C152_double`
- `Verif.Props.C153_day`
- `Verif.Props.C153_place`
- `Verif.Props.C153_double`
- `Verif.Props.C153_place_double`
- `Verif.Props.C154_rayleigh`
- `Verif.Props.C154_gas`
- `Verif.Props.C154_forward_fraction`
- `Verif.Props.C154_forward_scatterance`
- `Verif.Props.C154_mass_ozone`
- `Verif.Props.C154_mass_water`
- `Verif.Props.C154_mass_aerosol`
- `Verif.Props.C154_mass_rayleigh`
- `Verif.Props.C154_ozone`
- `Verif.Props.C154_water`
- `Verif.Props.C154_aerosol`
- `Verif.Props.C154_aerosol_scattering`
- `Verif.Props.C154_correction`
- `Verif.Props.C154_sky_albedo`
- `Verif.Props.C154_optical_depth`
- `Verif.Props.C154_backscattered`
- `Verif.Props.C154_nitrogen`
- `Verif.Props.C155_math`
- `Verif.Props.C155_numpy`
- `Verif.Props.C155_float`
- `Verif.Props.C155_float_numpy`
- `Verif.Props.C155_simulate`
- `Verif.Props.C155_numpy_returns`
- `Verif.Props.C155_altitude_fast`
- `Verif.Props.C155_infinite_latitude`
- `Verif.Props.C156_refuted`
- `Verif.Props.C156_partial`
- `Verif.Props.C157_refuted`
- `Verif.Props.C157_partial`
- `Verif.Props.C157_backends`
- `Verif.Props.C158_altitude`
- `Verif.Props.C158_date`
- `Verif.Props.C158_double`
- `Verif.Props.C158_extraterrestrial`
- `Verif.Props.C159_atmosphere`
- `Verif.Props.C159_vacuum`
- `Verif.Props.C159_monotone`
- `Verif.Props.C159_double`
- `Verif.Props.C160_refuted`
- `Verif.Props.C160_equator_partial`
- `Verif.Props.C161_altitude`
- `Verif.Props.C161_next_day`
- `Verif.Props.C161_place`
- `Verif.Props.C161_time`
- `Verif.Props.C161_double`
- `Verif.Props.C162_refuted`
- `Verif.Props.C162_numpy`
- `Verif.Props.C162_double_partial`
- `Verif.Props.C162_horizontal`
- `Verif.Props.C163_refuted`
- `Verif.Props.C163_azimuth_refuted`
- `Verif.Props.C163_numpy`
- `Verif.Props.C163_fast_altitude_partial`
- `Verif.Props.C163_elevation_refuted`
- `Verif.Props.C164_refuted`
- `Verif.Props.C164_fast_azimuth_partial`
- `Verif.Props.C165_azimuth_partial`
- `Verif.Props.C165_fast_partial`
- `Verif.Props.C165_refuted`
- `Verif.Props.C165_azimuth_everywhere`
- `Verif.Props.C166_reduced_partial`
- `Verif.Props.C166_reduced_numpy_partial`
- `Verif.Props.C166_refuted`
- `Verif.Props.C166_arcs`
- `Verif.Props.C166_arcs_numpy`
- `Verif.Props.C167_nonneg`
- `Verif.Props.C167_nonneg_numpy`
- `Verif.Props.C167_bounded`
- `Verif.Props.C167_bounded_numpy`
- `Verif.Props.C167_within`
- `Verif.Props.C167_fast`
- `Verif.Props.C167_within_numpy`
- `Verif.Props.C167_fast_numpy`
- `Verif.Props.C168_underflow`
- `Verif.Props.C168_refuted`
- `Verif.Props.C168_positive_partial`
- `Verif.Props.C168_numpy_partial`
- `Verif.Props.C169_declination`
- `Verif.Props.C169_equation_of_time`
- `Verif.Props.C169_flux`
- `Verif.Props.C169_optical_depth`
- `Verif.Props.C170_rayleigh`
- `Verif.Props.C170_gas`
- `Verif.Props.C170_aerosol`
- `Verif.Props.C170_aerosol_scattering`
- `Verif.Props.C171_pressure`
- `Verif.Props.C171_pressure_numpy`
- `Verif.Props.C171_temperature`
- `Verif.Props.C172_air_mass`
- `Verif.Props.C172_rises`
- `Verif.Props.C172_rises_numpy`
- `Verif.Props.C172_datetime`
- `Verif.Props.C173_advances_partial`
- `Verif.Props.C173_refuted`
- `Verif.Props.C174_refuted`
- `Verif.Props.C174_same_month_partial`
- `Verif.Props.C174_refuted_double`
- `Verif.Props.C174_double_partial`
- `Verif.Props.C175_range`
- `Verif.Props.C175_number`
- `Verif.Props.C176_distance`
- `Verif.Props.C176_declination`
- `Verif.Props.C176_clear`
- `Verif.Props.C176_overcast`
- `Verif.Props.C177_math`
- `Verif.Props.C177_numpy`
- `Verif.Props.C178_summer_partial`
- `Verif.Props.C178_winter_partial`
- `Verif.Props.C178_december_partial`
- `Verif.Props.C178_documented_partial`
- `Verif.Props.C178_refuted`
- `Verif.Props.C178_double_partial`
- `Verif.Props.C179_exact_partial`
- `Verif.Props.C179_refuted`
- `Verif.Props.C179_scaled_partial`
- `Verif.Props.C179_double_partial`
- `Verif.Props.C180_double_partial`
- `Verif.Props.C180_exact_partial`
- `Verif.Props.C180_refuted`
- `Verif.Props.C181_summer_partial`
- `Verif.Props.C181_low_partial`
- `Verif.Props.C181_refuted`
- `Verif.Props.C181_double_partial`
- `Verif.Props.C182_fraction`
- `Verif.Props.C182_monotone`
- `Verif.Props.C183_value`
- `Verif.Props.C183_monotone`
- `Verif.Props.C184_overcast`
- `Verif.Props.C184_diffuse`

## propext, Quot.sound

- `Verif.Props.C57_where_partial`
- `Verif.Props.C62_no_log`
- `Verif.Props.C121_air_mass_ratio`

## propext

- `Verif.Props.C03_when`
- `Verif.Props.C54_mixed`
