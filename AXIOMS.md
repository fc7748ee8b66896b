# Axioms per property theorem

Generated by tools/mkaxioms.py from `#print axioms`.

## propext, Classical.choice, Quot.sound

* `Props.C01_point_queries_total`
* `Props.C02_outside_nan`
* `Props.C03_impossible_dimensions`
* `Props.C03_panic_iff`
* `Props.C03_panic_witness`
* `Props.C04_failed_parse`
* `Props.C05_shape`
* `Props.C06_layers`
* `Props.C06_single_layer`
* `Props.C06_catalog_layers`
* `Props.C07_single_byte`
* `Props.C08_little_endian`
* `Props.C09_accuracy`
* `Props.C09_precision_zero`
* `Props.C09_dbz_exact`
* `Props.C09_dbz_accuracy`
* `Props.C10_monotone`
* `Props.C10_strict`
* `Props.C10_strict_dbz`
* `Props.C11_any_encoding`
* `Props.C11_round_trip`
* `Props.C12_lines`
* `Props.C12_accepted_iff`
* `Props.C13_row_order`
* `Props.C14_length_decides`
* `Props.C14_other_lengths_rejected`
* `Props.C14_level_field_decides`
* `Props.C15_trailing_bytes`
* `Props.C16_announced_length`
* `Props.C16_lines`
* `Props.C16_truncation`
* `Props.C17_reader`
* `Props.C17_chunking`
* `Props.C17_bufio_reader`
* `Props.C17_scripts`
* `Props.C18_split_header`
* `Props.C19_field_order`
* `Props.C20_trailing_key`
* `Props.C20_trailing_forecast`
* `Props.C21_capture_time`
* `Props.C21_every_time`
* `Props.C22_forecast_time`
* `Props.C23_interval`
* `Props.C24_dimensions`
* `Props.C24_blank_padded_BG`
* `Props.C25_product_unit`
* `Props.C26_unit_string_total`
* `Props.C27_levels`
* `Props.C28_sorted_permutation`
* `Props.C29_all_or_nothing`
* `Props.C30_order_independent`
* `Props.C31_has_projection_iff`
* `Props.C31_nonpositive`
* `Props.C32_no_projection`
* `Props.C33_format_and_dimensions`
* `Props.C33_dummy`
* `Props.C34_origin_accurate`
* `Props.C34_origin`
* `Props.C35_edge_accurate`
* `Props.C35_edge`
* `Props.C35_corners_exact`
* `Props.C36_resolution_scaling_accurate`
* `Props.C36_resolution_scaling`
* `Props.C36_scaling_exact`
* `Props.C37_resolution_positive`
* `Props.C37_injective`
* `Props.C37_orientation`
* `Props.C38_catalog_resolution_lost`
* `Props.C39_zr_law`
* `Props.C39_inverse`
* `Props.C40_rate_monotone`
* `Props.C41_isNaN`
* `Props.C41_nan_rate`
* `Props.C42_image`
* `Props.C43_graymap`
* `Props.C44_heatmap`
* `Props.C45_radialmap`
* `Props.C45_in_range`
* `Props.C46_color_map`
* `Props.C47_accepts`
* `Props.C47_round_trip`
* `Props.C48_views`
* `Props.C48_aliasing`
* `Props.C49_mesh`
* `Props.C50_drawing`
* `Props.C51_append_overwrites`
* `Props.C52_nominal_resolution`
* `Props.C52_reference_points`
* `Props.C53_conformal`
* `Props.C53_scale`
* `Props.C53_scale_wgs84`
* `Props.C54_resolution`
* `Props.C54_project`
* `Props.C54_reference_points`
* `Props.C55_interrupted`
* `Props.C55_success`
* `Props.C55_rejected`
* `Props.C56_grid_size`
* `Props.C56_printed`
* `Props.C57_rate`
* `Props.C57_reflectivity`
* `Props.C57_round_trip`
* `Props.C57_rate_round_trip`
* `Props.C57_increasing`
* `Props.C57_named`
* `Props.C58_common_plane`
* `Props.C58_distances`
* `Props.C59_every_place`
* `Props.C60_consecutive`
* `Props.C60_read_ahead`
* `Props.C60_second_file_lost`
* `Props.C61_archive_reader`
* `Props.C61_chunking`
* `Props.C61_scripts`
* `Props.C62_stalled`
* `Props.C62_stalled_file`
* `Props.C62_scripts`
* `Props.C63_accepted_iff`
* `Props.C63_panics_iff`
* `Props.C63_otherwise_error`
* `Props.C64_rain`
* `Props.C64_reflectivity`
* `Props.C64_echo_tops`
* `Props.C64_velocity`
* `Props.C65_reflectivity`
* `Props.C65_rain`
* `Props.C66_reflectivity`
* `Props.C66_gray`
* `Props.C66_rain`
* `Props.C66_velocity`
* `Props.C67_separate_rounding`
* `Props.C67_multiply_add`
* `Props.C67_resolution`
* `Props.C67_project`
* `Props.C67_reference_points`
* `Props.C68_picture_round_trip`
* `Props.C69_unknown_fields`
* `Props.C69_inserted_field`
* `Props.C70_damaged_bytes`
* `Props.C70_damaged_lines`
* `Props.C71_exact`
* `Props.C71_exact_back`
* `Props.C71_close`
* `Props.C71_recover`
* `Props.C72_reflectivity`
* `Props.C72_rain`
* `Props.C73_truncated_bytes`
* `Props.C73_truncated_lines`
* `Props.C73_header_alone`
* `Props.C74_no_interference`
* `Props.C74_progress`
* `Props.C74_race_free`
* `Props.C74_terminates`
* `Props.C74_main`
* `Props.C75_stamp`
* `Props.C75_order`
* `Props.C75_every_minute`
* `Props.C76_any_text`
* `Props.C76_questioned`
* `Props.C76_split_text`
* `Props.C77_accuracy`
* `Props.C77_overflow`
* `Props.C77_zero_lost`
* `Props.C77_dbz_accuracy`
* `Props.C77_monotone`
* `Props.C78_names_defect`
* `Props.C78_no_defect`
* `Props.C78_too_short`
* `Props.C79_border_inside`
* `Props.C79_national_cut`
* `Props.C79_border_drawn`
* `Props.C79_smeared`
* `Props.C80_every_pixel`
* `Props.C80_machines_agree`
* `Props.C81_picture_size`
* `Props.C81_wide_picture`
* `Props.C82_separate_rounding`
* `Props.C82_multiply_add`
* `Props.C82_reflectivity`
* `Props.C82_rain`
* `Props.C82_echo_tops`
* `Props.C82_velocity`
* `Props.C83_reflectivity`
* `Props.C83_echo_tops`
* `Props.C83_velocity`
* `Props.C83_rain`
* `Props.C84_reflectivity`
* `Props.C84_echo_tops`
* `Props.C84_velocity`
* `Props.C84_rain`
* `Props.C85_index`
* `Props.C85_file`
* `Props.C85_reachable`
* `Props.C85_picture`
* `Props.C85_picture_reachable`
* `Props.C86_berlin_position`
* `Props.C86_berlin`
* `Props.C86_documented_example`
* `Props.C86_rain_anywhere`
* `Props.C87_rate`
* `Props.C87_reflectivity`
* `Props.C87_round_trip`
* `Props.C87_rate_round_trip`
* `Props.C87_increasing`
* `Props.C87_zr_permitted`
* `Props.C87_pixel`
* `Props.C87_pixel_dbz`
* `Props.C87_pixel_exact`
* `Props.C87_order`
* `Props.C87_stored`
* `Props.C88_picture`
* `Props.C88_output`
* `Props.C88_silent`
* `Props.C88_usage`
* `Props.C88_tells`
* `Props.C89_polar_form`
* `Props.C89_mirror`
* `Props.C89_turn`
* `Props.C89_pole`
* `Props.C90_mesh_drawn`
* `Props.C90_border_drawn`
* `Props.C90_unmarked`
* `Props.C91_distance`
* `Props.C91_stretch`
* `Props.C91_nearby`
* `Props.C92_exact`
* `Props.C92_project`
* `Props.C92_project_rounded`
* `Props.C92_resolution`
* `Props.C92_eccentricity`
* `Props.C93_every_text`
* `Props.C93_one_reading`
* `Props.C93_verdict`
* `Props.C93_every_input`
* `Props.C93_accepted`
* `Props.C94_attributes`
* `Props.C94_pixels`
* `Props.C94_lines`
* `Props.C95_exit_status`
* `Props.C95_no_delimiter`
* `Props.C96_archive_verdict`
* `Props.C96_archive_contents`
* `Props.C97_separate_rounding`
* `Props.C97_picture`
* `Props.C97_no_projection`
* `Props.C97_same_marks`
* `Props.C98_separate_rounding`
* `Props.C98_reflectivity`
* `Props.C98_echo_tops`
* `Props.C98_velocity`
* `Props.C98_rain`
* `Props.C99_rejected`
* `Props.C99_unique`
* `Props.C99_finite`
* `Props.C99_decimals`
* `Props.C99_levels`
* `Props.C100_scale`
* `Props.C100_stretch`
* `Props.C101_archive`
* `Props.C101_cut`
* `Props.C101_broken_stream`
* `Props.C101_header_corrupted`
* `Props.C101_no_checksum`
* `Props.C101_directory`
* `Props.C101_short_stream`
* `Props.C101_any_stream`
* `Props.C102_accurate`
* `Props.C102_library`
* `Props.C102_separate_rounding`
* `Props.C102_sphere`
* `Props.C102_sphere_reference`
* `Props.C103_pow`
* `Props.C103_log10`
* `Props.C103_special_cases`
* `Props.C103_library`
* `Props.C103_project_and_rate`
* `Props.C104_exp`
* `Props.C104_log`
* `Props.C104_elementary`
* `Props.C104_special_cases`
* `Props.C104_library`
* `Props.C104_project_and_rate`
* `Props.C104_separate_rounding`
* `Props.C104_go`
* `Props.C105_log`
* `Props.C105_log10`
* `Props.C105_infinite_exponent`
* `Props.C105_zero_and_infinity`
* `Props.C105_negative_base`
* `Props.C105_log10_special`
* `Props.C105_rate`
* `Props.C105_every_rate`
* `Props.C105_reflectivity`
* `Props.C105_no_rain`
* `Props.C106_sqrt`
* `Props.C106_relative_error`
* `Props.C106_special_cases`
* `Props.C106_hardware`
* `Props.C106_exact_and_monotone`
* `Props.C106_elementary`
* `Props.C106_library`
* `Props.C106_go`
* `Props.C106_square_root_power`
* `Props.C107_decompressed`
* `Props.C107_archive`
* `Props.C107_code`
* `Props.C107_unique`
* `Props.C108_never_panics`
* `Props.C108_memory`
* `Props.C109_vouched`
* `Props.C109_corrupt`
* `Props.C109_burst`
* `Props.C110_any_file`
* `Props.C110_composites`
* `Props.C110_exception`

## propext, Quot.sound

* `Props.C75_tick`
* `Props.C93_ascii`
