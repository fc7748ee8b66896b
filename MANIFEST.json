{
 "claims": [
  {
   "property": "C01",
   "status": "proved",
   "theorems": [
    "Props.C01_point_queries_total"
   ],
   "note": "Point queries are total"
  },
  {
   "property": "C02",
   "status": "proved",
   "theorems": [
    "Props.C02_outside_nan"
   ],
   "note": "Outside the volume is NaN"
  },
  {
   "property": "C03",
   "status": "proved",
   "theorems": [
    "Props.C03_impossible_dimensions",
    "Props.C03_panic_iff",
    "Props.C03_panic_witness"
   ],
   "note": "NewComposite panics exactly on impossible dimensions"
  },
  {
   "property": "C04",
   "status": "proved",
   "theorems": [
    "Props.C04_failed_parse"
   ],
   "note": "A failed parse exposes no data"
  },
  {
   "property": "C05",
   "status": "proved",
   "theorems": [
    "Props.C05_shape"
   ],
   "note": "Shape of a parsed composite"
  },
  {
   "property": "C06",
   "status": "proved",
   "theorems": [
    "Props.C06_layers",
    "Props.C06_single_layer",
    "Props.C06_catalog_layers"
   ],
   "note": "Layers are consecutive blocks of plain rows"
  },
  {
   "property": "C07",
   "status": "proved",
   "theorems": [
    "Props.C07_single_byte"
   ],
   "note": "Single byte pixels"
  },
  {
   "property": "C08",
   "status": "proved",
   "theorems": [
    "Props.C08_little_endian"
   ],
   "note": "Little endian pixels"
  },
  {
   "property": "C09",
   "status": "proved",
   "theorems": [
    "Props.C09_accuracy",
    "Props.C09_precision_zero",
    "Props.C09_dbz_exact",
    "Props.C09_dbz_accuracy"
   ],
   "note": "Decoded values are accurate"
  },
  {
   "property": "C10",
   "status": "proved",
   "theorems": [
    "Props.C10_monotone",
    "Props.C10_strict",
    "Props.C10_strict_dbz"
   ],
   "note": "Decoding preserves order"
  },
  {
   "property": "C11",
   "status": "proved",
   "theorems": [
    "Props.C11_any_encoding",
    "Props.C11_round_trip"
   ],
   "note": "Run-length rows round-trip"
  },
  {
   "property": "C12",
   "status": "proved",
   "theorems": [
    "Props.C12_lines",
    "Props.C12_accepted_iff"
   ],
   "note": "Run-length decoding never writes out of bounds and reports overflow"
  },
  {
   "property": "C13",
   "status": "proved",
   "theorems": [
    "Props.C13_row_order"
   ],
   "note": "Row order per encoding"
  },
  {
   "property": "C14",
   "status": "proved",
   "theorems": [
    "Props.C14_length_decides",
    "Props.C14_other_lengths_rejected",
    "Props.C14_level_field_decides"
   ],
   "note": "Encoding selection"
  },
  {
   "property": "C15",
   "status": "proved",
   "theorems": [
    "Props.C15_trailing_bytes"
   ],
   "note": "Trailing bytes are ignored"
  },
  {
   "property": "C16",
   "status": "proved",
   "theorems": [
    "Props.C16_announced_length",
    "Props.C16_lines",
    "Props.C16_truncation"
   ],
   "note": "Truncated files are rejected"
  },
  {
   "property": "C17",
   "status": "proved",
   "theorems": [
    "Props.C17_reader",
    "Props.C17_chunking",
    "Props.C17_bufio_reader",
    "Props.C17_scripts"
   ],
   "note": "Result does not depend on read chunking"
  },
  {
   "property": "C18",
   "status": "proved",
   "theorems": [
    "Props.C18_split_header"
   ],
   "note": "Header splitting"
  },
  {
   "property": "C19",
   "status": "proved",
   "theorems": [
    "Props.C19_field_order"
   ],
   "note": "Header fields may come in any order"
  },
  {
   "property": "C20",
   "status": "proved",
   "theorems": [
    "Props.C20_trailing_key",
    "Props.C20_trailing_forecast"
   ],
   "note": "A trailing key without value steals the previous value"
  },
  {
   "property": "C21",
   "status": "proved",
   "theorems": [
    "Props.C21_capture_time",
    "Props.C21_every_time"
   ],
   "note": "Capture time"
  },
  {
   "property": "C22",
   "status": "proved",
   "theorems": [
    "Props.C22_forecast_time"
   ],
   "note": "Forecast time"
  },
  {
   "property": "C23",
   "status": "proved",
   "theorems": [
    "Props.C23_interval"
   ],
   "note": "Interval"
  },
  {
   "property": "C24",
   "status": "proved",
   "theorems": [
    "Props.C24_dimensions",
    "Props.C24_blank_padded_BG"
   ],
   "note": "Dimensions"
  },
  {
   "property": "C25",
   "status": "proved",
   "theorems": [
    "Props.C25_product_unit"
   ],
   "note": "Product and unit"
  },
  {
   "property": "C26",
   "status": "proved",
   "theorems": [
    "Props.C26_unit_string_total"
   ],
   "note": "Unit.String is total on parsed units"
  },
  {
   "property": "C27",
   "status": "proved",
   "theorems": [
    "Props.C27_levels"
   ],
   "note": "Levels"
  },
  {
   "property": "C28",
   "status": "proved",
   "theorems": [
    "Props.C28_sorted_permutation"
   ],
   "note": "Archives: sorted permutation"
  },
  {
   "property": "C29",
   "status": "proved",
   "theorems": [
    "Props.C29_all_or_nothing"
   ],
   "note": "Archives: all or nothing"
  },
  {
   "property": "C30",
   "status": "proved",
   "theorems": [
    "Props.C30_order_independent"
   ],
   "note": "Archives: result independent of entry order"
  },
  {
   "property": "C31",
   "status": "proved",
   "theorems": [
    "Props.C31_has_projection_iff",
    "Props.C31_nonpositive"
   ],
   "note": "When a projection is available"
  },
  {
   "property": "C32",
   "status": "proved",
   "theorems": [
    "Props.C32_no_projection"
   ],
   "note": "No projection means NaN"
  },
  {
   "property": "C33",
   "status": "proved",
   "theorems": [
    "Props.C33_format_and_dimensions",
    "Props.C33_dummy"
   ],
   "note": "Project depends only on format and dimensions"
  },
  {
   "property": "C34",
   "status": "proved",
   "theorems": [
    "Props.C34_origin_accurate",
    "Props.C34_origin"
   ],
   "note": "Origin maps to (0,0)"
  },
  {
   "property": "C35",
   "status": "proved",
   "theorems": [
    "Props.C35_edge_accurate",
    "Props.C35_edge",
    "Props.C35_corners_exact"
   ],
   "note": "Edge maps to (Dx,Dy)"
  },
  {
   "property": "C36",
   "status": "proved",
   "theorems": [
    "Props.C36_resolution_scaling_accurate",
    "Props.C36_resolution_scaling",
    "Props.C36_scaling_exact"
   ],
   "note": "Resolution scaling"
  },
  {
   "property": "C37",
   "status": "proved",
   "theorems": [
    "Props.C37_resolution_positive",
    "Props.C37_injective",
    "Props.C37_orientation"
   ],
   "note": "Projection is injective and orientation-preserving"
  },
  {
   "property": "C38",
   "status": "proved",
   "theorems": [
    "Props.C38_catalog_resolution_lost"
   ],
   "note": "Catalog resolution is lost"
  },
  {
   "property": "C39",
   "status": "proved",
   "theorems": [
    "Props.C39_zr_law",
    "Props.C39_inverse"
   ],
   "note": "Z-R relations invert each other"
  },
  {
   "property": "C40",
   "status": "proved",
   "theorems": [
    "Props.C40_rate_monotone"
   ],
   "note": "More reflectivity, more rain"
  },
  {
   "property": "C41",
   "status": "proved",
   "theorems": [
    "Props.C41_isNaN",
    "Props.C41_nan_rate"
   ],
   "note": "No data stays no data"
  },
  {
   "property": "C42",
   "status": "proved",
   "theorems": [
    "Props.C42_image"
   ],
   "note": "Image mirrors the layer"
  },
  {
   "property": "C43",
   "status": "proved",
   "theorems": [
    "Props.C43_graymap"
   ],
   "note": "Graymap is a monotone opaque gray scale"
  },
  {
   "property": "C44",
   "status": "proved",
   "theorems": [
    "Props.C44_heatmap"
   ],
   "note": "Heatmap stays in gamut"
  },
  {
   "property": "C45",
   "status": "proved",
   "theorems": [
    "Props.C45_radialmap",
    "Props.C45_in_range"
   ],
   "note": "Radialmap separates directions"
  },
  {
   "property": "C46",
   "status": "proved",
   "theorems": [
    "Props.C46_color_map"
   ],
   "note": "radolan2png always picks a colour map"
  },
  {
   "property": "C47",
   "status": "proved",
   "theorems": [
    "Props.C47_accepts",
    "Props.C47_round_trip"
   ],
   "note": "End to end round trip"
  },
  {
   "property": "C48",
   "status": "proved",
   "theorems": [
    "Props.C48_views",
    "Props.C48_aliasing"
   ],
   "note": "Data, DataZ and PlainData alias the same memory"
  },
  {
   "property": "C49",
   "status": "proved",
   "theorems": [
    "Props.C49_mesh"
   ],
   "note": "The mesh of radolan2png"
  },
  {
   "property": "C50",
   "status": "proved",
   "theorems": [
    "Props.C50_drawing"
   ],
   "note": "What radolan2png draws"
  },
  {
   "property": "C51",
   "status": "proved",
   "theorems": [
    "Props.C51_append_overwrites"
   ],
   "note": "Appending to Data overwrites the next layer"
  },
  {
   "property": "C52",
   "status": "proved",
   "theorems": [
    "Props.C52_nominal_resolution",
    "Props.C52_reference_points"
   ],
   "note": "Grids are where they are documented"
  },
  {
   "property": "C53",
   "status": "proved",
   "theorems": [
    "Props.C53_conformal",
    "Props.C53_scale",
    "Props.C53_scale_wgs84"
   ],
   "note": "The projection is conformal"
  },
  {
   "property": "C54",
   "status": "proved",
   "theorems": [
    "Props.C54_resolution",
    "Props.C54_project",
    "Props.C54_reference_points"
   ],
   "note": "Float64 projection accuracy"
  },
  {
   "property": "C55",
   "status": "proved",
   "theorems": [
    "Props.C55_interrupted",
    "Props.C55_success",
    "Props.C55_rejected"
   ],
   "note": "Files at every interruption point of radolan2png"
  },
  {
   "property": "C56",
   "status": "proved",
   "theorems": [
    "Props.C56_grid_size",
    "Props.C56_printed"
   ],
   "note": "The grid size radolan2png prints"
  },
  {
   "property": "C57",
   "status": "proved",
   "theorems": [
    "Props.C57_rate",
    "Props.C57_reflectivity",
    "Props.C57_round_trip",
    "Props.C57_rate_round_trip",
    "Props.C57_increasing",
    "Props.C57_named"
   ],
   "note": "Z-R conversions in floating point"
  },
  {
   "property": "C58",
   "status": "proved",
   "theorems": [
    "Props.C58_common_plane",
    "Props.C58_distances"
   ],
   "note": "Distances do not depend on the grid"
  },
  {
   "property": "C59",
   "status": "proved",
   "theorems": [
    "Props.C59_every_place"
   ],
   "note": "Every place of a grid has exactly one coordinate"
  },
  {
   "property": "C60",
   "status": "proved",
   "theorems": [
    "Props.C60_consecutive",
    "Props.C60_read_ahead",
    "Props.C60_second_file_lost"
   ],
   "note": "Consecutive files on one reader"
  },
  {
   "property": "C61",
   "status": "proved",
   "theorems": [
    "Props.C61_archive_reader",
    "Props.C61_chunking",
    "Props.C61_scripts"
   ],
   "note": "Archives are read entry by entry whatever the reader does"
  },
  {
   "property": "C62",
   "status": "proved",
   "theorems": [
    "Props.C62_stalled",
    "Props.C62_stalled_file",
    "Props.C62_scripts"
   ],
   "note": "Stalled transfers"
  },
  {
   "property": "C63",
   "status": "proved",
   "theorems": [
    "Props.C63_accepted_iff",
    "Props.C63_panics_iff",
    "Props.C63_otherwise_error"
   ],
   "note": "Exact acceptance criterion"
  },
  {
   "property": "C64",
   "status": "proved",
   "theorems": [
    "Props.C64_rain",
    "Props.C64_reflectivity",
    "Props.C64_echo_tops",
    "Props.C64_velocity"
   ],
   "note": "Colours radolan2png gives to values"
  },
  {
   "property": "C65",
   "status": "proved",
   "theorems": [
    "Props.C65_reflectivity",
    "Props.C65_rain"
   ],
   "note": "Heat map colours are an HSL gradient"
  },
  {
   "property": "C66",
   "status": "proved",
   "theorems": [
    "Props.C66_reflectivity",
    "Props.C66_gray",
    "Props.C66_rain",
    "Props.C66_velocity"
   ],
   "note": "Predefined gradients of package vis"
  },
  {
   "property": "C67",
   "status": "proved",
   "theorems": [
    "Props.C67_separate_rounding",
    "Props.C67_multiply_add",
    "Props.C67_resolution",
    "Props.C67_project",
    "Props.C67_reference_points"
   ],
   "note": "Projection is accurate however the compiler fuses operations"
  },
  {
   "property": "C68",
   "status": "proved",
   "theorems": [
    "Props.C68_picture_round_trip"
   ],
   "note": "Run-length coded pictures survive a round trip"
  },
  {
   "property": "C69",
   "status": "proved",
   "theorems": [
    "Props.C69_unknown_fields",
    "Props.C69_inserted_field"
   ],
   "note": "Unknown header fields are ignored"
  },
  {
   "property": "C70",
   "status": "proved",
   "theorems": [
    "Props.C70_damaged_bytes",
    "Props.C70_damaged_lines"
   ],
   "note": "Damage to the data section stays local"
  },
  {
   "property": "C71",
   "status": "proved",
   "theorems": [
    "Props.C71_exact",
    "Props.C71_exact_back",
    "Props.C71_close",
    "Props.C71_recover"
   ],
   "note": "RVP-6 and dBZ values determine each other"
  },
  {
   "property": "C72",
   "status": "proved",
   "theorems": [
    "Props.C72_reflectivity",
    "Props.C72_rain"
   ],
   "note": "From file bytes to the colours of the picture"
  },
  {
   "property": "C73",
   "status": "proved",
   "theorems": [
    "Props.C73_truncated_bytes",
    "Props.C73_truncated_lines",
    "Props.C73_header_alone"
   ],
   "note": "What a failed parse leaves behind"
  },
  {
   "property": "C74",
   "status": "proved",
   "theorems": [
    "Props.C74_no_interference",
    "Props.C74_progress",
    "Props.C74_race_free",
    "Props.C74_terminates",
    "Props.C74_main"
   ],
   "note": "Goroutines do not interfere"
  },
  {
   "property": "C75",
   "status": "proved",
   "theorems": [
    "Props.C75_stamp",
    "Props.C75_order",
    "Props.C75_tick",
    "Props.C75_every_minute"
   ],
   "note": "Header times follow the calendar"
  },
  {
   "property": "C76",
   "status": "proved",
   "theorems": [
    "Props.C76_any_text",
    "Props.C76_questioned",
    "Props.C76_split_text"
   ],
   "note": "Header text beyond ASCII does not matter"
  },
  {
   "property": "C77",
   "status": "proved",
   "theorems": [
    "Props.C77_accuracy",
    "Props.C77_overflow",
    "Props.C77_zero_lost",
    "Props.C77_dbz_accuracy",
    "Props.C77_monotone"
   ],
   "note": "Decoded values for every precision a header can announce"
  },
  {
   "property": "C78",
   "status": "proved",
   "theorems": [
    "Props.C78_names_defect",
    "Props.C78_no_defect",
    "Props.C78_too_short"
   ],
   "note": "The error names the defect"
  },
  {
   "property": "C79",
   "status": "proved",
   "theorems": [
    "Props.C79_border_inside",
    "Props.C79_national_cut",
    "Props.C79_border_drawn",
    "Props.C79_smeared"
   ],
   "note": "The border of Germany in the picture"
  },
  {
   "property": "C80",
   "status": "proved",
   "theorems": [
    "Props.C80_every_pixel",
    "Props.C80_machines_agree"
   ],
   "note": "Every pixel can be addressed"
  },
  {
   "property": "C81",
   "status": "proved",
   "theorems": [
    "Props.C81_picture_size",
    "Props.C81_wide_picture"
   ],
   "note": "Size of an accepted picture"
  },
  {
   "property": "C82",
   "status": "proved",
   "theorems": [
    "Props.C82_separate_rounding",
    "Props.C82_multiply_add",
    "Props.C82_reflectivity",
    "Props.C82_rain",
    "Props.C82_echo_tops",
    "Props.C82_velocity"
   ],
   "note": "Colours do not depend on how floating point operations are fused"
  },
  {
   "property": "C83",
   "status": "proved",
   "theorems": [
    "Props.C83_reflectivity",
    "Props.C83_echo_tops",
    "Props.C83_velocity",
    "Props.C83_rain"
   ],
   "note": "The picture of a run-length coded file shows the level of every pixel"
  },
  {
   "property": "C84",
   "status": "proved",
   "theorems": [
    "Props.C84_reflectivity",
    "Props.C84_echo_tops",
    "Props.C84_velocity",
    "Props.C84_rain"
   ],
   "note": "Colours by the value a file states, for every unit, encoding and precision"
  },
  {
   "property": "C85",
   "status": "proved",
   "theorems": [
    "Props.C85_index",
    "Props.C85_file",
    "Props.C85_reachable",
    "Props.C85_picture",
    "Props.C85_picture_reachable"
   ],
   "note": "Looking up the value at a place"
  },
  {
   "property": "C86",
   "status": "proved",
   "theorems": [
    "Props.C86_berlin_position",
    "Props.C86_berlin",
    "Props.C86_documented_example",
    "Props.C86_rain_anywhere"
   ],
   "note": "The documented example: rainfall at a place"
  },
  {
   "property": "C87",
   "status": "proved",
   "theorems": [
    "Props.C87_rate",
    "Props.C87_reflectivity",
    "Props.C87_round_trip",
    "Props.C87_rate_round_trip",
    "Props.C87_increasing",
    "Props.C87_zr_permitted",
    "Props.C87_pixel",
    "Props.C87_pixel_dbz",
    "Props.C87_pixel_exact",
    "Props.C87_order",
    "Props.C87_stored"
   ],
   "note": "Z-R conversions and decoded pixels do not depend on fused operations"
  },
  {
   "property": "C88",
   "status": "proved",
   "theorems": [
    "Props.C88_picture",
    "Props.C88_output",
    "Props.C88_silent",
    "Props.C88_usage",
    "Props.C88_tells"
   ],
   "note": "What radolan2png prints"
  },
  {
   "property": "C89",
   "status": "proved",
   "theorems": [
    "Props.C89_polar_form",
    "Props.C89_mirror",
    "Props.C89_turn",
    "Props.C89_pole"
   ],
   "note": "Meridians, parallels and the pole on the picture"
  },
  {
   "property": "C90",
   "status": "proved",
   "theorems": [
    "Props.C90_mesh_drawn",
    "Props.C90_border_drawn",
    "Props.C90_unmarked"
   ],
   "note": "Marks lie where the map says"
  },
  {
   "property": "C91",
   "status": "proved",
   "theorems": [
    "Props.C91_distance",
    "Props.C91_stretch",
    "Props.C91_nearby"
   ],
   "note": "Distances measured on the picture"
  },
  {
   "property": "C92",
   "status": "proved",
   "theorems": [
    "Props.C92_exact",
    "Props.C92_project",
    "Props.C92_project_rounded",
    "Props.C92_resolution",
    "Props.C92_eccentricity"
   ],
   "note": "The map is the documented polar stereographic projection"
  },
  {
   "property": "C93",
   "status": "proved",
   "theorems": [
    "Props.C93_every_text",
    "Props.C93_ascii",
    "Props.C93_one_reading",
    "Props.C93_verdict",
    "Props.C93_every_input",
    "Props.C93_accepted"
   ],
   "note": "Exact verdict on every input"
  },
  {
   "property": "C94",
   "status": "proved",
   "theorems": [
    "Props.C94_attributes",
    "Props.C94_pixels",
    "Props.C94_lines"
   ],
   "note": "Contents of every accepted file, whatever its header says"
  },
  {
   "property": "C95",
   "status": "proved",
   "theorems": [
    "Props.C95_exit_status",
    "Props.C95_no_delimiter"
   ],
   "note": "Exit status of radolan2png for every input file"
  },
  {
   "property": "C96",
   "status": "proved",
   "theorems": [
    "Props.C96_archive_verdict",
    "Props.C96_archive_contents"
   ],
   "note": "Exact verdict on every archive"
  },
  {
   "property": "C97",
   "status": "proved",
   "theorems": [
    "Props.C97_separate_rounding",
    "Props.C97_picture",
    "Props.C97_no_projection",
    "Props.C97_same_marks"
   ],
   "note": "The picture does not depend on how the compiler fuses operations"
  },
  {
   "property": "C98",
   "status": "proved",
   "theorems": [
    "Props.C98_separate_rounding",
    "Props.C98_reflectivity",
    "Props.C98_echo_tops",
    "Props.C98_velocity",
    "Props.C98_rain"
   ],
   "note": "From the bytes of a file to the colours of its picture, under every fusion"
  },
  {
   "property": "C99",
   "status": "proved",
   "theorems": [
    "Props.C99_rejected",
    "Props.C99_unique",
    "Props.C99_finite",
    "Props.C99_decimals",
    "Props.C99_levels"
   ],
   "note": "Exactly which level tables are read, and to which levels"
  },
  {
   "property": "C100",
   "status": "proved",
   "theorems": [
    "Props.C100_scale",
    "Props.C100_stretch"
   ],
   "note": "Scale of the map and distances, on sphere and ellipsoid"
  },
  {
   "property": "C101",
   "status": "proved",
   "theorems": [
    "Props.C101_archive",
    "Props.C101_cut",
    "Props.C101_broken_stream",
    "Props.C101_header_corrupted",
    "Props.C101_no_checksum",
    "Props.C101_directory",
    "Props.C101_short_stream",
    "Props.C101_any_stream"
   ],
   "note": "Archives as streams of bytes"
  },
  {
   "property": "C102",
   "status": "proved",
   "theorems": [
    "Props.C102_accurate",
    "Props.C102_library",
    "Props.C102_separate_rounding",
    "Props.C102_sphere",
    "Props.C102_sphere_reference"
   ],
   "note": "Go's sine, cosine and tangent"
  },
  {
   "property": "C103",
   "status": "proved",
   "theorems": [
    "Props.C103_pow",
    "Props.C103_log10",
    "Props.C103_special_cases",
    "Props.C103_library",
    "Props.C103_project_and_rate"
   ],
   "note": "Go's power and decadic logarithm"
  },
  {
   "property": "C104",
   "status": "proved",
   "theorems": [
    "Props.C104_exp",
    "Props.C104_log",
    "Props.C104_elementary",
    "Props.C104_special_cases",
    "Props.C104_library",
    "Props.C104_project_and_rate",
    "Props.C104_separate_rounding",
    "Props.C104_go"
   ],
   "note": "Go's exponential and logarithm"
  },
  {
   "property": "C105",
   "status": "proved",
   "theorems": [
    "Props.C105_log",
    "Props.C105_log10",
    "Props.C105_infinite_exponent",
    "Props.C105_zero_and_infinity",
    "Props.C105_negative_base",
    "Props.C105_log10_special",
    "Props.C105_rate",
    "Props.C105_every_rate",
    "Props.C105_reflectivity",
    "Props.C105_no_rain"
   ],
   "note": "No rain, infinities and every positive rate"
  },
  {
   "property": "C106",
   "status": "proved",
   "theorems": [
    "Props.C106_sqrt",
    "Props.C106_relative_error",
    "Props.C106_special_cases",
    "Props.C106_hardware",
    "Props.C106_exact_and_monotone",
    "Props.C106_elementary",
    "Props.C106_library",
    "Props.C106_go",
    "Props.C106_square_root_power"
   ],
   "note": "The square root is rounded correctly: nothing is assumed about package math"
  },
  {
   "property": "C107",
   "status": "proved",
   "theorems": [
    "Props.C107_decompressed",
    "Props.C107_archive",
    "Props.C107_code",
    "Props.C107_unique"
   ],
   "note": "A compressed archive is decompressed exactly"
  },
  {
   "property": "C108",
   "status": "proved",
   "theorems": [
    "Props.C108_never_panics",
    "Props.C108_memory"
   ],
   "note": "The decompressor survives every file"
  },
  {
   "property": "C109",
   "status": "proved",
   "theorems": [
    "Props.C109_vouched",
    "Props.C109_corrupt",
    "Props.C109_burst"
   ],
   "note": "The end of the data is reported only after right checksums"
  },
  {
   "property": "C110",
   "status": "proved",
   "theorems": [
    "Props.C110_any_file",
    "Props.C110_composites",
    "Props.C110_exception"
   ],
   "note": "A compressed file stands for one sequence of bytes, whatever it contains"
  }
 ]
}