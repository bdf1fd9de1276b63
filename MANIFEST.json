{
 "claims": [
  {
   "property": "C01",
   "status": "proved",
   "theorems": [
    "WindMult.C01_tiles_cover",
    "WindMult.C01_gridlimit_defined_iff"
   ],
   "note": "Every pixel is in some tile; the tile limits are defined exactly for the valid indices."
  },
  {
   "property": "C02",
   "status": "partial",
   "theorems": [
    "WindMult.C02_tiles_disjoint_iff",
    "WindMult.C02_tiles_disjoint_partial",
    "WindMult.C02_not_disjoint"
   ],
   "note": "False in general: the last column/row can lie inside the buffer-trimmed core of its predecessor. Exact criterion proved (iff), disjointness proved under it, negation with a 21-pixel witness."
  },
  {
   "property": "C03",
   "status": "proved",
   "theorems": [
    "WindMult.C03_buffer_surrounds_core",
    "WindMult.C03_pixel_has_full_neighbourhood",
    "WindMult.C03_buffer_covers_upwind_length"
   ],
   "note": ""
  },
  {
   "property": "C04",
   "status": "partial",
   "theorems": [
    "WindMult.C04_names_distinct_partial",
    "WindMult.C04_name_collision"
   ],
   "note": "Distinct names for coordinates with at most the digits kept; collisions (coordinates that differ only in a truncated digit) proved by witness."
  },
  {
   "property": "C05",
   "status": "proved",
   "theorems": [
    "WindMult.C05_extent_is_corner_coordinates"
   ],
   "note": ""
  },
  {
   "property": "C06",
   "status": "proved",
   "theorems": [
    "WindMult.C06_clip_returns_core"
   ],
   "note": ""
  },
  {
   "property": "C07",
   "status": "proved",
   "theorems": [
    "WindMult.C07_coordinates_are_pixel_centres",
    "WindMult.C07_coordinates_monotone_inside"
   ],
   "note": ""
  },
  {
   "property": "C08",
   "status": "proved",
   "theorems": [
    "WindMult.C08_each_tile_exactly_once",
    "WindMult.C08_never_twice",
    "WindMult.C08_nodup"
   ],
   "note": ""
  },
  {
   "property": "C09",
   "status": "proved",
   "theorems": [
    "WindMult.C09_terminates",
    "WindMult.C09_no_deadlock",
    "WindMult.C09_completes"
   ],
   "note": ""
  },
  {
   "property": "C10",
   "status": "proved",
   "theorems": [
    "WindMult.C10_crash_never_success",
    "WindMult.C10_crash_is_permanent"
   ],
   "note": ""
  },
  {
   "property": "C11",
   "status": "proved",
   "theorems": [
    "WindMult.C11_serial_order",
    "WindMult.C11_serial_same_as_parallel"
   ],
   "note": ""
  },
  {
   "property": "C12",
   "status": "proved",
   "theorems": [
    "WindMult.C12_interleaved",
    "WindMult.C12_serial"
   ],
   "note": ""
  },
  {
   "property": "C13",
   "status": "proved",
   "theorems": [
    "WindMult.C13_partition",
    "WindMult.C13_place",
    "WindMult.C13_balanced"
   ],
   "note": ""
  },
  {
   "property": "C14",
   "status": "proved",
   "theorems": [
    "WindMult.C14_vrt_lists"
   ],
   "note": ""
  },
  {
   "property": "C15",
   "status": "proved",
   "theorems": [
    "WindMult.C15_same_file",
    "WindMult.C15_tile_recovered",
    "WindMult.C15_direction",
    "WindMult.C15_distinct"
   ],
   "note": ""
  },
  {
   "property": "C16",
   "status": "proved",
   "theorems": [
    "WindMult.C16_bands",
    "WindMult.C16_georeferenced"
   ],
   "note": ""
  },
  {
   "property": "C17",
   "status": "partial",
   "theorems": [
    "WindMult.C17_partial",
    "WindMult.C17_non_square",
    "WindMult.C17_false",
    "WindMult.C17_first_missing"
   ],
   "note": "False for non-square tiles (transposed replacement array) and when ms_n or ms_e is missing; proved for square tiles with both present; witnesses for each failure."
  },
  {
   "property": "C18",
   "status": "proved",
   "theorems": [
    "WindMult.C18_maximum"
   ],
   "note": ""
  },
  {
   "property": "C19",
   "status": "partial",
   "theorems": [
    "WindMult.C19_partial",
    "WindMult.C19_false"
   ],
   "note": "False: the raw product of fill values is stored. Proved where no input is a fill value. See C75 for NaN, which is what the pipeline writes."
  },
  {
   "property": "C20",
   "status": "proved",
   "theorems": [
    "WindMult.C20_reads_are_upwind_cells",
    "WindMult.C20_no_index_error",
    "WindMult.C20_depends_only_on_upwind_cells"
   ],
   "note": ""
  },
  {
   "property": "C21",
   "status": "proved",
   "theorems": [
    "WindMult.C21_convo_is_upwind_mean"
   ],
   "note": ""
  },
  {
   "property": "C22",
   "status": "proved",
   "theorems": [
    "WindMult.C22_convo_in_range",
    "WindMult.C22_convo_uniform"
   ],
   "note": ""
  },
  {
   "property": "C23",
   "status": "proved",
   "theorems": [
    "WindMult.C23_terrain_seamless"
   ],
   "note": ""
  },
  {
   "property": "C24",
   "status": "proved",
   "theorems": [
    "WindMult.C24_convo_fails_iff",
    "WindMult.C24_coarse_grid_fails",
    "WindMult.C24_wide_tile_fails",
    "WindMult.C24_fine_grid_width_pos"
   ],
   "note": "Exact failure criterion, two reachable witnesses, and absence for grids of at most 200 m."
  },
  {
   "property": "C25",
   "status": "proved",
   "theorems": [
    "WindMult.C25_mirror_east_west",
    "WindMult.C25_mirror_north_south",
    "WindMult.C25_transpose"
   ],
   "note": ""
  },
  {
   "property": "C26",
   "status": "proved",
   "theorems": [
    "WindMult.C26_last_matching_row",
    "WindMult.C26_unknown_category",
    "WindMult.C26_no_known_category_no_output"
   ],
   "note": ""
  },
  {
   "property": "C27",
   "status": "proved",
   "theorems": [
    "WindMult.C27_rougher_is_lower",
    "WindMult.C27_value_at_one_metre",
    "WindMult.C27_value_at_reference_roughness"
   ],
   "note": ""
  },
  {
   "property": "C28",
   "status": "partial",
   "theorems": [
    "WindMult.C28_nodata_is_nan_partial",
    "WindMult.C28_nodata_lost"
   ],
   "note": "Proved when the lag is at most the tile height; for shorter tiles it is false (witness)."
  },
  {
   "property": "C29",
   "status": "proved",
   "theorems": [
    "WindMult.C29_sector_class",
    "WindMult.C29_class_iff_sector",
    "WindMult.C29_other_is_nine"
   ],
   "note": ""
  },
  {
   "property": "C30",
   "status": "proved",
   "theorems": [
    "WindMult.C30_one_direction_adjusted",
    "WindMult.C30_unknown_aspect_no_adjustment"
   ],
   "note": ""
  },
  {
   "property": "C31",
   "status": "proved",
   "theorems": [
    "WindMult.C31_kernel_is_mean",
    "WindMult.C31_kernel_is_upwind",
    "WindMult.C31_blur_is_sector_mean"
   ],
   "note": ""
  },
  {
   "property": "C32",
   "status": "proved",
   "theorems": [
    "WindMult.C32_blur_in_range",
    "WindMult.C32_unshielded_stays"
   ],
   "note": ""
  },
  {
   "property": "C33",
   "status": "proved",
   "theorems": [
    "WindMult.C33_shielding_seamless"
   ],
   "note": ""
  },
  {
   "property": "C34",
   "status": "proved",
   "theorems": [
    "WindMult.C34_value",
    "WindMult.C34_bounded",
    "WindMult.C34_at_most_adjusted",
    "WindMult.C34_monotone_in_shielding",
    "WindMult.C34_monotone_in_slope",
    "WindMult.C34_continuous"
   ],
   "note": ""
  },
  {
   "property": "C35",
   "status": "proved",
   "theorems": [
    "WindMult.C35_steep_facing_is_one",
    "WindMult.C35_gentle_slope_no_effect"
   ],
   "note": ""
  },
  {
   "property": "C36",
   "status": "proved",
   "theorems": [
    "WindMult.C36_nan_preserved"
   ],
   "note": ""
  },
  {
   "property": "C37",
   "status": "partial",
   "theorems": [
    "WindMult.C37_nan_iff_shielding_cell_nan_partial",
    "WindMult.C37_coarse_grid_nan_partial",
    "WindMult.C37_nodata_lost"
   ],
   "note": "False: the kernels skip the centre cell. Exact NaN criterion proved for grids up to 100 m, preservation for coarser grids, negation with witness."
  },
  {
   "property": "C38",
   "status": "proved",
   "theorems": [
    "WindMult.C38_last_matching_row",
    "WindMult.C38_unknown_category",
    "WindMult.C38_nodata_is_nan"
   ],
   "note": ""
  },
  {
   "property": "C39",
   "status": "proved",
   "theorems": [
    "WindMult.C39_aspect_is_downslope_heading",
    "WindMult.C39_slope_is_steepness",
    "WindMult.C39_cell",
    "WindMult.C39_unknown"
   ],
   "note": ""
  },
  {
   "property": "C40",
   "status": "proved",
   "theorems": [
    "WindMult.C40_datum_invariant",
    "WindMult.C40_plane_gradient",
    "WindMult.C40_plane_slope"
   ],
   "note": ""
  },
  {
   "property": "C41",
   "status": "proved",
   "theorems": [
    "WindMult.C41_paths_partition"
   ],
   "note": ""
  },
  {
   "property": "C42",
   "status": "proved",
   "theorems": [
    "WindMult.C42_paths_are_transects",
    "WindMult.C42_loop_terminates"
   ],
   "note": ""
  },
  {
   "property": "C43",
   "status": "proved",
   "theorems": [
    "WindMult.C43_peaks_are_ridges",
    "WindMult.C43_flat_and_short"
   ],
   "note": ""
  },
  {
   "property": "C44",
   "status": "proved",
   "theorems": [
    "WindMult.C44_valleys"
   ],
   "note": ""
  },
  {
   "property": "C45",
   "status": "proved",
   "theorems": [
    "WindMult.C45_pairing",
    "WindMult.C45_no_error"
   ],
   "note": ""
  },
  {
   "property": "C46",
   "status": "proved",
   "theorems": [
    "WindMult.C46_range"
   ],
   "note": ""
  },
  {
   "property": "C47",
   "status": "proved",
   "theorems": [
    "WindMult.C47_escarpment"
   ],
   "note": ""
  },
  {
   "property": "C48",
   "status": "partial",
   "theorems": [
    "WindMult.C48_local_partial",
    "WindMult.C48_last_point",
    "WindMult.C48_not_local"
   ],
   "note": "False at the last point of the line (index -1 write). Exact last-point value, negation with a 7-point witness, locality at all other points."
  },
  {
   "property": "C49",
   "status": "proved",
   "theorems": [
    "WindMult.C49_small_hills",
    "WindMult.C49_never_rising"
   ],
   "note": ""
  },
  {
   "property": "C50",
   "status": "proved",
   "theorems": [
    "WindMult.C50_datum"
   ],
   "note": ""
  },
  {
   "property": "C51",
   "status": "proved",
   "theorems": [
    "WindMult.C51_conservatism",
    "WindMult.C51_continuous"
   ],
   "note": ""
  },
  {
   "property": "C52",
   "status": "proved",
   "theorems": [
    "WindMult.C52_tasmania",
    "WindMult.C52_where"
   ],
   "note": ""
  },
  {
   "property": "C53",
   "status": "partial",
   "theorems": [
    "WindMult.C53_value",
    "WindMult.C53_smooth_partial",
    "WindMult.C53_smooth_everywhere",
    "WindMult.C53_not_on_edge"
   ],
   "note": "False on edge rows/columns (zero padding). Interior cells proved; everywhere at least 4/9 of the minimum and at most the maximum; negation for all 8 directions."
  },
  {
   "property": "C54",
   "status": "proved",
   "theorems": [
    "WindMult.C54_cell_from_transect",
    "WindMult.C54_raw_range",
    "WindMult.C54_result_range",
    "WindMult.C54_eight_outputs"
   ],
   "note": ""
  },
  {
   "property": "C55",
   "status": "proved",
   "theorems": [
    "WindMult.C55_corners",
    "WindMult.C55_bounds",
    "WindMult.C55_exact"
   ],
   "note": ""
  },
  {
   "property": "C56",
   "status": "proved",
   "theorems": [
    "WindMult.C56_total",
    "WindMult.C56_even_exact",
    "WindMult.C56_odd_overshoots",
    "WindMult.C56_size_one",
    "WindMult.C56_size_two"
   ],
   "note": ""
  },
  {
   "property": "C57",
   "status": "partial",
   "theorems": [
    "WindMult.C57_partial",
    "WindMult.C57_transposed",
    "WindMult.C57_rows_equal",
    "WindMult.C57_false"
   ],
   "note": "False: the grid is transposed (witness). For square rasters it is exactly the transpose of the right grid, so its mean is right; the slope and aspect, which use the grid cell by cell, are computed with the sizes of other pixels."
  },
  {
   "property": "C58",
   "status": "proved",
   "theorems": [
    "WindMult.C58_azimuths",
    "WindMult.C58_coincident",
    "WindMult.C58_sphere",
    "WindMult.C58_sphere_undefined",
    "WindMult.C58_wrapped"
   ],
   "note": ""
  },
  {
   "property": "C59",
   "status": "proved",
   "theorems": [
    "WindMult.C59_override",
    "WindMult.C59_default",
    "WindMult.C59_idempotent",
    "WindMult.C59_missing"
   ],
   "note": ""
  },
  {
   "property": "C60",
   "status": "proved",
   "theorems": [
    "WindMult.C60_once",
    "WindMult.C60_same",
    "WindMult.C60_stable",
    "WindMult.C60_exclusive",
    "WindMult.C60_falsy"
   ],
   "note": ""
  },
  {
   "property": "C61",
   "status": "proved",
   "theorems": [
    "WindMult.C61_whole",
    "WindMult.C61_zero"
   ],
   "note": ""
  },
  {
   "property": "C62",
   "status": "proved",
   "theorems": [
    "WindMult.C62_timer"
   ],
   "note": ""
  },
  {
   "property": "C63",
   "status": "partial",
   "theorems": [
    "WindMult.C63_partial",
    "WindMult.C63_only_first",
    "WindMult.C63_no_crs",
    "WindMult.C63_false",
    "WindMult.C63_no_variables",
    "WindMult.C63_errors"
   ],
   "note": "False: the early return writes only the first variable. Proved for one variable; later variables provably never written."
  },
  {
   "property": "C64",
   "status": "proved",
   "theorems": [
    "WindMult.C64_decode",
    "WindMult.C64_unknown",
    "WindMult.C64_injective",
    "WindMult.C64_authorised"
   ],
   "note": ""
  },
  {
   "property": "C65",
   "status": "proved",
   "theorems": [
    "WindMult.C65_dissolve"
   ],
   "note": ""
  },
  {
   "property": "C66",
   "status": "proved",
   "theorems": [
    "WindMult.C66_largest",
    "WindMult.C66_no_area",
    "WindMult.C66_order"
   ],
   "note": ""
  },
  {
   "property": "C67",
   "status": "proved",
   "theorems": [
    "WindMult.C67_crop",
    "WindMult.C67_not_mask"
   ],
   "note": ""
  },
  {
   "property": "C68",
   "status": "proved",
   "theorems": [
    "WindMult.C68_worker",
    "WindMult.C68_prepared",
    "WindMult.C68_idempotent",
    "WindMult.C68_file"
   ],
   "note": ""
  },
  {
   "property": "C69",
   "status": "proved",
   "theorems": [
    "WindMult.C69_terrain_outputs"
   ],
   "note": ""
  },
  {
   "property": "C70",
   "status": "partial",
   "theorems": [
    "WindMult.C70_directions_independent_partial",
    "WindMult.C70_directions_compound",
    "WindMult.C70_not_independent"
   ],
   "note": "Proved for grids up to 100 m; false above (in-place update), compounding law and negation proved."
  },
  {
   "property": "C71",
   "status": "proved",
   "theorems": [
    "WindMult.C71_steep_plane"
   ],
   "note": ""
  },
  {
   "property": "C72",
   "status": "proved",
   "theorems": [
    "WindMult.C72_largest_hill"
   ],
   "note": "Exact characterisation (IsGreatest); the last point is covered by C48_last_point."
  },
  {
   "property": "C73",
   "status": "proved",
   "theorems": [
    "WindMult.C73_symmetric"
   ],
   "note": ""
  },
  {
   "property": "C74",
   "status": "proved",
   "theorems": [
    "WindMult.C74_equator",
    "WindMult.C74_positive",
    "WindMult.C74_converges",
    "WindMult.C74_parallel",
    "WindMult.C74_meridian"
   ],
   "note": ""
  },
  {
   "property": "C75",
   "status": "proved",
   "theorems": [
    "WindMult.C75_product",
    "WindMult.C75_maximum"
   ],
   "note": ""
  },
  {
   "property": "C76",
   "status": "partial",
   "theorems": [
    "WindMult.C76_absolute_partial",
    "WindMult.C76_relative_fails"
   ],
   "note": "Absolute output directories: proved for every starting directory. Relative ones: proved to fail for every starting directory as soon as one tile is not empty."
  },
  {
   "property": "C77",
   "status": "proved",
   "theorems": [
    "WindMult.C77_tile_size"
   ],
   "note": ""
  },
  {
   "property": "C78",
   "status": "proved",
   "theorems": [
    "WindMult.C78_dem_tile_is_block"
   ],
   "note": ""
  },
  {
   "property": "C79",
   "status": "proved",
   "theorems": [
    "WindMult.C79_landcover_tile"
   ],
   "note": ""
  },
  {
   "property": "C80",
   "status": "proved",
   "theorems": [
    "WindMult.C80_averaging_distance"
   ],
   "note": ""
  },
  {
   "property": "C81",
   "status": "proved",
   "theorems": [
    "WindMult.C81_tile_completes"
   ],
   "note": ""
  },
  {
   "property": "C82",
   "status": "proved",
   "theorems": [
    "WindMult.C82_terrain_pixel"
   ],
   "note": ""
  },
  {
   "property": "C83",
   "status": "proved",
   "theorems": [
    "WindMult.C83_shielding_pixel"
   ],
   "note": ""
  },
  {
   "property": "C84",
   "status": "proved",
   "theorems": [
    "WindMult.C84_topographic_pixel"
   ],
   "note": ""
  },
  {
   "property": "C85",
   "status": "proved",
   "theorems": [
    "WindMult.C85_combined",
    "WindMult.C85_maximum"
   ],
   "note": ""
  },
  {
   "property": "C86",
   "status": "partial",
   "theorems": [
    "WindMult.C86_topographic_seamless_partial",
    "WindMult.C86_not_seamless"
   ],
   "note": "False: the reach of a hill can exceed the buffer (witness with a 100 m escarpment). Proved when the buffer less one cell is at least 63.2 times the relief; the cell width and the Tasmania rule remain those of the tile."
  },
  {
   "property": "C87",
   "status": "proved",
   "theorems": [
    "WindMult.C87_constant",
    "WindMult.C87_earth",
    "WindMult.C87_pixel_size"
   ],
   "note": ""
  },
  {
   "property": "C88",
   "status": "proved",
   "theorems": [
    "WindMult.C88_grids",
    "WindMult.C88_standard_tile"
   ],
   "note": ""
  },
  {
   "property": "C89",
   "status": "proved",
   "theorems": [
    "WindMult.C89_vincenty",
    "WindMult.C89_zero",
    "WindMult.C89_sphere",
    "WindMult.C89_unentered",
    "WindMult.C89_equator"
   ],
   "note": ""
  },
  {
   "property": "C90",
   "status": "proved",
   "theorems": [
    "WindMult.C90_round_trip"
   ],
   "note": ""
  },
  {
   "property": "C91",
   "status": "proved",
   "theorems": [
    "WindMult.C91_few_points",
    "WindMult.C91_sphere",
    "WindMult.C91_never_antipodal",
    "WindMult.C91_same_place",
    "WindMult.C91_ellipsoid",
    "WindMult.C91_equator"
   ],
   "note": ""
  },
  {
   "property": "C92",
   "status": "proved",
   "theorems": [
    "WindMult.C92_vincenty"
   ],
   "note": ""
  },
  {
   "property": "C93",
   "status": "proved",
   "theorems": [
    "WindMult.C93_outcome",
    "WindMult.C93_waits"
   ],
   "note": ""
  },
  {
   "property": "C94",
   "status": "proved",
   "theorems": [
    "WindMult.C94_finishes",
    "WindMult.C94_completes",
    "WindMult.C94_hangs"
   ],
   "note": "Needs that the rasters of a tile have one size, square where there is no land cover; without it no run completes (proved). An exception in one process is taken to leave the others waiting."
  },
  {
   "property": "C95",
   "status": "proved",
   "theorems": [
    "WindMult.C95_same_result"
   ],
   "note": ""
  },
  {
   "property": "C96",
   "status": "proved",
   "theorems": [
    "WindMult.C96_run",
    "WindMult.C96_every_pixel"
   ],
   "note": "Tiles that are neither empty nor meet the conditions of C81-C85 are excluded by hypothesis; C97 gives concrete conditions."
  },
  {
   "property": "C97",
   "status": "proved",
   "theorems": [
    "WindMult.C97_standard_run"
   ],
   "note": ""
  },
  {
   "property": "C98",
   "status": "proved",
   "theorems": [
    "WindMult.C98_range",
    "WindMult.C98_shipped_table"
   ],
   "note": ""
  },
  {
   "property": "C99",
   "status": "proved",
   "theorems": [
    "WindMult.C99_uniform"
   ],
   "note": ""
  },
  {
   "property": "C100",
   "status": "proved",
   "theorems": [
    "WindMult.C100_features",
    "WindMult.C100_raster",
    "WindMult.C100_landcover",
    "WindMult.C100_determined",
    "WindMult.C100_same_name"
   ],
   "note": "Geometries are point sets with Lebesgue measure; GDAL's rule for pixel centres on a polygon boundary and the repair of invalid polygons are not modelled."
  },
  {
   "property": "C101",
   "status": "proved",
   "theorems": [
    "WindMult.C101_tiles",
    "WindMult.C101_disjoint",
    "WindMult.C101_dem_tile",
    "WindMult.C101_clip",
    "WindMult.C101_coordinates"
   ],
   "note": "Overflow, underflow and the arithmetic inside GDAL are not modelled. Rounding to 53 digits with ties to even is proved to be an instance."
  },
  {
   "property": "C102",
   "status": "proved",
   "theorems": [
    "WindMult.C102_terrain",
    "WindMult.C102_terrain_float32",
    "WindMult.C102_product",
    "WindMult.C102_maximum"
   ],
   "note": "Overflow, underflow, NaN and the rounding inside np.log are not modelled; the error of the initial multipliers is a parameter. Rounding to p digits with ties to even is proved to be an instance."
  },
  {
   "property": "C103",
   "status": "proved",
   "theorems": [
    "WindMult.C103_local"
   ],
   "note": "Both runs have to meet the conditions of C96; the checksum (GDAL) is a parameter assumed to depend on the cells only."
  },
  {
   "property": "C104",
   "status": "proved",
   "theorems": [
    "WindMult.C104_monotone"
   ],
   "note": "Exact arithmetic. A shielding value of 0 or below is excluded only where negative; both runs have to meet the conditions of C96."
  },
  {
   "property": "C105",
   "status": "proved",
   "theorems": [
    "WindMult.C105_own_log"
   ],
   "note": ""
  },
  {
   "property": "C106",
   "status": "partial",
   "theorems": [
    "WindMult.C106_configured_partial",
    "WindMult.C106_race"
   ],
   "note": "False for several processes that find the folder missing (C106_race); proved if the folder exists beforehand or for one process."
  },
  {
   "property": "C107",
   "status": "partial",
   "theorems": [
    "WindMult.C107_handlers_partial",
    "WindMult.C107_second_call"
   ],
   "note": "False for a second call (C107_second_call); proved for the first call, and what later calls do."
  },
  {
   "property": "C108",
   "status": "proved",
   "theorems": [
    "WindMult.C108_escarpment"
   ],
   "note": "The spacing is a number of the format; no limits on the exponent."
  },
  {
   "property": "C109",
   "status": "proved",
   "theorems": [
    "WindMult.C109_line"
   ],
   "note": "Points where a hill is within a few units in the last place of a jump of the formula are excluded (ClearHill), and the last point of the line (C48)."
  },
  {
   "property": "C110",
   "status": "proved",
   "theorems": [
    "WindMult.C110_raster"
   ],
   "note": "Cell size and square root of 2 are not rounded separately: the computed spacing is a parameter. The nine terms of the smoothing are added in a fixed order; scipy may use an FFT for some sizes."
  },
  {
   "property": "C111",
   "status": "proved",
   "theorems": [
    "WindMult.C111_shielding",
    "WindMult.C111_formats"
   ],
   "note": "Overflow and underflow are not modelled; the error of the slope (eta) is a parameter and the aspect is assumed not to move to another sector (both are proved in C112). The convolution is a direct sum in a fixed order."
  },
  {
   "property": "C112",
   "status": "proved",
   "theorems": [
    "WindMult.C112_slope_aspect",
    "WindMult.C112_unknown",
    "WindMult.C112_shielding",
    "WindMult.C112_formats"
   ],
   "note": "hypot, arctan and arctan2 are assumed correct to one unit in the last place. The error of the cell sizes in metres is a parameter. Overflow and underflow are not modelled."
  },
  {
   "property": "C113",
   "status": "proved",
   "theorems": [
    "WindMult.C113_formula",
    "WindMult.C113_formats"
   ],
   "note": "np.log is assumed correct to one unit in the last place for positive arguments; the parsed roughness length is assumed correct to two units. Overflow and underflow are not modelled."
  },
  {
   "property": "C114",
   "status": "proved",
   "theorems": [
    "WindMult.C114_cell_size",
    "WindMult.C114_widths",
    "WindMult.C114_kernel",
    "WindMult.C114_formats"
   ],
   "note": "The order of additions of np.mean is a parameter of bounded depth. The pixel sizes before storing may carry a relative error of 2^-25, well above the error of double precision; how they are computed is the subject of C55 to C57 and C87."
  },
  {
   "property": "C115",
   "status": "proved",
   "theorems": [
    "WindMult.C115_terrain",
    "WindMult.C115_short"
   ],
   "note": "Assumptions of C113 and C114; tiles whose height equals the lag, and shorter ones, are excluded as in C69."
  },
  {
   "property": "C116",
   "status": "proved",
   "theorems": [
    "WindMult.C116_spacing"
   ],
   "note": "The computed spacing is a number of the format. Points where a hill is within a few eps of a jump of the formula are excluded (ClearHill)."
  },
  {
   "property": "C117",
   "status": "proved",
   "theorems": [
    "WindMult.C117_tile",
    "WindMult.C117_value",
    "WindMult.C117_maximum"
   ],
   "note": "Pixels where a hill, a heading or a cell count is within rounding of a jump of the formulas are excluded (ClearPixel, AsRead); log, sine, cosine and arctangent of the library are assumed accurate to a few units in the last place."
  },
  {
   "property": "C118",
   "status": "proved",
   "theorems": [
    "WindMult.C118_run",
    "WindMult.C118_every_pixel"
   ],
   "note": "The extents of the tiles are exact in this model; their rounding is the subject of C101. Borderline pixels and tiles are excluded as in C117."
  },
  {
   "property": "C119",
   "status": "proved",
   "theorems": [
    "WindMult.C119_tile",
    "WindMult.C119_run",
    "WindMult.C119_every_pixel"
   ],
   "note": "Borderline pixels, tiles and land-cover borders are excluded by hypothesis. Pixel sizes at the rounded corner of a tile are assumed within 2^-25 of those at the exact corner; C121 proves this in the standard configuration. GDAL's look-up of land cover is not rounded itself."
  },
  {
   "property": "C120",
   "status": "proved",
   "theorems": [
    "WindMult.C120_pixel_sizes",
    "WindMult.C120_metres"
   ],
   "note": "For rasters between 2 and 45 degrees south only: near the equator the formula divides by a vanishing cosine (C73). Widths are found to 9 parts in 10^9, heights to 1 part in 10^8; the rest of the bound is interpolation beyond the corners of a block."
  },
  {
   "property": "C121",
   "status": "proved",
   "theorems": [
    "WindMult.C121_sizes",
    "WindMult.C121_tile",
    "WindMult.C121_run",
    "WindMult.C121_every_pixel"
   ],
   "note": "Borderline pixels, land-cover borders and mean pixel sizes at which a number of cells changes are excluded by hypothesis, as in C119. Only south of 2 degrees south (C120). GDAL's look-up of land cover is not rounded itself."
  },
  {
   "property": "C122",
   "status": "proved",
   "theorems": [
    "WindMult.C122_terrain",
    "WindMult.C122_shielding",
    "WindMult.C122_shipped",
    "WindMult.C122_number_sign",
    "WindMult.C122_text_category",
    "WindMult.C122_shipped_rows"
   ],
   "note": "How pandas reads a file is modelled from its documentation (C parser, comment='#', defaults); rounding of decimals to doubles is left out here (C115 onwards)."
  },
  {
   "property": "C123",
   "status": "proved",
   "theorems": [
    "WindMult.C123_read",
    "WindMult.C123_get",
    "WindMult.C123_upwind",
    "WindMult.C123_shipped",
    "WindMult.C123_inline_comment",
    "WindMult.C123_indented"
   ],
   "note": "How RawConfigParser reads a file is modelled from Python's documentation and source (default options). White space is blank, tab, carriage return; the section DEFAULT and continued values are excluded from the layouts."
  },
  {
   "property": "C124",
   "status": "proved",
   "theorems": [
    "WindMult.C124_settings",
    "WindMult.C124_run",
    "WindMult.C124_shipped"
   ],
   "note": "Exact arithmetic (rounding: C121). Text files as in C122 and C123; GDAL's rasters are parameters."
  },
  {
   "property": "C125",
   "status": "proved",
   "theorems": [
    "WindMult.C125_mirror_east_west",
    "WindMult.C125_mirror_north_south",
    "WindMult.C125_transpose"
   ],
   "note": "Exact arithmetic. root2 is any number; the transect lemma is C54."
  },
  {
   "property": "C126",
   "status": "partial",
   "theorems": [
    "WindMult.C126_mirror_east_west_partial",
    "WindMult.C126_mirror_north_south_partial",
    "WindMult.C126_transpose_partial",
    "WindMult.C126_boundary_breaks_mirror",
    "WindMult.C126_coarse_cells_break_mirror"
   ],
   "note": "False as stated (C126_boundary_breaks_mirror, C126_coarse_cells_break_mirror); the partial theorems hold for cells of at most 100 m and away from the exact sector boundaries on slopes above 3.27 degrees. Real arithmetic."
  },
  {
   "property": "C127",
   "status": "proved",
   "theorems": [
    "WindMult.C127_number",
    "WindMult.C127_long_numbers",
    "WindMult.C127_tables",
    "WindMult.C127_settings",
    "WindMult.C127_run",
    "WindMult.C127_shipped"
   ],
   "note": "How pandas converts digits to a double is an assumption stated at readDouble; Python's float is assumed correctly rounded. Borderline cases are excluded as in C121. C127_long_numbers shows that the limit on the digits is needed."
  },
  {
   "property": "C128",
   "status": "partial",
   "theorems": [
    "WindMult.C128_types_partial",
    "WindMult.C128_int32_dem",
    "WindMult.C128_large_codes",
    "WindMult.C128_false",
    "WindMult.C128_run_partial"
   ],
   "note": "The full statement is false of the code (C128_false, C128_int32_dem, C128_large_codes). Proved for 8- and 16-bit integers and float32, and int32 as land cover. That numpy raises ValueError when NaN is assigned to an integer array, also for an empty selection, is an assumption stated at tileStepTyped."
  },
  {
   "property": "C129",
   "status": "partial",
   "theorems": [
    "WindMult.C129_mirror_east_west",
    "WindMult.C129_mirror_north_south",
    "WindMult.C129_transpose_partial",
    "WindMult.C129_transpose_false"
   ],
   "note": "The mirrors are proved in full. Transposition is false of the code (C129_transpose_false) and proved for square tiles and tiles large enough for the average. The arrays are compared before clipping to the tile without buffer."
  },
  {
   "property": "C130",
   "status": "proved",
   "theorems": [
    "WindMult.C130_missing_option",
    "WindMult.C130_bad_width",
    "WindMult.C130_bad_level",
    "WindMult.C130_bad_verbose",
    "WindMult.C130_bad_table",
    "WindMult.C130_meaningless_line"
   ],
   "note": "Parsers as in C122 and C123. Texts with characters of inf, nan, true and false, underscores and characters outside ASCII are not claimed to be refused. The error of the table comes in the first tile, after the output folder has been emptied."
  },
  {
   "property": "C131",
   "status": "partial",
   "theorems": [
    "WindMult.C131_mirror_east_west_partial",
    "WindMult.C131_mirror_north_south_partial",
    "WindMult.C131_transposed_sizes"
   ],
   "note": "False for the shielding files (C131_transposed_sizes: the widths of the columns are those of rows, so the slope in degrees of mirrored ground differs). The partial theorems prove it for the terrain and topographic files and for every shielding pixel whose size equals that of its counterpart and whose ground is not exactly on a sector boundary. One tile without buffer; cells of at most 100 m (C70). Real arithmetic; the data types of the rasters are not included."
  },
  {
   "property": "C132",
   "status": "proved",
   "theorems": [
    "WindMult.C132_run",
    "WindMult.C132_settled_codes_unknown",
    "WindMult.C132_unsettled_codes_misread"
   ],
   "note": ""
  },
  {
   "property": "C133",
   "status": "proved",
   "theorems": [
    "WindMult.C133_number",
    "WindMult.C133_save_load",
    "WindMult.C133_bare_name",
    "WindMult.C133_shape_lost",
    "WindMult.C133_carriage_return"
   ],
   "note": ""
  },
  {
   "property": "C134",
   "status": "partial",
   "theorems": [
    "WindMult.C134_module_path",
    "WindMult.C134_program_version",
    "WindMult.C134_config_file",
    "WindMult.C134_not_caller",
    "WindMult.C134_levels",
    "WindMult.C134_module_name",
    "WindMult.C134_attributes_partial",
    "WindMult.C134_no_clash",
    "WindMult.C134_settings",
    "WindMult.C134_clash",
    "WindMult.C134_no_git"
   ],
   "note": "False of configurations whose names clash (C134_clash); C134_attributes_partial has the condition that they do not, and C134_no_clash a simple condition for that. The example in the documentation of fl_config_file is false, too (C134_not_caller). Paths are absolute and without links; levels below 0 and the rules of the netCDF library for names are left out."
  },
  {
   "property": "C135",
   "status": "proved",
   "theorems": [
    "WindMult.C135_outcome",
    "WindMult.C135_waits",
    "WindMult.C135_same_result",
    "WindMult.C135_again",
    "WindMult.C135_after_run",
    "WindMult.C135_hangs",
    "WindMult.C135_finishes",
    "WindMult.C135_completes",
    "WindMult.C135_run_completes"
   ],
   "note": "The folder may hold anything. Folders within the shielding folder are left out. A process that raises an exception stops; MPI may abort the others instead."
  },
  {
   "property": "C136",
   "status": "proved",
   "theorems": [
    "WindMult.C136_any_moment",
    "WindMult.C136_repeat",
    "WindMult.C136_convert_repeat"
   ],
   "note": "An interruption falls between two steps; a file that is cut off while it is written is not modelled. The folder is emptied in one step."
  },
  {
   "property": "C137",
   "status": "partial",
   "theorems": [
    "WindMult.C137_converted_partial",
    "WindMult.C137_finished_tile",
    "WindMult.C137_unfinished"
   ],
   "note": "False of the code (C137_unfinished): a run stopped after the shielding and before the topographic step of a tile leaves files of which the converter makes, with no more than an entry in the log, a GeoTIFF with topographic multiplier 1. C137_converted_partial is for tiles whose files are complete; C137_finished_tile shows that those of a finished tile are."
  },
  {
   "property": "C138",
   "status": "partial",
   "theorems": [
    "WindMult.C138_hill",
    "WindMult.C138_line_partial",
    "WindMult.C138_last_point",
    "WindMult.C138_high",
    "WindMult.C138_raster_partial"
   ],
   "note": "False at the last point of a line (C138_last_point, a consequence of C48) and for relief above 4141 m (C138_high). The partial theorems (C138_line_partial for lines, C138_raster_partial for the saved rasters, with conservatism, Tasmania factor and smoothing) leave these out and need whole metres, as the code rounds elevations down first."
  },
  {
   "property": "C139",
   "status": "partial",
   "theorems": [
    "WindMult.C139_tiles",
    "WindMult.C139_pixel_sizes",
    "WindMult.C139_tile_partial",
    "WindMult.C139_combined_partial",
    "WindMult.C139_tasmania"
   ],
   "note": "False for tiles whose corner crosses 143\u00b0 E south of 40\u00b0 S, where the program starts to apply the Tasmania factor (C139_tasmania). The partial theorems (C139_tile_partial for the files, C139_combined_partial for the GeoTIFF) leave these tiles out; C139_tiles and C139_pixel_sizes have no exception. Exact arithmetic; the names of the tiles change, as they contain the longitude."
  },
  {
   "property": "C140",
   "status": "partial",
   "theorems": [
    "WindMult.C140_codes_partial",
    "WindMult.C140_tables",
    "WindMult.C140_order",
    "WindMult.C140_zero",
    "WindMult.C140_minus_99",
    "WindMult.C140_run_partial",
    "WindMult.C140_tables_run"
   ],
   "note": "False for renumberings that move 0, which cells without land cover get (C140_zero), and for the shielding multiplier of a class renumbered to -99, which means no data there (C140_minus_99). C140_codes_partial keeps these two numbers; C140_tables and C140_order (rows that do not count) have no exception."
  },
  {
   "property": "C141",
   "status": "proved",
   "theorems": [
    "WindMult.C141_config",
    "WindMult.C141_settings",
    "WindMult.C141_order"
   ],
   "note": ""
  },
  {
   "property": "C142",
   "status": "partial",
   "theorems": [
    "WindMult.C142_terrain_shielding_partial",
    "WindMult.C142_tile_partial",
    "WindMult.C142_sea",
    "WindMult.C142_gap",
    "WindMult.C142_fraction",
    "WindMult.C142_tasmania",
    "WindMult.C142_run_partial"
   ],
   "note": "False for tiles with gaps in the elevations, which the program reads as 0 m (C142_gap), for fractions of metres, as elevations are rounded down (C142_fraction), for tiles in Tasmania, where the height above the sea counts (C142_tasmania), and for tiles at sea level throughout, which count as empty (C142_sea). C142_tile_partial covers whole metres without these tiles; C142_terrain_shielding_partial any amount, Tasmania included, for terrain and shielding. Exact arithmetic."
  },
  {
   "property": "C143",
   "status": "proved",
   "theorems": [
    "WindMult.C143_folder",
    "WindMult.C143_apart",
    "WindMult.C143_both",
    "WindMult.C143_inner_lost"
   ],
   "note": "Paths are compared as text: links and '..' are not resolved, so two spellings of one folder count as two folders. Folders of which one contains the other are excluded from C143_apart; C143_inner_lost shows what happens then."
  },
  {
   "property": "C144",
   "status": "partial",
   "theorems": [
    "WindMult.C144_map_partial",
    "WindMult.C144_crop_partial",
    "WindMult.C144_attribute_ignored",
    "WindMult.C144_no_cat",
    "WindMult.C144_stale",
    "WindMult.C144_error",
    "WindMult.C144_attribute",
    "WindMult.C144_lost"
   ],
   "note": "Partial because the claim is false of the code: the option --attribute is ignored (C144_attribute_ignored, witness C144_attribute), a shape file without the field CAT gives a map of zeros (C144_no_cat), and a missing mask goes unnoticed if an earlier cropped raster is there (C144_stale). Proved for the attribute CAT, without and with a mask (C144_map_partial, C144_crop_partial). What gdal.Warp does is an assumption stated in the model."
  },
  {
   "property": "C145",
   "status": "proved",
   "theorems": [
    "WindMult.C145_script",
    "WindMult.C145_inputs_lost",
    "WindMult.C145_no_dem",
    "WindMult.C145_on_error",
    "WindMult.C145_default",
    "WindMult.C145_shipped"
   ],
   "note": "The log file shapefile_converter.log is not modelled. That other files are left alone holds for the names given: an output that has the name of an input replaces it (C145_inputs_lost)."
  },
  {
   "property": "C146",
   "status": "proved",
   "theorems": [
    "WindMult.C146_both",
    "WindMult.C146_shipped_apart"
   ],
   "note": ""
  },
  {
   "property": "C147",
   "status": "proved",
   "theorems": [
    "WindMult.C147_tiles",
    "WindMult.C147_run",
    "WindMult.C147_edge"
   ],
   "note": ""
  },
  {
   "property": "C148",
   "status": "proved",
   "theorems": [
    "WindMult.C148_shared",
    "WindMult.C148_together",
    "WindMult.C148_results",
    "WindMult.C148_finishes",
    "WindMult.C148_completes",
    "WindMult.C148_one_folder"
   ],
   "note": ""
  },
  {
   "property": "C149",
   "status": "proved",
   "theorems": [
    "WindMult.C149_centres",
    "WindMult.C149_finer",
    "WindMult.C149_margin",
    "WindMult.C149_run"
   ],
   "note": ""
  },
  {
   "property": "C150",
   "status": "proved",
   "theorems": [
    "WindMult.C150_raster",
    "WindMult.C150_run",
    "WindMult.C150_uses_cut"
   ],
   "note": "Land-use features that overlap at a pixel centre and features shared evenly by settlement types are excluded: there the order of the features or of the search decides. C150_uses_cut shows that land-use features must not be cut. The areas are exact."
  },
  {
   "property": "C151",
   "status": "partial",
   "theorems": [
    "WindMult.C151_main_partial",
    "WindMult.C151_utilities",
    "WindMult.C151_converter",
    "WindMult.C151_tools",
    "WindMult.C151_documented",
    "WindMult.C151_tools_documented"
   ],
   "note": "Partial because the claim is false of the code: started as documented the main program stops at 'from meta import print_call' (C151_documented), and the pre-processing lacks packages that are on no list (C151_tools_documented). C151_main_partial is the exact condition. That installed packages can be imported is assumed; imports inside of functions are left out."
  },
  {
   "property": "C152",
   "status": "proved",
   "theorems": [
    "WindMult.C152_transparent",
    "WindMult.C152_log",
    "WindMult.C152_off",
    "WindMult.C152_interpolation",
    "WindMult.C152_pixel_sizes",
    "WindMult.C152_messages"
   ],
   "note": "The call rules of Python and inspect.getcallargs are modelled for parameters that may be given by position or by keyword, which are the only ones of the decorated functions. str is taken to raise no exception, and the logger too. Depths are not negative."
  },
  {
   "property": "C153",
   "status": "partial",
   "theorems": [
    "WindMult.C153_get_stat_partial",
    "WindMult.C153_not_a_text",
    "WindMult.C153_size_and_date",
    "WindMult.C153_dates",
    "WindMult.C153_order",
    "WindMult.C153_fatal"
   ],
   "note": "Partial because the claim is false of the code: fl_get_stat raises an IOError, not the documented TypeError, for what is not a text, and closes a file whose descriptor it is given (C153_not_a_text). What the system knows about files and the local time are parameters; strftime is modelled for the directives of the default format."
  },
  {
   "property": "C154",
   "status": "partial",
   "theorems": [
    "WindMult.C154_content",
    "WindMult.C154_range_partial",
    "WindMult.C154_range_exceeded",
    "WindMult.C154_create_var"
   ],
   "note": "Partial because the claim is false of the code: actual_range is that of the values before they are rounded to float32 (C154_range_exceeded), and nc_create_var cannot store arrays (C154_create_var). The rounding is any monotone function in C154_range_partial. The attributes that are fixed texts are not modelled."
  },
  {
   "property": "C155",
   "status": "partial",
   "theorems": [
    "WindMult.C155_save_partial",
    "WindMult.C155_stops",
    "WindMult.C155_no_use",
    "WindMult.C155_same_name",
    "WindMult.C155_cropping"
   ],
   "note": "Partial because the claim is false of the code: cropping can leave geometries that are not polygons, at which saving stops (C155_stops, C155_cropping), and with one name for both attributes the land use is lost (C155_same_name). A geometry counts as polygonal if it is the closure of its interior; that fiona checks names and geometry type of a record is an assumption. Types and widths of the values are not checked in the model."
  },
  {
   "property": "C156",
   "status": "proved",
   "theorems": [
    "WindMult.C156_same",
    "WindMult.C156_status",
    "WindMult.C156_scatter",
    "WindMult.C156_program"
   ],
   "note": "How mpi4py answers with one process is an assumption (oneProcessRun). The parts of the program that do not call the communicator are arbitrary functions of a state. What several processes do is C93-C95. MPI.Status() fails without mpi4py (C156_status); the program asks for it only with several processes."
  }
 ]
}
