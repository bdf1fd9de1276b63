{
 "C01": "Every pixel is in some tile; the tile limits are defined exactly for the valid indices.",
 "C02": "False in general: the last column/row can lie inside the buffer-trimmed core of its predecessor. Exact criterion proved (iff), disjointness proved under it, negation with a 21-pixel witness.",
 "C04": "Distinct names for coordinates with at most the digits kept; collisions (coordinates that differ only in a truncated digit) proved by witness.",
 "C24": "Exact failure criterion, two reachable witnesses, and absence for grids of at most 200 m.",
 "C28": "Proved when the lag is at most the tile height; for shorter tiles it is false (witness).",
 "C37": "False: the kernels skip the centre cell. Exact NaN criterion proved for grids up to 100 m, preservation for coarser grids, negation with witness.",
 "C70": "Proved for grids up to 100 m; false above (in-place update), compounding law and negation proved.",
 "C48": "False at the last point of the line (index -1 write). Exact last-point value, negation with a 7-point witness, locality at all other points.",
 "C53": "False on edge rows/columns (zero padding). Interior cells proved; everywhere at least 4/9 of the minimum and at most the maximum; negation for all 8 directions.",
 "C72": "Exact characterisation (IsGreatest); the last point is covered by C48_last_point.",
 "C17": "False for non-square tiles (transposed replacement array) and when ms_n or ms_e is missing; proved for square tiles with both present; witnesses for each failure.",
 "C19": "False: the raw product of fill values is stored. Proved where no input is a fill value. See C75 for NaN, which is what the pipeline writes.",
 "C57": "False: the grid is transposed (witness). For square rasters it is exactly the transpose of the right grid, so its mean is right; the slope and aspect, which use the grid cell by cell, are computed with the sizes of other pixels.",
 "C63": "False: the early return writes only the first variable. Proved for one variable; later variables provably never written.",
 "C76": "Absolute output directories: proved for every starting directory. Relative ones: proved to fail for every starting directory as soon as one tile is not empty.",
 "C86": "False: the reach of a hill can exceed the buffer (witness with a 100 m escarpment). Proved when the buffer less one cell is at least 63.2 times the relief; the cell width and the Tasmania rule remain those of the tile.",
 "C94": "Needs that the rasters of a tile have one size, square where there is no land cover; without it no run completes (proved). An exception in one process is taken to leave the others waiting.",
 "C96": "Tiles that are neither empty nor meet the conditions of C81-C85 are excluded by hypothesis; C97 gives concrete conditions.",
 "C100": "Geometries are point sets with Lebesgue measure; GDAL's rule for pixel centres on a polygon boundary and the repair of invalid polygons are not modelled.",
 "C101": "Overflow, underflow and the arithmetic inside GDAL are not modelled. Rounding to 53 digits with ties to even is proved to be an instance.",
 "C102": "Overflow, underflow, NaN and the rounding inside np.log are not modelled; the error of the initial multipliers is a parameter. Rounding to p digits with ties to even is proved to be an instance.",
 "C103": "Both runs have to meet the conditions of C96; the checksum (GDAL) is a parameter assumed to depend on the cells only.",
 "C104": "Exact arithmetic. A shielding value of 0 or below is excluded only where negative; both runs have to meet the conditions of C96.",
 "C106": "False for several processes that find the folder missing (C106_race); proved if the folder exists beforehand or for one process.",
 "C107": "False for a second call (C107_second_call); proved for the first call, and what later calls do.",
 "C108": "The spacing is a number of the format; no limits on the exponent.",
 "C109": "Points where a hill is within a few units in the last place of a jump of the formula are excluded (ClearHill), and the last point of the line (C48).",
 "C110": "Cell size and square root of 2 are not rounded separately: the computed spacing is a parameter. The nine terms of the smoothing are added in a fixed order; scipy may use an FFT for some sizes.",
 "C111": "Overflow and underflow are not modelled; the error of the slope (eta) is a parameter and the aspect is assumed not to move to another sector (both are proved in C112). The convolution is a direct sum in a fixed order.",
 "C112": "hypot, arctan and arctan2 are assumed correct to one unit in the last place. The error of the cell sizes in metres is a parameter. Overflow and underflow are not modelled.",
 "C113": "np.log is assumed correct to one unit in the last place for positive arguments; the parsed roughness length is assumed correct to two units. Overflow and underflow are not modelled.",
 "C114": "The order of additions of np.mean is a parameter of bounded depth. The pixel sizes before storing may carry a relative error of 2^-25, well above the error of double precision; how they are computed is the subject of C55 to C57 and C87.",
 "C115": "Assumptions of C113 and C114; tiles whose height equals the lag, and shorter ones, are excluded as in C69.",
 "C116": "The computed spacing is a number of the format. Points where a hill is within a few eps of a jump of the formula are excluded (ClearHill).",
 "C117": "Pixels where a hill, a heading or a cell count is within rounding of a jump of the formulas are excluded (ClearPixel, AsRead); log, sine, cosine and arctangent of the library are assumed accurate to a few units in the last place.",
 "C118": "The extents of the tiles are exact in this model; their rounding is the subject of C101. Borderline pixels and tiles are excluded as in C117.",
 "C119": "Borderline pixels, tiles and land-cover borders are excluded by hypothesis. Pixel sizes at the rounded corner of a tile are assumed within 2^-25 of those at the exact corner; C121 proves this in the standard configuration. GDAL's look-up of land cover is not rounded itself.",
 "C120": "For rasters between 2 and 45 degrees south only: near the equator the formula divides by a vanishing cosine (C73). Widths are found to 9 parts in 10^9, heights to 1 part in 10^8; the rest of the bound is interpolation beyond the corners of a block.",
 "C121": "Borderline pixels, land-cover borders and mean pixel sizes at which a number of cells changes are excluded by hypothesis, as in C119. Only south of 2 degrees south (C120). GDAL's look-up of land cover is not rounded itself.",
 "C122": "How pandas reads a file is modelled from its documentation (C parser, comment='#', defaults); rounding of decimals to doubles is left out here (C115 onwards).",
 "C123": "How RawConfigParser reads a file is modelled from Python's documentation and source (default options). White space is blank, tab, carriage return; the section DEFAULT and continued values are excluded from the layouts.",
 "C124": "Exact arithmetic (rounding: C121). Text files as in C122 and C123; GDAL's rasters are parameters.",
 "C125": "Exact arithmetic. root2 is any number; the transect lemma is C54.",
 "C126": "False as stated (C126_boundary_breaks_mirror, C126_coarse_cells_break_mirror); the partial theorems hold for cells of at most 100 m and away from the exact sector boundaries on slopes above 3.27 degrees. Real arithmetic.",
 "C127": "How pandas converts digits to a double is an assumption stated at readDouble; Python's float is assumed correctly rounded. Borderline cases are excluded as in C121. C127_long_numbers shows that the limit on the digits is needed.",
 "C128": "The full statement is false of the code (C128_false, C128_int32_dem, C128_large_codes). Proved for 8- and 16-bit integers and float32, and int32 as land cover. That numpy raises ValueError when NaN is assigned to an integer array, also for an empty selection, is an assumption stated at tileStepTyped.",
 "C129": "The mirrors are proved in full. Transposition is false of the code (C129_transpose_false) and proved for square tiles and tiles large enough for the average. The arrays are compared before clipping to the tile without buffer.",
 "C130": "Parsers as in C122 and C123. Texts with characters of inf, nan, true and false, underscores and characters outside ASCII are not claimed to be refused. The error of the table comes in the first tile, after the output folder has been emptied.",
 "C131": "False for the shielding files (C131_transposed_sizes: the widths of the columns are those of rows, so the slope in degrees of mirrored ground differs). The partial theorems prove it for the terrain and topographic files and for every shielding pixel whose size equals that of its counterpart and whose ground is not exactly on a sector boundary. One tile without buffer; cells of at most 100 m (C70). Real arithmetic; the data types of the rasters are not included.",
 "C134": "False of configurations whose names clash (C134_clash); C134_attributes_partial has the condition that they do not, and C134_no_clash a simple condition for that. The example in the documentation of fl_config_file is false, too (C134_not_caller). Paths are absolute and without links; levels below 0 and the rules of the netCDF library for names are left out.",
 "C135": "The folder may hold anything. Folders within the shielding folder are left out. A process that raises an exception stops; MPI may abort the others instead.",
 "C136": "An interruption falls between two steps; a file that is cut off while it is written is not modelled. The folder is emptied in one step.",
 "C137": "False of the code (C137_unfinished): a run stopped after the shielding and before the topographic step of a tile leaves files of which the converter makes, with no more than an entry in the log, a GeoTIFF with topographic multiplier 1. C137_converted_partial is for tiles whose files are complete; C137_finished_tile shows that those of a finished tile are.",
 "C138": "False at the last point of a line (C138_last_point, a consequence of C48) and for relief above 4141 m (C138_high). The partial theorems (C138_line_partial for lines, C138_raster_partial for the saved rasters, with conservatism, Tasmania factor and smoothing) leave these out and need whole metres, as the code rounds elevations down first.",
 "C139": "False for tiles whose corner crosses 143° E south of 40° S, where the program starts to apply the Tasmania factor (C139_tasmania). The partial theorems (C139_tile_partial for the files, C139_combined_partial for the GeoTIFF) leave these tiles out; C139_tiles and C139_pixel_sizes have no exception. Exact arithmetic; the names of the tiles change, as they contain the longitude.",
 "C140": "False for renumberings that move 0, which cells without land cover get (C140_zero), and for the shielding multiplier of a class renumbered to -99, which means no data there (C140_minus_99). C140_codes_partial keeps these two numbers; C140_tables and C140_order (rows that do not count) have no exception.",
 "C142": "False for tiles with gaps in the elevations, which the program reads as 0 m (C142_gap), for fractions of metres, as elevations are rounded down (C142_fraction), for tiles in Tasmania, where the height above the sea counts (C142_tasmania), and for tiles at sea level throughout, which count as empty (C142_sea). C142_tile_partial covers whole metres without these tiles; C142_terrain_shielding_partial any amount, Tasmania included, for terrain and shielding. Exact arithmetic.",
 "C143": "Paths are compared as text: links and '..' are not resolved, so two spellings of one folder count as two folders. Folders of which one contains the other are excluded from C143_apart; C143_inner_lost shows what happens then.",
 "C144": "Partial because the claim is false of the code: the option --attribute is ignored (C144_attribute_ignored, witness C144_attribute), a shape file without the field CAT gives a map of zeros (C144_no_cat), and a missing mask goes unnoticed if an earlier cropped raster is there (C144_stale). Proved for the attribute CAT, without and with a mask (C144_map_partial, C144_crop_partial). What gdal.Warp does is an assumption stated in the model.",
 "C145": "The log file shapefile_converter.log is not modelled. That other files are left alone holds for the names given: an output that has the name of an input replaces it (C145_inputs_lost).",
 "C151": "Partial because the claim is false of the code: started as documented the main program stops at 'from meta import print_call' (C151_documented), and the pre-processing lacks packages that are on no list (C151_tools_documented). C151_main_partial is the exact condition. That installed packages can be imported is assumed; imports inside of functions are left out.",
 "C150": "Land-use features that overlap at a pixel centre and features shared evenly by settlement types are excluded: there the order of the features or of the search decides. C150_uses_cut shows that land-use features must not be cut. The areas are exact.",
 "C152": "The call rules of Python and inspect.getcallargs are modelled for parameters that may be given by position or by keyword, which are the only ones of the decorated functions. str is taken to raise no exception, and the logger too. Depths are not negative.",
 "C153": "Partial because the claim is false of the code: fl_get_stat raises an IOError, not the documented TypeError, for what is not a text, and closes a file whose descriptor it is given (C153_not_a_text). What the system knows about files and the local time are parameters; strftime is modelled for the directives of the default format.",
 "C154": "Partial because the claim is false of the code: actual_range is that of the values before they are rounded to float32 (C154_range_exceeded), and nc_create_var cannot store arrays (C154_create_var). The rounding is any monotone function in C154_range_partial. The attributes that are fixed texts are not modelled.",
 "C155": "Partial because the claim is false of the code: cropping can leave geometries that are not polygons, at which saving stops (C155_stops, C155_cropping), and with one name for both attributes the land use is lost (C155_same_name). A geometry counts as polygonal if it is the closure of its interior; that fiona checks names and geometry type of a record is an assumption. Types and widths of the values are not checked in the model.",
 "C156": "How mpi4py answers with one process is an assumption (oneProcessRun). The parts of the program that do not call the communicator are arbitrary functions of a state. What several processes do is C93-C95. MPI.Status() fails without mpi4py (C156_status); the program asks for it only with several processes."
}