{"id": "C01", "title": "Tiles cover the whole raster", "statement": "Every pixel of the input raster lies inside the unbuffered limits of at least one tile returned by the tile grid, so no part of the map is left without a multiplier.", "quantifier": "every raster size, every positive pixel size, every non-negative upwind buffer, every pixel", "why_tests_cant": "A test fixes one raster; the limits are reconstructed from clipped buffered limits, so the claim depends on every ratio of raster size, tile size and buffer.", "anchors": ["all_multipliers.py: TileGrid.__init__, TileGrid.tile_grid, TileGrid.get_gridlimit"]}
{"id": "C02", "title": "Tiles do not overlap", "statement": "No pixel lies inside the unbuffered limits of two different tiles. (The code violates this for some raster sizes: the exact condition on raster size, tile size and buffer under which it holds is part of the claim.)", "quantifier": "every raster size, pixel size and buffer; every pair of tiles; every pixel", "why_tests_cant": "Overlap appears only when the last row/column of tiles is not wider than the buffer or the buffer is at least a tile wide; a sample of rasters does not find the boundary.", "anchors": ["all_multipliers.py: TileGrid.get_gridlimit"]}
{"id": "C03", "title": "Buffered limits surround the unbuffered ones and stay in the raster", "statement": "For every tile the buffered limits are inside the raster, contain the unbuffered limits, and extend at least `buffer` cells (or to the raster edge) beyond the tile's own cells on each side.", "quantifier": "every raster size, pixel size, buffer; every tile", "why_tests_cant": "Clipping at both raster edges interacts with the buffer; needs all sizes.", "anchors": ["all_multipliers.py: TileGrid.tile_grid, TileGrid.get_gridlimit_buffer, TileGrid.get_gridlimit"]}
{"id": "C04", "title": "Different tiles get different names", "statement": "Two different tiles never get the same name (the name keys every intermediate and output file), provided the tiles do not overlap and coordinates have at most five integer digits. When the buffer is at least one tile wide two tiles do share a name.", "quantifier": "every tile grid meeting the condition; every pair of tiles", "why_tests_cant": "The name is a truncated decimal rendering of a float; collisions depend on coordinates, not on code paths.", "anchors": ["all_multipliers.py: TileGrid.get_startcord, TileGrid.get_tilename"]}
{"id": "C05", "title": "Tile extents are the geographic corners of the tile's limits", "statement": "The extent handed out for a tile (with or without buffer) has the longitude/latitude of the pixel corners given by that tile's limits in the raster's geotransform, is non-empty, and the buffered extent contains the unbuffered one.", "quantifier": "every geotransform with positive pixel sizes, every tile", "why_tests_cant": "Sign flips of latitude are easy to get right for one hemisphere only.", "anchors": ["all_multipliers.py: TileGrid.get_tile_extent, TileGrid.get_tile_extent_buffer"]}
{"id": "C06", "title": "Clipping a buffered tile returns exactly the tile's own cells", "statement": "Clipping an array computed on the buffered tile with the unbuffered extent returns the block of cells of the unbuffered limits, in order, with as many rows/columns as the latitude/longitude vectors saved beside it; this is insensitive to coordinate errors below an eighth of a pixel (floating-point noise).", "quantifier": "every tile grid, every tile, every array content, every perturbation of the coordinates below the bound", "why_tests_cant": "Rounding of quotients of coordinates; one extent tests one rounding.", "anchors": ["utilities/nctools.py: clip_array, get_lat_lon", "all_multipliers.py: TileGrid.get_tile_extent"]}
{"id": "C07", "title": "Saved coordinates are the pixel centres", "statement": "The longitude and latitude vectors saved with a tile are the centres of the cells of that tile in the input raster's geotransform: longitudes strictly increase, latitudes strictly decrease, all strictly inside the extent, one pixel apart.", "quantifier": "every tile grid, every tile, every cell", "why_tests_cant": "Half-pixel and orientation errors show only against the global raster.", "anchors": ["utilities/nctools.py: get_lat_lon"]}
{"id": "C08", "title": "Every tile is computed exactly once, whatever the schedule", "statement": "When the parallel tile computation finishes, the multiset of tiles on which the multipliers were computed equals the multiset of tiles handed in, for any number of workers and any arrival order of results; at no moment has a tile been computed twice.", "quantifier": "every number of tiles, every number of workers, every interleaving of master and workers", "why_tests_cant": "Interleavings of message arrivals cannot be enumerated by tests.", "anchors": ["all_multipliers.py: Multipliers.parallelise_on_tiles"]}
{"id": "C09", "title": "The parallel run always terminates without deadlock", "statement": "If no worker fails, every execution of the master/worker exchange is finite, and it can only stop when the master has returned, every worker has returned and no message is left undelivered.", "quantifier": "every number of tiles (including fewer tiles than workers and none), every number of workers, every schedule", "why_tests_cant": "Deadlocks depend on schedules and on the number of idle workers.", "anchors": ["all_multipliers.py: Multipliers.parallelise_on_tiles"]}
{"id": "C10", "title": "A failed worker is never reported as success", "statement": "If a worker dies while computing a tile, the master never returns from the tile computation: the run hangs, it never goes on to the conversion step with tiles missing.", "quantifier": "every crash point of every worker, every schedule", "why_tests_cant": "Crash points times schedules.", "anchors": ["all_multipliers.py: Multipliers.parallelise_on_tiles"]}
{"id": "C11", "title": "Serial fallback computes the same tiles as a parallel run", "statement": "With one process the tiles are computed one after the other in the given order, each exactly once, so the serial run and every parallel run compute the same multiset of tiles.", "quantifier": "every tile list, every number of workers, every schedule", "why_tests_cant": "Equivalence of two programs over all schedules.", "anchors": ["all_multipliers.py: Multipliers.parallelise_on_tiles"]}
{"id": "C12", "title": "Temporary rasters are removed and outputs survive", "statement": "After a completed run no temporary DEM or land-cover raster is left in the output directory and every multiplier file that was written is still there, whatever the order in which tiles (with distinct names) were processed and whichever tiles were empty.", "quantifier": "every list of tiles with distinct names, every pattern of empty tiles, every processing order", "why_tests_cant": "Histories of file creation and removal over all tile orders.", "anchors": ["all_multipliers.py: Multipliers.cut_dem, Multipliers.multipliers_calculate", "shielding/shield_mult.py: convo_combine"]}
{"id": "C13", "title": "Scattered conversion work is a partition of the tiles", "statement": "The strided slices handed to the ranks for conversion together contain every tile exactly once, and the sizes of two ranks' shares differ by at most one.", "quantifier": "every list of tiles, every number of ranks", "why_tests_cant": "Strided slicing over all lengths and sizes.", "anchors": ["utilities/mpi_runner.py: parallelise_convert_on_tiles"]}
{"id": "C14", "title": "The virtual raster lists every converted tile exactly once", "statement": "The list of files handed to the virtual-raster builder contains the GeoTIFF of every tile found in the shielding directory exactly once, in both the all-direction and the maximum mosaic, for any number of ranks.", "quantifier": "every directory listing, every number of ranks", "why_tests_cant": "Depends on the gather/reduce over all ranks.", "anchors": ["utilities/mpi_runner.py: parallelise_convert_on_tiles", "utilities/convert.py: Converter.run"]}
{"id": "C15", "title": "Producer and consumer agree on file names", "statement": "For every tile name without underscore, the names under which the terrain, shielding and topographic steps save a direction are exactly the names the converter opens, the tile name is recovered from the shielding directory listing, and the direction recorded in the file metadata is the direction computed.", "quantifier": "every tile name, every direction, every multiplier", "why_tests_cant": "String surgery (splitext, slices, split) must be right for every name, including names with several dots.", "anchors": ["terrain/terrain_mult.py: terrain", "shielding/shield_mult.py: convo_combine", "topographic/topo_mult.py: topomult", "utilities/convert.py: Converter.process_tile", "utilities/mpi_runner.py: parallelise_convert_on_tiles", "utilities/nctools.py: save_multiplier"]}
{"id": "C16", "title": "Each GeoTIFF band is the product of the three multipliers of its direction", "statement": "In the converted tile the band described as direction d holds, in every cell, the product of the shielding, terrain and topographic multiplier of direction d in that cell; a missing terrain or topographic file counts as 1.", "quantifier": "every tile content, every direction, every cell, every subset of missing files", "why_tests_cant": "All contents and all subsets of missing files.", "anchors": ["utilities/convert.py: Converter.process_tile"]}
{"id": "C17", "title": "A missing multiplier file does not stop the conversion", "statement": "A tile whose terrain or topographic file is missing is still converted. (Violated for non-square tiles: the replacement array is transposed.)", "quantifier": "every tile shape, every subset of missing files", "why_tests_cant": "Only non-square tiles fail; the repository's fixture is square.", "anchors": ["utilities/convert.py: Converter.process_tile"]}
{"id": "C18", "title": "The maximum raster dominates all directions", "statement": "In the maximum raster each cell is greater than or equal to the cell of every direction band of the same tile and equal to one of them.", "quantifier": "every tile content, every cell, every direction", "why_tests_cant": "All contents.", "anchors": ["utilities/convert.py: Converter.process_max_tile"]}
{"id": "C19", "title": "No-data stays no-data in the product", "statement": "A cell that is no-data (-9999) in one of the three multipliers is no-data (-9999) in the product band. (Violated: the raw product of the fill value is written.)", "quantifier": "every cell value of the other multipliers", "why_tests_cant": "The written value depends on the other two multipliers; only some values expose it.", "anchors": ["utilities/convert.py: Converter.process_tile"]}
{"id": "C20", "title": "The terrain average reads only existing cells strictly upwind", "statement": "For every cell and direction the terrain averaging reads only cells inside the raster (no negative index wrapping round), all lying exactly in the upwind direction, at distances lag+1 ... lag+width.", "quantifier": "every raster size, every cell, every direction, every averaging width and lag", "why_tests_cant": "Index arithmetic for eight directions over all sizes.", "anchors": ["terrain/terrain_mult.py: convo", "utilities/value_lookup.py: ALL_NEIGHB, POINT_R, POINT_C"]}
{"id": "C21", "title": "The terrain multiplier is the mean of the available upwind cells", "statement": "The convolved value of a cell is the arithmetic mean of the initial multipliers over all existing upwind cells at distances lag+1 ... lag+width, and the cell's own initial value when there is none.", "quantifier": "every raster, cell, direction, averaging width >= 1, lag >= 0", "why_tests_cant": "A functional specification over all rasters.", "anchors": ["terrain/terrain_mult.py: convo"]}
{"id": "C22", "title": "Terrain averaging stays in range and keeps uniform terrain", "statement": "The averaged multiplier lies between the minimum and maximum initial multiplier of the raster; a uniform raster is unchanged.", "quantifier": "every raster, direction, width, lag", "why_tests_cant": "All contents.", "anchors": ["terrain/terrain_mult.py: convo"]}
{"id": "C23", "title": "Terrain multipliers are seamless across tiles", "statement": "If the tile buffer is at least lag+width cells, then averaging on the buffered tile gives, on every cell of the tile, the same value as averaging on the whole raster.", "quantifier": "every raster, every tile of every tile grid, every direction, width and lag with lag+width <= buffer", "why_tests_cant": "Equality of a tiled and an untiled computation over all tilings.", "anchors": ["all_multipliers.py: TileGrid", "terrain/terrain_mult.py: convo"]}
{"id": "C24", "title": "The terrain average fails exactly when its width is zero and a neighbour exists", "statement": "The terrain averaging raises ZeroDivisionError exactly when the averaging width is zero and some cell has an upwind cell beyond the lag; otherwise it returns. The widths computed from the grid are zero for coarse grids in the diagonal directions, so the failure is reachable.", "quantifier": "every raster size, direction, width, lag; every grid width", "why_tests_cant": "The fixture grids are fine; coarse grids are a whole input region.", "anchors": ["terrain/terrain_mult.py: terrain, convo"]}
{"id": "C25", "title": "The eight terrain directions are mirror images of each other", "statement": "Mirroring the raster east-west (north-south, or transposing it) and exchanging the corresponding directions mirrors the terrain multiplier.", "quantifier": "every raster, direction, width, lag", "why_tests_cant": "Symmetry over all rasters.", "anchors": ["terrain/terrain_mult.py: convo", "utilities/value_lookup.py"]}
{"id": "C26", "title": "Terrain reclassification follows the table", "statement": "Each cell gets the multiplier of the last table row with its category and 0 when no row has its category; a raster with no known category produces no terrain output.", "quantifier": "every raster, every table including duplicate categories", "why_tests_cant": "All tables.", "anchors": ["terrain/terrain_mult.py: terrain_class2mz_orig, terrain"]}
{"id": "C27", "title": "Rougher terrain gives a lower initial multiplier", "statement": "On roughness lengths for which the formula is defined, the initial terrain multiplier strictly decreases with roughness length; it is 0.704 at 1 m, 1.1048 at 0.002 m, 0.7655 at 0.2 m and 0.681 at 2 m (each within 0.0005).", "quantifier": "every pair of roughness lengths", "why_tests_cant": "Monotonicity over the reals.", "anchors": ["terrain/terrain_mult.py: terrain_class2mz_orig"]}
{"id": "C28", "title": "No-data terrain cells are no-data in every terrain output", "statement": "A cell without terrain class is NaN in the terrain multiplier of every direction. (Violated when the tile is shorter than the lag distance: it is written as 1.0.)", "quantifier": "every raster, direction, grid width", "why_tests_cant": "Two code paths; only tiny tiles take the second.", "anchors": ["terrain/terrain_mult.py: terrain"]}
{"id": "C29", "title": "Aspect classes are the eight compass sectors", "statement": "Every aspect from 0 to 360 degrees gets exactly the class of the compass direction whose bearing is within 22.5 degrees of it; anything else (NaN, out of range) gets class 9.", "quantifier": "every real aspect value", "why_tests_cant": "Boundaries of nine intervals over the reals.", "anchors": ["shielding/shield_mult.py: reclassify_aspect", "utilities/value_lookup.py: DIRE_ASPECT"]}
{"id": "C30", "title": "The slope correction touches exactly one wind direction", "statement": "For a given cell with an aspect in 0..360, among the eight wind directions exactly one is affected by the cell's slope; for all others the shielding value does not depend on the slope.", "quantifier": "every aspect, slope, shielding value", "why_tests_cant": "Quantifies over all values for eight directions.", "anchors": ["shielding/shield_mult.py: combine, reclassify_aspect", "utilities/value_lookup.py: DIRE_ASPECT"]}
{"id": "C31", "title": "Shielding kernels are averaging kernels over the upwind sector", "statement": "For each direction and each size >= 1 the kernel has non-negative entries summing to 1, zero at its centre, and after convolution weights only cells in the upwind direction.", "quantifier": "every kernel size, every direction", "why_tests_cant": "All sizes; tests fix size 3.", "anchors": ["shielding/shield_mult.py: init_kern, init_kern_diag, kern_w, kern_e, kern_n, kern_s, kern_ne, kern_nw, kern_sw, kern_se"]}
{"id": "C32", "title": "Smoothed shielding stays in range", "statement": "Convolving initial shielding values from an interval containing 1 gives values in the same interval; an unshielded raster (all 1) stays unshielded up to and including its edges.", "quantifier": "every raster, direction, kernel size", "why_tests_cant": "All contents.", "anchors": ["shielding/shield_mult.py: blur_image, convo_combine"]}
{"id": "C33", "title": "Shielding convolution is seamless across tiles", "statement": "If the tile buffer is at least the kernel size, the convolution on the buffered tile equals the convolution on the whole raster on every cell of the tile.", "quantifier": "every raster, tile grid, tile, direction, kernel size <= buffer", "why_tests_cant": "Equality of tiled and untiled computation over all tilings.", "anchors": ["shielding/shield_mult.py: blur_image", "all_multipliers.py: TileGrid"]}
{"id": "C34", "title": "Shielding multiplier is bounded and monotone", "statement": "The final shielding multiplier is the initial value, moved towards 1 by the slope weight (0 below 3.27 degrees, 1 from 12.30 degrees, linear between) where the ground falls towards the wind direction, then times 0.9 below 0.9 and squared from 0.9 on. For initial shielding in [0,1] the final shielding multiplier is in [0,1], never above the slope-adjusted value, non-decreasing in the initial shielding value and in the slope, and continuous at the 0.9, 3.27 and 12.30 thresholds.", "quantifier": "every shielding value, slope, aspect, direction", "why_tests_cant": "Piecewise real function over its whole domain.", "anchors": ["shielding/shield_mult.py: combine"]}
{"id": "C35", "title": "Steep slopes facing the wind remove shielding", "statement": "A data cell whose slope is at least 12.30 degrees and whose aspect faces the wind has shielding multiplier exactly 1; a cell with slope at most 3.27 degrees is not affected by slope.", "quantifier": "every shielding value, slope, aspect, direction", "why_tests_cant": "Over the reals.", "anchors": ["shielding/shield_mult.py: combine"]}
{"id": "C36", "title": "Shielding no-data is preserved by the slope correction", "statement": "The slope/aspect step returns NaN exactly in the cells that were NaN before it.", "quantifier": "every array", "why_tests_cant": "All contents, including sentinel collisions with -99.", "anchors": ["shielding/shield_mult.py: combine"]}
{"id": "C37", "title": "No-data land cover is no-data in the shielding output", "statement": "A no-data land-cover cell is NaN in the shielding multiplier. (Violated: the kernels skip the centre cell, so the hole moves downwind.)", "quantifier": "every raster, direction, kernel size", "why_tests_cant": "Depends on neighbourhood content.", "anchors": ["shielding/shield_mult.py: terrain_class2ms_orig, convo_combine, blur_image"]}
{"id": "C38", "title": "Initial shielding follows the table", "statement": "Each land-cover cell gets the shielding of the last table row with its category divided by 100, and 1 when no row matches.", "quantifier": "every raster, every table", "why_tests_cant": "All tables.", "anchors": ["shielding/shield_mult.py: terrain_class2ms_orig"]}
{"id": "C39", "title": "Aspect is the downslope compass heading and slope the steepness", "statement": "In every raster of elevations, slope and aspect class of a cell are those of the steepness and heading of the fall given by the weighted elevation differences around it; the slope is unknown exactly if the cell or a neighbour is. For a non-flat cell the computed aspect is the compass heading (clockwise from north) of the downslope direction and lies in [0,360); the slope in degrees is the angle whose tangent is the gradient norm and lies in [0,90).", "quantifier": "every raster and cell; every gradient", "why_tests_cant": "Trigonometric identity over the reals, four quadrants.", "anchors": ["shielding/shield_mult.py: get_slope_aspect"]}
{"id": "C40", "title": "Slope and aspect do not depend on the datum", "statement": "Adding a constant to the elevation changes neither slope nor aspect, and on a planar surface the interior slope equals the plane's gradient.", "quantifier": "every elevation raster, every constant, every plane", "why_tests_cant": "All rasters.", "anchors": ["shielding/shield_mult.py: get_slope_aspect"]}
{"id": "C41", "title": "Paths visit every cell exactly once per direction", "statement": "For each of the eight directions the paths started from the computed boundary positions visit every cell of the raster exactly once, so every cell gets its topographic multiplier from exactly one line.", "quantifier": "every raster size, every direction, every cell", "why_tests_cant": "All sizes; float index arithmetic.", "anchors": ["topographic/make_path.py: make_path", "topographic/topo_mult.py: topomult"]}
{"id": "C42", "title": "Paths run downwind in straight lines from edge to edge", "statement": "A path stays inside the raster, consecutive cells are neighbours in the wind direction, and it starts and ends at the raster boundary.", "quantifier": "every raster size, direction, start", "why_tests_cant": "All sizes.", "anchors": ["topographic/make_path.py: make_path"]}
{"id": "C43", "title": "Ridge finding returns exactly the local maxima", "statement": "On a line that is not flat the ridges are exactly the positions reached by a strict rise (or the line start, unless it is a plateau followed by a rise) and not followed by a rise, in increasing order and never adjacent; a flat line has none.", "quantifier": "every elevation line of every length", "why_tests_cant": "All lines; index surgery on boundary cases.", "anchors": ["topographic/findpeaks.py: findpeaks"]}
{"id": "C44", "title": "Valley finding is ridge finding on the inverted, reversed line", "statement": "Valleys are exactly the positions followed by a strict rise (or the line end, unless it is a plateau preceded by a rise) and not preceded by a rise, in increasing order.", "quantifier": "every elevation line of every length", "why_tests_cant": "All lines.", "anchors": ["topographic/findpeaks.py: findvalleys"]}
{"id": "C45", "title": "Every ridge is paired with the foot of the rise that leads to it", "statement": "For every ridge the line calculation uses, the valley it is paired with exists, lies strictly before it, and elevation strictly increases from that valley to that ridge; hence no index error and no division by zero can occur.", "quantifier": "every elevation line of every length", "why_tests_cant": "Alternation of ridges and valleys is an induction over the line.", "anchors": ["topographic/multiplier_calc.py: multiplier_calc", "topographic/findpeaks.py"]}
{"id": "C46", "title": "Line multipliers lie between 1 and 1.71", "statement": "For every elevation line and positive spacing the topographic multiplier of every point is at least 1 and at most 1.71.", "quantifier": "every elevation line, every positive spacing", "why_tests_cant": "Piecewise rational function of an arbitrary line.", "anchors": ["topographic/multiplier_calc.py: multiplier_calc", "topographic/mh.py: mh_calc"]}
{"id": "C47", "title": "The escarpment factor is between 0.5 and 3", "statement": "The escarpment factor lies in [0.5, 3]; it is 1 for a ridge at the end of the line and for a symmetric hill, 2.5 for a level plateau behind the ridge.", "quantifier": "every line, ridge and valley", "why_tests_cant": "Over all lines.", "anchors": ["topographic/mh.py: escarpment_factor"]}
{"id": "C48", "title": "A hill acts only on its own neighbourhood", "statement": "A hill changes the multiplier only of points less than L2 before its ridge or less than escarpment-factor x L2 behind it. (Violated: a hill close to the start of the line also writes the last point of the line.)", "quantifier": "every line, ridge, valley, spacing, point", "why_tests_cant": "The wrap-round write happens only for hills near the line start.", "anchors": ["topographic/mh.py: mh_calc"]}
{"id": "C49", "title": "Flat and falling lines have multiplier 1", "statement": "On a line that never rises every multiplier is exactly 1; hills lower than 10 m or flatter than 0.05 leave the line at 1.", "quantifier": "every line", "why_tests_cant": "All lines.", "anchors": ["topographic/multiplier_calc.py: multiplier_calc", "topographic/mh.py: mh_calc"]}
{"id": "C50", "title": "Topographic multipliers do not depend on the datum", "statement": "Raising a whole elevation line by a whole number of metres leaves its multipliers unchanged.", "quantifier": "every line, every integer offset, every spacing", "why_tests_cant": "All lines.", "anchors": ["topographic/multiplier_calc.py: multiplier_calc"]}
{"id": "C51", "title": "Removing conservatism keeps order and range", "statement": "The conservatism correction maps multipliers in [1, 1.71] into [1, 1.539], never increases a value, is non-decreasing, continuous in the multiplier, and leaves values <= 1 unchanged.", "quantifier": "every value", "why_tests_cant": "Over the reals.", "anchors": ["topographic/topo_mult.py: remove_conservatism"]}
{"id": "C52", "title": "The Tasmania factor only raises high ground", "statement": "The Tasmania factor multiplies exactly the cells above 500 m by 1+0.00015*elevation (> 1.075), leaves all others (including no-data) unchanged. It is applied to a tile exactly if the upper left corner of the tile is east of 143 degrees E and south of 40 degrees S.", "quantifier": "every array", "why_tests_cant": "All contents.", "anchors": ["topographic/topo_mult.py: tasmania"]}
{"id": "C53", "title": "Smoothed topographic multipliers stay at or above 1", "statement": "The smoothed topographic multiplier is between the smallest and largest multiplier in the 3x3 neighbourhood, hence at least 1. (Violated on the raster's edge rows and columns, where zeros are averaged in: a flat DEM gets 4/9 in the corners.) Everywhere it is a ninth of the sum over the 3x3 neighbourhood, cells outside the raster counting as 0.", "quantifier": "every raster, every cell", "why_tests_cant": "Edge versus interior over all sizes.", "anchors": ["topographic/topo_mult.py: topomult"]}
{"id": "C54", "title": "Topographic result of a raster is well defined and bounded", "statement": "For a complete DEM raster and each direction the computed grid has every interior cell in [1, 1.539] outside Tasmania, and each cell's unsmoothed value depends only on the line through it.", "quantifier": "every raster, direction", "why_tests_cant": "Whole-pipeline composition.", "anchors": ["topographic/topo_mult.py: topomult"]}
{"id": "C55", "title": "Bilinear interpolation reproduces corners and stays between them", "statement": "Bilinear interpolation on a block of at least 2x2 cells equals the four corner values at the corners and lies between their minimum and maximum everywhere; it reproduces affine functions.", "quantifier": "every block shape, all corner values", "why_tests_cant": "All shapes and values.", "anchors": ["utilities/blrb.py: bilinear"]}
{"id": "C56", "title": "Bisected interpolation fills the whole grid", "statement": "For every grid of at least 3 rows and 3 columns one level of bisection writes every cell with array shapes that agree; for even sizes (>= 4) the result is exact for functions affine in row and column. (For odd sizes fractional block shapes make it extrapolate; for a size of 1 it fails and for 2 it writes NaN.)", "quantifier": "every grid shape, every evaluated function", "why_tests_cant": "All parities of the shape.", "anchors": ["utilities/blrb.py: subdivide, indices, interpolate_block, interpolate_grid"]}
{"id": "C57", "title": "The pixel-size grid holds the size of its own pixel", "statement": "Cell (row, column) of the pixel-size grids is the size of the pixel in that row and column. (Violated: row and column are exchanged when the size is evaluated.)", "quantifier": "every georeferenced raster", "why_tests_cant": "Invisible on the diagonal and in the mean over square tiles.", "anchors": ["utilities/get_pixel_size_grid.py: get_pixel_size_grids", "utilities/blrb.py: interpolate_block"]}
{"id": "C58", "title": "Vincenty azimuths are normalised and coincident points are at distance zero", "statement": "The inverse formula returns azimuths in [0, 2pi], distance 0 for points closer than 1e-8 radian in both coordinates, and on a sphere stops after at most two iterations with radius times central angle and azimuths that lead along the great circle from each point to the other.", "quantifier": "all pairs of points (for the sphere: all non-coincident, non-antipodal pairs)", "why_tests_cant": "Over the reals.", "anchors": ["utilities/vincenty.py: vinc_dist"]}
{"id": "C59", "title": "Configuration files override option by option", "statement": "After loading a configuration file every option it defines has the file's value and every option it does not define keeps the value it had before; loading the same file twice changes nothing.", "quantifier": "every sequence of loaded files, every section and option", "why_tests_cant": "All histories of loads.", "anchors": ["utilities/config.py: _ConfigParser"]}
{"id": "C60", "title": "Singletons are created once under any thread schedule", "statement": "However many threads instantiate a singleton class concurrently, its constructor runs at most once and all callers that return get the same instance.", "quantifier": "every number of threads, every interleaving", "why_tests_cant": "Interleavings.", "anchors": ["utilities/meta.py: Singleton"]}
{"id": "C61", "title": "Chunked checksum equals the checksum of the file", "statement": "The checksum reported for a file is that of its whole content for every file length and every positive chunk size.", "quantifier": "every file content, every positive chunk size", "why_tests_cant": "All lengths relative to the chunk size.", "anchors": ["utilities/files.py: fl_get_stat"]}
{"id": "C62", "title": "Elapsed time is split correctly", "statement": "The hours, minutes, seconds logged for a run satisfy 3600h+60m+s = elapsed seconds with m, s < 60.", "quantifier": "every elapsed time", "why_tests_cant": "All values.", "anchors": ["all_multipliers.py: timer"]}
{"id": "C63", "title": "A saved NetCDF file contains everything it was asked to contain", "statement": "After saving a grid the file is closed and contains all dimensions and all variables passed in. (Violated: only the first variable is written; the coordinate-reference variable never is.) On invalid input the file is closed and an error is raised.", "quantifier": "every dictionary of dimensions and variables", "why_tests_cant": "The early return affects every multi-variable input.", "anchors": ["utilities/nctools.py: nc_save_grid, save_multiplier"]}
{"id": "C64", "title": "Terrain category code encodes settlement and land use", "statement": "The category written for a feature determines its settlement class and land-use class; unknown names give class 0; the code is below 1000.", "quantifier": "all pairs of settlement and land-use names", "why_tests_cant": "All strings.", "anchors": ["pre_process.py: pre_process"]}
{"id": "C65", "title": "Dissolving groups every feature once", "statement": "After dissolving on an attribute there is exactly one feature per distinct (null-normalised) value, and it is the union of exactly the features with that value.", "quantifier": "every list of features", "why_tests_cant": "All lists, all key multiplicities.", "anchors": ["utilities/shapefiles.py: shp_file.dissolve"]}
{"id": "C66", "title": "Spatial join picks the settlement with the largest overlap", "statement": "Each feature gets the attribute of an intersecting feature with maximal overlap, or null if none intersects; the number and order of features are unchanged whatever order the thread pool finishes in.", "quantifier": "every pair of feature lists, every geometry relation", "why_tests_cant": "All geometries.", "anchors": ["utilities/shapefiles.py: shp_file.spatial_join"]}
{"id": "C67", "title": "Cropping keeps geometry and attributes aligned", "statement": "Cropping keeps exactly the features with positive overlap area, in order, each with its own attributes.", "quantifier": "every list of features", "why_tests_cant": "All lists.", "anchors": ["utilities/shapefiles.py: shp_file.crop"]}
{"id": "C68", "title": "Only the master prepares the output directory", "statement": "Directory preparation has an effect only on rank 0 (or a single process); afterwards the output directory contains exactly the five empty result folders and nothing from an earlier run; repeating it gives the same state.", "quantifier": "every previous file-system state, every rank and size", "why_tests_cant": "All previous states.", "anchors": ["all_multipliers.py: do_output_directory_creation", "utilities/parallel.py: disable_on_workers"]}
{"id": "C69", "title": "A classified tile gets all eight terrain outputs", "statement": "On grids of at most 200 m, a tile with a classified cell and a height different from every lag gets the eight terrain outputs without error; each classified cell holds the mean of the (water-filled) initial multipliers over the existing upwind cells beyond the lag.", "quantifier": "every raster, table, grid width, direction", "why_tests_cant": "Combines all branches of the direction loop for all tile sizes.", "anchors": ["terrain/terrain_mult.py: terrain, convo"]}
{"id": "C70", "title": "Shielding of one direction does not depend on the other directions", "statement": "Each of the eight shielding outputs is computed from the initial shielding values alone. (Violated on grids coarser than 100 m: the array is modified in place, so the reduction by 0.9 compounds from direction to direction.)", "quantifier": "every raster, slope, aspect, grid width", "why_tests_cant": "Aliasing shows only in multi-direction runs on coarse grids; tests call single steps.", "anchors": ["shielding/shield_mult.py: convo_combine, combine"]}
{"id": "C71", "title": "A steep plane facing the wind is fully shielded to 1", "statement": "From elevation to multiplier: at an interior cell of a plane at least 12.30 degrees steep, the shielding multiplier is 1 for the wind direction in whose sector the downslope heading lies, and for the other directions it is what it would be on flat ground.", "quantifier": "every plane, cell size, interior cell, heading and shielding value", "why_tests_cant": "Combines gradient, slope, aspect, classification and adjustment for a continuum of planes.", "anchors": ["shielding/shield_mult.py: get_slope_aspect, reclassify_aspect, combine"]}
{"id": "C72", "title": "The multiplier of a point is that of its strongest hill", "statement": "The multiplier of every point of a line but the last is exactly the largest of 1 and the hill formula evaluated for the hills (valley-to-ridge rises, elevations rounded down to metres) that are at least 10 m high, 0.05 steep and two cells long.", "quantifier": "every elevation line, every positive spacing, every point", "why_tests_cant": "Ties ridge finding, pairing, influence ranges and maxima together for lines with any number of hills.", "anchors": ["topographic/multiplier_calc.py: multiplier_calc", "topographic/mh.py: mh_calc, escarpment_factor", "topographic/findpeaks.py: findpeaks, findvalleys"]}
{"id": "C73", "title": "The geodesic distance does not depend on the order of the points", "statement": "Vincenty's inverse formula gives the same distance, after the same number of iterations, or the same error, when its two points are exchanged.", "quantifier": "all oblate ellipsoids (flattening between 0 and 1) and all pairs of points whose longitudes differ by at most 1e6", "why_tests_cant": "Over the reals and for any number of iterations; a test compares a few pairs up to rounding.", "anchors": ["utilities/vincenty.py: vinc_dist"]}
{"id": "C74", "title": "Vincenty's inverse formula converges; distances along parallels and meridians", "statement": "Between points of one parallel, 1e-8 to 0.1 radian apart in longitude, the iteration of Vincenty's inverse formula ends within eight rounds and the distance is within 2 % of the arc of the parallel; between points of one meridian, at least 1e-8 radian apart, it ends in the first round within 2 % of the arc of a circle of the equatorial radius; between points of the equator, from 1e-8 radian up to pi times one minus the flattening apart, it ends within four rounds, the azimuths are exactly east and west, and the distance is that of the equator up to two parts in 1e9. For any two points at most 2.5 radian (143 degrees) of longitude apart it ends within thirteen rounds. Whenever it returns for points at least 1e-8 radian apart in latitude or longitude, the distance is positive and at most 1.02 times half the polar circumference.", "quantifier": "all ellipsoids of flattening at most 1/200 (the Earth's is 1/298), all latitudes below 90 degrees, all such pairs of points", "why_tests_cant": "Needs convergence of the iteration and bounds on the series for every pair of points.", "anchors": ["utilities/vincenty.py: vinc_dist", "utilities/get_pixel_size_grid.py: get_pixel_size"]}
{"id": "C75", "title": "No-value cells stay NaN in converted tiles", "statement": "In a converted tile a cell of a direction's band is NaN exactly if the terrain, shielding or topographic multiplier of that direction is NaN there, and otherwise the product of the three; a cell of the maximum raster is NaN exactly if that holds for some direction, and otherwise the largest of the eight products.", "quantifier": "all multiplier files of a tile with NaN cells anywhere, any tile size, missing files as far as the conversion accepts them", "why_tests_cant": "NaN can sit in any subset of the 24 inputs of each cell.", "anchors": ["utilities/convert.py: Converter.process_tile, Converter.process_max_tile"]}
{"id": "C76", "title": "The run does not depend on the directory it is started in", "statement": "A serial run gives the same files whatever the working directory, and whether the output directory is given as an absolute or a relative path. (Violated for relative paths: the shielding step changes the working directory for good, so the run fails at the first non-empty tile.)", "quantifier": "all starting directories, output directories, tile lists and file systems", "why_tests_cant": "Depends on process state left behind by an earlier step; tests use one tile and absolute paths.", "anchors": ["shielding/shield_mult.py: convo_combine", "all_multipliers.py: Multipliers.parallelise_on_tiles, multipliers_calculate", "topographic/topo_mult.py: topomult"]}
{"id": "C77", "title": "Tiles are one degree in size", "statement": "Without buffer a tile that does not reach the last column spans at least one degree and less than one degree and one pixel in longitude; a tile that does reach it spans less than one degree, one pixel and the buffer together. The same holds in latitude.", "quantifier": "all raster sizes, pixel sizes and buffers below one degree, all tiles", "why_tests_cant": "The size of the edge tiles depends on how raster size, step and buffer divide.", "anchors": ["all_multipliers.py: TileGrid.__init__, tile_grid, get_gridlimit"]}
{"id": "C78", "title": "The DEM tile is the block of the DEM under the buffered tile", "statement": "The DEM file cut for a tile has exactly as many rows and columns as the buffered tile, and every cell of it is the DEM cell at the same place; nothing is shifted, repeated or lost by the resampling, even if the tile's extent is off by up to an eighth of a pixel. Cells without elevation get the fill value of the new file.", "quantifier": "all rasters, buffers, tiles and extents within an eighth of a pixel of the exact one", "why_tests_cant": "Resampling shifts show only for particular pixel sizes and rounding errors.", "anchors": ["all_multipliers.py: Multipliers.cut_dem, clip_dataset, TileGrid.get_tile_extent_buffer"]}
{"id": "C79", "title": "Land cover is taken at the pixel centre", "statement": "Every cell of the land-cover tile has the category of the land-cover pixel that contains the centre of the DEM pixel, whatever the grids of the two rasters, so a pixel has the same category in every tile that contains it; outside the land cover, or where it has no data, the cell has the fill value.", "quantifier": "all DEM and land-cover grids of the same projection, all tiles", "why_tests_cant": "Misregistration depends on the relative position of the two grids.", "anchors": ["all_multipliers.py: reproject_dataset, Multipliers.multipliers_calculate"]}
{"id": "C80", "title": "Terrain averaging covers 500 m behind a 200 m lag", "statement": "In each of the eight directions the averaging width times the distance between neighbouring cells in that direction is within one such distance of 500 m, and the lag within one of 200 m.", "quantifier": "all grid widths, all eight directions", "why_tests_cant": "Needs every grid width; tests use one.", "anchors": ["terrain/terrain_mult.py: terrain"]}
{"id": "C81", "title": "A tile is computed from the rasters to the files", "statement": "For every tile with some land, on a grid of at most 100 m whose buffer covers 700 m and a cell, the computation from the input rasters on ends without an exception and leaves 24 multiplier files (three kinds, eight directions). Each has exactly one cell for every pixel of the unbuffered tile, and its coordinates are the centres of those pixels in the input DEM.", "quantifier": "all input rasters, tables, tiles and pixel-size grids meeting these conditions", "why_tests_cant": "Holds for the composition of all steps for every raster; tests exercise the steps one by one on small fixed arrays.", "anchors": ["all_multipliers.py: Multipliers.cut_dem, multipliers_calculate", "terrain/terrain_mult.py: terrain", "shielding/shield_mult.py: shield", "topographic/topo_mult.py: topomult", "utilities/nctools.py: clip_array, get_lat_lon"]}
{"id": "C82", "title": "Terrain multiplier of a pixel, end to end", "statement": "The value of a pixel in the terrain file is the mean, over the pixels of the whole raster 200 m to 700 m upwind (in whole cells), of the terrain multiplier of the land cover under their centres, where a category takes the multiplier given by the roughness formula from the last row of the table that lists it, and pixels without multiplier count as water (1). A pixel without multiplier is itself NaN. The division into tiles does not influence the value.", "quantifier": "all rasters, tables, tiles, directions and pixels under the conditions of C81", "why_tests_cant": "The value is a function of the whole raster; tests never compare a tiled run with an untiled one.", "anchors": ["all_multipliers.py: Multipliers.multipliers_calculate, reproject_dataset", "terrain/terrain_mult.py: terrain, terrain_class2mz_orig, convo"]}
{"id": "C83", "title": "Shielding multiplier of a pixel, end to end", "statement": "The value of a pixel in the shielding file is obtained from the mean shielding of the shielding cells of the whole raster within 100 m upwind: it is moved towards 1 according to the steepness of the ground if the ground falls towards the wind's sector, then multiplied by 0.9 below 0.9 and squared otherwise. Steepness and heading of the fall are those of the weighted (1,2,1) elevation differences of the whole DEM around the pixel, divided by the pixel sizes that the pixel-size grid holds at this cell (which by C57 are those of another pixel). The value is NaN exactly if a shielding cell is unknown. The division into tiles influences it only through the pixel sizes.", "quantifier": "all rasters, tables, tiles, directions and pixels under the conditions of C81", "why_tests_cant": "Composition of five steps over arbitrary rasters.", "anchors": ["shielding/shield_mult.py: shield, terrain_class2ms_orig, get_slope_aspect, convo_combine, combine", "all_multipliers.py: Multipliers.multipliers_calculate"]}
{"id": "C84", "title": "Topographic multiplier of a pixel, end to end", "statement": "The value of a pixel in the topographic file is the mean over the pixel and its eight neighbours of the corrected multiplier of the largest hill on the transect through it in the buffered tile, elevations rounded down to whole metres; neighbours outside the buffered tile count 0. No pixel is NaN, not even where the DEM has no elevation.", "quantifier": "all rasters, tiles, directions and pixels under the conditions of C81", "why_tests_cant": "The exact value depends on all elevations of three transects.", "anchors": ["topographic/topo_mult.py: topomult, remove_conservatism, tasmania", "topographic/multiplier_calc.py: multiplier_calc", "topographic/mh.py: mh_calc", "all_multipliers.py: Multipliers.cut_dem"]}
{"id": "C85", "title": "Combined multiplier of a pixel, end to end", "statement": "The conversion of a computed tile succeeds; the GeoTIFF lies on the pixel centres of the tile and has one band per direction. A pixel of a band is NaN exactly if its land cover has no terrain multiplier or one of its shielding cells is unknown; otherwise it is the product of the three multipliers of C82-C84. The maximum raster is NaN exactly if a band is, and otherwise the largest of the eight products.", "quantifier": "all rasters, tables, tiles, directions and pixels under the conditions of C81", "why_tests_cant": "Connects computation and conversion, which are separate runs with files in between.", "anchors": ["utilities/convert.py: Converter.process_tile, process_max_tile", "all_multipliers.py: Multipliers.multipliers_calculate"]}
{"id": "C86", "title": "Topographic multipliers are seamless across tiles", "statement": "The topographic multiplier of a pixel is the one that the transects of the whole DEM give, whichever tile the pixel is computed in. False in general; true if the buffer less one cell is at least 63.2 times the relief of the DEM.", "quantifier": "all DEMs, tiles, directions and pixels at least two cells from the edge of the DEM", "why_tests_cant": "Needs the hill model on the whole raster and on every window of it; a test compares a few tiles.", "anchors": ["topographic/topo_mult.py: topomult", "topographic/multiplier_calc.py: multiplier_calc", "topographic/mh.py: mh_calc, escarpment_factor", "all_multipliers.py: TileGrid"]}
{"id": "C87", "title": "Pixel size in metres", "statement": "The constant that converts degrees to radians agrees with pi/180 to 20 decimals; the ellipsoid is that of WGS 84, with the flattening exact to 11 decimals. For every pixel the width and height in metres are found: the width is within 2 % of the arc of the parallel through the centre of the pixel, the height within 2 % of the arc of a circle of the equatorial radius.", "quantifier": "all rasters in geographic coordinates with pixels of 1e-6 to 5 degrees, all pixels in latitudes up to 89 degrees", "why_tests_cant": "Needs convergence and accuracy of an iterative formula at every latitude.", "anchors": ["utilities/get_pixel_size_grid.py: get_pixel_size, RADIANS_PER_DEGREE, Earth", "utilities/vincenty.py: vinc_dist"]}
{"id": "C88", "title": "The standard configuration is within the scope of the tile theorems", "statement": "With the standard buffer of 0.01 degrees, for a DEM with square pixels of at most 0.00085 degrees that covers at least 0.01 degrees each way between 45 N and 43.9 S, the pixel sizes of every tile are found, are positive and within 6 % above and 36 % below the size on the equator (3 % for the height), the mean is at most 100 m, and buffer and raster are wide enough for the averaging windows of the terrain multiplier, so that C81 to C86 apply to every tile with land.", "quantifier": "all such rasters and all tiles, any land cover and elevations", "why_tests_cant": "The conditions tie together geometry of the ellipsoid, interpolation, tiling and windows for every raster; a run samples one raster.", "anchors": ["utilities/get_pixel_size_grid.py: get_pixel_size_grids", "utilities/blrb.py: interpolate_grid", "all_multipliers.py: TileGrid, multipliers_calculate", "multiplier_conf.cfg: upwind_length"]}
{"id": "C89", "title": "Vincenty's direct formula solves Vincenty's equations", "statement": "For a positive distance the iteration of the direct formula ends within four rounds. Its result solves Vincenty's published equations: on the auxiliary sphere the great circle from the reduced latitude of the first point in the given direction leads to that of the second, the reverse azimuth leads back (if the second point is not a pole), the length of the line is the distance given up to 2e-9 of the radius plus 1e-11 radian per radian, and the longitude is right up to 1e-14 radian per radian. On a sphere, and eastward along the equator of an ellipsoid up to half the way round on the auxiliary sphere, the point is exact. A distance of zero is a ZeroDivisionError; a distance of minus two radians on a sphere uses an unassigned variable.", "quantifier": "all ellipsoids of flattening at most 1/200 (the Earth's is 1/298), all latitudes below 90 degrees, all azimuths, all positive distances", "why_tests_cant": "Convergence and accuracy for a continuum of positions, directions and distances.", "anchors": ["utilities/vincenty.py: vinc_pt"]}
{"id": "C90", "title": "Direct and inverse formula are inverse to each other on a sphere", "statement": "On a sphere the inverse formula, applied to a point and the one the direct formula gives for a distance and an azimuth, returns exactly that distance, that azimuth and the reverse azimuth of the direct formula.", "quantifier": "all radii, all starting points other than the poles, all azimuths in [0, 2pi), all distances from 2.5e-8 radian up to (not including) half the circumference whose end point is not a pole", "why_tests_cant": "Exact equality over a continuum of positions.", "anchors": ["utilities/vincenty.py: vinc_pt", "utilities/vincenty.py: vinc_dist"]}
{"id": "C91", "title": "Intermediate points of a great circle are equally spaced", "statement": "GreatCircle.points(n): for n <= 1 a ValueError; for n = 2 the end points; for n >= 3 on a sphere n points, the k-th at the fraction k/(n-1) of the angle from the first and (n-1-k)/(n-1) from the second; NaN if the end points are equal. On an ellipsoid n points of which the first and last are the end points, and along the equator equally spaced points of the equator. The check for antipodal end points is never reached, as the constructor fails before.", "quantifier": "all end points below 90 degrees latitude and at most 360 degrees of longitude apart, every number of points (sphere: end points neither closer than 1e-8 radian nor opposite; equator: flattening at most 1/200, less than half the way round, points at least 2e-8 radian apart)", "why_tests_cant": "All end points and numbers of points.", "anchors": ["utilities/vincenty.py: GreatCircle"]}
{"id": "C92", "title": "Vincenty's inverse formula solves Vincenty's equations", "statement": "Whatever the inverse formula returns for points not taken for coincident solves Vincenty's published equations on the auxiliary sphere: there are two differences of longitude, equal up to the relative tolerance 1e-9 of the loop, such that the distance is exactly that of the published series for the great circle between the reduced latitudes at the first of them, the second is exactly the difference in longitude plus the published correction for that great circle, and the two azimuths lead along the great circle to the second one and back.", "quantifier": "all ellipsoids of flattening at most 1/200 (the Earth's is 1/298), all latitudes below 90 degrees, all pairs of points for which the iteration ends (C74)", "why_tests_cant": "All pairs of points; a wrong coefficient changes the results by millimetres only.", "anchors": ["utilities/vincenty.py: vinc_dist"]}
{"id": "C93", "title": "Outcome of a whole parallel run", "statement": "When all processes have passed the last barrier, there are below the output folder exactly: the multiplier files of every non-empty tile, each with what was computed for it (no terrain files where land cover is unknown throughout); for every non-empty tile the GeoTIFF made of exactly these files and the one of its maxima; and the two virtual rasters, which list these GeoTIFFs, each once and both in the same order. No temporary file and nothing of an earlier run is left, and nothing outside the output folder is changed.", "quantifier": "every number of processes (including one), every interleaving of their file operations and messages, every list of tiles with different names, every initial content of the file system", "why_tests_cant": "A race shows up only in particular interleavings; the property ranges over all of them.", "anchors": ["all_multipliers.py: run, parallelise_on_tiles, multipliers_calculate, do_output_directory_creation", "utilities/mpi_runner.py: parallelise_convert_on_tiles", "utilities/convert.py: run"]}
{"id": "C94", "title": "A whole run finishes", "statement": "No execution of a run has more than 45 T + 9 W + 9 steps for T tiles and W workers, and until all processes have passed the last barrier some process can take a step: no deadlock, no file operation fails. If the conversion of some tile raises an exception (as for a non-square tile without land cover), on the other hand, no run completes: the other processes wait forever.", "quantifier": "every number of processes, every interleaving, all lists of tiles with different names; for the first part: rasters of one size per tile, square where there is no land cover", "why_tests_cant": "Termination under all schedules cannot be observed by running some.", "anchors": ["all_multipliers.py: run, parallelise_on_tiles", "utilities/mpi_runner.py: parallelise_convert_on_tiles"]}
{"id": "C95", "title": "The result does not depend on schedule or number of processes", "statement": "Two completed runs over the same tiles, with different numbers of processes, different orders of the tiles and different interleavings, leave the same contents at every path; only the order of the GeoTIFFs listed in the virtual rasters may differ, and that is the same in both virtual rasters of a run.", "quantifier": "all pairs of completed runs over the same tiles from the same initial files", "why_tests_cant": "All pairs of schedules.", "anchors": ["all_multipliers.py: run, parallelise_on_tiles", "utilities/mpi_runner.py: parallelise_convert_on_tiles"]}
{"id": "C96", "title": "From the input rasters to the GeoTIFFs of a parallel run", "statement": "A run over the tiles that get_tiles lists for a DEM, each either empty or meeting the conditions of C81 to C85, cannot fail or deadlock and finishes; then every pixel of the DEM is in exactly one tile, and either its tile is empty and has no GeoTIFF or the GeoTIFF under the name of the tile holds at the place of the pixel, for each of the eight directions, the product of the documented shielding, terrain and topographic multipliers (NaN exactly where land cover has no multiplier or shielding is unknown), and the GeoTIFF of maxima the largest of the eight.", "quantifier": "all DEMs, land covers, tables, buffers whose tiles do not overlap (C02), every number of processes and every interleaving", "why_tests_cant": "Composes the tile grid, names, file operations, parallel schedule, multipliers and conversion for all inputs.", "anchors": ["all_multipliers.py: run, get_tiles, get_tileinfo", "utilities/convert.py: process_tile, process_max_tile"]}
{"id": "C97", "title": "The standard configuration produces the documented GeoTIFFs", "statement": "With the buffer of 0.01 degrees of the shipped configuration and a DEM in the south-east quadrant down to 43.9 S, with square pixels of at most 0.00085 degrees, at least 0.01 degrees each way and tiles that do not overlap, the tiles can be listed, and if every tile whose DEM is not empty has land, the run is as C96 says.", "quantifier": "all such DEMs, all land covers and tables with positive logarithm argument", "why_tests_cant": "Every raster of the given kind.", "anchors": ["all_multipliers.py: run, get_tiles", "utilities/get_pixel_size_grid.py: get_pixel_size_grids", "utilities/vincenty.py: vinc_dist"]}
{"id": "C98", "title": "Range of the final multipliers", "statement": "After a completed run, every pixel of every direction in every GeoTIFF, and of the GeoTIFFs of maxima, is NaN or lies between the product of the smallest reduced shielding and the smallest terrain multiplier of the tables and 1.539 times the largest terrain multiplier; in Tasmania the upper bound is raised by 0.015% per metre of the highest elevation; on the edge of the raster the lower bound is 4/9 of that. With the table in tests/test_data and a DEM outside Tasmania this is 0.52 (0.23 on the edge) to 1.701.", "quantifier": "all rasters and tables of a run as in C96, every schedule and number of processes, every pixel and direction", "why_tests_cant": "A bound over all rasters, wind directions and schedules.", "anchors": ["all_multipliers.py: run", "terrain/terrain_mult.py: terrain_class2mz_orig", "shielding/shield_mult.py: combine", "topographic/multiplier_calc.py: multiplier_calc", "tests/test_data/terrain_classification.csv"]}
{"id": "C99", "title": "Level ground with a single land-cover category", "statement": "On a DEM of one elevation (at most 500 m) and a land cover of one category that is in the tables, a completed run gives at every pixel 100 m or more from the edge of the raster, in all eight directions and in the maxima, exactly the terrain multiplier of the category times its shielding after reduction: no tile boundary, averaging, slope correction or topographic step changes it.", "quantifier": "all raster sizes, resolutions, elevations up to 500 m, categories and tables of a run as in C96, every schedule", "why_tests_cant": "An exact end-to-end value for all rasters of this kind; tests check single functions on single arrays.", "anchors": ["all_multipliers.py: run", "terrain/terrain_mult.py: terrain, convo", "shielding/shield_mult.py: shield, convo_combine, combine", "topographic/topo_mult.py: topomult", "utilities/convert.py: process_tile"]}
{"id": "C100", "title": "Pre-processing turns the shape files into the land cover they describe", "statement": "For settlement and land-use layers with finite areas (land use of positive area if there is no crop mask), two different attribute names and a mask file with at least one geometry, pre_process writes exactly the land-use features that overlap the bounding box of the first mask geometry (all of them without a mask), in their order and clipped to the box. Each gets the code 100 s + u, where u is the code of its land use and s that of a settlement type (unlisted types count as one type of code 0) whose settlements together cover at least as much of the clipped feature as those of any other type. If one type covers more of each feature than all others the result depends neither on the order in which the search tree returns candidates nor on that in which the threads finish. The raster has the grid of the DEM; each pixel has the code of the last feature that contains its centre, 0 if there is none; and a run with this DEM and this land cover works with these codes. With the same name for both attributes the land use is lost.", "quantifier": "for all layers, masks, search trees, schedules and grids", "why_tests_cant": "The geometries, the number of features and the schedules are unbounded.  The tests of the repository have no shape files; the path from features to pixels crosses four functions, and tests of one say nothing of the composition.", "anchors": ["pre_process.py: pre_process, rasterize", "utilities/shapefiles.py: shp_file.dissolve, shp_file.crop, shp_file.spatial_join", "all_multipliers.py: reproject_dataset"]}
{"id": "C101", "title": "Tile geometry in floating-point arithmetic", "statement": "With every floating-point operation of the tile grid, the extents, the windows and the coordinates rounded to double precision, and rasters at most 2^40 pixels wide and high and as far from the origin: every pixel is in the unbuffered limits of a tile whose buffered limits contain all pixels within the upwind length; the tiles are disjoint under the condition of C02; the DEM tile cut with the rounded extents has exactly the cells of the buffered limits; clipping a tile with the rounded extents returns exactly the cells of the unbuffered limits, and the coordinate vectors have the same lengths; the coordinates are the pixel centres up to 2^-50 of the largest coordinate. No row or column is lost, repeated or shifted by rounding.", "quantifier": "all geotransforms, raster sizes and buffer lengths in floating-point numbers, every rounding function with relative error 2^-53 that is monotone and exact on integers up to 2^53", "why_tests_cant": "Rounding errors show only for particular pixel sizes and origins; tests use a few.", "anchors": ["all_multipliers.py: TileGrid, get_tile_extent, get_tile_extent_buffer, clip_dataset", "utilities/nctools.py: clip_array, get_lat_lon"]}
{"id": "C102", "title": "The error of floating-point arithmetic in the terrain averages and the combined multipliers is bounded", "statement": "Let the reclassified terrain array hold non-negative initial multipliers up to a relative error \u03b5. With sums, quotients and stored results rounded with relative errors at most u, v and w, the terrain multiplier stored in every cell is the mean of the exact initial multipliers upwind (lag and width as in C21) up to the relative error (1+\u03b5)(1+u)^width(1+v)(1+w) \u2212 1; if all errors are at most 2^-24 (float32) and the width is at most a million cells this is at most (width+3)\u00b72^-23. In a converted tile each band is the product of the three exact multipliers up to the relative error (1+\u03b5_s)(1+\u03b5_z)(1+\u03b5_t)(1+w)\u00b2 \u2212 1, where the \u03b5 are the relative errors of the three files, and the maximum raster is the maximum of the exact products up to the same error.", "quantifier": "all rasters of non-negative multipliers, all directions, widths, lags and cells; all roundings with the given relative errors; all sets of multiplier files of one shape", "why_tests_cant": "The error depends on the values and the order of the operations of every cell; tests compare a few values with a tolerance and cannot bound the error for all inputs or for other numpy versions (which add in float32 or float64).", "anchors": ["terrain/terrain_mult.py: convo", "utilities/convert.py: process_tile, process_max_tile"]}
{"id": "C103", "title": "The multipliers of a tile depend only on the inputs in its buffered limits", "statement": "Let two runs use rasters of the same geotransform and size, the same tables and the same checksum function (a function of the cells). If the elevations and the land cover agree within the buffered limits of the tile that holds a pixel, then after both runs are complete, with any numbers of processes and any schedules, either neither run has a GeoTIFF of that tile or both have one, and the pixel has the same value in every band and in the maxima. What the inputs hold elsewhere, in other tiles, does not matter.", "quantifier": "all pairs of inputs that meet the conditions of C96, all numbers of processes and complete schedules, all pixels", "why_tests_cant": "The theorem compares two runs on arbitrary inputs differing anywhere outside the buffered tile; a leak from one tile to another (stale arrays, a buffer too small, an aggregate over the whole raster) shows only for particular data.", "anchors": ["all_multipliers.py: run, get_tiles, get_tileinfo", "utilities/convert.py: process_tile, process_max_tile"]}
{"id": "C104", "title": "Smoother ground and less shielding never lower a multiplier", "statement": "Let two runs differ only in the tables: the same categories in the same order, no roughness length larger and no shielding value smaller in the second (positive initial multipliers, non-negative shielding values). After both runs are complete every pixel of every band, and of the maxima, is NaN in both or is at least as large in the second run as in the first.", "quantifier": "all pairs of inputs that meet the conditions of C96, all numbers of processes and complete schedules, all pixels and directions", "why_tests_cant": "Monotonicity relates pairs of runs at all pixels; tests hold expected values of single runs.", "anchors": ["terrain/terrain_mult.py: terrain, terrain_class2mz_orig, convo", "shielding/shield_mult.py: shield, combine, convo_combine", "utilities/convert.py: process_tile, process_max_tile"]}
{"id": "C105", "title": "Every process of a run has a log of its own", "statement": "Whatever the processes of a run do in which order while they start their logs, after at most four steps each has opened a log, none fails to open it, and the logs of two processes are different files. The log of rank 0 has the given name, that of another rank the name with an underscore and the rank in decimal; it is in the configured folder or, if that was missing, possibly in the working directory.", "quantifier": "every number of processes, every order of their tests and folder creations, every log file name, every initial set of folders that has the working directory", "why_tests_cant": "Two processes writing to one file, or a process failing because another has just made the folder, shows only in particular interleavings.", "anchors": ["all_multipliers.py: run", "utilities/files.py: fl_start_log"]}
{"id": "C106", "title": "Processes log to the configured file if its folder exists or can be made", "statement": "If the folder of the log file exists, or is missing and can be made, then every process logs to the configured file (with the rank appended for ranks above 0). False for several processes: two that find the folder missing both call makedirs, and the later one logs to the working directory instead. True if the folder exists beforehand or for one process; if the folder cannot be made, all processes log to the working directory; in any case one process gets the configured file if the folder can be made.", "quantifier": "every number of processes, every order of their tests and folder creations, every log file name, every initial set of folders that has the working directory", "why_tests_cant": "A race between test and creation.", "anchors": ["all_multipliers.py: run", "utilities/files.py: fl_start_log"]}
{"id": "C107", "title": "Messages go to the started log file once, and to the console at most once", "statement": "fl_start_log directs all messages of the given level or above to the given file, and to the console exactly if verbose and on a terminal; further calls never make messages appear twice on the console. The claim that each call starts logging to the given file is false: after the first call the file and the level do not change.", "quantifier": "all sequences of calls with all arguments, starting from a logger without handlers", "why_tests_cant": "Handlers accumulate over arbitrary sequences of calls.", "anchors": ["utilities/files.py: fl_start_log"]}
{"id": "C108", "title": "Rounding does not move the escarpment index", "statement": "escarpment_factor divides a rounded multiple of the spacing by the spacing, adds the ridge index and takes the floor. With every operation rounded to P binary digits (P at least 15) the index it finds is the mirror image of the foot of the hill, or the end of the line: rounding never makes it one too small. The factor is within 32 units of 2^-P of the exact one.", "quantifier": "all formats with at least 15 binary digits, all lines of at most 2^(P-2) points, all hills, all positive spacings of the format", "why_tests_cant": "A floor of a rounded quotient fails for isolated pairs of operands among 2^53 spacings; a test can try only a few.", "anchors": ["topographic/mh.py: escarpment_factor"]}
{"id": "C109", "title": "Rounding errors of the multipliers of a line are bounded", "statement": "multiplier_calc with every operation rounded to P binary digits never fails, and at each point but the last where no hill is borderline (within a few units in the last place of a jump of the formula) the result is within 127 units of 2^-P of the largest of 1 and the exact contributions of the hills.", "quantifier": "all formats with at least 15 binary digits, all lines of at most 2^(P-2) points with elevations below 2^(P-1), all positive spacings of the format", "why_tests_cant": "Expected values in tests are compared with a tolerance chosen by hand at single points.", "anchors": ["topographic/multiplier_calc.py: multiplier_calc", "topographic/mh.py: mh_calc, escarpment_factor", "topographic/findpeaks.py: findpeaks"]}
{"id": "C110", "title": "Rounding errors of the topographic multipliers of a tile are bounded", "statement": "In each direction the saved topographic multiplier, computed with every operation rounded to P binary digits (line multipliers, removal of conservatism, Tasmania factor, smoothing), is missing at the same cells as the exact one and within 252 units of 2^-P of it at each cell where neither the cell nor one of its neighbours is borderline (if the Tasmania factor applies, for elevations up to 4000 m).", "quantifier": "all formats with at least 15 binary digits, all rasters of at most 2^(P-2) rows and columns, all elevations below 2^(P-1), all spacings, corners, directions, cells", "why_tests_cant": "The bound composes errors of many operations over all rasters; no finite set of rasters establishes it.", "anchors": ["topographic/topo_mult.py: topomult, remove_conservatism, tasmania", "topographic/multiplier_calc.py: multiplier_calc", "topographic/mh.py: mh_calc"]}
{"id": "C111", "title": "Rounding errors of the shielding multipliers are bounded", "statement": "The shielding multiplier computed with rounded operations (kernel and sums in double, stored values in single precision) is missing exactly where one of the shielding cells is missing; elsewhere it differs from the exact one (mean over the shielding cells, slope adjustment, conservatism removed) by at most 2^-19 plus a quarter of the error of the slope in degrees, provided rounding does not move the aspect to another sector.", "quantifier": "all rasters of shielding values in [0, 1] with missing cells anywhere, all kernels of up to 100 cells, all eight directions, all slopes and aspects, all cells; also for all pairs of precisions (C111_shielding)", "why_tests_cant": "The bound holds for every raster and every rounding of each sum; the jump-free behaviour at slopes 3.27 and 12.30 and at 0.9 rests on continuity, not on sample points.", "anchors": ["shielding/shield_mult.py: blur_image, combine, init_kern, init_kern_diag, convo_combine"]}
{"id": "C112", "title": "Rounding does not spoil slope and aspect where they matter", "statement": "get_slope_aspect with every operation rounded gives a slope whose error is proportional to the gradient around the cell, and on ground steeper than 3.27 degrees an aspect in the right sector, unless the ground falls to a heading within a tiny angle of a boundary between sectors; a slope is missing exactly where an elevation in the 3 x 3 window is. Hence, from elevations and shielding values to the multiplier in the formats of the code, the shielding multiplier is within 2^-17 of the exact one unless the ground is steeper than 3.27 degrees and its heading is within 1/2000 degree of a sector boundary.", "quantifier": "all rasters of elevations with missing cells anywhere, all cell sizes known to a relative error, all gradients (up to 45 degrees between neighbours for the constant), all rasters of shielding values, all kernels of up to 100 cells, all directions, all cells, all library functions correct to one unit in the last place", "why_tests_cant": "On nearly flat ground the computed aspect is arbitrary and a test would see a wrong sector; that it does not matter there follows from the thresholds, for all rasters.", "anchors": ["shielding/shield_mult.py: get_slope_aspect, reclassify_aspect, combine, blur_image"]}
{"id": "C113", "title": "The initial terrain multipliers are stored to single precision", "statement": "For roughness lengths from 1 mm to 10 m, read from the table up to two units in the last place, the formula -0.2827 log(0.4554 log z + 3.734) + 1.0762 computed with rounded literals, operations and logarithms is within 19 unit roundoffs of the formula over the reals, so that the stored float32 value has a relative error of at most 2^-24 + 2^-47.", "quantifier": "all roughness lengths in [0.001, 10], all roundings of literals and operations, all logarithm functions correct to one unit in the last place", "why_tests_cant": "The inner sum cancels for small roughness lengths and the error must be bounded at every length, not at the thirteen of the test table.", "anchors": ["terrain/terrain_mult.py: terrain_class2mz_orig"]}
{"id": "C114", "title": "The computed cell size is right and rounding does not change widths and kernel sizes", "statement": "gridwidth, computed in float32 from stored pixel sizes (each computed to one part in 2^25 before storing) with np.mean adding the cells in any order in which no cell goes through more than 60 additions, is the mean of the exact pixel sizes to one part in 65536. Unless 500 m, 200 m or 100 m are within that of a border between two numbers of cells, averaging widths, lags and the size of the shielding kernel are those of exact arithmetic.", "quantifier": "all arrays of nonnegative pixel sizes of any shape, all orders of addition up to that depth, all roundings, all directions", "why_tests_cant": "The order of additions inside numpy depends on shape and machine; tests see one order and compare results of one cell size.", "anchors": ["terrain/terrain_mult.py: terrain", "shielding/shield_mult.py: convo_combine", "topographic/topo_mult.py: topomult"]}
{"id": "C115", "title": "Rounding errors of the terrain step are bounded from the table to the saved array", "statement": "The terrain step in rounded arithmetic (table as read, formula, float32 storage, cell size, widths, averages) ends without error with all eight outputs in the documented order; a cell is NaN exactly if its category has no multiplier, and every other cell is the upwind mean of the exact multipliers over the width and lag of exact arithmetic up to a relative error of (width + 4) 2^-23, if the tile is higher than the lag distance. On lower tiles the multipliers of the cells themselves are saved, 1 for categories without multiplier, up to one part in 2^23.", "quantifier": "all land-cover rasters with a classified cell, all tables with roughness lengths in [0.001, 10], all pixel sizes with mean between 1 m and 200 m not within 2^-16 of a border between widths, tile height different from the lag, all roundings", "why_tests_cant": "Composes the error of logarithms, storage, sums of varying length and quotients over all rasters and tables.", "anchors": ["terrain/terrain_mult.py: terrain, terrain_class2mz_orig, convo"]}
{"id": "C116", "title": "A small error of the cell size does not spoil the topographic multipliers", "statement": "The topographic multipliers of a direction, computed with p binary digits at a spacing that differs from the exact one by a relative error eps of at most 1 percent, are within 4 eps + 252/2^p of the exact ones at the exact spacing, and missing at the same cells, wherever no hill seen from the cell or its eight neighbours is within a few eps of a jump of the formula.", "quantifier": "all elevation rasters with missing cells anywhere, all spacings and computed spacings within 1 percent, all numbers of digits from 15 with 2/2^p <= eps, all directions, all cells with clear hills around", "why_tests_cant": "The multiplier jumps at slopes of 0.05 and 0.45 and at the ends of the zones, so small errors of the spacing are usually but not always harmless; a test cannot separate the cases over all terrains.", "anchors": ["topographic/topo_mult.py: topomult", "topographic/mh.py: mh_calc, escarpment_factor", "topographic/multiplier_calc.py: multiplier_calc"]}
{"id": "C117", "title": "A tile is computed in rounded arithmetic to within 0.0005 of the documented multipliers", "statement": "The whole computation of a tile is carried out with every operation rounded: tables with decimal fractions, pixel sizes computed to one part in 2^25 and stored in single precision, their mean by np.mean in any order of addition of depth at most 60, numbers of cells, initial multipliers, averages, slope and aspect, hills, storage of the 24 files in single precision, product and maximum. It ends without error. A pixel of the GeoTIFF is NaN exactly where exact arithmetic has NaN (no terrain multiplier for the category, or an unknown shielding cell). Every other pixel is within 0.0005 of the product of the three documented multipliers, computed exactly from the inputs over the whole rasters, unless a hill on a transect through the pixel or a neighbour is borderline, the ground is steeper than 45 degrees, or the ground is steep and falls to a heading within 1/2000 degree of a sector border. The maximum raster is NaN where a band is, and within 0.0005 of the largest of the eight documented values where none of the eight is borderline.", "quantifier": "all DEMs with elevations up to 4000 m, land covers, tables and pixel sizes of a tile that meets the conditions of C81-C85, whose mean cell size is at least 1 m and not within 1/65536 (relative) of a value at which a number of cells in 100 m, 200 m or 500 m changes; all roundings with relative error 2^-24 or 2^-53 as used in each place; all orders of addition of depth at most 60", "why_tests_cant": "A test compares a computed tile with a stored one; it cannot tell whether the rounding errors of the many steps stay small together for every input, nor where they may change a result by more than rounding.", "anchors": ["all_multipliers.py: multipliers_calculate", "terrain/terrain_mult.py: terrain", "shielding/shield_mult.py: shield", "topographic/topo_mult.py: topomult", "utilities/convert.py: process_tile, process_max_tile"]}
{"id": "C118", "title": "A parallel run in rounded arithmetic delivers every pixel to within 0.0005", "statement": "A run whose tiles are computed and combined in rounded arithmetic (as in C117) with any number of processes and however these are interleaved never deadlocks or fails and finishes after a bounded number of steps. Then every pixel of the DEM is in exactly one tile. Either the DEM is empty around the tile and there is no GeoTIFF of it, or the GeoTIFF of the tile and that of its maxima have NaN exactly where exact arithmetic on the input rasters has, and values within 0.0005 of the documented ones elsewhere, unless the pixel is borderline (as in C117).", "quantifier": "all inputs whose tiles are empty or meet the conditions of C81-C85 and C117; all numbers of processes, schedules and initial contents of the output folder", "why_tests_cant": "A test runs one data set with one number of processes once; rounding, scheduling and the contents of the output folder from earlier runs can only be varied a little.", "anchors": ["all_multipliers.py: run, parallelise_on_tiles, multipliers_calculate", "utilities/convert.py: process_tile, process_max_tile, run"]}
{"id": "C119", "title": "Rounding of the tile geometry does not spoil a run", "statement": "A run in which steps, limits, extents, names and clipped parts of the tiles and the coordinates of the output are computed with rounding, as well as the multipliers (C117, C118), has the same result: tile names are distinct, the run never deadlocks or fails and finishes after a bounded number of steps, every pixel of the DEM is in exactly one tile, and either the DEM is empty around the tile and there is no GeoTIFF, or the GeoTIFF and that of the maxima have NaN exactly where exact arithmetic has, values within 0.0005 of the documented ones elsewhere (unless the pixel is borderline as in C117), and the coordinates of the pixel centres to one part in 2^50 of the largest coordinate.", "quantifier": "all rasters with coordinates below 2^40 pixels and below 1000, tiles that do not overlap by the computed steps and buffers (C02, C101), inputs whose tiles are empty or meet the conditions of C81-C85 and C117, with pixel centres not on borders of land-cover pixels and tile corners not on 143 E or 40 S up to rounding; all roundings to 53 digits; all numbers of processes, schedules and initial contents of the output folder", "why_tests_cant": "Whether floor, ceil and around of rounded quotients and names cut to seven characters agree with exact arithmetic cannot be seen on a few rasters; an error of one pixel shifts a whole tile.", "anchors": ["all_multipliers.py: run, get_startcord, get_tilename, get_tile_extent_buffer, get_tiles, multipliers_calculate", "utilities/nctools.py: get_lat_lon, clip_array", "utilities/convert.py: process_tile, process_max_tile, run"]}
{"id": "C120", "title": "Pixel sizes computed in double precision are right to one part in 2^25", "statement": "The pixel-size grids computed in double precision - coordinates of the pixels, conversion to radians, Vincenty's iteration for the widths and for the heights, the series for the length, bilinear interpolation, each operation rounded, with sin, cos, tan, atan, asin, atan2 and squares correct to one unit in the last place - are found (the iterations end after at most 12 rounds without error). Before they are stored in float32 all sizes are those of exact arithmetic up to one part in 2^25, also if the corner of the raster is off by rounding. In metres, stored widths are between 0.639 and 1.061 times, stored heights between 0.969 and 1.031 times the size of the pixel on the equator.", "quantifier": "all rasters of at least 12 rows and columns, with pixels of 1/4000 to 1/2 degree, not larger than 2 degrees, between 2 and 45 degrees south; all roundings with relative error 2^-53 and 2^-24, all implementations of the functions within one unit in the last place, all bounds of at least 12 rounds", "why_tests_cant": "Vincenty's formula divides by small numbers for neighbouring points (differences of nearly equal quantities), and its iteration stops by comparison with a tolerance; whether rounding can make it stop early, run on or lose digits cannot be seen on a few rasters.", "anchors": ["utilities/get_pixel_size_grid.py: get_pixel_size, get_pixel_size_grids", "utilities/vincenty.py: vinc_dist", "utilities/blrb.py: bilinear, interpolate_block, interpolate_grid"]}
{"id": "C121", "title": "A run in the standard configuration, with everything rounded, delivers every pixel to within 0.0005", "statement": "With the buffer of 0.01 degrees of multiplier_conf.cfg, a DEM with square pixels of 1/4000 to 0.00085 degrees between 2 and 43.9 degrees south and pixel sizes that the code itself computes, nothing about a tile has to be assumed that cannot be read off the inputs: the pixel sizes are found, exactly and in rounded arithmetic at the rounded corner of the tile, and agree to one part in 2^25 before they are stored; their mean is between 0.805 and 1.045 times the size of a pixel on the equator; buffer and raster are large enough for the averages. So a run with everything rounded (tables, geometry of tiles, pixel sizes, multipliers, files) never deadlocks or fails, finishes after a bounded number of steps, and then every pixel of the DEM is in exactly one tile. Either the DEM is empty around the tile and there is no GeoTIFF of it, or the GeoTIFF and that of the maxima have NaN exactly where exact arithmetic has, values within 0.0005 of those of exact arithmetic with the exact pixel sizes elsewhere (unless the pixel is borderline as in C117), and coordinates as in C119.", "quantifier": "all DEMs in the standard configuration that extend over at least 0.01 degrees both ways, with elevations up to 4000 m, and all land covers and tables, provided each tile is empty or has land, tiles do not overlap (C02), no pixel centre is on a border of land-cover pixels, no tile corner is on 143 E or 40 S, and no mean pixel size is at a value where a number of cells in 100 m, 200 m or 500 m changes, up to rounding; all roundings, number formats, numbers of processes, schedules and initial contents of the output folder", "why_tests_cant": "Tests use rasters with given pixel sizes or compare with stored results. Whether computed sizes, rounded corners and rounded multipliers fit together on every DEM of the kind the software is used for cannot be seen on examples.", "anchors": ["all_multipliers.py: run, get_tiles, multipliers_calculate", "utilities/get_pixel_size_grid.py: get_pixel_size, get_pixel_size_grids", "utilities/vincenty.py: vinc_dist", "utilities/convert.py: process_tile, process_max_tile, run"]}
{"id": "C122", "title": "The table of terrain classes is read as written", "statement": "A table of comma-separated values in any layout - columns in any order and further columns, descriptions in quotes with commas, number signs, quotes and line ends, comment lines, comments behind records, empty lines, either kind of line end, last line with or without one, numbers with sign, decimal point, exponent and blanks - gives the terrain step exactly the categories and roughness lengths that are written, in their order, and the shielding step the categories and percentages. For the table in the repository these are the 13 classes used in C98. Not so outside these rules: a number sign outside quotes silently removes the rest of the row, and a single category that is not a number silently disables the whole table.", "quantifier": "every list of categories and numbers, every layout of the file", "why_tests_cant": "Arbitrary texts and layouts; tests read one file.", "anchors": ["terrain/terrain_mult.py: get_terrain_table, terrain_class2mz_orig", "shielding/shield_mult.py: get_shielding_table, terrain_class2ms_orig"]}
{"id": "C123", "title": "Configuration files are read as written", "statement": "A configuration file in any layout - comments with # or ; on their own lines, empty lines, white space around names and values and at the ends of lines, = or :, capital letters in the names of options, values containing = or # - can be read as long as options begin at the margin and no section or option occurs twice. Afterwards every option that the file sets has exactly the value written, without surrounding white space, every other option keeps its value, options are found under any capitalisation of their name, and the buffer width is the number written. For multiplier_conf.cfg the width is 0.01. Not so outside these rules: a comment behind a value belongs to the value, so that a commented width ends the run with an error; an indented option silently belongs to the value of the option above, and the run goes on with the value of the default configuration.", "quantifier": "for all file texts described by such a layout, all earlier states of the configuration, all sections, options and values", "why_tests_cant": "the tests use one configuration file; a layout that is misread usually does not fail but silently uses the default configuration, which the tests do not look for", "anchors": ["utilities/config.py: _ConfigParser", "all_multipliers.py: run"]}
{"id": "C124", "title": "From the text files to the GeoTIFFs", "statement": "A run started with any configuration file that sets the options needed (in any layout of C123), the buffer width to 0.01 and the table to any file in a layout of C122 whose roughness lengths make sense, on rasters as in C97, takes the width, the file names, the output folder, the roughness lengths and the shielding percentages exactly as written; it lists its tiles, never deadlocks or fails, and when it is done every pixel of the DEM is in exactly one tile; either the DEM is empty around it, or its GeoTIFF in the folder of the configuration has the documented value for the numbers written in the table. With the table of the repository and a DEM outside Tasmania all values that are not NaN are between 0.52 (0.23 on the edge) and 1.701.", "quantifier": "for all configuration texts, table texts, rasters, numbers of processes, interleavings and files present before, under the stated conditions", "why_tests_cant": "an end-to-end statement over all files, rasters and interleavings; the tests check steps on single examples and never run the program from its configuration", "anchors": ["all_multipliers.py: run, multipliers_calculate", "terrain/terrain_mult.py: get_terrain_table, terrain_class2mz_orig", "shielding/shield_mult.py: get_shielding_table, terrain_class2ms_orig", "utilities/config.py: _ConfigParser"]}
{"id": "C125", "title": "The eight topographic directions are mirror images of each other", "statement": "For every DEM raster with at least one cell the topographic step succeeds, and mirroring the raster east-west (or north-south, or transposing it) and exchanging the corresponding directions mirrors the topographic multiplier, including unknown cells, smoothing and the edges.", "quantifier": "every raster with unknown cells, direction, cell size, position", "why_tests_cant": "The eight directions are eight separate pieces of index arithmetic (start cells, steps, spacing); a slip in one of them shows only when all of them are compared on asymmetric rasters.", "anchors": ["topographic/topo_mult.py: topomult", "topographic/make_path.py: make_path", "topographic/multiplier_calc.py: multiplier_calc"]}
{"id": "C126", "title": "The eight shielding directions are mirror images of each other", "statement": "Mirroring DEM, land cover and pixel sizes east-west (or north-south, or transposing them) and exchanging the corresponding directions mirrors the shielding multiplier. (Violated at cells of more than 3.27 degrees slope that fall exactly towards the boundary of two direction sectors, because a boundary belongs to one of them; and on grids coarser than 100 m, because there the directions are computed one from another in a fixed order.)", "quantifier": "every DEM, initial shielding with unknown cells, pixel sizes, direction", "why_tests_cant": "The kernels are eight hand-written rotations and the aspect sectors eight hand-written ranges; equality of all of them under mirroring concerns every raster.", "anchors": ["shielding/shield_mult.py: convo_combine, combine, blur_image, get_slope_aspect, reclassify_aspect, init_kern, init_kern_diag"]}
{"id": "C127", "title": "From the text files to the GeoTIFFs in double precision", "statement": "A number of at most 15 digits in the table of classes (whose last digit counts a power of ten from -15 to 15) reaches the computation as the double next to it, although pandas computes it digit by digit; likewise the buffer width in the configuration. Hence a run started with any configuration file that sets the needed options, and any table of such numbers with roughness lengths from 1 mm to 10 m, on rasters in the standard configuration, with every operation rounded, ends, never deadlocks, and every pixel of the DEM is in exactly one tile whose values are within 1/2000 of the exact ones for the numbers written in the table.", "quantifier": "every rounding to 53 bits, every layout of the text files, every table of such numbers, every interleaving, every pixel", "why_tests_cant": "The claim joins the characters of the text files with the last bits of all computations of a run; tests compare a few outputs with a tolerance chosen afterwards.", "anchors": ["terrain/terrain_mult.py: get_terrain_table, terrain_class2mz_orig", "shielding/shield_mult.py: get_shielding_table, terrain_class2ms_orig", "all_multipliers.py: run"]}
{"id": "C128", "title": "The data type of the input rasters does not change the result", "statement": "Whatever type the elevations and land-cover codes are stored with, as long as it can hold them, cut_dem and multipliers_calculate give the same files for a tile. True for 8- and 16-bit integers and single-precision floats (and 32-bit integers as land cover). False for a DEM of 32-bit integers: topomult assigns NaN to the integer array and every tile with data ends with ValueError without a topographic file. False for codes above 2^24 in an unsigned 32-bit land cover: the tile is float32 and different codes become the same.", "quantifier": "for all rasters, tables, tile extents and band types that hold the values", "why_tests_cant": "The test data has one type of DEM and one of land cover; a run with a 32-bit integer DEM is not tried, and a test with a few types would not show that all others are treated alike.", "anchors": ["all_multipliers.py: open_dem, clip_dataset, cut_dem, reproject_dataset, multipliers_calculate", "topographic/topo_mult.py: topomult", "shielding/shield_mult.py: get_slope_aspect, terrain_class2ms_orig"]}
{"id": "C129", "title": "The terrain step on mirrored land is the mirror image", "statement": "terrain on the mirror image of a land-cover tile, east-west or north-south, succeeds exactly if it does on the tile, and the arrays it saves for the mirrored directions are the mirror images, including no-data, the treatment of water, and the shortening of the average on small tiles. The same for the transposed tile if it is square or at least as high and wide as the average of every direction reaches; false for other tiles, since the number of rows cuts the average in all eight directions.", "quantifier": "for all land-cover tiles, tables, multiplier formulas and positive cell sizes", "why_tests_cant": "The eight directions are written out separately in the lookup tables; tests of single values do not compare them with each other on arbitrary tiles, and the tests use square tiles.", "anchors": ["terrain/terrain_mult.py: terrain, convo, terrain_class2mz_orig"]}
{"id": "C130", "title": "A faulty configuration or table of classes stops the run", "statement": "A run does not get through with a wrong text file. It stops with an error if the configuration lacks one of the eight needed options (and the default configuration has no value for it either), if the buffer width is empty or has a character that numbers do not have, if a line at the margin is neither a comment nor a header nor an option, if the log level is not a name Python's logging knows, if Verbose is no truth value (unless -v is given), and if the table of classes does not exist, has no record, has a record longer than the first two, lacks a needed column although it has rows, or has a text that is not a number in a column of numbers.", "quantifier": "every configuration file and every table of these kinds, every layout of them, every previous configuration", "why_tests_cant": "There are infinitely many wrong files; the tests read one configuration and one table, both right.", "anchors": ["all_multipliers.py: run", "terrain/terrain_mult.py: get_terrain_table, terrain_class2mz_orig", "shielding/shield_mult.py: get_shielding_table, terrain_class2ms_orig", "utilities/files.py: fl_start_log"]}
{"id": "C131", "title": "The multiplier files of a mirrored country are the mirror images", "statement": "A DEM and a land cover on one grid, computed as one tile, and the same rasters with east and west (or north and south) exchanged: the tile is computed for both or for neither, the same files are written, with the same coordinates, and the file of every multiplier for the mirrored direction is the mirror image of the file for the direction. For the shielding files this holds at every pixel whose computed size in metres is that of its counterpart and whose ground does not face exactly the boundary of two sectors; it is false for other pixels, since the grid of pixel widths is transposed: columns get the widths of rows.", "quantifier": "for all rasters, class tables and elevations, all eight directions and three multipliers", "why_tests_cant": "The three multipliers are computed by code written separately for the eight directions; a test compares one run with stored values and does not run a country and its mirror image, and the dependence of the shielding on the column is too small on square tiles to be seen in a single value.", "anchors": ["all_multipliers.py: cut_dem, multipliers_calculate", "terrain/terrain_mult.py: terrain", "shielding/shield_mult.py: shield, combine", "topographic/topo_mult.py: topomult", "utilities/get_pixel_size_grid.py: get_pixel_size_grids"]}
{"id": "C132", "title": "From the shape files to the GeoTIFFs", "statement": "Settlements and land use are pre-processed, burnt into a raster on the grid of the DEM with 0 as no data, and all_multipliers.py is started with that raster, any configuration file that sets the needed options with a buffer width of 0.01, and any table of classes with meaningful roughness lengths, where each tile whose DEM is not empty has a pixel of a category in the table. The run never deadlocks or fails, and when it is done every pixel of the DEM is in exactly one tile and its M3 values are the documented ones for the land cover that the shape files describe: the code of the last land-use feature under the centre of each pixel and of the settlement type that covers most of that feature. The only table in the repository has no entry for any land in a settlement and describes land outside settlements as something else (a park as city buildings).", "quantifier": "all shape files with finite areas, all orders in which the search tree and the pool deliver, all configuration files, tables, DEMs as in C97, numbers of workers and interleavings", "why_tests_cant": "Pre-processing and run are separate programs; no test joins them, and no table in the repository fits the codes that the pre-processing makes. The claim is about all shapes and all schedules.", "anchors": ["pre_process.py: pre_process, rasterize", "all_multipliers.py: run, main", "terrain/terrain_mult.py: get_terrain_table"]}
{"id": "C133", "title": "Arrays saved as text are loaded exactly", "statement": "fl_save_file followed by fl_load_file gives back every entry of an array of doubles (NaN, infinities and subnormal numbers included) in its place, whatever the header (without carriage returns), with any delimiter that does not occur in numbers, and whether lines of the header are skipped or not: 19 significant decimal digits determine a double. Axes of length one are removed, so the shape of a single row or column is lost. A file name without a directory cannot be saved, and a carriage return in the header makes a file that cannot be loaded.", "quantifier": "all arrays with one or two axes and at least one double, NaN or infinity; all headers without carriage returns; all delimiters outside the characters of numbers; all file names with a directory", "why_tests_cant": "There are 2^64 doubles; rounding to decimal digits and back is exact only by an argument about the spacing of doubles at every magnitude. No test in the repository calls the two functions.", "anchors": ["utilities/files.py: fl_save_file, fl_load_file"]}
{"id": "C134", "title": "The record in every multiplier file names the run's settings and program", "statement": "Every file of multipliers records, for each option of the configuration in use, its value under the attribute section_option, and besides that what the file is (multiplier and direction), the two rasters, the version of the program that was started, the version of the code, the time and the user, and nothing else; the version and the name of the default configuration file are those of the program that was started, from however deep in the call stack they are asked for.", "quantifier": "All configurations, stacks of calls, tiles, multipliers and directions; any layout of the configuration file", "why_tests_cant": "Tests look at one configuration with names that do not clash and at calls from one depth; that no other configuration loses an entry, and that the depth does not matter, has to be shown for all of them.", "anchors": ["utilities/nctools.py: save_multiplier", "utilities/files.py: fl_program_version, fl_config_file, fl_module_path, fl_module_name"]}
{"id": "C135", "title": "Converting a folder on its own gives every tile in it exactly its rasters and changes nothing else", "statement": "When mpi_runner.py is started on a folder of multipliers, whatever else is in the folder, with any number of processes: after a completed conversion every tile named by a file of the shielding folder has the GeoTIFF made of exactly the multipliers the folder held, and that of the maxima; the virtual rasters list these tiles once each, in the same order; no other file is changed, made or removed. The result does not depend on the number of processes or their interleaving, nor does converting again change it (but for the order in the virtual rasters), in particular not after a run of all_multipliers.py. The conversion takes a bounded number of steps and completes whenever every named tile can be converted, and never otherwise.", "quantifier": "All contents of the folder and of all other folders, all numbers of processes and all interleavings of their steps, any rasters", "why_tests_cant": "Tests convert one small folder with one process; what a stray file, an earlier result or another interleaving does has to be shown for all of them.", "anchors": ["utilities/mpi_runner.py: parallelise_convert_on_tiles", "utilities/convert.py: run, process_tile, process_max_tile, create_sub_dirs_for_convert"]}
{"id": "C136", "title": "An interrupted run or conversion can simply be repeated", "statement": "If a run of all_multipliers.py with any number of processes is interrupted at any moment and run again, with any number of processes and the tiles in any order, the result is that of a run that was not interrupted (but for the order in the virtual rasters); the same holds of a conversion by mpi_runner.py. At every moment of a run nothing outside the output folder is changed, and from the moment the folder was emptied every file in it is a temporary raster of one of the tiles or holds exactly what it is to hold in the end: no file of an earlier run and no GeoTIFF of incomplete multipliers is among them.", "quantifier": "All contents of the file system, all moments of interruption, all interleavings and numbers of processes, any tiles and rasters", "why_tests_cant": "A test would have to stop the run at every one of its steps in every interleaving of the processes.", "anchors": ["all_multipliers.py: run, do_output_directory_creation, multipliers_calculate, parallelise_on_tiles", "utilities/mpi_runner.py: parallelise_convert_on_tiles", "utilities/convert.py: run, process_tile, process_max_tile"]}
{"id": "C137", "title": "What the converter makes of an interrupted run", "statement": "If a run is interrupted at any moment after the output folder was emptied, and the files it left are converted with mpi_runner.py, then every GeoTIFF that is made is that of a completed run.", "quantifier": "All moments of interruption, all interleavings and numbers of processes of the run and of the conversion, any tiles and rasters", "why_tests_cant": "The tiles that were being computed look complete to the converter, which takes missing multipliers for 1 with no more than an entry in the log; whether that can happen depends on the moment of the interruption.", "anchors": ["all_multipliers.py: run, multipliers_calculate", "utilities/mpi_runner.py: parallelise_convert_on_tiles", "utilities/convert.py: run, process_tile"]}
{"id": "C138", "title": "Exaggerating the relief never lowers a topographic multiplier", "statement": "If all elevations are multiplied by the same factor of at least 1, the ground plan being the same, the topographic multiplier of no cell falls, in any direction.", "quantifier": "All elevation models with or without gaps, all factors, all cell sizes, all cells and directions, in and outside Tasmania", "why_tests_cant": "The formula has thresholds (slopes of 0.05 and 0.45, 10 m, the zone of separation, a cap, reaches growing with the height) at any of which the multiplier could drop; samples do not hit them.", "anchors": ["topographic/mh.py: mh_calc, escarpment_factor", "topographic/multiplier_calc.py: multiplier_calc", "topographic/topo_mult.py: topomult, remove_conservatism, tasmania"]}
{"id": "C139", "title": "The same country further east or west has the same multipliers", "statement": "If elevations, land cover and tables stay as they are and only the western edges of both rasters move by the same number of degrees, the raster is cut into the same tiles, the pixels keep their sizes in metres, and every multiplier file and combined GeoTIFF of a tile has the same cells, with the longitudes moved.", "quantifier": "All inputs, distances, tiles, multipliers and directions, whether the computation of a tile ends well or not", "why_tests_cant": "Longitude enters at a dozen places (tile extents, clipping, resampling, geodesics, coordinates, the Tasmania test); a mistake in one of them shows only at some longitudes, and tests use one or two.", "anchors": ["all_multipliers.py: multipliers_calculate, clip_dataset, reproject_dataset, get_tile_extent, get_tile_extent_buffer", "utilities/get_pixel_size_grid.py: get_pixel_size, get_pixel_size_grids", "utilities/vincenty.py: vinc_dist", "utilities/nctools.py: clip_array, get_lat_lon", "topographic/topo_mult.py: topomult", "utilities/convert.py: process_tile"]}
{"id": "C140", "title": "The numbers of the land cover classes are names", "statement": "If the land cover classes are renumbered, in the raster and in the tables alike and no two classes with the same number, every multiplier file stays the same. Only the last rows of the classes that occur count: rows that are overridden by later ones, rows of classes that do not occur, and the order of rows of different classes make no difference.", "quantifier": "All renumberings, all inputs, tables and tiles, whether the computation of a tile ends well or not", "why_tests_cant": "Some numbers may have a meaning of their own in the code; which ones, tests with the usual numbers 1 to 13 do not tell.", "anchors": ["terrain/terrain_mult.py: terrain_class2mz_orig, terrain", "shielding/shield_mult.py: terrain_class2ms_orig, shield", "all_multipliers.py: reproject_dataset, multipliers_calculate"]}
{"id": "C141", "title": "The layout of the text files does not matter", "statement": "Two configuration files that set the same options to the same values (whatever the name of the file, the order of sections and options, blanks, empty lines and comments), naming tables that give the same values (whatever the layout, the order of the columns, the spelling of the numbers), give a run the same settings or stop it with the same error. If moreover the rows of the table are in another order, no category occurring twice, every multiplier file of every tile is the same.", "quantifier": "All pairs of texts of configuration files and tables in the described formats, all states of the configuration before, all inputs and tiles", "why_tests_cant": "There are infinitely many layouts of the same content.", "anchors": ["utilities/config.py: _read_file, set_config_file", "all_multipliers.py: run, multipliers_calculate", "terrain/terrain_mult.py: terrain, get_terrain_table", "shielding/shield_mult.py: shield, get_shielding_table"]}
{"id": "C142", "title": "The same country higher or lower has the same multipliers", "statement": "If all elevations are raised (or lowered) by the same whole number of metres, every multiplier file of a tile is the same; for terrain and shielding by any amount. Fails, as proved: for tiles with gaps in the elevations, for fractions of metres (topographic multiplier), for Tasmania above 500 m, and for tiles entirely at sea level, which count as empty.", "quantifier": "All inputs, tiles without gaps in the elevations, all amounts; the file names and the values of all eight directions", "why_tests_cant": "The claim compares runs over all pairs of rasters and amounts.", "anchors": ["topographic/topo_mult.py: topomult, tasmania", "topographic/multiplier_calc.py: multiplier_calc", "shielding/shield_mult.py: get_slope_aspect, combine", "all_multipliers.py: clip_dataset, multipliers_calculate"]}
{"id": "C143", "title": "The name of the output folder does not matter, and other folders are left alone", "statement": "Two completed runs over the same tiles into any two folders, with any numbers of processes and whatever was there before, leave the same file (or none) at every path below their folders; the virtual rasters list the GeoTIFFs of their own folder. A run never changes a file below a folder that neither contains its output folder nor lies in it, at no moment, so runs into different folders leave both results. A run into a folder that contains the output folder of an earlier run removes the results of that run.", "quantifier": "All run parameters, all schedules, all folders, all files present before", "why_tests_cant": "The number of schedules and folder names is unlimited.", "anchors": ["all_multipliers.py: run, do_output_directory_creation, multipliers_calculate", "utilities/convert.py: process_tile, process_max_tile", "utilities/mpi_runner.py: parallelise_convert_on_tiles"]}
{"id": "C144", "title": "The rasterising tool writes the attribute it was asked for and nothing else", "statement": "The command-line tool, given a shape file, an attribute, a raster of elevations and perhaps a mask, writes the map of that attribute on the grid of the elevations: a pixel has the value of the last feature that contains its centre, and 0 if there is none or if the centre is outside of the mask.  It touches no file but those it documents, and reports when an input is missing.", "quantifier": "all shape files, attributes, grids, masks and folders", "why_tests_cant": "the options combine with every folder content, also with files left by earlier calls; a test uses one clean folder", "anchors": ["rasterize.py: cmdline", "pre_process.py: rasterize"]}
{"id": "C145", "title": "The pre-processing script turns the files of its configuration into the land-cover raster", "statement": "Whatever configuration text names the layers, their attributes, the mask, the outputs and the elevations, the script writes the coded features and the land-cover raster under the names given: on the grid of the elevations named (or of the multipliers' DEM if the option says True), with the land cover that the layers describe, cut to the mask unless that is None.  Other files are left alone; when it ends with an error it has written at most the shape file.", "quantifier": "all configuration texts, layers (also with features without geometry), masks, grids and folders", "why_tests_cant": "the layout of the configuration, the layers and the contents of the folder vary freely; tests run one configuration on small layers", "anchors": ["pre_process.py: pre_process, rasterize, cmd_line", "utilities/shapefiles.py: read, save", "utilities/config.py: set_config_file"]}
{"id": "C146", "title": "One configuration file drives the pre-processing and the run", "statement": "If the configuration names the raster that the pre-processing writes as the land cover of the run, and the DEM of the run as the grid, then the pre-processing script followed by a run with the same configuration file gives every pixel of the DEM the documented multiplier for the land cover that the two layers describe.  The DEM, the table and the configuration are as before when the run reads them.", "quantifier": "all configuration texts, layers, masks, tables, DEMs, numbers of processes and schedules", "why_tests_cant": "two programs in sequence on files that vary freely; the second is parallel", "anchors": ["pre_process.py: pre_process, rasterize", "all_multipliers.py: run, get_tiles"]}
{"id": "C147", "title": "A larger map has the same multipliers in its old part", "statement": "If the input rasters are extended by columns in the east or rows in the south, every tile whose buffered pixels do not reach an old edge beyond which the rasters now go on is again a tile of the run, with the same pixels, area and name, and its GeoTIFFs hold the same values on the same coordinates, whatever lies in the added part. A tile that does reach such an edge need not be a tile of the larger map.", "quantifier": "For all pairs of rasters with the same corner and pixel size of which one is larger, all inputs that agree within the buffered limits of the tile, all pixels, all numbers of processes, schedules, output folders and earlier contents of the disk", "why_tests_cant": "The area is usually extended after a first run; a test would have to run the whole program twice on large rasters, and tile numbers differ between the runs, so that a fault in the numbering or in the clamping of buffers at the edge shows only for some pairs of sizes.", "anchors": ["all_multipliers.py: __init__, tile_grid, get_gridlimit_buffer, get_gridlimit, get_tilename, get_tile_extent, get_tile_extent_buffer, cut_dem, multipliers_calculate"]}
{"id": "C148", "title": "Several runs at the same time into folders apart from each other do not disturb each other", "statement": "Start the program any number of times on one machine, each with its own configuration and any number of processes, and let the steps of all processes of all runs be interleaved in any way on the common files. If no output folder contains (or is) another, then at any moment each run is where it could be after as many steps alone, with exactly the same files below its folder; nothing outside the folders has changed; a run that is through has left its multipliers, GeoTIFFs, maxima and virtual rasters, whatever the others are doing; and no run holds up another: each can go on as long as it is not through, and all can be completed. The same holds for one run beside any other programs that leave its folder alone. With one common folder it fails: the run started later removes the results of the earlier one.", "quantifier": "all finite or infinite families of run configurations (output folders not ending in two slashes, pairwise not containing each other, distinct tile names of the usual form), all initial files, all interleavings of the steps of all processes; for completion finite families whose rasters have matching shapes", "why_tests_cant": "Runs side by side are interleaved by the operating system: a test sees one interleaving, with two particular folders.", "anchors": ["all_multipliers.py: run, do_output_directory_creation, parallelise_on_tiles, multipliers_calculate", "utilities/mpi_runner.py: parallelise_convert_on_tiles", "utilities/convert.py: process_tile, process_max_tile"]}
{"id": "C149", "title": "How the land-cover map is stored does not matter", "statement": "Of the land-cover raster only the classes at the centres of the DEM's pixels matter: completed runs with two land-cover rasters of any extent, position and resolution that show the same classes at these points (a point without class counting as class 0) leave the same values in all bands and in the maxima, for every pixel. In particular nothing changes, for any tile and for a whole run, if every cell of the land-cover raster is cut into m by n equal cells, or if the raster gets a margin of cells without data on any side.", "quantifier": "all inputs, all tiles, all cuttings m, n > 0, all widths of the margin, all other land-cover rasters with eastward and southward cells; for whole runs the conditions of C96, any numbers of processes and schedules", "why_tests_cant": "A test compares two particular rasters; that resampling to the DEM grid picks the same cell for every position and resolution is a statement about all real coordinates.", "anchors": ["all_multipliers.py: reproject_dataset, multipliers_calculate, clip_dataset", "terrain/terrain_mult.py: terrain_class2mz_orig", "shielding/shield_mult.py: terrain_class2ms_orig"]}
{"id": "C150", "title": "The arrangement of the shape files does not matter", "statement": "If two sets of shape files say the same (the same area processed; for every settlement type the same points; the same land-use outlines with the same uses), pre-processing gives the same land-cover class at every pixel, and completed runs on the two rasters leave, for every pixel, both no GeoTIFF or the same multipliers and maxima. So the order of the features, the cutting of settlements into features, the names of the fields, other fields and the order in which the pool of processes finishes do not matter. The land-use features themselves must not be cut: a feature gets the type of settlement that covers most of it, so its parts may get another class.", "quantifier": "all pairs of sets of shape files with finite areas that say the same, where no pixel centre is in two different land-use features and no feature is shared evenly by settlement types; all grids, worker counts, orders of search and of finishing, completed runs", "why_tests_cant": "the shape files in the tests come in one arrangement; whether another arrangement of the same content gives the same raster and the same multipliers is never compared", "anchors": ["pre_process.py: pre_process, rasterize", "utilities/shapefiles.py: shp_file.dissolve, shp_file.crop, shp_file.spatial_join", "all_multipliers.py: run"]}
{"id": "C151", "title": "The programs start where they find their modules", "statement": "Started from the folder of the program as documented, with everything installed that its files import from elsewhere, the main program and the tools get past their import statements. For the main program this holds if and only if modules meta, convert and parallel are found along sys.path, i.e. if utilities is on PYTHONPATH or something else has these names; the converter of the run is then the one found there. The pre-processing and the rasterising tool need nothing more than the installed packages.", "quantifier": "all search paths that begin with the folder of the program, with any foreign folders and folders of the repository after it, whatever modules, names and packages they have", "why_tests_cant": "the tests put the folder utilities on the search path themselves, and so does the continuous integration; the documented way of starting is never tried, let alone other search paths", "anchors": ["all_multipliers.py: run", "utilities/blrb.py: interpolate_grid", "utilities/mpi_runner.py: parallelise_convert_on_tiles", "pre_process.py: pre_process", "utilities/meta.py: print_call", "utilities/parallel.py: attempt_parallel"]}
{"id": "C152", "title": "Logging the calls changes nothing", "statement": "The decorator that logs calls leaves the functions it decorates as they are: with any arguments, by position, by keyword or by default, the decorated function returns the same value or raises the same exception and changes the same things. The message of a call tells every parameter once, with the value the function receives; the messages are nested like brackets, with SUCCESS! exactly for the calls that returned. The interpolation of the pixel sizes with its five decorated functions has the result it has without them, and logs 5*4^depth - 1 calls.", "quantifier": "all functions with parameters of this kind, all arguments (also such as do not fit), all loggers that raise no exception, all states; for the interpolation all depths, blocks, grids and evaluators", "why_tests_cant": "no test looks at the log, and tests run with one setting of the logger; a call with arguments that do not fit is never made", "anchors": ["utilities/meta.py: create_arg_string, print_call", "utilities/blrb.py: bilinear, indices, subdivide, interpolate_block, interpolate_grid", "utilities/get_pixel_size_grid.py: get_pixel_size_grids"]}
{"id": "C153", "title": "What the program tells about a file is so", "statement": "fl_get_stat gives the folder, the name, the checksum of the whole content and the time of modification of a file that can be read, an IOError for a name without such a file and a TypeError for what is not a text. fl_size and fl_mod_date give the size and the time of modification of what is there under the name. The dates of fl_get_stat and of fl_mod_date tell the same: two are equal if and only if the local times are equal to the second, and those of fl_mod_date are in the order of local time for years of four digits. fl_log_fatal_error logs one message for each line, in this order and without the blanks it begins with, and ends the program, with the exit status of success.", "quantifier": "all contents, names, chunk sizes other than zero, hash functions, local times, and things that are not names; all lists of lines", "why_tests_cant": "no test calls these functions; names with several slashes, null characters, descriptors and years are unbounded", "anchors": ["utilities/files.py: fl_get_stat, fl_mod_date, fl_size, fl_log_fatal_error"]}
{"id": "C154", "title": "What is saved of a tile describes it", "statement": "A tile is saved if and only if there are coordinates and the values have their shape; the file then holds the coordinates as they are, the value of each cell rounded to the type of the file, NaN where there was NaN, and dimensions in the order latitude, longitude. The attribute actual_range of each variable gives the smallest and the largest of its values. (Violated for the topographic multipliers: they are doubles, the file rounds them to single precision but not the ends of the range.) nc_create_var stores the data it is given. (Violated for arrays: several values raise an error, a single zero is passed over.)", "quantifier": "all grids of values with NaN, all coordinates, all monotone roundings; all lists and arrays for nc_create_var", "why_tests_cant": "tests use values that single precision holds; nc_create_var is only called without data", "anchors": ["utilities/nctools.py: save_multiplier, nc_save_grid, nc_create_dim, nc_create_var"]}
{"id": "C155", "title": "The land use is saved with its codes", "statement": "Pre-processing saves every feature of land use, in order, with its geometry, the settlement found for it, the code of settlement and land use as CAT, and all its other attributes unchanged; if a feature has no land use, it stops before anything is saved. (Violated with a crop mask: what is left of a polygon inside the mask can have a line besides its area, which cropping keeps and the schema of the file does not allow; the program stops and the file holds only the features before it. If the attributes of settlement and land use have the same name, the land use is lost and all codes are multiples of 100.)", "quantifier": "all lists of features that have the names of their schema, all names of attributes, all closed regions as geometries", "why_tests_cant": "the mask must share an edge with a feature; tests crop with masks that do not and look at the codes only", "anchors": ["utilities/shapefiles.py: save, crop, spatial_join", "pre_process.py: pre_process"]}
{"id": "C156", "title": "Without mpi4py the program does the same as with one process", "statement": "If mpi4py is not installed, the substitute communicator answers as mpi4py does with one process: a program that finishes on one process and does not call MPI.Status() finishes in the same state. The program itself calls nothing that the substitute does not have: with one process, with and without mpi4py, it opens the DEM, computes all tiles in their order, converts all tiles that were written and builds the virtual rasters of the results, and ends with the first error there is.", "quantifier": "all programs that call the communicator; all lists of tiles, all states, all outcomes of the parts of the program", "why_tests_cant": "tests run either with or without mpi4py; a missing method of the substitute shows only where it is not installed", "anchors": ["utilities/parallel.py: attempt_parallel, scatter, gather, barrier", "all_multipliers.py: parallelise_on_tiles, run", "utilities/mpi_runner.py: parallelise_convert_on_tiles"]}
