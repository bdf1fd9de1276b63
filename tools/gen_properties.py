#!/usr/bin/env python3
"""Regenerates /verif/properties.jsonl.  Plain data: one P(...) per property."""
import json, os
rows = []
def P(title, statement, quantifier, why, anchors):
    rows.append(dict(id="C%02d" % (len(rows) + 1), title=title, statement=statement,
                     quantifier=quantifier, why_tests_cant=why, anchors=anchors))

# ---------------------------------------------------------------- tile grid
P("Tiles cover the whole raster",
  "Every pixel of the input raster lies inside the unbuffered limits of at least one tile returned by the tile grid, so no part of the map is left without a multiplier.",
  "every raster size, every positive pixel size, every non-negative upwind buffer, every pixel",
  "A test fixes one raster; the limits are reconstructed from clipped buffered limits, so the claim depends on every ratio of raster size, tile size and buffer.",
  ["all_multipliers.py: TileGrid.__init__, TileGrid.tile_grid, TileGrid.get_gridlimit"])
P("Tiles do not overlap",
  "No pixel lies inside the unbuffered limits of two different tiles. (The code violates this for some raster sizes: the exact condition on raster size, tile size and buffer under which it holds is part of the claim.)",
  "every raster size, pixel size and buffer; every pair of tiles; every pixel",
  "Overlap appears only when the last row/column of tiles is not wider than the buffer or the buffer is at least a tile wide; a sample of rasters does not find the boundary.",
  ["all_multipliers.py: TileGrid.get_gridlimit"])
P("Buffered limits surround the unbuffered ones and stay in the raster",
  "For every tile the buffered limits are inside the raster, contain the unbuffered limits, and extend at least `buffer` cells (or to the raster edge) beyond the tile's own cells on each side.",
  "every raster size, pixel size, buffer; every tile",
  "Clipping at both raster edges interacts with the buffer; needs all sizes.",
  ["all_multipliers.py: TileGrid.tile_grid, TileGrid.get_gridlimit_buffer, TileGrid.get_gridlimit"])
P("Different tiles get different names",
  "Two different tiles never get the same name (the name keys every intermediate and output file), provided the tiles do not overlap and coordinates have at most five integer digits. When the buffer is at least one tile wide two tiles do share a name.",
  "every tile grid meeting the condition; every pair of tiles",
  "The name is a truncated decimal rendering of a float; collisions depend on coordinates, not on code paths.",
  ["all_multipliers.py: TileGrid.get_startcord, TileGrid.get_tilename"])
P("Tile extents are the geographic corners of the tile's limits",
  "The extent handed out for a tile (with or without buffer) has the longitude/latitude of the pixel corners given by that tile's limits in the raster's geotransform, is non-empty, and the buffered extent contains the unbuffered one.",
  "every geotransform with positive pixel sizes, every tile",
  "Sign flips of latitude are easy to get right for one hemisphere only.",
  ["all_multipliers.py: TileGrid.get_tile_extent, TileGrid.get_tile_extent_buffer"])
# ---------------------------------------------------------------- geo clip
P("Clipping a buffered tile returns exactly the tile's own cells",
  "Clipping an array computed on the buffered tile with the unbuffered extent returns the block of cells of the unbuffered limits, in order, with as many rows/columns as the latitude/longitude vectors saved beside it; this is insensitive to coordinate errors below an eighth of a pixel (floating-point noise).",
  "every tile grid, every tile, every array content, every perturbation of the coordinates below the bound",
  "Rounding of quotients of coordinates; one extent tests one rounding.",
  ["utilities/nctools.py: clip_array, get_lat_lon", "all_multipliers.py: TileGrid.get_tile_extent"])
P("Saved coordinates are the pixel centres",
  "The longitude and latitude vectors saved with a tile are the centres of the cells of that tile in the input raster's geotransform: longitudes strictly increase, latitudes strictly decrease, all strictly inside the extent, one pixel apart.",
  "every tile grid, every tile, every cell",
  "Half-pixel and orientation errors show only against the global raster.",
  ["utilities/nctools.py: get_lat_lon"])
# ---------------------------------------------------------------- MPI dispatch
P("Every tile is computed exactly once, whatever the schedule",
  "When the parallel tile computation finishes, the multiset of tiles on which the multipliers were computed equals the multiset of tiles handed in, for any number of workers and any arrival order of results; at no moment has a tile been computed twice.",
  "every number of tiles, every number of workers, every interleaving of master and workers",
  "Interleavings of message arrivals cannot be enumerated by tests.",
  ["all_multipliers.py: Multipliers.parallelise_on_tiles"])
P("The parallel run always terminates without deadlock",
  "If no worker fails, every execution of the master/worker exchange is finite, and it can only stop when the master has returned, every worker has returned and no message is left undelivered.",
  "every number of tiles (including fewer tiles than workers and none), every number of workers, every schedule",
  "Deadlocks depend on schedules and on the number of idle workers.",
  ["all_multipliers.py: Multipliers.parallelise_on_tiles"])
P("A failed worker is never reported as success",
  "If a worker dies while computing a tile, the master never returns from the tile computation: the run hangs, it never goes on to the conversion step with tiles missing.",
  "every crash point of every worker, every schedule",
  "Crash points times schedules.",
  ["all_multipliers.py: Multipliers.parallelise_on_tiles"])
P("Serial fallback computes the same tiles as a parallel run",
  "With one process the tiles are computed one after the other in the given order, each exactly once, so the serial run and every parallel run compute the same multiset of tiles.",
  "every tile list, every number of workers, every schedule",
  "Equivalence of two programs over all schedules.",
  ["all_multipliers.py: Multipliers.parallelise_on_tiles"])
P("Temporary rasters are removed and outputs survive",
  "After a completed run no temporary DEM or land-cover raster is left in the output directory and every multiplier file that was written is still there, whatever the order in which tiles (with distinct names) were processed and whichever tiles were empty.",
  "every list of tiles with distinct names, every pattern of empty tiles, every processing order",
  "Histories of file creation and removal over all tile orders.",
  ["all_multipliers.py: Multipliers.cut_dem, Multipliers.multipliers_calculate", "shielding/shield_mult.py: convo_combine"])
# ---------------------------------------------------------------- conversion
P("Scattered conversion work is a partition of the tiles",
  "The strided slices handed to the ranks for conversion together contain every tile exactly once, and the sizes of two ranks' shares differ by at most one.",
  "every list of tiles, every number of ranks",
  "Strided slicing over all lengths and sizes.",
  ["utilities/mpi_runner.py: parallelise_convert_on_tiles"])
P("The virtual raster lists every converted tile exactly once",
  "The list of files handed to the virtual-raster builder contains the GeoTIFF of every tile found in the shielding directory exactly once, in both the all-direction and the maximum mosaic, for any number of ranks.",
  "every directory listing, every number of ranks",
  "Depends on the gather/reduce over all ranks.",
  ["utilities/mpi_runner.py: parallelise_convert_on_tiles", "utilities/convert.py: Converter.run"])
P("Producer and consumer agree on file names",
  "For every tile name without underscore, the names under which the terrain, shielding and topographic steps save a direction are exactly the names the converter opens, the tile name is recovered from the shielding directory listing, and the direction recorded in the file metadata is the direction computed.",
  "every tile name, every direction, every multiplier",
  "String surgery (splitext, slices, split) must be right for every name, including names with several dots.",
  ["terrain/terrain_mult.py: terrain", "shielding/shield_mult.py: convo_combine", "topographic/topo_mult.py: topomult", "utilities/convert.py: Converter.process_tile", "utilities/mpi_runner.py: parallelise_convert_on_tiles", "utilities/nctools.py: save_multiplier"])
P("Each GeoTIFF band is the product of the three multipliers of its direction",
  "In the converted tile the band described as direction d holds, in every cell, the product of the shielding, terrain and topographic multiplier of direction d in that cell; a missing terrain or topographic file counts as 1.",
  "every tile content, every direction, every cell, every subset of missing files",
  "All contents and all subsets of missing files.",
  ["utilities/convert.py: Converter.process_tile"])
P("A missing multiplier file does not stop the conversion",
  "A tile whose terrain or topographic file is missing is still converted. (Violated for non-square tiles: the replacement array is transposed.)",
  "every tile shape, every subset of missing files",
  "Only non-square tiles fail; the repository's fixture is square.",
  ["utilities/convert.py: Converter.process_tile"])
P("The maximum raster dominates all directions",
  "In the maximum raster each cell is greater than or equal to the cell of every direction band of the same tile and equal to one of them.",
  "every tile content, every cell, every direction",
  "All contents.",
  ["utilities/convert.py: Converter.process_max_tile"])
P("No-data stays no-data in the product",
  "A cell that is no-data (-9999) in one of the three multipliers is no-data (-9999) in the product band. (Violated: the raw product of the fill value is written.)",
  "every cell value of the other multipliers",
  "The written value depends on the other two multipliers; only some values expose it.",
  ["utilities/convert.py: Converter.process_tile"])
# ---------------------------------------------------------------- terrain
P("The terrain average reads only existing cells strictly upwind",
  "For every cell and direction the terrain averaging reads only cells inside the raster (no negative index wrapping round), all lying exactly in the upwind direction, at distances lag+1 ... lag+width.",
  "every raster size, every cell, every direction, every averaging width and lag",
  "Index arithmetic for eight directions over all sizes.",
  ["terrain/terrain_mult.py: convo", "utilities/value_lookup.py: ALL_NEIGHB, POINT_R, POINT_C"])
P("The terrain multiplier is the mean of the available upwind cells",
  "The convolved value of a cell is the arithmetic mean of the initial multipliers over all existing upwind cells at distances lag+1 ... lag+width, and the cell's own initial value when there is none.",
  "every raster, cell, direction, averaging width >= 1, lag >= 0",
  "A functional specification over all rasters.",
  ["terrain/terrain_mult.py: convo"])
P("Terrain averaging stays in range and keeps uniform terrain",
  "The averaged multiplier lies between the minimum and maximum initial multiplier of the raster; a uniform raster is unchanged.",
  "every raster, direction, width, lag",
  "All contents.",
  ["terrain/terrain_mult.py: convo"])
P("Terrain multipliers are seamless across tiles",
  "If the tile buffer is at least lag+width cells, then averaging on the buffered tile gives, on every cell of the tile, the same value as averaging on the whole raster.",
  "every raster, every tile of every tile grid, every direction, width and lag with lag+width <= buffer",
  "Equality of a tiled and an untiled computation over all tilings.",
  ["all_multipliers.py: TileGrid", "terrain/terrain_mult.py: convo"])
P("The terrain average fails exactly when its width is zero and a neighbour exists",
  "The terrain averaging raises ZeroDivisionError exactly when the averaging width is zero and some cell has an upwind cell beyond the lag; otherwise it returns. The widths computed from the grid are zero for coarse grids in the diagonal directions, so the failure is reachable.",
  "every raster size, direction, width, lag; every grid width",
  "The fixture grids are fine; coarse grids are a whole input region.",
  ["terrain/terrain_mult.py: terrain, convo"])
P("The eight terrain directions are mirror images of each other",
  "Mirroring the raster east-west (north-south, or transposing it) and exchanging the corresponding directions mirrors the terrain multiplier.",
  "every raster, direction, width, lag",
  "Symmetry over all rasters.",
  ["terrain/terrain_mult.py: convo", "utilities/value_lookup.py"])
P("Terrain reclassification follows the table",
  "Each cell gets the multiplier of the last table row with its category and 0 when no row has its category; a raster with no known category produces no terrain output.",
  "every raster, every table including duplicate categories",
  "All tables.",
  ["terrain/terrain_mult.py: terrain_class2mz_orig, terrain"])
P("Rougher terrain gives a lower initial multiplier",
  "On roughness lengths for which the formula is defined, the initial terrain multiplier strictly decreases with roughness length; it is 0.704 at 1 m, 1.1048 at 0.002 m, 0.7655 at 0.2 m and 0.681 at 2 m (each within 0.0005).",
  "every pair of roughness lengths",
  "Monotonicity over the reals.",
  ["terrain/terrain_mult.py: terrain_class2mz_orig"])
P("No-data terrain cells are no-data in every terrain output",
  "A cell without terrain class is NaN in the terrain multiplier of every direction. (Violated when the tile is shorter than the lag distance: it is written as 1.0.)",
  "every raster, direction, grid width",
  "Two code paths; only tiny tiles take the second.",
  ["terrain/terrain_mult.py: terrain"])
# ---------------------------------------------------------------- shielding
P("Aspect classes are the eight compass sectors",
  "Every aspect from 0 to 360 degrees gets exactly the class of the compass direction whose bearing is within 22.5 degrees of it; anything else (NaN, out of range) gets class 9.",
  "every real aspect value",
  "Boundaries of nine intervals over the reals.",
  ["shielding/shield_mult.py: reclassify_aspect", "utilities/value_lookup.py: DIRE_ASPECT"])
P("The slope correction touches exactly one wind direction",
  "For a given cell with an aspect in 0..360, among the eight wind directions exactly one is affected by the cell's slope; for all others the shielding value does not depend on the slope.",
  "every aspect, slope, shielding value",
  "Quantifies over all values for eight directions.",
  ["shielding/shield_mult.py: combine, reclassify_aspect", "utilities/value_lookup.py: DIRE_ASPECT"])
P("Shielding kernels are averaging kernels over the upwind sector",
  "For each direction and each size >= 1 the kernel has non-negative entries summing to 1, zero at its centre, and after convolution weights only cells in the upwind direction.",
  "every kernel size, every direction",
  "All sizes; tests fix size 3.",
  ["shielding/shield_mult.py: init_kern, init_kern_diag, kern_w, kern_e, kern_n, kern_s, kern_ne, kern_nw, kern_sw, kern_se"])
P("Smoothed shielding stays in range",
  "Convolving initial shielding values from an interval containing 1 gives values in the same interval; an unshielded raster (all 1) stays unshielded up to and including its edges.",
  "every raster, direction, kernel size",
  "All contents.",
  ["shielding/shield_mult.py: blur_image, convo_combine"])
P("Shielding convolution is seamless across tiles",
  "If the tile buffer is at least the kernel size, the convolution on the buffered tile equals the convolution on the whole raster on every cell of the tile.",
  "every raster, tile grid, tile, direction, kernel size <= buffer",
  "Equality of tiled and untiled computation over all tilings.",
  ["shielding/shield_mult.py: blur_image", "all_multipliers.py: TileGrid"])
P("Shielding multiplier is bounded and monotone",
  "The final shielding multiplier is the initial value, moved towards 1 by the slope weight (0 below 3.27 degrees, 1 from 12.30 degrees, linear between) where the ground falls towards the wind direction, then times 0.9 below 0.9 and squared from 0.9 on. For initial shielding in [0,1] the final shielding multiplier is in [0,1], never above the slope-adjusted value, non-decreasing in the initial shielding value and in the slope, and continuous at the 0.9, 3.27 and 12.30 thresholds.",
  "every shielding value, slope, aspect, direction",
  "Piecewise real function over its whole domain.",
  ["shielding/shield_mult.py: combine"])
P("Steep slopes facing the wind remove shielding",
  "A data cell whose slope is at least 12.30 degrees and whose aspect faces the wind has shielding multiplier exactly 1; a cell with slope at most 3.27 degrees is not affected by slope.",
  "every shielding value, slope, aspect, direction",
  "Over the reals.",
  ["shielding/shield_mult.py: combine"])
P("Shielding no-data is preserved by the slope correction",
  "The slope/aspect step returns NaN exactly in the cells that were NaN before it.",
  "every array",
  "All contents, including sentinel collisions with -99.",
  ["shielding/shield_mult.py: combine"])
P("No-data land cover is no-data in the shielding output",
  "A no-data land-cover cell is NaN in the shielding multiplier. (Violated: the kernels skip the centre cell, so the hole moves downwind.)",
  "every raster, direction, kernel size",
  "Depends on neighbourhood content.",
  ["shielding/shield_mult.py: terrain_class2ms_orig, convo_combine, blur_image"])
P("Initial shielding follows the table",
  "Each land-cover cell gets the shielding of the last table row with its category divided by 100, and 1 when no row matches.",
  "every raster, every table",
  "All tables.",
  ["shielding/shield_mult.py: terrain_class2ms_orig"])
P("Aspect is the downslope compass heading and slope the steepness",
  "In every raster of elevations, slope and aspect class of a cell are those of the steepness and heading of the fall given by the weighted elevation differences around it; the slope is unknown exactly if the cell or a neighbour is. For a non-flat cell the computed aspect is the compass heading (clockwise from north) of the downslope direction and lies in [0,360); the slope in degrees is the angle whose tangent is the gradient norm and lies in [0,90).",
  "every raster and cell; every gradient",
  "Trigonometric identity over the reals, four quadrants.",
  ["shielding/shield_mult.py: get_slope_aspect"])
P("Slope and aspect do not depend on the datum",
  "Adding a constant to the elevation changes neither slope nor aspect, and on a planar surface the interior slope equals the plane's gradient.",
  "every elevation raster, every constant, every plane",
  "All rasters.",
  ["shielding/shield_mult.py: get_slope_aspect"])
# ---------------------------------------------------------------- topographic
P("Paths visit every cell exactly once per direction",
  "For each of the eight directions the paths started from the computed boundary positions visit every cell of the raster exactly once, so every cell gets its topographic multiplier from exactly one line.",
  "every raster size, every direction, every cell",
  "All sizes; float index arithmetic.",
  ["topographic/make_path.py: make_path", "topographic/topo_mult.py: topomult"])
P("Paths run downwind in straight lines from edge to edge",
  "A path stays inside the raster, consecutive cells are neighbours in the wind direction, and it starts and ends at the raster boundary.",
  "every raster size, direction, start",
  "All sizes.",
  ["topographic/make_path.py: make_path"])
P("Ridge finding returns exactly the local maxima",
  "On a line that is not flat the ridges are exactly the positions reached by a strict rise (or the line start, unless it is a plateau followed by a rise) and not followed by a rise, in increasing order and never adjacent; a flat line has none.",
  "every elevation line of every length",
  "All lines; index surgery on boundary cases.",
  ["topographic/findpeaks.py: findpeaks"])
P("Valley finding is ridge finding on the inverted, reversed line",
  "Valleys are exactly the positions followed by a strict rise (or the line end, unless it is a plateau preceded by a rise) and not preceded by a rise, in increasing order.",
  "every elevation line of every length",
  "All lines.",
  ["topographic/findpeaks.py: findvalleys"])
P("Every ridge is paired with the foot of the rise that leads to it",
  "For every ridge the line calculation uses, the valley it is paired with exists, lies strictly before it, and elevation strictly increases from that valley to that ridge; hence no index error and no division by zero can occur.",
  "every elevation line of every length",
  "Alternation of ridges and valleys is an induction over the line.",
  ["topographic/multiplier_calc.py: multiplier_calc", "topographic/findpeaks.py"])
P("Line multipliers lie between 1 and 1.71",
  "For every elevation line and positive spacing the topographic multiplier of every point is at least 1 and at most 1.71.",
  "every elevation line, every positive spacing",
  "Piecewise rational function of an arbitrary line.",
  ["topographic/multiplier_calc.py: multiplier_calc", "topographic/mh.py: mh_calc"])
P("The escarpment factor is between 0.5 and 3",
  "The escarpment factor lies in [0.5, 3]; it is 1 for a ridge at the end of the line and for a symmetric hill, 2.5 for a level plateau behind the ridge.",
  "every line, ridge and valley",
  "Over all lines.",
  ["topographic/mh.py: escarpment_factor"])
P("A hill acts only on its own neighbourhood",
  "A hill changes the multiplier only of points less than L2 before its ridge or less than escarpment-factor x L2 behind it. (Violated: a hill close to the start of the line also writes the last point of the line.)",
  "every line, ridge, valley, spacing, point",
  "The wrap-round write happens only for hills near the line start.",
  ["topographic/mh.py: mh_calc"])
P("Flat and falling lines have multiplier 1",
  "On a line that never rises every multiplier is exactly 1; hills lower than 10 m or flatter than 0.05 leave the line at 1.",
  "every line",
  "All lines.",
  ["topographic/multiplier_calc.py: multiplier_calc", "topographic/mh.py: mh_calc"])
P("Topographic multipliers do not depend on the datum",
  "Raising a whole elevation line by a whole number of metres leaves its multipliers unchanged.",
  "every line, every integer offset, every spacing",
  "All lines.",
  ["topographic/multiplier_calc.py: multiplier_calc"])
P("Removing conservatism keeps order and range",
  "The conservatism correction maps multipliers in [1, 1.71] into [1, 1.539], never increases a value, is non-decreasing, continuous in the multiplier, and leaves values <= 1 unchanged.",
  "every value",
  "Over the reals.",
  ["topographic/topo_mult.py: remove_conservatism"])
P("The Tasmania factor only raises high ground",
  "The Tasmania factor multiplies exactly the cells above 500 m by 1+0.00015*elevation (> 1.075), leaves all others (including no-data) unchanged. It is applied to a tile exactly if the upper left corner of the tile is east of 143 degrees E and south of 40 degrees S.",
  "every array",
  "All contents.",
  ["topographic/topo_mult.py: tasmania"])
P("Smoothed topographic multipliers stay at or above 1",
  "The smoothed topographic multiplier is between the smallest and largest multiplier in the 3x3 neighbourhood, hence at least 1. (Violated on the raster's edge rows and columns, where zeros are averaged in: a flat DEM gets 4/9 in the corners.) Everywhere it is a ninth of the sum over the 3x3 neighbourhood, cells outside the raster counting as 0.",
  "every raster, every cell",
  "Edge versus interior over all sizes.",
  ["topographic/topo_mult.py: topomult"])
P("Topographic result of a raster is well defined and bounded",
  "For a complete DEM raster and each direction the computed grid has every interior cell in [1, 1.539] outside Tasmania, and each cell's unsmoothed value depends only on the line through it.",
  "every raster, direction",
  "Whole-pipeline composition.",
  ["topographic/topo_mult.py: topomult"])
# ---------------------------------------------------------------- utilities
P("Bilinear interpolation reproduces corners and stays between them",
  "Bilinear interpolation on a block of at least 2x2 cells equals the four corner values at the corners and lies between their minimum and maximum everywhere; it reproduces affine functions.",
  "every block shape, all corner values",
  "All shapes and values.",
  ["utilities/blrb.py: bilinear"])
P("Bisected interpolation fills the whole grid",
  "For every grid of at least 3 rows and 3 columns one level of bisection writes every cell with array shapes that agree; for even sizes (>= 4) the result is exact for functions affine in row and column. (For odd sizes fractional block shapes make it extrapolate; for a size of 1 it fails and for 2 it writes NaN.)",
  "every grid shape, every evaluated function",
  "All parities of the shape.",
  ["utilities/blrb.py: subdivide, indices, interpolate_block, interpolate_grid"])
P("The pixel-size grid holds the size of its own pixel",
  "Cell (row, column) of the pixel-size grids is the size of the pixel in that row and column. (Violated: row and column are exchanged when the size is evaluated.)",
  "every georeferenced raster",
  "Invisible on the diagonal and in the mean over square tiles.",
  ["utilities/get_pixel_size_grid.py: get_pixel_size_grids", "utilities/blrb.py: interpolate_block"])
P("Vincenty azimuths are normalised and coincident points are at distance zero",
  "The inverse formula returns azimuths in [0, 2pi], distance 0 for points closer than 1e-8 radian in both coordinates, and on a sphere stops after at most two iterations with radius times central angle and azimuths that lead along the great circle from each point to the other.",
  "all pairs of points (for the sphere: all non-coincident, non-antipodal pairs)",
  "Over the reals.",
  ["utilities/vincenty.py: vinc_dist"])
P("Configuration files override option by option",
  "After loading a configuration file every option it defines has the file's value and every option it does not define keeps the value it had before; loading the same file twice changes nothing.",
  "every sequence of loaded files, every section and option",
  "All histories of loads.",
  ["utilities/config.py: _ConfigParser"])
P("Singletons are created once under any thread schedule",
  "However many threads instantiate a singleton class concurrently, its constructor runs at most once and all callers that return get the same instance.",
  "every number of threads, every interleaving",
  "Interleavings.",
  ["utilities/meta.py: Singleton"])
P("Chunked checksum equals the checksum of the file",
  "The checksum reported for a file is that of its whole content for every file length and every positive chunk size.",
  "every file content, every positive chunk size",
  "All lengths relative to the chunk size.",
  ["utilities/files.py: fl_get_stat"])
P("Elapsed time is split correctly",
  "The hours, minutes, seconds logged for a run satisfy 3600h+60m+s = elapsed seconds with m, s < 60.",
  "every elapsed time",
  "All values.",
  ["all_multipliers.py: timer"])
P("A saved NetCDF file contains everything it was asked to contain",
  "After saving a grid the file is closed and contains all dimensions and all variables passed in. (Violated: only the first variable is written; the coordinate-reference variable never is.) On invalid input the file is closed and an error is raised.",
  "every dictionary of dimensions and variables",
  "The early return affects every multi-variable input.",
  ["utilities/nctools.py: nc_save_grid, save_multiplier"])
P("Terrain category code encodes settlement and land use",
  "The category written for a feature determines its settlement class and land-use class; unknown names give class 0; the code is below 1000.",
  "all pairs of settlement and land-use names",
  "All strings.",
  ["pre_process.py: pre_process"])
P("Dissolving groups every feature once",
  "After dissolving on an attribute there is exactly one feature per distinct (null-normalised) value, and it is the union of exactly the features with that value.",
  "every list of features",
  "All lists, all key multiplicities.",
  ["utilities/shapefiles.py: shp_file.dissolve"])
P("Spatial join picks the settlement with the largest overlap",
  "Each feature gets the attribute of an intersecting feature with maximal overlap, or null if none intersects; the number and order of features are unchanged whatever order the thread pool finishes in.",
  "every pair of feature lists, every geometry relation",
  "All geometries.",
  ["utilities/shapefiles.py: shp_file.spatial_join"])
P("Cropping keeps geometry and attributes aligned",
  "Cropping keeps exactly the features with positive overlap area, in order, each with its own attributes.",
  "every list of features",
  "All lists.",
  ["utilities/shapefiles.py: shp_file.crop"])
P("Only the master prepares the output directory",
  "Directory preparation has an effect only on rank 0 (or a single process); afterwards the output directory contains exactly the five empty result folders and nothing from an earlier run; repeating it gives the same state.",
  "every previous file-system state, every rank and size",
  "All previous states.",
  ["all_multipliers.py: do_output_directory_creation", "utilities/parallel.py: disable_on_workers"])
P("A classified tile gets all eight terrain outputs",
  "On grids of at most 200 m, a tile with a classified cell and a height different from every lag gets the eight terrain outputs without error; each classified cell holds the mean of the (water-filled) initial multipliers over the existing upwind cells beyond the lag.",
  "every raster, table, grid width, direction",
  "Combines all branches of the direction loop for all tile sizes.",
  ["terrain/terrain_mult.py: terrain, convo"])
P("Shielding of one direction does not depend on the other directions",
  "Each of the eight shielding outputs is computed from the initial shielding values alone. (Violated on grids coarser than 100 m: the array is modified in place, so the reduction by 0.9 compounds from direction to direction.)",
  "every raster, slope, aspect, grid width",
  "Aliasing shows only in multi-direction runs on coarse grids; tests call single steps.",
  ["shielding/shield_mult.py: convo_combine, combine"])
P("A steep plane facing the wind is fully shielded to 1",
  "From elevation to multiplier: at an interior cell of a plane at least 12.30 degrees steep, the shielding multiplier is 1 for the wind direction in whose sector the downslope heading lies, and for the other directions it is what it would be on flat ground.",
  "every plane, cell size, interior cell, heading and shielding value",
  "Combines gradient, slope, aspect, classification and adjustment for a continuum of planes.",
  ["shielding/shield_mult.py: get_slope_aspect, reclassify_aspect, combine"])
P("The multiplier of a point is that of its strongest hill",
  "The multiplier of every point of a line but the last is exactly the largest of 1 and the hill formula evaluated for the hills (valley-to-ridge rises, elevations rounded down to metres) that are at least 10 m high, 0.05 steep and two cells long.",
  "every elevation line, every positive spacing, every point",
  "Ties ridge finding, pairing, influence ranges and maxima together for lines with any number of hills.",
  ["topographic/multiplier_calc.py: multiplier_calc", "topographic/mh.py: mh_calc, escarpment_factor", "topographic/findpeaks.py: findpeaks, findvalleys"])

P("The geodesic distance does not depend on the order of the points",
  "Vincenty's inverse formula gives the same distance, after the same number of iterations, or the same error, when its two points are exchanged.",
  "all oblate ellipsoids (flattening between 0 and 1) and all pairs of points whose longitudes differ by at most 1e6",
  "Over the reals and for any number of iterations; a test compares a few pairs up to rounding.",
  ["utilities/vincenty.py: vinc_dist"])

P("Vincenty's inverse formula converges; distances along parallels and meridians",
  "Between points of one parallel, 1e-8 to 0.1 radian apart in longitude, the iteration of Vincenty's inverse formula ends within eight rounds and the distance is within 2 % of the arc of the parallel; between points of one meridian, at least 1e-8 radian apart, it ends in the first round within 2 % of the arc of a circle of the equatorial radius; between points of the equator, from 1e-8 radian up to pi times one minus the flattening apart, it ends within four rounds, the azimuths are exactly east and west, and the distance is that of the equator up to two parts in 1e9. For any two points at most 2.5 radian (143 degrees) of longitude apart it ends within thirteen rounds. Whenever it returns for points at least 1e-8 radian apart in latitude or longitude, the distance is positive and at most 1.02 times half the polar circumference.",
  "all ellipsoids of flattening at most 1/200 (the Earth's is 1/298), all latitudes below 90 degrees, all such pairs of points",
  "Needs convergence of the iteration and bounds on the series for every pair of points.",
  ["utilities/vincenty.py: vinc_dist", "utilities/get_pixel_size_grid.py: get_pixel_size"])

P("No-value cells stay NaN in converted tiles",
  "In a converted tile a cell of a direction's band is NaN exactly if the terrain, shielding or topographic multiplier of that direction is NaN there, and otherwise the product of the three; a cell of the maximum raster is NaN exactly if that holds for some direction, and otherwise the largest of the eight products.",
  "all multiplier files of a tile with NaN cells anywhere, any tile size, missing files as far as the conversion accepts them",
  "NaN can sit in any subset of the 24 inputs of each cell.",
  ["utilities/convert.py: Converter.process_tile, Converter.process_max_tile"])

P("The run does not depend on the directory it is started in",
  "A serial run gives the same files whatever the working directory, and whether the output directory is given as an absolute or a relative path. (Violated for relative paths: the shielding step changes the working directory for good, so the run fails at the first non-empty tile.)",
  "all starting directories, output directories, tile lists and file systems",
  "Depends on process state left behind by an earlier step; tests use one tile and absolute paths.",
  ["shielding/shield_mult.py: convo_combine", "all_multipliers.py: Multipliers.parallelise_on_tiles, multipliers_calculate", "topographic/topo_mult.py: topomult"])

P("Tiles are one degree in size",
  "Without buffer a tile that does not reach the last column spans at least one degree and less than one degree and one pixel in longitude; a tile that does reach it spans less than one degree, one pixel and the buffer together. The same holds in latitude.",
  "all raster sizes, pixel sizes and buffers below one degree, all tiles",
  "The size of the edge tiles depends on how raster size, step and buffer divide.",
  ["all_multipliers.py: TileGrid.__init__, tile_grid, get_gridlimit"])

P("The DEM tile is the block of the DEM under the buffered tile",
  "The DEM file cut for a tile has exactly as many rows and columns as the buffered tile, and every cell of it is the DEM cell at the same place; nothing is shifted, repeated or lost by the resampling, even if the tile's extent is off by up to an eighth of a pixel. Cells without elevation get the fill value of the new file.",
  "all rasters, buffers, tiles and extents within an eighth of a pixel of the exact one",
  "Resampling shifts show only for particular pixel sizes and rounding errors.",
  ["all_multipliers.py: Multipliers.cut_dem, clip_dataset, TileGrid.get_tile_extent_buffer"])
P("Land cover is taken at the pixel centre",
  "Every cell of the land-cover tile has the category of the land-cover pixel that contains the centre of the DEM pixel, whatever the grids of the two rasters, so a pixel has the same category in every tile that contains it; outside the land cover, or where it has no data, the cell has the fill value.",
  "all DEM and land-cover grids of the same projection, all tiles",
  "Misregistration depends on the relative position of the two grids.",
  ["all_multipliers.py: reproject_dataset, Multipliers.multipliers_calculate"])
P("Terrain averaging covers 500 m behind a 200 m lag",
  "In each of the eight directions the averaging width times the distance between neighbouring cells in that direction is within one such distance of 500 m, and the lag within one of 200 m.",
  "all grid widths, all eight directions",
  "Needs every grid width; tests use one.",
  ["terrain/terrain_mult.py: terrain"])

P("A tile is computed from the rasters to the files",
  "For every tile with some land, on a grid of at most 100 m whose buffer covers 700 m and a cell, the computation from the input rasters on ends without an exception and leaves 24 multiplier files (three kinds, eight directions). Each has exactly one cell for every pixel of the unbuffered tile, and its coordinates are the centres of those pixels in the input DEM.",
  "all input rasters, tables, tiles and pixel-size grids meeting these conditions",
  "Holds for the composition of all steps for every raster; tests exercise the steps one by one on small fixed arrays.",
  ["all_multipliers.py: Multipliers.cut_dem, multipliers_calculate", "terrain/terrain_mult.py: terrain", "shielding/shield_mult.py: shield", "topographic/topo_mult.py: topomult", "utilities/nctools.py: clip_array, get_lat_lon"])
P("Terrain multiplier of a pixel, end to end",
  "The value of a pixel in the terrain file is the mean, over the pixels of the whole raster 200 m to 700 m upwind (in whole cells), of the terrain multiplier of the land cover under their centres, where a category takes the multiplier given by the roughness formula from the last row of the table that lists it, and pixels without multiplier count as water (1). A pixel without multiplier is itself NaN. The division into tiles does not influence the value.",
  "all rasters, tables, tiles, directions and pixels under the conditions of C81",
  "The value is a function of the whole raster; tests never compare a tiled run with an untiled one.",
  ["all_multipliers.py: Multipliers.multipliers_calculate, reproject_dataset", "terrain/terrain_mult.py: terrain, terrain_class2mz_orig, convo"])
P("Shielding multiplier of a pixel, end to end",
  "The value of a pixel in the shielding file is obtained from the mean shielding of the shielding cells of the whole raster within 100 m upwind: it is moved towards 1 according to the steepness of the ground if the ground falls towards the wind's sector, then multiplied by 0.9 below 0.9 and squared otherwise. Steepness and heading of the fall are those of the weighted (1,2,1) elevation differences of the whole DEM around the pixel, divided by the pixel sizes that the pixel-size grid holds at this cell (which by C57 are those of another pixel). The value is NaN exactly if a shielding cell is unknown. The division into tiles influences it only through the pixel sizes.",
  "all rasters, tables, tiles, directions and pixels under the conditions of C81",
  "Composition of five steps over arbitrary rasters.",
  ["shielding/shield_mult.py: shield, terrain_class2ms_orig, get_slope_aspect, convo_combine, combine", "all_multipliers.py: Multipliers.multipliers_calculate"])
P("Topographic multiplier of a pixel, end to end",
  "The value of a pixel in the topographic file is the mean over the pixel and its eight neighbours of the corrected multiplier of the largest hill on the transect through it in the buffered tile, elevations rounded down to whole metres; neighbours outside the buffered tile count 0. No pixel is NaN, not even where the DEM has no elevation.",
  "all rasters, tiles, directions and pixels under the conditions of C81",
  "The exact value depends on all elevations of three transects.",
  ["topographic/topo_mult.py: topomult, remove_conservatism, tasmania", "topographic/multiplier_calc.py: multiplier_calc", "topographic/mh.py: mh_calc", "all_multipliers.py: Multipliers.cut_dem"])
P("Combined multiplier of a pixel, end to end",
  "The conversion of a computed tile succeeds; the GeoTIFF lies on the pixel centres of the tile and has one band per direction. A pixel of a band is NaN exactly if its land cover has no terrain multiplier or one of its shielding cells is unknown; otherwise it is the product of the three multipliers of C82-C84. The maximum raster is NaN exactly if a band is, and otherwise the largest of the eight products.",
  "all rasters, tables, tiles, directions and pixels under the conditions of C81",
  "Connects computation and conversion, which are separate runs with files in between.",
  ["utilities/convert.py: Converter.process_tile, process_max_tile", "all_multipliers.py: Multipliers.multipliers_calculate"])

P("Topographic multipliers are seamless across tiles",
  "The topographic multiplier of a pixel is the one that the transects of the whole DEM give, whichever tile the pixel is computed in. False in general; true if the buffer less one cell is at least 63.2 times the relief of the DEM.",
  "all DEMs, tiles, directions and pixels at least two cells from the edge of the DEM",
  "Needs the hill model on the whole raster and on every window of it; a test compares a few tiles.",
  ["topographic/topo_mult.py: topomult", "topographic/multiplier_calc.py: multiplier_calc", "topographic/mh.py: mh_calc, escarpment_factor", "all_multipliers.py: TileGrid"])

P("Pixel size in metres",
  "The constant that converts degrees to radians agrees with pi/180 to 20 decimals; the ellipsoid is that of WGS 84, with the flattening exact to 11 decimals. For every pixel the width and height in metres are found: the width is within 2 % of the arc of the parallel through the centre of the pixel, the height within 2 % of the arc of a circle of the equatorial radius.",
  "all rasters in geographic coordinates with pixels of 1e-6 to 5 degrees, all pixels in latitudes up to 89 degrees",
  "Needs convergence and accuracy of an iterative formula at every latitude.",
  ["utilities/get_pixel_size_grid.py: get_pixel_size, RADIANS_PER_DEGREE, Earth", "utilities/vincenty.py: vinc_dist"])

P("The standard configuration is within the scope of the tile theorems",
  "With the standard buffer of 0.01 degrees, for a DEM with square pixels of at most 0.00085 degrees that covers at least 0.01 degrees each way between 45 N and 43.9 S, the pixel sizes of every tile are found, are positive and within 6 % above and 36 % below the size on the equator (3 % for the height), the mean is at most 100 m, and buffer and raster are wide enough for the averaging windows of the terrain multiplier, so that C81 to C86 apply to every tile with land.",
  "all such rasters and all tiles, any land cover and elevations",
  "The conditions tie together geometry of the ellipsoid, interpolation, tiling and windows for every raster; a run samples one raster.",
  ["utilities/get_pixel_size_grid.py: get_pixel_size_grids", "utilities/blrb.py: interpolate_grid", "all_multipliers.py: TileGrid, multipliers_calculate", "multiplier_conf.cfg: upwind_length"])

P("Vincenty's direct formula solves Vincenty's equations",
  "For a positive distance the iteration of the direct formula ends within four rounds. Its result solves Vincenty's published equations: on the auxiliary sphere the great circle from the reduced latitude of the first point in the given direction leads to that of the second, the reverse azimuth leads back (if the second point is not a pole), the length of the line is the distance given up to 2e-9 of the radius plus 1e-11 radian per radian, and the longitude is right up to 1e-14 radian per radian. On a sphere, and eastward along the equator of an ellipsoid up to half the way round on the auxiliary sphere, the point is exact. A distance of zero is a ZeroDivisionError; a distance of minus two radians on a sphere uses an unassigned variable.",
  "all ellipsoids of flattening at most 1/200 (the Earth's is 1/298), all latitudes below 90 degrees, all azimuths, all positive distances",
  "Convergence and accuracy for a continuum of positions, directions and distances.",
  ["utilities/vincenty.py: vinc_pt"])
P("Direct and inverse formula are inverse to each other on a sphere",
  "On a sphere the inverse formula, applied to a point and the one the direct formula gives for a distance and an azimuth, returns exactly that distance, that azimuth and the reverse azimuth of the direct formula.",
  "all radii, all starting points other than the poles, all azimuths in [0, 2pi), all distances from 2.5e-8 radian up to (not including) half the circumference whose end point is not a pole",
  "Exact equality over a continuum of positions.",
  ["utilities/vincenty.py: vinc_pt", "utilities/vincenty.py: vinc_dist"])
P("Intermediate points of a great circle are equally spaced",
  "GreatCircle.points(n): for n <= 1 a ValueError; for n = 2 the end points; for n >= 3 on a sphere n points, the k-th at the fraction k/(n-1) of the angle from the first and (n-1-k)/(n-1) from the second; NaN if the end points are equal. On an ellipsoid n points of which the first and last are the end points, and along the equator equally spaced points of the equator. The check for antipodal end points is never reached, as the constructor fails before.",
  "all end points below 90 degrees latitude and at most 360 degrees of longitude apart, every number of points (sphere: end points neither closer than 1e-8 radian nor opposite; equator: flattening at most 1/200, less than half the way round, points at least 2e-8 radian apart)",
  "All end points and numbers of points.",
  ["utilities/vincenty.py: GreatCircle"])

P("Vincenty's inverse formula solves Vincenty's equations","Whatever the inverse formula returns for points not taken for coincident solves Vincenty's published equations on the auxiliary sphere: there are two differences of longitude, equal up to the relative tolerance 1e-9 of the loop, such that the distance is exactly that of the published series for the great circle between the reduced latitudes at the first of them, the second is exactly the difference in longitude plus the published correction for that great circle, and the two azimuths lead along the great circle to the second one and back.","all ellipsoids of flattening at most 1/200 (the Earth's is 1/298), all latitudes below 90 degrees, all pairs of points for which the iteration ends (C74)","All pairs of points; a wrong coefficient changes the results by millimetres only.",["utilities/vincenty.py: vinc_dist"])

P("Outcome of a whole parallel run","When all processes have passed the last barrier, there are below the output folder exactly: the multiplier files of every non-empty tile, each with what was computed for it (no terrain files where land cover is unknown throughout); for every non-empty tile the GeoTIFF made of exactly these files and the one of its maxima; and the two virtual rasters, which list these GeoTIFFs, each once and both in the same order. No temporary file and nothing of an earlier run is left, and nothing outside the output folder is changed.","every number of processes (including one), every interleaving of their file operations and messages, every list of tiles with different names, every initial content of the file system","A race shows up only in particular interleavings; the property ranges over all of them.",["all_multipliers.py: run, parallelise_on_tiles, multipliers_calculate, do_output_directory_creation","utilities/mpi_runner.py: parallelise_convert_on_tiles","utilities/convert.py: run"])
P("A whole run finishes","No execution of a run has more than 45 T + 9 W + 9 steps for T tiles and W workers, and until all processes have passed the last barrier some process can take a step: no deadlock, no file operation fails. If the conversion of some tile raises an exception (as for a non-square tile without land cover), on the other hand, no run completes: the other processes wait forever.","every number of processes, every interleaving, all lists of tiles with different names; for the first part: rasters of one size per tile, square where there is no land cover","Termination under all schedules cannot be observed by running some.",["all_multipliers.py: run, parallelise_on_tiles","utilities/mpi_runner.py: parallelise_convert_on_tiles"])
P("The result does not depend on schedule or number of processes","Two completed runs over the same tiles, with different numbers of processes, different orders of the tiles and different interleavings, leave the same contents at every path; only the order of the GeoTIFFs listed in the virtual rasters may differ, and that is the same in both virtual rasters of a run.","all pairs of completed runs over the same tiles from the same initial files","All pairs of schedules.",["all_multipliers.py: run, parallelise_on_tiles","utilities/mpi_runner.py: parallelise_convert_on_tiles"])
P("From the input rasters to the GeoTIFFs of a parallel run","A run over the tiles that get_tiles lists for a DEM, each either empty or meeting the conditions of C81 to C85, cannot fail or deadlock and finishes; then every pixel of the DEM is in exactly one tile, and either its tile is empty and has no GeoTIFF or the GeoTIFF under the name of the tile holds at the place of the pixel, for each of the eight directions, the product of the documented shielding, terrain and topographic multipliers (NaN exactly where land cover has no multiplier or shielding is unknown), and the GeoTIFF of maxima the largest of the eight.","all DEMs, land covers, tables, buffers whose tiles do not overlap (C02), every number of processes and every interleaving","Composes the tile grid, names, file operations, parallel schedule, multipliers and conversion for all inputs.",["all_multipliers.py: run, get_tiles, get_tileinfo","utilities/convert.py: process_tile, process_max_tile"])
P("The standard configuration produces the documented GeoTIFFs","With the buffer of 0.01 degrees of the shipped configuration and a DEM in the south-east quadrant down to 43.9 S, with square pixels of at most 0.00085 degrees, at least 0.01 degrees each way and tiles that do not overlap, the tiles can be listed, and if every tile whose DEM is not empty has land, the run is as C96 says.","all such DEMs, all land covers and tables with positive logarithm argument","Every raster of the given kind.",["all_multipliers.py: run, get_tiles","utilities/get_pixel_size_grid.py: get_pixel_size_grids","utilities/vincenty.py: vinc_dist"])

P("Range of the final multipliers",
  "After a completed run, every pixel of every direction in every GeoTIFF, and of the GeoTIFFs of maxima, is NaN or lies between the product of the smallest reduced shielding and the smallest terrain multiplier of the tables and 1.539 times the largest terrain multiplier; in Tasmania the upper bound is raised by 0.015% per metre of the highest elevation; on the edge of the raster the lower bound is 4/9 of that. With the table in tests/test_data and a DEM outside Tasmania this is 0.52 (0.23 on the edge) to 1.701.",
  "all rasters and tables of a run as in C96, every schedule and number of processes, every pixel and direction",
  "A bound over all rasters, wind directions and schedules.",
  ["all_multipliers.py: run", "terrain/terrain_mult.py: terrain_class2mz_orig", "shielding/shield_mult.py: combine", "topographic/multiplier_calc.py: multiplier_calc", "tests/test_data/terrain_classification.csv"])
P("Level ground with a single land-cover category",
  "On a DEM of one elevation (at most 500 m) and a land cover of one category that is in the tables, a completed run gives at every pixel 100 m or more from the edge of the raster, in all eight directions and in the maxima, exactly the terrain multiplier of the category times its shielding after reduction: no tile boundary, averaging, slope correction or topographic step changes it.",
  "all raster sizes, resolutions, elevations up to 500 m, categories and tables of a run as in C96, every schedule",
  "An exact end-to-end value for all rasters of this kind; tests check single functions on single arrays.",
  ["all_multipliers.py: run", "terrain/terrain_mult.py: terrain, convo", "shielding/shield_mult.py: shield, convo_combine, combine", "topographic/topo_mult.py: topomult", "utilities/convert.py: process_tile"])

P("Pre-processing turns the shape files into the land cover they describe",
  "For settlement and land-use layers with finite areas (land use of positive area if there is no crop mask), two different attribute names and a mask file with at least one geometry, pre_process writes exactly the land-use features that overlap the bounding box of the first mask geometry (all of them without a mask), in their order and clipped to the box. Each gets the code 100 s + u, where u is the code of its land use and s that of a settlement type (unlisted types count as one type of code 0) whose settlements together cover at least as much of the clipped feature as those of any other type. If one type covers more of each feature than all others the result depends neither on the order in which the search tree returns candidates nor on that in which the threads finish. The raster has the grid of the DEM; each pixel has the code of the last feature that contains its centre, 0 if there is none; and a run with this DEM and this land cover works with these codes. With the same name for both attributes the land use is lost.",
  "for all layers, masks, search trees, schedules and grids",
  "The geometries, the number of features and the schedules are unbounded.  The tests of the repository have no shape files; the path from features to pixels crosses four functions, and tests of one say nothing of the composition.",
  ["pre_process.py: pre_process, rasterize", "utilities/shapefiles.py: shp_file.dissolve, shp_file.crop, shp_file.spatial_join", "all_multipliers.py: reproject_dataset"])

P("Tile geometry in floating-point arithmetic",
"With every floating-point operation of the tile grid, the extents, the windows and the coordinates rounded to double precision, and rasters at most 2^40 pixels wide and high and as far from the origin: every pixel is in the unbuffered limits of a tile whose buffered limits contain all pixels within the upwind length; the tiles are disjoint under the condition of C02; the DEM tile cut with the rounded extents has exactly the cells of the buffered limits; clipping a tile with the rounded extents returns exactly the cells of the unbuffered limits, and the coordinate vectors have the same lengths; the coordinates are the pixel centres up to 2^-50 of the largest coordinate. No row or column is lost, repeated or shifted by rounding.",
"all geotransforms, raster sizes and buffer lengths in floating-point numbers, every rounding function with relative error 2^-53 that is monotone and exact on integers up to 2^53",
"Rounding errors show only for particular pixel sizes and origins; tests use a few.",
["all_multipliers.py: TileGrid, get_tile_extent, get_tile_extent_buffer, clip_dataset","utilities/nctools.py: clip_array, get_lat_lon"])

P("The error of floating-point arithmetic in the terrain averages and the combined multipliers is bounded",
  "Let the reclassified terrain array hold non-negative initial multipliers up to a relative error ε. With sums, quotients and stored results rounded with relative errors at most u, v and w, the terrain multiplier stored in every cell is the mean of the exact initial multipliers upwind (lag and width as in C21) up to the relative error (1+ε)(1+u)^width(1+v)(1+w) − 1; if all errors are at most 2^-24 (float32) and the width is at most a million cells this is at most (width+3)·2^-23. In a converted tile each band is the product of the three exact multipliers up to the relative error (1+ε_s)(1+ε_z)(1+ε_t)(1+w)² − 1, where the ε are the relative errors of the three files, and the maximum raster is the maximum of the exact products up to the same error.",
  "all rasters of non-negative multipliers, all directions, widths, lags and cells; all roundings with the given relative errors; all sets of multiplier files of one shape",
  "The error depends on the values and the order of the operations of every cell; tests compare a few values with a tolerance and cannot bound the error for all inputs or for other numpy versions (which add in float32 or float64).",
  ["terrain/terrain_mult.py: convo", "utilities/convert.py: process_tile, process_max_tile"])

P("The multipliers of a tile depend only on the inputs in its buffered limits",
  "Let two runs use rasters of the same geotransform and size, the same tables and the same checksum function (a function of the cells). If the elevations and the land cover agree within the buffered limits of the tile that holds a pixel, then after both runs are complete, with any numbers of processes and any schedules, either neither run has a GeoTIFF of that tile or both have one, and the pixel has the same value in every band and in the maxima. What the inputs hold elsewhere, in other tiles, does not matter.",
  "all pairs of inputs that meet the conditions of C96, all numbers of processes and complete schedules, all pixels",
  "The theorem compares two runs on arbitrary inputs differing anywhere outside the buffered tile; a leak from one tile to another (stale arrays, a buffer too small, an aggregate over the whole raster) shows only for particular data.",
  ["all_multipliers.py: run, get_tiles, get_tileinfo", "utilities/convert.py: process_tile, process_max_tile"])

P("Smoother ground and less shielding never lower a multiplier",
  "Let two runs differ only in the tables: the same categories in the same order, no roughness length larger and no shielding value smaller in the second (positive initial multipliers, non-negative shielding values). After both runs are complete every pixel of every band, and of the maxima, is NaN in both or is at least as large in the second run as in the first.",
  "all pairs of inputs that meet the conditions of C96, all numbers of processes and complete schedules, all pixels and directions",
  "Monotonicity relates pairs of runs at all pixels; tests hold expected values of single runs.",
  ["terrain/terrain_mult.py: terrain, terrain_class2mz_orig, convo", "shielding/shield_mult.py: shield, combine, convo_combine", "utilities/convert.py: process_tile, process_max_tile"])

P("Every process of a run has a log of its own",
  "Whatever the processes of a run do in which order while they start their logs, after at most four steps each has opened a log, none fails to open it, and the logs of two processes are different files. The log of rank 0 has the given name, that of another rank the name with an underscore and the rank in decimal; it is in the configured folder or, if that was missing, possibly in the working directory.",
  "every number of processes, every order of their tests and folder creations, every log file name, every initial set of folders that has the working directory",
  "Two processes writing to one file, or a process failing because another has just made the folder, shows only in particular interleavings.",
  ["all_multipliers.py: run", "utilities/files.py: fl_start_log"])

P("Processes log to the configured file if its folder exists or can be made",
  "If the folder of the log file exists, or is missing and can be made, then every process logs to the configured file (with the rank appended for ranks above 0). False for several processes: two that find the folder missing both call makedirs, and the later one logs to the working directory instead. True if the folder exists beforehand or for one process; if the folder cannot be made, all processes log to the working directory; in any case one process gets the configured file if the folder can be made.",
  "every number of processes, every order of their tests and folder creations, every log file name, every initial set of folders that has the working directory",
  "A race between test and creation.",
  ["all_multipliers.py: run", "utilities/files.py: fl_start_log"])

P("Messages go to the started log file once, and to the console at most once",
  "fl_start_log directs all messages of the given level or above to the given file, and to the console exactly if verbose and on a terminal; further calls never make messages appear twice on the console. The claim that each call starts logging to the given file is false: after the first call the file and the level do not change.",
  "all sequences of calls with all arguments, starting from a logger without handlers",
  "Handlers accumulate over arbitrary sequences of calls.",
  ["utilities/files.py: fl_start_log"])

P("Rounding does not move the escarpment index",
  "escarpment_factor divides a rounded multiple of the spacing by the spacing, adds the ridge index and takes the floor. With every operation rounded to P binary digits (P at least 15) the index it finds is the mirror image of the foot of the hill, or the end of the line: rounding never makes it one too small. The factor is within 32 units of 2^-P of the exact one.",
  "all formats with at least 15 binary digits, all lines of at most 2^(P-2) points, all hills, all positive spacings of the format",
  "A floor of a rounded quotient fails for isolated pairs of operands among 2^53 spacings; a test can try only a few.",
  ["topographic/mh.py: escarpment_factor"])

P("Rounding errors of the multipliers of a line are bounded",
  "multiplier_calc with every operation rounded to P binary digits never fails, and at each point but the last where no hill is borderline (within a few units in the last place of a jump of the formula) the result is within 127 units of 2^-P of the largest of 1 and the exact contributions of the hills.",
  "all formats with at least 15 binary digits, all lines of at most 2^(P-2) points with elevations below 2^(P-1), all positive spacings of the format",
  "Expected values in tests are compared with a tolerance chosen by hand at single points.",
  ["topographic/multiplier_calc.py: multiplier_calc", "topographic/mh.py: mh_calc, escarpment_factor", "topographic/findpeaks.py: findpeaks"])

P("Rounding errors of the topographic multipliers of a tile are bounded",
  "In each direction the saved topographic multiplier, computed with every operation rounded to P binary digits (line multipliers, removal of conservatism, Tasmania factor, smoothing), is missing at the same cells as the exact one and within 252 units of 2^-P of it at each cell where neither the cell nor one of its neighbours is borderline (if the Tasmania factor applies, for elevations up to 4000 m).",
  "all formats with at least 15 binary digits, all rasters of at most 2^(P-2) rows and columns, all elevations below 2^(P-1), all spacings, corners, directions, cells",
  "The bound composes errors of many operations over all rasters; no finite set of rasters establishes it.",
  ["topographic/topo_mult.py: topomult, remove_conservatism, tasmania", "topographic/multiplier_calc.py: multiplier_calc", "topographic/mh.py: mh_calc"])

P("Rounding errors of the shielding multipliers are bounded",
  "The shielding multiplier computed with rounded operations (kernel and sums in double, stored values in single precision) is missing exactly where one of the shielding cells is missing; elsewhere it differs from the exact one (mean over the shielding cells, slope adjustment, conservatism removed) by at most 2^-19 plus a quarter of the error of the slope in degrees, provided rounding does not move the aspect to another sector.",
  "all rasters of shielding values in [0, 1] with missing cells anywhere, all kernels of up to 100 cells, all eight directions, all slopes and aspects, all cells; also for all pairs of precisions (C111_shielding)",
  "The bound holds for every raster and every rounding of each sum; the jump-free behaviour at slopes 3.27 and 12.30 and at 0.9 rests on continuity, not on sample points.",
  ["shielding/shield_mult.py: blur_image, combine, init_kern, init_kern_diag, convo_combine"])

P("Rounding does not spoil slope and aspect where they matter",
  "get_slope_aspect with every operation rounded gives a slope whose error is proportional to the gradient around the cell, and on ground steeper than 3.27 degrees an aspect in the right sector, unless the ground falls to a heading within a tiny angle of a boundary between sectors; a slope is missing exactly where an elevation in the 3 x 3 window is. Hence, from elevations and shielding values to the multiplier in the formats of the code, the shielding multiplier is within 2^-17 of the exact one unless the ground is steeper than 3.27 degrees and its heading is within 1/2000 degree of a sector boundary.",
  "all rasters of elevations with missing cells anywhere, all cell sizes known to a relative error, all gradients (up to 45 degrees between neighbours for the constant), all rasters of shielding values, all kernels of up to 100 cells, all directions, all cells, all library functions correct to one unit in the last place",
  "On nearly flat ground the computed aspect is arbitrary and a test would see a wrong sector; that it does not matter there follows from the thresholds, for all rasters.",
  ["shielding/shield_mult.py: get_slope_aspect, reclassify_aspect, combine, blur_image"])

P("The initial terrain multipliers are stored to single precision",
  "For roughness lengths from 1 mm to 10 m, read from the table up to two units in the last place, the formula -0.2827 log(0.4554 log z + 3.734) + 1.0762 computed with rounded literals, operations and logarithms is within 19 unit roundoffs of the formula over the reals, so that the stored float32 value has a relative error of at most 2^-24 + 2^-47.",
  "all roughness lengths in [0.001, 10], all roundings of literals and operations, all logarithm functions correct to one unit in the last place",
  "The inner sum cancels for small roughness lengths and the error must be bounded at every length, not at the thirteen of the test table.",
  ["terrain/terrain_mult.py: terrain_class2mz_orig"])
P("The computed cell size is right and rounding does not change widths and kernel sizes",
  "gridwidth, computed in float32 from stored pixel sizes (each computed to one part in 2^25 before storing) with np.mean adding the cells in any order in which no cell goes through more than 60 additions, is the mean of the exact pixel sizes to one part in 65536. Unless 500 m, 200 m or 100 m are within that of a border between two numbers of cells, averaging widths, lags and the size of the shielding kernel are those of exact arithmetic.",
  "all arrays of nonnegative pixel sizes of any shape, all orders of addition up to that depth, all roundings, all directions",
  "The order of additions inside numpy depends on shape and machine; tests see one order and compare results of one cell size.",
  ["terrain/terrain_mult.py: terrain", "shielding/shield_mult.py: convo_combine", "topographic/topo_mult.py: topomult"])
P("Rounding errors of the terrain step are bounded from the table to the saved array",
  "The terrain step in rounded arithmetic (table as read, formula, float32 storage, cell size, widths, averages) ends without error with all eight outputs in the documented order; a cell is NaN exactly if its category has no multiplier, and every other cell is the upwind mean of the exact multipliers over the width and lag of exact arithmetic up to a relative error of (width + 4) 2^-23, if the tile is higher than the lag distance. On lower tiles the multipliers of the cells themselves are saved, 1 for categories without multiplier, up to one part in 2^23.",
  "all land-cover rasters with a classified cell, all tables with roughness lengths in [0.001, 10], all pixel sizes with mean between 1 m and 200 m not within 2^-16 of a border between widths, tile height different from the lag, all roundings",
  "Composes the error of logarithms, storage, sums of varying length and quotients over all rasters and tables.",
  ["terrain/terrain_mult.py: terrain, terrain_class2mz_orig, convo"])

P("A small error of the cell size does not spoil the topographic multipliers",
  "The topographic multipliers of a direction, computed with p binary digits at a spacing that differs from the exact one by a relative error eps of at most 1 percent, are within 4 eps + 252/2^p of the exact ones at the exact spacing, and missing at the same cells, wherever no hill seen from the cell or its eight neighbours is within a few eps of a jump of the formula.",
  "all elevation rasters with missing cells anywhere, all spacings and computed spacings within 1 percent, all numbers of digits from 15 with 2/2^p <= eps, all directions, all cells with clear hills around",
  "The multiplier jumps at slopes of 0.05 and 0.45 and at the ends of the zones, so small errors of the spacing are usually but not always harmless; a test cannot separate the cases over all terrains.",
  ["topographic/topo_mult.py: topomult", "topographic/mh.py: mh_calc, escarpment_factor", "topographic/multiplier_calc.py: multiplier_calc"])

P("A tile is computed in rounded arithmetic to within 0.0005 of the documented multipliers",
"The whole computation of a tile is carried out with every operation rounded: tables with decimal fractions, pixel sizes computed to one part in 2^25 and stored in single precision, their mean by np.mean in any order of addition of depth at most 60, numbers of cells, initial multipliers, averages, slope and aspect, hills, storage of the 24 files in single precision, product and maximum. It ends without error. A pixel of the GeoTIFF is NaN exactly where exact arithmetic has NaN (no terrain multiplier for the category, or an unknown shielding cell). Every other pixel is within 0.0005 of the product of the three documented multipliers, computed exactly from the inputs over the whole rasters, unless a hill on a transect through the pixel or a neighbour is borderline, the ground is steeper than 45 degrees, or the ground is steep and falls to a heading within 1/2000 degree of a sector border. The maximum raster is NaN where a band is, and within 0.0005 of the largest of the eight documented values where none of the eight is borderline.",
"all DEMs with elevations up to 4000 m, land covers, tables and pixel sizes of a tile that meets the conditions of C81-C85, whose mean cell size is at least 1 m and not within 1/65536 (relative) of a value at which a number of cells in 100 m, 200 m or 500 m changes; all roundings with relative error 2^-24 or 2^-53 as used in each place; all orders of addition of depth at most 60",
"A test compares a computed tile with a stored one; it cannot tell whether the rounding errors of the many steps stay small together for every input, nor where they may change a result by more than rounding.",
["all_multipliers.py: multipliers_calculate", "terrain/terrain_mult.py: terrain", "shielding/shield_mult.py: shield", "topographic/topo_mult.py: topomult", "utilities/convert.py: process_tile, process_max_tile"])

P("A parallel run in rounded arithmetic delivers every pixel to within 0.0005",
"A run whose tiles are computed and combined in rounded arithmetic (as in C117) with any number of processes and however these are interleaved never deadlocks or fails and finishes after a bounded number of steps. Then every pixel of the DEM is in exactly one tile. Either the DEM is empty around the tile and there is no GeoTIFF of it, or the GeoTIFF of the tile and that of its maxima have NaN exactly where exact arithmetic on the input rasters has, and values within 0.0005 of the documented ones elsewhere, unless the pixel is borderline (as in C117).",
"all inputs whose tiles are empty or meet the conditions of C81-C85 and C117; all numbers of processes, schedules and initial contents of the output folder",
"A test runs one data set with one number of processes once; rounding, scheduling and the contents of the output folder from earlier runs can only be varied a little.",
["all_multipliers.py: run, parallelise_on_tiles, multipliers_calculate", "utilities/convert.py: process_tile, process_max_tile, run"])

P("Rounding of the tile geometry does not spoil a run",
"A run in which steps, limits, extents, names and clipped parts of the tiles and the coordinates of the output are computed with rounding, as well as the multipliers (C117, C118), has the same result: tile names are distinct, the run never deadlocks or fails and finishes after a bounded number of steps, every pixel of the DEM is in exactly one tile, and either the DEM is empty around the tile and there is no GeoTIFF, or the GeoTIFF and that of the maxima have NaN exactly where exact arithmetic has, values within 0.0005 of the documented ones elsewhere (unless the pixel is borderline as in C117), and the coordinates of the pixel centres to one part in 2^50 of the largest coordinate.",
"all rasters with coordinates below 2^40 pixels and below 1000, tiles that do not overlap by the computed steps and buffers (C02, C101), inputs whose tiles are empty or meet the conditions of C81-C85 and C117, with pixel centres not on borders of land-cover pixels and tile corners not on 143 E or 40 S up to rounding; all roundings to 53 digits; all numbers of processes, schedules and initial contents of the output folder",
"Whether floor, ceil and around of rounded quotients and names cut to seven characters agree with exact arithmetic cannot be seen on a few rasters; an error of one pixel shifts a whole tile.",
["all_multipliers.py: run, get_startcord, get_tilename, get_tile_extent_buffer, get_tiles, multipliers_calculate", "utilities/nctools.py: get_lat_lon, clip_array", "utilities/convert.py: process_tile, process_max_tile, run"])

P("Pixel sizes computed in double precision are right to one part in 2^25",
"The pixel-size grids computed in double precision - coordinates of the pixels, conversion to radians, Vincenty's iteration for the widths and for the heights, the series for the length, bilinear interpolation, each operation rounded, with sin, cos, tan, atan, asin, atan2 and squares correct to one unit in the last place - are found (the iterations end after at most 12 rounds without error). Before they are stored in float32 all sizes are those of exact arithmetic up to one part in 2^25, also if the corner of the raster is off by rounding. In metres, stored widths are between 0.639 and 1.061 times, stored heights between 0.969 and 1.031 times the size of the pixel on the equator.",
"all rasters of at least 12 rows and columns, with pixels of 1/4000 to 1/2 degree, not larger than 2 degrees, between 2 and 45 degrees south; all roundings with relative error 2^-53 and 2^-24, all implementations of the functions within one unit in the last place, all bounds of at least 12 rounds",
"Vincenty's formula divides by small numbers for neighbouring points (differences of nearly equal quantities), and its iteration stops by comparison with a tolerance; whether rounding can make it stop early, run on or lose digits cannot be seen on a few rasters.",
["utilities/get_pixel_size_grid.py: get_pixel_size, get_pixel_size_grids", "utilities/vincenty.py: vinc_dist", "utilities/blrb.py: bilinear, interpolate_block, interpolate_grid"])

P("A run in the standard configuration, with everything rounded, delivers every pixel to within 0.0005",
"With the buffer of 0.01 degrees of multiplier_conf.cfg, a DEM with square pixels of 1/4000 to 0.00085 degrees between 2 and 43.9 degrees south and pixel sizes that the code itself computes, nothing about a tile has to be assumed that cannot be read off the inputs: the pixel sizes are found, exactly and in rounded arithmetic at the rounded corner of the tile, and agree to one part in 2^25 before they are stored; their mean is between 0.805 and 1.045 times the size of a pixel on the equator; buffer and raster are large enough for the averages. So a run with everything rounded (tables, geometry of tiles, pixel sizes, multipliers, files) never deadlocks or fails, finishes after a bounded number of steps, and then every pixel of the DEM is in exactly one tile. Either the DEM is empty around the tile and there is no GeoTIFF of it, or the GeoTIFF and that of the maxima have NaN exactly where exact arithmetic has, values within 0.0005 of those of exact arithmetic with the exact pixel sizes elsewhere (unless the pixel is borderline as in C117), and coordinates as in C119.",
"all DEMs in the standard configuration that extend over at least 0.01 degrees both ways, with elevations up to 4000 m, and all land covers and tables, provided each tile is empty or has land, tiles do not overlap (C02), no pixel centre is on a border of land-cover pixels, no tile corner is on 143 E or 40 S, and no mean pixel size is at a value where a number of cells in 100 m, 200 m or 500 m changes, up to rounding; all roundings, number formats, numbers of processes, schedules and initial contents of the output folder",
"Tests use rasters with given pixel sizes or compare with stored results. Whether computed sizes, rounded corners and rounded multipliers fit together on every DEM of the kind the software is used for cannot be seen on examples.",
["all_multipliers.py: run, get_tiles, multipliers_calculate", "utilities/get_pixel_size_grid.py: get_pixel_size, get_pixel_size_grids", "utilities/vincenty.py: vinc_dist", "utilities/convert.py: process_tile, process_max_tile, run"])

P("The table of terrain classes is read as written",
"A table of comma-separated values in any layout - columns in any order and further columns, descriptions in quotes with commas, number signs, quotes and line ends, comment lines, comments behind records, empty lines, either kind of line end, last line with or without one, numbers with sign, decimal point, exponent and blanks - gives the terrain step exactly the categories and roughness lengths that are written, in their order, and the shielding step the categories and percentages. For the table in the repository these are the 13 classes used in C98. Not so outside these rules: a number sign outside quotes silently removes the rest of the row, and a single category that is not a number silently disables the whole table.",
"every list of categories and numbers, every layout of the file",
"Arbitrary texts and layouts; tests read one file.",
["terrain/terrain_mult.py: get_terrain_table, terrain_class2mz_orig", "shielding/shield_mult.py: get_shielding_table, terrain_class2ms_orig"])

P("Configuration files are read as written",
  "A configuration file in any layout - comments with # or ; on their own lines, empty lines, white space around names and values and at the ends of lines, = or :, capital letters in the names of options, values containing = or # - can be read as long as options begin at the margin and no section or option occurs twice. Afterwards every option that the file sets has exactly the value written, without surrounding white space, every other option keeps its value, options are found under any capitalisation of their name, and the buffer width is the number written. For multiplier_conf.cfg the width is 0.01. Not so outside these rules: a comment behind a value belongs to the value, so that a commented width ends the run with an error; an indented option silently belongs to the value of the option above, and the run goes on with the value of the default configuration.",
  "for all file texts described by such a layout, all earlier states of the configuration, all sections, options and values",
  "the tests use one configuration file; a layout that is misread usually does not fail but silently uses the default configuration, which the tests do not look for",
  ["utilities/config.py: _ConfigParser", "all_multipliers.py: run"])
P("From the text files to the GeoTIFFs",
  "A run started with any configuration file that sets the options needed (in any layout of C123), the buffer width to 0.01 and the table to any file in a layout of C122 whose roughness lengths make sense, on rasters as in C97, takes the width, the file names, the output folder, the roughness lengths and the shielding percentages exactly as written; it lists its tiles, never deadlocks or fails, and when it is done every pixel of the DEM is in exactly one tile; either the DEM is empty around it, or its GeoTIFF in the folder of the configuration has the documented value for the numbers written in the table. With the table of the repository and a DEM outside Tasmania all values that are not NaN are between 0.52 (0.23 on the edge) and 1.701.",
  "for all configuration texts, table texts, rasters, numbers of processes, interleavings and files present before, under the stated conditions",
  "an end-to-end statement over all files, rasters and interleavings; the tests check steps on single examples and never run the program from its configuration",
  ["all_multipliers.py: run, multipliers_calculate", "terrain/terrain_mult.py: get_terrain_table, terrain_class2mz_orig", "shielding/shield_mult.py: get_shielding_table, terrain_class2ms_orig", "utilities/config.py: _ConfigParser"])

P("The eight topographic directions are mirror images of each other",
"For every DEM raster with at least one cell the topographic step succeeds, and mirroring the raster east-west (or north-south, or transposing it) and exchanging the corresponding directions mirrors the topographic multiplier, including unknown cells, smoothing and the edges.",
"every raster with unknown cells, direction, cell size, position",
"The eight directions are eight separate pieces of index arithmetic (start cells, steps, spacing); a slip in one of them shows only when all of them are compared on asymmetric rasters.",
["topographic/topo_mult.py: topomult","topographic/make_path.py: make_path","topographic/multiplier_calc.py: multiplier_calc"])
P("The eight shielding directions are mirror images of each other",
"Mirroring DEM, land cover and pixel sizes east-west (or north-south, or transposing them) and exchanging the corresponding directions mirrors the shielding multiplier. (Violated at cells of more than 3.27 degrees slope that fall exactly towards the boundary of two direction sectors, because a boundary belongs to one of them; and on grids coarser than 100 m, because there the directions are computed one from another in a fixed order.)",
"every DEM, initial shielding with unknown cells, pixel sizes, direction",
"The kernels are eight hand-written rotations and the aspect sectors eight hand-written ranges; equality of all of them under mirroring concerns every raster.",
["shielding/shield_mult.py: convo_combine, combine, blur_image, get_slope_aspect, reclassify_aspect, init_kern, init_kern_diag"])

P("From the text files to the GeoTIFFs in double precision",
"A number of at most 15 digits in the table of classes (whose last digit counts a power of ten from -15 to 15) reaches the computation as the double next to it, although pandas computes it digit by digit; likewise the buffer width in the configuration. Hence a run started with any configuration file that sets the needed options, and any table of such numbers with roughness lengths from 1 mm to 10 m, on rasters in the standard configuration, with every operation rounded, ends, never deadlocks, and every pixel of the DEM is in exactly one tile whose values are within 1/2000 of the exact ones for the numbers written in the table.",
"every rounding to 53 bits, every layout of the text files, every table of such numbers, every interleaving, every pixel",
"The claim joins the characters of the text files with the last bits of all computations of a run; tests compare a few outputs with a tolerance chosen afterwards.",
["terrain/terrain_mult.py: get_terrain_table, terrain_class2mz_orig","shielding/shield_mult.py: get_shielding_table, terrain_class2ms_orig","all_multipliers.py: run"])

P("The data type of the input rasters does not change the result",
  "Whatever type the elevations and land-cover codes are stored with, as long as it can hold them, cut_dem and "
  "multipliers_calculate give the same files for a tile. True for 8- and 16-bit integers and single-precision floats "
  "(and 32-bit integers as land cover). False for a DEM of 32-bit integers: topomult assigns NaN to the integer array "
  "and every tile with data ends with ValueError without a topographic file. False for codes above 2^24 in an unsigned "
  "32-bit land cover: the tile is float32 and different codes become the same.",
  "for all rasters, tables, tile extents and band types that hold the values",
  "The test data has one type of DEM and one of land cover; a run with a 32-bit integer DEM is not tried, and a test "
  "with a few types would not show that all others are treated alike.",
  ["all_multipliers.py: open_dem, clip_dataset, cut_dem, reproject_dataset, multipliers_calculate",
   "topographic/topo_mult.py: topomult", "shielding/shield_mult.py: get_slope_aspect, terrain_class2ms_orig"])

P("The terrain step on mirrored land is the mirror image",
  "terrain on the mirror image of a land-cover tile, east-west or north-south, succeeds exactly if it does on the tile, "
  "and the arrays it saves for the mirrored directions are the mirror images, including no-data, the treatment of "
  "water, and the shortening of the average on small tiles. The same for the transposed tile if it is square or at "
  "least as high and wide as the average of every direction reaches; false for other tiles, since the number of rows "
  "cuts the average in all eight directions.",
  "for all land-cover tiles, tables, multiplier formulas and positive cell sizes",
  "The eight directions are written out separately in the lookup tables; tests of single values do not compare them "
  "with each other on arbitrary tiles, and the tests use square tiles.",
  ["terrain/terrain_mult.py: terrain, convo, terrain_class2mz_orig"])

P("A faulty configuration or table of classes stops the run",
  "A run does not get through with a wrong text file. It stops with an error if the configuration lacks one of the eight needed options (and the default configuration has no value for it either), if the buffer width is empty or has a character that numbers do not have, if a line at the margin is neither a comment nor a header nor an option, if the log level is not a name Python's logging knows, if Verbose is no truth value (unless -v is given), and if the table of classes does not exist, has no record, has a record longer than the first two, lacks a needed column although it has rows, or has a text that is not a number in a column of numbers.",
  "every configuration file and every table of these kinds, every layout of them, every previous configuration",
  "There are infinitely many wrong files; the tests read one configuration and one table, both right.",
  ["all_multipliers.py: run", "terrain/terrain_mult.py: get_terrain_table, terrain_class2mz_orig", "shielding/shield_mult.py: get_shielding_table, terrain_class2ms_orig", "utilities/files.py: fl_start_log"])

P("The multiplier files of a mirrored country are the mirror images",
  "A DEM and a land cover on one grid, computed as one tile, and the same rasters with east and west (or north and south) exchanged: the tile is computed for both or for neither, the same files are written, with the same coordinates, and the file of every multiplier for the mirrored direction is the mirror image of the file for the direction. For the shielding files this holds at every pixel whose computed size in metres is that of its counterpart and whose ground does not face exactly the boundary of two sectors; it is false for other pixels, since the grid of pixel widths is transposed: columns get the widths of rows.",
  "for all rasters, class tables and elevations, all eight directions and three multipliers",
  "The three multipliers are computed by code written separately for the eight directions; a test compares one run with stored values and does not run a country and its mirror image, and the dependence of the shielding on the column is too small on square tiles to be seen in a single value.",
  ["all_multipliers.py: cut_dem, multipliers_calculate", "terrain/terrain_mult.py: terrain", "shielding/shield_mult.py: shield, combine", "topographic/topo_mult.py: topomult", "utilities/get_pixel_size_grid.py: get_pixel_size_grids"])

P("From the shape files to the GeoTIFFs",
"Settlements and land use are pre-processed, burnt into a raster on the grid of the DEM with 0 as no data, and all_multipliers.py is started with that raster, any configuration file that sets the needed options with a buffer width of 0.01, and any table of classes with meaningful roughness lengths, where each tile whose DEM is not empty has a pixel of a category in the table. The run never deadlocks or fails, and when it is done every pixel of the DEM is in exactly one tile and its M3 values are the documented ones for the land cover that the shape files describe: the code of the last land-use feature under the centre of each pixel and of the settlement type that covers most of that feature. The only table in the repository has no entry for any land in a settlement and describes land outside settlements as something else (a park as city buildings).",
"all shape files with finite areas, all orders in which the search tree and the pool deliver, all configuration files, tables, DEMs as in C97, numbers of workers and interleavings",
"Pre-processing and run are separate programs; no test joins them, and no table in the repository fits the codes that the pre-processing makes. The claim is about all shapes and all schedules.",
["pre_process.py: pre_process, rasterize", "all_multipliers.py: run, main", "terrain/terrain_mult.py: get_terrain_table"])

P("Arrays saved as text are loaded exactly",
"fl_save_file followed by fl_load_file gives back every entry of an array of doubles (NaN, infinities and subnormal numbers included) in its place, whatever the header (without carriage returns), with any delimiter that does not occur in numbers, and whether lines of the header are skipped or not: 19 significant decimal digits determine a double. Axes of length one are removed, so the shape of a single row or column is lost. A file name without a directory cannot be saved, and a carriage return in the header makes a file that cannot be loaded.",
"all arrays with one or two axes and at least one double, NaN or infinity; all headers without carriage returns; all delimiters outside the characters of numbers; all file names with a directory",
"There are 2^64 doubles; rounding to decimal digits and back is exact only by an argument about the spacing of doubles at every magnitude. No test in the repository calls the two functions.",
["utilities/files.py: fl_save_file, fl_load_file"])

P("The record in every multiplier file names the run's settings and program", "Every file of multipliers records, for each option of the configuration in use, its value under the attribute section_option, and besides that what the file is (multiplier and direction), the two rasters, the version of the program that was started, the version of the code, the time and the user, and nothing else; the version and the name of the default configuration file are those of the program that was started, from however deep in the call stack they are asked for.", "All configurations, stacks of calls, tiles, multipliers and directions; any layout of the configuration file", "Tests look at one configuration with names that do not clash and at calls from one depth; that no other configuration loses an entry, and that the depth does not matter, has to be shown for all of them.", ["utilities/nctools.py: save_multiplier", "utilities/files.py: fl_program_version, fl_config_file, fl_module_path, fl_module_name"])

P("Converting a folder on its own gives every tile in it exactly its rasters and changes nothing else",
"When mpi_runner.py is started on a folder of multipliers, whatever else is in the folder, with any number of processes: after a completed conversion every tile named by a file of the shielding folder has the GeoTIFF made of exactly the multipliers the folder held, and that of the maxima; the virtual rasters list these tiles once each, in the same order; no other file is changed, made or removed. The result does not depend on the number of processes or their interleaving, nor does converting again change it (but for the order in the virtual rasters), in particular not after a run of all_multipliers.py. The conversion takes a bounded number of steps and completes whenever every named tile can be converted, and never otherwise.",
"All contents of the folder and of all other folders, all numbers of processes and all interleavings of their steps, any rasters",
"Tests convert one small folder with one process; what a stray file, an earlier result or another interleaving does has to be shown for all of them.",
["utilities/mpi_runner.py: parallelise_convert_on_tiles", "utilities/convert.py: run, process_tile, process_max_tile, create_sub_dirs_for_convert"])

P("An interrupted run or conversion can simply be repeated",
"If a run of all_multipliers.py with any number of processes is interrupted at any moment and run again, with any number of processes and the tiles in any order, the result is that of a run that was not interrupted (but for the order in the virtual rasters); the same holds of a conversion by mpi_runner.py. At every moment of a run nothing outside the output folder is changed, and from the moment the folder was emptied every file in it is a temporary raster of one of the tiles or holds exactly what it is to hold in the end: no file of an earlier run and no GeoTIFF of incomplete multipliers is among them.",
"All contents of the file system, all moments of interruption, all interleavings and numbers of processes, any tiles and rasters",
"A test would have to stop the run at every one of its steps in every interleaving of the processes.",
["all_multipliers.py: run, do_output_directory_creation, multipliers_calculate, parallelise_on_tiles","utilities/mpi_runner.py: parallelise_convert_on_tiles","utilities/convert.py: run, process_tile, process_max_tile"])
P("What the converter makes of an interrupted run",
"If a run is interrupted at any moment after the output folder was emptied, and the files it left are converted with mpi_runner.py, then every GeoTIFF that is made is that of a completed run.",
"All moments of interruption, all interleavings and numbers of processes of the run and of the conversion, any tiles and rasters",
"The tiles that were being computed look complete to the converter, which takes missing multipliers for 1 with no more than an entry in the log; whether that can happen depends on the moment of the interruption.",
["all_multipliers.py: run, multipliers_calculate","utilities/mpi_runner.py: parallelise_convert_on_tiles","utilities/convert.py: run, process_tile"])

P("Exaggerating the relief never lowers a topographic multiplier",
"If all elevations are multiplied by the same factor of at least 1, the ground plan being the same, the topographic multiplier of no cell falls, in any direction.",
"All elevation models with or without gaps, all factors, all cell sizes, all cells and directions, in and outside Tasmania",
"The formula has thresholds (slopes of 0.05 and 0.45, 10 m, the zone of separation, a cap, reaches growing with the height) at any of which the multiplier could drop; samples do not hit them.",
["topographic/mh.py: mh_calc, escarpment_factor","topographic/multiplier_calc.py: multiplier_calc","topographic/topo_mult.py: topomult, remove_conservatism, tasmania"])

P("The same country further east or west has the same multipliers",
"If elevations, land cover and tables stay as they are and only the western edges of both rasters move by the same number of degrees, the raster is cut into the same tiles, the pixels keep their sizes in metres, and every multiplier file and combined GeoTIFF of a tile has the same cells, with the longitudes moved.",
"All inputs, distances, tiles, multipliers and directions, whether the computation of a tile ends well or not",
"Longitude enters at a dozen places (tile extents, clipping, resampling, geodesics, coordinates, the Tasmania test); a mistake in one of them shows only at some longitudes, and tests use one or two.",
["all_multipliers.py: multipliers_calculate, clip_dataset, reproject_dataset, get_tile_extent, get_tile_extent_buffer","utilities/get_pixel_size_grid.py: get_pixel_size, get_pixel_size_grids","utilities/vincenty.py: vinc_dist","utilities/nctools.py: clip_array, get_lat_lon","topographic/topo_mult.py: topomult","utilities/convert.py: process_tile"])

P("The numbers of the land cover classes are names",
"If the land cover classes are renumbered, in the raster and in the tables alike and no two classes with the same number, every multiplier file stays the same. Only the last rows of the classes that occur count: rows that are overridden by later ones, rows of classes that do not occur, and the order of rows of different classes make no difference.",
"All renumberings, all inputs, tables and tiles, whether the computation of a tile ends well or not",
"Some numbers may have a meaning of their own in the code; which ones, tests with the usual numbers 1 to 13 do not tell.",
["terrain/terrain_mult.py: terrain_class2mz_orig, terrain","shielding/shield_mult.py: terrain_class2ms_orig, shield","all_multipliers.py: reproject_dataset, multipliers_calculate"])

P("The layout of the text files does not matter",
"Two configuration files that set the same options to the same values (whatever the name of the file, the order of sections and options, blanks, empty lines and comments), naming tables that give the same values (whatever the layout, the order of the columns, the spelling of the numbers), give a run the same settings or stop it with the same error. If moreover the rows of the table are in another order, no category occurring twice, every multiplier file of every tile is the same.",
"All pairs of texts of configuration files and tables in the described formats, all states of the configuration before, all inputs and tiles",
"There are infinitely many layouts of the same content.",
["utilities/config.py: _read_file, set_config_file","all_multipliers.py: run, multipliers_calculate","terrain/terrain_mult.py: terrain, get_terrain_table","shielding/shield_mult.py: shield, get_shielding_table"])

P("The same country higher or lower has the same multipliers",
"If all elevations are raised (or lowered) by the same whole number of metres, every multiplier file of a tile is the same; for terrain and shielding by any amount. Fails, as proved: for tiles with gaps in the elevations, for fractions of metres (topographic multiplier), for Tasmania above 500 m, and for tiles entirely at sea level, which count as empty.",
"All inputs, tiles without gaps in the elevations, all amounts; the file names and the values of all eight directions",
"The claim compares runs over all pairs of rasters and amounts.",
["topographic/topo_mult.py: topomult, tasmania","topographic/multiplier_calc.py: multiplier_calc","shielding/shield_mult.py: get_slope_aspect, combine","all_multipliers.py: clip_dataset, multipliers_calculate"])

P("The name of the output folder does not matter, and other folders are left alone",
"Two completed runs over the same tiles into any two folders, with any numbers of processes and whatever was there before, leave the same file (or none) at every path below their folders; the virtual rasters list the GeoTIFFs of their own folder. A run never changes a file below a folder that neither contains its output folder nor lies in it, at no moment, so runs into different folders leave both results. A run into a folder that contains the output folder of an earlier run removes the results of that run.",
"All run parameters, all schedules, all folders, all files present before",
"The number of schedules and folder names is unlimited.",
["all_multipliers.py: run, do_output_directory_creation, multipliers_calculate","utilities/convert.py: process_tile, process_max_tile","utilities/mpi_runner.py: parallelise_convert_on_tiles"])

P("The rasterising tool writes the attribute it was asked for and nothing else",
  "The command-line tool, given a shape file, an attribute, a raster of elevations and perhaps a mask, writes the map of that attribute on the grid of the elevations: a pixel has the value of the last feature that contains its centre, and 0 if there is none or if the centre is outside of the mask.  It touches no file but those it documents, and reports when an input is missing.",
  "all shape files, attributes, grids, masks and folders",
  "the options combine with every folder content, also with files left by earlier calls; a test uses one clean folder",
  ["rasterize.py: cmdline", "pre_process.py: rasterize"])

P("The pre-processing script turns the files of its configuration into the land-cover raster",
  "Whatever configuration text names the layers, their attributes, the mask, the outputs and the elevations, the script writes the coded features and the land-cover raster under the names given: on the grid of the elevations named (or of the multipliers' DEM if the option says True), with the land cover that the layers describe, cut to the mask unless that is None.  Other files are left alone; when it ends with an error it has written at most the shape file.",
  "all configuration texts, layers (also with features without geometry), masks, grids and folders",
  "the layout of the configuration, the layers and the contents of the folder vary freely; tests run one configuration on small layers",
  ["pre_process.py: pre_process, rasterize, cmd_line", "utilities/shapefiles.py: read, save", "utilities/config.py: set_config_file"])

P("One configuration file drives the pre-processing and the run",
  "If the configuration names the raster that the pre-processing writes as the land cover of the run, and the DEM of the run as the grid, then the pre-processing script followed by a run with the same configuration file gives every pixel of the DEM the documented multiplier for the land cover that the two layers describe.  The DEM, the table and the configuration are as before when the run reads them.",
  "all configuration texts, layers, masks, tables, DEMs, numbers of processes and schedules",
  "two programs in sequence on files that vary freely; the second is parallel",
  ["pre_process.py: pre_process, rasterize", "all_multipliers.py: run, get_tiles"])

P("A larger map has the same multipliers in its old part",
"If the input rasters are extended by columns in the east or rows in the south, every tile whose buffered pixels do not reach an old edge beyond which the rasters now go on is again a tile of the run, with the same pixels, area and name, and its GeoTIFFs hold the same values on the same coordinates, whatever lies in the added part. A tile that does reach such an edge need not be a tile of the larger map.",
"For all pairs of rasters with the same corner and pixel size of which one is larger, all inputs that agree within the buffered limits of the tile, all pixels, all numbers of processes, schedules, output folders and earlier contents of the disk",
"The area is usually extended after a first run; a test would have to run the whole program twice on large rasters, and tile numbers differ between the runs, so that a fault in the numbering or in the clamping of buffers at the edge shows only for some pairs of sizes.",
["all_multipliers.py: __init__, tile_grid, get_gridlimit_buffer, get_gridlimit, get_tilename, get_tile_extent, get_tile_extent_buffer, cut_dem, multipliers_calculate"])

P("Several runs at the same time into folders apart from each other do not disturb each other",
  "Start the program any number of times on one machine, each with its own configuration and any number of processes, and let the steps of all processes of all runs be interleaved in any way on the common files. If no output folder contains (or is) another, then at any moment each run is where it could be after as many steps alone, with exactly the same files below its folder; nothing outside the folders has changed; a run that is through has left its multipliers, GeoTIFFs, maxima and virtual rasters, whatever the others are doing; and no run holds up another: each can go on as long as it is not through, and all can be completed. The same holds for one run beside any other programs that leave its folder alone. With one common folder it fails: the run started later removes the results of the earlier one.",
  "all finite or infinite families of run configurations (output folders not ending in two slashes, pairwise not containing each other, distinct tile names of the usual form), all initial files, all interleavings of the steps of all processes; for completion finite families whose rasters have matching shapes",
  "Runs side by side are interleaved by the operating system: a test sees one interleaving, with two particular folders.",
  ["all_multipliers.py: run, do_output_directory_creation, parallelise_on_tiles, multipliers_calculate", "utilities/mpi_runner.py: parallelise_convert_on_tiles", "utilities/convert.py: process_tile, process_max_tile"])

P("How the land-cover map is stored does not matter",
  "Of the land-cover raster only the classes at the centres of the DEM's pixels matter: completed runs with two land-cover rasters of any extent, position and resolution that show the same classes at these points (a point without class counting as class 0) leave the same values in all bands and in the maxima, for every pixel. In particular nothing changes, for any tile and for a whole run, if every cell of the land-cover raster is cut into m by n equal cells, or if the raster gets a margin of cells without data on any side.",
  "all inputs, all tiles, all cuttings m, n > 0, all widths of the margin, all other land-cover rasters with eastward and southward cells; for whole runs the conditions of C96, any numbers of processes and schedules",
  "A test compares two particular rasters; that resampling to the DEM grid picks the same cell for every position and resolution is a statement about all real coordinates.",
  ["all_multipliers.py: reproject_dataset, multipliers_calculate, clip_dataset", "terrain/terrain_mult.py: terrain_class2mz_orig", "shielding/shield_mult.py: terrain_class2ms_orig"])

P("The arrangement of the shape files does not matter",
 "If two sets of shape files say the same (the same area processed; for every settlement type the same points; the same land-use outlines with the same uses), pre-processing gives the same land-cover class at every pixel, and completed runs on the two rasters leave, for every pixel, both no GeoTIFF or the same multipliers and maxima. So the order of the features, the cutting of settlements into features, the names of the fields, other fields and the order in which the pool of processes finishes do not matter. The land-use features themselves must not be cut: a feature gets the type of settlement that covers most of it, so its parts may get another class.",
 "all pairs of sets of shape files with finite areas that say the same, where no pixel centre is in two different land-use features and no feature is shared evenly by settlement types; all grids, worker counts, orders of search and of finishing, completed runs",
 "the shape files in the tests come in one arrangement; whether another arrangement of the same content gives the same raster and the same multipliers is never compared",
 ["pre_process.py: pre_process, rasterize", "utilities/shapefiles.py: shp_file.dissolve, shp_file.crop, shp_file.spatial_join", "all_multipliers.py: run"])

P("The programs start where they find their modules",
 "Started from the folder of the program as documented, with everything installed that its files import from elsewhere, the main program and the tools get past their import statements. For the main program this holds if and only if modules meta, convert and parallel are found along sys.path, i.e. if utilities is on PYTHONPATH or something else has these names; the converter of the run is then the one found there. The pre-processing and the rasterising tool need nothing more than the installed packages.",
 "all search paths that begin with the folder of the program, with any foreign folders and folders of the repository after it, whatever modules, names and packages they have",
 "the tests put the folder utilities on the search path themselves, and so does the continuous integration; the documented way of starting is never tried, let alone other search paths",
 ["all_multipliers.py: run", "utilities/blrb.py: interpolate_grid", "utilities/mpi_runner.py: parallelise_convert_on_tiles", "pre_process.py: pre_process", "utilities/meta.py: print_call", "utilities/parallel.py: attempt_parallel"])

P("Logging the calls changes nothing",
 "The decorator that logs calls leaves the functions it decorates as they are: with any arguments, by position, by keyword or by default, the decorated function returns the same value or raises the same exception and changes the same things. The message of a call tells every parameter once, with the value the function receives; the messages are nested like brackets, with SUCCESS! exactly for the calls that returned. The interpolation of the pixel sizes with its five decorated functions has the result it has without them, and logs 5*4^depth - 1 calls.",
 "all functions with parameters of this kind, all arguments (also such as do not fit), all loggers that raise no exception, all states; for the interpolation all depths, blocks, grids and evaluators",
 "no test looks at the log, and tests run with one setting of the logger; a call with arguments that do not fit is never made",
 ["utilities/meta.py: create_arg_string, print_call", "utilities/blrb.py: bilinear, indices, subdivide, interpolate_block, interpolate_grid", "utilities/get_pixel_size_grid.py: get_pixel_size_grids"])

P("What the program tells about a file is so",
 "fl_get_stat gives the folder, the name, the checksum of the whole content and the time of modification of a file that can be read, an IOError for a name without such a file and a TypeError for what is not a text. fl_size and fl_mod_date give the size and the time of modification of what is there under the name. The dates of fl_get_stat and of fl_mod_date tell the same: two are equal if and only if the local times are equal to the second, and those of fl_mod_date are in the order of local time for years of four digits. fl_log_fatal_error logs one message for each line, in this order and without the blanks it begins with, and ends the program, with the exit status of success.",
 "all contents, names, chunk sizes other than zero, hash functions, local times, and things that are not names; all lists of lines",
 "no test calls these functions; names with several slashes, null characters, descriptors and years are unbounded",
 ["utilities/files.py: fl_get_stat, fl_mod_date, fl_size, fl_log_fatal_error"])

P("What is saved of a tile describes it",
 "A tile is saved if and only if there are coordinates and the values have their shape; the file then holds the coordinates as they are, the value of each cell rounded to the type of the file, NaN where there was NaN, and dimensions in the order latitude, longitude. The attribute actual_range of each variable gives the smallest and the largest of its values. (Violated for the topographic multipliers: they are doubles, the file rounds them to single precision but not the ends of the range.) nc_create_var stores the data it is given. (Violated for arrays: several values raise an error, a single zero is passed over.)",
 "all grids of values with NaN, all coordinates, all monotone roundings; all lists and arrays for nc_create_var",
 "tests use values that single precision holds; nc_create_var is only called without data",
 ["utilities/nctools.py: save_multiplier, nc_save_grid, nc_create_dim, nc_create_var"])

P("The land use is saved with its codes",
 "Pre-processing saves every feature of land use, in order, with its geometry, the settlement found for it, the code of settlement and land use as CAT, and all its other attributes unchanged; if a feature has no land use, it stops before anything is saved. (Violated with a crop mask: what is left of a polygon inside the mask can have a line besides its area, which cropping keeps and the schema of the file does not allow; the program stops and the file holds only the features before it. If the attributes of settlement and land use have the same name, the land use is lost and all codes are multiples of 100.)",
 "all lists of features that have the names of their schema, all names of attributes, all closed regions as geometries",
 "the mask must share an edge with a feature; tests crop with masks that do not and look at the codes only",
 ["utilities/shapefiles.py: save, crop, spatial_join", "pre_process.py: pre_process"])

P("Without mpi4py the program does the same as with one process",
 "If mpi4py is not installed, the substitute communicator answers as mpi4py does with one process: a program that finishes on one process and does not call MPI.Status() finishes in the same state. The program itself calls nothing that the substitute does not have: with one process, with and without mpi4py, it opens the DEM, computes all tiles in their order, converts all tiles that were written and builds the virtual rasters of the results, and ends with the first error there is.",
 "all programs that call the communicator; all lists of tiles, all states, all outcomes of the parts of the program",
 "tests run either with or without mpi4py; a missing method of the substitute shows only where it is not installed",
 ["utilities/parallel.py: attempt_parallel, scatter, gather, barrier", "all_multipliers.py: parallelise_on_tiles, run", "utilities/mpi_runner.py: parallelise_convert_on_tiles"])

if __name__ == "__main__":
    out = os.path.join(os.path.dirname(os.path.abspath(__file__)), "..", "properties.jsonl")
    with open(out, "w") as f:
        for r in rows:
            f.write(json.dumps(r) + "\n")
    print(len(rows))
