# Wind multipliers: model and proofs

The source in `/repo` (Python, read as text, never run) is translated by hand into
Lean 4 definitions; the properties of `properties.jsonl` are proved about those
definitions.

## Layout

* `lean/Verif/Model/*.lean` – executable-style translations.  Every definition cites
  the file and lines it models and states its simplifications.
* `lean/Verif/Spec/*.lean` – what the properties mean, written without using the
  model's helper functions (compass steps, means over sets, "is a local maximum", …).
* `lean/Verif/Proofs/*.lean` – helper lemmas.
* `lean/Verif/Props/*.lean` – the theorems, named after the property (`C07_…`), each
  followed by an `example` that instantiates its hypotheses.
* `properties.jsonl`, `MANIFEST.json` – written by `tools/gen_properties.py` and
  `tools/gen_manifest.py` (the manifest collects the theorem names from `Props`; notes come
  from `tools/notes.json`).
* `tools/mutate.py`, `seeded/LOG.jsonl` – seeded faults (see the last section).

## Trusted base

* The Lean 4.33.0 kernel.
* Axioms: only `propext`, `Classical.choice`, `Quot.sound` (Lean's standard ones, via
  Mathlib).  No axiom is added; no `sorry`, `native_decide`, `bv_decide`, `implemented_by`.
* The hand translation from Python to Lean (cited line by line), and the contracts
  assumed of the libraries it calls: numpy elementwise/array semantics, scipy
  `ndimage.convolve` (zero padding), `str` of a float (`RendersDecimal`, `RendersFine`), GDAL (a data set reads back what was written), netCDF4,
  mpi4py (reliable, per-pair FIFO messages, collective scatter/gather).

### Numbers

Model numbers live in an arbitrary ordered field `K` with a floor function (ℚ and ℝ are
instances); ℝ is used where logarithm / trigonometric functions occur.  Floating-point
rounding is *not* modelled except in the geometry of the tiles, which is modelled a second time
with every operation rounded (`FloatGeo`, C101), in the terrain averages and the
products (`FloatTerrain`, C102), in the initial terrain multipliers, the cell size and the whole
terrain step (`FloatDriver`, C113–C115), in the topographic multipliers (`FloatTopo`, C108–C110, C116),
in the shielding multipliers with slope and aspect (`FloatShield`, `FloatSlope`, C111, C112), in a whole
tile and a whole run (`FloatPipeline`, `FloatRun`, `FloatWhole`, C117–C119), in the pixel sizes (`FloatPixel`, C120; in a run C121),
in the conversion of the numbers in text files (`ReadDouble`, C127), and where a theorem is explicitly stated for
perturbed inputs (C06, C07).  NaN is `Option.none` or `NanNum.nan`; comparisons with NaN are false and
arithmetic with NaN is NaN.  Integers are unbounded (numpy `int32`/`uint8` wrap-round is not
modelled) except in the cells of the tiles, whose data types are modelled in `DataTypes` and `TypedRun` (C128).

### Exceptions

Python exceptions are values (`Except PyErr α`); an index outside an array is
`IndexError`, a negative index wraps round as in Python, division of Python numbers by
zero is `ZeroDivisionError`.

### What is modelled

| source | model | not modelled |
|---|---|---|
| `all_multipliers.py` `TileGrid`, `get_tiles` | `TileGrid`, `GeoClip`, rounded: `FloatGeo`, `FloatWhole` | GDAL open, int32 overflow |
| `all_multipliers.py` `parallelise_on_tiles`, `run` order | `Dispatch` | start-up of MPI |
| `all_multipliers.py` `run` 723–752, `files.py` `fl_start_log` | `StartUp` | links, `.` and `..` in paths; removal of the log folder by another process; contents of logs |
| `all_multipliers.py` `run` 756–777 with `mpi_runner.py`: all processes, files and contents | `Run`, `RunInputs` | a process that raises stops (MPI may abort the others instead) |
| `all_multipliers.py` `cut_dem`, `multipliers_calculate` (files) | `TempFiles`, `FileNames`, `Cwd` | – |
| `all_multipliers.py` `clip_dataset`, `reproject_dataset` | `Reproject`, `DataTypes` | GDAL's nearest-neighbour resampling is an assumption stated at `reprojectNearest`; same projection for both rasters; data types |
| `all_multipliers.py` `multipliers_calculate` (values), all steps together | `Pipeline` | pixel sizes (a parameter; C88 puts in `PixelSize`, C121 in rounded arithmetic), the checksum, integer DEMs |
| `all_multipliers.py` `do_output_directory_creation`, `timer` | `OutputDir`, `Utilities` | permissions, clock |
| `terrain/terrain_mult.py` | `Terrain`, `TerrainFormula`, rounded: `FloatTerrain`, `FloatDriver` | – |
| `shielding/shield_mult.py` | `Shield`, `SlopeAspect`, rounded: `FloatShield`, `FloatSlope` | – |
| `topographic/*.py` | `TopoLine`, `TopoGrid`, rounded: `FloatTopo` | rounding of the cell size and of √2 (the computed spacing is a parameter); FFT in `signal.convolve` |
| `utilities/convert.py`, `mpi_runner.py` | `Convert`, `FileNames`, `ConvertRun` | compression, statistics, VRT contents beyond the file list |
| `utilities/nctools.py` | `GeoClip`, `OutputDir`, `Metadata`, `SavedTile` | byte layout, attributes of the variables that are fixed texts |
| `utilities/blrb.py`, `get_pixel_size_grid.py` | `Blrb`, `PixelSize`, rounded: `FloatPixel`; with the decorators: `CallLog` | coordinate transformation (geographic rasters only) |
| `utilities/vincenty.py` | `Vincenty`, `VincentyDirect`, `vinc_dist` rounded: `FloatPixel` | `vinc_pt` and azimuths rounded |
| `utilities/config.py`, `meta.py`, `files.py` (checksum, times, sizes), `parallel.py` | `Utilities`, `OutputDir`, `CallLog`, `FileStat`, `DummyMpi`; text of configuration files: `ConfigText`, `RunTexts` | how Python's `RawConfigParser` reads is an assumption stated there; section `DEFAULT` |
| `utilities/files.py` `fl_save_file`, `fl_load_file` | `SaveText` | how numpy writes and reads texts is an assumption; encodings; permissions; the sign of zero |
| `terrain_mult.py` `get_terrain_table`, `shield_mult.py` `get_shielding_table` (text of the table) | `ClassTable`, rounded: `ReadDouble` | how pandas reads is an assumption stated there; columns of booleans, thousands separators, infinities |
| `utilities/shapefiles.py`, `pre_process.py` | `Shapefiles`, `PreProcess`, the script: `PreScript`, the file: `ShapeSave` | repair of invalid polygons, GDAL's rule on polygon boundaries |
| import statements of all files | `Imports` | what installed packages import; imports inside of functions |
| `rasterize.py` | `RasterizeTool` | what `gdal.Warp` does with a cutline is an assumption stated there (the grid of the result is a parameter); null values; parsing of the command line |
| `conf.py`, `utilities/value_lookup.py` | value tables are parameters or copied | Sphinx configuration |

## Properties: what is modelled and how it is proved

"False" below means: false of the code as written; the negation is proved with a concrete
witness and what remains true is proved under the suffix `_partial`.

Tile grid (`Model/TileGrid`, `Model/GeoClip`; `Props/Tiles`, `TileNames`, `GeoClip`)
* C01, C03, C05: `TileGrid.__init__`, `tile_grid`, `get_gridlimit*`, `get_tile_extent*` as functions of the raster size, geotransform and buffer; closed form of the nested loop (`k = i * rows + j`), per-axis lemmas on integers.
* C02 (false): iff-criterion for disjointness, disjointness under it, a 21-pixel witness.
* C04 (partial): tile name as truncated decimal rendering; `str` is a parameter required to render sign, integer digits, point, fraction.  Distinct if the start coordinates differ in the kept digits; collision witness.
* C06, C07: `clip_array`, `get_lat_lon` with numpy slicing and round-half-even, coordinates perturbed by up to a fixed fraction of a pixel.

Master/worker dispatch (`Model/Dispatch`)
* C08–C11: transition system with per-worker FIFO queues, any-source receive, optional worker crash; invariant on the multiset of tile indices; strictly decreasing measure for termination; every non-final reachable state has a step unless a worker crashed; serial loop as a list traversal.
* C12: file-system state as a predicate on paths, the tile computation as a list of create/remove actions, all interleavings of several processes (`Model/TempFiles`).

Input tiles (`Model/TileGrid`, `Model/Reproject`, `Model/Cwd`)
* C77: size of the tiles in degrees.  C03 also says the buffer in degrees.
* C78, C79: the DEM tile is a block of the DEM, robust to rounding of the extent; land cover at the pixel centre.
* C76: the operations of a tile with the working directory as part of the state; false for a relative output directory (finding 24), proved for absolute ones.

Conversion (`Model/Convert`, `Model/FileNames`)
* C13, C14: strided slices, gather, reduce.  C15: file names as character lists, `splitext`, slices.
* C16, C18: `process_tile`, `process_max_tile` with shape-checked products.  C17 (false for non-square tiles), C19 (false for raw fill values): negations and partials.  C75: the same programs on numbers with NaN, which is what the pipeline really writes.

Terrain (`Model/Terrain`, `Model/TerrainFormula`)
* C20–C25: `convo` with Python index semantics and exceptions; refinement to "mean over the set of existing upwind cells"; mirror images by relabelling cells; the exact failure criterion (C24).
* C26, C28, C69: reclassification loops and the driver `terrain` per direction.  C28 is false for short tiles.
* C27: `Real.log` formula of the table: monotone, and its value at four roughness lengths.
* C80: the widths and lags in metres.

Shielding (`Model/Shield`, `Model/SlopeAspect`)
* C29, C30, C34–C36, C38: `reclassify_aspect`, `combine`, `terrain_class2ms_orig` on numbers with NaN.
* C31–C33, C37, C70: kernels as integer-indexed matrices, `rot90`/`flip`, `ndimage.convolve` contract.  C37 (false), C70 (false above 100 m).
* C39, C40, C71: Sobel filter over ℝ with `Complex.arg` for `arctan2`.

Topography (`Model/TopoLine`, `Model/TopoGrid`)
* C41, C42: `make_path` and start positions: for each direction the lines partition the cells and are straight, edge to edge.
* C43–C45: `findpeaks`, `findvalleys`, pairing: characterised as local maxima / minima of the line without plateau repetition.
* C46–C50, C72: `mh_calc`, `escarpment_factor`, `multiplier_calc`; C48 is false at the last point (negative index write).  C72 is the exact value.
* C51–C54: `remove_conservatism`, `tasmania`, smoothing, driver; C53 is false on edges (zero padding), `C53_value` gives the value everywhere.  `C52_where` says which tiles get the Tasmania factor.

All steps together (`Model/Pipeline`, `Spec/Pipeline`, `Props/Pipeline`)
* C81–C85: one tile from the input rasters to the GeoTIFF, over ℝ.  The hypotheses are collected in `TileCase`; `sampleCase` meets them with the middle one of nine tiles.  The values are stated in terms of the whole rasters (`upwindMean`, `shieldMean`, weighted elevation differences) and, for topography, of the transects of the buffered tile, in `Spec/Pipeline`, without functions of the model except `clipInfo`, `terrainWidths` (C80) and the tile limits.
* C86 (`Props/Seamless`): the topographic value of a pixel in terms of the transects of the whole DEM; false in general, proved if the buffer is wide enough for the relief.

Utilities
* C55–C57: `blrb`, pixel-size grid (C57 is false: transposed).
* C58, C73, C74: `vinc_dist` over ℝ as an iteration with a bound on the number of rounds and explicit error cases.  Convergence is proved along parallels (contraction by 1/10 per round) and meridians, which is what the pixel sizes use, along the whole equator, and for all pairs of points at most 2.5 radian of longitude apart (contraction by 1/5 per round, `vNext_contracts_all`, from bounds on the derivative); for points nearly opposite to each other it is not claimed (there Vincenty's iteration is known to fail).  On the sphere the azimuths are those of the great circle (`Spec.Reached`).
* C89, C90 (`Model/VincentyDirect`, `Spec/Vincenty1975`): `vinc_pt` ends within four rounds and solves Vincenty's published equations up to a stated tolerance; exact on the sphere and on the equator; round trip with `vinc_dist` on the sphere.
* C92: whatever `vinc_dist` returns solves Vincenty's published equations, with one longitude for the distance and one for the azimuths that agree up to the tolerance 1e-9 of the loop.
* C91: `GreatCircle` and its intermediate points: equally spaced on the sphere and on the equator of an ellipsoid; elsewhere on the ellipsoid only number and end points are claimed.

Whole runs (`Model/Run`, `Model/RunInputs`; `Spec/Run`; `Proofs/RunStore`, `Run`, `RunProgress`; `Props/Run`, `EndToEnd`)
* The run is a transition system.  One step is one file operation or one communication of one process; the state has the position of each rank, the state of the dispatch (`Model/Dispatch`), the operations still to do per tile, the shares of the conversion and the files with contents.  Barriers are left when all ranks have reached them.
* C93: by an inductive invariant: as long as tiles are computed, the paths of each tile are as if the tile were processed alone, up to its remaining operations (the operations of different tiles touch different paths, except for `*.xml`, of which there are none); during the conversion, finished tiles have their GeoTIFFs and the multiplier files are unchanged. `C93_waits`: when the virtual raster is written, all the GeoTIFFs are there (`gdal.BuildVRT` opens them at that moment, which the contents of the virtual raster in the model would not show).
* C94: a measure decreases with every step; progress from the invariant.  The condition on the sizes is needed (`C94_hangs`).
* C95: from C93, since what C93 says determines all contents but the order in the virtual rasters.
* C96: C93/C94 with the list of tiles of the tile grid (names distinct by C04) and the pipeline's files (C81–C85).
* C97: the conditions of C96 from those of C88.
* C98 (`Proofs/Range`, `Props/Range`): bounds of the factors (classes, means, hills, smoothing window) multiplied up and
  carried through C96; `C98_shipped_table` puts in the table of `tests/test_data` (transcribed as `shippedTerrain`,
  `shippedShield`) and the estimates of C27.
* C99: level ground of one category; each factor of C96's product collapses to the table value.
* C87, C88 (`Model/PixelSize`, `Props/PixelSize`): `get_pixel_size` and the grids for the Earth's constants.  `C88_standard_tile` shows that with the standard buffer of 0.01° every tile of a DEM with square pixels of at most 0.00085° between 45° N and 43.9° S meets the conditions of C81–C86 (`TileCase`).  The radius of a parallel is defined by the ellipse and its normal (`OnMeridian`), not by the reduced latitude the code uses.
* C59: configuration store.  C60: double-checked locking as a transition system.  C61: hash as a homomorphic fold.  C62: `timer`.  C63: NetCDF writer (false: early return).  C64: category code.  C65–C67: feature lists, geometry operations as parameters.  C68: directory preparation on a tree of paths.
* C100 (`Model/PreProcess`, `Spec/PreProcess`, `Props/PreProcess`): geometries are sets of points of the plane with Lebesgue measure, so that union, intersection and area are no longer parameters; the composition of C64–C67, then the raster, then `IsLandcover`, to which C81–C99 refer.
* C101 (`Model/FloatGeo`, `Proofs/Ieee`, `Props/FloatGeo`): a `Rounding` is any monotone map with relative error at most 2⁻⁵³ that is exact on integers up to 2⁵³; `ieee` (53 binary digits, ties to even, any exponent) is proved to be one.  The ceilings of quotients of integers are exact because a quotient that is not an integer is further from one than the error; extents are within a thousandth of a pixel of pixel edges, which `around` and the pixel centres tolerate.
* C102 (`Model/FloatTerrain`, `Proofs/Near`, `Props/FloatTerrain`): an `FpRound u` is any rounding with relative error at most `u`; `digits p` (p binary digits, ties to even, any exponent) is proved to be one.  The averaging is modelled a second time with every operation rounded and compared with the specification `upwindMean`; for the conversion the model of C16 is instantiated with a type whose product rounds.  `Near c x y` collects relative errors as factors, which multiply along a computation on non-negative numbers.
* C103, C104 (`Props/Sensitivity`): no new model; two runs of C96 are compared.  C103: the GeoTIFFs of a tile are determined by the elevations and categories in its buffered limits (the topographic transects are cut at the buffer, the means of terrain and shielding reach no further than the buffer under the conditions of `TileCase`).  C104: replacing roughness lengths by smaller and shielding values by larger ones raises or keeps every value; it combines the monotonicity of the terrain formula (C27), of the two averages, of the slope adjustment and of the class limits of the final shielding multiplier.
* C105, C106 (`Model/StartUp`, `Props/StartUp`): the start of the log files as a transition system: each process tests for the folder, makes it, tests again in `fl_start_log` and opens its file; folders and names as character lists.  C106 is false (finding 29); the schedule is given.  C107: the handlers of the root logger over any sequence of calls; false for the second call (finding 41).
* C108–C110 (`Model/FloatTopo`, `Spec/TopoClear`, `Proofs/FloatDigits`, `RelErr`, `FloatHill`, `FloatLine`, `Props/FloatTopo`): `mh.py`, `multiplier_calc.py` and the corrections of `topo_mult.py` with every operation rounded to `P` binary digits (15 or more).  The floored sum of `escarpment_factor` is exact (`product_quotient`: the rounded `n·s` divided by `s` is `n` or a neighbour of `n` in the format; `ridge_add_exact`: adding the ridge, which is at least `n`, rounds that to the integer).  Relative errors are factors between `(1-u)^k` and its inverse (`RelErr`).  The formula has jumps (slope 0.05 and 0.45, end of the separation zone, escarpment factor 0.8 and 1.2); `ClearHill` excludes hills that close to a jump.  The jumps are in the code (and in the standard it implements), so there is no bound at such points.  The last point of a line is excluded since the code overwrites it (finding 9).
* C111 (`Model/FloatShield`, `Proofs/FloatShield`, `Props/FloatShield`): kernel, convolution, slope adjustment and removal of conservatism with rounded operations in two precisions (float32 storage, float64 work).  The mean has a relative error (`conv_near`, all terms are non-negative); the slope weight is Lipschitz in the slope, and the two branches at 0.9 agree there, so no cell is borderline except through the aspect.
* C112 (`Model/FloatSlope`, `Proofs/FloatSlope`, `Props/FloatSlope`): Sobel sums, derivatives, slope and aspect rounded; `hypot`, `arctan`, `arctan2` are a structure `FpTrig` of functions correct to one unit in the last place (the exact ones are an instance).  The aspect is ill-conditioned on flat ground; the theorem uses that it is only read on ground steeper than 3.27°, where its error is `ρ = error / tan 3.27°` (`arg_near`).
* C113–C115 (`Model/FloatDriver`, `Proofs/FloatFormula`, `Proofs/FloatDriver`, `Props/FloatDriver`): the formula of the initial multiplier with rounded literals and a logarithm correct to one unit in the last place (`FpLog`); the order in which `np.mean` adds is a binary tree over the cells (`SumTree`), the error depends on its depth only; widths and kernel size are floors or roundings of perturbed quotients, equal to the exact ones away from the borders (`Spec.ClearDistance`).  C115 puts both under C102 and gives the statement of C69 with an error bound.
* C116 (`Proofs/Spacing`, `Props/Spacing`): how the hill formula depends on the spacing of the points: everything scales with the spacing, so a relative change by eps moves a multiplier by at most 2 eps away from its jumps (`hill_scale`), and the smoothed raster by 4 eps with the Tasmanian factor.  Composed with C110 for the rounded computation.
* C117 (`Model/FloatPipeline`, `Spec/FloatPipeline`, `Proofs/FloatPipeline`, `Props/FloatPipeline`): a whole tile in rounded arithmetic, from the inputs as read (`AsRead`) to the GeoTIFF and the maximum raster.  `M3Value` says in the terms of C82–C85 what a pixel should be; `C117_value` that this is one number; `C117_tile` that the NaN pixels are those of exact arithmetic and the others within 0.0005 unless the pixel is borderline (`ClearPixel`); `C117_maximum` the same for the largest of the eight.  Error budget: shielding 2^-17, terrain 505/2^23 (relative), topographic 4/2^15 + 252/2^24 – most of it from the spacing, which has an error of up to 2^-15 because the sum of an array may go through 60 rounded additions.
* C118 (`Model/FloatRun`, `Props/FloatRun`): the run of all processes (C93–C96) with the tiles of C117.  The converter and the store of files are polymorphic in the type of the cell values, so the theorems on the run apply to rounded numbers as they are; `hillside` (nine tiles) meets all hypotheses.
* C119 (`Model/FloatWhole`, `Proofs/FloatWhole`, `Props/FloatWhole`): C118 with the geometry of C101.  `TileCaseFl.toAt` reduces a tile with rounded limits and corners to the hypotheses on which C117 depends (`TileAt`): sizes and offsets are those of exact arithmetic, and the land cover is looked up in the same pixels as no centre is within rounding of a border (`floor_clear`, `pixelAt_iff`).  Computed corners of different tiles are at least 3/4 apart less an error, while equal names mean a difference below 1/5 (`RendersFine`), so names are distinct.  `terrace` (four tiles) meets all hypotheses for every rounding.
* C120 (`Model/FloatPixel`, `Proofs/Err`, `Proofs/FloatVincenty`, `FloatParallel`, `FloatLoop`, `FloatDist`, `FloatMeridian`, `FloatCoords`, `FloatBlrb`, `Props/FloatPixelSize`): `vinc_dist` and the pixel-size grids in double precision.  `Err L e m x y` says that `y` is `x` up to `e·L` and `x` at most `m·L`; errors are carried through the formulas with `L` the angle between the points, so that they stay relative to it.  The function that is iterated contracts (C74), so a rounded iterate is near the exact one; rounded and exact iteration may stop after different numbers of rounds, but wherever they stop they are within the tolerance of the fixed point (`exits_close`).  The latitude must not be small because `2 sin U₁ sin U₂` is divided by `cos² α`.
* C121 (`Spec/FloatStandard`, `Props/FloatStandard`): C119 and C120 put together in the standard configuration.  `C121_sizes` applies C120 to the raster of a tile with its rounded corner, `C121_tile` derives the conditions of C119 on the tile and on what is read, and `C121_run`, `C121_every_pixel` no longer have the pixel sizes as a parameter.  The example (`plateau`) is a raster of 24 × 24 pixels at 3° S with the sizes the code computes.
* C122 (`Model/ClassTable`, `Spec/ClassTable`, `Proofs/Csv`, `Proofs/Numerals`, `Props/ClassTable`): the text of the table of classes.  The model is pandas' tokenizer as a state machine (quotes, doubled quotes, `comment='#'`, blank lines, `\r\n`), its typing of whole columns and the loops over rows.  The specification describes a file by the pieces that make it up (`FileText`), so it says nothing about how to parse.  Numbers may have `+`, `E`, no digits before or behind the point (`Spelling`).  `C122_terrain`, `C122_shielding`: for every file so described the steps get the numbers written.  `C122_shipped`: the file of the repository; `C122_shipped_rows` (in `Props/RunTexts`): it is the table of C98.  `C122_number_sign`, `C122_text_category`: two ways in which a table is silently misread.
* C123 (`Model/ConfigText`, `Spec/ConfigText`, `Props/ConfigText`): the text of configuration files, in the same manner; the lines that are found go to the store of C59.  `C123_read`, `C123_get`, `C123_upwind`, `C123_shipped`; limits: `C123_inline_comment`, `C123_indented`.
* C124 (`Model/RunTexts`, `Props/RunTexts`): C122 and C123 in front of C96–C98: `C124_settings` (what a run takes from its text files), `C124_run` (every pixel has the documented value for the numbers written in the table), `C124_shipped` (range with the table of the repository).
* C125: `Props/TopoMirror.lean`.  The topographic step from the DEM tile to the smoothed grid, for three generators of the symmetries of the square (east-west, north-south, transposition), for every raster.  Built on C54 (each cell from its transect), so it compares the eight branches of the start cells, of `make_path` and of the spacing with each other.
* C126: `Props/ShieldMirror.lean`.  The same for the shielding step from DEM and initial shielding to the eight saved arrays.  False as stated: `C126_boundary_breaks_mirror` (ground of 45° falling exactly towards 22.5°: the boundary of two sectors belongs to the one clockwise of it) and `C126_coarse_cells_break_mirror` (above 100 m the directions compound, C70).  The `_partial` theorems exclude only these: cells of at most 100 m, and cells that are both steeper than 3.27° and head exactly for a boundary.
* C127 (`Model/ReadDouble`, `Spec/ReadDouble`, `Proofs/ReadDouble`, `Props/ReadDouble`): the text files of C124 in front of the rounded run of C121.  The model is pandas' conversion in C (`number = number * 10. + digit` for up to 17 digits, then one multiplication or division by a power of ten); up to 15 digits and powers up to ±15 all steps but the last are exact (`C127_number`), so that the tables are the written ones rounded once (`C127_tables`, `C127_settings`, `C127_shipped` for the table of the repository).  This discharges the hypotheses of C113 and C117–C121 that tables are read up to two units in the last place.  `C127_run` is the run.  `C127_long_numbers`: with 19 digits, a number that is not zero is read as zero.
* C128 (`Model/DataTypes`, `Spec/DataTypes`, `Props/DataTypes`): the types of the two rasters in front of the tile of C81–C85.  `clip_dataset` and `reproject_dataset` make tiles of type Int32 or Float32; `tileStepTyped` stores the cells accordingly and lets the topographic step fail on an integer array.  `C128_types_partial`: for 8- and 16-bit integers and float32 (and int32 land cover) the types do not matter.  Negations: `C128_int32_dem` (every tile with data fails), `C128_false` (concrete raster), `C128_large_codes` (codes above 2²⁴ merge in a Float32 tile).
* C129 (`Props/TerrainMirror`): the symmetry of C25 for the whole of `terrain`, with classification, no-data, water, the choice of the widths and their shortening, and failures; completes C125 and C126.  `terrain_carried` does it for any symmetry of the compass (`ImageOf`).  The two mirrors hold for all tiles.  Transposition holds for square and for large tiles (`C129_transpose_partial`) and is false in general (`C129_transpose_false`, finding 3: `shape[0]` also cuts the average along the rows).
* C130 (`Spec/BadTexts`, `Props/BadTexts`): the converse side of C122–C124: what a run refuses.  `start_ok` lists all that a started run has found; each `C130_*` excludes one fault: `C130_meaningless_line` (for any text whatever around the line), `C130_missing_option`, `C130_bad_width`, `C130_bad_level`, `C130_bad_verbose`, `C130_bad_table` (`FileText.Unusable`).  What is *not* refused are findings 39, 43, 44, 47, 48.  The texts claimed to be no numbers leave out all that `float` or pandas may accept beyond decimal numbers (`NotNumber`).
* C131 (`Spec/TileMirror`, `Props/TileMirror`, `Props/TileMirrorFalse`): C125, C126 and C129 joined to a whole tile, from the two rasters to the 24 files, with the cutting of the DEM, the reprojection of the land cover and the clipping.  One tile without a buffer (`OneTile`), so that the mirror image of the rasters is the mirror image of the tile.  The terrain and topographic files are mirror images without condition.  The shielding files are not: `C131_transposed_sizes` has 5000 columns and 3 rows of ground falling east at one rate; the pixel widths of the last column are those of a row 5° further south (finding 14), the mirrored slope is above 3.27° and the original slope is not.  The partial theorems add the condition `SameGround` for the shielding pixels.
* C132 (`Props/FromShapes`): C100 and C124 joined: the two shape files, the configuration, the table and the DEM in, the GeoTIFFs out. The land cover in the claim is the one that the shape files describe (`PreCfg.IsCover`), not the raster between the two programs. `C132_settled_codes_unknown` and `C132_unsettled_codes_misread` say why the table of the repository cannot be the one that is used (finding 50).
* C133 (`Model/SaveText`, `Spec/SaveText`, `Proofs/SaveText`, `Props/SaveText`): the format `%.18e` and `np.savetxt`, universal line ends and `np.genfromtxt` as far as `fl_save_file` and `fl_load_file` use them. Doubles are rational numbers here, with the limits of the exponent (`IsDouble`, `nearestDouble`), so the model runs (`decide +kernel` for the examples). Not modelled: encodings, delimiters of several characters, the sign of zero.
* C134 (`Model/Metadata`, `Spec/Metadata`, `Props/Metadata`): the call stack as a list of frames (`sys._getframe`, `inspect.stack`), the functions of `files.py` that read it, and the dictionary `global_atts` of `save_multiplier`. False of configurations with clashing names (`C134_clash`); `C134_no_clash` gives a condition on the sections that the shipped file meets. `C134_settings` joins it with the configuration text of C123. The netCDF library's rules for names of attributes are not modelled.
* C135 (`Model/ConvertRun`, `Spec/ConvertRun`, `Proofs/ConvertRun`, `Props/ConvertRun`): `mpi_runner.py` started on its own, as a transition system like that of C93–C95 but with an arbitrary folder at the start. The specification gives the paths explicitly and finds the tiles by "a file whose name starts with the tile name up to the first underscore". `C135_outcome`, `C135_same_result`, `C135_again`, `C135_after_run`, `C135_run_completes`, `C135_finishes` (every step is counted, at most two per tile and two per process), `C135_completes`, `C135_hangs`, `C135_waits` (as in C93). Folders inside the shielding folder, which `listdir` lists too, are left out; so is the import of the modules (finding 25).
* C136 (`Spec/Interrupted`, `Proofs/Interrupted`, `Props/Interrupted`): runs and conversions that are interrupted and repeated. `RunCfg.Right` says of a path and a content that the content is what the file is to hold in the end. `C136_any_moment` is an invariant of every state of the run (C93 speaks of the last one only), `C136_repeat` and `C136_convert_repeat` compare the repeated with the undisturbed one. An interruption falls between two steps: a file that is cut off while it is written is not modelled.
* C137 (`Props/Interrupted`): converting what an interrupted run left. False: `C137_unfinished` stops a serial run before its topographic step (the 27 file operations before it are executed by the kernel). `C137_converted_partial` holds for tiles with all their files, `C137_finished_tile` says that a finished tile has them.
* C138 (`Spec/Exaggeration`, `Props/Exaggeration`): multiplying all elevations by a factor. `C138_hill` is the monotonicity of the formula in the height of the hill (up to 4141 m, where 0.71 stops being an upper bound of H / (3.5 (10 + L1))). The hills of the exaggerated line are those of the line (`Exaggerated.isHill`), with the same escarpment factors, so C72 gives the lines and C54 the rasters. False at the last point and above 4141 m.
* C139 (`Spec/MapShift`, `Props/MapShift`): moving both rasters east or west. Every use of a longitude is a difference of two, except the Tasmania test and the coordinates written. `processTile_moved` carries the coordinates through the conversion. False where the move crosses 143° E in the south: `tableland`, a single tile of the tile grid with pixel sizes from `vinc_dist`.
* C140 (`Spec/Recoding`, `Props/Recoding`): renumbering land cover classes. Codes are only compared, with the table and with -99, and 0 is filled in; `tileStep_of_class` shows that a tile depends on land cover and tables only through the multipliers of the classes. False if 0 or -99 is renumbered.
* C141 (`Spec/TextLayout`, `Props/TextLayout`): text files that say the same, by C122 and C123 (what is read is what the text says); the order of rows by C140.
* C142 (`Spec/Datum`, `Props/Datum`): the same country higher or lower. Slope and aspect are differences (any amount); along a line C50 gives whole metres. The exceptions (gaps, fractions, Tasmania, sea level) are witnesses.
* C128, C140, C142 for whole runs (`Model/TypedRun`, `Spec/SameRuns`, `Props/SameRuns`): inputs that give the same files for every tile give runs with the same result (from C95).
* C143 (`Spec/Folder`, `Props/Folder`): the output folder, from C93 (what a completed run leaves) and C136 (what it leaves alone at any moment).
* C144 (`Model/RasterizeTool`, `Spec/RasterizeTool`, `Props/RasterizeTool`): the tool as a function on a folder.  `C144_map_partial`, `C144_crop_partial` for the attribute `CAT`; false for others (`C144_attribute`, `C144_attribute_ignored`).  `C144_no_cat`, `C144_stale`, `C144_lost`: the traps of finding 61; `C144_error`: what is reported.
* C145 (`Model/PreScript`, `Spec/PreScript`, `Props/PreScript`): the script around C100 as a function on a folder; the configuration by C123.  `C145_script`: outputs and all other files; `C145_no_dem`, `C145_on_error`: errors; `C145_shipped`: the configuration of the repository; `C145_default`, `C145_inputs_lost`: finding 62.
* C146 (`Spec/BothPrograms`, `Props/BothPrograms`): C145, then C132 on the files that are then in the folder; `C146_shipped_apart`: finding 63.
* C147 (`Spec/LargerMap`, `Props/LargerMap`): C103 for two rasters of different size. `C147_tiles` finds the tile of the larger raster, which has another number; `C147_run` compares what two completed runs leave; `C147_edge` shows that the condition is needed.
* C148 (`Model/Together`, `Proofs/Together`, `Props/Together`): several runs on common files; a step of one run is a `RunStep` on the files as they are at that moment. `frame_step` shows that a step reads and writes only below the output folder, so it can be replayed on any files that agree there; `C148_shared` is the same for one run beside arbitrary other programs, `C148_together` for a family of runs, `C148_results` carries C93 over, `C148_finishes`/`C148_completes` carry C94 over. `C148_one_folder` shows that folders that are not apart do not do. Outside the model: the log file, which two runs with the same `LogFile` would share, and the input files, which nobody may change meanwhile.
* C149 (`Spec/CoverStorage`, `Props/CoverStorage`): no new model; the land cover is resampled by C79's model of `gdal.ReprojectImage` (nearest neighbour, same projection), so the claim rests on that assumption. `C149_centres` from C103, as another raster with the same classes at the pixel centres meets the same conditions; `C149_finer` and `C149_margin` are equalities of whole tiles, `C149_run` of runs.
* C150 (`Spec/ShapeArrangement`, `Props/ShapeArrangement`): no new model; from C100, whose specification of the raster names only the points of each settlement type and the last feature at a pixel. `SaySame` compares files as sets; `OneUse` and `Uneven` exclude the cases in which the order of features or of the search decides (overlapping land use, ties). `C150_uses_cut` is the limit: cutting a land-use feature in two changes a class from 205 to 305. `C150_run` carries the rasters through C149.
* C151 (`Model/Imports`, `Spec/Imports`, `Proofs/Imports`, `Props/Imports`): the import statements and top-level names of all 25 files as a table, Python's import system (search along `sys.path`, packages, `sys.modules`, names that may be modules) as functions on it. `imports_ok`: after a start every statement of every loaded file had what it needs; `imports_exist`: conversely, by the depth of the imports. `C151_main_partial` is the exact condition for all search paths, `C151_documented` the start as documented, which fails; `C151_converter` says whose converter is used. That what is installed can be imported is assumed.
* C152 (`Model/CallLog`, `Spec/CallLog`, `Proofs/CallLog`, `Props/CallLog`): the decorator `print_call` of `meta.py` for any function, with Python's rules of a call and `inspect.getcallargs`; computations are functions on a state with exceptions (`Prog`), so that what is changed before an exception stays. `C152_transparent` (for any part `π` of the state the logger leaves alone), `C152_log` (the message and `SUCCESS!`), `C152_off`; then `blrb.py` with all its decorators: `C152_interpolation` and `C152_pixel_sizes` (the result of `Model/Blrb`, which leaves the decorators out), `C152_messages` (nesting and number of messages).
* C153 (`Model/FileStat`, `Spec/FileStat`, `Proofs/FileStat`, `Props/FileStat`): `fl_get_stat`, `fl_mod_date`, `fl_size` and `fl_log_fatal_error` of `files.py`. What is there is a function of names and descriptors; the checksum is that of C61. The texts of `ctime` and `strftime` are modelled character by character, so that their equality and order can be compared with those of the local times. False for what is not a text (finding 66).
* C154 (`Model/SavedTile`, `Spec/SavedTile`, `Props/SavedTile`): the dictionaries of `save_multiplier` with the values: coordinates, ranges, rounded values, and what `nc_create_var` does with data. `RangeOf` says smallest and largest by all cells, independently of `np.nanmin`. False for values that are not of the type of the file (finding 67).
* C155 (`Model/ShapeSave`, `Spec/ShapeSave`, `Props/ShapeSave`): the attributes of the land use as dictionaries, the schema with its two updates, and `shp_file.save`. fiona takes a record if its names are those of the schema and its geometry is one polygon or several, that is, the closure of its interior; `Polygonal` in the specification says this by open sets. False with a crop mask (finding 69).
* C156 (`Model/DummyMpi`, `Spec/DummyMpi`, `Props/DummyMpi`): programs as trees of calls to the communicator, answered by `DummyCommWorld` or by mpi4py with one process (an assumption). The end of `run` is such a program; `plainRun` in the specification is the same without parallel processing.

## Findings: where the code does not do what one expects

1. **Overlapping tiles** (C02): if the last column of tiles is narrower than the buffer, the core of the last but one tile already reaches the edge of the raster and the last tile repeats cells.  If the buffer reaches a whole tile, the second column starts at 0 too (the same criterion fails, as the last column is then narrower than the buffer).
2. **Name collisions** (C04): `str(x)[:8]`, `str(y)[:7]` drop digits; two tiles of a fine grid, or with negative coordinates, can get the same name and overwrite each other's files.
3. **Terrain average divides by zero** (C24): the width clamp uses `shape[0]` also for east/west winds; on coarse grids the diagonal width becomes 0; a tile with exactly `lag` rows fails.  `ZeroDivisionError` ends the worker, and then the master waits for ever (C10).
4. **No-data terrain written as 1.0** on tiles shorter than the lag (C28).
5. **No-data holes shift** (C37): the shielding kernels leave out the centre cell, so a no-data cell gets a value and NaN appears downwind.
6. **In-place shielding** (C70): on grids coarser than 100 m the initial shielding array is modified in place, so the reduction compounds from direction to direction.
7. `terrain_class2ms_orig` stores −99 into an array of the land-cover tile's type.  It would wrap in an unsigned type, but the tiles are always Int32 or Float32 (C128), so it cannot happen in a run.  A Float32 tile does not tell codes above 2²⁴ apart (`C128_large_codes`).
8. Flat cells: the aspect is 270 in Python (−0.0 in `arctan2`) and 90 in the model; the slope is 0, so the result does not depend on it.
9. **Index −1** (C48): a hill whose range starts before the line writes to the last point of the line.
10. **Zero padding at tile edges** (C53): edge cells of the smoothed topographic multiplier drop to 6/9 (corners 4/9) of their value; the buffer hides it except at the edge of the raster.
11. Elevation no-data is 0 on the lines of the hill model: coasts of no-data become cliffs.  For integer DEMs see 31.
12. The cap 1.71 of the line multiplier binds only for rises above about 4140 m.
13. In `findpeaks` the branch `ind[-1] == np.size(y)` is dead and the compress step never removes anything.  `escarpment_factor` floors a float quotient; the quotient can be off by its last digit, but the ridge index added to it absorbs that digit, so the floor is right (C108).
14. **Transposed pixel sizes** (C57, C131): the pixel-size grid is transposed with respect to the raster; `get_slope_aspect` divides by it cell by cell, so slope and aspect are computed with the sizes of other pixels; the mean (the cell width used by the convolutions) is right on square tiles only.  Odd grid sizes extrapolate, size 1 is `ValueError`, size 2 gives NaN (C56).  A mirrored country does not get mirrored shielding files (`C131_transposed_sizes`).
15. **Missing multiplier files** (C17): a missing terrain or topographic file is replaced by an `(nx, ny)` array of ones, `ValueError` unless the tile is square; a missing `ms_e` is `UnboundLocalError`; a missing `ms_n` is `RuntimeError`.
16. **Fill values multiply** (C19): `multiplied.data` is the raw product of masked arrays, not the fill value.  The pipeline itself writes NaN rather than −9999, so in practice C75 applies.
17. **Vincenty** (C58): the same place given with longitudes 2π apart, and antipodal points on the sphere, divide by zero.  `vinc_pt` with distance 0 divides by zero.
18. **Singleton** (C60): an instance that is falsy is created again.  (The class is not used.)
19. **Checksum** (C61): chunk size 0 hashes nothing.
20. **NetCDF writer** (C63): `return` stands inside the loop over the variables, so only the first one is written, `crs` never; a call without variables leaves the file open; later variables are never validated.  `if data:` in `nc_create_var` is ambiguous for arrays (unused).
21. **Dissolve** (C65): the strings "None" and "" are merged with null.
22. **Spatial join** (C66): a zero-area feature that meets two settlements is `ZeroDivisionError`; touching a single one is enough to be joined; the `STRtree` lookup by `id()` works only with shapely 1.
23. **Crop** (C67): clips to the bounding box of the mask, not to the mask.
24. **Working directory**: `convo_combine` changes to the shielding directory (`shield_mult.py` 337) and never back.  With a relative `output_dir` the topographic step of the same tile looks for the DEM tile relative to the new directory and fails.  `save_multiplier` leaves the directory changed if `git describe` raises (`nctools.py` 321–324).
25. `utilities/mpi_runner.py` imports `convert` and `parallel` a second time as top-level modules; the import happens before `run` extends `sys.path`, so `all_multipliers.py` starts only if `utilities` is on `PYTHONPATH`.
26. Path comparison assumes that the output directory does not end in `//`.
27. **No-data does not reach the steps**: neither `clip_dataset` nor `reproject_dataset` sets a no-data value on the new file (`SetNoDataValue` occurs only in `convert.py`, `pre_process.py` and for the −99 file of the shielding step).  Under the assumption stated at `reprojectNearest`, missing elevation arrives as 0 m and missing land cover as category 0.
28. **Empty-tile test by checksum** (`all_multipliers.py` 390): GDAL's 16-bit checksum of a tile with data can be 0, and the tile is then skipped without a message.
29. **Race for the log folder** (C106, `all_multipliers.py` 724–731): before MPI is started every process tests for the folder of the log file and makes it if missing, without `exist_ok`.  If two processes find it missing, `makedirs` of the later one raises and this process, possibly rank 0, logs to `multipliers.log` in the working directory although the folder of the configuration is there.
30. **Metadata keys** (`nctools.py` 347–350): the attribute `section_option` made from the configuration may coincide with a fixed attribute. (C134: `C134_clash`; two options of the configuration may also coincide.)
31. **A DEM of 32-bit integers cannot be used** (C128): `clip_dataset` keeps the type Int32 (and makes Float32 of all others), and `topo_mult.py` 69 assigns NaN to the elevation array without converting it to float.  By numpy's rules this is a `ValueError` on an integer array even when no cell is selected.  Every tile with data ends there, with its terrain and shielding files written and no topographic file.  `get_slope_aspect` has the conversion (`shield_mult.py` 112).  The rule of numpy is read, not run.
32. **Tile boundaries show in the topographic multiplier** (C86): the reach of a hill is up to four times its length measure, but the buffer is a fixed number of metres.  A tile whose buffer begins behind a crest does not see the hill; its neighbour does.  No step at the boundary if the buffer less one cell is 63.2 times the relief.
33. **The Tasmania factor is decided per tile** (`topo_mult.py` 54–55 and 132 use the corner of the buffered tile), so cells of a tile that lies across 143° E or 40° S get the factor of its corner.
34. **`vinc_pt`** (`vincenty.py` 344–352): a parenthesis is misplaced, so the term with B/6 is multiplied by cos σ, unlike in `vinc_dist` and in Vincenty's formula.  The effect is at most B³/12 radian (`directDelta_sub`), about 2.5 mm on the Earth.  (No caller on an ellipsoid except `GreatCircle.points`.)  If the first value of σ is −2 up to about 2e-9 (a negative distance) the loop is not entered and `two_sigma_m` is unbound (C89).
35. **`GreatCircle.points`** on a sphere returns `map` objects, which on Python 3 are iterators, not lists.  For an end point equal to the first they are NaN (C91).
36. **The check for antipodal points in `GreatCircle` comes too late** (C91): `vinc_dist` in the constructor divides by zero first (in exact arithmetic; with floats sin π is not exactly zero).
37. **Same attribute name in both layers** (C100, `C100_same_name`): `spatial_join` writes the settlement type into the attribute `settlement_cat` of the land-use features; if that is also the name of the land-use attribute, the land use is lost.
38. **Unlisted settlement types can win** (C100): they are dissolved into one group of value null, which takes part in the comparison of overlaps.  A feature of which 40 % is in a city and 60 % in settlements of an unlisted type is coded as outside all settlements.
39. **Codes that are not in the terrain table count as open water** (Mz 1, no shielding) without a message.  `pre_process` writes codes such as 205; the only table in the repository (`tests/test_data`) has 1 to 13, with other meanings (6 is water for `pre_process`, "Orchard, open forest" in the table).
40. **`rasterize.py`** ignores its option `--attribute` (always `CAT`) and writes to `test.tiff` in the current directory; the argument `crop_topo` of `rasterize` is not used.
41. **`fl_start_log` a second time** (C107) has no effect on the log file: `logging.basicConfig` does nothing if the root logger has a handler, but the message says "Started log file" with the new name.  The documentation of `newlog` says that a new file is created each time.  The program calls it once.
42. **Verbose output** goes to standard error (`logging.StreamHandler()` without argument), documented as standard output, and is switched on depending on whether standard *output* is a terminal.
43. **A number sign in a description** (C122): `comment='#'` applies everywhere outside quotes, so in a row `4,Zone #2,0.4,90` the roughness and shielding are cut off and read as missing.  The class gets NaN as multiplier, which the terrain step treats as open water.
44. **One category that is not a number** (C122), for example a trailing row of totals, turns the whole column into texts; no category then equals a cell of the raster, and the table has no effect at all, without a message.
45. **A missing table of classes** ends the program with status 0: `get_terrain_table` catches the error and calls `sys.exit()` without an argument (`terrain_mult.py` 169–171), while the shielding step would raise (`shield_mult.py` 162).  A script that looks at the status takes the run for successful.
46. **A comment behind a value** in the configuration (C123) belongs to the value, as is usual for `RawConfigParser`; with a file name this shows only as a file that is not found.
47. **An indented option** (C123) silently becomes part of the value above it, and the option has the value of the default configuration, which is always read first (`config.py` 36–38).
48. **A configuration file that does not exist** is skipped by `read` without a message (`config.py` 45): a mistyped `-c` starts a run with the default configuration, whose output folder is deleted and created anew (`all_multipliers.py` 569–574).
49. **A faulty table shows after the old output is gone** (C130): `run` empties the output folder (`all_multipliers.py` 760) before the first tile reads the table of classes (`terrain_mult.py` 168), so a run with a mistyped table name deletes the previous results and then stops.
50. **No table for the codes of the pre-processing** (C132): `pre_process.py` makes categories 100 * settlement + land use (0 to 511); the only table of classes in the repository, `tests/test_data/terrain_classification.csv`, has categories 1 to 13 of another land cover, and the table that `multiplier_conf.cfg` 21 names is not in the repository. With the table that is there, no land in a settlement has a roughness length, and land outside settlements is taken for something else without notice: a park (1) for "City buildings" with 2 m, water (6) for "Orchard, open forest".
51. **`fl_save_file`** (C133): for a file in the current directory (a name without a directory) it calls `os.makedirs('')`, which raises `FileNotFoundError`; an array with an axis of length one comes back from `fl_load_file` without that axis; a carriage return in the header makes a file that cannot be loaded.
52. **Smaller points in the utilities** (not part of a claim): `fl_module_name` returns the name of the calling function (`co_name`), not of its module as documented (`files.py` 64); `fl_log_fatal_error` ends the program with status 0 (`sys.exit()`, `files.py` 301); `DummyMPI.Status` is an object, so `MPI.Status()` would fail without MPI, which only a run with several processes reaches.
53. **Levels of the call stack** (C134, `files.py` 81–84, 206–210): a given `level` means the function one step nearer for `fl_config_file` than for `fl_program_version`, so that `fl_config_file(level=1)` names `files.py` itself (`C134_levels`); and without a level it gives the name of the program that was started, not of the calling file as in its example (`C134_not_caller`).
54. **`git describe`** (`nctools.py` 321): no multiplier can be saved where the code is not in a git repository with a tag (`C134_no_git`); every tile fails there.
55. **Stray files** (C135, `mpi_runner.py` 24–25, 30–38): any file in the shielding folder, say a note or a statistics file `x.aux.xml`, is taken for a tile. Its conversion fails, and the other processes wait in `gather` for the one that failed (`C135_hangs`).
56. **Converting after an interruption** (C137, `convert.py` 113–136, `mpi_runner.py` 23–38): when a run was killed while a tile had its shielding but not yet its topographic multipliers, `mpi_runner.py` makes a GeoTIFF of it with topographic multiplier 1 and no more than an entry in the log (`C137_unfinished`). Repeating the whole run is safe (C136).
57. **Higher relief, lower multiplier** (C138, `mh.py` 101–131): doubling all elevations can lower the multiplier of the last cell of a line (`C138_last_point`), because the value meant for the cell before the first (finding on C48) is overwritten as soon as the hill reaches the last cell. For hills above 4141 m the formula for the zone of separation gives less than the one it replaces (`C138_high`).
58. **Two class numbers have hidden meanings** (C140): cells outside the land cover raster get class 0 (`all_multipliers.py`, `reproject_dataset`), so a table with a class 0 gives them its roughness and shielding (`C140_zero`); a class -99 has no shielding multiplier although the table gives one (`shield_mult.py` 200–205, `C140_minus_99`), while its terrain multiplier is that of the table.
59. **Elevations are measured from 0 m in places where they should not be** (C142): cells without elevation become 0 m when the tile is cut out (`all_multipliers.py` 349–361, `clip_dataset` sets no no-data value on the new file), so country at 400 m next to a gap stands on a cliff of 400 m (`C142_gap` shows the effect with 20 m); a tile whose elevations are all 0 m has checksum 0 and gets no multiplier files at all (`all_multipliers.py` 390, `C142_sea`), though it may have houses on it; elevations are rounded down to whole metres first, so a hill of 10.5 m is 10 or 11 m high depending on the datum (`C142_fraction`).
60. **A run removes everything below its output folder without asking** (C143, `C143_inner_lost`): `do_output_directory_creation` (`all_multipliers.py` 557–583) deletes the folder if it exists, with the results of other runs that were put into folders inside it, and with anything else; nothing checks that the folder holds results of this program.
61. **`rasterize.py` does not notice a missing mask or a missing field** (C144).  `gdal.Warp` returns nothing for a mask that does not exist; the script goes on.  If the folder still has `<dem>_crop` of an earlier call, the map is made on that old grid, the old `test_crop.tiff` stays, and the tool ends normally (`C144_stale`).  A shape file without the field `CAT` gives a raster of 0 (`C144_no_cat`), also when `--attribute` names a field that exists.  Elevations in a file `test.tiff` are overwritten (`C144_lost`).
62. **`pre_process.py` trusts its configuration** (C145).  A mistyped `-c` works through the files of the default configuration without a message (`C145_default`).  The option `topo_crop`, which `multiplier_conf.cfg` 11 sets, is never read.  Outputs that have the name of an input replace it: the DEM by codes, the land use by its coded features (`C145_inputs_lost`).  A missing DEM shows only after the shape file is written (`C145_no_dem`).
63. **The configuration in the repository does not connect the two programs** (C146, `C146_shipped_apart`): `output_rasterized` names `…/intermediate/meshblobcks.tiff`, `terrain_data` names `…/input/Cairns/cairns_tr_int.tif` (`multiplier_conf.cfg` 15, 20).  A run with it does not use what the pre-processing with it makes.
64. **The main program does not start as documented** (C151, `C151_documented`).  `utilities/blrb.py` 14 and `utilities/mpi_runner.py` 10-11 import `meta`, `convert` and `parallel` a second time, as modules of their own (in Python 2 that meant the neighbouring files).  With Python 3, `python all_multipliers.py -c multiplier_conf.cfg` (`docs/run_instructions.rst` 147) stops with `No module named 'meta'` unless `utilities` is on `PYTHONPATH`, which only `.travis.yml` 39 and some of the tests see to.  If another module `convert` comes first on the path, its `Converter` replaces the one of the program without a message (`C151_converter`).  (The command for parallel runs in the same place misspells the script: `all_mulitpliers.py`.)
65. **Three packages are on no list** (C151, `C151_tools_documented`): `pre_process.py` and `rasterize.py` need `shapely`, `fiona` and `rtree`, which neither `requirements.txt` nor `wmenv.yml` names.
66. **`fl_get_stat` and `fl_log_fatal_error`** (C153): the documented `TypeError` of `fl_get_stat` for what is not a text never comes first, since `open` is tried before, in a `try` that makes every exception an `IOError`; a whole number is taken for a descriptor, and the open file is closed before the `TypeError` comes. `fl_log_fatal_error` calls `sys.exit()` without an argument, so the program that failed ends with status 0. The program does not use these functions at present.
67. **`actual_range`** (C154, `nctools.py` 398–399): the range is taken from the array before it is stored as `float32`. The topographic multipliers are doubles (`topo_mult.py` 137), so cells of the file can lie outside of the range the file gives (`C154_range_exceeded`).
68. **`nc_create_var`** (C154, `nctools.py` 117): `if data:` asks an array for its truth value, so an array of several values raises a `ValueError` and a single zero is not stored. The program calls it without data only.
69. **Cropping** (C155, `utilities/shapefiles.py` 60–64, 29–34): the intersection of a polygon with the box is kept if it has an area. If the polygon also touches an edge of the box from outside, the intersection is a `GeometryCollection` of areas and lines, and `save` stops with an error, with only the features before it in the file (`C155_cropping`). If settlement and land use have the same attribute name, the join overwrites the land use and all codes end in 00 (`C155_same_name`).
70. **`DummyMPI`** (C156, not part of a claim; `utilities/parallel.py` 76–77, 109): `Status` is an object, so `MPI.Status()` raises a `TypeError`; `scatter` hands out the first part and drops the others, where mpi4py raises an error. The program does neither with one process.

## Seeded faults

`tools/mutate.py` copies the project, applies one edit to a model definition, builds, gives up
the lemmas whose proofs fail (in the copy only), and repeats until everything else is checked,
so that the list of theorems that do not survive is complete.  `seeded/LOG.jsonl` has one line per
fault: definition, edit, the claim it breaks, theorems that failed, theorems tightened.

In a line of the log `theorems_failed` are theorems whose own proof broke and
`theorems_lost_through_lemmas` those that use a lemma whose proof broke.  A broken proof does not show
that the statement is false of the edited model, so each line was also judged by reading the
statement that should catch the fault.  Three faults of the first batch led to changes:
* the buffer in latitude computed from the pixel width: only lemmas broke, the C03 statements
  counted cells and stayed true; `C03_buffer_covers_upwind_length` was added;
* diagonal widths without √2: the statements that broke stayed true; C80 was added;
* a constant of `mzFormula`: caught, but other constants were loose; values at three more
  roughness lengths were added.

The second batch (67 faults in shielding, slope and aspect, and topography; field
`judged_false_of_the_edit` names statements judged by reading to be false of the edited model):
* four edits turned out to be equivalent, and one repairs a fault of the code (the negation then
  fails, as it should);
* an elevation row mirrored at the edge of the tile: C40 and C71 speak of inner cells and stayed
  true; `C39_cell` was added;
* the Tasmania factor in other tiles, or with the elevations transposed: caught by C54 only;
  `C52_where` was added, and the corrections in C54 are written out;
* smoothing weights: caught by the bounds only; `C53_value` was added;
* the C34 statements compared classes with the table that was edited; `C34_value` and
  `C34_at_most_adjusted` speak of the sector.
The faults that led to changes were run again with the new theorems; the log has a second line for them.

The third and fourth batches (about 150 faults in the conversion, file names, dispatch of tiles, pixel
sizes, Vincenty's formulae, the run of all processes, pre-processing, and the rounded geometry):
* the flattening of the Earth in `get_pixel_size_grid.py`: the bounds of 2 % tolerated another
  ellipsoid; `C87_earth` was added;
* edits found to be equivalent: a guard of the singleton that is never taken, the order of the tiles of
  one process, cropping of settlements that are joined to cropped land use, and two edits of paths that
  do not occur;
* two edits repair faults of the code; the negations then fail, as they should.

The fifth batch (68 faults in the singleton, the topographic steps in rounded arithmetic, the rounded
convolutions and the stored pixel sizes) was noticed throughout: three edits are equivalent, one
repairs a fault of the code, and one was left undecided in the log.

The sixth batch (58 faults in the definitions of the rounded run) had one that was not noticed: a tile
lower than the lag distance saved as missing.  `C115_short` was added.  Eight edits are equivalent under
the conditions of the claims.

The seventh batch (31 faults in the model of the rasterising tool) had three that were not noticed.  Two
changed the name under which the cropped elevations are saved: the statements used the model's own
function for that name.  One used a mask whose name is empty: the statements covered only an absent mask.
Both gaps were closed (`IsCropName` is a separate description of the name) and the three edits, repeated,
now break `C144_crop_partial`, `C144_stale`, `C144_map_partial` and others.

The eighth batch (25 faults in the model of the pre-processing script, 24 in the metadata, 20 in the
converter run on its own, 23 in saving and loading arrays as text) had one that was not noticed: the master
writes the virtual rasters without waiting for the other processes.  All claims were about the files at the
end, which are the same.  `C135_waits` and `C93_waits` were added and the edit repeated.  Five edits are
equivalent under the conditions of the claims; one was no valid text and was repeated.

The ninth batch has 34 faults in logging the calls, 27 in what is told about a file, 20 in saving a tile, 22 in saving
the land use, 22 in the substitute for mpi4py, 23 in the imports and 12 in several runs at a time (the rest of these
were not run), and repeats those that led to changes before.  Two were not noticed as they should be.  If the
pre-processing imports the main program, `C151_tools` stayed true only because its condition could not be met any
more: the list of the repository's own modules was not complete.  It was completed and the edit repeated.  That
features without land use are an error was not said; `C155_no_use` says it.  Edits that no claim is false of are marked
in the log.

Older faults logged late: 11 in reading tables as text, 32 in starting texts, reading doubles and data types, 29 in
pixel sizes in floating point and in indexing.  Something broke for each of these 72.  A broken lemma does not by
itself show that a claim is false; the log says for which claims that was judged.  Two with an effect that may be
within the bound of the claim, and an index that the program never reaches, were not judged.

Eight attempts had been left out of the log and were added with their results.  Two (`invalid`) were texts that do not
elaborate and so tested nothing.  Five (`timeout`) were stopped before the build ended: for four of them a theorem or a
lemma had failed by then, and for one (records of a table that are too long) nothing had, so it is undecided.  One was
complete but has not been judged.
