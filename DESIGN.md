# Formal model of bathygrid — design

Target: `/repo` (noaa-ocs-hydrography/bathygrid, pinned commit), python. The code was read as text and not run.
Proof assistant: Lean 4.33.0 with selected Mathlib modules. Everything is under `lean/Verif`.

## 1. Trusted base

* The Lean 4 kernel. Every property theorem depends at most on `propext`, `Classical.choice`, `Quot.sound`
  (checked by `#print axioms` in `lean/Verif/Audit.lean`). There are no own axioms, no `sorry`, no `native_decide`/`bv_decide`.
* The hand translation python -> Lean. Each definition cites the file and lines it mirrors and names its simplifications.
* The semantics given to numpy / python primitives in `Verif/Basic` (arange, searchsorted, digitize-by-searchsorted,
  argsort as *any* sorting permutation, unique, reduceat-style grouping, boolean masks, insertion ordered dict, slices).

### Global simplifications
* Floating point numbers are exact rationals `ℚ`. Rounding error of float64/float32 is not modelled except in `Model/Float` (for
  coordinates it makes no difference: C106) and `Model/FloatMean`, `Model/FloatRun` (means and the rounding to 3 decimals: C107, C108), `np.round(_, 3)` is round-half-even on ℚ. Soundings with NaN/inf coordinates are outside the model.
* A layer value is `Option ℚ`, `none` is NaN.
* Exceptions are values; operations that can raise return the state they leave behind together with the error,
  because several properties are about that state.
* dask: a distributed array is the list of its partitions; a parallel map is a map over groups of tiles.
  The scheduler, network and process failures are not modelled.
* Disk: a finite map from paths to contents, changed by a list of atomic writes/deletes. A crash keeps a prefix of the list.
* Not modelled: GDAL drivers, BAG metadata, matplotlib plotting (only the points of the curves of C93 and the values of the histograms of C94 and the bars of C117 are; `np.digitize` with no or one edge is taken to be `searchsorted`), xarray conversion details, logging/printing, numba compilation,
  the CUBE algorithm itself (an external package: it is a parameter of the model, any function).
* A query for a container that raises leaves a layer of NaN under the name of the container and its `_density` behind (`Tile.leftBehind`). On CUBE tiles the code has written numbers into it before it raises; no call shows them, the model leaves NaN there, too.
* Layer names of containers are the constructors `cont` and `contDensity`; in the code a container called `x_density` shares its name with the density layer of the container `x`.

## 2. Layout

* `Verif/Basic/…`   primitives and their lemmas
* `Verif/Model/…`   the translation of the code
* `Verif/Spec/…`    independent specifications (no use of the model's helper functions)
* `Verif/Lemmas/…`  proofs about the model used by the property theorems
* `Verif/Props/…`   the property theorems, each with a concrete non-trivial `example`
* `Verif/Audit.lean` `#print axioms` for every property theorem

Properties the code violates: a theorem `Cxx_…_violated` proves the negation for a concrete reachable witness, and a
`Cxx_…_partial` theorem proves the strongest version found under an explicit extra hypothesis.

## 3. Plan per property

| id | model | proof |
|----|-------|-------|
| C01 | grid ops on generic tile grid, SR = grid of tiles, VR = grid of grids | invariant by induction over histories; refinement to an abstract map container -> soundings |
| C02 | binning + tile building | invariant; uses C13 |
| C03 | `_build_grid` existing mask and `_update_tiles` | lookup by origin is preserved |
| C04 | tile and grid `remove_points` | refinement (C15) lifted to the grid |
| C05 | `add_points` duplicate branch | case analysis, state equality |
| C06 | `remove_points` unknown branch | case analysis + invariant |
| C07 | remove last container, add again | the state after emptying; violated for the stale mask, see C08 |
| C08 | `_remove_tile` | violated (stale mask): witness; partial: holds for histories that never empty the grid |
| C09 | number_of_tiles | invariant |
| C10 | `_adjust_extents`, `_build_grid` with origin 0 | floor/ceil arithmetic + invariant over histories |
| C11 | same | violated: universal theorem that each further add grows by a tile; partial: first add is minimal |
| C12 | same, with origin | violated: witness |
| C13 | `bin2d_with_indices` | searchsorted spec |
| C14 | same over list of partitions | map/append induction |
| C15 | tile add/remove | refinement to ordered map |
| C16 | histories | from C01, C17, C27 |
| C17,C18,C20 | `np_grid_mean`, `np_grid_shoalest` loop by loop, argsort any sorting permutation | loop invariant; filter-based specification |
| C19 | same | violated: witness; partial: holds if soundings are sorted by depth |
| C21 | tile.grid with cached cell indices | invariant "cached index is -1 or correct" |
| C22,C23 | grid update mode | invariant on point_count_changed; C23 violated: witness |
| C24,C25 | grouping of tiles over workers | partition lemma; C25 violated: witness |
| C26,C27,C28,C29,C32 | grid | algebraic laws; C32 violated: witness |
| C30,C31 | lookup tables | case analysis over ℚ; C30 violated above 20480: witness |
| C33 | `is_power_of_two` | induction on the loop |
| C34-C38 | layer queries; `AroundLocation`, `AnswersFrom` (C37): the answer for a location in terms of the soundings in the square around it | index arithmetic; C35, C37 violated: witness; C37 after gridding from C100 and C113 |
| C39,C40 | neighbour points | case analysis on position; C40 violated: witness |
| C41,C42,C43 | chunked export | partition; C42 violated: witness; index arithmetic |
| C44-C46 | tile queries, csv | filter/list lemmas |
| C47-C51 | metadata | invariant over histories; C48, C50, C51 violated: witness |
| C52 | civil date conversion | arithmetic round trip |
| C53 | container names | list lemmas |
| C54-C59 | storage | round trip, prefix (crash) semantics; C55, C57, C59 violated: witness |
| C60-C63 | decision logic | case analysis |
| C64-C66 | layer queries and chunks: which calls raise, nodata value, reported dimension | case analysis over the tiles; violated parts: witness |
| C67 | automatic resolutions of whole grids | maximum over the tiles by induction over the run |
| C68 | sign of csv elevations | C46 plus the branch on mean_depth; violated: witness |
| C69 | run with a folder against run without | simulation, step by step over the tiles |
| C70 | arguments handed to CUBE and what is kept of its answer | index arithmetic of the merge; CUBE is any function with answers of the right shape |
| C71-C74 | statistics of all cells of a grid against the squares of one lattice over the plane | the tiles cut the lattice: cells of all tiles and occupied squares are the same list up to order; sums by induction over tiles |
| C75 | the tiles in row order with their layers | induction over the slots; violated: witness |
| C76 | files as what GDAL is given, against the stored cells | C43 and C65 for the pixels; names by case analysis; induction over the resolutions |
| C77 | nearness to a power of two, from C33 | invariant over all calls, kept by calls that raise |
| C78 | paths as lists of characters, `os.path` functions on them | injectivity of the names by cutting at separators; induction over resolutions and numbers |
| C79 | counts of soundings in cells by membership | counts of the model equal those of the specification; ranking function over the resolutions already checked |
| C80 | the log of add calls | invariant on the keys of the metadata over all calls; induction over the containers |
| C81 | outline of a square, pieces horizontal or vertical | induction over rows and columns of the edges, from the frame invariant |
| C82 | paths in trees, what is found at a path | induction over the path, for changing the first match and for making the elements |
| C83 | names and columns of an input | case distinction; induction over the allowed variables |
| C84 | fields of the data added, tiles with layers by position | invariant of the reachable grids (every tile holds points with the fields) |
| C85 | stored cells by their lower left corner | invariant over the histories of a tile: the layers of a resolution come from one list of soundings |
| C86 | the values that the bands of the file are to show for the stored cells it covers | C76 for the bands, C85 for the cells with an uncertainty (CUBE: C70, and the package answers with an uncertainty wherever it answers with a depth), the largest and smallest of a masked array |
| C87 | sequences of calls on a grid object with many folders; the grid that a new object loads from the output folder | saving leaves the folder in the same state as writing it call by call, then C55 |
| C88 | options as pairs of name and text; a text points down when it contains one of the two texts that the code looks for | induction over the text for replace |
| C89 | names of the files of an export together with the names of their registration files | the extension of the name of a BAG is found again, then C78 |
| C90 | texts of the references in the document | cases on the references; frame theorem of C82 |
| C91 | contents of the directory before and after the call | cases of `create_folder` (C61) and of the options (C60) |
| C92 | the values of the arguments, the answer for two numbers | induction over the resolutions, comparing the loop over an array with the loop over one location |
| C93 | depth bands of equal width, the mean density of the cells in each | sorted keys of the grouping compared with the occupied bands; `digitize` of a depth from the floor of its place |
| C94 | which histograms are drawn, from which values | names of the layers of every tile against the layers gridding writes; values per lattice square as in C74 |
| C95 | meshes of stored cells with their corners | the slices of `np.arange` used in C37, the smallest box of C36 |
| C96 | the part that is done: quotients of natural numbers | exact quotient instead of the float, `str.format` rounds half to even |
| C97 | the folder of a grid is found by its path (C87), `Overwritten`: the places of the older grid | an older grid of another class lies in another root folder and is not seen |
| C98 | `NoRes`: None or 0; `AnswersAlike`, `QueriesRefused`: the four queries, with the grid they leave | the loops over all resolutions (layer_values_at_xy, plot, csv) are C37, C95, C46 |
| C99 | `Grid.rename`: the object with the name of another class; `SRZarr`, `VRZarr`: the histories of the zarr classes, `ZeroDepth` | the files of the two backends are C54-C56 |
| C100 | `SurfaceOf`: the value shown for every square of the rectangle related to the soundings in this square, no sounding left out; `CellRule`: mean, shoalest, number; `Ruled`, `shownCell` | floats are rationals; the soundings are those of `Store.allPts` |
| C101 | `Survey`: the deliveries of one survey; `deliver`: one `add_points` after the other; `SurfaceOf` of C100 | no folder; floats are rationals |
| C102 | `SurfaceOf` of C100; `Requeried`: any number of queries, writings and readings of tiles | as for C54, C69, C100 |
| C103 | `FloatText`: what is assumed of the text of a float; `Lists`: `os.listdir` in any order; `Named`: a folder with names is the folder of the model | the text of a float is given by its value (no -0.0); names are lists of characters |
| C104 | `volume`, `flatIndex`, `WithinShape`: row major places in a flattened array | the numbers are python integers |
| C105 | `LTile.Sees`: all arrays, read now, are those of the other tile; `DataOwn`, `GridOwn`: what a link may read; `LazyRun`: the same calls with and without links | one tile and its folder; no other process writes to the folder |
| C106 | `Fl`: the numbers of a format; `Rounds`: what is assumed of the arithmetic; `Coord`: a coordinate of the format within a bound | no infinities, NaN, signed zero; depths are not rounded |
| C107 | `StdRound`: the standard model of floating point arithmetic; `Machine`: sums in one format, layers in another; `Room`: nothing overflows; `meanError`: the bound; `NearMeanCell`, `NearShoalCell`; `nearestEven`, `leftToRight`: binary64 and binary32 for the witnesses | one format for the three columns of the soundings, one for the layers; the number of soundings of a cell is an exact float; coordinates exact by C106 |
| C108 | `FloatRule`: what the value of a cell has to do with the soundings in it; `WithinCell`: the same for depths with a fixed bound; `SurfaceOf` (C100); `FloatSR`, `FloatVR`: the histories of C01 with tiles that are gridded by `Arith.gridAt` | as C107; automatic resolutions in exact arithmetic |
| C109 | `Rounds` (C106), `Grid.Bounded`: a bound for the coordinates; `Tile.geo`, `Grid.geo`, `Grid.tileBoundaries`: the exact corners (C43, C81) | sizes of tiles are powers of two |
| C110 | `LinesFor`: the lines for N tiles in groups of n, written without division; the result of the client as that of the call of Dask it makes | the loop that prints, without the lines, is the loop of C24; induction over the slots with the number of tiles so far; `IsRegridded`, `LinesOutOf` for updates, with `clear_existing` as in the loop of C24 |
| C111 | `Means`: what an argument means, one rule for each documented form | case analysis |
| C112 | the full run; `FloatRule` as in C108 | the invariant of C22 (a tile is marked as changed or has the layers of its soundings) for tiles in floating point arithmetic |
| C113 | `SurfaceOf` and `CellRule` as in C100 | the invariant of C22; a tile that is left out has the layers that gridding it would give, so that the rules of C100 hold for it too |
| C114 | the call with the resolution; `SurfaceOf` and `CellRule` as in C100 | the two loops run in step: `childCall` passes the chosen resolution on, and a tile with a resolution does not look at the mode |
| C115 | `inSquare` and `atRes` (the soundings of a square, of the squares with a resolution), `ByDepth` (the table of C30), `SurfaceOf` as in C100 | C67 for the resolution of each subtile; the subtiles with one resolution are a lattice of their own; the others have no layer at it |
| C116 | `Described`: the text line by line; `DatasetOf` and `FirstSeen` as in C53; the containers and soundings of the history | the invariant of the histories |
| C117 | `Bars`: equal widths, the values between the edges of a bar; the squares of the lattice that hold soundings | C71 and `np.histogram` in exact arithmetic |
| C118 | `SlopeCells`, `BestPlane`: planes of least square error through the soundings of a cell | tiles and grids; `LeastSquares env.plane` is assumed of `np.linalg.lstsq`, `leastSquares_exists` shows that such a function exists; `C118_plane` and `C118_one_answer` say when the answer is unique |
| C119 | `Clock.tick`, `ShowsAt`: a clock that ticks from the epoch, month lengths by name; `TextOf`: the texts of a date | day numbers are additive over the tick, and injective on valid dates |
| C120 | `ContainerShown`: `SurfaceOf` over the soundings of the container alone | tile answers from the known cell numbers of the slice of the container (`cont_answers`); `ShowsOf`: surfaces of a part of the soundings; `readySpec`: after an update every tile that was left out can still be asked |
| C121 | `Covers`, `NotDeeper`, `DepthShown` (all ways to a surface of depths) | C100 and C113 give the cells, least number of more soundings, monotone rounding |
| C122 | `Reads` (one constructor per reading call), `Grid.Held` (everything but layers made on demand), `SameAnswers` | a relation that every query of a tile keeps is kept by all reading calls (`Carries`); answers for gridded layers and layers of containers depend on what is held only (`Askable`); a tile with layers has one of the three algorithms (induction) |
| C123 | `blockSum`, `ShoalestOf`, `ShowsBlock`, `LayerShown` | sums over the squares of a block by induction on the soundings; rounding is monotone and off by at most half a millimetre |
| C124 | `Pt.moved`, `LayerShown` | the rules of C100 leave no choice and do not look at the place; corners of extents lie on the lattice of the cells (C10) |
| C125 | `SamePlace`, `shoaler`, `NumberAt`, `MadeUp` | the soundings of a cell are those of the two surveys in it (C100), rounding is monotone and off by at most half a millimetre; C120 for the containers |
| C126 | `depthShownBy`, `Between`, `NotShoaler`, `DeeperBy`, `KeepsPlaces` | the rule of a cell (C100) for the changed soundings of the same cell; rounding is monotone, off by at most half a millimetre, and commutes with even multiples of a millimetre |
| C127 | `Pt.turned`, `Pt.enlarged`, `Pt.mirrored`, `Extents.turned`, `OffLines` | the soundings of corresponding squares correspond; the rule of a cell (C100) looks at depths and uncertainties only |
| C128 | `TrimmedSurface`, `AroundCentre`, `WithinHalf` | surface of the soundings (C100, C113), the box of the values (C36) holds the squares with soundings; centres of the slices of `arange` |
| C129 | `OnSquare`, `CsvOfSoundings`, `RastersOfSoundings` | stored cells are the rule of the soundings (`StoredBySoundings`, from C34 and C100), the files show the stored cells (C46, C76), and lie on the lattice of the squares; stored cells and rasters also after updates (from C113), csv tables only right after gridding |
| C130 | `RastersShown`, `PixelIn` | both exports are the rule of the soundings on squares of one lattice (C129); the rule does not depend on the order of the soundings (`rule_det`) |
| C131 | `TableShown`, `CsvOfSoundings` (with lattice and gapless box of lines) | both tables have just one line for each square between the outermost soundings, with the rule of its soundings (C129); the rule does not depend on the order (`rule_det`); signs violated: witness |
| C132 | perms of soundings, lists of resolutions | the resolution of a square is that of the mean depth of its soundings (C115); density mode: counts per cell of tiles at the same place are the same; depth mode of single resolution grids violated by C51: witness |
| C133 | pairs of arrays, squares at the same place | the resolution of each square is the same (C132), so the surfaces at a resolution are surfaces of the same soundings (C115) |

## 4. What is modelled

`tools/coverage.py` lists every function of the package whose lines no definition of the model cites; the table groups its output.

| file | modelled | not modelled |
|------|----------|--------------|
| `algorithms.py` | binning, mean, shoalest, the wrapper around CUBE, `my_unravel_index` | numba compilation |
| `tile.py` | points, cell indices, gridding by all algorithms, resolutions (both density searches), queries, cell statistics | lazy dask arrays (`.compute()` is the identity; for the arrays of a folder this is C105) |
| `grids.py`, `maingrid.py` | extents, tile edges, tile building, classes SR/VR/VRTile with their flags | constructors that only set attributes; `VRGridTileZarr` (same text as the numpy class) |
| `bgrid.py` | add, remove, grid (sequential, parallel, update), metadata, layer queries, chunks, tile generator, csv, geotiff and BAG export, the export call and its file names, containers, attribution, tile boundaries, checks of the input, the times and the smallest and largest values in the BAG metadata, the creation options and registration files of BAGs, the points of the two curves of density against depth, the values of the histograms, the meshes of `plot` | the histograms of densities (values as in C71) and all drawing, `__repr__`, other BAG metadata and the reading and writing of it through h5py/xml, abstract methods |
| `backends.py` | numpy and zarr: saving and loading arrays, tiles, grids; clearing tiles; the order of the writes | the abstract methods of `BaseStorage`; in all models but `Model/Lazy` arrays are read when they are loaded (no difference: C105) |
| `convenience.py` | load, create, is_bathygrid decisions | - |
| `utilities.py` | bin2d, folders, removal with retries, times, powers of two, chunk shapes, the vertical reference of a BAG, the progress bar, the decisions of the dask client and of the conversion of coordinate systems | dask, gdal and pyproj themselves |
| `time_trials.py` | - | all (timing script) |

Two remarks on reading. Many statements of the code are shared by the single and the variable resolution grid through
inheritance; the model has one function for them and the properties are proved for both classes. Statements that only print, or
only convert between array libraries, are left out.

## 5. Disagreements between the code and the properties

Each line is proved: a theorem `Cxx_violated` (or the one named) gives a reachable witness or shows the failure for all inputs.

| property | what the code does |
|----------|--------------------|
| C08 | `existing_tile_mask` stays that of the emptied grid; removing from the refilled grid can raise IndexError |
| C11 | every accepted `add_points` after the first grows the grid by one tile in +x and +y |
| C12 | a nonzero `origin_x`/`origin_y` is lost; soundings lie outside of the extents |
| C13 | with one bin, points beyond the edges are accepted; points below the first edge wrap to index -1 |
| C15 | containers with other fields or dtypes corrupt the point array (`C15_dtype_mismatch_corrupts`) |
| C16 | an automatic resolution depends on the container added last, so the order of additions matters |
| C19 | `np_grid_shoalest` takes the uncertainty at a cell local index from the array of all soundings |
| C21 | gridding by CUBE over mean layers (or back) without clearing raises KeyError |
| C22 | an update skips tiles whose border soundings changed (CUBE) |
| C23 | in update mode `clear_existing` stays true after the first changed tile |
| C25 | workers get another border width than the sequential run for tiles wider than 30 cells |
| C28 | variable resolution: a skipped subgrid keeps a stale list of resolutions |
| C29 | `grid_algorithm` is set before gridding, and is wrong after a failed call |
| C30 | mean depths of 20480 and more get 0.25 m (argmax over an all-false mask) |
| C32 | layers of other resolutions stay stale after `add_points` and `grid` |
| C33 | the tolerance of `is_power_of_two` accepts numbers close to a power (`C33_not_exact`) |
| C35 | layers missing in a tile shift the following layers into the wrong slot |
| C36 | lists of layers are trimmed to the box of the first |
| C37 | the last row and column of cells are not found by point queries; counts return 0 instead of nodata |
| C40 | variable resolution: neighbour soundings outside of the buffer are returned; missing subtiles raise AttributeError |
| C42 | a grid with fewer rows than the maximum dimension is never split |
| C43 | single resolution: chunks next to tiles without the resolution are shifted or raise TypeError |
| C44, C45 | CUBE tiles: container queries raise IndexError; cells without soundings are counted |
| C48 | a container without vertical reference is accepted before any other |
| C49 | the time 0 counts as missing |
| C50 | a refused `add_points` stores its coordinate system |
| C51 | `mean_depth` is that of the last container |
| C53 | names with a second `__` are listed whole |
| C54 | saving an empty grid raises AttributeError after writing metadata; saving a variable resolution grid over an older one leaves stale tiles |
| C55 | `number_of_tiles` and `mean_depth` are written before they are updated; the loaded grid cannot remove or grid |
| C57 | the file of soundings is removed before it is written again; a crash in between loses soundings of earlier containers |
| C58 | redoing an interrupted removal leaves `number_of_tiles` too large, or raises TypeError directly after `add_points` |
| C59 | the folder of an emptied subgrid is not deleted; after loading, `grid` raises |
| C63 | variable resolution grids do not hand `is_backscatter` to their tiles |
| C64 | resolutions larger than the tiles cannot be retrieved |
| C65 | the integer nodata value of a count layer is used for all later layers |
| C66 | chunks of a single tile report the dimension 0 |
| C68 | the sign of csv elevations is decided by the sign of `mean_depth` |
| C71 | soundings are counted once per stored resolution; resolutions of earlier griddings stay without `clear_existing` |
| C72 | areas are rounded to 0.001 m² tile by tile (0.25 m cells show it); a square nautical mile is taken as 3434290.012 m² instead of 1852² m² |
| C73 | the layer 'depth' is asked for also in backscatter grids: ValueError |
| C75 | the row index is yielded as column index and the arrays do not fit the geotransform; a grid with an ungridded first tile is refused |
| C76 | `layer_names` are those of the first tile: if it is not gridded the export raises ValueError or writes nothing; variable resolution backscatter: ValueError; soundings may be added without a coordinate system, and then the export of rasters raises AttributeError |
| C78 | `output_path` is tested for existence but only `base_resolution[_number].ext` is written, so a second export to the same path overwrites the first |
| C79 | the docstring's 95% rule is `.any()`/`.all()` in the code; a tile of size 4 may be given resolution 1024 |
| C80 | `return_attribution` looks for `name + '_0'` first, so a container `a` beside `a_0` is shown with the files and time of `a_0` |
| C81 | `get_tile_boundaries` runs over the edges of the tiles including the last ones, so it draws a row and a column of squares outside of the extents |
| C82 | new elements go to the first branch of the document, existing ones are changed where they are: begin and end can land in different time periods |
| C83 | for a Dataset only 'x' is checked: without 'y' `add_points` fails after the metadata, the container is listed without points and can not be added again; an array without 'z' fails after its points are in the tiles |
| C84 | `no_grid` and the uncertainty flags ask the first tile only: after a later `add_points` in front of it `get_layers_by_name` raises 'Grid is empty' on a gridded grid |
| C86 | `_correct_for_layer_metadata` tells cells without data by the value 1000000, which a stored elevation may have: the recorded largest elevation is then too small |
| C87 | `save()` and `load()` without a folder do nothing: the methods of `OperationalGrid` that fall back on the output folder, or raise, are hidden by those of `BaseStorage` |
| C88 | the results of `vert_crs.replace` are discarded (bgrid.py 2348-2349), so a reference with the axis down goes into a BAG whose elevations are positive up; the text for WKT2 has no closing quotation mark |
| C91 | the folder is made before the options are checked and is left behind; an empty folder is used again, also that of a grid to which no points were added; `os.path.split` of a path with a slash at its end has an empty name, so the folder with the time is made inside the existing grid |
| C92 | `_validate_layer_query` turns a tuple for x into an array, but not a tuple for y: `y_loc[no_values_yet]` then raises TypeError |
| C93 | the plots of density against depth raise ValueError for gridded single resolution backscatter grids, as the statistics they use do (C73) |
| C94 | `plot_z_histogram` of a gridded variable resolution backscatter grid only prints "intensity not found" (its subgrids call the layer depth, C63); `plot_horizontal_uncertainty_histogram` prints "Vertical Uncertainty not found" if there is no horizontal uncertainty |
| C95 | `return_surf_xyz` with cell boundaries, and so `plot`, misses the last corner along x (y) if there is a cell in the last column (row) of the grid: the sizes of the arrays given to `pcolormesh` do not fit. Same cause as C37 |
| C96 | in loops of 2000 rounds or more the progress bar shows 100.0% before the end (rounding of the percentage) |
| C97 | `save(folder)` over an older grid: tiles of the older grid outside the area of the new one stay in the folder; when the grid grows they are loaded again, and their `cell_…_indices` are taken for new tiles (`_load_tile(only_points=True)` reads them), so that `grid` puts depths into wrong cells |
| C98 | after `grid(regrid_option="update")` of a variable resolution grid a resolution that no tile has any more is still recorded (C28); queries without a resolution are refused although there is only one |
| C99 | `grid` exempts only `VRGridTile_Root` from the look up of one resolution for the whole grid. `VRGridTileZarr` computes it, does not use it, and raises ValueError if the mean depth of the points added last is zero, where `VRGridTile` grids |
| C101 | `create_grid` accepts a subtile size larger than the tile size. Soundings can be added and gridded; `get_layers_by_name` and `tiles_by_resolution` then raise ValueError |
| C106 | `is_power_of_two` accepts resolutions that differ from a power of two by up to 1e-5, such as 2 + 2^-51; the cell edges are rounded for these |
| C107 | the depth that mean gives depends on the order of the soundings, by up to a millimetre after `np.round(_, 3)`: 3.38, 10.75, 1.48, 37.656000747680665 give 13.316, with 3.38 last 13.317. The layers are float32, so the 3 decimals are not there in deep water: one sounding of 8360.271 m is stored 1.4 mm off. C27 holds in exact arithmetic only |
| C109 | `np.float32` of the corner of a raster: with tiles of 25 cm (or 50 cm above 8388 km) exported rasters in UTM are shifted by up to a cell; tiles of 1 m and more are safe |
| C110 | `silent=True` still prints the client; the total in "group 2 out of 1" is computed with 8, not with the number of workers, and in updates from all tiles, not from those that are gridded ("group 1 out of 2" and no other) |
| C111 | `crs_to_osgeo(bad integer)` raises TypeError from `ImportFromWkt` instead of the ValueError meant; the error code of `ImportFromWkt` is not looked at in `pyproj_crs_to_osgeo`, so rasters may get no coordinate system |
| C114 | an update of a single resolution grid without a resolution works it out anew and leaves the unchanged tiles at the old one: the grid has two resolutions, and `get_layers_by_name` without a resolution raises ValueError |
| C116 | a grid without soundings prints the mean depth and the box of the soundings it had; "Unknown" is never printed for missing extents, but "None" |
| C102 | if the first subgrid was emptied, its folder stays behind (C59), and reading layers of the grid loaded from the folder raises AttributeError in `no_grid` |
| C118 | A tile that received soundings since it was gridded has cell index -1 for them; `calculate_slopes` passes it to `np.unravel_index` and the query for slopes raises ValueError instead of leaving these soundings out (`C118_added_fails`); `z_positive_up` turns the depths around but not the slopes (`C118_tile_partial`, `C118_surface_sr`: the answer is the same for both values) |
| C119 | the strings written for years before 1000 have a year of fewer than four digits, which the parser refuses (see C52) |
| C120 | a container added after the last `grid` call has cell numbers -1 and the query raises ValueError instead of gridding it |
| C121 | `np.round(layer, 3)` rounds the shoalest depth to the nearest millimetre, not upwards: a sounding of 1.0006 m is shown as 1.001 m |
| C122 | a query for the layer `a_density` that a query for container a has left in the tile is taken for a query for a container of this name: it replaces the counts by nodata |
| C46 | the table that is exported after surfaces of single containers were asked for has their values in wrong columns (C46_violated); after a question for a container that raised (it was added after gridding) the export raises (C46_export_stopped) |
| C131 | with `z_positive_up` the sign of the depths in a csv table depends on which container was added last: of a sounding of depth 5 and one of depth -1 in one cell the table shows 2 or -2 |
| C132 | a single resolution grid that chooses its resolution by depth looks at the container added last only: with soundings of 45 and 100 m it is gridded at 8 m or at 2 m |

Smaller observations without a claim of their own: `save()`/`load()` of a tile grid without folder do nothing; a rejected `add_points` changes metadata in memory
but not on disk; a failed gridding can leave density 0 beside NaN depths; CUBE counts rows from `max_y`, so its rows do not fit the
cells when the resolution does not divide the tile; `np.int` was removed from newer numpy; `-0.0` can appear in folder names.

## 6. Status

`MANIFEST.json` names the theorems of every property with its status and what is missing. "partial" means that the statement in
`properties.jsonl` is false for the code, or proved under the hypothesis named in the note; the full statement stays in
`properties.jsonl`.

## 7. Mutation testing

Definitions of the model are changed in a copy outside of `/verif` (wrong boundary, dropped update, swapped argument, missed case),
and everything that depends on them is rebuilt. `seeded/LOG.jsonl` has one line per attempt with the theorems that failed. A mutant
that survived either changes nothing that the properties speak about (the line says so) or led to a tightened theorem, which the line
names. Some mutants repair a bug of the code; there the `_violated` theorem has to fail.
