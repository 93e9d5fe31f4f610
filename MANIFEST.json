{
 "claims": [
  {
   "property": "C01",
   "status": "proved",
   "theorems": [
    "Bathy.C01_conservation_sr",
    "Bathy.C01_conservation_vr"
   ],
   "note": "All histories of add, rejected add, remove, grid (sequential and parallel), algorithm switch and query; every tile size > 0 (and power of two subtile size)."
  },
  {
   "property": "C02",
   "status": "proved",
   "theorems": [
    "Bathy.C02_tile_contains_sr",
    "Bathy.C02_tile_exact_sr",
    "Bathy.C02_tile_contains_vr"
   ],
   "note": "Down to the tiles of the subgrids."
  },
  {
   "property": "C03",
   "status": "proved",
   "theorems": [
    "Bathy.C03_growth_keeps_tiles_sr",
    "Bathy.C03_growth_keeps_tiles_vr"
   ],
   "note": "Tiles without new soundings are unchanged as objects."
  },
  {
   "property": "C04",
   "status": "proved",
   "theorems": [
    "Bathy.C04_remove_exact_sr",
    "Bathy.C04_remove_exact_vr"
   ],
   "note": "For removals that return; see C08 for the ones that raise."
  },
  {
   "property": "C05",
   "status": "proved",
   "theorems": [
    "Bathy.C05_duplicate_rejected_sr",
    "Bathy.C05_duplicate_rejected_vr"
   ],
   "note": ""
  },
  {
   "property": "C06",
   "status": "proved",
   "theorems": [
    "Bathy.C06_unknown_remove_sr",
    "Bathy.C06_unknown_remove_vr",
    "Bathy.C06_second_remove_sr"
   ],
   "note": ""
  },
  {
   "property": "C07",
   "status": "proved",
   "theorems": [
    "Bathy.C07_emptied_sr",
    "Bathy.C07_emptied_vr"
   ],
   "note": "For data whose metadata both grids accept (an emptied grid keeps its epsg and vertical reference, see C47/C48)."
  },
  {
   "property": "C08",
   "status": "partial",
   "theorems": [
    "Bathy.C08_remove_total_sr_partial",
    "Bathy.C08_remove_total_vr_partial",
    "Bathy.C08_violated"
   ],
   "note": "Proved unless the grid was emptied and refilled by one container; in that case the stale mask of existing tiles makes the code raise IndexError (witness)."
  },
  {
   "property": "C09",
   "status": "proved",
   "theorems": [
    "Bathy.C09_tile_count_sr",
    "Bathy.C09_tile_count_vr"
   ],
   "note": "Also for the subgrids."
  },
  {
   "property": "C10",
   "status": "proved",
   "theorems": [
    "Bathy.C10_extents_sr",
    "Bathy.C10_extents_vr"
   ],
   "note": ""
  },
  {
   "property": "C100",
   "status": "proved",
   "theorems": [
    "Bathy.C100_surface_sr",
    "Bathy.C100_surface_vr"
   ],
   "note": "End to end: soundings to array. Layers: the main layer, the counts (nodata NaN), the uncertainties of mean. That the tile size is a multiple of the resolution is a hypothesis."
  },
  {
   "property": "C101",
   "status": "partial",
   "theorems": [
    "Bathy.C101_single",
    "Bathy.C101_variable_partial",
    "Bathy.C101_constructors",
    "Bathy.C101_violated"
   ],
   "note": "Single resolution in full; variable resolution when the size of the subtiles divides that of the tiles. create_grid also accepts larger subtiles: then add_points and grid return and get_layers_by_name raises (witness)."
  },
  {
   "property": "C102",
   "status": "partial",
   "theorems": [
    "Bathy.C102_kept_sr",
    "Bathy.C102_kept_vr",
    "Bathy.C102_saved_sr",
    "Bathy.C102_saved_vr_partial",
    "Bathy.C102_folder_sr",
    "Bathy.C102_folder_vr_partial",
    "Bathy.C102_loaded_vr_partial",
    "Bathy.C102_update_saved_sr",
    "Bathy.C102_update_saved_vr_partial",
    "Bathy.C102_container_saved_sr",
    "Bathy.C102_container_saved_vr_partial",
    "Bathy.C102_slopes_saved_sr",
    "Bathy.C102_slopes_saved_vr_partial",
    "Bathy.C102_empty_first",
    "Bathy.C102_violated"
   ],
   "note": "Single resolution in full, also for containers, slopes and grids that are kept up to date. Variable resolution: queries in full; saving and loading if the folder has nothing in the places of missing tiles (else false, C54_violated); with an output folder for the grid in memory, and for what is loaded from that folder unless its first tile is an emptied subgrid left behind: then every reading raises AttributeError (C102_empty_first, C102_violated)."
  },
  {
   "property": "C103",
   "status": "proved",
   "theorems": [
    "Bathy.C103_parts",
    "Bathy.C103_keys",
    "Bathy.C103_save",
    "Bathy.C103_load",
    "Bathy.C103_tile_names",
    "Bathy.C103_places_sr",
    "Bathy.C103_places_vr"
   ],
   "note": "Assumed of the text of a float: float() gives it back, it has no '_', it begins with a digit or '-'."
  },
  {
   "property": "C104",
   "status": "proved",
   "theorems": [
    "Bathy.C104_unravel",
    "Bathy.C104_outside",
    "Bathy.C104_no_elements",
    "Bathy.C104_two"
   ],
   "note": "The exceptions of python's // and of a numpy shape tuple are a type of their own (UnravelErr)."
  },
  {
   "property": "C105",
   "status": "proved",
   "theorems": [
    "Bathy.C105_links",
    "Bathy.C105_same_exceptions",
    "Bathy.C105_to_memory",
    "Bathy.C105_needed",
    "Bathy.C105_add",
    "Bathy.C105_grid"
   ],
   "note": "Where the code computes with arrays, the tile with links may be any tile whose arrays have the right values if read now; the gridded resolutions have cell edges."
  },
  {
   "property": "C106",
   "status": "proved",
   "theorems": [
    "Bathy.C106_add_sr",
    "Bathy.C106_add_vr",
    "Bathy.C106_sessions_sr",
    "Bathy.C106_sessions_vr",
    "Bathy.C106_cells_sr",
    "Bathy.C106_cells_vr",
    "Bathy.C106_surface_sr",
    "Bathy.C106_surface_vr",
    "Bathy.C106_other_resolutions"
   ],
   "note": "Coordinates only: the depths and their means are exact rationals here. np.arange is start + i * delta, as numpy calculates it."
  },
  {
   "property": "C107",
   "status": "partial",
   "theorems": [
    "Bathy.C107_mean",
    "Bathy.C107_numpy",
    "Bathy.C107_shoalest",
    "Bathy.C107_shoalest_near",
    "Bathy.C107_order_shoalest",
    "Bathy.C107_order_mean_partial",
    "Bathy.C107_order_matters",
    "Bathy.C107_single_precision"
   ],
   "note": "The last sentence is false: four soundings give 13.316 or 13.317 depending on their order (C107_order_matters), and a depth of 8360.271 m is stored 1.4 mm off, the layers being single precision (C107_single_precision); proved instead that two orders are at most twice the error bound apart. Not covered: the uncertainties of shoalest (C19), CUBE."
  },
  {
   "property": "C108",
   "status": "proved",
   "theorems": [
    "Bathy.C108_grid_ok_sr",
    "Bathy.C108_grid_ok_vr",
    "Bathy.C108_surface_sr",
    "Bathy.C108_surface_vr",
    "Bathy.C108_numpy_sr",
    "Bathy.C108_numpy_vr"
   ],
   "note": "The resolution is one that was asked for and divides the tile size (C100). The uncertainties of mean only (C19). Counts with NaN for nodata (C65). Soundings whose coordinates are placed exactly (C106). A resolution that is not asked for is looked up in exact arithmetic."
  },
  {
   "property": "C109",
   "status": "proved",
   "theorems": [
    "Bathy.C109_geo_sr",
    "Bathy.C109_geo_vr",
    "Bathy.C109_boundaries_sr",
    "Bathy.C109_boundaries_vr",
    "Bathy.C109_small_tiles"
   ],
   "note": "Beyond the bound it is false: with tiles of 25 cm a raster at 4500000.75 m north is placed 25 cm off (C109_small_tiles). The geotransform of a chunk (C43) is taken from those of its tiles. Power of two sizes of tiles."
  },
  {
   "property": "C11",
   "status": "partial",
   "theorems": [
    "Bathy.C11_extents_grow_sr_partial",
    "Bathy.C11_extents_grow_vr_partial",
    "Bathy.C11_violated"
   ],
   "note": "Violated by every accepted add after the first: the grid always grows by a tile in +x and +y (proved for all inputs). The lower left corner does stay."
  },
  {
   "property": "C110",
   "status": "partial",
   "theorems": [
    "Bathy.C110_client",
    "Bathy.C110_messages",
    "Bathy.C110_silent_violated",
    "Bathy.C110_groups_sr",
    "Bathy.C110_groups_vr",
    "Bathy.C110_total_partial",
    "Bathy.C110_total_violated",
    "Bathy.C110_groups_any_sr",
    "Bathy.C110_groups_any_vr",
    "Bathy.C110_update_violated"
   ],
   "note": "False: a silent call prints the client. The number of all groups is computed for eight workers: too small for every grid with more tiles than workers if there are up to four workers, right for eight if all tiles are gridded; in updates it counts the tiles that are left out (C110_update_violated). Dask itself is not modelled."
  },
  {
   "property": "C111",
   "status": "partial",
   "theorems": [
    "Bathy.C111_result",
    "Bathy.C111_error_partial",
    "Bathy.C111_int_violated",
    "Bathy.C111_crs_violated",
    "Bathy.C111_raster"
   ],
   "note": "Results in full, errors for texts. False: an integer that is no EPSG code raises TypeError, and a CRS whose text GDAL does not read gives an empty reference without exception. pyproj and GDAL are functions that are given."
  },
  {
   "property": "C112",
   "status": "proved",
   "theorems": [
    "Bathy.C112_update_equals_full_sr",
    "Bathy.C112_update_equals_full_vr",
    "Bathy.C112_update_keeps_sr",
    "Bathy.C112_update_keeps_vr",
    "Bathy.C112_update_surface_sr",
    "Bathy.C112_update_surface_vr"
   ],
   "note": "mean and shoalest at a given resolution. Unchanged tiles are kept as they are if no tile before them changed (C23)."
  },
  {
   "property": "C113",
   "status": "proved",
   "theorems": [
    "Bathy.C113_update_surface_sr",
    "Bathy.C113_update_surface_vr"
   ],
   "note": "mean and shoalest at a given resolution that divides the tile size; exact arithmetic (C112 has floating point). CUBE: false, C22_violated."
  },
  {
   "property": "C114",
   "status": "partial",
   "theorems": [
    "Bathy.C114_auto_is_fixed",
    "Bathy.C114_auto_surface_sr",
    "Bathy.C114_update_surface_sr_partial",
    "Bathy.C114_violated"
   ],
   "note": "mean and shoalest for the surfaces. Updates: only if the resolution worked out anew is the one the grid has; otherwise false (C114_violated): the unchanged tiles keep the old resolution, the grid then has two and the query without a resolution raises ValueError."
  },
  {
   "property": "C115",
   "status": "proved",
   "theorems": [
    "Bathy.C115_auto_surface_vr"
   ],
   "note": "mean and shoalest, exact arithmetic, clear_existing=True (without it tiles keep the layers at earlier resolutions, C67). ByDepth says nothing for mean depths of 20480 and more (C30)."
  },
  {
   "property": "C116",
   "status": "partial",
   "theorems": [
    "Bathy.C116_described_sr_partial",
    "Bathy.C116_described_vr_partial",
    "Bathy.C116_violated"
   ],
   "note": "Everything but the mean depth, which is that of the container added last (C51_last_added); an emptied grid still prints mean depth and box (witness). How numbers are written is a parameter."
  },
  {
   "property": "C117",
   "status": "proved",
   "theorems": [
    "Bathy.C117_bars",
    "Bathy.C117_no_bins",
    "Bathy.C117_density_sr",
    "Bathy.C117_density_vr"
   ],
   "note": "The bars for every list of values. For grids: after a call with clear_existing that leaves one resolution dividing the tile size (what density_count lists otherwise is C71)."
  },
  {
   "property": "C118",
   "status": "partial",
   "theorems": [
    "Bathy.C118_tile_partial",
    "Bathy.C118_up_to_date",
    "Bathy.C118_surface_sr",
    "Bathy.C118_surface_vr",
    "Bathy.C118_update_surface_sr",
    "Bathy.C118_update_surface_vr",
    "Bathy.C118_auto_surface_sr",
    "Bathy.C118_kept_sr",
    "Bathy.C118_kept_vr",
    "Bathy.C118_plane",
    "Bathy.C118_one_answer",
    "Bathy.C118_added_fails"
   ],
   "note": "Assumes that np.linalg.lstsq solves the least squares problem. Surfaces of whole grids after gridding and any queries, and of grids kept up to date by calls that leave out the unchanged tiles; tiles after any queries and removals. Partial: a tile that received soundings after it was gridded refuses the slopes with ValueError until it is gridded again (C118_added_fails)."
  },
  {
   "property": "C119",
   "status": "proved",
   "theorems": [
    "Bathy.C119_written",
    "Bathy.C119_outside",
    "Bathy.C119_read"
   ],
   "note": "The year is written without padding. Reading: exact for strings with the digits 0 to 9 (strptime also takes the digits of other scripts)."
  },
  {
   "property": "C12",
   "status": "partial",
   "theorems": [
    "Bathy.C12_origin_partial",
    "Bathy.C12_violated",
    "Bathy.C12_violated_general"
   ],
   "note": "Holds for the origin (0,0) only; for origins a tile or more away from 0 the extents always leave out a sounding (proved for all inputs)."
  },
  {
   "property": "C120",
   "status": "proved",
   "theorems": [
    "Bathy.C120_surface_sr",
    "Bathy.C120_surface_vr",
    "Bathy.C120_update_surface_sr",
    "Bathy.C120_update_surface_vr",
    "Bathy.C120_auto_surface_sr",
    "Bathy.C120_kept_sr",
    "Bathy.C120_kept_vr",
    "Bathy.C120_not_gridded"
   ],
   "note": "After gridding and any queries, and for grids kept up to date by calls that leave out the unchanged tiles; saved and loaded: C102. Mean and shoalest; on CUBE tiles the query raises (C44_violated). C120_not_gridded: a container added after the last grid call raises until the next one, the others are still shown."
  },
  {
   "property": "C121",
   "status": "proved",
   "theorems": [
    "Bathy.C121_not_deeper",
    "Bathy.C121_coarser",
    "Bathy.C121_no_shoal_hidden",
    "Bathy.C121_exact_violated"
   ],
   "note": "The half millimetre is needed: C121_exact_violated, np.round rounds to the nearest millimetre, so the shown depth can be deeper than the only sounding."
  },
  {
   "property": "C122",
   "status": "proved",
   "theorems": [
    "Bathy.C122_held_sr",
    "Bathy.C122_held_vr",
    "Bathy.C122_reachable_sr",
    "Bathy.C122_reachable_vr",
    "Bathy.C122_answers_sr",
    "Bathy.C122_answers_vr",
    "Bathy.C122_gridded_sr",
    "Bathy.C122_gridded_vr",
    "Bathy.C122_askable_sr",
    "Bathy.C122_askable_vr",
    "Bathy.C122_left_behind",
    "Bathy.C122_counts_lost"
   ],
   "note": "For grids in any state, reachable or not; that containers can be asked for (C122_askable) is for reachable states. Generators are read to their end. Answers for slopes: C118. C122_left_behind: a query for a container that raises leaves an empty layer of its name in the tile. C122_counts_lost: the layers made on demand are not kept, asking for `a_density` replaces the counts of container a by nodata."
  },
  {
   "property": "C123",
   "status": "proved",
   "theorems": [
    "Bathy.C123_counts",
    "Bathy.C123_shoalest",
    "Bathy.C123_means"
   ],
   "note": "For the layers of C100 and C113 (`LayerShown`), queried with NaN for nodata; resolutions that divide the tile size. The two surfaces may come from different grids with the same extents."
  },
  {
   "property": "C124",
   "status": "proved",
   "theorems": [
    "Bathy.C124_same_place",
    "Bathy.C124_every_sounding",
    "Bathy.C124_same_surface"
   ],
   "note": "For the layers of C100 and C113 (`LayerShown`): main layer, counts, mean uncertainties; not the uncertainties of 'shoalest' (C19) and CUBE."
  },
  {
   "property": "C125",
   "status": "proved",
   "theorems": [
    "Bathy.C125_counts",
    "Bathy.C125_shoalest",
    "Bathy.C125_mean",
    "Bathy.C125_unchanged",
    "Bathy.C125_repeated",
    "Bathy.C125_repeated_counts",
    "Bathy.C125_containers_sr",
    "Bathy.C125_containers_vr",
    "Bathy.C125_containers_update_sr",
    "Bathy.C125_containers_update_vr"
   ],
   "note": "For the layers of C100 and C113 (`LayerShown`), the containers after a call for all tiles or an update (C120); resolutions that divide the tile size; NaN for nodata, except in C125_unchanged."
  },
  {
   "property": "C126",
   "status": "proved",
   "theorems": [
    "Bathy.C126_between",
    "Bathy.C126_shoalest_mean",
    "Bathy.C126_monotone",
    "Bathy.C126_lowered"
   ],
   "note": "For the depth layers of C100 and C113 (`LayerShown`, depths shown positive up or down); resolutions that divide the tile size; NaN for nodata."
  },
  {
   "property": "C127",
   "status": "proved",
   "theorems": [
    "Bathy.C127_turned",
    "Bathy.C127_turned_sounding",
    "Bathy.C127_transposed",
    "Bathy.C127_enlarged",
    "Bathy.C127_enlarged_sounding",
    "Bathy.C127_mirrored",
    "Bathy.C127_mirrored_sounding"
   ],
   "note": "For the layers of C100 and C113 (`LayerShown`); resolutions that divide the tile size. Squares contain their western and southern border, so mirrored soundings on a line would change the square."
  },
  {
   "property": "C128",
   "status": "proved",
   "theorems": [
    "Bathy.C128_gridded_sr",
    "Bathy.C128_gridded_vr",
    "Bathy.C128_updated_sr",
    "Bathy.C128_updated_vr"
   ],
   "note": "For the layers of C100 other than the counts (they show 0 in empty cells and so are not trimmed, C65) and NaN for nodata; resolutions that divide the tile size."
  },
  {
   "property": "C129",
   "status": "proved",
   "theorems": [
    "Bathy.C129_stored_sr",
    "Bathy.C129_stored_vr",
    "Bathy.C129_csv_sr",
    "Bathy.C129_csv_vr",
    "Bathy.C129_rasters_sr",
    "Bathy.C129_rasters_vr",
    "Bathy.C129_stored_updated_sr",
    "Bathy.C129_stored_updated_vr",
    "Bathy.C129_rasters_updated_sr",
    "Bathy.C129_rasters_updated_vr"
   ],
   "note": "Csv: gridded with clear_existing (see C46_violated for other states). The sign of csv depths with z_positive_up follows mean_depth (C131_violated). Rasters: of grids with a coordinate system (C76_fails_no_crs); BAG of depths only; variable resolution grids of depths only (C76_fails_vr). The uncertainties of shoalest follow no rule (C19). The text of the table and GDAL are not modelled."
  },
  {
   "property": "C13",
   "status": "partial",
   "theorems": [
    "Bathy.C13_bin_partition",
    "Bathy.C13_beyond_raises_partial",
    "Bathy.C13_single_bin_violated",
    "Bathy.C13_below_first_edge_wraps"
   ],
   "note": "Partition proved for all points within the edges. Beyond the last edge: IndexError proved except for a single bin, where the code accepts any point (violation proved)."
  },
  {
   "property": "C130",
   "status": "proved",
   "theorems": [
    "Bathy.C130_same_pixel",
    "Bathy.C130_depth_elevation",
    "Bathy.C130_every_sounding"
   ],
   "note": "Grids with a coordinate system whose depths have the same direction (C76_fails_no_crs); BAG and variable resolution grids of depths only (C76_fails_vr); other layers of shoalest follow no rule (C19). The extents and the number of the files may differ, so files are not equal as wholes."
  },
  {
   "property": "C131",
   "status": "partial",
   "theorems": [
    "Bathy.C131_same_places",
    "Bathy.C131_same_line_partial",
    "Bathy.C131_same_table_partial",
    "Bathy.C131_violated"
   ],
   "note": "Violated for the depths with z_positive_up: their sign depends on mean_depth, which is the one of the container added last (C51). Proved: the same places; the same values in all columns for tables of the same sign (`flip`). Gridded with clear_existing (see C46_violated for other states). The uncertainties of shoalest follow no rule (C19). The order of lines with the same x is not compared."
  },
  {
   "property": "C132",
   "status": "partial",
   "theorems": [
    "Bathy.C132_depth_vr",
    "Bathy.C132_density_sr",
    "Bathy.C132_density_vr",
    "Bathy.C132_depth_sr_partial",
    "Bathy.C132_violated"
   ],
   "note": "Proved for variable resolution grids with subtiles of a side 2^k/4 (mean and shoalest). Violated for single resolution grids with several containers: the lookup uses mean_depth, which is the one of the container added last (C51); proved for one container. In the density mode the resolutions depend on the soundings only, for both kinds of grids and any histories."
  },
  {
   "property": "C133",
   "status": "proved",
   "theorems": [
    "Bathy.C133_same_auto_surface"
   ],
   "note": "Subtiles of a side 2^k/4; depth, counts and for mean the uncertainties. The tile sizes, containers, histories and numbers of workers may differ."
  },
  {
   "property": "C14",
   "status": "proved",
   "theorems": [
    "Bathy.C14_chunk_independent"
   ],
   "note": "Any partitioning, including the exception."
  },
  {
   "property": "C15",
   "status": "proved",
   "theorems": [
    "Bathy.C15_tile_is_ordered_map",
    "Bathy.C15_point_ops_never_raise",
    "Bathy.C15_dtype_mismatch_corrupts"
   ],
   "note": "All histories of add / remove / grid / query / clear with soundings of one dtype; the last theorem shows what happens with mixed dtypes."
  },
  {
   "property": "C16",
   "status": "partial",
   "theorems": [
    "Bathy.C16_soundings_sr",
    "Bathy.C16_soundings_vr",
    "Bathy.C16_depths_sr_partial",
    "Bathy.C16_depths_vr_partial",
    "Bathy.C16_violated"
   ],
   "note": "Soundings: proved. Depth and density: proved for mean and shoalest at a given resolution; an automatic resolution depends on the container added last (witness)."
  },
  {
   "property": "C17",
   "status": "proved",
   "theorems": [
    "Bathy.C17_mean_is_cell_mean",
    "Bathy.C17_rounding",
    "Bathy.C17_mean_grid_sr",
    "Bathy.C17_mean_grid_vr",
    "Bathy.C17_grid_returns_sr",
    "Bathy.C17_grid_returns_vr"
   ],
   "note": "For every reachable tile, all three layers; the rounding to 3 decimals is part of the statement."
  },
  {
   "property": "C18",
   "status": "proved",
   "theorems": [
    "Bathy.C18_shoalest_is_cell_minimum",
    "Bathy.C18_shoalest_grid_sr",
    "Bathy.C18_shoalest_grid_vr"
   ],
   "note": ""
  },
  {
   "property": "C19",
   "status": "partial",
   "theorems": [
    "Bathy.C19_shoalest_uncertainty_partial",
    "Bathy.C19_violated"
   ],
   "note": "The code indexes the uncertainty of the whole array with a cell local index: violated (witness). Partial: holds for cells that pass an explicit condition."
  },
  {
   "property": "C20",
   "status": "proved",
   "theorems": [
    "Bathy.C20_density_counts",
    "Bathy.C20_density_grid_sr",
    "Bathy.C20_density_grid_vr"
   ],
   "note": ""
  },
  {
   "property": "C21",
   "status": "partial",
   "theorems": [
    "Bathy.C21_incremental_equals_scratch_partial",
    "Bathy.C21_violated"
   ],
   "note": "Missing: mixing an algorithm with and without extra layers without clearing, where the code raises KeyError (witness)."
  },
  {
   "property": "C22",
   "status": "partial",
   "theorems": [
    "Bathy.C22_update_equals_full_sr_partial",
    "Bathy.C22_update_equals_full_vr_partial",
    "Bathy.C22_violated"
   ],
   "note": "Holds for mean and shoalest. CUBE: a changed neighbour changes the border of an unchanged tile, which the update skips (witness)."
  },
  {
   "property": "C23",
   "status": "partial",
   "theorems": [
    "Bathy.C23_update_leaves_tiles_alone_sr_partial",
    "Bathy.C23_update_leaves_subgrids_alone_vr_partial",
    "Bathy.C23_violated"
   ],
   "note": "Holds up to the first changed tile; after it clear_existing stays true and unchanged tiles are cleared (witness)."
  },
  {
   "property": "C24",
   "status": "proved",
   "theorems": [
    "Bathy.C24_parallel_equals_sequential_sr",
    "Bathy.C24_parallel_equals_sequential_vr"
   ],
   "note": "Whole grids, any number of workers, every state."
  },
  {
   "property": "C25",
   "status": "partial",
   "theorems": [
    "Bathy.C25_cube_parallel_partial",
    "Bathy.C25_violated"
   ],
   "note": "The worker run uses min(width/10, 3*resolution) as buffer, the sequential one width/10: violated for tiles wider than 30 cells (witness). Partial: holds otherwise."
  },
  {
   "property": "C26",
   "status": "proved",
   "theorems": [
    "Bathy.C26_tile_idempotent",
    "Bathy.C26_grid_twice_sr",
    "Bathy.C26_grid_twice_vr"
   ],
   "note": ""
  },
  {
   "property": "C27",
   "status": "proved",
   "theorems": [
    "Bathy.C27_order_of_soundings"
   ],
   "note": ""
  },
  {
   "property": "C28",
   "status": "partial",
   "theorems": [
    "Bathy.C28_resolutions_sr",
    "Bathy.C28_resolutions_are_those_of_the_tiles_sr",
    "Bathy.C28_resolutions_vr_partial",
    "Bathy.C28_violated"
   ],
   "note": "Proved for single resolution grids. Variable resolution: a subgrid skipped by an update keeps a stale list (witness)."
  },
  {
   "property": "C29",
   "status": "partial",
   "theorems": [
    "Bathy.C29_other_algorithm_refused",
    "Bathy.C29_cleared_sr",
    "Bathy.C29_cleared_vr",
    "Bathy.C29_violated"
   ],
   "note": "Both parts proved with respect to the attribute grid_algorithm; the attribute is set before the tiles are gridded, so after a failed call it does not tell the algorithm of the layers (witness)."
  },
  {
   "property": "C30",
   "status": "partial",
   "theorems": [
    "Bathy.C30_depth_lookup_partial",
    "Bathy.C30_violated"
   ],
   "note": "Violated for mean depths of 20480 m and more, where the lookup falls back to 0.25."
  },
  {
   "property": "C31",
   "status": "proved",
   "theorems": [
    "Bathy.C31_density_resolution_valid",
    "Bathy.C31_density_grid_succeeds"
   ],
   "note": ""
  },
  {
   "property": "C32",
   "status": "partial",
   "theorems": [
    "Bathy.C32_all_layers_current_partial",
    "Bathy.C32_violated"
   ],
   "note": "Holds when the tile is gridded with clear_existing or at one resolution; otherwise other resolutions stay stale (witness)."
  },
  {
   "property": "C33",
   "status": "proved",
   "theorems": [
    "Bathy.C33_powers_accepted",
    "Bathy.C33_exact_on_integers",
    "Bathy.C33_accepted_close",
    "Bathy.C33_not_exact"
   ],
   "note": ""
  },
  {
   "property": "C34",
   "status": "proved",
   "theorems": [
    "Bathy.C34_mosaic_sr",
    "Bathy.C34_mosaic_vr"
   ],
   "note": "Gridded layers, every state of both kinds of grids, any resolution and nodata value; for calls that return (when they do: C64)."
  },
  {
   "property": "C35",
   "status": "partial",
   "theorems": [
    "Bathy.C35_own_slot_sr_partial",
    "Bathy.C35_own_slot_vr_partial",
    "Bathy.C35_after_gridding_sr",
    "Bathy.C35_after_gridding_vr",
    "Bathy.C35_main_and_uncertainty_sr",
    "Bathy.C35_main_and_uncertainty_vr",
    "Bathy.C35_violated"
   ],
   "note": "Holds when every tile has all of the layers or none, in particular after mean and shoalest gridding, and at any time for lists of the main layer and the uncertainties; otherwise the layers of a tile shift into the wrong slot (witness)."
  },
  {
   "property": "C36",
   "status": "partial",
   "theorems": [
    "Bathy.C36_trim",
    "Bathy.C36_trim_ok",
    "Bathy.C36_trimmed_sr_partial",
    "Bathy.C36_trimmed_vr_partial",
    "Bathy.C36_violated"
   ],
   "note": "Holds for one layer. Lists of layers are trimmed to the box of the first one, which can cut off values of the others (witness)."
  },
  {
   "property": "C37",
   "status": "partial",
   "theorems": [
    "Bathy.C37_point_query_sr_partial",
    "Bathy.C37_point_query_vr_partial",
    "Bathy.C37_after_gridding_sr_partial",
    "Bathy.C37_after_gridding_vr_partial",
    "Bathy.C37_after_update_sr_partial",
    "Bathy.C37_after_update_vr_partial",
    "Bathy.C37_violated"
   ],
   "note": "Holds for NaN nodata and layers other than counts, outside the last row and column of cells: in every state for queries that answer; after gridding (mean or shoalest, all tiles or an update, resolutions that divide the tiles) every query answers, with the value of the soundings in the square around the location. In the last row and column, and for counts, violated (witness)."
  },
  {
   "property": "C38",
   "status": "proved",
   "theorems": [
    "Bathy.C38_sign_sr",
    "Bathy.C38_sign_vr",
    "Bathy.C38_sign_tile"
   ],
   "note": "Grids: gridded layers, every state. Tiles: all layers."
  },
  {
   "property": "C39",
   "status": "proved",
   "theorems": [
    "Bathy.C39_neighbour_soundings"
   ],
   "note": "Every state of single resolution grids whose containers have the same fields."
  },
  {
   "property": "C40",
   "status": "partial",
   "theorems": [
    "Bathy.C40_neighbour_soundings_partial",
    "Bathy.C40_fails",
    "Bathy.C40_violated"
   ],
   "note": "When all subtiles of the neighbours exist the call succeeds and returns every sounding within the buffer, but also others (witness); with a subtile missing it raises AttributeError (C40_fails, witness)."
  },
  {
   "property": "C41",
   "status": "proved",
   "theorems": [
    "Bathy.C41_partition"
   ],
   "note": "For every arrangement of tiles and every maximum dimension; returns exactly when there is a tile."
  },
  {
   "property": "C42",
   "status": "partial",
   "theorems": [
    "Bathy.C42_chunk_size_partial",
    "Bathy.C42_rasters_sr_partial",
    "Bathy.C42_rasters_vr_partial",
    "Bathy.C42_violated"
   ],
   "note": "The height of chunks is always limited; the width exactly under the stated condition (if and only if): a grid with fewer rows than the maximum is never split (witness)."
  },
  {
   "property": "C43",
   "status": "partial",
   "theorems": [
    "Bathy.C43_georeferenced_sr_partial",
    "Bathy.C43_georeferenced_vr_partial",
    "Bathy.C43_after_gridding_sr",
    "Bathy.C43_after_gridding_vr",
    "Bathy.C43_violated"
   ],
   "note": "Variable resolution: always. Single resolution: when all tiles hold the resolution, in particular right after gridding; otherwise shifted raster or TypeError (witnesses). Layers that gridding writes; resolution given."
  },
  {
   "property": "C44",
   "status": "partial",
   "theorems": [
    "Bathy.C44_container_query_partial",
    "Bathy.C44_violated"
   ],
   "note": "Holds for mean/shoalest tiles; on a CUBE tile the query raises IndexError (witness)."
  },
  {
   "property": "C45",
   "status": "partial",
   "theorems": [
    "Bathy.C45_cell_count_partial",
    "Bathy.C45_violated"
   ],
   "note": "Holds for mean/shoalest tiles; a CUBE tile counts cells without soundings (witness)."
  },
  {
   "property": "C46",
   "status": "partial",
   "theorems": [
    "Bathy.C46_csv_sr_partial",
    "Bathy.C46_csv_vr_partial",
    "Bathy.C46_after_gridding_sr",
    "Bathy.C46_after_gridding_vr",
    "Bathy.C46_violated",
    "Bathy.C46_export_stopped"
   ],
   "note": "In full right after gridding by mean or shoalest with clear_existing (resolutions that divide the tiles); in other states for tables that are written, if every tile stores all or none of the layers. Violated after surfaces of single containers were asked for: their values end up in wrong columns (C46_violated), and after such a question raised the export raises too (C46_export_stopped). The text format of numbers is not modelled."
  },
  {
   "property": "C47",
   "status": "proved",
   "theorems": [
    "Bathy.C47_one_coordinate_system",
    "Bathy.C47_all_the_same"
   ],
   "note": "Codes other than 0; every sequence of calls, including ones that raise."
  },
  {
   "property": "C48",
   "status": "partial",
   "theorems": [
    "Bathy.C48_one_vertical_reference_partial",
    "Bathy.C48_violated"
   ],
   "note": "Holds for references that are given and not empty, up to mixing MLLW variants; a container without reference is accepted before any other (witness)."
  },
  {
   "property": "C49",
   "status": "partial",
   "theorems": [
    "Bathy.C49_time_span_partial",
    "Bathy.C49_violated"
   ],
   "note": "Holds for times other than 0, which the code takes for a missing time (witness)."
  },
  {
   "property": "C50",
   "status": "partial",
   "theorems": [
    "Bathy.C50_other_crs_refused",
    "Bathy.C50_other_vref_refused_partial",
    "Bathy.C50_violated",
    "Bathy.C50_empty_array"
   ],
   "note": "Another coordinate system: proved. Another vertical reference: proved unless the grid had no coordinate system and the call brings one, which is stored although the call is refused (witness)."
  },
  {
   "property": "C51",
   "status": "partial",
   "theorems": [
    "Bathy.C51_mean_depth_sr_partial",
    "Bathy.C51_mean_depth_vr_partial",
    "Bathy.C51_last_added",
    "Bathy.C51_violated"
   ],
   "note": "Holds after the first container; from the second on mean_depth is that of the last container only, and removals do not change it (witness)."
  },
  {
   "property": "C52",
   "status": "proved",
   "theorems": [
    "Bathy.C52_time_round_trip",
    "Bathy.C52_early_years_refused"
   ],
   "note": "All times of the years 1000 to 9999; years before 1000 are shown to be refused by the parser."
  },
  {
   "property": "C53",
   "status": "partial",
   "theorems": [
    "Bathy.C53_unique_entries_partial",
    "Bathy.C53_every_list",
    "Bathy.C53_represented",
    "Bathy.C53_containers",
    "Bathy.C53_violated"
   ],
   "note": "Holds for names without a second '__'; other names are listed whole (witness)."
  },
  {
   "property": "C54",
   "status": "partial",
   "theorems": [
    "Bathy.C54_save_load_sr",
    "Bathy.C54_save_load_vr_partial",
    "Bathy.C54_loaded_reachable_sr",
    "Bathy.C54_loaded_reachable_vr",
    "Bathy.C54_violated"
   ],
   "note": "Every reachable grid that holds soundings: single resolution grids in any folder, variable resolution grids in a folder without old tiles in the places of missing ones. The loaded grid is again a reachable grid. Violated: save of a grid without soundings raises AttributeError; saving a variable resolution grid over an older one leaves stale tiles. Cached query layers are not kept."
  },
  {
   "property": "C55",
   "status": "partial",
   "theorems": [
    "Bathy.C55_folder_loads_sr_partial",
    "Bathy.C55_folder_loads_vr_partial",
    "Bathy.C55_loaded_reachable_sr",
    "Bathy.C55_emptied_sr",
    "Bathy.C55_violated"
   ],
   "note": "Single resolution: the folder loads to the grid in memory after removals and griddings, and after add_points up to number_of_tiles and mean_depth, which are written too early (witness: the loaded grid cannot remove or grid). Variable resolution: up to these attributes and empty subgrids. Successful calls; gridding in one process or with any number of workers."
  },
  {
   "property": "C56",
   "status": "proved",
   "theorems": [
    "Bathy.C56_arrays",
    "Bathy.C56_grids_sr",
    "Bathy.C56_grids_vr"
   ],
   "note": "The values of every array, and whole reachable grids; shape and field names of arrays without elements are lost in the zarr backend (example)."
  },
  {
   "property": "C57",
   "status": "partial",
   "theorems": [
    "Bathy.C57_stopped_add_sr_partial",
    "Bathy.C57_stopped_add_vr_partial",
    "Bathy.C57_damaged",
    "Bathy.C57_damaged_tile",
    "Bathy.C57_damaged_subgrid",
    "Bathy.C57_violated"
   ],
   "note": "For a stop between the writes of two tiles (two subgrids). Violated while a tile or the metadata is written: the file of soundings is removed before it is written again (witness: soundings of an earlier container nowhere on disk)."
  },
  {
   "property": "C58",
   "status": "partial",
   "theorems": [
    "Bathy.C58_removed_again_sr_partial",
    "Bathy.C58_violated"
   ],
   "note": "Single resolution grids whose folder is up to date and whose mask fits: same soundings in every tile, same attributes except number_of_tiles, which may be too large (witness). Directly after add_points the second removal raises TypeError (witness)."
  },
  {
   "property": "C59",
   "status": "partial",
   "theorems": [
    "Bathy.C59_emptied_tile_partial",
    "Bathy.C59_emptied_tile_sr",
    "Bathy.C59_violated"
   ],
   "note": "The soundings of an emptied subgrid do not come back, but an empty subgrid does, and then grid() raises (witness). Single resolution grids do not have the problem."
  },
  {
   "property": "C60",
   "status": "proved",
   "theorems": [
    "Bathy.C60_load_grid",
    "Bathy.C60_not_a_folder",
    "Bathy.C60_is_bathygrid",
    "Bathy.C60_create_grid",
    "Bathy.C60_created_is_loaded"
   ],
   "note": "The decision on names; an entry with a root name is not checked to be a folder by the code."
  },
  {
   "property": "C61",
   "status": "proved",
   "theorems": [
    "Bathy.C61_create_folder",
    "Bathy.C61_raises"
   ],
   "note": "For a folder name that is one path component and not empty."
  },
  {
   "property": "C62",
   "status": "proved",
   "theorems": [
    "Bathy.C62_removal",
    "Bathy.C62_waits",
    "Bathy.C62_succeeds",
    "Bathy.C62_permission_error",
    "Bathy.C62_nothing_tried"
   ],
   "note": "retries = 0 is treated separately: nothing is tried then."
  },
  {
   "property": "C63",
   "status": "partial",
   "theorems": [
    "Bathy.C63_intensity_sr",
    "Bathy.C63_depth_vr_partial",
    "Bathy.C63_fails_vr",
    "Bathy.C63_violated"
   ],
   "note": "Holds for single resolution grids. Variable resolution grids ignore the flag in their tiles: every tile has 'depth' and no 'intensity' (C63_fails_vr, witness)."
  },
  {
   "property": "C64",
   "status": "partial",
   "theorems": [
    "Bathy.C64_retrievable_sr_partial",
    "Bathy.C64_retrievable_vr_partial",
    "Bathy.C64_violated"
   ],
   "note": "Holds right after a full run for resolutions that divide the tiles; violated for resolutions larger than the tiles and for variable resolution grids after adding soundings (witness)."
  },
  {
   "property": "C65",
   "status": "partial",
   "theorems": [
    "Bathy.C65_nodata_sr_partial",
    "Bathy.C65_nodata_vr_partial",
    "Bathy.C65_violated"
   ],
   "note": "When no count layer comes before, or the nodata value is an integer; otherwise the integer nodata value is used for all later layers (witness)."
  },
  {
   "property": "C66",
   "status": "partial",
   "theorems": [
    "Bathy.C66_dimension_sr_partial",
    "Bathy.C66_dimension_vr_partial",
    "Bathy.C66_violated"
   ],
   "note": "Except for chunks of a single tile, for which 0 is yielded (witness)."
  },
  {
   "property": "C67",
   "status": "proved",
   "theorems": [
    "Bathy.C67_density_coarsest",
    "Bathy.C67_depth_lookup",
    "Bathy.C67_own_resolution_vr"
   ],
   "note": "For calls that return and visit all tiles (full regridding or clear_existing)."
  },
  {
   "property": "C68",
   "status": "partial",
   "theorems": [
    "Bathy.C68_elevation_sr_partial",
    "Bathy.C68_elevation_vr_partial",
    "Bathy.C68_violated"
   ],
   "note": "For grids with positive mean depth; otherwise the elevations have the wrong sign (two witnesses: heights stored positive up, and depths with negative mean)."
  },
  {
   "property": "C69",
   "status": "proved",
   "theorems": [
    "Bathy.C69_folder_same_sr",
    "Bathy.C69_folder_same_vr",
    "Bathy.C69_any_call_sr",
    "Bathy.C69_any_call_vr"
   ],
   "note": "All calls of add_points (data of any fields) and remove_points, failing or not; all calls of grid (in one process or with any number of workers): same error, and when it returns the same grid up to cached query layers."
  },
  {
   "property": "C70",
   "status": "proved",
   "theorems": [
    "Bathy.C70_cube_tile",
    "Bathy.C70_cube_grid"
   ],
   "note": "For calls that return. The strip is a tenth of the tile, with workers and a fixed resolution at most three cells. The package itself is a parameter, assumed to answer with arrays of the shape asked for."
  },
  {
   "property": "C71",
   "status": "partial",
   "theorems": [
    "Bathy.C71_density_count_sr_partial",
    "Bathy.C71_density_count_vr_partial",
    "Bathy.C71_violated"
   ],
   "note": "For calls with clear_existing; the list cell by cell when one resolution is left that divides the tiles, the sum always. Without clear_existing soundings are counted once for every resolution (witness)."
  },
  {
   "property": "C72",
   "status": "partial",
   "theorems": [
    "Bathy.C72_coverage_sr_partial",
    "Bathy.C72_coverage_vr_partial",
    "Bathy.C72_violated",
    "Bathy.C72_mile_violated"
   ],
   "note": "For calls with clear_existing and one resolution that divides the tiles: up to 0.0005 for each tile, exact from 0.5 m on. At 0.25 m the rounding tile by tile shows (witness). The divisor for square miles is that of a mile of 1853.18 m."
  },
  {
   "property": "C73",
   "status": "partial",
   "theorems": [
    "Bathy.C73_density_depth_sr_partial",
    "Bathy.C73_density_depth_vr_partial",
    "Bathy.C73_fails_backscatter"
   ],
   "note": "For depths gridded by mean or shoalest with clear_existing at one resolution. Raises ValueError for every gridded single resolution backscatter grid."
  },
  {
   "property": "C74",
   "status": "proved",
   "theorems": [
    "Bathy.C74_layer_values_sr",
    "Bathy.C74_layer_values_vr"
   ],
   "note": "The resolution has to divide the tiles (both are powers of two in the code, unless the resolution is coarser than a tile)."
  },
  {
   "property": "C75",
   "status": "partial",
   "theorems": [
    "Bathy.C75_tiles_sr_partial",
    "Bathy.C75_tiles_vr_partial",
    "Bathy.C75_after_gridding_sr",
    "Bathy.C75_after_gridding_vr",
    "Bathy.C75_violated"
   ],
   "note": "Every tile once with its layers; but the row index is yielded before the column index, the arrays are upside down for the geotransform, and partly gridded grids are refused (witnesses)."
  },
  {
   "property": "C76",
   "status": "partial",
   "theorems": [
    "Bathy.C76_rasters_sr_partial",
    "Bathy.C76_rasters_vr_partial",
    "Bathy.C76_fails_vr",
    "Bathy.C76_fails_no_crs",
    "Bathy.C76_no_crs_raises_sr",
    "Bathy.C76_no_crs_raises_vr",
    "Bathy.C76_violated"
   ],
   "note": "Right after gridding, for grids with a coordinate system (without one no raster is written and AttributeError is raised, C76_fails_no_crs; C76_no_crs_raises_*: for every grid just gridded): single resolution grids gridded at one given resolution, variable resolution grids of depths (resolutions that divide the tiles). Variable resolution backscatter exports no file; a grid whose first tile is not gridded exports nothing, with or without an exception (witnesses). GDAL and the BAG metadata are not modelled."
  },
  {
   "property": "C77",
   "status": "proved",
   "theorems": [
    "Bathy.C77_recorded_sr",
    "Bathy.C77_recorded_vr"
   ],
   "note": "For all histories, failed calls included."
  },
  {
   "property": "C78",
   "status": "partial",
   "theorems": [
    "Bathy.C78_refused",
    "Bathy.C78_extension",
    "Bathy.C78_names_sr",
    "Bathy.C78_names_vr",
    "Bathy.C78_times_partial",
    "Bathy.C78_overwrites",
    "Bathy.C78_violated"
   ],
   "note": "Formats, distinct names and folder for every reachable grid. Not overwriting holds only when something is at the output path itself: no file is ever written there, so the code's test for an existing path does not see earlier exports (general theorem and witness)."
  },
  {
   "property": "C79",
   "status": "partial",
   "theorems": [
    "Bathy.C79_old_search",
    "Bathy.C79_refused",
    "Bathy.C79_violated"
   ],
   "note": "Termination within 13 rounds and the condition on the result, with the rule the code applies, for every reachable tile. Violated by the code: the 95% rule is not implemented (one sparse cell of 21 makes the resolution too fine), and the result may be larger than the tile."
  },
  {
   "property": "C80",
   "status": "partial",
   "theorems": [
    "Bathy.C80_sources_partial",
    "Bathy.C80_shown",
    "Bathy.C80_violated"
   ],
   "note": "One entry per container, in order, for every sequence of calls. A container c is shown with the data of c_0 when there is one (general theorem and witness)."
  },
  {
   "property": "C81",
   "status": "partial",
   "theorems": [
    "Bathy.C81_drawing_sr_partial",
    "Bathy.C81_drawing_vr_partial",
    "Bathy.C81_beyond_sr",
    "Bathy.C81_beyond_vr",
    "Bathy.C81_violated"
   ],
   "note": "The outline of every place is drawn in one piece and no piece is oblique, for every reachable grid. Violated on every grid: one more row and column of squares is drawn beyond the extents."
  },
  {
   "property": "C82",
   "status": "partial",
   "theorems": [
    "Bathy.C82_times",
    "Bathy.C82_frame",
    "Bathy.C82_last_write",
    "Bathy.C82_new_period",
    "Bathy.C82_violated"
   ],
   "note": "For every document. Not guaranteed by the code: that both times are in one time period, when the document has one of the two in a branch that is not the first (witness)."
  },
  {
   "property": "C83",
   "status": "partial",
   "theorems": [
    "Bathy.C83_refused_partial",
    "Bathy.C83_rows",
    "Bathy.C83_lengths",
    "Bathy.C83_x_column",
    "Bathy.C83_repeated",
    "Bathy.C83_without_y",
    "Bathy.C83_without_z",
    "Bathy.C83_violated"
   ],
   "note": "Refusal and rows for all grids and inputs. Violated by the code: a Dataset without 'y' raises after the container is listed, an array without 'z' raises after the points are in the tiles (general theorems and witness)."
  },
  {
   "property": "C84",
   "status": "partial",
   "theorems": [
    "Bathy.C84_fields_sr_partial",
    "Bathy.C84_fields_vr_partial",
    "Bathy.C84_no_grid_sr_partial",
    "Bathy.C84_no_grid_vr_partial",
    "Bathy.C84_violated",
    "Bathy.C84_violated_fields"
   ],
   "note": "Fields and tiles for every reachable grid with data of one kind; no_grid when all tiles or none have layers. Violated by the code: the first tile decides, so a grid extended after gridding says that it has no grid and refuses to give its layers, and data with and without uncertainties can be mixed unnoticed."
  },
  {
   "property": "C85",
   "status": "proved",
   "theorems": [
    "Bathy.C85_same_cells_sr",
    "Bathy.C85_same_cells_vr"
   ],
   "note": "For every reachable grid whose last algorithms are mean and shoalest, also for layers that are older than the points."
  },
  {
   "property": "C86",
   "status": "partial",
   "theorems": [
    "Bathy.C86_extremes_sr_partial",
    "Bathy.C86_extremes_vr_partial",
    "Bathy.C86_cube_sr_partial",
    "Bathy.C86_cube_vr_partial",
    "Bathy.C86_violated"
   ],
   "note": "Proved right after gridding by mean or shoalest if no stored depth has the elevation 1000000; false otherwise: such an elevation is taken for no data. For CUBE if the package gives an uncertainty with every depth (variable resolution: gridded with clear_existing)."
  },
  {
   "property": "C87",
   "status": "partial",
   "theorems": [
    "Bathy.C87_output_folder_sr_partial",
    "Bathy.C87_output_folder_vr_partial",
    "Bathy.C87_one_folder",
    "Bathy.C87_violated"
   ],
   "note": "Up to what C55 leaves open (two attributes after add_points, empty subgrids). False for save() without a folder: BaseStorage.save hides OperationalGrid.save, nothing is written and nothing is raised."
  },
  {
   "property": "C88",
   "status": "partial",
   "theorems": [
    "Bathy.C88_options",
    "Bathy.C88_vertical_partial",
    "Bathy.C88_stays_down",
    "Bathy.C88_wkt2_quotes",
    "Bathy.C88_violated"
   ],
   "note": "False for a vertical reference that points down: the texts that replace returns are thrown away. The replacement for WKT2 would also lose a quotation mark. True for the other options and for a reference that does not point down."
  },
  {
   "property": "C89",
   "status": "proved",
   "theorems": [
    "Bathy.C89_registration_sr",
    "Bathy.C89_registration_vr",
    "Bathy.C89_document"
   ],
   "note": "Name and document of the registration file of each BAG of the export; printing of xml, and the bare except around it, are not modelled."
  },
  {
   "property": "C90",
   "status": "proved",
   "theorems": [
    "Bathy.C90_found",
    "Bathy.C90_order",
    "Bathy.C90_refused",
    "Bathy.C90_times"
   ],
   "note": "Between parsing the metadata and the answers of pyproj, which are an argument of the model."
  },
  {
   "property": "C91",
   "status": "partial",
   "theorems": [
    "Bathy.C91_created",
    "Bathy.C91_raises_partial",
    "Bathy.C91_left_behind",
    "Bathy.C91_shared",
    "Bathy.C91_inside",
    "Bathy.C91_violated"
   ],
   "note": "The folder was absent or empty. False: refused options leave a new folder behind; a second grid gets the folder of the first as long as that is empty; with a slash at the end of the path the folder is made inside the existing one."
  },
  {
   "property": "C92",
   "status": "partial",
   "theorems": [
    "Bathy.C92_together_partial",
    "Bathy.C92_numbers",
    "Bathy.C92_number_and_one",
    "Bathy.C92_refused",
    "Bathy.C92_tuple",
    "Bathy.C92_violated"
   ],
   "note": "For every grid. False for a tuple as y: it is not made an array, so there is a TypeError instead of an answer, or the lengths are not compared."
  },
  {
   "property": "C93",
   "status": "partial",
   "theorems": [
    "Bathy.C93_curve",
    "Bathy.C93_no_cells",
    "Bathy.C93_no_bins",
    "Bathy.C93_grid_sr_partial",
    "Bathy.C93_grid_vr_partial",
    "Bathy.C93_fails_backscatter"
   ],
   "note": "For every list of cells, and for grids of depths gridded with mean or shoalest. False for gridded single resolution backscatter grids, where both plots raise ValueError."
  },
  {
   "property": "C94",
   "status": "partial",
   "theorems": [
    "Bathy.C94_depths_sr",
    "Bathy.C94_depths_vr_partial",
    "Bathy.C94_depths_fails_backscatter",
    "Bathy.C94_violated",
    "Bathy.C94_uncertainties_sr",
    "Bathy.C94_uncertainties_vr",
    "Bathy.C94_uncertainty_values_sr",
    "Bathy.C94_uncertainty_values_vr",
    "Bathy.C94_message_partial",
    "Bathy.C94_message_fails",
    "Bathy.C94_message_violated",
    "Bathy.C94_nothing_gridded"
   ],
   "note": "Values for mean (depths and uncertainties) and shoalest (depths), one resolution. False for variable resolution backscatter grids (no histogram of intensities) and for the line printed for the horizontal uncertainty (it names the vertical one)."
  },
  {
   "property": "C95",
   "status": "partial",
   "theorems": [
    "Bathy.C95_plot_sr_partial",
    "Bathy.C95_plot_vr_partial",
    "Bathy.C95_not_gridded",
    "Bathy.C95_violated"
   ],
   "note": "Places and values for every mesh; all corners exactly if no cell is in the last column or row of the grid. False otherwise: np.arange leaves out the upper end of the grid, so the last corner is missing."
  },
  {
   "property": "C96",
   "status": "partial",
   "theorems": [
    "Bathy.C96_bar",
    "Bathy.C96_full",
    "Bathy.C96_monotone",
    "Bathy.C96_loop",
    "Bathy.C96_add",
    "Bathy.C96_add_sr",
    "Bathy.C96_add_vr",
    "Bathy.C96_remove",
    "Bathy.C96_grid",
    "Bathy.C96_hundred_partial",
    "Bathy.C96_violated"
   ],
   "note": "Everything but one point for all loops: that 100.0% is shown at the end only holds for less than 2000 rounds, and is false for every longer loop (C96_violated)."
  },
  {
   "property": "C97",
   "status": "partial",
   "theorems": [
    "Bathy.C97_again_sr",
    "Bathy.C97_again_vr_partial",
    "Bathy.C97_over_sr_partial",
    "Bathy.C97_over_vr_partial",
    "Bathy.C97_violated"
   ],
   "note": "The own output folder: always (variable resolution up to empty subgrids). Folders of other grids: if the tiles of the other grid are at places of the grid (variable resolution: of tiles of the grid), then all goes on as in C87. Otherwise false also for single resolution grids: soundings of the older grid come back, and added soundings are gridded in the cells of the older ones (witness)."
  },
  {
   "property": "C98",
   "status": "partial",
   "theorems": [
    "Bathy.C98_several",
    "Bathy.C98_one",
    "Bathy.C98_after_gridding_sr",
    "Bathy.C98_after_gridding_vr",
    "Bathy.C98_tile",
    "Bathy.C98_violated"
   ],
   "note": "For the resolutions the grid has recorded (C28): always. After gridding all tiles at a resolution asked for, this is the one recorded. For the resolutions of the tiles it is false for variable resolution grids: a resolution no tile has any more stays recorded, and the query is refused (witness)."
  },
  {
   "property": "C99",
   "status": "partial",
   "theorems": [
    "Bathy.C99_sr",
    "Bathy.C99_grid_sr",
    "Bathy.C99_vr_partial",
    "Bathy.C99_grid_vr_partial",
    "Bathy.C99_zero_depth",
    "Bathy.C99_layers",
    "Bathy.C99_violated"
   ],
   "note": "Single resolution: always, both ways. Variable resolution: unless the automatic resolution by depth is asked for while the mean depth is zero; there the zarr class always raises ValueError and keeps its tiles, and the numpy class need not (witness)."
  }
 ]
}