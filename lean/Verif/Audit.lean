import Verif.Props.Attribution
import Verif.Props.AutoContainer
import Verif.Props.AutoResolution
import Verif.Props.AutoSurface
import Verif.Props.AutoSurfaceVR
import Verif.Props.Axes
import Verif.Props.Backscatter
import Verif.Props.BagMinMax
import Verif.Props.BagMinMaxCube
import Verif.Props.BagOptions
import Verif.Props.BagXml
import Verif.Props.Bars
import Verif.Props.Binning
import Verif.Props.Boundaries
import Verif.Props.Calendar
import Verif.Props.ChunkSize
import Verif.Props.Chunks
import Verif.Props.Classes
import Verif.Props.Client
import Verif.Props.ClientUpdate
import Verif.Props.Coarser
import Verif.Props.ContainerGrid
import Verif.Props.ContainerKept
import Verif.Props.ContainerUpdate
import Verif.Props.Containers
import Verif.Props.Crash
import Verif.Props.CreateGrid
import Verif.Props.Crs
import Verif.Props.Csv
import Verif.Props.Cube
import Verif.Props.DepthChange
import Verif.Props.Describe
import Verif.Props.Disk
import Verif.Props.DiskFollow
import Verif.Props.DiskNames
import Verif.Props.EndToEnd
import Verif.Props.Export
import Verif.Props.ExportNoCrs
import Verif.Props.ExportPath
import Verif.Props.ExportSurface
import Verif.Props.ExportUpdate
import Verif.Props.Float
import Verif.Props.FloatMean
import Verif.Props.FloatSurface
import Verif.Props.FloatUpdate
import Verif.Props.Folders
import Verif.Props.GridGridding
import Verif.Props.GridOrder
import Verif.Props.GridParallel
import Verif.Props.GridPoints
import Verif.Props.GridResolutions
import Verif.Props.GridTwice
import Verif.Props.GridUpdate
import Verif.Props.Histogram
import Verif.Props.Input
import Verif.Props.LayerShown
import Verif.Props.LayerSign
import Verif.Props.LayerTrim
import Verif.Props.Layers
import Verif.Props.LayersGridded
import Verif.Props.Lazy
import Verif.Props.Merged
import Verif.Props.MergedUpdate
import Verif.Props.Mesh
import Verif.Props.Metadata
import Verif.Props.Neighbours
import Verif.Props.OldDensity
import Verif.Props.Plots
import Verif.Props.PointQuery
import Verif.Props.PointSurface
import Verif.Props.PowerOfTwo
import Verif.Props.Progress
import Verif.Props.QueryArgs
import Verif.Props.QueryRes
import Verif.Props.Rasters
import Verif.Props.Reading
import Verif.Props.Recorded
import Verif.Props.Repeated
import Verif.Props.SameCells
import Verif.Props.SameCsv
import Verif.Props.SameRasters
import Verif.Props.SameResolution
import Verif.Props.SameSoundings
import Verif.Props.Save
import Verif.Props.SaveOver
import Verif.Props.Session
import Verif.Props.ShoalSafe
import Verif.Props.SingleCorner
import Verif.Props.Slope
import Verif.Props.SlopeGrid
import Verif.Props.Stats
import Verif.Props.Summary
import Verif.Props.Surface
import Verif.Props.SurfaceKept
import Verif.Props.SurfaceLoaded
import Verif.Props.TileGenerator
import Verif.Props.TileGridding
import Verif.Props.TileQueries
import Verif.Props.TileResolution
import Verif.Props.TileStore
import Verif.Props.TimeStrings
import Verif.Props.TrimmedSurface
import Verif.Props.Unravel
import Verif.Props.UpdateSurface

/-! axioms of every property theorem named in MANIFEST.json (generated by tools/gen.py) -/

#print axioms Bathy.C01_conservation_sr
#print axioms Bathy.C01_conservation_vr
#print axioms Bathy.C02_tile_contains_sr
#print axioms Bathy.C02_tile_exact_sr
#print axioms Bathy.C02_tile_contains_vr
#print axioms Bathy.C03_growth_keeps_tiles_sr
#print axioms Bathy.C03_growth_keeps_tiles_vr
#print axioms Bathy.C04_remove_exact_sr
#print axioms Bathy.C04_remove_exact_vr
#print axioms Bathy.C05_duplicate_rejected_sr
#print axioms Bathy.C05_duplicate_rejected_vr
#print axioms Bathy.C06_unknown_remove_sr
#print axioms Bathy.C06_unknown_remove_vr
#print axioms Bathy.C06_second_remove_sr
#print axioms Bathy.C07_emptied_sr
#print axioms Bathy.C07_emptied_vr
#print axioms Bathy.C08_remove_total_sr_partial
#print axioms Bathy.C08_remove_total_vr_partial
#print axioms Bathy.C08_violated
#print axioms Bathy.C09_tile_count_sr
#print axioms Bathy.C09_tile_count_vr
#print axioms Bathy.C10_extents_sr
#print axioms Bathy.C10_extents_vr
#print axioms Bathy.C100_surface_sr
#print axioms Bathy.C100_surface_vr
#print axioms Bathy.C101_single
#print axioms Bathy.C101_variable_partial
#print axioms Bathy.C101_constructors
#print axioms Bathy.C101_violated
#print axioms Bathy.C102_kept_sr
#print axioms Bathy.C102_kept_vr
#print axioms Bathy.C102_saved_sr
#print axioms Bathy.C102_saved_vr_partial
#print axioms Bathy.C102_folder_sr
#print axioms Bathy.C102_folder_vr_partial
#print axioms Bathy.C102_loaded_vr_partial
#print axioms Bathy.C102_update_saved_sr
#print axioms Bathy.C102_update_saved_vr_partial
#print axioms Bathy.C102_container_saved_sr
#print axioms Bathy.C102_container_saved_vr_partial
#print axioms Bathy.C102_slopes_saved_sr
#print axioms Bathy.C102_slopes_saved_vr_partial
#print axioms Bathy.C102_empty_first
#print axioms Bathy.C102_violated
#print axioms Bathy.C103_parts
#print axioms Bathy.C103_keys
#print axioms Bathy.C103_save
#print axioms Bathy.C103_load
#print axioms Bathy.C103_tile_names
#print axioms Bathy.C103_places_sr
#print axioms Bathy.C103_places_vr
#print axioms Bathy.C104_unravel
#print axioms Bathy.C104_outside
#print axioms Bathy.C104_no_elements
#print axioms Bathy.C104_two
#print axioms Bathy.C105_links
#print axioms Bathy.C105_same_exceptions
#print axioms Bathy.C105_to_memory
#print axioms Bathy.C105_needed
#print axioms Bathy.C105_add
#print axioms Bathy.C105_grid
#print axioms Bathy.C106_add_sr
#print axioms Bathy.C106_add_vr
#print axioms Bathy.C106_sessions_sr
#print axioms Bathy.C106_sessions_vr
#print axioms Bathy.C106_cells_sr
#print axioms Bathy.C106_cells_vr
#print axioms Bathy.C106_surface_sr
#print axioms Bathy.C106_surface_vr
#print axioms Bathy.C106_other_resolutions
#print axioms Bathy.C107_mean
#print axioms Bathy.C107_numpy
#print axioms Bathy.C107_shoalest
#print axioms Bathy.C107_shoalest_near
#print axioms Bathy.C107_order_shoalest
#print axioms Bathy.C107_order_mean_partial
#print axioms Bathy.C107_order_matters
#print axioms Bathy.C107_single_precision
#print axioms Bathy.C108_grid_ok_sr
#print axioms Bathy.C108_grid_ok_vr
#print axioms Bathy.C108_surface_sr
#print axioms Bathy.C108_surface_vr
#print axioms Bathy.C108_numpy_sr
#print axioms Bathy.C108_numpy_vr
#print axioms Bathy.C109_geo_sr
#print axioms Bathy.C109_geo_vr
#print axioms Bathy.C109_boundaries_sr
#print axioms Bathy.C109_boundaries_vr
#print axioms Bathy.C109_small_tiles
#print axioms Bathy.C11_extents_grow_sr_partial
#print axioms Bathy.C11_extents_grow_vr_partial
#print axioms Bathy.C11_violated
#print axioms Bathy.C110_client
#print axioms Bathy.C110_messages
#print axioms Bathy.C110_silent_violated
#print axioms Bathy.C110_groups_sr
#print axioms Bathy.C110_groups_vr
#print axioms Bathy.C110_total_partial
#print axioms Bathy.C110_total_violated
#print axioms Bathy.C110_groups_any_sr
#print axioms Bathy.C110_groups_any_vr
#print axioms Bathy.C110_update_violated
#print axioms Bathy.C111_result
#print axioms Bathy.C111_error_partial
#print axioms Bathy.C111_int_violated
#print axioms Bathy.C111_crs_violated
#print axioms Bathy.C111_raster
#print axioms Bathy.C112_update_equals_full_sr
#print axioms Bathy.C112_update_equals_full_vr
#print axioms Bathy.C112_update_keeps_sr
#print axioms Bathy.C112_update_keeps_vr
#print axioms Bathy.C112_update_surface_sr
#print axioms Bathy.C112_update_surface_vr
#print axioms Bathy.C113_update_surface_sr
#print axioms Bathy.C113_update_surface_vr
#print axioms Bathy.C114_auto_is_fixed
#print axioms Bathy.C114_auto_surface_sr
#print axioms Bathy.C114_update_surface_sr_partial
#print axioms Bathy.C114_violated
#print axioms Bathy.C115_auto_surface_vr
#print axioms Bathy.C116_described_sr_partial
#print axioms Bathy.C116_described_vr_partial
#print axioms Bathy.C116_violated
#print axioms Bathy.C117_bars
#print axioms Bathy.C117_no_bins
#print axioms Bathy.C117_density_sr
#print axioms Bathy.C117_density_vr
#print axioms Bathy.C118_tile_partial
#print axioms Bathy.C118_up_to_date
#print axioms Bathy.C118_surface_sr
#print axioms Bathy.C118_surface_vr
#print axioms Bathy.C118_update_surface_sr
#print axioms Bathy.C118_update_surface_vr
#print axioms Bathy.C118_auto_surface_sr
#print axioms Bathy.C118_kept_sr
#print axioms Bathy.C118_kept_vr
#print axioms Bathy.C118_plane
#print axioms Bathy.C118_one_answer
#print axioms Bathy.C118_added_fails
#print axioms Bathy.C119_written
#print axioms Bathy.C119_outside
#print axioms Bathy.C119_read
#print axioms Bathy.C12_origin_partial
#print axioms Bathy.C12_violated
#print axioms Bathy.C12_violated_general
#print axioms Bathy.C120_surface_sr
#print axioms Bathy.C120_surface_vr
#print axioms Bathy.C120_update_surface_sr
#print axioms Bathy.C120_update_surface_vr
#print axioms Bathy.C120_auto_surface_sr
#print axioms Bathy.C120_kept_sr
#print axioms Bathy.C120_kept_vr
#print axioms Bathy.C120_not_gridded
#print axioms Bathy.C121_not_deeper
#print axioms Bathy.C121_coarser
#print axioms Bathy.C121_no_shoal_hidden
#print axioms Bathy.C121_exact_violated
#print axioms Bathy.C122_held_sr
#print axioms Bathy.C122_held_vr
#print axioms Bathy.C122_reachable_sr
#print axioms Bathy.C122_reachable_vr
#print axioms Bathy.C122_answers_sr
#print axioms Bathy.C122_answers_vr
#print axioms Bathy.C122_gridded_sr
#print axioms Bathy.C122_gridded_vr
#print axioms Bathy.C122_askable_sr
#print axioms Bathy.C122_askable_vr
#print axioms Bathy.C122_left_behind
#print axioms Bathy.C122_counts_lost
#print axioms Bathy.C123_counts
#print axioms Bathy.C123_shoalest
#print axioms Bathy.C123_means
#print axioms Bathy.C124_same_place
#print axioms Bathy.C124_every_sounding
#print axioms Bathy.C124_same_surface
#print axioms Bathy.C125_counts
#print axioms Bathy.C125_shoalest
#print axioms Bathy.C125_mean
#print axioms Bathy.C125_unchanged
#print axioms Bathy.C125_repeated
#print axioms Bathy.C125_repeated_counts
#print axioms Bathy.C125_containers_sr
#print axioms Bathy.C125_containers_vr
#print axioms Bathy.C125_containers_update_sr
#print axioms Bathy.C125_containers_update_vr
#print axioms Bathy.C126_between
#print axioms Bathy.C126_shoalest_mean
#print axioms Bathy.C126_monotone
#print axioms Bathy.C126_lowered
#print axioms Bathy.C127_turned
#print axioms Bathy.C127_turned_sounding
#print axioms Bathy.C127_transposed
#print axioms Bathy.C127_enlarged
#print axioms Bathy.C127_enlarged_sounding
#print axioms Bathy.C127_mirrored
#print axioms Bathy.C127_mirrored_sounding
#print axioms Bathy.C128_gridded_sr
#print axioms Bathy.C128_gridded_vr
#print axioms Bathy.C128_updated_sr
#print axioms Bathy.C128_updated_vr
#print axioms Bathy.C129_stored_sr
#print axioms Bathy.C129_stored_vr
#print axioms Bathy.C129_csv_sr
#print axioms Bathy.C129_csv_vr
#print axioms Bathy.C129_rasters_sr
#print axioms Bathy.C129_rasters_vr
#print axioms Bathy.C129_stored_updated_sr
#print axioms Bathy.C129_stored_updated_vr
#print axioms Bathy.C129_rasters_updated_sr
#print axioms Bathy.C129_rasters_updated_vr
#print axioms Bathy.C13_bin_partition
#print axioms Bathy.C13_beyond_raises_partial
#print axioms Bathy.C13_single_bin_violated
#print axioms Bathy.C13_below_first_edge_wraps
#print axioms Bathy.C130_same_pixel
#print axioms Bathy.C130_depth_elevation
#print axioms Bathy.C130_every_sounding
#print axioms Bathy.C131_same_places
#print axioms Bathy.C131_same_line_partial
#print axioms Bathy.C131_same_table_partial
#print axioms Bathy.C131_violated
#print axioms Bathy.C132_depth_vr
#print axioms Bathy.C132_density_sr
#print axioms Bathy.C132_density_vr
#print axioms Bathy.C132_depth_sr_partial
#print axioms Bathy.C132_violated
#print axioms Bathy.C133_same_auto_surface
#print axioms Bathy.C14_chunk_independent
#print axioms Bathy.C15_tile_is_ordered_map
#print axioms Bathy.C15_point_ops_never_raise
#print axioms Bathy.C15_dtype_mismatch_corrupts
#print axioms Bathy.C16_soundings_sr
#print axioms Bathy.C16_soundings_vr
#print axioms Bathy.C16_depths_sr_partial
#print axioms Bathy.C16_depths_vr_partial
#print axioms Bathy.C16_violated
#print axioms Bathy.C17_mean_is_cell_mean
#print axioms Bathy.C17_rounding
#print axioms Bathy.C17_mean_grid_sr
#print axioms Bathy.C17_mean_grid_vr
#print axioms Bathy.C17_grid_returns_sr
#print axioms Bathy.C17_grid_returns_vr
#print axioms Bathy.C18_shoalest_is_cell_minimum
#print axioms Bathy.C18_shoalest_grid_sr
#print axioms Bathy.C18_shoalest_grid_vr
#print axioms Bathy.C19_shoalest_uncertainty_partial
#print axioms Bathy.C19_violated
#print axioms Bathy.C20_density_counts
#print axioms Bathy.C20_density_grid_sr
#print axioms Bathy.C20_density_grid_vr
#print axioms Bathy.C21_incremental_equals_scratch_partial
#print axioms Bathy.C21_violated
#print axioms Bathy.C22_update_equals_full_sr_partial
#print axioms Bathy.C22_update_equals_full_vr_partial
#print axioms Bathy.C22_violated
#print axioms Bathy.C23_update_leaves_tiles_alone_sr_partial
#print axioms Bathy.C23_update_leaves_subgrids_alone_vr_partial
#print axioms Bathy.C23_violated
#print axioms Bathy.C24_parallel_equals_sequential_sr
#print axioms Bathy.C24_parallel_equals_sequential_vr
#print axioms Bathy.C25_cube_parallel_partial
#print axioms Bathy.C25_violated
#print axioms Bathy.C26_tile_idempotent
#print axioms Bathy.C26_grid_twice_sr
#print axioms Bathy.C26_grid_twice_vr
#print axioms Bathy.C27_order_of_soundings
#print axioms Bathy.C28_resolutions_sr
#print axioms Bathy.C28_resolutions_are_those_of_the_tiles_sr
#print axioms Bathy.C28_resolutions_vr_partial
#print axioms Bathy.C28_violated
#print axioms Bathy.C29_other_algorithm_refused
#print axioms Bathy.C29_cleared_sr
#print axioms Bathy.C29_cleared_vr
#print axioms Bathy.C29_violated
#print axioms Bathy.C30_depth_lookup_partial
#print axioms Bathy.C30_violated
#print axioms Bathy.C31_density_resolution_valid
#print axioms Bathy.C31_density_grid_succeeds
#print axioms Bathy.C32_all_layers_current_partial
#print axioms Bathy.C32_violated
#print axioms Bathy.C33_powers_accepted
#print axioms Bathy.C33_exact_on_integers
#print axioms Bathy.C33_accepted_close
#print axioms Bathy.C33_not_exact
#print axioms Bathy.C34_mosaic_sr
#print axioms Bathy.C34_mosaic_vr
#print axioms Bathy.C35_own_slot_sr_partial
#print axioms Bathy.C35_own_slot_vr_partial
#print axioms Bathy.C35_after_gridding_sr
#print axioms Bathy.C35_after_gridding_vr
#print axioms Bathy.C35_main_and_uncertainty_sr
#print axioms Bathy.C35_main_and_uncertainty_vr
#print axioms Bathy.C35_violated
#print axioms Bathy.C36_trim
#print axioms Bathy.C36_trim_ok
#print axioms Bathy.C36_trimmed_sr_partial
#print axioms Bathy.C36_trimmed_vr_partial
#print axioms Bathy.C36_violated
#print axioms Bathy.C37_point_query_sr_partial
#print axioms Bathy.C37_point_query_vr_partial
#print axioms Bathy.C37_after_gridding_sr_partial
#print axioms Bathy.C37_after_gridding_vr_partial
#print axioms Bathy.C37_after_update_sr_partial
#print axioms Bathy.C37_after_update_vr_partial
#print axioms Bathy.C37_violated
#print axioms Bathy.C38_sign_sr
#print axioms Bathy.C38_sign_vr
#print axioms Bathy.C38_sign_tile
#print axioms Bathy.C39_neighbour_soundings
#print axioms Bathy.C40_neighbour_soundings_partial
#print axioms Bathy.C40_fails
#print axioms Bathy.C40_violated
#print axioms Bathy.C41_partition
#print axioms Bathy.C42_chunk_size_partial
#print axioms Bathy.C42_rasters_sr_partial
#print axioms Bathy.C42_rasters_vr_partial
#print axioms Bathy.C42_violated
#print axioms Bathy.C43_georeferenced_sr_partial
#print axioms Bathy.C43_georeferenced_vr_partial
#print axioms Bathy.C43_after_gridding_sr
#print axioms Bathy.C43_after_gridding_vr
#print axioms Bathy.C43_violated
#print axioms Bathy.C44_container_query_partial
#print axioms Bathy.C44_violated
#print axioms Bathy.C45_cell_count_partial
#print axioms Bathy.C45_violated
#print axioms Bathy.C46_csv_sr_partial
#print axioms Bathy.C46_csv_vr_partial
#print axioms Bathy.C46_after_gridding_sr
#print axioms Bathy.C46_after_gridding_vr
#print axioms Bathy.C46_violated
#print axioms Bathy.C46_export_stopped
#print axioms Bathy.C47_one_coordinate_system
#print axioms Bathy.C47_all_the_same
#print axioms Bathy.C48_one_vertical_reference_partial
#print axioms Bathy.C48_violated
#print axioms Bathy.C49_time_span_partial
#print axioms Bathy.C49_violated
#print axioms Bathy.C50_other_crs_refused
#print axioms Bathy.C50_other_vref_refused_partial
#print axioms Bathy.C50_violated
#print axioms Bathy.C50_empty_array
#print axioms Bathy.C51_mean_depth_sr_partial
#print axioms Bathy.C51_mean_depth_vr_partial
#print axioms Bathy.C51_last_added
#print axioms Bathy.C51_violated
#print axioms Bathy.C52_time_round_trip
#print axioms Bathy.C52_early_years_refused
#print axioms Bathy.C53_unique_entries_partial
#print axioms Bathy.C53_every_list
#print axioms Bathy.C53_represented
#print axioms Bathy.C53_containers
#print axioms Bathy.C53_violated
#print axioms Bathy.C54_save_load_sr
#print axioms Bathy.C54_save_load_vr_partial
#print axioms Bathy.C54_loaded_reachable_sr
#print axioms Bathy.C54_loaded_reachable_vr
#print axioms Bathy.C54_violated
#print axioms Bathy.C55_folder_loads_sr_partial
#print axioms Bathy.C55_folder_loads_vr_partial
#print axioms Bathy.C55_loaded_reachable_sr
#print axioms Bathy.C55_emptied_sr
#print axioms Bathy.C55_violated
#print axioms Bathy.C56_arrays
#print axioms Bathy.C56_grids_sr
#print axioms Bathy.C56_grids_vr
#print axioms Bathy.C57_stopped_add_sr_partial
#print axioms Bathy.C57_stopped_add_vr_partial
#print axioms Bathy.C57_damaged
#print axioms Bathy.C57_damaged_tile
#print axioms Bathy.C57_damaged_subgrid
#print axioms Bathy.C57_violated
#print axioms Bathy.C58_removed_again_sr_partial
#print axioms Bathy.C58_violated
#print axioms Bathy.C59_emptied_tile_partial
#print axioms Bathy.C59_emptied_tile_sr
#print axioms Bathy.C59_violated
#print axioms Bathy.C60_load_grid
#print axioms Bathy.C60_not_a_folder
#print axioms Bathy.C60_is_bathygrid
#print axioms Bathy.C60_create_grid
#print axioms Bathy.C60_created_is_loaded
#print axioms Bathy.C61_create_folder
#print axioms Bathy.C61_raises
#print axioms Bathy.C62_removal
#print axioms Bathy.C62_waits
#print axioms Bathy.C62_succeeds
#print axioms Bathy.C62_permission_error
#print axioms Bathy.C62_nothing_tried
#print axioms Bathy.C63_intensity_sr
#print axioms Bathy.C63_depth_vr_partial
#print axioms Bathy.C63_fails_vr
#print axioms Bathy.C63_violated
#print axioms Bathy.C64_retrievable_sr_partial
#print axioms Bathy.C64_retrievable_vr_partial
#print axioms Bathy.C64_violated
#print axioms Bathy.C65_nodata_sr_partial
#print axioms Bathy.C65_nodata_vr_partial
#print axioms Bathy.C65_violated
#print axioms Bathy.C66_dimension_sr_partial
#print axioms Bathy.C66_dimension_vr_partial
#print axioms Bathy.C66_violated
#print axioms Bathy.C67_density_coarsest
#print axioms Bathy.C67_depth_lookup
#print axioms Bathy.C67_own_resolution_vr
#print axioms Bathy.C68_elevation_sr_partial
#print axioms Bathy.C68_elevation_vr_partial
#print axioms Bathy.C68_violated
#print axioms Bathy.C69_folder_same_sr
#print axioms Bathy.C69_folder_same_vr
#print axioms Bathy.C69_any_call_sr
#print axioms Bathy.C69_any_call_vr
#print axioms Bathy.C70_cube_tile
#print axioms Bathy.C70_cube_grid
#print axioms Bathy.C71_density_count_sr_partial
#print axioms Bathy.C71_density_count_vr_partial
#print axioms Bathy.C71_violated
#print axioms Bathy.C72_coverage_sr_partial
#print axioms Bathy.C72_coverage_vr_partial
#print axioms Bathy.C72_violated
#print axioms Bathy.C72_mile_violated
#print axioms Bathy.C73_density_depth_sr_partial
#print axioms Bathy.C73_density_depth_vr_partial
#print axioms Bathy.C73_fails_backscatter
#print axioms Bathy.C74_layer_values_sr
#print axioms Bathy.C74_layer_values_vr
#print axioms Bathy.C75_tiles_sr_partial
#print axioms Bathy.C75_tiles_vr_partial
#print axioms Bathy.C75_after_gridding_sr
#print axioms Bathy.C75_after_gridding_vr
#print axioms Bathy.C75_violated
#print axioms Bathy.C76_rasters_sr_partial
#print axioms Bathy.C76_rasters_vr_partial
#print axioms Bathy.C76_fails_vr
#print axioms Bathy.C76_fails_no_crs
#print axioms Bathy.C76_no_crs_raises_sr
#print axioms Bathy.C76_no_crs_raises_vr
#print axioms Bathy.C76_violated
#print axioms Bathy.C77_recorded_sr
#print axioms Bathy.C77_recorded_vr
#print axioms Bathy.C78_refused
#print axioms Bathy.C78_extension
#print axioms Bathy.C78_names_sr
#print axioms Bathy.C78_names_vr
#print axioms Bathy.C78_times_partial
#print axioms Bathy.C78_overwrites
#print axioms Bathy.C78_violated
#print axioms Bathy.C79_old_search
#print axioms Bathy.C79_refused
#print axioms Bathy.C79_violated
#print axioms Bathy.C80_sources_partial
#print axioms Bathy.C80_shown
#print axioms Bathy.C80_violated
#print axioms Bathy.C81_drawing_sr_partial
#print axioms Bathy.C81_drawing_vr_partial
#print axioms Bathy.C81_beyond_sr
#print axioms Bathy.C81_beyond_vr
#print axioms Bathy.C81_violated
#print axioms Bathy.C82_times
#print axioms Bathy.C82_frame
#print axioms Bathy.C82_last_write
#print axioms Bathy.C82_new_period
#print axioms Bathy.C82_violated
#print axioms Bathy.C83_refused_partial
#print axioms Bathy.C83_rows
#print axioms Bathy.C83_lengths
#print axioms Bathy.C83_x_column
#print axioms Bathy.C83_repeated
#print axioms Bathy.C83_without_y
#print axioms Bathy.C83_without_z
#print axioms Bathy.C83_violated
#print axioms Bathy.C84_fields_sr_partial
#print axioms Bathy.C84_fields_vr_partial
#print axioms Bathy.C84_no_grid_sr_partial
#print axioms Bathy.C84_no_grid_vr_partial
#print axioms Bathy.C84_violated
#print axioms Bathy.C84_violated_fields
#print axioms Bathy.C85_same_cells_sr
#print axioms Bathy.C85_same_cells_vr
#print axioms Bathy.C86_extremes_sr_partial
#print axioms Bathy.C86_extremes_vr_partial
#print axioms Bathy.C86_cube_sr_partial
#print axioms Bathy.C86_cube_vr_partial
#print axioms Bathy.C86_violated
#print axioms Bathy.C87_output_folder_sr_partial
#print axioms Bathy.C87_output_folder_vr_partial
#print axioms Bathy.C87_one_folder
#print axioms Bathy.C87_violated
#print axioms Bathy.C88_options
#print axioms Bathy.C88_vertical_partial
#print axioms Bathy.C88_stays_down
#print axioms Bathy.C88_wkt2_quotes
#print axioms Bathy.C88_violated
#print axioms Bathy.C89_registration_sr
#print axioms Bathy.C89_registration_vr
#print axioms Bathy.C89_document
#print axioms Bathy.C90_found
#print axioms Bathy.C90_order
#print axioms Bathy.C90_refused
#print axioms Bathy.C90_times
#print axioms Bathy.C91_created
#print axioms Bathy.C91_raises_partial
#print axioms Bathy.C91_left_behind
#print axioms Bathy.C91_shared
#print axioms Bathy.C91_inside
#print axioms Bathy.C91_violated
#print axioms Bathy.C92_together_partial
#print axioms Bathy.C92_numbers
#print axioms Bathy.C92_number_and_one
#print axioms Bathy.C92_refused
#print axioms Bathy.C92_tuple
#print axioms Bathy.C92_violated
#print axioms Bathy.C93_curve
#print axioms Bathy.C93_no_cells
#print axioms Bathy.C93_no_bins
#print axioms Bathy.C93_grid_sr_partial
#print axioms Bathy.C93_grid_vr_partial
#print axioms Bathy.C93_fails_backscatter
#print axioms Bathy.C94_depths_sr
#print axioms Bathy.C94_depths_vr_partial
#print axioms Bathy.C94_depths_fails_backscatter
#print axioms Bathy.C94_violated
#print axioms Bathy.C94_uncertainties_sr
#print axioms Bathy.C94_uncertainties_vr
#print axioms Bathy.C94_uncertainty_values_sr
#print axioms Bathy.C94_uncertainty_values_vr
#print axioms Bathy.C94_message_partial
#print axioms Bathy.C94_message_fails
#print axioms Bathy.C94_message_violated
#print axioms Bathy.C94_nothing_gridded
#print axioms Bathy.C95_plot_sr_partial
#print axioms Bathy.C95_plot_vr_partial
#print axioms Bathy.C95_not_gridded
#print axioms Bathy.C95_violated
#print axioms Bathy.C96_bar
#print axioms Bathy.C96_full
#print axioms Bathy.C96_monotone
#print axioms Bathy.C96_loop
#print axioms Bathy.C96_add
#print axioms Bathy.C96_add_sr
#print axioms Bathy.C96_add_vr
#print axioms Bathy.C96_remove
#print axioms Bathy.C96_grid
#print axioms Bathy.C96_hundred_partial
#print axioms Bathy.C96_violated
#print axioms Bathy.C97_again_sr
#print axioms Bathy.C97_again_vr_partial
#print axioms Bathy.C97_over_sr_partial
#print axioms Bathy.C97_over_vr_partial
#print axioms Bathy.C97_violated
#print axioms Bathy.C98_several
#print axioms Bathy.C98_one
#print axioms Bathy.C98_after_gridding_sr
#print axioms Bathy.C98_after_gridding_vr
#print axioms Bathy.C98_tile
#print axioms Bathy.C98_violated
#print axioms Bathy.C99_sr
#print axioms Bathy.C99_grid_sr
#print axioms Bathy.C99_vr_partial
#print axioms Bathy.C99_grid_vr_partial
#print axioms Bathy.C99_zero_depth
#print axioms Bathy.C99_layers
#print axioms Bathy.C99_violated
