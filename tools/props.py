import json
P=[]
def p(id,title,statement,quant,why,anchors):
    P.append(dict(id=id,title=title,statement=statement,quantifier=quant,why_tests_cant=why,anchors=anchors))
H="every finite history of accepted add_points / remove_points / grid calls, every point set, every tile size"
p("C01","Point conservation","After any history of add_points and remove_points calls, points_count equals the total number of soundings in the containers that were added and not removed since, and the soundings stored in the tiles are exactly those soundings, each once (as a multiset per container), for single resolution and variable resolution grids.",H,"a test follows one short history; the claim is about every history, including grid growth and emptying between calls",["bathygrid/bgrid.py:BathyGrid.add_points","bathygrid/bgrid.py:_add_points_to_tiles","bathygrid/bgrid.py:remove_points","bathygrid/grids.py:points_count","bathygrid/tile.py:SRTile.add_points"])
p("C02","Soundings live in the tile that contains them","After any history, every sounding stored in the tile at row r, column c of the grid satisfies min_x <= x < max_x and min_y <= y < max_y of that tile, and the tile's extents are the extents of cell (r, c) of the grid.",H,"boundary coordinates and growth in four directions cannot be enumerated",["bathygrid/bgrid.py:_add_points_to_tiles","bathygrid/utilities.py:bin2d_with_indices","bathygrid/grids.py:_build_grid"])
p("C03","Growing the grid keeps existing tiles in place","When add_points extends the grid, each tile that existed before is found at the same geographic origin afterwards; the soundings that were in it are still in it.",H,"depends on every combination of old and new extents",["bathygrid/grids.py:_build_grid","bathygrid/bgrid.py:_update_tiles"])
p("C04","remove_points removes exactly one container","remove_points(c) deletes exactly the soundings added under the name c from every tile; the soundings of each other container are unchanged, in value and in order.","every reachable grid or tile and every container name","offset bookkeeping depends on the order and sizes of all containers",["bathygrid/bgrid.py:remove_points","bathygrid/tile.py:SRTile.remove_points"])
p("C05","Adding a container name twice is rejected","add_points with a container name that is already in the grid raises ValueError and leaves tiles, container list and metadata as they were.","every reachable grid, every data set","state-wide no-change claim over all reachable states",["bathygrid/bgrid.py:add_points"])
p("C06","Removing an unknown container changes nothing","remove_points(c) for a c that is not in the grid (or was already removed) has no effect and raises nothing.","every reachable grid and every name","claim about all states",["bathygrid/bgrid.py:remove_points","bathygrid/tile.py:SRTile.remove_points"])
p("C07","An emptied grid is empty and reusable","Once every container has been removed the grid reports is_empty, points_count 0 and holds no tile objects, and a following add_points behaves as on a new grid: the extents and tiles are those of a fresh grid given the same data.",H,"the residue of every possible earlier history would have to be tried",["bathygrid/bgrid.py:remove_points","bathygrid/grids.py:is_empty","bathygrid/bgrid.py:_update_base_grid"])
p("C08","remove_points does not fail on a valid grid","remove_points(c) for a container that is in the grid completes without an exception.",H,"the failure needs a particular three-phase history (grow, empty, re-create larger)",["bathygrid/bgrid.py:_remove_tile","bathygrid/bgrid.py:remove_points"])
p("C09","Tile count bookkeeping","After any history number_of_tiles equals the number of tile objects in the grid and every tile object in the grid holds at least one sounding.",H,"counter drift needs long histories",["bathygrid/bgrid.py:_add_points_to_tiles","bathygrid/bgrid.py:_remove_tile"])
p("C10","Extents contain the data and are tile aligned","For a grid with origin (0,0), after any accepted add_points the extents are multiples of tile_size, min <= coordinate < max for every stored sounding, and the tile origins are min, min+tile_size, ... up to max.",H,"exact multiples of the tile size and negative coordinates are the hard cases, over every history",["bathygrid/grids.py:_adjust_extents","bathygrid/grids.py:_build_grid"])
p("C11","Extents only grow when the data needs it","Adding points that already fall inside the grid's extents leaves the extents unchanged.","every reachable grid, every data set inside its extents","holds or fails per history; a single add never shows it",["bathygrid/grids.py:_adjust_extents","bathygrid/grids.py:_update_extents"])
p("C12","Grid origin is honoured","A grid created with a non-zero origin (min_x, min_y) covers the points added to it, with tile edges at origin + k * tile_size.","every origin, tile size and point set","shipped constructors only use origin 0 in tests",["bathygrid/grids.py:_adjust_extents"])
p("C13","Binning is a partition","bin2d_with_indices sends each point that lies within the edges to the one flattened bin row*ncols+col whose half-open rectangle contains it; points beyond the last edge raise IndexError.","every edge array of any length, every point","edge coordinates are measure-zero for random tests",["bathygrid/utilities.py:bin2d_with_indices"])
p("C14","Binning does not depend on dask chunking","bin2d_with_indices gives the same indices for a dask array, whatever its partitioning, as for the equivalent numpy array.","every partition of every array","number of partitions is unbounded",["bathygrid/utilities.py:bin2d_with_indices"])
p("C15","A tile is an ordered map from container to soundings","For any sequence of tile add_points / remove_points, the tile's data array is the concatenation, in insertion order, of the soundings of the containers currently in it and container[name] is the exact slice of that container; re-adding a name replaces its soundings.","every sequence of operations on a tile, every name and point set","offset arithmetic must be right for every history",["bathygrid/tile.py:SRTile.add_points","bathygrid/tile.py:SRTile.remove_points"])
p("C16","Order of adding containers does not matter","Adding the same containers in a different order stores the same soundings per geographic tile and, after gridding, gives the same depth and density in every cell.","every two orders of every list of containers","factorially many orders",["bathygrid/bgrid.py:add_points","bathygrid/algorithms.py:np_grid_mean"])
p("C17","Mean gridding is the cell mean","After grid(algorithm='mean'), the depth of each cell is the mean of the z values of the soundings inside that cell rounded to 3 decimals, vertical/horizontal uncertainty likewise, and the cell is NaN iff no sounding falls in it.","every point set, every resolution, every tie order of argsort","all point distributions over all cells",["bathygrid/algorithms.py:np_grid_mean","bathygrid/tile.py:_run_mean_grid"])
p("C18","Shoalest gridding is the cell minimum","After grid(algorithm='shoalest'), the depth of each cell is the least z of the soundings inside that cell (rounded), NaN iff empty.","every point set, every resolution, every tie order of argsort","as C17",["bathygrid/algorithms.py:np_grid_shoalest"])
p("C19","Shoalest uncertainty belongs to the shoalest sounding","After grid(algorithm='shoalest'), the uncertainty stored in a cell is the uncertainty of a sounding in that cell whose depth is the cell's shoalest depth.","every point set","existing tests use depth-sorted data, which hides the error",["bathygrid/algorithms.py:np_grid_shoalest"])
p("C20","Density counts soundings","After gridding, the density of each cell is the number of soundings in it, the densities of a tile sum to its points_count, and density_count lists the positive densities.","every point set and resolution","as C17",["bathygrid/algorithms.py:np_grid_mean","bathygrid/tile.py:density_count"])
p("C21","Incremental regridding equals gridding from scratch","For any history of add, remove and grid calls on a tile, after tile.grid(alg, res) the layers at res equal those of a new tile that received the same soundings and was gridded once.","every history and resolution, with or without clear_existing","cached cell indices and reused arrays make this history dependent",["bathygrid/tile.py:SRTile.grid","bathygrid/tile.py:SRTile.add_points","bathygrid/tile.py:SRTile.remove_points"])
p("C22","Update regridding equals full regridding","If the grid was gridded at resolution r with algorithm a, then after any add/remove history grid(a, r, regrid_option='update') leaves every tile's layers at r equal to those produced by a full regrid.","every history","depends on the point_count_changed flag being right in every state",["bathygrid/bgrid.py:_grid_regular","bathygrid/tile.py:point_count_changed"])
p("C23","Update regridding leaves unchanged tiles alone","grid(regrid_option='update') does not touch tiles whose points did not change since they were last gridded.","every reachable grid","needs a changed tile before an unchanged one that has other-resolution data",["bathygrid/bgrid.py:_grid_regular","bathygrid/bgrid.py:_grid_parallel"])
p("C24","Parallel gridding equals sequential gridding","For mean and shoalest, grid(use_dask=True) gives the same tiles and the same resolutions as grid(use_dask=False), for any number of workers and any grouping.","every grid, every worker count","number of groups and remainder cases are unbounded",["bathygrid/bgrid.py:_grid_parallel","bathygrid/bgrid.py:_grid_parallel_worker","bathygrid/bgrid.py:_grid_regular"])
p("C25","Parallel CUBE gridding sees the same border soundings as sequential","grid(algorithm='cube') passes the same neighbouring soundings to each tile whether or not use_dask is set.","every grid and resolution","dask tests are not run side by side with sequential ones",["bathygrid/bgrid.py:_grid_parallel","bathygrid/bgrid.py:_grid_regular","bathygrid/bgrid.py:get_tile_neighbor_points"])
p("C26","Gridding is idempotent","Calling grid twice with the same arguments and no point changes in between gives the same layers and resolutions as calling it once.","every reachable grid","state reuse between runs",["bathygrid/tile.py:SRTile.grid","bathygrid/bgrid.py:grid"])
p("C27","Gridding does not depend on the order of soundings","Permuting the soundings of a tile changes no depth and no density of the mean and shoalest grids.","every permutation of every point set","factorially many permutations",["bathygrid/algorithms.py:np_grid_mean","bathygrid/algorithms.py:np_grid_shoalest"])
p("C28","Reported resolutions","grid returns (and stores in resolutions) a strictly increasing list that contains exactly the resolutions used for the tiles gridded or skipped in that call.","every grid, any number of tiles","all combinations of tile resolutions",["bathygrid/bgrid.py:_grid_regular","bathygrid/bgrid.py:grid"])
p("C29","Changing algorithm needs clear_existing","grid with an algorithm different from the one used before and clear_existing=False raises ValueError and changes nothing; with clear_existing=True every tile ends up with only layers of the new algorithm at the new resolution.","every reachable grid","claim about all states",["bathygrid/bgrid.py:grid","bathygrid/tile.py:clear_grid"])
p("C30","Depth lookup is monotone","The automatic (depth) resolution is one of the table values clipped to the tile size, and a deeper mean depth never gets a finer resolution.","every mean depth","continuum of depths",["bathygrid/tile.py:_calculate_resolution_lookup","bathygrid/bgrid.py:_calculate_resolution_lookup","bathygrid/grid_variables.py:depth_resolution_lookup"])
p("C31","Density based resolution is valid","resolution_by_density returns a table resolution or the tile size, never coarser than the tile.","every point set","all densities",["bathygrid/tile.py:resolution_by_density"])
p("C32","After grid() every stored layer reflects the current soundings","After a grid call that includes a tile, each layer held by that tile (at any resolution) is what gridding the tile's current soundings gives.","every history","needs gridding at two resolutions around a point change",["bathygrid/tile.py:SRTile.grid"])
p("C33","Power of two test","is_power_of_two is True for every 2^k (k any integer, positive or negative), is exact on integers, and on other numbers is True only within 1e-5 of a power of two.","every rational number","unbounded exponents and near misses",["bathygrid/utilities.py:is_power_of_two"])
p("C34","Mosaic places every tile cell at its geographic place","get_layers_by_name returns an array in which the value at (i, j) is the value of the tile cell whose lower-left corner is (min_x + j*res, min_y + i*res), and nodata where there is no tile or no sounding.","every grid and resolution","all tile arrangements",["bathygrid/bgrid.py:get_layers_by_name","bathygrid/bgrid.py:get_tile_data","bathygrid/bgrid.py:_build_layer_grid"])
p("C35","Each requested layer is returned in its own slot","get_layers_by_name([l1, ..., lk]) returns a list whose i-th entry only holds values of layer li.","every grid and layer list","needs a tile lacking one of the layers",["bathygrid/bgrid.py:get_layers_by_name"])
p("C36","Trimming keeps exactly the bounding box","get_layers_trimmed returns the sub-array between the first and last row and column that hold a value: no value is lost, and the first/last row and column of the result each hold a value.","every layer array with at least one value","all shapes of data",["bathygrid/bgrid.py:get_layers_trimmed"])
p("C37","Point query returns the value of the containing cell","layer_values_at_xy returns for each location the value of the finest-resolution populated cell that contains it, else the nodata value.","every grid and every location","locations in the outermost row/column are needed",["bathygrid/bgrid.py:layer_values_at_xy","bathygrid/bgrid.py:return_surf_xyz"])
p("C38","Sign convention","Depth layers are negated on output exactly when the requested convention (z_positive_up) differs from the stored one (positive_up of the vertical reference); other layers are never negated.","every grid, layer and cell","all combinations over all values",["bathygrid/bgrid.py:get_tile_data","bathygrid/tile.py:get_layers_by_name"])
p("C39","Neighbour soundings (single resolution)","get_tile_neighbor_points returns exactly the soundings of the four edge-adjacent tiles that lie within the buffer of the shared border (None if there are none), including at the edges of the grid.","every grid, tile and buffer","all adjacency situations",["bathygrid/bgrid.py:get_tile_neighbors","bathygrid/bgrid.py:get_tile_neighbor_points"])
p("C40","Neighbour soundings (variable resolution)","As C39 for variable resolution grids: the call succeeds and returns the soundings within the buffer of the shared border of the neighbouring grid.","every variable resolution grid","needs sparse neighbour grids",["bathygrid/bgrid.py:get_tile_neighbor_points"])
p("C41","Export chunks partition the tiles","get_chunks_of_tiles visits each populated tile in exactly one chunk.","every tile arrangement and chunk size","all shapes and sparsity patterns",["bathygrid/bgrid.py:_split_to_approx_shape","bathygrid/bgrid.py:_tile_chunk_indices"])
p("C42","Export chunks respect the maximum dimension","No chunk is wider or taller than max(maximum chunk dimension, tile size).","every tile arrangement and chunk size","needs elongated grids",["bathygrid/bgrid.py:_split_to_approx_shape"])
p("C43","Exported raster is correctly georeferenced","In an exported chunk, pixel (i, j) of the raster written with geotransform (x0, res, 0, y0, 0, -res) holds the value of the cell whose upper-left corner is (x0 + j*res, y0 - i*res).","every chunk of every grid","orientation flips compose over all shapes",["bathygrid/bgrid.py:_finalize_chunk","bathygrid/bgrid.py:get_chunks_of_tiles","bathygrid/utilities.py:gdal_raster_create","bathygrid/grids.py:get_geotransform"])
p("C44","Container query grids only that container","get_layers_by_name(container) on a gridded tile returns the grid made of only that container's soundings, and leaves the main layers unchanged.","every tile state and container","all container layouts",["bathygrid/tile.py:get_layers_by_name","bathygrid/tile.py:_grid_algorithm_initialize"])
p("C45","Cell count and coverage area","After gridding a tile, cell_count at that resolution is the number of cells that contain a sounding and the coverage area is that count times the cell area.","every point set","all distributions",["bathygrid/tile.py:cell_count","bathygrid/tile.py:coverage_area_square_meters"])
p("C46","CSV export rows","The rows of the exported csv are exactly the cells of the trimmed layer, each once, with the coordinates of its centre and the values of all layers there, sorted by x; one table is written per resolution.","every gridded surface","all shapes",["bathygrid/bgrid.py:_export_csv","bathygrid/bgrid.py:return_surf_xyz"])
p("C47","One coordinate system","After any history of accepted adds, all containers that were added with a coordinate system used the same one, and it is the one reported.","every history","all histories",["bathygrid/bgrid.py:_update_metadata"])
p("C48","One vertical reference","All containers in a grid share the vertical reference reported by the grid (or all are MLLW based).","every history","all histories including missing references",["bathygrid/bgrid.py:_update_metadata"])
p("C49","Time span covers all data","min_time / max_time reported by the grid are the least min_time and greatest max_time ever supplied to add_points.","every history","all histories",["bathygrid/bgrid.py:_update_metadata"])
p("C50","A rejected add_points leaves the grid unchanged","If add_points raises because of a coordinate system or vertical reference mismatch, the grid (tiles, containers, reported metadata) is as before the call.","every reachable grid and argument combination","all combinations of metadata state and arguments",["bathygrid/bgrid.py:_update_metadata","bathygrid/bgrid.py:add_points"])
p("C51","mean_depth is the mean depth of the grid","After any history mean_depth is the mean z over all soundings in the grid.","every history","single-container tests cannot tell",["bathygrid/bgrid.py:_update_mean_depth"])
p("C52","Time strings round trip","formatted_string_to_utc_seconds(utc_seconds_to_formatted_string(t)) = t for every whole second t from 1970 to the end of year 9999.","every second","250 billion values, leap years",["bathygrid/utilities.py:utc_seconds_to_formatted_string","bathygrid/utilities.py:formatted_string_to_utc_seconds"])
p("C53","Unique containers","unique_container_entries lists each prefix before '__' once, in first-seen order, and every container is represented.","every container list","all name lists",["bathygrid/grids.py:unique_container_entries"])
p("C54","Save then load restores the grid","load_grid after save returns a grid with the same tiles (soundings, container slices, layers, cell indices), extents and metadata.","every reachable grid","all grids",["bathygrid/backends.py:BaseStorage.save","bathygrid/backends.py:BaseStorage.load"])
p("C55","Continuously written grid can be reloaded","With an output folder set, after any add_points / remove_points / grid call the folder contents load to the in-memory grid.","every history","reload after each kind of call in every state",["bathygrid/backends.py:_save_grid","bathygrid/bgrid.py:_add_points_to_tiles","bathygrid/bgrid.py:remove_points"])
p("C56","Numpy and zarr backends agree","The numpy and zarr backends reload the same array contents for every array, including empty ones.","every array","all arrays",["bathygrid/backends.py:NumpyGrid._save_array","bathygrid/backends.py:ZarrGrid._save_array"])
p("C57","A crash during add_points does not lose earlier soundings","If the process stops at any point during add_points on a disk backed grid, the soundings that were on disk before the call are still loadable.","every crash point, every grid","crash points are not reachable from tests",["bathygrid/backends.py:_save_tile","bathygrid/backends.py:_save_tile_data","bathygrid/backends.py:NumpyGrid._save_array"])
p("C58","A crash during remove_points between tile writes is recoverable","If the process stops between tile writes of remove_points(c), reloading and calling remove_points(c) again gives the same result as an uninterrupted removal.","every crash point between tile writes","as C57",["bathygrid/bgrid.py:remove_points","bathygrid/backends.py:_save_tile"])
p("C59","Removed variable resolution tiles stay removed on disk","After remove_points empties a tile of a disk backed variable resolution grid, reloading gives a grid without that tile.","every history","needs removal + reload of VR grids",["bathygrid/bgrid.py:remove_points","bathygrid/backends.py:BaseStorage.load","bathygrid/backends.py:BaseStorage.save"])
p("C60","Load path decision","load_grid accepts a folder iff it contains exactly one known grid root folder and returns the grid class for it; is_bathygrid is True iff it contains at least one.","every folder listing","all listings",["bathygrid/convenience.py:_validate_load_path","bathygrid/convenience.py:is_bathygrid","bathygrid/convenience.py:load_grid"])
p("C61","Saving never overwrites an existing grid folder","create_folder returns a folder that was absent or empty.","every folder state and clock value","all file system states",["bathygrid/utilities.py:create_folder"])
p("C62","Retrying removal terminates","remove_with_permissionserror performs at most retries+1 deletions, succeeds if any of the first retries attempts succeeds, and raises PermissionError only if all fail; it waits after each failed attempt but the last.","every failure pattern","all failure patterns",["bathygrid/utilities.py:remove_with_permissionserror"])
p("C63","Backscatter grids carry an intensity layer","A grid created with is_backscatter=True stores its gridded value under 'intensity'.","both grid types","covers only the SR type in tests",["bathygrid/maingrid.py:VRGridTile._build_tile","bathygrid/tile.py:depth_key"])
p("C64","Layers of a gridded grid can be retrieved","After grid() returned, get_layers_by_name for the layers and resolutions that were gridded returns without raising.","every grid, algorithm and resolution","needs resolutions larger than the tiles and partly gridded grids",["bathygrid/bgrid.py:get_layers_by_name","bathygrid/bgrid.py:no_grid","bathygrid/bgrid.py:_build_layer_grid"])
p("C65","Exported cells without data hold the nodata value","In every array that get_chunks_of_tiles yields, the cells without a stored value hold the nodata value asked for (an integer for the count layers).","every grid, list of layers and nodata value","needs particular orders of layers",["bathygrid/bgrid.py:_finalize_chunk"])
p("C66","The yielded dimension is the dimension of the chunk","The second item that get_chunks_of_tiles yields is the larger one of width and height of the chunk in metres.","every chunk of every grid","needs chunks of one and of several tiles",["bathygrid/bgrid.py:get_chunks_of_tiles"])
p("C67","Automatic resolution of a whole grid","grid() without a resolution uses for a single resolution grid one resolution for all tiles and reports it: in density mode the coarsest of the resolutions the tiles would choose for themselves, in depth mode the table entry of the reported mean depth (below 20480 m), at most the tile size; a variable resolution grid grids every tile at the resolution that tile chooses for itself.","every reachable grid, every call that visits all tiles, sequential or with workers","needs tiles that disagree, in every arrangement",["bathygrid/bgrid.py:resolution_by_density","bathygrid/bgrid.py:_calculate_resolution_lookup","bathygrid/bgrid.py:grid"])
p("C68","Exported elevations are positive up","With z_positive_up the column elevation of an exported csv holds each stored depth with positive up convention, whichever convention it is stored with.","every gridded surface, every depth","depends on vertical reference and mean depth together",["bathygrid/bgrid.py:_export_csv","bathygrid/bgrid.py:return_surf_xyz","bathygrid/bgrid.py:positive_up"])
p("C69","An output folder does not change the result","add_points, remove_points and grid called on a grid with an output folder do to the grid in memory what they do without one, and raise in the same cases, with the same error.","every history of a grid with an output folder, both backends and grid types","needs the same history run twice in every state",["bathygrid/bgrid.py:_add_points_to_tiles","bathygrid/bgrid.py:remove_points","bathygrid/bgrid.py:_grid_regular","bathygrid/backends.py:_save_tile"])
p("C70","CUBE is run on the soundings of the tile and of its surroundings","grid(algorithm='cube') on a single resolution grid calls the CUBE package for every tile it visits with exactly the soundings of that tile, the soundings of the four neighbouring tiles that lie within the strip along its edges, and the border soundings given with the call, with the settings of the call (defaults for those not given); the depth, uncertainty, ratio and hypothesis count layers show the answer with north up, rounded, and empty where CUBE has no depth.","every reachable grid, every call, every behaviour of the CUBE package","all arrangements of tiles and soundings; tests need the package installed",["bathygrid/tile.py:_run_cube_grid","bathygrid/algorithms.py:nb_cube","bathygrid/bgrid.py:_grid_regular","bathygrid/bgrid.py:_grid_parallel","bathygrid/bgrid.py:get_tile_neighbor_points"])
p("C71","The densities of a whole grid count every sounding once","After grid() returned, density_count lists one positive number for each cell of the grid that holds soundings, the number of soundings in it, so the numbers add up to the number of soundings in the grid; density_per_square_meter lists the same numbers divided by the cell area.","every reachable grid, every gridding call, both grid types","all arrangements of soundings over tiles and cells, all earlier griddings",["bathygrid/bgrid.py:density_count","bathygrid/bgrid.py:density_per_square_meter","bathygrid/tile.py:density_count","bathygrid/tile.py:density_per_square_meter"])
p("C72","Coverage area and cell count of a whole grid","coverage_area_square_meters is the number of cells that hold soundings times the cell area, to the three decimals that are kept; coverage_area_square_nm is that area in square nautical miles (1852 m); cell_count is the number of those cells.","every reachable grid gridded at one resolution, both grid types","rounding adds up over the tiles",["bathygrid/bgrid.py:coverage_area_square_meters","bathygrid/bgrid.py:coverage_area_square_nm","bathygrid/bgrid.py:cell_count","bathygrid/tile.py:coverage_area_square_meters"])
p("C73","Density and depth are paired cell by cell","density_count_vs_depth and density_per_square_meter_vs_depth return, for every cell that holds soundings, the number (per square metre) of these soundings together with the gridded value of the same cell.","every reachable grid, both grid types, depth and backscatter","all arrangements of soundings",["bathygrid/bgrid.py:density_count_vs_depth","bathygrid/bgrid.py:density_per_square_meter_vs_depth","bathygrid/tile.py:density_count_vs_depth"])
p("C74","return_layer_values returns each populated cell once","After grid(clear_existing=True) with 'mean' or 'shoalest' at one resolution, return_layer_values of the gridded layer returns exactly one value for each cell that holds soundings, the mean or least z of these.","every reachable grid, both grid types","all arrangements of soundings",["bathygrid/bgrid.py:return_layer_values","bathygrid/tile.py:return_layer_values"])
p("C75","Tile by tile generator","get_tiles_by_resolution yields every populated tile once with its layers, its upper left corner, the number of cells along its side and the column and row of its first cell, in this order, such that the arrays fit the geotransform.","every grid, resolution and list of layers","all arrangements of tiles",["bathygrid/bgrid.py:get_tiles_by_resolution","bathygrid/bgrid.py:get_tile_data"])
p("C76","Exported rasters","After grid(), the geotiff and BAG exports write, for each resolution, files numbered from 1, whose bands are named after what they hold (Elevation when positive up, Depth otherwise, the stored uncertainty; Intensity for backscatter) and show every stored cell in exactly one file at its place with that sign, 1000000 elsewhere; no file is without data and the grid is unchanged.","every reachable grid, both grid types, both formats, every maximum dimension","orientation, sign, naming and splitting combine over all grids; tests need GDAL",["bathygrid/bgrid.py:_export_geotiff","bathygrid/bgrid.py:_export_bag","bathygrid/bgrid.py:get_chunks_of_tiles","bathygrid/bgrid.py:layer_names","bathygrid/utilities.py:gdal_raster_create"])
p("C77","Recorded resolutions","The list of resolutions a grid has recorded has no duplicates, and its entries, like the resolutions its subgrids and tiles have layers at, are positive and powers of two up to the tolerance of the code's test.","every reachable grid, also after grid() calls that raised half way, both grid types","all orders of calls, including failed ones",["bathygrid/bgrid.py:grid","bathygrid/bgrid.py:_grid_single","bathygrid/bgrid.py:_grid_parallel","bathygrid/tile.py:grid","bathygrid/utilities.py:is_power_of_two"])
p("C78","Names of exported files","export() recognises its formats in upper and lower case and refuses others, and BAG for backscatter, without writing; the files of one export have different names with the extension of the format, in the folder of the output path; an export never overwrites the files of an earlier export.","every reachable grid, output path, format, maximum dimension and set of existing files","all paths (dots, slashes, no extension) and all combinations of resolutions and numbers",["bathygrid/bgrid.py:export","bathygrid/bgrid.py:_export_csv","bathygrid/bgrid.py:_export_geotiff","bathygrid/bgrid.py:_export_bag"])
p("C79","The older density search","resolution_by_density_old ends and returns a resolution of the depth table that is good by the documented rule (95% of the cells with soundings have between 5 and 20), or the first or last of the table, or one next to a change from too fine to too coarse; it is never larger than the tile.","every reachable tile, every starting resolution","a search that goes both ways could alternate for ever on some distribution of points",["bathygrid/tile.py:resolution_by_density_old","bathygrid/tile.py:_assess_resolution","bathygrid/tile.py:_calculate_resolution_lookup"])
p("C80","Sources reported","return_attribution has one entry per container of the grid, with the time and the files given when that container was added.","every sequence of add, remove, grid and query calls with arbitrary container names","all sets of container names, including names that differ only by a suffix",["bathygrid/bgrid.py:return_attribution","bathygrid/bgrid.py:_update_metadata"])
p("C81","Outlines of the tiles","get_tile_boundaries returns a line that goes along the outline of every place for a tile and nowhere else, without oblique pieces.","every reachable grid with points, both grid types","all numbers of rows and columns, every origin and tile size",["bathygrid/bgrid.py:get_tile_boundaries"])
p("C82","Times in the metadata of a BAG","_set_temporal_extents puts the given times into the first begin and end position of the document, making them (and the elements above) if they are missing, in one time period; nothing else in the document changes; the last call decides.","every xml document, all times","all documents, with some, all or none of the elements present",["bathygrid/bgrid.py:_set_temporal_extents"])
p("C83","Data given to add_points","Data without 'x', 'y' or 'z', or with variables of different lengths, is refused and leaves the grid as it was; other data, array or Dataset, is added as the list of its rows, where a single value in a Dataset counts for every row.","every grid and every input: array without names, structured array, Dataset with variables of any shape, other objects","all combinations of missing names and kinds of input",["bathygrid/bgrid.py:add_points","bathygrid/bgrid.py:_validate_input_data","bathygrid/bgrid.py:_convert_dataset"])
p("C84","What a grid says of itself","has_vertical_uncertainty and has_horizontal_uncertainty are True exactly if the points have these fields, has_tiles exactly if there are tiles, no_grid exactly if no tile has layers.","every reachable grid, both grid types","all orders of adding, removing and gridding",["bathygrid/bgrid.py:no_grid","bathygrid/bgrid.py:has_vertical_uncertainty","bathygrid/bgrid.py:has_horizontal_uncertainty","bathygrid/bgrid.py:has_tiles"])
p("C85","The layers have numbers in the same cells","In a grid made by mean or shoalest, at every resolution, a cell has a number in the main layer exactly if it has a vertical and a horizontal uncertainty (when the points have them), and exactly if its density is positive.","every reachable grid whose last algorithms are mean and shoalest, both grid types, every resolution and cell","all orders of adding, removing, gridding and reading, with layers that are out of date",["bathygrid/tile.py:grid","bathygrid/algorithms.py:np_grid_mean","bathygrid/algorithms.py:np_grid_shoalest"])
p("C86","Smallest and largest values in a BAG","The attributes for the smallest and the largest elevation and uncertainty of an exported BAG are those of the stored cells that the file shows; cells without data do not count, and attributes of a missing band are left alone.","every reachable grid after gridding by any algorithm, both grid types, every exported BAG file and every set of attributes it had before","all ways in which tiles and gaps are laid out in a file",["bathygrid/bgrid.py:_correct_for_layer_metadata","bathygrid/bgrid.py:_export_bag"])
p("C87","Saving a grid and going on with it","save(folder) makes the folder the output folder; whatever is done before and after it with add_points, remove_points, grid, queries and save to further new folders, loading the output folder returns the grid in memory, and no call writes to another folder than the output folder; save() without a folder writes to the output folder and raises if there is none.","every order of these calls, both grid types and backends; for the last part every state","all orders of calls",["bathygrid/backends.py:BaseStorage.save","bathygrid/backends.py:BaseStorage.load","bathygrid/bgrid.py:OperationalGrid.save","bathygrid/bgrid.py:OperationalGrid.load"])
p("C88","Options of an exported BAG","Every creation option of an exported BAG is the text given for it or its default, none is given twice, and a vertical reference whose axis points down is turned into one that points up, as the elevations of a BAG do.","all texts for all arguments","all texts",["bathygrid/bgrid.py:OperationalGrid._export_bag"])
p("C89","Registration files of exported BAGs","Each BAG of an export has a registration file next to it that holds the horizontal reference; no two files of an export have the same name.","all reachable grids of both types, all output paths, all texts","all paths and grids",["bathygrid/bgrid.py:_generate_caris_rxl","bathygrid/bgrid.py:OperationalGrid._export_bag"])
p("C90","Vertical reference of a BAG","return_bag_vertical_wkt returns the first vertical reference of a BAG with two references and raises ValueError for another number; writing the times does not change what it finds.","all metadata documents and all answers of the reference library","all documents",["bathygrid/utilities.py:return_bag_vertical_wkt","bathygrid/bgrid.py:_set_temporal_extents"])
p("C91","Folder of a new grid","create_grid gives a new grid a folder of its own that was absent or empty, made next to what exists; if it raises, nothing is left behind.","every state of the file system, all options, all times of the call","all file system states and options",["bathygrid/convenience.py:create_grid","bathygrid/convenience.py:_validate_create_options","bathygrid/utilities.py:create_folder"])
p("C92","Locations of a query","layer_values_at_xy answers numbers, lists, tuples and arrays of locations alike: each location gets the value it would get alone; arguments that do not fit raise ValueError and change nothing.","every grid, layer, resolution, value for no data and all location arguments","all locations, lengths and kinds of arguments",["bathygrid/bgrid.py:layer_values_at_xy","bathygrid/bgrid.py:_validate_layer_query"])
p("C93","Density against depth","The plots of density against depth draw, for each of the equal bands of depth that holds cells, the upper end of the band and the mean density of just the cells in it; each cell counts in exactly one band; requests that cannot be drawn are refused.","every list of cells, every argsort, every number of bins; every gridded grid","all grids, depths, densities and numbers of bins",["bathygrid/bgrid.py:plot_density_vs_depth","bathygrid/bgrid.py:plot_density_per_square_meter_vs_depth"])
p("C94","Histograms","The histograms of depths (intensities), vertical, horizontal and total uncertainties are drawn from one value for each square of the lattice that holds soundings, exactly if the layer was gridded; otherwise a line is printed that names the missing layer, and nothing raises.","every history of a grid, every gridding call","all grids, algorithms, fields of the soundings and resolutions",["bathygrid/bgrid.py:plot_z_histogram","bathygrid/bgrid.py:plot_vertical_uncertainty_histogram","bathygrid/bgrid.py:plot_total_uncertainty_histogram","bathygrid/bgrid.py:plot_horizontal_uncertainty_histogram"])
p("C95","Coloured meshes","plot draws for each resolution (the one asked for, or all) a mesh with exactly the cells of the layer, each at its place with its value and with its four corners; before gridding it raises ValueError.","every history of a grid, every layer, every resolution","all grids and resolutions, cells at the borders of the grid",["bathygrid/bgrid.py:plot","bathygrid/bgrid.py:return_surf_xyz"])
p("C96","Progress bar","The progress bar of add_points, remove_points, grid and save shows the part that is done: length and filling, percentage to a tenth, never going back, full and with one line break exactly at the end; the loops never divide by zero.","every loop length, every round, every grid","long loops, all grids",["bathygrid/utilities.py:print_progress_bar","bathygrid/bgrid.py:_add_points_to_tiles","bathygrid/bgrid.py:remove_points","bathygrid/bgrid.py:_grid_regular"])
p("C97","Saving to a folder that has a grid","save(folder) to a folder that already holds a grid, its own output folder or that of another grid of the same class, replaces it: loading the folder afterwards, also after further add_points, remove_points and grid, returns the grid in memory, and the grid in memory does not depend on what was in the folder.","every reachable grid, every content of the folder, both grid types and backends","needs folders with other grids of every shape and calls after saving",["bathygrid/backends.py:BaseStorage.save","bathygrid/backends.py:BaseStorage._save_tile","bathygrid/backends.py:BaseStorage._load_tile","bathygrid/backends.py:NumpyGrid._load_tile_data"])
p("C98","Query without a resolution","get_layers_by_name, get_layers_trimmed, return_surf_xyz and get_tiles_by_resolution without a resolution (None or 0) answer as for the resolution of the grid if it has one, and raise ValueError and change nothing if it has several: they never pick one of several.","every state of a grid, subgrid or tile; every reachable grid after gridding","needs grids gridded again and again at other resolutions",["bathygrid/bgrid.py:BathyGrid.get_layers_by_name","bathygrid/bgrid.py:BathyGrid.get_layers_trimmed","bathygrid/bgrid.py:BathyGrid.return_surf_xyz","bathygrid/bgrid.py:BathyGrid.get_tiles_by_resolution","bathygrid/tile.py:Tile.get_layers_by_name"])
p("C99","Zarr classes","The objects of SRGridZarr and VRGridTileZarr behave as those of SRGrid and VRGridTile: after any sequence of calls the same tiles, layers, resolutions and answers, and the same calls are refused.","every sequence of calls on a grid of any of the four classes; every state for single calls","the suite has one test per class; the class decides by the name of the root object in the middle of grid()",["bathygrid/maingrid.py:SRGridZarr","bathygrid/maingrid.py:VRGridTileZarr","bathygrid/bgrid.py:BathyGrid.grid","bathygrid/bgrid.py:BathyGrid._grid_regular","bathygrid/bgrid.py:BathyGrid._grid_parallel"])
p("C100","Surface of the soundings","After any sequence of additions, removals and griddings, a successful grid call over all tiles by mean or shoalest makes get_layers_by_name return an array over the extents of the grid in which every cell shows the mean (shoalest, number) of exactly those soundings, of all containers present and none removed, that lie in the square of this cell, the nodata value where there are none, and in which no sounding is left out.","every history, algorithm mean or shoalest, resolution dividing the tile size (and, for variable resolution, tile sizes dividing the size of the large tiles), every layer with a rule, nodata value and z convention","the suite compares single cells of tiny grids; here every cell of every grid is related to the soundings given to add_points",["bathygrid/bgrid.py:BathyGrid.add_points","bathygrid/bgrid.py:BathyGrid.remove_points","bathygrid/bgrid.py:BathyGrid.grid","bathygrid/bgrid.py:BathyGrid.get_layers_by_name","bathygrid/tile.py:SRTile.resolve_grid"])
p("C101","Whole sessions","create_grid with an accepted type, backend and sizes, add_points for the containers of one survey (different names, one coordinate system and vertical reference, sensible times, no empty array), grid by mean or shoalest over all tiles at an accepted resolution that divides the tile size, then get_layers_by_name: none of these calls raises, and the array is the surface of all soundings of all containers (C100).","every number of containers, every set of soundings, both backends, both grid types, every worker count, every layer with a rule, nodata value and z convention","a session chains five public calls; the suite runs a handful of fixed sessions",["bathygrid/convenience.py:create_grid","bathygrid/maingrid.py:SRGrid","bathygrid/maingrid.py:VRGridTile","bathygrid/bgrid.py:BathyGrid.add_points","bathygrid/bgrid.py:BathyGrid.grid","bathygrid/bgrid.py:BathyGrid.get_layers_by_name"])
p("C102","The surface survives queries, saving and loading","After grid by mean or shoalest over all tiles, any number of queries, save followed by load, gridding with an output folder, and loading from that folder: get_layers_by_name returns the surface of the soundings (C100) each time.","every reachable grid, every set of soundings, both backends, every sequence of queries, every earlier content of the folder (single resolution), every worker count","needs the values of every cell after several rounds of writing and reading, for all grids; the suite compares a few cells of fixed grids",["bathygrid/bgrid.py:BathyGrid.save","bathygrid/bgrid.py:BathyGrid.load","bathygrid/bgrid.py:BathyGrid.get_layers_by_name","bathygrid/bgrid.py:BathyGrid.grid","bathygrid/backends.py:BaseStorage._save_tile","bathygrid/backends.py:BaseStorage._load_tile"])
p("C103","Names on disk","The names made for the arrays of a tile (cells_{resolution}_{layer}, cell_edges_x_{resolution}, cell_{resolution}_indices, data, metadata.json) never coincide, the resolutions read back out of the names are those that were written, the names removed before writing are exactly those of the grid arrays; the folder names of tiles ({x}_{y}) differ for different tiles, differ from the other files of the root folder, and stay the same when the grid grows. So writing and reading by name is the same as by resolution, layer and origin.","every tile, every set of resolutions and layers, every former contents of the folder, every order of os.listdir, every reachable grid","the suite writes a few resolutions; a collision or a misread name would need particular numbers and particular leftovers in the folder",["bathygrid/backends.py:BaseStorage._get_tile_folder","bathygrid/backends.py:BaseStorage._get_new_tile_name","bathygrid/backends.py:NumpyGrid._save_tile_data","bathygrid/backends.py:NumpyGrid._load_tile_data","bathygrid/backends.py:ZarrGrid._save_tile_data","bathygrid/backends.py:ZarrGrid._load_tile_data","bathygrid/bgrid.py:BathyGrid._add_points_to_tiles"])
p("C104","Element of a flattened array","my_unravel_index(index, shape) returns the one tuple of indices within the shape whose place in the flattened array is the index, for every index from 0 to the number of elements; any other index is not refused and gives a tuple whose first index, and only that, is outside the shape; an array whose later dimensions are empty raises ZeroDivisionError; for two dimensions it agrees with numpy.unravel_index wherever that returns.","every index, every shape of any number of dimensions","the suite does not call it; sizes and indices are unbounded",["bathygrid/algorithms.py:my_unravel_index"])
p("C105","Arrays that are read when they are needed","Loaded arrays are links to files, the files are removed before they are written again. Through any sequence of building, adding, removing, gridding in the process or in a worker, queries, saving to the own or another folder, and loading, for both backends, the files are at every step those of a tile whose arrays were read at once, and every array of the tile, read at any time, has the value it has there; loading a tile to memory always returns and makes it independent of the files; without that step the soundings would be lost.","every sequence of calls on a tile with a folder, every part of a tile that is saved, every former contents of the folder","the suite saves small grids once or twice; a link read after its file was replaced would show only for particular orders of calls",["bathygrid/backends.py:BaseStorage._save_tile","bathygrid/backends.py:BaseStorage._load_tile","bathygrid/backends.py:NumpyGrid._load_tile_data_to_memory","bathygrid/backends.py:NumpyGrid._save_array","bathygrid/backends.py:NumpyGrid._load_array","bathygrid/backends.py:ZarrGrid._save_array","bathygrid/backends.py:ZarrGrid._load_array"])
p("C106","Tiles and cells in floating point arithmetic","With every sum, difference, product and quotient of coordinates rounded, by any rounding that leaves the numbers of the format alone (any rounding mode of IEEE 754), adding points to a grid with power of two tile sizes leaves exactly the grid, or raises exactly the exception, of exact arithmetic, in whole sessions of any length as long as the coordinates stay below about 2^(p-1) tile sizes; the cell edges, the counts per cell and the coordinates of return_surf_xyz are those of exact arithmetic for power of two resolutions. For a resolution that is only accepted as a power of two by the tolerance of is_power_of_two this is false.","every format (precision, exponent range), every rounding function, every reachable grid, every sounding of the format","the suite runs on one platform with a few positions; that no position of a sounding ever meets a rounded edge is a statement about all positions",["bathygrid/grids.py:BaseGrid._adjust_extents","bathygrid/grids.py:BaseGrid._build_grid","bathygrid/bgrid.py:BathyGrid.add_points","bathygrid/tile.py:SRTile.new_grid","bathygrid/bgrid.py:BathyGrid.return_surf_xyz"])
p("C107","Means in floating point arithmetic","With every sum and quotient rounded, the layers rounded to another (single precision) format, and the soundings of a cell added up in any order and with any bracketing, gridding a tile by mean succeeds, a cell is NaN exactly if it is empty, the density is exact, and a depth or uncertainty has three decimals and is within a stated bound of the exact mean (sums in double and layers in single precision, up to 2^24 soundings and 12000 m: 0.51 mm and 0.2 mm for every 1000 m of depth); a shoalest depth is the least depth rounded to three decimals, whatever the order of the soundings. The depths of mean do not depend on the order of the soundings, and a depth with three decimals is kept.","every rounding function that meets the standard model of floating point arithmetic, every order of summation, every reachable tile","equality of means is checked in the suite on a few soundings with one summation order",["bathygrid/algorithms.py:np_grid_mean","bathygrid/algorithms.py:np_grid_shoalest","bathygrid/tile.py:SRTile.grid","bathygrid/tile.py:SRTile._run_mean_grid","bathygrid/tile.py:SRTile._run_shoalest_grid"])
p("C108","Surfaces in floating point arithmetic","With every sum and quotient of the gridding rounded, the layers rounded to another (single precision) format, and the soundings of a cell added up in any order: after any calls, grid of all tiles by mean or shoalest at a given power of two resolution does not fail (unless another algorithm was used before and clear_existing is not set), and then get_layers_by_name returns an array over the extents in which a cell of the depths or uncertainties is NaN exactly if no sounding added and not removed lies in its square, otherwise has three decimals and is within the stated bound of the exact mean (least depth) of just those soundings, and the counts are exact; with sums in double and layers in single precision, up to 2^24 soundings and 12000 m, the bound is 0.51 mm and 0.2 mm for every 1000 m of depth. Queries and writing and reading of tiles do not change that. Single and variable resolution.","every rounding function that meets the standard model of floating point arithmetic, every order of summation, every reachable grid, every layer","the suite compares a few cells of a few grids with numbers that were printed by the same code",["bathygrid/bgrid.py:BathyGrid.grid","bathygrid/bgrid.py:BathyGrid.get_layers_by_name","bathygrid/tile.py:SRTile.grid","bathygrid/algorithms.py:np_grid_mean","bathygrid/algorithms.py:np_grid_shoalest"])
p("C109","Corners in single precision","get_geotransform and get_tile_boundaries convert the corners of tiles and grids to float32, and this does not change them: the geotransforms of every tile, subgrid and grid and all outline points are the exact ones, as long as the coordinates are below 2^24 times the tile size (16777 km for tiles of 1 m).","every rounding function that leaves numbers with 24 binary digits alone, every reachable grid with power of two tile sizes","the suite uses coordinates below 1000",["bathygrid/grids.py:Tile.get_geotransform","bathygrid/bgrid.py:BathyGrid.get_geotransform","bathygrid/bgrid.py:BathyGrid.get_tile_boundaries"])
p("C110","Dask client and groups of tiles","dask_find_or_start_client uses an existing client and starts one only if there is none, at the address asked for, with at most as many workers as cores and at most eight, four unless there is memory for more; silent suppresses its messages. grid(use_dask=True) works through the tiles in groups of as many tiles as there are workers and prints the number of each group and the number of all groups.","every host, address and result of Dask; every reachable grid, every number of workers","machines of every size; the suite runs with one client",["bathygrid/utilities.py:dask_find_or_start_client","bathygrid/bgrid.py:_grid_parallel"])
p("C111","Coordinate systems for GDAL","crs_to_osgeo returns the GDAL reference of the CRS, EPSG code (integer or text), WKT or proj4 text it is given, and raises ValueError for anything else; the reference of an exported raster is that of the EPSG code of the grid.","every argument, whatever pyproj and GDAL know","all texts and codes; the suite does not call it with bad ones",["bathygrid/utilities.py:crs_to_osgeo","bathygrid/utilities.py:pyproj_crs_to_osgeo"])
p("C112","Updates in floating point arithmetic","In floating point arithmetic, an update with mean or shoalest after any additions and removals gives in every tile the same numbers as a full run with the same arguments, bit for bit; an update leaves tiles without new or removed soundings as they are; the surface after an update is within the same distance of the exact values as after a full run.","every rounding and every order of summation that depends on the number of summands only; every history of calls","rounding in all orders of calls; the suite compares one update with literal values",["bathygrid/bgrid.py:grid","bathygrid/algorithms.py:np_grid_mean","bathygrid/algorithms.py:np_grid_shoalest"])
p("C113","Surface after an update","After one full gridding with mean or shoalest and any additions, removals, queries and updates, a further grid call with the same algorithm and resolution, which may leave out unchanged tiles, makes get_layers_by_name return the surface of just the soundings in the grid at that time: every cell is the mean (least depth, count) of the soundings in its square.","every history of calls, every resolution that divides the tile size","all interleavings of additions, removals and updates",["bathygrid/bgrid.py:grid","bathygrid/bgrid.py:get_layers_by_name"])
p("C114","Single resolution grids that choose their resolution","A grid call without a resolution on a single resolution grid is a call with the resolution it chooses: the same tiles, layers and list of resolutions; the resolution is one of the table or the tile size and at most the tile size; get_layers_by_name then returns the surface of just the soundings of the grid at this resolution, also after additions, removals and updates.","every history of calls, both modes, sequential and with Dask","all depths and densities and all histories; the suite grids one set of soundings",["bathygrid/bgrid.py:grid","bathygrid/bgrid.py:_grid_regular","bathygrid/bgrid.py:_grid_parallel","bathygrid/bgrid.py:_calculate_resolution_lookup"])
p("C115","Surfaces of variable resolution grids that choose their resolutions","After grid(clear_existing=True) without a resolution on a variable resolution grid every square of the side of a subtile has one resolution, in the depth mode that of the mean depth of the soundings in the square, and get_layers_by_name at each resolution of the grid returns the surface of just the soundings in the squares with that resolution; together these are all soundings.","every history of calls, both modes, every size of the subtiles that is a power of two from a quarter on","all divisions of the soundings among resolutions; the suite checks the number of tiles and single cells",["bathygrid/bgrid.py:grid","bathygrid/bgrid.py:get_layers_by_name","bathygrid/tile.py:_calculate_resolution_lookup","bathygrid/tile.py:resolution_by_density"])
p("C116","Printed description of a grid","repr of a grid shows the datasets of its containers, each once, its resolutions, kind, times, coordinate system and folder, the mean depth of its soundings, and a box with every sounding in it, the box of return_extents.","every history of calls","all histories; the suite compares one text",["bathygrid/bgrid.py:__repr__","bathygrid/bgrid.py:return_extents","bathygrid/grids.py:unique_container_entries"])
p("C117","Density histograms","The bars of the density histograms have equal width, each counts exactly the cells whose density lies between its edges, and every cell that holds soundings is counted once.","every list of values and number of bins; every history of calls","all histories and numbers of bins; the suite does not look at what is drawn",["bathygrid/bgrid.py:plot_density_histogram","bathygrid/bgrid.py:plot_density_per_square_meter_histogram","bathygrid/bgrid.py:density_count"])
p("C118","Slope layers","The slope layers of a tile and of a grid hold, in each cell, the two slopes of a plane of least square error through the soundings that are now in this cell, and NaN in the cells without soundings; stored slopes are never out of date.","every history of a tile or a grid; after gridding a tile, every sequence of queries and removals","all histories; the suite evaluates the slopes of one fixed set of soundings",["bathygrid/algorithms.py:calculate_slopes","bathygrid/tile.py:_run_slopes","bathygrid/tile.py:get_layer_by_name"])
p("C119","Time strings are dates of the civil calendar","The string written for a second is the date shown by a Gregorian calendar clock started at 1970-01-01T00:00:00 and advanced second by second; a string is read as a second exactly when it is a text for the date the clock shows at that second.","every second of the years 1 to 9999, every string","all seconds and strings; leap years, month ends, one digit fields",["bathygrid/utilities.py:utc_seconds_to_formatted_string","bathygrid/utilities.py:formatted_string_to_utc_seconds"])
p("C120","Surface of one container","After a grid call of all tiles by mean or shoalest at a resolution that divides the tile size, also when later calls only update the changed tiles, asking the grid for a container by name returns, over the grid extents, in every cell the mean or shoalest depth of the soundings added under that name in the cell, whatever the other containers hold, and nodata elsewhere; None only when there are no such soundings and no nodata value.","all sequences of calls, single and variable resolution, all container names, nodata values and signs","unbounded histories, removals and additions under one name, tiles without the container",["bathygrid/bgrid.py:get_layers_by_name","bathygrid/tile.py:get_layer_by_name","bathygrid/tile.py:_run_mean_grid","bathygrid/tile.py:_run_shoalest_grid"])
p("C121","A shoalest surface hides no shoal","A surface gridded with 'shoalest' is nowhere deeper than a surface, gridded with 'mean' or 'shoalest' at the same or a finer resolution, of some of the same soundings: where a cell of the finer surface lies in one of its cells. In particular soundings added later never make it deeper, and a coarser cell size never makes it deeper. Every sounding lies in a cell that shows a depth at most half a millimetre below it.","all pairs of reachable grids (single or variable resolution, all tiles or updates), all resolutions, cells and soundings","relates two executions on unbounded inputs",["bathygrid/algorithms.py:np_grid_shoalest","bathygrid/algorithms.py:np_grid_mean","bathygrid/tile.py:_run_shoalest_grid","bathygrid/bgrid.py:get_layers_by_name"])
p("C122","Reading leaves the grid as it is","However often layers, trimmed layers, surfaces, values at locations, tiles or chunks of tiles are asked for, plots made, and tables or rasters exported, also with calls that raise: every attribute of the grid, the soundings, containers, cell numbers, resolutions and gridded layers of every tile stay the same, and every question about gridded layers and layers of single containers is answered as before. Only slopes and layers of single containers are added.","all grids, all sequences of reading calls with any arguments","any number of calls in any order on unbounded grids; the tiles do change when they are read",["bathygrid/tile.py:get_layers_by_name","bathygrid/bgrid.py:get_layers_by_name","bathygrid/bgrid.py:get_tile_data","bathygrid/bgrid.py:get_chunks_of_tiles","bathygrid/bgrid.py:layer_values_at_xy","bathygrid/bgrid.py:export"])
p("C123","Surfaces at different resolutions agree","Of two surfaces of the same soundings over the same rectangle one has k times larger cells. Its counts are the sums of the counts of the k * k cells each cell consists of; its shoalest depths are the shoalest of theirs, NaN if there are none; its means (depth, intensity, uncertainties) are their means weighted with the counts, up to one millimetre for the rounding of the stored numbers.","all reachable single and variable resolution grids, gridded as a whole or updated, all resolutions that divide the tile size, all k","compares two runs; unbounded soundings, tiles and factors",["bathygrid/tile.py:_run_mean_grid","bathygrid/tile.py:_run_shoalest_grid","bathygrid/algorithms.py:np_grid_mean","bathygrid/algorithms.py:np_grid_shoalest","bathygrid/bgrid.py:get_layers_by_name"])
p("C124","A surface depends on the soundings only","Two grids with the same soundings show the same values at the same places at the same resolution, whatever their class, tile size, extents, containers, order and history; soundings moved by whole cells show the same values at the place they were moved to.","all pairs of reachable grids (single or variable resolution, gridded as a whole or updated), all moves by whole cells","compares two unrelated sessions; unbounded soundings and calls",["bathygrid/tile.py:_run_mean_grid","bathygrid/tile.py:_run_shoalest_grid","bathygrid/algorithms.py:np_grid_mean","bathygrid/algorithms.py:np_grid_shoalest","bathygrid/bgrid.py:get_layers_by_name"])
p("C125","The surface of two surveys together","A grid with the soundings of two surveys shows in each cell the sum of their counts, the shoaler of their shoalest depths, and the mean of their means weighted with the counts (up to one millimetre for the rounding), compared with grids of each survey alone; where one survey has no soundings the values are exactly those of the other. A survey that comes several times shows the same depths and uncertainties as once. Within one grid the shoalest surface is made up of the surfaces of its containers: none of them is shoaler anywhere and everywhere one of them is as shoal.","all triples of reachable grids (single or variable resolution, gridded as a whole or updated), all cells at the same place","compares three unrelated sessions; unbounded soundings and calls",["bathygrid/tile.py:_run_mean_grid","bathygrid/tile.py:_run_shoalest_grid","bathygrid/algorithms.py:np_grid_mean","bathygrid/algorithms.py:np_grid_shoalest","bathygrid/tile.py:get_layers_by_name","bathygrid/bgrid.py:get_layers_by_name"])
p("C126","Surfaces follow the depths of the soundings","The depth of each cell lies between the depths of the shoalest and the deepest sounding in it. A shoalest surface is nowhere deeper than a mean surface of the same soundings. Soundings at the same places with depths that are not shoaler never give a shoaler depth in any cell. Soundings that are all lowered by the same amount give the surface lowered by this amount, up to one millimetre for the rounding, and exactly if the amount is a multiple of two millimetres.","all pairs of reachable grids (single or variable resolution, gridded as a whole or updated), all cells at the same place, all changes of the depths","compares two unrelated sessions; unbounded soundings and calls",["bathygrid/tile.py:_run_mean_grid","bathygrid/tile.py:_run_shoalest_grid","bathygrid/algorithms.py:np_grid_mean","bathygrid/algorithms.py:np_grid_shoalest","bathygrid/tile.py:get_layers_by_name","bathygrid/bgrid.py:get_layers_by_name"])
p("C127","The surface does not depend on the axes and the unit of the map","Soundings with eastings and northings exchanged give the surface with rows and columns exchanged. Soundings and squares enlarged by the same factor show the same numbers. Soundings with east and west exchanged give the surface with the columns in the opposite order, as long as no sounding lies on a line between two columns of squares.","all pairs of reachable grids (single or variable resolution, gridded as a whole or updated) with soundings that correspond in this way, all layers, all cells that correspond","compares two unrelated sessions; unbounded soundings and calls; swapped rows and columns are easily missed on square data",["bathygrid/tile.py:_run_mean_grid","bathygrid/tile.py:_run_shoalest_grid","bathygrid/algorithms.py:np_grid_mean","bathygrid/algorithms.py:np_grid_shoalest","bathygrid/bgrid.py:get_layers_by_name","bathygrid/bgrid.py:return_surf_xyz"])
p("C128","The exported surface is the smallest surface with all soundings","After gridding, return_surf_xyz (without boundaries) and get_layers_trimmed answer. The coordinates are centres of squares side by side, the array has one value for each square, and this value is the mean or the shoalest value of the soundings in the square around the centre. Every sounding lies in one of the squares, and there are soundings in the first and in the last row and column. Soundings that were removed before an update do not enlarge it.","all sessions with a single or variable resolution grid gridded by mean or shoalest as a whole or kept up to date by updates, all layers with a rule of the soundings other than the counts","unbounded soundings and calls; an export that is one row short or shifted by half a cell looks right on a map",["bathygrid/bgrid.py:return_surf_xyz","bathygrid/bgrid.py:get_layers_trimmed","bathygrid/bgrid.py:get_layers_by_name","bathygrid/algorithms.py:np_grid_mean","bathygrid/algorithms.py:np_grid_shoalest"])
p("C129","Exported files show the surface of the soundings","After gridding by mean or shoalest at one resolution, the export writes one csv table: each line has the centre of a square and, for depth, counts and (for mean) uncertainties, the value of the soundings in just this square; each sounding is in the square of just one line, and no line lies beyond the soundings. The exported GeoTIFF and BAG rasters have in each pixel the value of the soundings below it with the sign of the band name, or 1000000 if there are none, and each sounding is below a pixel of just one file. The stored cells and the rasters show the present soundings also after later additions, removals and updates.","all sessions with a single or variable resolution grid, all resolutions that divide the (sub)tiles, all chunk sizes, both kinds of rasters","unbounded soundings, calls and files; needs GDAL and a comparison of every pixel with the raw soundings",["bathygrid/bgrid.py:export","bathygrid/bgrid.py:_export_csv","bathygrid/bgrid.py:_export_geotiff","bathygrid/bgrid.py:_export_bag","bathygrid/bgrid.py:get_chunks_of_tiles","bathygrid/algorithms.py:np_grid_mean","bathygrid/algorithms.py:np_grid_shoalest"])
p("C130","Exported rasters depend on the soundings only","Two grids that hold the same soundings in any order, gridded by the same one of mean and shoalest at the same resolution, export rasters that agree: where both have a pixel at the same place in bands of the same layer (depth, and for mean the uncertainties), the numbers are equal, or opposite if one band is of depths and the other of elevations, and 1000000 in both where there are no soundings; and every sounding is below such a common pixel of both. The grids may differ in tile sizes, single or variable resolution, history (gridded at once, or after later additions, removals and updates), number of Dask workers, chunk size and kind of raster.","all pairs of sessions, all resolutions that divide the (sub)tiles, all chunk sizes, both kinds of rasters","unbounded pairs of histories and files; needs GDAL and a comparison of every pixel of two exports",["bathygrid/bgrid.py:export","bathygrid/bgrid.py:_gdal_preprocessing","bathygrid/bgrid.py:_export_geotiff","bathygrid/bgrid.py:_export_bag","bathygrid/bgrid.py:get_chunks_of_tiles","bathygrid/bgrid.py:grid","bathygrid/algorithms.py:np_grid_mean","bathygrid/algorithms.py:np_grid_shoalest"])
p("C131","Exported tables depend on the soundings only","Two grids that hold the same soundings in any order, gridded by the same one of mean and shoalest at the same resolution with existing layers cleared, export with the same z_positive_up csv tables with lines for the same places, and these lines have the same depths and counts. With mean the tables have the same lines, up to their order. The grids may differ in tile sizes, single or variable resolution, history and number of Dask workers.","all pairs of sessions, all resolutions that divide the (sub)tiles","unbounded pairs of histories; compares every line of two tables",["bathygrid/bgrid.py:export","bathygrid/bgrid.py:_export_csv","bathygrid/bgrid.py:return_surf_xyz","bathygrid/bgrid.py:grid","bathygrid/algorithms.py:np_grid_mean","bathygrid/algorithms.py:np_grid_shoalest"])
p("C132","Chosen resolutions depend on the soundings only","Two grids that hold the same soundings in any order and have (sub)tiles of the same size choose in grid() without a resolution, in the depth mode or the density mode and with existing layers cleared, the same resolutions, whatever containers the soundings came in.","all pairs of sessions, for the depth mode depths below 20480 m","unbounded pairs of histories",["bathygrid/bgrid.py:_calculate_resolution_lookup","bathygrid/bgrid.py:_update_mean_depth","bathygrid/tile.py:_calculate_resolution_lookup","bathygrid/bgrid.py:resolution_by_density","bathygrid/tile.py:resolution_by_density","bathygrid/bgrid.py:grid"])
p("C133","Surfaces at resolutions chosen by depth depend on the soundings only","Two variable resolution grids that hold the same soundings in any order, with subtiles of the same size and vertical references of the same sense, gridded by the same one of mean and shoalest without a resolution in the depth mode: both answer for each layer at each of the resolutions, and where both have a square at the same place, it shows the same value.","all pairs of sessions, depths below 20480 m","unbounded pairs of histories",["bathygrid/bgrid.py:grid","bathygrid/tile.py:_calculate_resolution_lookup","bathygrid/bgrid.py:get_layers_by_name","bathygrid/algorithms.py:np_grid_mean","bathygrid/algorithms.py:np_grid_shoalest"])
with open('/verif/properties.jsonl','w') as f:
    for x in P: f.write(json.dumps(x)+"\n")
print(len(P))
