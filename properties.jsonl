{"id": "C01", "title": "Rank decomposition is an ordered, balanced partition", "statement": "Splitting n elements over a given number of processes gives each process a contiguous half-open index range; the ranges in rank order concatenate to exactly 0..n-1 (nothing lost, nothing duplicated), no two ranges differ in length by more than one, and a process gets no range exactly when its rank is at or above min(n, size).", "quantifier": "every element count n, every process count size >= 1 and every rank", "why_tests_cant": "The index arithmetic (remainder shifting, more processes than elements) has to be right for every (n, size, rank); a test samples a handful of triples.", "anchors": ["src/ocgis/vmachine/mpi.py:get_rank_bounds"]}
{"id": "C02", "title": "Distributing a dimension keeps every element on exactly one process", "statement": "When the distribution of a dimension is computed, every global element of the distributed dimension is owned by exactly one process, local sizes equal the local bounds, source indices follow the bounds, and processes without elements are marked empty; undistributed dimensions are left whole on every process.", "quantifier": "all dimension lengths, process counts, minimum-elements settings and sets of dimensions/groups", "why_tests_cant": "Losing elements only happens for particular (length, min_elements, size) combinations; the guarantee is about all of them.", "anchors": ["src/ocgis/vmachine/mpi.py:OcgDist.update_dimension_bounds"]}
{"id": "C03", "title": "Scatter then gather returns the original variable", "statement": "Scattering a variable over the processes of a distribution and gathering it again on the root gives back the same values, mask and source indices in the same order.", "quantifier": "all variable contents and lengths, all process counts", "why_tests_cant": "Round trip over arbitrary contents and decompositions.", "anchors": ["src/ocgis/vmachine/mpi.py:variable_scatter", "src/ocgis/vmachine/mpi.py:variable_gather"]}
{"id": "C04", "title": "Global-to-local slice translation is exact", "statement": "Translating a global index range to a process's local range selects exactly the local positions of those global indices that lie both in the requested range and in the process's bounds; when the two do not meet the process gets nothing.", "quantifier": "all non-negative start/stop pairs and all local bounds", "why_tests_cant": "Boundary conditions (touching ranges, empty ranges, ranges that straddle a process) form an unbounded case space.", "anchors": ["src/ocgis/vmachine/mpi.py:get_global_to_local_slice"]}
{"id": "C05", "title": "A distributed slice equals the slice of the whole", "statement": "Slicing a distributed dimension on all processes and concatenating the local pieces in rank order gives the same elements as slicing the undistributed dimension; afterwards the local bounds of the processes are consecutive and cover exactly the new global length.", "quantifier": "all dimension lengths, decompositions and slices", "why_tests_cant": "Requires every decomposition and every slice, including those leaving some processes empty.", "anchors": ["src/ocgis/variable/dimension.py:Dimension.get_distributed_slice", "src/ocgis/vmachine/mpi.py:get_global_to_local_slice"]}
{"id": "C06", "title": "Globally numbered identifiers are unique and consecutive", "statement": "Identifiers created collectively (unique geometry ids, index ranges over a distributed dimension, bounds of a distributed dimension built from local sizes) number all elements of all processes consecutively in rank order from the start value with no gaps or duplicates, including when some processes hold no elements.", "quantifier": "all per-process sizes, all process counts and start values", "why_tests_cant": "Prefix-sum protocols fail only for certain empty-process patterns.", "anchors": ["src/ocgis/util/helpers.py:arange_from_dimension", "src/ocgis/variable/base.py:Variable.create_ugid_global", "src/ocgis/variable/dimension.py:create_distributed_dimension"]}
{"id": "C07", "title": "Chunk slices tile the index space", "statement": "The n-dimensional slices produced for a chunked array cover every index of the array exactly once, whatever the requested number of splits per dimension (as long as it does not exceed the dimension length).", "quantifier": "all shapes and split counts", "why_tests_cant": "Exactly-once cover must hold for all shapes and splits.", "anchors": ["src/ocgis/vmachine/mpi.py:create_slices", "src/ocgis/vmachine/mpi.py:create_nd_slices"]}
{"id": "C08", "title": "Collective unique array keeps each value exactly once", "statement": "The collective 'unique' operation returns arrays whose union over the processes is the set of all input values, in which no value appears on two processes; the lowest rank holding a value keeps it.", "quantifier": "all arrays on all processes", "why_tests_cant": "The union/disjointness claim ranges over every distribution of values over ranks.", "anchors": ["src/ocgis/util/helpers.py:create_unique_global_array"]}
{"id": "C09", "title": "Re-indexing connectivity preserves what each element refers to", "statement": "Reducing a coordinate-index (element connectivity) array yields new consecutive indices starting at the start index such that looking a new index up in the returned list of retained nodes gives the node the element referred to before; every retained node is referenced and appears once.", "quantifier": "all index arrays and start indices", "why_tests_cant": "Round-trip over all connectivity arrays.", "anchors": ["src/ocgis/spatial/geomc.py:reduce_reindex_coordinate_index"]}
{"id": "C10", "title": "The parallel re-indexing exchange always terminates", "statement": "The message exchange by which processes look up the new indices of nodes owned elsewhere terminates under every interleaving of the processes.", "quantifier": "every schedule of the processes and message deliveries", "why_tests_cant": "Deadlocks appear only under particular interleavings, which tests cannot force.", "anchors": ["src/ocgis/spatial/geomc.py:run_rr_nonroot", "src/ocgis/spatial/geomc.py:run_rr_root", "src/ocgis/spatial/geomc.py:search_for_destinations"]}
{"id": "C11", "title": "Virtual-machine scopes always restore the previous communicator", "statement": "After any nesting of scoped communicators, whether a scope's body returns or raises, the current communicator is the one that was current before the scope, and the scope's sub-communicator is gone.", "quantifier": "all nestings of scopes, all bodies, with and without exceptions", "why_tests_cant": "All histories of nested scopes with failures at any point.", "anchors": ["src/ocgis/vmachine/core.py:vm_scope", "src/ocgis/vmachine/core.py:OcgVM.create_subcomm", "src/ocgis/vmachine/core.py:OcgVM.free_subcomm"]}
{"id": "C12", "title": "The serial communicator delivers each message once, to its receiver", "statement": "With the serial stand-in communicator, a receive completes exactly when a message with its source and tag has been sent and not yet received, and it delivers the most recently sent such payload; messages with other tags are unaffected.", "quantifier": "all histories of sends, polls and receives", "why_tests_cant": "Property of all operation histories.", "anchors": ["src/ocgis/vmachine/mpi.py:DummyMPIComm", "src/ocgis/vmachine/mpi.py:DummyRequest"]}
{"id": "C13", "title": "Slicing a dimension keeps its source indices in step", "statement": "After any chain of slices of a dimension the dimension's length equals the number of source indices and the source indices are exactly those the same slices pick from the original index list.", "quantifier": "all dimension lengths, all chains of slices", "why_tests_cant": "All chains of slices; several slice shapes (open-ended, negative, out of range) behave differently.", "anchors": ["src/ocgis/variable/dimension.py:Dimension.__getitem__", "src/ocgis/variable/dimension.py:slice_source_index"]}
{"id": "C14", "title": "Index normalisation selects what the caller asked for", "statement": "Normalising integer, slice, list and boolean indices to slice form selects the same elements from an array as the original index would.", "quantifier": "all array lengths and all indices", "why_tests_cant": "All index forms, including negative ones.", "anchors": ["src/ocgis/util/helpers.py:get_formatted_slice"]}
{"id": "C15", "title": "Converting an index array to a slice does not change the selection", "statement": "Replacing an index array by a contiguous slice selects the same elements in the same order.", "quantifier": "all index arrays", "why_tests_cant": "Only particular (unsorted, duplicate, decreasing) arrays fail.", "anchors": ["src/ocgis/util/helpers.py:get_optimal_slice_from_array"]}
{"id": "C16", "title": "Dimension reordering and broadcasting reach the requested layout", "statement": "The swap sequence computed to reorder array dimensions turns the actual order into the desired one for every permutation, and broadcasting an array by dimension names places every element at the position its dimension names dictate and is undone when the scope ends.", "quantifier": "all permutations of any number of dimensions; all shapes", "why_tests_cant": "All permutations of unbounded rank.", "anchors": ["src/ocgis/util/helpers.py:get_swap_chain", "src/ocgis/util/broadcaster.py:broadcast_array_by_dimension_names"]}
{"id": "C17", "title": "Trimming to the unmasked region is lossless and minimal", "statement": "Trimming a mask to its unmasked region keeps every unmasked element, and each border row/column of the result contains an unmasked element; trimming a fully masked array fails with the all-masked error.", "quantifier": "all two-dimensional masks", "why_tests_cant": "All masks of all shapes.", "anchors": ["src/ocgis/util/helpers.py:get_trimmed_array_by_mask"]}
{"id": "C18", "title": "Extrapolated cell bounds are contiguous and enclose their centres", "statement": "Bounds extrapolated from coordinate centroids give one cell per centroid, neighbouring cells share their edge, and (for evenly spaced centroids) every centroid lies strictly inside its cell with all cells of equal width.", "quantifier": "all coordinate vectors of length at least two", "why_tests_cant": "All coordinate vectors.", "anchors": ["src/ocgis/util/helpers.py:get_bounds_vector_from_centroids", "src/ocgis/util/helpers.py:get_bounds_from_1d"]}
{"id": "C19", "title": "Corner conversions between the two conventions are mutually inverse", "statement": "Converting per-cell corners to a shared corner mesh and back gives each cell the same four corners it started with whenever neighbouring cells share corners; converting a mesh to cells and back gives the mesh with its two axes exchanged, as documented.", "quantifier": "all mesh shapes and values", "why_tests_cant": "All mesh sizes and contents.", "anchors": ["src/ocgis/util/helpers.py:create_ocgis_corners_from_esmf_corners", "src/ocgis/util/helpers.py:get_esmf_corners_from_ocgis_corners"]}
{"id": "C20", "title": "Longitude wrapping and unwrapping are mutually inverse and stay on the circle", "statement": "Wrapping yields longitudes in (-180, 180] for input in [0, 360], unwrapping yields [0, 360) for input in [-180, 180], each is idempotent, both only ever move a longitude by 0 or 360 degrees, and wrap followed by unwrap (or the converse) restores the longitude except at the two seam values -180 and 360.", "quantifier": "all longitudes and arrays of longitudes", "why_tests_cant": "A statement about all real (rational) longitudes with special seam values.", "anchors": ["src/ocgis/spatial/wrap.py:CoordinateArrayWrapper"]}
{"id": "C21", "title": "Reordering wrapped grid rows is a rotation", "statement": "Reordering a wrapped grid rotates each row so that its first negative longitude comes first; nothing is lost, values and masks rotate together, and for an originally increasing 0..360 row the reordered longitudes are increasing.", "quantifier": "all rows and split positions", "why_tests_cant": "All rows.", "anchors": ["src/ocgis/spatial/grid.py:Grid.reorder", "src/ocgis/spatial/grid.py:reorder_array"]}
{"id": "C22", "title": "Expanding a rectilinear grid preserves every cell", "statement": "Expanding one-dimensional coordinates and bounds to two-dimensional ones gives each cell the same centre and the same rectangle as before, with corners listed counter-clockwise starting at the lower-left.", "quantifier": "all coordinate vectors and bounds", "why_tests_cant": "All grids.", "anchors": ["src/ocgis/spatial/grid.py:expand_grid"]}
{"id": "C23", "title": "The bounding-box prefilter never discards a cell that intersects the selection", "statement": "The bounding-box hint used before exact geometry tests keeps every cell that the exact test could select, and for a multi-part geometry the hint is the union of the parts' hints.", "quantifier": "all grids and selection boxes", "why_tests_cant": "All coordinate vectors, including irregular ones.", "anchors": ["src/ocgis/spatial/grid.py:get_hint_mask_from_geometry_bounds", "src/ocgis/spatial/grid.py:Grid.get_spatial_subset_operation"]}
{"id": "C24", "title": "Spatial decomposition boxes tile the extent and one can be selected by index", "statement": "The polygons of a spatial decomposition tile the global extent without gaps or overlaps, in row-major order, and asking for a single decomposition element yields that element.", "quantifier": "all extents and split counts", "why_tests_cant": "All split counts.", "anchors": ["src/ocgis/spatial/base.py:create_split_polygons", "src/ocgis/spatial/base.py:iter_spatial_decomposition", "src/ocgis/spatial/base.py:get_extent_global"]}
{"id": "C25", "title": "Month-based time arithmetic is exact", "statement": "A date obtained from a 'months since' number is the origin shifted by exactly that many calendar months, the month difference of two dates is 12 times the year difference plus the month difference, and converting months to dates and back is the identity.", "quantifier": "all origins and month offsets", "why_tests_cant": "All offsets across any number of year roll-overs.", "anchors": ["src/ocgis/variable/temporal.py:get_datetime_from_months_time_units", "src/ocgis/variable/temporal.py:get_difference_in_months", "src/ocgis/variable/temporal.py:get_num_from_months_time_units"]}
{"id": "C26", "title": "Temporal groupings partition the time axis", "statement": "Grouping time steps by date parts puts every time step in exactly one group, two steps share a group exactly when they agree on all grouping parts, and no group is empty.", "quantifier": "all time axes and grouping part lists", "why_tests_cant": "All time axes.", "anchors": ["src/ocgis/variable/temporal.py:TemporalVariable._get_grouping_other_"]}
{"id": "C27", "title": "Ordering seasons keeps all of them", "statement": "Sorting a list of seasons by time returns exactly the seasons given, ordered.", "quantifier": "all lists of seasons", "why_tests_cant": "Loss depends on key collisions.", "anchors": ["src/ocgis/variable/temporal.py:get_sorted_seasons"]}
{"id": "C28", "title": "Unique-season regions contain only complete seasons and drop only incomplete ones", "statement": "The list of unique seasons computed for a time axis contains a season-year exactly when all its months are present in the data.", "quantifier": "all time axes and season definitions", "why_tests_cant": "All combinations of missing months; several removals interact.", "anchors": ["src/ocgis/variable/temporal.py:get_time_regions", "src/ocgis/variable/temporal.py:iter_boolean_groups_from_time_regions"]}
{"id": "C29", "title": "Selecting by time region returns exactly the matching time steps", "statement": "Selecting months and/or years from a time axis keeps exactly the time steps whose month is among the requested months (if any are given) and whose year is among the requested years (if any are given), in their original order.", "quantifier": "all time axes and regions", "why_tests_cant": "All time axes.", "anchors": ["src/ocgis/variable/temporal.py:TemporalVariable.get_time_region"]}
{"id": "C30", "title": "Date-between tests respect the calendar", "statement": "Testing whether a date lies between two bounds by month or year accepts exactly the dates whose month/year lies in the (possibly year-crossing) range.", "quantifier": "all dates and bounds", "why_tests_cant": "Year-crossing ranges.", "anchors": ["src/ocgis/util/helpers.py:get_is_date_between"]}
{"id": "C31", "title": "Time-range and time-region requests are accepted exactly when compatible", "statement": "A combined time range and time region is accepted exactly when every requested month and year occurs within the range.", "quantifier": "all ranges and regions", "why_tests_cant": "All ranges, including those within one month.", "anchors": ["src/ocgis/util/helpers.py:validate_time_subset"]}
{"id": "C32", "title": "Value-range subsetting returns exactly the elements in range", "statement": "Subsetting a coordinate variable between two values keeps exactly the elements whose value (or cell bounds) meets the range under the chosen open/closed rule and fails when nothing is left; optional index output names the same elements.", "quantifier": "all coordinate vectors, bounds and ranges", "why_tests_cant": "All coordinate vectors and boundary coincidences.", "anchors": ["src/ocgis/variable/base.py:Variable.get_between"]}
{"id": "C33", "title": "Masks only ever grow under updating mask operations", "statement": "Setting a mask with update never unmasks a masked element and masks exactly the union; any sequence of updates yields the union of all masks, in any order.", "quantifier": "all sequences of mask updates", "why_tests_cant": "All operation histories.", "anchors": ["src/ocgis/variable/base.py:Variable.set_mask", "src/ocgis/variable/base.py:SourcedVariable.get_mask"]}
{"id": "C34", "title": "Cascading a mask masks exactly the positions over masked locations", "statement": "Cascading a spatial mask onto a variable masks exactly those elements whose coordinates along the shared dimensions are masked, in addition to those already masked, for every dimension order and any extra dimensions.", "quantifier": "all variables, dimension orders and masks", "why_tests_cant": "All dimension layouts.", "anchors": ["src/ocgis/variable/base.py:set_mask_by_variable", "src/ocgis/util/large_array.py:set_variable_spatial_mask"]}
{"id": "C35", "title": "Stacking variables concatenates them", "statement": "Stacking variables along a dimension yields the concatenation of their values and masks in input order and a dimension as long as the sum of the inputs.", "quantifier": "all lists of variables", "why_tests_cant": "All lists.", "anchors": ["src/ocgis/variable/base.py:stack"]}
{"id": "C36", "title": "Variable collections stay consistent under any sequence of operations", "statement": "After any sequence of additions, removals, dimension additions and renames, every dimension used by a stored variable is stored in the collection with the same size, each variable is stored under its own name, tags only name stored variables, and operations that cannot be carried out leave the collection as it was.", "quantifier": "all histories of collection operations", "why_tests_cant": "Invariant over all histories.", "anchors": ["src/ocgis/variable/base.py:VariableCollection.add_variable", "src/ocgis/variable/base.py:VariableCollection.remove_variable", "src/ocgis/variable/base.py:VariableCollection.rename_dimension", "src/ocgis/variable/base.py:VariableCollection.add_dimension", "src/ocgis/variable/base.py:VariableCollection.append_to_tags"]}
{"id": "C37", "title": "Emptiness of a nested collection accounts for every child", "statement": "A nested collection is reported empty exactly when it and all of its descendants are empty.", "quantifier": "all trees of collections", "why_tests_cant": "All trees.", "anchors": ["src/ocgis/variable/base.py:get_is_empty_recursive"]}
{"id": "C38", "title": "Slicing by dimension names applies each slice to its own dimension", "statement": "Slicing a variable or a whole collection by a dictionary of dimension names applies each slice to the matching dimension whatever the dimension order of the variable, leaving other dimensions whole; variables sharing a dimension stay aligned.", "quantifier": "all variables, dimension orders and slice dictionaries", "why_tests_cant": "All layouts.", "anchors": ["src/ocgis/variable/base.py:get_mapped_slice", "src/ocgis/variable/base.py:VariableCollection.__getitem__", "src/ocgis/variable/base.py:get_dslice"]}
{"id": "C39", "title": "Temporary renames and abstraction changes are undone", "statement": "After a scope that temporarily renames dimensions or changes the grid abstraction, all names and the abstraction are what they were before, also when the body raises.", "quantifier": "all name maps and bodies, with and without exceptions", "why_tests_cant": "All scopes with failures.", "anchors": ["src/ocgis/base.py:renamed_dimensions", "src/ocgis/base.py:renamed_dimensions_on_variables", "src/ocgis/base.py:grid_abstraction_scope"]}
{"id": "C40", "title": "The source name survives renaming", "statement": "Renaming an object any number of times keeps its source name (the name in the file) and records its aliases, so that it can still be read from the file.", "quantifier": "all histories of renames", "why_tests_cant": "All histories.", "anchors": ["src/ocgis/base.py:AbstractNamedObject.set_name", "src/ocgis/variable/base.py:AbstractContainer.set_name"]}
{"id": "C41", "title": "Tiles partition the spatial domain", "statement": "The tile schema covers every row/column index pair exactly once for every domain size and tile size and numbers the tiles consecutively.", "quantifier": "all domain sizes, tile sizes", "why_tests_cant": "All sizes, including sizes not divisible by the tile.", "anchors": ["src/ocgis/calc/tile.py:get_tile_schema"]}
{"id": "C42", "title": "Tiled computation equals the computation on the whole", "statement": "Computing a per-cell function tile by tile and writing the results back gives the same array as computing on the whole field at once, with every output cell written.", "quantifier": "all fields, per-cell functions and tile sizes", "why_tests_cant": "All tilings.", "anchors": ["src/ocgis/util/large_array.py:compute"]}
{"id": "C43", "title": "Temporal aggregation applies the function to each group separately", "statement": "The aggregated output has one time step per temporal group, and each output value is the function of exactly that group's input values at the same location, level and realization; the sample size counts the unmasked inputs.", "quantifier": "all fields, groupings and functions", "why_tests_cant": "All fields and groupings.", "anchors": ["src/ocgis/calc/base.py:AbstractFunction._get_temporal_agg_fill_", "src/ocgis/calc/base.py:AbstractUnivariateSetFunction", "src/ocgis/calc/base.py:AbstractFunction.get_sample_size"]}
{"id": "C44", "title": "Moving windows are exactly the centred windows", "statement": "A moving-window calculation with mode 'valid' produces, for every time step with a full window, the operation over exactly the k steps centred on it and masks all others; with mode 'same' windows are cut at the ends of the series; masked inputs stay masked.", "quantifier": "all series, window widths and operations", "why_tests_cant": "All lengths and widths.", "anchors": ["src/ocgis/calc/library/statistics.py:MovingWindow"]}
{"id": "C45", "title": "Spell durations are the lengths of the maximal runs", "statement": "The durations summarised by the duration index are the lengths of the maximal runs of consecutive time steps satisfying the condition, and the frequency-duration index counts each run once.", "quantifier": "all series and thresholds", "why_tests_cant": "All boolean series.", "anchors": ["src/ocgis/calc/library/index/duration.py:Duration._iter_consecutive_", "src/ocgis/calc/library/index/duration.py:FrequencyDuration"]}
{"id": "C46", "title": "Freeze-thaw counts are non-negative and count alternating events", "statement": "The freeze-thaw index is a non-negative number of transitions and consecutive counted events alternate between freezing and thawing.", "quantifier": "all temperature series and thresholds", "why_tests_cant": "All series, including those that never reach the threshold.", "anchors": ["src/ocgis/calc/library/index/freeze_thaw.py:freezethaw1d"]}
{"id": "C47", "title": "Valid convolution exposes exactly the fully overlapping outputs", "statement": "A 'valid' convolution along time leaves unmasked exactly the time steps for which a fully overlapping result exists.", "quantifier": "all series and kernels", "why_tests_cant": "All kernel lengths.", "anchors": ["src/ocgis/calc/library/math.py:Convolve1D.calculate"]}
{"id": "C48", "title": "Threshold and between counts equal the number of satisfying steps", "statement": "Threshold and between indices equal the number of unmasked time steps in the group satisfying the comparison.", "quantifier": "all series, thresholds and comparison names", "why_tests_cant": "All series.", "anchors": ["src/ocgis/calc/library/thresholds.py:Threshold", "src/ocgis/calc/library/thresholds.py:Between"]}
{"id": "C49", "title": "Merged weight files reproduce every chunk's weights in global indices", "statement": "Merging per-chunk weight files yields the concatenation of all chunks' weights, with each row/column index translated to the global cell it denoted and the weight unchanged.", "quantifier": "all chunkings and weight files", "why_tests_cant": "All chunk layouts and weights.", "anchors": ["src/ocgis/spatial/grid_chunker.py:GridChunker.create_merged_weight_file", "src/ocgis/spatial/grid_chunker.py:GridChunker._gc_remap_weight_variable_"]}
{"id": "C50", "title": "Inserting weighted chunks rebuilds the whole destination", "statement": "Inserting each chunk's regridded values in the destination file yields at every global cell the value computed for it in its chunk.", "quantifier": "all chunkings", "why_tests_cant": "All chunk layouts.", "anchors": ["src/ocgis/spatial/grid_chunker.py:GridChunker.insert_weighted"]}
{"id": "C51", "title": "Multipart splitting and ragged connectivity are lossless", "statement": "Splitting an element's node list at the break value and joining with the break value restores it; ragged connectivity assigns each element its own consecutive node range and together they cover the connectivity once.", "quantifier": "all node lists and counts", "why_tests_cant": "All lists.", "anchors": ["src/ocgis/spatial/geomc.py:iter_multipart_coordinates", "src/ocgis/spatial/geomc.py:PolygonGC.get_element_node_connectivity_by_index"]}
{"id": "C52", "title": "Reading geometries does not change the stored connectivity", "statement": "Iterating an unstructured grid's geometries any number of times yields the same geometries and leaves the connectivity unchanged.", "quantifier": "all connectivities, start indices and numbers of iterations", "why_tests_cant": "All histories of reads.", "anchors": ["src/ocgis/spatial/geomc.py:AbstractGeometryCoordinates.get_geometry_iterable"]}
{"id": "C53", "title": "The dimension map returns what was set last, also through dictionaries", "statement": "Reading an entry of the dimension map returns what the last set call for that entry stored, other entries are unaffected, invalid keys are rejected, and exporting to a dictionary and importing again gives an equivalent map.", "quantifier": "all histories of dimension-map operations", "why_tests_cant": "All histories.", "anchors": ["src/ocgis/driver/dimension_map.py:DimensionMap"]}
{"id": "C54", "title": "Record iteration visits every element once in row-major order", "statement": "Iterating records of a variable with followers visits every multi-index of the lead variable once in row-major order with each follower's value taken at the matching indices, and omits a record exactly when masked records are disallowed and the position is masked; melted iteration yields one row per variable and position.", "quantifier": "all shapes, followers and masks", "why_tests_cant": "All shapes.", "anchors": ["src/ocgis/variable/iterator.py:Iterator"]}
{"id": "C55", "title": "Environment parameters follow set > environment > default", "statement": "An environment parameter reads as the explicitly set value if one was set, otherwise the formatted operating-system variable if present, otherwise the default, and reset returns it to that state.", "quantifier": "all histories of set and reset and all environments", "why_tests_cant": "All histories.", "anchors": ["src/ocgis/environment.py:EnvParm", "src/ocgis/environment.py:Environment"]}
{"id": "C56", "title": "Parameters are parsed to a valid value or rejected", "statement": "A query-string parameter either parses to a value of the declared type or is rejected; boolean strings are recognised regardless of case and surrounding blanks, 'none' means null, unknown parameter names are rejected.", "quantifier": "all strings", "why_tests_cant": "All strings.", "anchors": ["src/ocgis/ops/parms/base.py:AbstractParameter", "src/ocgis/ops/parms/base.py:BooleanParameter", "src/ocgis/ops/query.py:QueryInterface.get_operations"]}
{"id": "C57", "title": "Unit equality over a sequence means all are pairwise equal", "statement": "Units of a sequence are reported equal exactly when every pair is equal and shorter sequences are rejected.", "quantifier": "all sequences of units", "why_tests_cant": "All sequences.", "anchors": ["src/ocgis/util/units.py:get_are_units_equal", "src/ocgis/util/units.py:get_are_units_equivalent"]}
{"id": "C58", "title": "A spatial collection files every field under its container", "statement": "After any sequence of additions, iterating a spatial collection yields each added field exactly once under the container with its geometry identifier, in insertion order, and a duplicate field name in a container is rejected unless forced.", "quantifier": "all histories of additions", "why_tests_cant": "All histories.", "anchors": ["src/ocgis/collection/spatial.py:SpatialCollection.add_field", "src/ocgis/collection/spatial.py:SpatialCollection.iter_fields"]}
{"id": "C59", "title": "Subsetting leaves the source field unchanged", "statement": "A spatial subset leaves the source field's coordinates as they were, whether the subset succeeds or raises.", "quantifier": "all coordinate arrays, any number of subsets, with a failure at any of them", "why_tests_cant": "A crash-point property: the failure may come at any call.", "anchors": ["src/ocgis/spatial/spatial_subset.py:SpatialSubsetOperation.get_spatial_subset", "src/ocgis/spatial/spatial_subset.py:SpatialSubsetOperation._prepare_target_", "src/ocgis/spatial/spatial_subset.py:SpatialSubsetOperation._finalize_target"]}
{"id": "C60", "title": "Every group of a file is enumerated exactly once", "statement": "Enumerating the group hierarchy of a dataset visits the root and every nested group exactly once, parents before children, and each enumerated path looks up that group.", "quantifier": "all group trees", "why_tests_cant": "All trees.", "anchors": ["src/ocgis/driver/base.py:iter_all_group_keys", "src/ocgis/driver/base.py:iter_group_keys", "src/ocgis/util/helpers.py:get_group"]}
{"id": "C61", "title": "Touching barrier", "statement": "Asking a subset to refuse touching selections stops it exactly when a cell centre lies on a corner of the selection's bounding box (its x on a vertical side and its y on a horizontal side); otherwise the subset proceeds.", "quantifier": "all grids, with coordinate vectors or two-dimensional coordinates, and all boxes", "why_tests_cant": "The barrier is there to rule out duplicate cells between neighbouring pieces of a decomposition; it must catch every coincidence for every grid shape.", "anchors": ["src/ocgis/spatial/grid.py:get_hint_mask_from_geometry_bounds", "src/ocgis/spatial/base.py:iter_spatial_decomposition"]}
{"id": "C62", "title": "Destination chunks tile the destination grid", "statement": "The chunks into which a structured destination grid is split are as many as requested, lie inside the grid, and contain every cell of the grid exactly once; asking for a single chunk by number yields exactly that chunk.", "quantifier": "all grid shapes, split counts and chunk numbers", "why_tests_cant": "Exactly-once cover must hold for every shape and every split count, including dimensions shorter than the split count.", "anchors": ["src/ocgis/driver/nc.py:create_slices_for_dimension", "src/ocgis/driver/nc.py:DriverNetcdfCF._gc_iter_dst_grid_slices_"]}
{"id": "C63", "title": "Polygons survive conversion to coordinates and connectivity", "statement": "Converting a geometry variable of polygons to node coordinates and element connectivity and iterating the geometries of the result yields the same polygons, part by part, in the same order, whether shared nodes are stored once or not; when they are, no node is stored twice.", "quantifier": "all lists of single- and multi-part polygons, start indices, break values, packed or not", "why_tests_cant": "Shared nodes, part counts and start indices combine in unboundedly many ways; a test fixes one of each.", "anchors": ["src/ocgis/variable/geom.py:GeometryVariable.convert_to", "src/ocgis/spatial/geomc.py:AbstractGeometryCoordinates.get_geometry_iterable", "src/ocgis/util/helpers.py:find_index"]}
{"id": "C64", "title": "ESMF export numbers the nodes of all ranks consistently", "statement": "Exporting polygons distributed over several processes to the ESMF unstructured layout gives one connectivity from which, with the nodes of all processes laid end to end, exactly the polygons of all processes are read back in order.", "quantifier": "all numbers of processes and all distributions of polygons over them", "why_tests_cant": "The offset of each process depends on the node counts of all processes before it; tests run a handful of processes with one file.", "anchors": ["src/ocgis/driver/nc_esmf_unstruct.py:DriverESMFUnstruct", "src/ocgis/spatial/geomc.py:PolygonGC.get_element_node_connectivity_by_index"]}
{"id": "C65", "title": "Dimension maps from metadata can be looked up for every group", "statement": "A dimension map created from file metadata returns, for the path of every group in that metadata, the dimension map of that group, and for the root that of the root.", "quantifier": "all group hierarchies of any depth, all group names", "why_tests_cant": "the hierarchy is unbounded in depth and width; tests use at most a couple of flat groups", "anchors": ["src/ocgis/driver/dimension_map.py:DimensionMap.from_metadata", "src/ocgis/driver/dimension_map.py:DimensionMap.get_group", "src/ocgis/driver/dimension_map.py:DimensionMap.set_group"]}
{"id": "C66", "title": "Output directory at every crash point", "statement": "Executing operations either succeeds and leaves exactly the files written in its output directory, or fails on some process and leaves no output directory; the exception of the failure is the one raised, an existing directory is refused unless overwriting is enabled, and everything that existed before is kept.", "quantifier": "all sequences of file operations with a failure of any kind at any point, all numbers of ranks and all interleavings of their steps", "why_tests_cant": "The clean-up must work for every crash point and every schedule of ranks; tests raise in one place on one process.", "anchors": ["src/ocgis/ops/interpreter.py:OcgInterpreter.execute"]}
{"id": "C67", "title": "Iterating operations restores the communicator", "statement": "After iterating an operations engine, whether it finished or raised, the communicator that was current before is current again, the engine's own communicators are gone and no other communicator has been touched.", "quantifier": "all virtual machine states and all statements run during the iteration", "why_tests_cant": "Ranges over arbitrary programs and exceptions inside the loop, including nested executions.", "anchors": ["src/ocgis/ops/engine.py:OperationsEngine.__iter__"]}
{"id": "C68", "title": "Results for datasets and geometries are independent", "statement": "Executing operations on several datasets and several selection geometries yields one collection per dataset and geometry, in order, each the same as if that dataset and geometry were processed alone with all requested operations (selection, regridding, calculation, aggregation, output coordinate system); it stops at the first selection that is empty unless empty returns are allowed.", "quantifier": "all lists of datasets, all lists of geometries, all combinations of operations arguments", "why_tests_cant": "State is kept between the passes of the loop (the field object, back-transforms); independence must hold for all sequences and combinations.", "anchors": ["src/ocgis/ops/engine.py:OperationsEngine._iter_collections_", "src/ocgis/ops/engine.py:OperationsEngine._process_subsettables_", "src/ocgis/ops/engine.py:OperationsEngine._process_geometries_"]}
{"id": "C69", "title": "Parallel selection by several geometries", "statement": "For every distribution of a field over ranks and every list of selection geometries, the cells selected for each geometry on all ranks together are the cells selected on one process.", "quantifier": "all distributions, all numbers of ranks and all lists of geometries", "why_tests_cant": "Ranks that drop out of the communicator for one geometry matter for all later ones; tests use one geometry or few ranks.", "anchors": ["src/ocgis/ops/engine.py:OperationsEngine._process_geometries_", "src/ocgis/vmachine/core.py:OcgVM.create_subcomm_by_emptyable"]}
{"id": "C70", "title": "Records written by many ranks all reach the file once", "statement": "When a collection of fields is written to CSV, shapefile or GeoJSON from any number of ranks, the file that results does not depend on how the ranks interleave, no rank waits forever, and reading it back gives the records of all collections in order, each value under its own column name.", "quantifier": "all numbers of ranks, all interleavings of their steps, all numbers of collections and fields, all records and column names", "why_tests_cant": "Tests run one schedule with a few ranks and one dataset; the order of appends is a property of all schedules, and lost columns or collections only appear with particular combinations of fields and names.", "anchors": ["src/ocgis/driver/csv_.py:DriverCSV._write_variable_collection_main_", "src/ocgis/driver/vector.py:DriverVector._write_variable_collection_main_", "src/ocgis/driver/vector.py:format_record_for_fiona", "src/ocgis/driver/base.py:AbstractTabularDriver.write_variable_collection", "src/ocgis/conv/base.py:AbstractCollectionConverter.write", "src/ocgis/conv/csv_.py:CsvConverter", "src/ocgis/conv/fiona_.py:AbstractFionaConverter"]}
{"id": "C71", "title": "Operations hold what was assigned and accept exactly the valid combinations", "statement": "Constructing operations or assigning to one of their arguments succeeds exactly if the arguments together obey the documented rules; each argument reads back the value last given and assigning to one leaves the others alone; the order in which arguments are given does not matter and assigning them one by one gives what the constructor gives; a refused assignment changes nothing.", "quantifier": "all argument values, all datasets and calculations, all histories of accepted and refused assignments", "why_tests_cant": "The rules couple some fifteen arguments; tests try one combination per rule from a fresh object and never a history of assignments.", "anchors": ["src/ocgis/ops/core.py:OcgOperations.__init__", "src/ocgis/ops/core.py:OcgOperations.__setattr__", "src/ocgis/ops/core.py:OcgOperations._validate_", "src/ocgis/ops/parms/base.py:AbstractParameter._set_value_", "src/ocgis/ops/parms/definition.py:Calc", "src/ocgis/ops/parms/definition.py:RegridOptions", "src/ocgis/ops/parms/definition.py:OutputFormat", "src/ocgis/ops/parms/definition.py:Slice", "src/ocgis/conv/nc.py:NcConverter.validate_ops", "src/ocgis/conv/esmpy.py:ESMPyConverter.validate_ops", "src/ocgis/conv/fiona_.py:GeoJsonConverter.validate_ops", "src/ocgis/conv/meta.py:MetaJSONConverter.validate_ops", "src/ocgis/calc/base.py:AbstractMultivariateFunction.validate", "src/ocgis/driver/base.py:AbstractDriver.validate_ops"]}
{"id": "C72", "title": "Geometry records become a field with the same geometries, identifiers and attributes", "statement": "Creating a field from geometry records, or giving geometry dictionaries as the selection geometry, yields a field with every record's geometry in order, the identifier the record gives (one, two, three and so on if none are given), its coordinate system, and every property of every record readable under its name at the record's position; a property a record does not have reads as missing; with union the result is the union of all geometries with identifier one.", "quantifier": "all lists of records, all property names and values, with and without a schema or identifier property", "why_tests_cant": "Tests use a shapefile's homogeneous records or one dictionary; the outcome depends on how every later record differs from the first.", "anchors": ["src/ocgis/collection/field.py:Field.from_records", "src/ocgis/ops/parms/definition.py:Geom.parse", "src/ocgis/driver/vector.py:get_fiona_type_from_pydata", "src/ocgis/driver/vector.py:get_dtype_from_fiona_type", "src/ocgis/driver/nc.py:DriverNetcdf.write_variable"]}
{"id": "C73", "title": "Selecting geometries from a file yields exactly the selected features", "statement": "Iterating over a geometry file yields, in file order, exactly the features whose identifier is selected and that satisfy the condition, or those at the sliced positions, each with its own geometry, attributes and identifier (the file's numbering if it has no identifier attribute); nothing selected is an error; as fields each feature is one field; with union the result is the union of the selected features; len is the number of geometries iterating yields; a listed key finds its file.", "quantifier": "all files, attribute tables, identifiers, conditions, slices and directory trees", "why_tests_cant": "Tests use one file of fifty-one states with consecutive identifiers; which features come back depends on the interplay of the file's numbering, the kind of slice and the selection arguments.", "anchors": ["src/ocgis/spatial/geom_cabinet.py:GeomCabinet.iter_geoms", "src/ocgis/spatial/geom_cabinet.py:GeomCabinet._get_features_object_", "src/ocgis/spatial/geom_cabinet.py:GeomCabinetIterator.__len__", "src/ocgis/spatial/geom_cabinet.py:get_uid_from_properties", "src/ocgis/spatial/geom_cabinet.py:GeomCabinet.keys", "src/ocgis/spatial/geom_cabinet.py:GeomCabinet._get_path_", "src/ocgis/util/helpers.py:get_formatted_slice"]}
{"id": "C74", "title": "The geometry argument uses the selection arguments in force and is described correctly", "statement": "Whatever the history of constructing operations and assigning to them, the geometries used are those of the geometry argument last accepted, selected by the identifiers, the condition, the identifier name and the aggregation last assigned; geometries that are not valid are refused with a validation error and change nothing; the metadata describes the geometry last accepted; operations do not affect each other.", "quantifier": "all geometry arguments (text, numbers, records, fields, iterators), all selection arguments, all histories of assignments", "why_tests_cant": "Tests construct an operations object once per case; whether a later assignment reaches the geometry depends on the order of the whole history.", "anchors": ["src/ocgis/ops/parms/definition.py:Geom", "src/ocgis/ops/core.py:OcgOperations.__init__", "src/ocgis/ops/core.py:OcgOperations._update_dependents_", "src/ocgis/ops/parms/base.py:AbstractParameter.__init__", "src/ocgis/spatial/geom_cabinet.py:GeomCabinetIterator.__init__"]}
{"id": "C75", "title": "A calculation given as text computes what it says", "statement": "A calculation written as output=expression is accepted exactly when it has one equals sign and every name on the right is an enabled function or a variable; the expression evaluated is the one written, with every function and every variable, and nothing else, taken to mean the array function and the variable's values; the output has the name on the left; it is treated as multivariate exactly when it refers to more than one variable.", "quantifier": "all expressions, function uses, sets of variables and variable names", "why_tests_cant": "The text is rewritten by repeated overlapping substitutions; whether a name is replaced depends on its neighbours and on every other name in the expression. Tests try about a dozen strings.", "anchors": ["src/ocgis/calc/eval_function.py:EvalFunction._get_eval_string_", "src/ocgis/calc/eval_function.py:EvalFunction.is_multivariate", "src/ocgis/calc/eval_function.py:EvalFunction._execute_", "src/ocgis/constants.py:ENABLED_NUMPY_UFUNCS"]}
{"id": "C76", "title": "Every calculation is carried out once for every data variable, on the field's own times", "statement": "Whatever collections an operation works on one after the other, each resulting field holds, in place of its data variables and beside its other variables, the results of each requested calculation for each data variable (and sample sizes if asked for), named by the calculation and the variable, computed from that variable grouped by that field's own times; names that are not unique are an error. This does not depend on the other calculations, datasets or geometries.", "quantifier": "all sequences of collections of fields, all lists of calculations (univariate, multivariate, given as text), all names and groupings", "why_tests_cant": "The engine keeps groupings by field name between collections and one list of outputs between calculations; interference depends on the whole sequence.", "anchors": ["src/ocgis/calc/engine.py:CalculationEngine.execute", "src/ocgis/calc/engine.py:format_return_field", "src/ocgis/calc/base.py:AbstractFunction.iter_calculation_targets", "src/ocgis/calc/base.py:AbstractFunction._add_to_collection_", "src/ocgis/calc/library/statistics.py:DailyPercentile", "src/ocgis/ops/engine.py:OperationsEngine._iter_collections_"]}
{"id": "C77", "title": "A calculation argument means the functions, aliases and parameters written in it", "statement": "A calculation argument, given as text (key~alias!name~value, separated by bars) or as dictionaries, is accepted exactly if every function is known and takes the parameters given and the aliases differ; its value names the same functions, aliases and parameters in the same order; anything else is refused with a validation error. A key stands for the function registered for it last. The function receives every parameter with the value given, as a value of its declared type.", "quantifier": "all texts and lists of dictionaries, all registries and histories of registering functions, all parameter definitions and values", "why_tests_cant": "The text is taken apart by nested splits with exceptions as control flow; what a malformed or differently spelt piece does to the rest depends on its position. Tests try a handful of definitions.", "anchors": ["src/ocgis/ops/parms/definition.py:Calc", "src/ocgis/ops/parms/base.py:IterableParameter.parse", "src/ocgis/ops/parms/base.py:AbstractParameter.parse_string", "src/ocgis/calc/library/register.py:FunctionRegistry", "src/ocgis/calc/base.py:AbstractParameterizedFunction.validate_definition", "src/ocgis/calc/base.py:AbstractParameterizedFunction._format_parms_"]}
{"id": "C78", "title": "Reading late makes no difference", "statement": "A variable that belongs to a file is read when its value is first needed, and slicing it before that only narrows what will be read. Whatever mixture of slicing, reading, loading and overwriting is applied, the values a caller sees are those they would have seen had the whole variable been read at the start; a read gives exactly the elements its dimensions refer to; a variable whose payload is protected is never read; a value set by the caller is never replaced by the file's.", "quantifier": "every file array of any rank, every list of dimensions with increasing source positions, every history of slices (positions, ranges, index arrays, masks), reads, loads and assignments", "why_tests_cant": "A test fixes one file and a handful of slices; the claim is that composition of arbitrarily many slices commutes with reading, at whatever moment the reading happens.", "anchors": ["src/ocgis/variable/base.py:SourcedVariable", "src/ocgis/variable/base.py:SourcedVariable.load", "src/ocgis/variable/base.py:SourcedVariable.get_value", "src/ocgis/variable/base.py:get_dslice", "src/ocgis/driver/nc.py:get_variable_value", "src/ocgis/variable/dimension.py:slice_source_index", "src/ocgis/variable/dimension.py:Dimension.__getitem__"]}
{"id": "C79", "title": "Several processes write the file that one process would write", "statement": "If a dataset is distributed over several processes and written to a netCDF file, then in whatever order the processes proceed, none of them raises an exception or waits forever, no two of them have the file open at the same time, and the finished file (global attributes, dimensions and their sizes, variables, attributes, fill values and every element) is the file a single process holding the whole dataset would have written.", "quantifier": "All datasets, all distributions of their dimensions over any number of processes with overlapping or disjoint parts, all schedules of the processes, all contents of the file before.", "why_tests_cant": "A test runs one schedule with one or two distributions; the claim is about every interleaving of any number of processes and about every cell of every variable.", "anchors": ["src/ocgis/driver/nc.py:DriverNetcdf.write_variable", "src/ocgis/driver/nc.py:DriverNetcdf._write_variable_collection_main_", "src/ocgis/driver/nc.py:create_dimension_or_pass", "src/ocgis/driver/nc.py:get_variables_to_write", "src/ocgis/driver/base.py:AbstractDriver.write_variable_collection", "src/ocgis/driver/base.py:AbstractDriver._get_write_modes_", "src/ocgis/variable/base.py:get_slice_sequence_using_local_bounds", "src/ocgis/variable/base.py:Variable.has_masked_values"]}
{"id": "C80", "title": "The coordinates found in the metadata of a file", "statement": "When a netCDF file is opened without a dimension map, the coordinate variable of an axis (realization, time, level, y, x) is the only variable whose axis attribute names that axis; if there is none, and the reading is not strict, the only variable with a usual name. Ambiguous axes are left without a coordinate. Its bounds are the variable it names as bounds (for time also as climatology), if that variable exists. The result does not depend on the order of the variables in the file. Data variables are the variables with the time, y and x dimensions, and the dimension distributed over processes is the longer of those of x and y. A dimension map given by the user is completed with the dimensions of the file and otherwise kept.", "quantifier": "all files with any variables, dimensions and attributes, strict or not, with or without a rotated pole; all dimension maps; all dimension sizes", "why_tests_cant": "the number of combinations of attributes, names and dimensions is unbounded; tests use a few well-formed files, and the files for which the rule is ambiguous or fails (point data, forecasts, transposed coordinates, partly given maps) are not among them", "anchors": ["src/ocgis/driver/nc.py: create_dimension_map_entry, AbstractDriverNetcdfCF.create_dimension_map, DriverNetcdfCF.create_dimension_map, get_data_variable_names, get_distributed_dimension_name", "src/ocgis/driver/dimension_map.py: update_dimensions_from_metadata, set_variable", "src/ocgis/driver/request/core.py: RequestDataset.dimension_map"]}
{"id": "C81", "title": "What a request dataset asks for is what the field has", "statement": "A request dataset names variables, new names, units and target units, position by position. The field that is read has each variable asked for under its new name, read from the right variable of the file, all other variables under their own names, and the new names as its data variables. Units and target units are assigned in order and nothing else changes; wrong numbers of units, units that do not exist and units that cannot be converted are refused. The driver is chosen by the ending of the address or by its key, and a file that is not found is looked for in the data directories in order.", "quantifier": "all files with any variables, all lists of variables, new names, units and target units, all addresses and directories, all notions of valid and convertible units", "why_tests_cant": "tests rename one or two variables to unused names; lists of different lengths, names in use, metadata that are given, several files, odd paths and several directories are not tried, and there are unboundedly many", "anchors": ["src/ocgis/driver/request/core.py: RequestDataset.__init__, variable, metadata, rename_variable, rename_variable_map, units, conform_units_to, field_name, get_autodiscovered_driver, get_driver, get_uri", "src/ocgis/driver/registry.py: get_driver_class", "src/ocgis/driver/base.py: create_field, create_raw_field, create_variables"]}
{"id": "C82", "title": "The coordinate system of a file is found, assigned, written and read back", "statement": "The coordinate system of a field is the one that is asked for (possibly none) or, by default, the one its file describes: the single grid mapping that the data variables refer to, with every parameter, its name and its projection coordinates; if the file has no grid mapping, the single PROJ.4 text stored in it; and a sphere if there is neither. The file is refused if parameters or projection coordinates are missing, or if data variables refer to different grid mappings; nothing is guessed. A file written from a field holds the coordinate system of that field, its data variables refer to it, and reading the file gives an equal coordinate system, whatever the process has read or written before. A rotated pole survives reading and writing even where the field is presented in longitudes and latitudes.", "quantifier": "all sets of variables and attributes of a file, all CF grid mapping classes and parameters, all coordinate systems assigned by the user, all fields, and all histories of opening and writing files in one process", "why_tests_cant": "The coordinate system depends on every attribute of every variable, on the order in which classes are tried and on a setting that earlier files of the same process leave behind; tests try a few files each in a fresh process.", "anchors": ["src/ocgis/driver/nc.py:get_crs_variable", "src/ocgis/driver/nc.py:DriverNetcdfCF.__write_variable_collection__", "src/ocgis/driver/base.py:AbstractDriver.create_field", "src/ocgis/variable/crs.py:CFCoordinateReferenceSystem.load_from_metadata", "src/ocgis/variable/crs.py:AbstractCRS.format_spatial_object", "src/ocgis/variable/crs.py:AbstractProj4CRS.load_from_metadata", "src/ocgis/collection/field.py:Field.set_crs", "src/ocgis/spatial/base.py:AbstractOperationsSpatialObject.update_crs"]}
{"id": "C83", "title": "Transforming coordinates keeps every place", "statement": "Transforming a grid, geometries or a field to another coordinate system gives every centre, corner and ring point the coordinates, in the new system, of the place it had before, however often it is done; levels and heights stay, and the object's coordinate system is the new one. Spherical coordinates transformed to Cartesian coordinates have the level as distance from the origin and the angles of the sphere between them, and transformed back they are the same. A transformation that fails leaves the object as it was.", "quantifier": "for all coordinate systems, all real coordinates, all grids with or without corners and levels, all polygons with holes, all fields and all sequences of transformations, and for every PROJ.4 and GDAL that transform single points faithfully", "why_tests_cant": "Tests transform a few grids between two systems and compare with a tolerance; they cannot show that no point anywhere, on any branch between rotated, Cartesian, radian and projected systems and after any sequence of transformations, ends at another place.", "anchors": ["src/ocgis/spatial/base.py: AbstractXYZSpatialContainer.update_crs", "src/ocgis/variable/geom.py: GeometryVariable.update_crs", "src/ocgis/collection/field.py: Field.update_crs, Field.geom", "src/ocgis/variable/crs.py: AbstractSphericalCoordinateReferenceSystem.transform_coordinates, transform_geometry, transform_grid, format_spatial_object, Cartesian.transform_grid, CFRotatedPole.update_with_rotated_pole_transformation"]}
{"id": "C84", "title": "Regridding takes each value from unmasked source cells, and masks what it cannot map", "statement": "Regridding a field to the grid of another gives, for every data variable and every slice of its extra dimensions, on each cell of the destination the sum of the values of the same slice in the source cells the regridding library names, with its weights; masked source values never enter; cells of the destination that are hidden or not mapped are masked, and nothing else is; regridding slice by slice and all at once agree; the source and destination grids handed to the library have the centres, corners and masks of the fields' grids, and are periodic exactly when they reach around the globe; fields that cannot be regridded are refused; the regridding operation gives the result in the source's coordinate system and leaves both fields as they were.", "quantifier": "all source fields (sizes, masks, variables, slices, orders of dimensions), destination grids, options, and all weights the regridding library may compute", "why_tests_cant": "Tests regrid a few fields whose masks are the same in every slice, with one layout and grids on one side of Greenwich; whether masked values enter, or a grid is taken to be global, depends on masks, layouts and longitudes no test enumerates.", "anchors": ["src/ocgis/regrid/base.py: regrid_field, iter_esmf_fields, create_esmf_grid, get_periodicity_parameters, check_fields_for_regridding, RegridOperation.execute", "src/ocgis/driver/nc.py: DriverNetcdfCF.array_resolution", "src/ocgis/spatial/base.py: resolution_x"]}
{"id": "C85", "title": "Copies, slices and deep copies of variables do not change with the original, nor the original with them", "statement": "A copy of a variable or collection has the same names, values, masks, attributes and bounds, a slice the selected elements of them, and making either changes nothing that exists. From then on original and copy lead lives of their own: whatever is done to one, in any order and any number of times (setting values, assigning elements, setting, updating and cascading masks, setting attributes), the other keeps its value, mask, attributes and bounds. A deep copy shares no memory with anything that existed, is a member of its own collection, and comes with a deep copy of its bounds.", "quantifier": "all collections of variables of any size with any masks and bounds, all selections by ranges, indices and booleans, and all sequences of operations on any of the variables afterwards", "why_tests_cant": "Tests copy a variable and check a few elements; which arrays two variables share depends on the whole history of copies, slices and in-place writes, and a write through a shared array shows up in a variable no test looks at.", "anchors": ["src/ocgis/variable/base.py: Variable.copy, Variable.deepcopy, Variable.__getitem__, Variable.__setitem__, Variable.set_value, Variable.set_mask, Variable.set_bounds, VariableCollection.copy, VariableCollection.__getitem__, VariableCollection.add_variable, VariableCollection.set_mask, set_mask_by_variable", "src/ocgis/variable/attributes.py: Attributes.attrs", "src/ocgis/collection/base.py: AbstractCollection.copy"]}
{"id": "C86", "title": "Spatial averages are area-weighted means of the data that are not missing", "statement": "Unioning the geometries of a field yields one geometry with exactly the points of the geometries that are not masked. Each requested data variable is replaced by its mean over these geometries, weighted by their areas (by one for geometries without area), at each index along its other dimensions; elements that are masked do not count, and where nothing counts the average is missing. Variables that are not requested stay as they are. The request succeeds for all data variables of the field in any order, whatever the order of their dimensions, and the result does not depend on how the geometries are distributed over processes.", "quantifier": "all geometry variables of any number of dimensions, shapes, geometries and masks, all collections of variables with any dimensions, values and masks, and all distributions over any number of processes", "why_tests_cant": "The tests average constant data, or two points, or compare with the number that was computed once; a weight taken from a wrong cell or process shows only for particular combinations of masks, orders of dimensions, orders of variables and processes.", "anchors": ["src/ocgis/variable/geom.py: GeometryVariable.area, GeometryVariable.weights, GeometryVariable.get_unioned", "src/ocgis/ops/engine.py: _update_aggregation_wrapping_crs_", "src/ocgis/util/helpers.py: get_swap_chain", "src/ocgis/base.py: get_dimension_names"]}
{"id": "C87", "title": "Selecting by a geometry keeps exactly the geometries that meet it, in the smallest slice", "statement": "Selecting from a geometry variable with a geometry leaves unmasked exactly the elements that were not masked and whose geometry meets the subset geometry, and not those that only touch it unless this is asked for. The result is the smallest slice with all of these, its masked elements keep their geometries, and when there are none an empty subset is reported. Clipping selects the same elements and replaces their geometries by the intersections, leaving the source alone unless the operation is in place. The result does not depend on the use of a spatial index, on the number of dimensions, or on how the variable is distributed over processes. The same holds for grids: masked cells stay masked, and arrays of the caller are not changed. The nearest geometry is one that is not masked and at the least distance. Buffering buffers every geometry that is not masked.", "quantifier": "all geometry variables of one or two dimensions with any geometries and masks, all subset geometries of one or several parts, all distributions in blocks over any number of processes, all grids, masks and hints", "why_tests_cant": "The tests select with a few polygons from a few grids; whether a cell is lost depends on the position of the mask, on whether everything is selected, on how parts of a geometry share boundaries, and on the blocks of the processes.", "anchors": ["src/ocgis/variable/geom.py: GeometryVariable.get_intersects, get_intersection, get_mask_from_intersects, get_nearest, get_buffer, get_spatial_index, get_masking_slice, geometryvariable_get_mask_from_intersects", "src/ocgis/spatial/index.py: SpatialIndex.iter_intersects", "src/ocgis/spatial/grid.py: Grid.get_spatial_subset_operation", "src/ocgis/spatial/spatial_subset.py: SpatialSubsetOperation.get_spatial_subset"]}
{"id": "C88", "title": "Chunked weights are the weights of the whole", "statement": "Generating regridding weights chunk by chunk and merging the files gives the weights of the whole grids: every pair of a destination and a source cell that has a weight when the grids are treated at once has it in the merged file, with the numbers of the cells in the whole grids, once, and there are no others. This holds for the default buffer around the chunks, with and without the optimized selection of the source, for masked sources and destinations, and for any names of the files. The source chunk around a destination chunk passes the check for containment, and one that does not contain it is refused. The index file lists the slices of all chunks whatever process made them.", "quantifier": "all source and destination grids with bounds, all masks, all numbers of chunks in the two directions, all pairwise weights that vanish for cells that do not overlap, all file names, all numbers of processes", "why_tests_cant": "The tests compare a few grids of similar spacing away from zero; whether a source cell is missed depends on the ratio of the spacings, on the signs of the coordinates, on the mask and on where a chunk ends.", "anchors": ["src/ocgis/spatial/grid_chunker.py: GridChunker.iter_src_grid_subsets, write_chunks, create_merged_weight_file, _iter_dst_grid_slices_, does_contain", "src/ocgis/spatial/grid.py: Grid.get_spatial_subset_operation, get_intersects", "src/ocgis/variable/base.py: Variable.resolution"]}
{"id": "C89", "title": "The coordinates of a field are the variables that were set last", "statement": "After any sequence of setting, unsetting and reading coordinates of a field and adding data variables, each coordinate the field returns is the variable it was set to last, with its values, dimensions, bounds and attributes, or None if it was unset; reading changes nothing; setting one coordinate does not affect the others or the data variables; the data variables are those that were added, each as added last; the coordinate system is the one set last.", "quantifier": "all histories of calls, all coordinates, all variables with and without bounds and attributes, all collections the variables come from", "why_tests_cant": "The tests set each coordinate once on a fresh field; replacing coordinates, variables that belong to larger collections, shared names and repeated reads of the converted time variable combine in unboundedly many histories.", "anchors": ["src/ocgis/collection/field.py: Field.time, x, y, level, realization, crs, data_variables, set_x, set_time, set_crs, add_variable, get_field_property, set_field_property", "src/ocgis/driver/dimension_map.py: DimensionMap.set_variable, set_bounds, inquire_is_xyz", "src/ocgis/variable/base.py: Variable.set_bounds, VariableCollection.add_variable, remove_variable", "src/ocgis/variable/temporal.py: TemporalVariable.from_variable"]}
{"id": "C90", "title": "Selecting from unstructured points and polygons returns exactly the chosen elements", "statement": "Selecting by a geometry from points or polygons given by node coordinates (`get_intersects` and `get_intersection` of unstructured coordinates) returns, in order, exactly the elements that are not masked, that the caller's mask does not exclude, and that meet the geometry (without those that only touch it, if asked); an intersection gives the intersection of each of them; `apply_slice=False` leaves all elements and masks the others; a selection by bounding boxes returns exactly the elements whose representative coordinates lie in the box; `no_touching` stops the program if the geometry touches an element; the caller's mask is not changed.", "quantifier": "every number of points or polygons with any coordinates, third coordinates and masks, on this and other processes; every subset geometry, single or multi-part, with or without third coordinates; every caller's mask and combination of options; every library of planar geometry obeying the stated laws", "why_tests_cant": "Whether an element is selected depends on every other element through the test for any masked values, on the parts of the geometry and on whether its boxes are degenerate; tests use a few masked grids and one polygon and cannot show that nothing is lost or gained for every mask and geometry.", "anchors": ["src/ocgis/spatial/geomc.py:AbstractGeometryCoordinates.get_spatial_subset_operation", "src/ocgis/spatial/geomc.py:AbstractGeometryCoordinates.get_geometry_iterable", "src/ocgis/spatial/geomc.py:get_xyz_select", "src/ocgis/spatial/grid.py:arr_intersects_bounds", "src/ocgis/variable/geom.py:GeometryProcessor.iter_intersects"]}
{"id": "C91", "title": "Daily percentiles use exactly the data of the window around a calendar day", "statement": "The calculation daily_perc returns one value for every calendar day (month and day) of the data, in the order of the year. The value is the percentile, with linear interpolation, of the data of exactly those days, of all years, that are at most half a window away from that calendar day, across the turn of the year and across 29 February; for 29 February the days around its place in other years count unless only leap years are requested. The result does not depend on the order in which days are visited, lies within the range of the data, does not decrease when the percentile grows, and is found again, day by day, when a written result is read back. freq_perc is the percentile along the time axis. Missing values should not enter. The code disagrees: masked values enter the percentile, and only the mask of the first time step is kept; times that are not at a full hour select a day more; even widths select one day more; a single time step and the first and last year of the calendar raise errors; windows of 121 days or more around 29 February leave out days of the neighbouring year.", "quantifier": "all daily time series, all window widths, percentiles and settings for leap years, and all orders in which a set may be listed", "why_tests_cant": "A test checks a few dates; that the window is right must hold for every calendar day, width, year and gap in the data.", "anchors": ["src/ocgis/calc/library/statistics.py: DailyPercentile, FrequencyPercentile"]}
{"id": "C92", "title": "Fields of vector files show the features they refer to, whenever they are read", "statement": "A field of a vector file is read lazily: all columns when the first of them is needed. After any history of slicing the field and asking for values and masks, in any order, every variable shows, element by element, the attribute of its name, or the geometry, of exactly the features of the file at the positions that the slices leave, as if everything had been read first and sliced afterwards; an element is masked exactly when the attribute is null. Values and masks that a caller sets are what is seen afterwards, and setting one variable does not change another. A file can be opened when its columns are integers, floating point numbers or text, and a file that is written has columns of the kinds of its values. The code disagrees: values and masks set before anything is read are replaced when another variable is read, and again after a value is removed; nulls in text and floating point columns are not masked; slices with repeated positions leave zeros; a renamed variable makes the field unreadable or full of zeros; a variable outside a field cannot be read; columns of dates and truth values make the file unusable; a null in the first record makes an integer column.", "quantifier": "all files, fields and histories of slicing, reading, setting and removing, and all schemas and records", "why_tests_cant": "A test reads a few files in one order; lazy loading must be unobservable for every order of slices and reads and every pattern of nulls.", "anchors": ["src/ocgis/driver/vector.py: DriverVector.get_variable_value, DriverVector.init_variable_value, DriverVector.get_source_metadata_as_json, get_fiona_schema, get_dtype_from_fiona_type", "src/ocgis/variable/base.py: SourcedVariable, VariableCollection.__getitem__"]}
{"id": "C93", "title": "Wrapping geometries keeps their places, and selections find them in either convention", "statement": "Wrapping a geometry covers exactly the places the geometry covers, with longitudes between 180 west and 180 east; unwrapping does the same between 0 and 360 degrees, and one after the other gives back the same places. A polygon crossing the seam is cut in two parts that together cover the same places. Points keep their place and order. A geometry used to select from a field is first brought to the convention of the field, so that a place of the field is selected exactly when the same place, in any convention, is in the geometry. The convention found for coordinates does not depend on how they are distributed over processes. Wrapping a variable of geometries wraps every geometry that is not masked. A bounding box given in one convention finds the same places in the other. The code disagrees: holes are lost when a polygon is shifted; parts outside of 180 west to 360 east are lost; a geometry of two parts of which one touches the seam raises an error; a geometry from west of 0 to beyond 180 is not adapted to an unwrapped field; the convention depends on the distribution when there are longitudes on both sides, and on the order of a set when a process is empty; the first geometry that tells decides for all in a variable; a box beyond 360 degrees is not adapted, and grids ignore the adapted boxes.", "quantifier": "all polygons, collections of polygons and points, all cuts of them with the two halves of the globe that cover the same places, all variables of geometries with masks, all boxes, all distributions of coordinates", "why_tests_cant": "A test wraps a handful of shapes; that every place is kept must hold for every ring, wherever its vertices are relative to the seam, and for every combination of conventions of field and geometry.", "anchors": ["src/ocgis/spatial/wrap.py: GeometryWrapper.wrap, GeometryWrapper.unwrap", "src/ocgis/variable/crs.py: AbstractCRS.get_wrap_action, AbstractCRS.get_wrapped_state, AbstractCRS.wrap_or_unwrap, AbstractCRS.prepare_geometry_variable", "src/ocgis/variable/geom.py: GeometryVariable.prepare", "src/ocgis/spatial/spatial_subset.py: SpatialSubsetOperation._prepare_geometry_", "src/ocgis/spatial/base.py: AbstractXYZSpatialContainer.get_intersects"]}
{"id": "C94", "title": "The records of a field show every value with its place and time under standard names", "statement": "Iterating a field with standard names yields one record for every position of its first data variable, in row-major order, leaving out only positions where that variable or the geometry is masked (none when masked values are allowed). Each record comes with the geometry at that position and has exactly these columns: the columns repeated for the field and its variables, the value of every data variable and follower at the position under its name (nothing where masked), the identifier of the geometry, and realization, time and level under their standard names with their bounds, the time formatted and split into year, month and day for tabular drivers. With melting there is one record per position and data variable, holding the name and the value of the variable in the place of the columns of the data variables. An empty field has no records, and a field without data variables is refused.", "quantifier": "all fields (any number of data variables, any shapes, masks, coordinates with or without bounds, with or without geometries and identifiers), all followers, repeated columns and options of the iteration", "why_tests_cant": "which records and columns there are depends on shapes, masks, shared dimensions and names at once; tests look at a handful of fields and never at clashing names, masks of later variables or melted fields without followers", "anchors": ["src/ocgis/collection/field.py: Field.iter", "src/ocgis/variable/base.py: VariableCollection.iter, Variable.get_iter, SourcedVariable.get_iter", "src/ocgis/variable/temporal.py: TemporalVariable.get_iter", "src/ocgis/variable/geom.py: GeometryVariable.get_iter", "src/ocgis/variable/iterator.py: Iterator", "src/ocgis/driver/base.py: AbstractTabularDriver"]}
{"id": "C95", "title": "Grouped times hold their members, bounds that cover them and a representative time", "statement": "Grouping a time variable gives one time per group on the same dimension. By date parts, every time is in exactly one group, two times share a group just when they agree on the parts, the representative time agrees with its members on the parts, and groups have different representatives, in order. By seasons there is one group for every season (of every year, if years are grouped on), holding the times of its months, with a representative in one of its months. Unique seasons are represented by one of their times, and all times together by the middle one. The bounds of every group run from the first to the last bound of its times, or of the times themselves if there are no bounds, and the representative lies between them. Unknown parts, hours, minutes and seconds are refused.", "quantifier": "all lists of times with or without bounds (any number, any dates, any order), all lists of date parts, all lists of seasons with or without years, unique seasons and all times", "why_tests_cant": "which groups there are and what represents them depends on which dates, years and bounds the data has; tests use regular monthly or daily data over whole years", "anchors": ["src/ocgis/variable/temporal.py: TemporalVariable.get_grouping, TemporalVariable._get_grouping_all_, TemporalVariable._get_grouping_other_, TemporalVariable._get_grouping_representative_datetime_, TemporalVariable._get_grouping_seasonal_unique_, TemporalGroupVariable"]}
{"id": "C96", "title": "Slices of a field by standard names", "statement": "field.get_field_slice(slices) cuts every dimension and every variable of the field to the positions given for the standard names of the dimensions (time, level, y, x, realization, geometry), exactly as the slice of the collection by the dimensions' own names does; what is returned has the own names. An unknown name is refused, or left out with strict=False. The field and the caller's dictionary are as they were. A distributed slice on one process gives the same.", "quantifier": "all fields, dimension maps, dictionaries of indices, and both flags", "why_tests_cant": "dimensions are renamed and renamed back in place, with objects shared by the field and its slice; whether the names come out right depends on every combination of dimension names, dimension maps and keys, and on what was sliced before with the same dictionary", "anchors": ["src/ocgis/collection/field.py: Field.get_field_slice, get_name_mapping", "src/ocgis/base.py: renamed_dimensions_on_variables, revert_renamed_dimensions_on_variables", "src/ocgis/variable/base.py: Variable.get_distributed_slice", "src/ocgis/variable/dimension.py: Dimension.get_distributed_slice", "src/ocgis/ops/engine.py: slices"]}
{"id": "C97", "title": "Fields and grids as ESMF objects and back", "statement": "get_esmf_field_from_ocgis_field gives an ESMF field that holds, for each longitude, latitude, other index and time, the value of the field's only data variable there, and leaves the field as it was. get_ocgis_field_from_esmf_field of the result gives back the variable with its name, type, dimensions, values and mask, as the only data variable of a field on the same grid. get_ocgis_grid_from_esmf_grid of create_esmf_grid(grid) gives back centres, cell corners and mask of the grid. Several data variables are refused. esmpy output is the ESMF field of the first field with data, made with the documented options.", "quantifier": "all fields, grids, dimension orders, names, masks, methods and operations", "why_tests_cant": "positions are permuted by dimension name on the way there and back, masks are cascaded over arbitrary dimensions, and the variables are shared between the old and the new field; whether values and masks stay in place has to hold for every order and number of dimensions", "anchors": ["src/ocgis/regrid/base.py: get_esmf_field_from_ocgis_field, get_ocgis_field_from_esmf_field, get_ocgis_grid_from_esmf_grid, create_esmf_grid", "src/ocgis/conv/esmpy.py: ESMPyConverter", "src/ocgis/util/helpers.py: create_ocgis_corners_from_esmf_corners"]}
{"id": "C98", "title": "Redistributing by source index and scattering collections lose nothing", "statement": "Redistributing a variable by the source indices of a dimension shares the source indices of all processes, in rank order, evenly out again: nothing is lost, duplicated or reordered, every process's dimension names exactly its part with matching size and bounds, every variable with the dimension reads the source at that part, every other variable keeps its value, and processes without a part are empty. Scattering a collection gives every process every variable: cut into consecutive parts along the distributed dimension, complete otherwise.", "quantifier": "all numbers of processes, all source indices per process, all collections of variables with and without source, all distributions", "why_tests_cant": "the tests run one distribution on two or four processes with five elements; the claim is over every number of processes and elements, every mixture of variables and every sequence of redistributions, and the exact edge cases (one element, emptied processes, variables in memory, groups) are never reached", "anchors": ["src/ocgis/vmachine/mpi.py:redistribute_by_src_idx", "src/ocgis/vmachine/mpi.py:variable_collection_scatter", "src/ocgis/vmachine/mpi.py:variable_scatter", "src/ocgis/vmachine/mpi.py:OcgDist.create_dimension", "src/ocgis/variable/base.py:VariableCollection.convert_to_empty"]}
{"id": "C99", "title": "A calculation combines the elements of its variables at the same place", "statement": "A calculation without temporal grouping that works cell by cell (a function of one variable, a function of several variables such as divide or heat_index, or a string expression) returns a variable with the dimensions of its first variable whose element at each place is the function of exactly the elements of the named variables at the same place (matched by dimension name, repeated along dimensions a variable lacks), masked where an input is masked or the function masks it; with a temporal grouping each output value is the aggregate of those results over the group's times. Units other than the required ones are refused. The field's own variables are not changed.", "quantifier": "for all functions of cells, all variables with any dimension orders, sizes, values, masks, all name mappings and all groupings", "why_tests_cant": "Tests use a few variables with the same three dimensions in the same order; how elements are paired when dimensions are missing, reordered or additional, what happens to masks and input variables, and mappings given in part are not exercised.", "anchors": ["src/ocgis/calc/base.py:AbstractMultivariateFunction._execute_", "src/ocgis/calc/base.py:AbstractFunction._iter_conformed_arrays_", "src/ocgis/calc/base.py:AbstractUnivariateFunction._execute_", "src/ocgis/calc/eval_function.py:EvalFunction._execute_", "src/ocgis/calc/library/math.py:Divide", "src/ocgis/calc/library/index/heat_index.py:HeatIndex"]}
{"id": "C100", "title": "Polygons converted to node coordinates cover what they covered and keep their data", "statement": "Converting a polygon geometry variable to node coordinates and element connectivity writes, in order, one element for every geometry that is not left out, with the data values of just these geometries. The exteriors written for a geometry belong to polygons that together cover exactly what the geometry covered: holes are opened by splitting at their centroid so that no written polygon has a hole, polygons with more nodes than a threshold are divided on a regular grid, others are unchanged. Holes without permission to split are refused. With permission to leave geometries out, exactly those are left out whose splitting fails without it. Removing self-intersections keeps every node once.", "quantifier": "for all polygons and multi-polygons with any number of nodes and holes, all options, all data variables, and every geometry engine that satisfies the stated laws", "why_tests_cant": "Tests convert a few polygons with one hole and a few shapes read from files; that no area is lost or filled for every arrangement of holes, that rows and data stay aligned whichever geometries are left out, and the combinations of options are not exercised.", "anchors": ["src/ocgis/variable/geom.py:GeometryVariable.convert_to", "src/ocgis/variable/geom.py:GeometrySplitter", "src/ocgis/variable/geom.py:get_split_polygon_by_node_threshold", "src/ocgis/variable/geom.py:do_remove_self_intersects", "src/ocgis/variable/geom.py:do_remove_self_intersects_multi", "src/ocgis/variable/geom.py:get_ccw_oriented_and_valid_shapely_polygon", "src/ocgis/util/helpers.py:get_iter"]}
{"id": "C101", "title": "Slicing and reducing a mesh keeps the shape of every element", "statement": "Choosing elements of an unstructured mesh gives the chosen elements with the shapes they had, in the order chosen. Reducing a mesh drops exactly the nodes no element mentions, keeps the others in their order and each once, renumbers the connectivity from the start index, and leaves every element with the same shape, the same number of nodes and the same mask; reducing again changes nothing.", "quantifier": "for all meshes with any number of nodes and elements, in the row layout and the counts-and-flat-array layout, all start indices, break values and masks, and all choices of elements", "why_tests_cant": "Tests reduce a few small meshes whose start index is 0 or passed explicitly; whether the renumbered connectivity still means the same nodes for every numbering, start index convention, break value and storage layout is not exercised.", "anchors": ["src/ocgis/spatial/geomc.py:AbstractGeometryCoordinates.reduce_global", "src/ocgis/spatial/geomc.py:AbstractGeometryCoordinates.__getitem__", "src/ocgis/spatial/geomc.py:AbstractGeometryCoordinates.cindex", "src/ocgis/spatial/geomc.py:AbstractGeometryCoordinates.start_index", "src/ocgis/spatial/geomc.py:reduce_reindex_coordinate_index", "src/ocgis/spatial/geomc.py:PolygonGC.get_element_node_connectivity_by_index"]}
{"id": "C102", "title": "A mesh written to a UGRID or ESMF unstructured file is read back as the same mesh", "statement": "Writing a polygon mesh as UGRID puts a topology variable into the file from which reading finds the same node coordinates, connectivity and face coordinates in the same order, and the dimension of the elements as the one to distribute. Writing it in the ESMF unstructured format and reading the file gives the same coordinates, start index, break value, mask and centres, and the same shape for every element. A file in that format that is read and written again is as before.", "quantifier": "for all meshes with any number of nodes, elements and nodes per element, all variable and dimension names, start indices and break values, with and without centres, masks and heights", "why_tests_cant": "Tests write two or three meshes with the names the library itself chooses; whether every name, start index, mask, centre and height survives, and whether a field changed between reading and writing is described correctly, is not exercised.", "anchors": ["src/ocgis/driver/nc_ugrid.py:DriverNetcdfUGRID.create_host_attribute_variable", "src/ocgis/driver/nc_ugrid.py:DriverNetcdfUGRID.create_dimension_map", "src/ocgis/driver/nc_ugrid.py:DriverNetcdfUGRID.get_distributed_dimension_name", "src/ocgis/driver/nc_ugrid.py:DriverNetcdfUGRID._get_field_write_target_", "src/ocgis/driver/nc_ugrid.py:set_coordinate_dmap_variables", "src/ocgis/driver/nc_esmf_unstruct.py:DriverESMFUnstruct.create_dimension_map", "src/ocgis/driver/nc_esmf_unstruct.py:DriverESMFUnstruct._get_field_write_target_", "src/ocgis/driver/nc_esmf_unstruct.py:DriverESMFUnstruct._convert_from_ugrid_", "src/ocgis/driver/dimension_map.py:DimensionMap.get_variable"]}
{"id": "C103", "title": "Bounds extrapolated from cell centres fit the centres", "statement": "A coordinate variable without bounds given extrapolated bounds gets one cell per centre. For a two-dimensional array every inner corner is the mean of the four centres around it and the outer corners are one mean step further out, in the direction in which the coordinates go; for a rectilinear grid every corner is the sum of the edges of its row and column, and for a regular grid every centre is the middle of its cell. Single values, variables with bounds and variables without dimensions are refused and nothing changes; a request with interpolate_spatial_bounds gives bounds to both coordinates of the grid.", "quantifier": "for all arrays of any number of rows and columns, increasing, decreasing or constant, all spacings, all variable names and collections", "why_tests_cant": "Tests extrapolate three or four small arrays with literal expected corners; the signs for every combination of directions, the rows and columns at the border for every size, and the state left behind by a refusal are only settled for all inputs by proof.", "anchors": ["src/ocgis/util/helpers.py:get_extrapolated_corners_esmf", "src/ocgis/util/helpers.py:get_extrapolated_corners_esmf_vector", "src/ocgis/util/helpers.py:get_is_increasing", "src/ocgis/util/helpers.py:get_bounds_from_1d", "src/ocgis/variable/base.py:Variable.set_extrapolated_bounds", "src/ocgis/variable/base.py:Variable.set_bounds", "src/ocgis/spatial/grid.py:Grid.set_extrapolated_bounds", "src/ocgis/ops/engine.py:OperationsEngine._update_bounds_extrapolation_"]}
{"id": "C104", "title": "Files opened by the library are closed, once, whatever happens", "statement": "A file that reading or writing opens by its location is closed again exactly once after it was opened, whether the work succeeds or fails at any point; files the caller opened stay open and are never closed; nothing is read from or written to a file that is not open. An exception of the work is the one the caller sees. An open object or a path given to the operation goes before the open file of the request dataset, and this before its location; the request's keyword arguments for the driver go before the operation's. A file created by several processes is opened collectively only in passes all processes make together.", "quantifier": "every program of nested and consecutive scopes, every point of failure, caught or not, every driver, every set of files that cannot be opened, every combination of open objects, paths, locations and keyword arguments, every number of processes, format and setting", "why_tests_cant": "A test sees a handful of scopes and failures; the number of open files after a failure depends on where the failure happened and how scopes were nested.", "anchors": ["src/ocgis/driver/base.py:driver_scope", "src/ocgis/driver/base.py:AbstractDriver.open", "src/ocgis/driver/base.py:AbstractDriver.close", "src/ocgis/driver/base.py:AbstractDriver.inquire_opened_state", "src/ocgis/driver/base.py:AbstractDriver._get_write_modes_", "src/ocgis/driver/nc.py:DriverNetcdf._open_", "src/ocgis/driver/nc.py:DriverNetcdf._get_write_modes_", "src/ocgis/driver/nc.py:DriverNetcdf._write_variable_collection_main_", "src/ocgis/driver/vector.py:DriverVector._open_", "src/ocgis/driver/vector.py:DriverVector._close_"]}
{"id": "C105", "title": "Aggregated results in a netCDF file stand at the place of their geometry", "statement": "When spatially aggregated results for several selection geometries are written to one netCDF file, the dimension of the geometries has one place for each selection geometry; at its place each geometry has its own centroid coordinates, its own properties, its own identifier and its own averages, whatever was written before or after; places without results are empty. Variables that do not depend on the geometry are written once, and a file with such results names its featureType and the identifier's cf_role and the history of its creation. Properties that clash with variables are an error. The file has the format asked for, or else the only one of the inputs, or the default of the environment; inputs in different formats are an error.", "quantifier": "every sequence of collections, empty or not, with any variables, values, properties and texts; every number of selection geometries; every name for the dimension; every list of request datasets and formats", "why_tests_cant": "Each collection writes into one file at an offset that depends on all collections before it; tests write two or three collections with the same properties.", "anchors": ["src/ocgis/conv/nc.py:NcConverter._preformatting_", "src/ocgis/conv/nc.py:NcConverter._get_file_format_", "src/ocgis/conv/nc.py:NcConverter._write_archetype_", "src/ocgis/conv/nc.py:NcConverter._write_coll_", "src/ocgis/conv/base.py:AbstractCollectionConverter.write", "src/ocgis/driver/nc.py:DriverNetcdf.write_variable", "src/ocgis/driver/nc.py:DriverNetcdf._write_variable_collection_main_", "src/ocgis/collection/spatial.py:SpatialCollection.archetype_field", "src/ocgis/variable/base.py:VariableCollection.add_variable", "src/ocgis/variable/base.py:VariableCollection.remove_variable"]}
{"id": "C106", "title": "A variable's value, mask, bounds and dimensions agree", "statement": "Whatever sequence of calls creates variables and sets their values, masks, dimensions and bounds, takes values that are not there, removes or allocates them, or reshapes, every variable's dimensions are found in its collection under different names, and its value and its mask have the lengths of these dimensions. A value is accepted exactly when it has as many axes as the variable has dimensions and the lengths of those that are not unlimited; a refused value or mask changes nothing; an accepted value gives unlimited dimensions its lengths and touches no other variable. A value that is not there is made with the dimensions' lengths. Reshaping keeps the elements in row-major order. After a mask was set, bounds are masked exactly where they or the variable are masked.", "quantifier": "all histories of calls on any number of variables, collections and dimension objects, of any rank and size, with any arrays, including refused calls", "why_tests_cant": "tests call one or two of these methods on one variable; the agreement depends on the whole history and on dimension objects shared between variables and collections", "anchors": ["src/ocgis/variable/base.py:Variable.set_value", "src/ocgis/variable/base.py:Variable.set_dimensions", "src/ocgis/variable/base.py:Variable.set_mask", "src/ocgis/variable/base.py:Variable.get_value", "src/ocgis/variable/base.py:Variable.get_mask", "src/ocgis/variable/base.py:Variable.reshape", "src/ocgis/variable/base.py:Variable.set_bounds", "src/ocgis/variable/base.py:Variable.allocate_value", "src/ocgis/variable/base.py:VariableCollection.add_dimension", "src/ocgis/variable/base.py:VariableCollection.add_variable", "src/ocgis/variable/base.py:are_variable_and_dimensions_shape_equal", "src/ocgis/variable/base.py:update_unlimited_dimension_length", "src/ocgis/variable/dimension.py:Dimension.__init__"]}
{"id": "C107", "title": "Weight generation touches only its own files", "statement": "Whatever options the chunked weight generation command is given and whatever fails on the way, the only paths that differ afterwards are those in its working directory, the path of the weights, the path of the subset, and directories made above the working directory. If it makes its working directory itself, nothing that was there before is changed or removed. A successful run leaves the weights, merged or computed at once as asked for, at the path given with the record of the command, and a subset at its path; unless told to persist it leaves nothing in the working directory, and if told to persist the files of every chunk and the index. An existing working directory is refused with a chunk count, and so are weights directly in it, and options that cannot be used, before anything changes.", "quantifier": "all combinations of options, all paths of any depth, all file systems, any number of chunks, and every point at which opening, subsetting, chunking, weight computation or merging can fail", "why_tests_cant": "tests run a handful of option combinations in an empty temporary directory; what is lost depends on which files are already there, on how the paths lie relative to each other and on where the run fails", "anchors": ["src/ocgis/ocli.py:chunked_rwg", "src/ocgis/ocli.py:handle_weight_file_check", "src/ocgis/ocli.py:_is_subdir_", "src/ocgis/ocli.py:_write_spatial_subset_", "src/ocgis/ocli.py:_create_request_dataset_", "src/ocgis/spatial/grid_chunker.py:GridChunker.write_chunks", "src/ocgis/spatial/grid_chunker.py:GridChunker.is_one_chunk", "src/ocgis/spatial/grid_chunker.py:GridChunker.write_esmf_weights", "src/ocgis/spatial/grid_chunker.py:GridChunker.create_merged_weight_file"]}
{"id": "C108", "title": "Extraction takes exactly what was asked for", "statement": "Extracting a variable from its collection gives a new collection with exactly the variable, its bounds if they are kept, its coordinate system if it is a spatial variable, and exactly the dimensions of these, in the order they had; the collection it came from is not changed. Extracting again changes nothing. With a clean break the old collection keeps exactly the other variables, as they were, loses exactly the dimensions nothing else has, and stays consistent. Extracting a grid takes exactly its coordinate and mask variables and their bounds, with the same effect on the old collection.", "quantifier": "all consistent collections with any number of variables, dimensions and tags, all variables and all sets of grid coordinates in them, with and without bounds and clean break", "why_tests_cant": "tests extract one variable from small collections; what is lost or left behind depends on which variables share bounds, dimensions and coordinate systems in the whole collection", "anchors": ["src/ocgis/variable/base.py:Variable.extract", "src/ocgis/variable/base.py:VariableCollection.remove_variable", "src/ocgis/spatial/base.py:AbstractSpatialVariable.extract", "src/ocgis/spatial/base.py:AbstractXYZSpatialContainer.get_member_variables", "src/ocgis/spatial/grid.py:Grid.extract"]}
{"id": "C109", "title": "Opening a netCDF file shows what is in it", "statement": "The metadata of a netCDF file tell of every group at every depth exactly its attributes, dimensions and variables, with their dimensions, attributes, types and fill values. A field opened from the file has a child for each group and, in each, exactly the variables of that group (those satisfying the predicate, if one is given), each with its own dimensions (with their sizes, unlimited or not), its attributes apart from packing, the type of the values netCDF reads, and the fill value that marks missing values.", "quantifier": "all netCDF files: any depth and number of groups, any dimensions, variables and attributes, packed or not, any predicate on variable names and any name for the field", "why_tests_cant": "tests open files with a few variables at the root; what is shown of a group depends on where it is and which names other groups have", "anchors": ["src/ocgis/driver/nc.py:parse_metadata", "src/ocgis/driver/nc.py:update_group_metadata", "src/ocgis/driver/nc.py:init_variable_using_metadata_for_netcdf", "src/ocgis/driver/base.py:AbstractDriver.create_raw_field", "src/ocgis/driver/base.py:AbstractDriver.create_variables", "src/ocgis/driver/base.py:AbstractDriver.init_variable_from_source", "src/ocgis/driver/base.py:AbstractDriver.get_metadata", "src/ocgis/variable/base.py:AbstractContainer.group", "src/ocgis/util/helpers.py:get_group"]}
{"id": "C110", "title": "The mask of a grid is the mask that was set", "statement": "A mask of the shape of the grid can be set on the grid, from an array or a variable, and is then, until another is set or it is removed, what the grid shows as its mask however it is asked for; setting, removing and asking leave every other variable of the field as it was. A mask of another shape is refused. A mask made from values hides exactly the cells one of whose coordinates is hidden or missing. With cascade, every other variable hides besides what it hid itself exactly the elements over hidden cells. The mask of a grid read from a SCRIP or ESMF unstructured file hides the cells whose mask value is zero.", "quantifier": "all fields with a grid of any dimensions and any variables, all masks, all histories of setting, removing and asking, all mask values of SCRIP and ESMF unstructured files", "why_tests_cant": "tests set one mask on a small grid and read it back; what is shown depends on the history and on the dimensions and masks of all other variables", "anchors": ["src/ocgis/driver/base.py:AbstractDriver.get_or_create_spatial_mask", "src/ocgis/driver/base.py:AbstractDriver.set_spatial_mask", "src/ocgis/driver/base.py:AbstractDriver.validate_spatial_mask", "src/ocgis/spatial/base.py:AbstractXYZSpatialContainer.mask_variable", "src/ocgis/spatial/base.py:create_spatial_mask_variable", "src/ocgis/spatial/grid.py:grid_set_mask_cascade", "src/ocgis/driver/nc_scrip.py:DriverScripNetcdf.get_or_create_spatial_mask"]}
{"id": "C111", "title": "The geometries of a grid are its cells", "statement": "The points of a grid are the centres of its cells and its polygons are their outlines, one for each cell in the cell's place, in slices of the grid as in the grid; masked cells have none, and the mask is that of the grid. If one-dimensional bounds follow on one another, the polygons cover the extent of the grid without overlap. A grid has polygons if it has bounds, unless told otherwise, and asking for points gives points and asking for polygons gives polygons, named as such. Assigning a grid to a slice of a grid gives the cells of the slice the coordinates, bounds and mask of the assigned grid and leaves all other cells as they were.", "quantifier": "all grids with one- or two-dimensional coordinates of any shape, rising or falling, with or without bounds and mask, all slices, all points of the extent, all assigned grids", "why_tests_cant": "tests compare a few cells of small grids; that every point of the extent is in exactly one cell, and that slicing commutes with making geometries, ranges over all coordinates, shapes and slices", "anchors": ["src/ocgis/spatial/grid.py:GridGeometryProcessor.get_geometry_iterable", "src/ocgis/spatial/grid.py:get_geometry_variable", "src/ocgis/spatial/grid.py:Grid.get_point", "src/ocgis/spatial/grid.py:Grid.get_polygon", "src/ocgis/spatial/grid.py:Grid.get_abstraction_geometry", "src/ocgis/spatial/grid.py:AbstractGrid.abstraction", "src/ocgis/spatial/grid.py:Grid.__getitem__", "src/ocgis/spatial/grid.py:Grid.__setitem__", "src/ocgis/variable/base.py:Variable.__setitem__"]}
{"id": "C112", "title": "Conforming units changes the numbers, not the quantities", "statement": "Conforming a variable to units of the same kind gives it and its bounds those units and leaves the quantities they stand for and what is masked, whether values are numbers or dates, whether they were read from the file or not, and also if the file is to be conformed on reading; conforming back gives the numbers there were. Units of another kind, or unknown ones, and variables without units are refused, and the variable is then as it was.", "quantifier": "all variables with any values, mask, bounds and data type, read or not, all units that are affine in their base unit, all conversions requested on reading, all orders of reading variable and bounds", "why_tests_cant": "tests convert a few temperatures; whether the quantity stays depends on data type, order of reading, the kind of file and what the bounds hold, for all numbers and units", "anchors": ["src/ocgis/variable/base.py:Variable.cfunits_conform", "src/ocgis/variable/base.py:Variable.set_value", "src/ocgis/variable/base.py:Variable.units", "src/ocgis/variable/temporal.py:TemporalVariable.value_numtime", "src/ocgis/util/units.py:get_conformed_units", "src/ocgis/driver/base.py:AbstractDriver.init_variable_value", "src/ocgis/driver/vector.py:DriverVector.init_variable_value", "src/ocgis/driver/nc.py:init_variable_using_metadata_for_netcdf"]}
{"id": "C113", "title": "A CSV file opened as a dataset shows its records", "statement": "Opening a CSV file gives a field with one variable for each column. On every process a variable shows the cells of its column in the records of that process's part, in the order of the file, and the processes together show every record once. That holds whenever the values are read: for slices of the field, after variables were renamed, added or assigned, and for files written by the library.", "quantifier": "all CSV files with any columns and records, records on several lines and blank lines included, all process counts, all columns, all selections, new names and assigned values, and all orders of these with reading", "why_tests_cant": "tests read small files on one process at once; the answer depends on the lines of the file, on the split over processes and on what was done to the field before the first value was read", "anchors": ["src/ocgis/driver/csv_.py:DriverCSV.get_variable_value", "src/ocgis/driver/csv_.py:DriverCSV._get_metadata_main_", "src/ocgis/driver/base.py:AbstractTabularDriver.get_distributed_dimension_name", "src/ocgis/driver/base.py:AbstractDriver.create_dist", "src/ocgis/driver/base.py:AbstractDriver.create_variables", "src/ocgis/variable/base.py:SourcedVariable.load", "src/ocgis/variable/dimension.py:Dimension.set_size"]}
{"id": "C114", "title": "Identifiers added to a shapefile", "statement": "Processing a shapefile writes, in the given folder and under the given key or the name of the source, a file with the features of the source in their order, each with an integer identifier as its first property. Identifiers are counted from one and differ from each other, other properties and valid geometries are kept, invalid geometries are cleaned, and no other file is changed. With a property to copy, each feature has the integer of that property. False of the code: copied identifiers need not differ and nothing is said; a property that is no integer for some feature leaves a file with the features before it; with the folder and name of the source all features are lost without an exception; the command ignores its options for the name and the property and ends with a TypeError without a folder.", "quantifier": "All files on disk, sources, folders, keys, names of the identifier, properties to copy, features, geometries, tests of validity and ways of cleaning.", "why_tests_cant": "Tests add identifiers to one shapefile and read them back; that identifiers differ, that nothing else changes and what is left after an exception must hold for every file, name and property.", "anchors": ["src/ocgis/util/shp_process.py:ShpProcess.process", "src/ocgis/util/shp_process.py:ShpProcess._get_meta_", "src/ocgis/util/shp_process.py:ShpProcess._iter_source_", "src/ocgis/util/shp_process.py:main"]}
{"id": "C115", "title": "Identifiers of the datasets of an operation", "statement": "Each dataset of an operation has the identifier it was given, or else its position among the datasets counted from one; going through the datasets again gives the same identifiers; the file of identifiers has one row for each data variable of each dataset, and the rows with the identifier of a dataset are its variables if identifiers differ. Identifiers should differ from each other and the caller's objects should not change. False of the code: a given identifier that is the position of another dataset is there twice; a request dataset listed twice has the same identifier both times; the caller's request datasets keep the identifier of their first operation, so that in a second operation it may be that of another dataset.", "quantifier": "All lists of request datasets, fields and dictionaries with and without identifiers, and all histories of two operations over the same objects.", "why_tests_cant": "Tests number one or two fresh datasets; whether identifiers clash depends on every combination of given identifiers and positions and on what was done with the same objects before.", "anchors": ["src/ocgis/ops/parms/definition.py:Dataset.__iter__", "src/ocgis/driver/request/core.py:RequestDataset.__init__", "src/ocgis/driver/base.py:AbstractDriver.__init__", "src/ocgis/driver/request/multi_request.py:MultiRequestDataset.uid", "src/ocgis/conv/base.py:_write_dataset_identifier_file_"]}
{"id": "C116", "title": "Groups stacked along a dimension", "statement": "groups_to_variable returns the first group with a new variable that has the names of the groups along a dimension, and every variable of the groups that has the dimension stacked along it: at each place are the values, masks and attributes of that group; other variables are kept. True for one variable with length one along the dimension in each group, except for masks and attributes. False of the code: masks, attributes and bounds of stacked variables are lost; two or more variables with the dimension are never stacked; groups with more than one place each are refused; an unlimited dimension that another variable has ends it with an exception; variables that only later groups have are left out; values of later groups are converted to the type of the first and a single value is repeated where the first group has several.", "quantifier": "All groups, variables, dimensions, values and positions.", "why_tests_cant": "The test stacks one variable of four groups and looks at the sum; each place of each variable of every number of groups, and which collections can be stacked at all, cannot be enumerated.", "anchors": ["src/ocgis/variable/base.py:VariableCollection.groups_to_variable", "src/ocgis/variable/base.py:VariableCollection.remove_variable", "src/ocgis/variable/base.py:VariableCollection.add_variable", "src/ocgis/variable/base.py:VariableCollection.add_dimension", "src/ocgis/variable/base.py:VariableCollection.iter_variables_by_dimensions"]}
{"id": "C117", "title": "The extent of a grid spread over processes", "statement": "extent_global is the same on every process and is the least and greatest of all coordinate values that are not masked, however the grid is spread over processes. True if every process has values. False of the code: a process with masked values only makes the extent of a grid with two-dimensional coordinates not-a-number on all processes, though a single process with the same values has an extent; masked values count for grids with one-dimensional coordinates; a process without a part of the grid raises and all others wait without end.", "quantifier": "All numbers of processes, all parts, all values and masks, both kinds of grids.", "why_tests_cant": "The test uses one grid spread evenly over the processes that happen to run; all values, masks and ways to spread them cannot be enumerated.", "anchors": ["src/ocgis/spatial/base.py:get_extent_global", "src/ocgis/spatial/base.py:AbstractOperationsSpatialObject.extent_global", "src/ocgis/spatial/grid.py:Grid._get_extent_", "src/ocgis/spatial/geomc.py:AbstractGeometryCoordinates._get_extent_"]}
{"id": "C118", "title": "The estimated size of a request", "statement": "get_base_request_size gives the size in kilobytes of every variable of every requested field, and their sum as total. True for fields of different names whose variables have dimensions; the total always is the sum of the sizes shown. False of the code: fields with the same name, as there are with several selection geometries, replace each other, so only the last geometry counts; variables without dimensions count as nothing; variables in groups are left out; with a regrid destination there is no estimate.", "quantifier": "All requests: collections, fields, names, variables, types and shapes.", "why_tests_cant": "Tests compare the sizes of one or two datasets; that the sum is complete for any number of geometries, fields and variables cannot be enumerated.", "anchors": ["src/ocgis/ops/core.py:OcgOperations.get_base_request_size", "src/ocgis/collection/spatial.py:SpatialCollection.iter_melted", "src/ocgis/variable/base.py:Variable.size"]}
{"id": "C119", "title": "The resolution of a coordinate variable", "statement": "The resolution of a variable is the mean distance of its first hundred successive values, or the mean width of its bounds if it has some; a single value without bounds is refused, and the report of a time variable shows it. False of the code: without bounds it always is too fine if two successive values are on different sides of zero; the report shows whole days only.", "quantifier": "All coordinate variables in one dimension: all values and bounds.", "why_tests_cant": "Tests use evenly spaced positive values; values of any sign, number and order cannot be enumerated.", "anchors": ["src/ocgis/variable/base.py:Variable.resolution", "src/ocgis/variable/temporal.py:TemporalVariable.get_report"]}
{"id": "C120", "title": "Tables with a shapefile of their geometries", "statement": "With output format csv-shp every record of the table has in the shapefile of geometries exactly one geometry with the same identifiers of dataset, selection geometry and geometry, and it is the geometry the record belongs to. True if the identifiers of dataset and selection geometry differ between fields and geometries have no identifiers of their own or have them under the name GID. False of the code: identifiers under another name end writing with an exception when the table is written already; fields with the same identifiers have several geometries under one key; of a first collection with several fields only the last is in the files; aggregated data have no such shapefile.", "quantifier": "All sequences of collections, fields, geometries, identifiers and records.", "why_tests_cant": "Tests write one or two datasets and look at the files; that every record finds its geometry for any number of collections and identifiers cannot be enumerated.", "anchors": ["src/ocgis/conv/csv_.py:CsvShapefileConverter._write_coll_", "src/ocgis/conv/csv_.py:CsvConverter._write_coll_", "src/ocgis/collection/field.py:Field.set_abstraction_geom", "src/ocgis/variable/base.py:Variable.create_ugid"]}
{"id": "C121", "title": "Choosing the dataset to regrid to", "statement": "A regrid destination given by name is the dataset with that field name, and a name that no dataset has is refused; without it the one dataset with the flag is chosen, two flags are refused, and without flags nothing is regridded; a destination needs a source, and exactly the sources are regridded. True for lower-case names of one dataset. False of the code: datasets with a capital letter or blanks around their name are never found; the last of several datasets with the name is chosen; with a field among the datasets a name ends with another exception; the destination itself counts as a source and is regridded to itself.", "quantifier": "All lists of datasets, flags, names and texts.", "why_tests_cant": "Tests try two or three datasets with short lower-case names; all texts, lists and flags cannot be enumerated.", "anchors": ["src/ocgis/ops/parms/definition.py:RegridDestination._parse_", "src/ocgis/ops/parms/base.py:AbstractParameter.parse_string", "src/ocgis/ops/engine.py:OperationsEngine._process_geometries_"]}
{"id": "C122", "title": "What a distribution over processes knows of dimensions and variables", "statement": "A dimension or variable added to a group of a distribution is there on every rank and is found by its name, the rest of the group stays, one that is there already is refused without change unless forced, all ranks know the same, and the ranks with an empty dimension are told. True for names that are the same in the source and for ranks from zero on. False of the code: a dimension with another name in its source is never found by its name, so that making one fails after it was added, and it silently replaces a dimension with the same source name; a variable with another name in its source is not found; looking in a group that is not there makes it, on the looking rank only; for ranks that do not include zero the empty ones are not told.", "quantifier": "All ranks, groups at any depth, dimensions, variables, names and earlier contents.", "why_tests_cant": "Tests add two or three dimensions to one or two groups; all names, groups, ranks and histories cannot be enumerated.", "anchors": ["src/ocgis/vmachine/mpi.py:OcgDist.add_dimension", "src/ocgis/vmachine/mpi.py:OcgDist.add_variable", "src/ocgis/vmachine/mpi.py:OcgDist.get_dimension", "src/ocgis/vmachine/mpi.py:OcgDist.get_variable", "src/ocgis/vmachine/mpi.py:OcgDist._create_or_get_group_", "src/ocgis/vmachine/mpi.py:OcgDist.get_empty_ranks"]}
{"id": "C123", "title": "Making a coordinate system from a definition", "statement": "A coordinate system is made of the definition, PROJ.4 text or code it is given; a definition goes before a text and a text before a code; nothing, or what the libraries make nothing of, is refused; a definition of longitudes and latitudes on the default sphere or with the datum WGS84 and no shift makes these systems, every other definition the system with that definition. False of the code: with the code 4326 a definition or text given as well is dropped; a definition with a code under 'init' is read only if that key comes first and the text is lower case, fails with another exception after a flag or number, and is dropped if a PROJ.4 text is given; for the sphere and WGS84 every other item of the definition and the name asked for are lost; a definition with both radius and datum, and a system without a definition, are refused.", "quantifier": "All definitions, texts, codes and names, and all behaviours of the projection libraries.", "why_tests_cant": "Tests try a handful of known definitions; all dictionaries with all orders of keys cannot be enumerated.", "anchors": ["src/ocgis/variable/crs.py:CoordinateReferenceSystem.__init__", "src/ocgis/variable/crs.py:AbstractCRS.fuzzy_check", "src/ocgis/variable/crs.py:create_crs", "src/ocgis/variable/crs.py:Spherical", "src/ocgis/variable/crs.py:WGS84"]}
{"id": "C124", "title": "Breaking a text into rows", "statement": "A text is broken into indented rows that hold all of its words in order, each narrower than the right edge and with no room for the first word of the next row; a single word is one row. True for words shorter than the space between indentation and right edge. False of the code: with a word that fits exactly into that space, among others, breaking the text never ends; with a longer word nothing is broken and the whole text is one row beyond the edge.", "quantifier": "All texts, indentations and right edges, and any number of turns of the loop.", "why_tests_cant": "Tests break a few sentences; that the loop ends, or never ends, for every text cannot be observed.", "anchors": ["src/ocgis/util/justify.py:justify_row"]}
{"id": "C125", "title": "The archive of the output", "statement": "Formatting what operations return gives the path itself for one csv or netCDF file without its auxiliary files, and otherwise the path of an archive that holds every file below the output folder with its content and nothing else; output in memory is refused. True for files told apart by their names and by being directly in a folder 'shp' or not. False of the code: of files with the same name in different folders only the last is found; no other folders are kept; done again, the archive is put into itself; for a path without a folder the archive is empty.", "quantifier": "All folders with any files at any depth, formats, prefixes and contents.", "why_tests_cant": "Tests archive one or two outputs; all trees of files and names cannot be enumerated.", "anchors": ["src/ocgis/util/zipper.py:format_return", "src/ocgis/util/zipper.py:get_items", "src/ocgis/util/zipper.py:Zipper.compress_path"]}
{"id": "C126", "title": "Times written as dates", "statement": "With units that write the date into the number (year, month and day as digits, the time of day as fraction), the time is that date, in the hour and minute that the fraction is in. True for years of four digits. False of the code: a year of three digits silently gives another date in a year ten times as late, earlier years are refused, a year of five digits gives another date, too, and seconds are dropped, so that times in the same minute cannot be told apart.", "quantifier": "All years up to 99999, months, days and fractions.", "why_tests_cant": "Tests convert a few recent dates; all dates and all fractions cannot be enumerated.", "anchors": ["src/ocgis/variable/temporal.py:get_datetime_from_template_time_units", "src/ocgis/variable/temporal.py:TemporalVariable.set_value"]}
{"id": "C127", "title": "Files in the order of their times", "statement": "Asking for files to be sorted by time gives the files that were given, all of them, in the order of the ends of their times. The order is true for all files. False of the code that all are there: of several files with the same last time only the one given last is in the answer, the others are dropped in silence; a file given twice is there once.", "quantifier": "All lists of files and all times they end at.", "why_tests_cant": "A test sorts two files; all lists and all ties cannot be enumerated.", "anchors": ["src/ocgis/util/helpers.py:get_sorted_uris_by_time_dimension"]}
{"id": "C128", "title": "Searching variables by attribute", "statement": "Searching a collection by attribute gives the variables that have an attribute of the name with the value (or with a value the predicate accepts; the value goes before the predicate), once each and in their order; searching metadata gives the names of the same variables. False of the code: without a name a variable is in the answer as often as it has attributes with the value; an attribute None cannot be searched by value, the call is refused as if no value were given; and a call with neither value nor predicate is only refused if some variable has the attribute.", "quantifier": "All collections, attributes, values and predicates.", "why_tests_cant": "A test searches a collection of a few variables; all collections and predicates cannot be enumerated.", "anchors": ["src/ocgis/variable/base.py:VariableCollection.find_by_attribute", "src/ocgis/driver/base.py:find_variable_by_attribute"]}
{"id": "C129", "title": "Attributes given for a calculation", "statement": "Attributes given with a calculation are on its output, over the attributes it has: given flat they are on the output variable and the field stays as it was; given for the variable and for the field they are on these. False of the code: if one of the flat attributes is a dictionary all of them are dropped in silence; a level that is no dictionary, beside one that is, is refused only when the output is written; merging further flat attributes forgets the earlier ones.", "quantifier": "All dictionaries of attributes, and all attributes of the output variable and the field.", "why_tests_cant": "Tests give one or two attributes; all dictionaries cannot be enumerated.", "anchors": ["src/ocgis/ops/parms/definition_helpers.py:MetadataAttributes", "src/ocgis/ops/parms/definition.py:Calc.parse", "src/ocgis/calc/base.py:AbstractFunction._add_to_collection_"]}
{"id": "C130", "title": "Variables of an opened file", "statement": "Opening a netCDF file gives a field with the file's variables the predicate asks for, in their order and under their new names, and with the file's groups as children, in which the same holds; a new name is the one given at the variable's place, other variables keep their names. True if the new names in a group are different. False of the code otherwise: of several variables that come to the same name only the last is in the field, the others are lost in silence.", "quantifier": "All files with all groups nested in any depth, all predicates and all lists of new names.", "why_tests_cant": "Tests open a few files; all files, depths of groups and new names cannot be enumerated.", "anchors": ["src/ocgis/driver/nc.py:read_from_collection", "src/ocgis/driver/request/core.py:RequestDataset.rename_variable_map"]}
{"id": "C131", "title": "Freeze and thaw: times and units", "statement": "The number of freeze and thaw transitions is computed for daily temperatures, in degrees Celsius or Kelvin, which give the same numbers for the same temperatures; data that are not daily are refused, and other units. True for daily data of the first data variable. False of the code: only the first two times are looked at, so that data of any later times are taken for daily; the units are those of the first data variable of the field, whatever the units of the variable that is calculated with, so that Kelvin can be taken for degrees Celsius; other units fail with an error about an unbound name.", "quantifier": "All times, all series of temperatures with masks, all thresholds and all lists of data variables.", "why_tests_cant": "Tests use one series of daily temperatures; all times, units and series cannot be enumerated.", "anchors": ["src/ocgis/calc/library/index/freeze_thaw.py:FreezeThaw.calculate"]}
{"id": "C132", "title": "The command in the history of a weight file", "statement": "The history of a weight file has the command that made it: every value given is in it after its option, different runs have different histories, and the command, given again, makes the same run. False of the code that it can be given again: a flag that is not set is written with a word after it, and some under names that are no options, so that the command is refused; and if all flags are set, those that are not set by default are missing, so that the run is another one. There is no run whose history is a command for it.", "quantifier": "All settings of all parameters of the command.", "why_tests_cant": "A test looks at one history string; the settings of 23 parameters cannot be enumerated.", "anchors": ["src/ocgis/ocli.py:create_history_string", "src/ocgis/ocli.py:chunked_rwg"]}
{"id": "C133", "title": "Chunks of a SCRIP grid", "statement": "A SCRIP destination grid asked to be in n chunks is split into n chunks such that every cell is in exactly one, cells of one latitude are together, chunks go from south to north, and none is empty. The driver's chunks have this but for the last: with more chunks than different latitudes the last is empty. False of the code that the grid chunker gets them: it hands the driver a keyword the driver does not take, so iterating the chunks always raises a TypeError.", "quantifier": "All centre latitudes in any order and with any repeats, all numbers of chunks.", "why_tests_cant": "A test splits one grid; whether every cell is in exactly one chunk depends on all latitudes, their repeats and the number of chunks.", "anchors": ["src/ocgis/driver/nc_scrip.py:DriverNetcdfSCRIP._gc_iter_dst_grid_slices_", "src/ocgis/spatial/base.py:_gc_iter_dst_grid_slices_", "src/ocgis/spatial/grid_chunker.py:GridChunker.iter_dst_grid_slices"]}
{"id": "C134", "title": "The name of a grouping by seasons", "statement": "The name of a grouping by seasons, put in the history of an icclim index, tells the grouping: groupings with the same name have the same seasons in the same order and the same flags; a month outside 1 to 12 is refused. True if all seasons are runs of two to twelve months, but for where flags are. False otherwise: a season of one month is named by its first letter, so that January, June and July, March and May, April and August are not told apart; of several flags only the last is named.", "quantifier": "All groupings: any number of seasons, of any months, with flags anywhere.", "why_tests_cant": "A test names one grouping; that names differ is a claim about all pairs of groupings.", "anchors": ["src/ocgis/calc/temporal_groups.py:SeasonalTemporalGroup.icclim_mode", "src/ocgis/contrib/library_icclim.py"]}
{"id": "C135", "title": "Messages, warnings and errors through the logger", "statement": "However the logger was configured before, an exception handed to it is raised, a warning never raises and is issued exactly if warnings are not suppressed or it is forced; only the last configuration matters; its callback gets every message at or above its level; and every message at or above the level is in the log with what it is about. True of messages. False of warnings and exceptions: the log has neither the dataset alias and geometry of a warning nor its message if an exception is given, and never says which exception was raised.", "quantifier": "All histories of configurations and shutdowns, all calls.", "why_tests_cant": "A test makes one call on a freshly configured logger; that only the last configuration matters is a claim about all histories.", "anchors": ["src/ocgis/util/logging_ocgis.py:OcgisLogging"]}
