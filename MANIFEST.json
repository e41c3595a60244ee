{
 "claims": [
  {
   "property": "C01",
   "status": "proved",
   "theorems": [
    "Ocgis.Props.C01_rank_bounds_partition"
   ],
   "note": "Full property. C01. For every element count, every positive process count: each rank gets a range or nothing (never an error); the ranges in rank order concatenate to `0, ..., n-1`; a rank gets nothing exactly when it is at or above `min n size`; ranges are non-empty and their lengths differ by at most one."
  },
  {
   "property": "C02",
   "status": "partial",
   "theorems": [
    "Ocgis.Props.C02_update_dimension_bounds_partial",
    "Ocgis.Props.C02_update_dimension_bounds_counterexample",
    "Ocgis.Props.C02_group_update",
    "Ocgis.Props.C02_whole_update",
    "Ocgis.Props.C02_minimum_refused",
    "Ocgis.Props.C02_empty_ranks"
   ],
   "note": "The code violates the full property:  C02 is false of the code: a one-element dimension distributed over two ranks with the default `min_elements=2` is emptied on every rank, so its element is owned by nobody. Proved part:  C02, partial: the statement holds whenever the dimension has at least `min_elements` elements or there is only one rank. Missing: `0 < len < min_elements` on several ranks, where it is false (next theorem)."
  },
  {
   "property": "C03",
   "status": "partial",
   "theorems": [
    "Ocgis.Props.C03_scatter_gather_partial",
    "Ocgis.Props.C03_lost_element_counterexample",
    "Ocgis.Props.C03_hgather",
    "Ocgis.Props.C03_dgather"
   ],
   "note": "The code violates the full property:  C03 is false of the code for a variable with one element on two ranks (and the default `min_elements=2`): no rank is sent anything. Proved part:  C03, partial (as C02: the distribution loses no element). Scattering a variable over the pieces of a distribution and gathering the non-empty parts again gives the same hyperslabs (values and mask) in the same order, with the source indices of the distributed dimension and its length restored. Missing: fewer elements than `min_elements` on several ranks, where it is false (`C03_lost_element_counterexample`)."
  },
  {
   "property": "C04",
   "status": "proved",
   "theorems": [
    "Ocgis.Props.C04_global_to_local",
    "Ocgis.Props.C04_none_rejected"
   ],
   "note": "Full property. C04. For integer start/stop the translation never fails, and the local positions it selects are exactly the positions `i` of the process whose global index `lower + i` lies in `[start, stop)`. C04: an open-ended request (`None`) is rejected."
  },
  {
   "property": "C05",
   "status": "partial",
   "theorems": [
    "Ocgis.Props.C05_distributed_slice",
    "Ocgis.Props.C05_negative_slice_counterexample"
   ],
   "note": "The code violates the full property:  Outside C05's guard: with negative bounds the parallel slice is not the serial one. `dim[-3:-1]` of a two-rank dimension of four elements selects two elements serially and none in parallel."
  },
  {
   "property": "C06",
   "status": "partial",
   "theorems": [
    "Ocgis.Props.C06_arange_from_dimension",
    "Ocgis.Props.C06_ugid_global_partial",
    "Ocgis.Props.C06_ugid_empty_counterexample",
    "Ocgis.Props.C06_create_distributed_dimension"
   ],
   "note": "The code violates the full property:  C06 is false of unique identifiers on a rank that holds no element: they are refused (callers must enter a scope of the non-empty ranks). Proved part:  C06, unique identifiers (`create_ugid_global`), partial: as above, when no rank is empty. Missing: ranks without elements, which are refused (`C06_ugid_empty_counterexample`)."
  },
  {
   "property": "C07",
   "status": "proved",
   "theorems": [
    "Ocgis.Props.C07_nd_slices_tile",
    "Ocgis.Props.C07_slices_concatenate",
    "Ocgis.Props.C07_too_many_splits_rejected",
    "Ocgis.Props.C07_optimal_splits_legal"
   ],
   "note": "Full property. C07: with between one and the dimension's length splits per dimension, slicing succeeds and every position of the array is selected by exactly one of the slice tuples. C07, one dimension: the slices follow each other in order, so that concatenating the pieces they select from an array gives the array back. C07: asking for more splits than elements is an error (there would be an empty slice). C07: the splits chosen automatically for a shape without zero-length dimensions are legal, whatever the rounding of the floating point root (as long as it is at least one)."
  },
  {
   "property": "C08",
   "status": "partial",
   "theorems": [
    "Ocgis.Props.C08_unique_global_partial",
    "Ocgis.Props.C08_each_value_once_partial",
    "Ocgis.Props.C08_empty_counterexample"
   ],
   "note": "The code violates the full property:  C08 is false of a rank without values: the operation fails there (and the other ranks wait for it). Proved part:  C08, partial (no rank's array is empty; otherwise see `C08_empty_counterexample`): on every schedule of the collective unique operation, each rank returns, sorted and without repetition, exactly those of its values that no lower rank holds. C08, partial as above: hence every value of every rank is returned by exactly one rank, once."
  },
  {
   "property": "C09",
   "status": "partial",
   "theorems": [
    "Ocgis.Props.C09_serial",
    "Ocgis.Props.C09_parallel_partial"
   ],
   "note": "Proved part:  C09, any number of processes: on every schedule the preparatory collective steps succeed, and whatever the order of steps of the exchange (with prompt or delayed message delivery), no process fails, and a process that is done holds new indices which refer, in the concatenation of the ranks' retained nodes, to the nodes its old ones referred to; retained nodes are exactly those referenced somewhere, each once. Partial: no rank's array is empty (the unique operation refuses that, `C08_empty_counterexample`), no index is negative, and that every process gets done is C10."
  },
  {
   "property": "C10",
   "status": "partial",
   "theorems": [
    "Ocgis.Props.C10_never_stuck_partial",
    "Ocgis.Props.C10_deadlock_counterexample"
   ],
   "note": "The code violates the full property:  C10 is false of the code when message delivery may be delayed: three processes can get into a state from which they never complete, because each polls for requests once, before the other's request has arrived, and then waits for its own reply without polling again. The starting data is what the preparatory steps give for these index arrays. Proved part:  C10, when a sent message can be received at once: from every state the exchange can get into, it can still complete on every process, so no interleaving leads to a deadlock. Missing: the same for delayed delivery, where it is false (`C10_deadlock_counterexample`); and a bound on the number of fruitless polls, which needs a fairness assumption."
  },
  {
   "property": "C11",
   "status": "partial",
   "theorems": [
    "Ocgis.Props.C11_scope_restores_partial",
    "Ocgis.Props.C11_same_name_counterexample",
    "Ocgis.Props.C11_serial_restores",
    "Ocgis.Props.C11_by_name_restores",
    "Ocgis.Props.C11_barrier_scope",
    "Ocgis.Props.C11_serial_name_remains_counterexample"
   ],
   "note": "The code violates the full property:  C11 is false of the code when an inner scope reuses the name of a surrounding scope and this process sees an empty rank list: the inner scope silently replaces and then frees the outer communicator, the outer scope's exit fails, and the current communicator is left pointing to a name that no longer exists. With the serial communicator the name of a finished scope stays registered (it still denotes the serial communicator). Proved part:  C11 on a parallel virtual machine: take any scope with any body (nested scopes, failures, hand-made sub-communicators), where `active` are the scopes around it, including the current one. If the scope is entered, then afterwards - whether the body returned or raised - the current communicator (by name and by value) is the one before, the scope's sub-communicator is gone, the scopes around it still have theirs, and the outcome of the scope is the outcome of the body. If it cannot be entered, nothing changes. Missing: bodies that open a scope under the name of a surrounding one with an empty rank list (`C11_same_name_counterexample`), or free a surrounding scope's name."
  },
  {
   "property": "C12",
   "status": "proved",
   "theorems": [
    "Ocgis.Props.C12_serial_delivery",
    "Ocgis.Props.C12_once_and_separate",
    "Ocgis.Props.C12_serial_collectives"
   ],
   "note": "Full property. C12: after every history of sends, polls and receives, the serial communicator holds for each source and tag exactly the latest payload sent to them and not received since; so `Test` answers whether there is one, and `wait` delivers it and returns, or spins when there is none. C12: a message is delivered once, and messages for other sources or tags are unaffected by a receive. C12: the serial collectives are those of one process; a scatter delivers the first element, and fails on an empty sequence."
  },
  {
   "property": "C13",
   "status": "partial",
   "theorems": [
    "Ocgis.Props.C13_source_indices_follow_partial",
    "Ocgis.Props.C13_length_follows_partial",
    "Ocgis.Props.C13_open_slice_counterexample",
    "Ocgis.Props.C13_negative_array_counterexample",
    "Ocgis.Props.C13_negative_int_counterexample"
   ],
   "note": "The code violates the full property:  C13 is false of open-ended slices: `dim[:2]` on a five-element dimension without source indices stays five long; with bounds as source index it raises; `dim[-1:]` likewise. C13 is false of index arrays with negative entries on a dimension whose source index is a pair of bounds: the source indices are silently wrong. C13 is false of `dim[-1]`: it raises although numpy returns the last element. Proved part:  C13 (partial: chains of supported indices). Slicing a dimension that carries source indices by any chain of supported indices, no intermediate result being empty, succeeds; the result's source indices are those numpy picks from the original list with the same chain, and its length is their number. Missing: indices outside `Supported` (open-ended or negative slices, negative integers, unsorted or repeated index arrays, for which the claim is false - see the counterexamples). C13 (partial, as above) for a dimension without source indices: its length is the number of elements numpy picks from any list of the original length."
  },
  {
   "property": "C14",
   "status": "partial",
   "theorems": [
    "Ocgis.Props.C14_formatted_slice_partial",
    "Ocgis.Props.C14_minus_one_counterexample",
    "Ocgis.Props.C14_descending_counterexample"
   ],
   "note": "The code violates the full property:  C14 is false of the integer -1: it becomes the empty slice `-1:0`. C14 is false of descending index arrays: `[2, 0]` becomes `0:3`. Proved part:  C14 (partial: excludes the integer -1 and index arrays that neither contain a jump nor are a run). Normalising an index and selecting with the result selects the elements the original index selects: any slice, any boolean array, `None`, any valid integer but -1, any array with a jump, and any run of consecutive non-negative valid positions."
  },
  {
   "property": "C15",
   "status": "partial",
   "theorems": [
    "Ocgis.Props.C15_same_selection_iff_partial",
    "Ocgis.Props.C15_order_counterexample",
    "Ocgis.Props.C15_empty_rejected"
   ],
   "note": "The code violates the full property:  C15 is false of descending arrays and of repeated elements: `[5, 1]` becomes `1:6`, `[2, 2]` becomes `2:3`. Proved part:  C15 (partial: the property is false in general; this is exactly when it holds). For a non-empty array of valid positions, the conversion (with the difference check) selects the same elements in the same order from the array of all positions if and only if the array contains a jump or is a run of consecutive integers."
  },
  {
   "property": "C16",
   "status": "partial",
   "theorems": [
    "Ocgis.Props.C16_swap_chain",
    "Ocgis.Props.C16_swap_means",
    "Ocgis.Props.C16_swap_chain_mismatch",
    "Ocgis.Props.C16_broadcast_by_names",
    "Ocgis.Props.C16_broadcast_rejects",
    "Ocgis.Props.C16_broadcast_variable",
    "Ocgis.Props.C16_scope_restores_partial",
    "Ocgis.Props.C16_scope_dropping_counterexample"
   ],
   "note": "The code violates the full property:  C16: a scope that drops a dimension of length one cannot put it back: it ends with an error and the variable has lost the dimension. Proved part:  C16: at the end of a broadcast scope for a permutation of the dimensions, whether the body returned or raised, the dimensions are in their original order and every element that the body left is at its named position; in particular a body that leaves the variable alone leaves the original values and mask. Scopes that drop a length-one dimension are missing (`C16_scope_dropping_counterexample`)."
  },
  {
   "property": "C17",
   "status": "proved",
   "theorems": [
    "Ocgis.Props.C17_trim",
    "Ocgis.Props.C17_all_masked"
   ],
   "note": "Full property. C17: for every two-dimensional array with an unmasked element, trimming succeeds; the result is the block of rows `r0..r1-1` and columns `c0..c1-1`, every unmasked element is in it, and each of its four borders has an unmasked element. C17: a fully masked array (an empty one included) is refused."
  },
  {
   "property": "C18",
   "status": "proved",
   "theorems": [
    "Ocgis.Props.C18_bounds_contiguous",
    "Ocgis.Props.C18_too_short",
    "Ocgis.Props.C18_even_cells",
    "Ocgis.Props.C18_interior_inside",
    "Ocgis.Props.C18_uneven_edge_outside"
   ],
   "note": "Full property. C18: for every vector of at least two centroids, the bounds are computed, there is one cell per centroid, and neighbouring cells share their edge, which is the midpoint of the two centroids. C18: fewer than two centroids are refused. C18: for evenly spaced centroids, increasing or decreasing, every cell has the width of the spacing and the centroid is its centre, hence strictly inside. C18: with strictly increasing centroids of any spacing, every centroid but the first and the last lies strictly inside its cell. C18: the restriction to even spacing matters: the first centroid of an unevenly spaced vector can lie outside its own cell."
  },
  {
   "property": "C19",
   "status": "proved",
   "theorems": [
    "Ocgis.Props.C19_mesh_round_trip",
    "Ocgis.Props.C19_cells_round_trip"
   ],
   "note": "Full property. C19, mesh to cells to mesh: from the corners of the cells of any mesh (with at least one cell), the mesh comes back, rows and columns exchanged as documented. C19, cells to mesh to cells: whenever neighbouring cells share corners, converting to a mesh (and exchanging its axes back) and then to cells gives every cell the same four corners, in the same order."
  },
  {
   "property": "C20",
   "status": "proved",
   "theorems": [
    "Ocgis.Props.C20_wrap_unwrap",
    "Ocgis.Props.C20_seam",
    "Ocgis.Props.C20_arrays",
    "Ocgis.Props.C20_points",
    "Ocgis.Props.C20_point_axis_ignored"
   ],
   "note": "Full property. C20, on single longitudes. C20: the two seam values do not come back: 360 becomes 0 and -180 becomes 180. C20, on arrays: element by element, the same length, and mutually inverse away from the seam. C20, on points, with the default axes. C20: with another wrap axis, points are still wrapped at 180 while arrays are wrapped at the given axis."
  },
  {
   "property": "C21",
   "status": "partial",
   "theorems": [
    "Ocgis.Props.C21_rotation_partial",
    "Ocgis.Props.C21_rotation_vector",
    "Ocgis.Props.C21_nothing_lost",
    "Ocgis.Props.C21_increasing",
    "Ocgis.Props.C21_row_without_negative_counterexample"
   ],
   "note": "The code violates the full property:  C21: a row without a negative longitude (possible in a wrapped two-dimensional grid) makes the whole reordering fail. Proved part:  C21, partial (rows without a negative longitude are excluded, see the counterexample below): when every longitude row has a negative value, reordering succeeds for all arrays over the rows: each row of longitudes and each line of data (values with their masks) of that row is rotated by the same amount, so that the row's first negative longitude comes first."
  },
  {
   "property": "C22",
   "status": "proved",
   "theorems": [
    "Ocgis.Props.C22_expand",
    "Ocgis.Props.C22_counter_clockwise",
    "Ocgis.Props.C22_shape"
   ],
   "note": "Full property. C22: for every rectilinear grid, the cell in row `i` and column `j` of the expanded grid has the centre given by the `j`-th longitude and `i`-th latitude, and the corners of the rectangle of the `j`-th and `i`-th bounds, counter-clockwise from the lower left. C22: and the corners are in counter-clockwise order. C22: the expanded arrays have one entry per cell."
  },
  {
   "property": "C23",
   "status": "partial",
   "theorems": [
    "Ocgis.Props.C23_parts_union",
    "Ocgis.Props.C23_nothing_lost_partial",
    "Ocgis.Props.C23_points",
    "Ocgis.Props.C23_even_grid",
    "Ocgis.Props.C23_centred_grid_counterexample"
   ],
   "note": "The code violates the full property:  C23 counterexample: the resolution is computed from absolute coordinates, so it is zero for this evenly spaced grid centred on zero; the hint then drops the only cell that contains the rectangle (1..2, 1..2), and nothing is selected. Proved part:  C23, partial (the last two hypotheses: no cell reaches further from its centre than 1.25 times the resolution): the subset masks exactly the cells that were masked or that the exact test rejects, so the hint loses nothing."
  },
  {
   "property": "C24",
   "status": "partial",
   "theorems": [
    "Ocgis.Props.C24_no_gaps",
    "Ocgis.Props.C24_row_major",
    "Ocgis.Props.C24_no_overlap",
    "Ocgis.Props.C24_covers_extent",
    "Ocgis.Props.C24_single_element_counterexample"
   ],
   "note": "The code violates the full property:  C24 counterexample: whichever element is asked for, the decomposition yields nothing."
  },
  {
   "property": "C25",
   "status": "partial",
   "theorems": [
    "Ocgis.Props.C25_exact_shift",
    "Ocgis.Props.C25_converts_partial",
    "Ocgis.Props.C25_converts_counterexample",
    "Ocgis.Props.C25_difference",
    "Ocgis.Props.C25_round_trip"
   ],
   "note": "The code violates the full property:  C25 counterexamples: a gap of two years, a decreasing vector over a year boundary and a negative offset are all refused. Proved part:  C25, partial (offsets must start non-negative and never fall or jump by more than a year; see the counterexamples): such a vector is always converted, as long as the dates stay before the year 10000."
  },
  {
   "property": "C26",
   "status": "proved",
   "theorems": [
    "Ocgis.Props.C26_one_group",
    "Ocgis.Props.C26_same_group",
    "Ocgis.Props.C26_no_empty_group"
   ],
   "note": "Full property. C26: every time step is in exactly one group. C26: two time steps share a group exactly when they agree on all grouping parts. C26: no group is empty, and every group says for each time step whether it belongs."
  },
  {
   "property": "C27",
   "status": "partial",
   "theorems": [
    "Ocgis.Props.C27_ordered",
    "Ocgis.Props.C27_permutation_partial",
    "Ocgis.Props.C27_counterexample"
   ],
   "note": "The code violates the full property:  C27 is false: two seasons ending with the same month are sorted into one. Proved part:  C27 (partial: the seasons are not empty and no two of them end (`max`) or begin (`min`) with the same month): the result contains exactly the seasons given, in order."
  },
  {
   "property": "C28",
   "status": "partial",
   "theorems": [
    "Ocgis.Props.C28_complete_partial",
    "Ocgis.Props.C28_removal_counterexample",
    "Ocgis.Props.C28_year_gap_counterexample",
    "Ocgis.Props.C28_single_year_counterexample"
   ],
   "note": "The code violates the full property:  C28 is false: with two season-years without data, complete seasons are lost (here the whole selection fails). C28 is false: with a year missing, December of one year and January and February of a later one make a season. C28 is false: within one year, December and the January and February before it make a season. Proved part:  C28 (partial: consecutive years; seasons of consecutive months; more than one year if a season goes over the turn of the year; and at most one season-year with no data at all in one of its years): the groups are exactly those of the complete seasons, in order of year and season, and each group holds exactly the time steps of its season."
  },
  {
   "property": "C29",
   "status": "partial",
   "theorems": [
    "Ocgis.Props.C29_exact",
    "Ocgis.Props.C29_refused",
    "Ocgis.Props.C29_cells_partial",
    "Ocgis.Props.C29_cells_counterexample"
   ],
   "note": "The code violates the full property:  C29 with longer cells is false: a cell from December to March is not kept when January is asked for, although a December-to-March range contains January. Proved part:  C29, cells with bounds (partial: cells of one month at most): the cells kept are exactly those beginning in one of the months and years asked for, in their order."
  },
  {
   "property": "C30",
   "status": "partial",
   "theorems": [
    "Ocgis.Props.C30_range_partial",
    "Ocgis.Props.C30_crossing",
    "Ocgis.Props.C30_crossing_counterexample"
   ],
   "note": "The code violates the full property:  C30 is false: January lies between December and March, but is not accepted. Proved part:  C30 (partial: the range does not go over the end of the year). For years the range never does."
  },
  {
   "property": "C31",
   "status": "partial",
   "theorems": [
    "Ocgis.Props.C31_nothing_to_check",
    "Ocgis.Props.C31_years_partial",
    "Ocgis.Props.C31_month_sound_partial",
    "Ocgis.Props.C31_month_accepted_partial",
    "Ocgis.Props.C31_month_after_range_counterexample",
    "Ocgis.Props.C31_first_month_counterexample",
    "Ocgis.Props.C31_middle_month_counterexample",
    "Ocgis.Props.C31_february_counterexample",
    "Ocgis.Props.C31_several_months_partial",
    "Ocgis.Props.C31_months_and_years",
    "Ocgis.Props.C31_empty_region"
   ],
   "note": "The code violates the full property:  C31 is false: February is accepted for a range from 15 to 20 January 1970. C31 is false: January is refused for a range from 15 to 20 January 1970. C31 is false: only the smallest and the largest month are looked at; June is accepted for a range from 15 November 1970 to 15 February 1971 if it is asked for together with January and December. C31 is false: February is stepped over in a range from 31 January 1970 to 30 November 1970. Proved part:  C31, years (partial: regions without months): accepted exactly when every year asked for occurs in the range. C31, months (partial: one month only, and only one direction): a month that is accepted occurs between the beginning of the range and 29.5 days after its end. C31, months (partial: the months of every 59th half day only): the month of every moment `t0 + 29.5 d \u00b7 k` (`k \u2265 1`) in the range is accepted. C31, several months (partial: single months only as in the theorems above): a list of months is accepted exactly when its smallest and its largest month are each accepted on their own."
  },
  {
   "property": "C32",
   "status": "partial",
   "theorems": [
    "Ocgis.Props.C32_values",
    "Ocgis.Props.C32_bounds",
    "Ocgis.Props.C32_refused",
    "Ocgis.Props.C32_bounds_refused",
    "Ocgis.Props.C32_indices_counterexample"
   ],
   "note": "The code violates the full property:  C32 is false with indices: when what is left is one run of elements, the call fails instead of naming them."
  },
  {
   "property": "C33",
   "status": "proved",
   "theorems": [
    "Ocgis.Props.C33_union",
    "Ocgis.Props.C33_refused",
    "Ocgis.Props.C33_history",
    "Ocgis.Props.C33_any_order"
   ],
   "note": "Full property. C33: an update masks exactly the union. C33: an update is refused exactly if its mask has another shape. C33: after any history of updates, loads and reads of the mask, masked is exactly what was masked before, what any of the updates masks, and, if the values have been loaded, what is masked in the source. C33: the order of the updates makes no difference."
  },
  {
   "property": "C34",
   "status": "partial",
   "theorems": [
    "Ocgis.Props.C34_cascade_partial",
    "Ocgis.Props.C34_same_dimensions_counterexample",
    "Ocgis.Props.C34_no_mask",
    "Ocgis.Props.C34_collection",
    "Ocgis.Props.C34_spatial_mask"
   ],
   "note": "The code violates the full property:  C34 is false without update for a variable over the same dimensions in the same order: what was masked there is no longer. Proved part:  C34 (the variables have different dimensions, or existing masks are updated): cascading a mask from one variable to another masks exactly the elements whose coordinates along the shared dimensions are those of a masked element of the source, in addition to those already masked; whatever the order of the dimensions, and whichever others there are."
  },
  {
   "property": "C35",
   "status": "partial",
   "theorems": [
    "Ocgis.Props.C35_concatenation_complete",
    "Ocgis.Props.C35_stack_partial",
    "Ocgis.Props.C35_missing_dimension",
    "Ocgis.Props.C35_dimension_order_counterexample",
    "Ocgis.Props.C35_broadcast_counterexample"
   ],
   "note": "The code violates the full property:  C35 is false for variables whose dimensions are in different orders: the values go in by position, so the element of the second variable at y = 0, x = 1 is found at y = 1, x = 2 + 0 instead of y = 0, x = 2 + 1. C35 is false for variables whose other sizes differ, if one is a single element: instead of an error, the element is repeated. Proved part:  C35 (variables with the same dimensions in the same order, of the same sizes but for the stacked one): stacking succeeds, and the values and the mask of the result are the concatenations of the values and masks in the order of the inputs; it has no mask only if none of them has one."
  },
  {
   "property": "C36",
   "status": "partial",
   "theorems": [
    "Ocgis.Props.C36_history_partial",
    "Ocgis.Props.C36_removal",
    "Ocgis.Props.C36_refused_partial",
    "Ocgis.Props.C36_refused_addition_counterexample",
    "Ocgis.Props.C36_forced_counterexample",
    "Ocgis.Props.C36_rename_onto_counterexample",
    "Ocgis.Props.C36_tags_counterexample"
   ],
   "note": "The code violates the full property:  C36 is false of refused additions: the dimensions added before the refusal stay. C36 is false of forced additions: a dimension of another size takes the place of that of a stored variable. C36 is false if a dimension is given the name of another: the variable then has a dimension of the wrong size. C36 is false of tags: names that are not stored can be tagged, and a tagged variable that is renamed leaves its old name. Proved part:  C36 (careful histories): after any history of operations, whether they succeed or not, the collection is consistent: nothing is forced, what is added is itself consistent, dimensions and variables are renamed to names that are not in use, tagged names are those of stored variables, and a tagged variable is not renamed. C36: dimensions that cannot be added, variables that cannot be removed or renamed, dimensions that cannot be renamed and names that cannot be added to a tag leave the collection as it was."
  },
  {
   "property": "C37",
   "status": "partial",
   "theorems": [
    "Ocgis.Props.C37_last_child_decides",
    "Ocgis.Props.C37_uniform_partial",
    "Ocgis.Props.C37_counterexample"
   ],
   "note": "The code violates the full property:  C37 is false: only the last child counts. With a child that is not empty before one that is, the collection is reported empty although neither it nor the first child is; with the children the other way round it is not. Proved part:  C37 (uniform trees): a collection which is empty with all of its descendants is reported empty; one which is not, and none of whose descendants is, is not."
  },
  {
   "property": "C38",
   "status": "partial",
   "theorems": [
    "Ocgis.Props.C38_collection_partial",
    "Ocgis.Props.C38_dictionary_of_slice",
    "Ocgis.Props.C38_unknown_dimension",
    "Ocgis.Props.C38_two_arrays_counterexample",
    "Ocgis.Props.C38_mapped_slice"
   ],
   "note": "The code violates the full property:  C38 is false with index arrays for two dimensions of a variable: the dimensions become two by two, the variable has two elements. Proved part:  C38 (indices the library treats like numpy, and at most one index array for the dimensions of any one variable): slicing a collection by a dictionary of dimension names succeeds. There are positions to keep for each dimension, those the index given for it selects, or all of them if none is given; each dimension becomes as long as their number, and every variable is restricted to these same positions along each of its dimensions, whatever their order."
  },
  {
   "property": "C39",
   "status": "partial",
   "theorems": [
    "Ocgis.Props.C39_renamed_dimensions",
    "Ocgis.Props.C39_inside",
    "Ocgis.Props.C39_renamed_on_variables_partial",
    "Ocgis.Props.C39_added_variable_counterexample",
    "Ocgis.Props.C39_swap_counterexample",
    "Ocgis.Props.C39_abstraction",
    "Ocgis.Props.C39_automatic_abstraction_counterexample"
   ],
   "note": "The code violates the full property:  C39 is false when the body adds a variable (or renames one): the scope ends with a `KeyError`, and the variables after the new one keep their temporary dimension names. C39: inside the scope a mapping that swaps two names does not swap them on the variables. C39 is false of the stored abstraction: an automatic abstraction is fixed by the scope, and no longer follows the grid when bounds are added to it. Proved part:  C39 (scopes that add no variable): after the scope the collection's dimensions, their names, and the dimension names of its variables are what they were before, whatever else the body does, and also when it or the setting up raises; the exception comes through."
  },
  {
   "property": "C40",
   "status": "partial",
   "theorems": [
    "Ocgis.Props.C40_source_name",
    "Ocgis.Props.C40_name_and_aliases_partial",
    "Ocgis.Props.C40_aliases_counterexample"
   ],
   "note": "The code violates the full property:  C40 is false of the aliases: a rename forgets the aliases recorded before it, the earlier names included. Proved part:  C40: the object has the last name it was given, and can be found by it and by every alias given with it or since."
  },
  {
   "property": "C41",
   "status": "proved",
   "theorems": [
    "Ocgis.Props.C41_tiles_partition"
   ],
   "note": "Full property. C41: for every domain size, positive tile size and origin within the domain, the tiles are numbered consecutively from zero; every row and column pair of the domain is in exactly one tile; no tile has any other pair; and no tile is empty or larger than the tile size."
  },
  {
   "property": "C42",
   "status": "proved",
   "theorems": [
    "Ocgis.Props.C42_tiled_equals_whole",
    "Ocgis.Props.C42_flag_restored"
   ],
   "note": "Full property. C42: for every field, per-cell function, offset of the spatial subset, spatial mask, domain size and positive tile size, and whatever the template file holds, the tiled computation succeeds, keeps the shape, and leaves in every cell the function of the field's cell at that place, masked if the function's result or the spatial mask is. C42: the environment flag is what it was, whatever the operations do, also when they raise on one of the tiles; and an exception on a tile ends the computation with it."
  },
  {
   "property": "C43",
   "status": "partial",
   "theorems": [
    "Ocgis.Props.C43_groups",
    "Ocgis.Props.C43_per_location",
    "Ocgis.Props.C43_sample_size",
    "Ocgis.Props.C43_refused",
    "Ocgis.Props.C43_wrong_shape_counterexample"
   ],
   "note": "The code violates the full property:  C43 needs functions that return arrays of the right shape: a masked array of another shape is dropped without an error, and the output keeps whatever the new array held."
  },
  {
   "property": "C44",
   "status": "partial",
   "theorems": [
    "Ocgis.Props.C44_valid_partial",
    "Ocgis.Props.C44_same",
    "Ocgis.Props.C44_refused",
    "Ocgis.Props.C44_masked_counterexample"
   ],
   "note": "The code violates the full property:  C44 is false of masked inputs: in both modes a masked step gets the value of its neighbours and is no longer masked; and in mode `valid` a window without unmasked values, whose result is masked, is unmasked. Proved part:  C44, mode `valid`: for every series at least as long as the window, every odd width of at least three and every operation, the result at each step with a full window is the operation over exactly the `k` steps centred on it, and it is not masked; every other step is masked."
  },
  {
   "property": "C45",
   "status": "partial",
   "theorems": [
    "Ocgis.Props.C45_durations_partial",
    "Ocgis.Props.C45_isolated",
    "Ocgis.Props.C45_isolated_counterexample",
    "Ocgis.Props.C45_frequencies_partial",
    "Ocgis.Props.C45_summary",
    "Ocgis.Props.C45_std_counterexample"
   ],
   "note": "The code violates the full property:  C45 is false if every run is a single step: several of them are counted as one.  Proved part:  C45 (some run has two steps or more): the durations are the lengths of all the maximal runs of steps satisfying the condition. C45 (some run has two steps or more): the frequencies list each length that a maximal run has, once, with the number of maximal runs of that length, and no other length."
  },
  {
   "property": "C46",
   "status": "partial",
   "theorems": [
    "Ocgis.Props.C46_events",
    "Ocgis.Props.C46_count_partial",
    "Ocgis.Props.C46_no_event",
    "Ocgis.Props.C46_threshold_not_positive",
    "Ocgis.Props.C46_negative_counterexample"
   ],
   "note": "The code violates the full property:  C46 is false: a series that never reaches the threshold has the index minus one. Proved part:  C46 (an event is found): the index is one less than the number of events, so not negative; masked values are left out."
  },
  {
   "property": "C47",
   "status": "partial",
   "theorems": [
    "Ocgis.Props.C47_valid_partial",
    "Ocgis.Props.C47_long_kernel",
    "Ocgis.Props.C47_single_kernel_counterexample"
   ],
   "note": "The code violates the full property:  C47 is false for a kernel of length one: every step overlaps fully, and every step is masked. Proved part:  C47 (kernels of length at least two, not longer than the series): the steps that are not masked are exactly those for which the kernel overlaps the series fully, and they have the value of the convolution there."
  },
  {
   "property": "C48",
   "status": "proved",
   "theorems": [
    "Ocgis.Props.C48_threshold",
    "Ocgis.Props.C48_between"
   ],
   "note": "Full property. C48: the threshold index is the number of unmasked steps satisfying the comparison, masked exactly if there is no unmasked step; a comparison of another name is refused. C48: the between index is the number of unmasked steps in the closed range, masked exactly if there is no unmasked step; an empty range is refused."
  },
  {
   "property": "C49",
   "status": "proved",
   "theorems": [
    "Ocgis.Props.C49_merged_weights",
    "Ocgis.Props.C49_refused"
   ],
   "note": "Full property. C49: merging gives all the weights of the files that are present, in order, each factor unchanged and each row and column number replaced by the global number of the cell it meant in its chunk; that number is determined. C49: if a file is missing and that is not allowed, an exception; merging in parallel is refused."
  },
  {
   "property": "C50",
   "status": "partial",
   "theorems": [
    "Ocgis.Props.C50_insert",
    "Ocgis.Props.C50_whole_partial",
    "Ocgis.Props.C50_insert_times"
   ],
   "note": "Proved part:  C50 (the chunks of the chunker, no dimension of length one split): the whole destination is rebuilt."
  },
  {
   "property": "C51",
   "status": "proved",
   "theorems": [
    "Ocgis.Props.C51_multipart_lossless",
    "Ocgis.Props.C51_join_then_split",
    "Ocgis.Props.C51_ragged_lossless"
   ],
   "note": "Full property. **C51 (multipart)**: splitting a node list at the break value and joining the parts with the break value gives the list back, there is one part more than there are break values, and no part contains one. **C51 (multipart, other direction)**: joining parts with the break value and splitting again gives the parts back, whatever they are, as long as none of them contains the break value. **C51 (ragged)**: in the ESMF layout, when the counts add up to the length of the flat connectivity, every element gets as many nodes as its count says, they are the consecutive ones starting after those of the elements before it, and all elements together, in order, are the connectivity."
  },
  {
   "property": "C52",
   "status": "partial",
   "theorems": [
    "Ocgis.Props.C52_reading_is_pure_partial",
    "Ocgis.Props.C52_partial_iteration_partial",
    "Ocgis.Props.C52_each_element_partial",
    "Ocgis.Props.C52_esmf_counterexample",
    "Ocgis.Props.C52_esmf_shift_counterexample"
   ],
   "note": "The code violates the full property:  **C52 (counterexample)**: in the ESMF layout with start index one (what ESMF files have), the first iteration over two triangles yields them and stores the shifted numbers, the second iteration yields other geometries, and the third and fourth again others. **C52 (counterexample, in general)**: in the ESMF layout with a positive start index every complete iteration subtracts the start index from the whole stored connectivity, so unless the connectivity is empty it is changed. Proved part:  **C52 (partial)**: for connectivity stored one row per element (UGRID) with any start index, and for the ESMF layout with start index zero, any number of iterations over the geometries of a grid that can be read once all succeed, all yield what the first one yielded, and leave the connectivity as it was. Missing: the ESMF layout with a positive start index, where it is false (`C52_esmf_counterexample`). **C52 (partial, incomplete iteration)**: the same when the consumer draws any elements in any order and stops wherever it likes. **C52 (elements, partial)**: for the same layouts, an iteration yields exactly one entry for each element asked for, in order: nothing for a masked element, and for any other element the geometry it has when it is read on its own."
  },
  {
   "property": "C53",
   "status": "partial",
   "theorems": [
    "Ocgis.Props.C53_last_set",
    "Ocgis.Props.C53_unset",
    "Ocgis.Props.C53_set_bounds",
    "Ocgis.Props.C53_failed_set",
    "Ocgis.Props.C53_invalid_key",
    "Ocgis.Props.C53_scalars",
    "Ocgis.Props.C53_attrs_counterexample",
    "Ocgis.Props.C53_section_counterexample",
    "Ocgis.Props.C53_bounds_error_counterexample",
    "Ocgis.Props.C53_dict_roundtrip_partial",
    "Ocgis.Props.C53_dict_reachable_partial",
    "Ocgis.Props.C53_dict_counterexample",
    "Ocgis.Props.C53_set_group_partial",
    "Ocgis.Props.C53_group_counterexample",
    "Ocgis.Props.C53_topology_partial",
    "Ocgis.Props.C53_topology_counterexample"
   ],
   "note": "The code violates the full property:  **C53 (counterexample, attributes)**: attributes are not what was set last: a second `set_variable` with another value for an attribute keeps the first value. **C53 (counterexample, section)**: the section of a variable stays when the key is set to another variable without a section. **C53 (counterexample, bounds before a variable)**: setting bounds on a key that was never touched raises a bare `KeyError`; after merely reading the key the same call raises a `DimensionMapError`. **C53 (counterexample, dictionaries)**: a map with a topology, with a grid abstraction, or whose bounds were only read cannot be imported from its own dictionary; a spatial mask's own attributes are lost. **C53 (counterexample, groups)**: setting a group that exists changes nothing and raises nothing; setting a group inside a missing group raises an `AttributeError`. **C53 (counterexample, topologies)**: on a map with some other topology, asking for a missing topology without creating it stores `None`, and asking again with creation then returns `None`. Proved part:  **C53 (dictionaries, partial)**: exporting a map to a dictionary and importing it gives a map with the same groups whose getters report the same for every entry, coordinate system, mask and driver, at every depth of nesting. Missing, because false: maps with topologies, a grid abstraction or an isomorphism flag, entries whose bounds, dimension or attributes were read before anything was set, and the attributes of the spatial mask (`C53_dict_counterexample`). **C53 (reachable)**: every map built from nothing by successful calls of the setters for variables, bounds, coordinate system, driver and mask (without mask attributes) and by reads of variables, coordinate system and mask survives the trip through a dictionary. **C53 (groups, partial)**: setting the map of a group that does not exist yet below the root makes `get_group` return it, and leaves every other group and the root as they were. Missing, because false: replacing an existing group and creating a group inside a missing one (`C53_group_counterexample`). **C53 (topologies, partial)**: a topology that is present is returned by every request; one that was never asked for is created on request, and later requests return the created map; other topologies are not affected. Missing, because false: a topology asked for without creation first (`C53_topology_counterexample`)."
  },
  {
   "property": "C54",
   "status": "partial",
   "theorems": [
    "Ocgis.Props.C54_nested_records",
    "Ocgis.Props.C54_records",
    "Ocgis.Props.C54_melted_partial",
    "Ocgis.Props.C54_melted_repeaters_counterexample",
    "Ocgis.Props.C54_melted_alone_counterexample",
    "Ocgis.Props.C54_stale_order_counterexample",
    "Ocgis.Props.C54_mixed_masking_counterexample",
    "Ocgis.Props.C54_reuse_counterexample",
    "Ocgis.Props.C54_bounds_iteration",
    "Ocgis.Props.C54_get_iter_counterexample",
    "Ocgis.Props.C54_repeat_record_counterexample"
   ],
   "note": "The code violates the full property:  **C54 (counterexample, melted repeaters)**: a melted row carries the repeaters of the variables before it: here the row of `b`, which has none, shows the repeater of `a`. **C54 (counterexample, melting a lone variable)**: with an empty list of followers melted iteration yields no row at all. **C54 (counterexample, order)**: a follower that already follows an iterator with the dimensions the other way round keeps that order when both follow a lead with the follower's own dimensions: at position `(0, 1)` of the lead the follower shows its value at `(1, 0)`. **C54 (counterexample, mixed masking)**: a lead that allows masked records with a follower iterator that does not raises a `TypeError` at the first masked position of the follower. **C54 (counterexample, reuse)**: following a lead changes the follower: iterated by itself afterwards, a variable with two values yields four rows. **C54 (counterexample, bounds not asked for)**: `get_iter` on any variable with bounds raises a `TypeError` unless the bounds are asked for. **C54 (counterexample, repeat record)**: every `get_iter` call doubles the variable's own list of repeated columns: after `n` calls it is `2 ^ n` times as long. Proved part:  **C54 (melted, partial)**: melted iteration with at least one follower yields, for every position that is not left out in row-major order, one row per melted variable in the given order; each has the variable's name and value at the position in their columns, the other variables unchanged, and no column for a melted variable. Missing, because false: that a row carries only the repeaters of its own variable (`C54_melted_repeaters_counterexample`), and rows when there is no follower (`C54_melted_alone_counterexample`)."
  },
  {
   "property": "C55",
   "status": "partial",
   "theorems": [
    "Ocgis.Props.C55_set_partial",
    "Ocgis.Props.C55_unset_partial",
    "Ocgis.Props.C55_import_partial",
    "Ocgis.Props.C55_unknown",
    "Ocgis.Props.C55_format_bool",
    "Ocgis.Props.C55_marker_counterexample",
    "Ocgis.Props.C55_coordsys_counterexample",
    "Ocgis.Props.C55_probed_counterexample",
    "Ocgis.Props.C55_raw_counterexample",
    "Ocgis.Props.C55_failed_reset_counterexample"
   ],
   "note": "The code violates the full property:  **C55 (counterexample)**: a parameter set to the text `'use_env'` reads as if it were not set. **C55 (counterexample)**: the default coordinate system cannot be set: assignments are accepted and lost. **C55 (counterexample)**: a probed parameter keeps what was probed at the import or reset and no longer follows its operating system variable. **C55 (counterexample)**: an operating system variable for a parameter without formatter stays text: the maximum string length, an integer by default, reads as a string; so does a data type. **C55 (counterexample)**: an unreadable operating system variable for the first probed parameter makes the reset raise before the second is probed, which then reads as `None`. Proved part:  **C55 (set)**: after any history, a parameter that is set to a value reads as that value from then on, whatever the operating system's variables, until it is set again or the environment is reset. Missing because false: the value `'use_env'` (`C55_marker_counterexample`) and the parameter `DEFAULT_COORDSYS` (`C55_coordsys_counterexample`). **C55 (not set)**: from the import or the last reset on, a parameter that is not set reads as the operating system variable of the moment in the parameter's format, otherwise as the default (of the moment of that reset), whatever happened before the reset and even if the reset raises. Missing because false: the parameters probed at the reset (`C55_probed_counterexample`). **C55 (at import)**: the same from the import on."
  },
  {
   "property": "C56",
   "status": "partial",
   "theorems": [
    "Ocgis.Props.C56_boolean",
    "Ocgis.Props.C56_option",
    "Ocgis.Props.C56_text",
    "Ocgis.Props.C56_integers",
    "Ocgis.Props.C56_integers_counterexample",
    "Ocgis.Props.C56_time_range",
    "Ocgis.Props.C56_typed",
    "Ocgis.Props.C56_rejection_partial",
    "Ocgis.Props.C56_rejection_counterexample",
    "Ocgis.Props.C56_null_partial",
    "Ocgis.Props.C56_null_counterexample",
    "Ocgis.Props.C56_region",
    "Ocgis.Props.C56_refused_counterexample",
    "Ocgis.Props.C56_taken_counterexample",
    "Ocgis.Props.C56_unknown",
    "Ocgis.Props.C56_query",
    "Ocgis.Props.C56_datasets",
    "Ocgis.Props.C56_datasets_counterexample"
   ],
   "note": "The code violates the full property:  **C56, counterexample (repeated integers)**: the pieces are compared before they are read, so the same identifier may come out twice. **C56, counterexample (rejection)**: other exceptions come out for strings that are no integers beside null, no dates, no regions, no codes, and for the options of regridding whatever the string. **C56, counterexample (null)**: `None` is a name of a geometry identifier, not null. **C56, counterexample (strings that should be taken)**: two numbers are refused as a level range, a number as a search radius multiplier, and the old name of an output format with a blank before it. **C56, counterexample (strings that should be refused)**: a repeated group, two flags of which one is dropped, a flag without seasons, six slices where there must be five, and month numbers that do not exist. **C56, counterexample (datasets)**: variable names in excess are dropped without notice, and too few raise an `IndexError`. Proved part:  **C56, partial (rejection)**: for every string, the parameters other than the five below that refuse it do so with a definition error. Missing: `C56_rejection_counterexample`. **C56, partial (null)**: for every string and every parameter that can be given by one, except those that keep the case of their text: the value is null exactly when the parameter is nullable and the string is `none` in any case with any blanks around it. Those that keep the case want it in lower case (`C56_text`, `C56_null_counterexample`)."
  },
  {
   "property": "C57",
   "status": "partial",
   "theorems": [
    "Ocgis.Props.C57_equal",
    "Ocgis.Props.C57_equivalent",
    "Ocgis.Props.C57_by_string",
    "Ocgis.Props.C57_fallback_counterexample"
   ],
   "note": "The code violates the full property:  **C57 (counterexample)**: asked to try the library on a machine that has none, the comparison does not fall back to the texts: it raises an `ImportError` even for equal texts."
  },
  {
   "property": "C58",
   "status": "partial",
   "theorems": [
    "Ocgis.Props.C58_acceptance",
    "Ocgis.Props.C58_iteration",
    "Ocgis.Props.C58_firsts",
    "Ocgis.Props.C58_insertion_order_partial",
    "Ocgis.Props.C58_alternating_counterexample",
    "Ocgis.Props.C58_held_counterexample",
    "Ocgis.Props.C58_lookup_partial",
    "Ocgis.Props.C58_first_field_partial",
    "Ocgis.Props.C58_lookup_counterexample"
   ],
   "note": "The code violates the full property:  **C58 (counterexample)**: the iteration is not in insertion order when the additions alternate between containers. **C58 (counterexample)**: fields that the container object already holds are yielded as well although they were never added, and they make an unforced addition of the same name fail. **C58 (counterexample)**: the container without geometry cannot be asked for: its identifier `None` means the first container. In an empty collection asking for anything raises an unrelated error, and without a field name an empty container is returned in place of a field. Proved part:  **C58 (insertion order)**: if every addition names a new field of its container, and the additions to each container are made in one go, the iteration is exactly the additions in order. **C58 (lookup)**: after any history, asking for a field by name in a container with a geometry returns the field last filed there; a container or name that was not used raises a `KeyError`. **C58 (first field)**: after any history, asking a container with a geometry for a field without a name returns the field filed under the name that was first added to it; without a container the one of the first addition is taken."
  },
  {
   "property": "C59",
   "status": "partial",
   "theorems": [
    "Ocgis.Props.C59_success_partial",
    "Ocgis.Props.C59_history_partial",
    "Ocgis.Props.C59_exact_arithmetic",
    "Ocgis.Props.C59_wrap_exact",
    "Ocgis.Props.C59_wrap_counterexample",
    "Ocgis.Props.C59_refused",
    "Ocgis.Props.C59_raise_counterexample",
    "Ocgis.Props.C59_rotated_counterexample",
    "Ocgis.Props.C59_rounding_counterexample",
    "Ocgis.Props.C59_below_counterexample"
   ],
   "note": "The code violates the full property:  **C59, counterexample (wrapping)**: a successful subset with wrapping leaves the source with \u2212370 where it had \u221210, and \u2212160 where it had 200. **C59, counterexample (raise)**: a subset whose geometry meets nothing leaves the source shifted, and so does an operation that is not supported. **C59, counterexample (rotated pole)**: whatever the transformation gives is what a rotated pole source is left with, together with the other coordinate system, also when the subset succeeds. **C59, counterexample (rounding)**: with sums rounded as doubles are, a successful subset may leave a source coordinate different from what it was. **C59, counterexample (below \u2212360)**: a subset that raises and then one that succeeds leave a coordinate below \u2212360 shifted, since only the last shift is remembered. Proved part:  **C59, partial**: for a field that is not on a rotated pole, with no wrapping of the output asked for, exact arithmetic and coordinates that `Plain` describes: after any history of subsets with one object, whatever raised in between, a subset that succeeds leaves the source with the coordinates and the coordinate system it had at the start, and one that is refused by the checks of its arguments changes nothing. Missing: subsets that raise later (`C59_raise_counterexample`), rotated poles, wrapping and rounding (the other counterexamples). **C59, partial**: under the same conditions, when every subset of a history succeeds or is refused by the checks of its arguments, the source is as it was."
  },
  {
   "property": "C60",
   "status": "proved",
   "theorems": [
    "Ocgis.Props.C60_enumeration",
    "Ocgis.Props.C60_lookup",
    "Ocgis.Props.C60_create"
   ],
   "note": "Full property. **C60**: for every group tree there is a depth from which on (the interpreter's recursion limit exceeding the nesting) the enumeration of the group hierarchy succeeds and yields key sequences of paths such that: no path comes twice; the paths are exactly those leading to a group, the root's included; a group comes before all the groups nested in it; and looking up an enumerated key sequence returns the group at its path. **C60 (lookup)**: a key sequence of names, with or without the leading `None`, `None` alone, or a single name looks up the group at that path, and a path that leads nowhere is refused with a `KeyError`; the empty list is refused. **C60 (creation)**: looking up a path with creation leaves a tree in which the path is present. If it was present before, nothing changes; otherwise the groups are exactly the old ones with their old contents, the given group (with its subgroups) at the path, and empty groups on the way to it where there were none."
  },
  {
   "property": "C61",
   "status": "partial",
   "theorems": [
    "Ocgis.Props.C61_touching_barrier_partial",
    "Ocgis.Props.C61_vectors_partial",
    "Ocgis.Props.C61_vectors_counterexample"
   ],
   "note": "The code violates the full property:  C61 counterexamples on grids with coordinate vectors: a centre on a corner goes unnoticed, and any grid with more rows than columns fails with an index error. Proved part:  C61 for grids with two-dimensional coordinates: the barrier stops the subset exactly when a cell centre lies on a corner of the box. C61 on grids with coordinate vectors that have at least as many columns as rows (partial): the barrier stops the subset exactly when the column with the number of the last row lies on a vertical side and some row on a horizontal side. In particular it only stops a subset with a centre on a corner."
  },
  {
   "property": "C62",
   "status": "partial",
   "theorems": [
    "Ocgis.Props.C62_chunks_tile_partial",
    "Ocgis.Props.C62_one_chunk",
    "Ocgis.Props.C62_length_one_counterexample",
    "Ocgis.Props.C62_empty_chunks_counterexample"
   ],
   "note": "The code violates the full property:  C62 is false if a dimension of length one is split: no chunk contains any cell. C62: fewer than two cells per chunk are never given: the chunks left over are empty. Proved part:  C62 (no dimension of length one is split): the chunks of the destination are as many as asked for, lie inside the grid, and each cell of the grid is in exactly one of them."
  },
  {
   "property": "C63",
   "status": "partial",
   "theorems": [
    "Ocgis.Props.C63_write_then_read_partial",
    "Ocgis.Props.C63_multipart_start_index_counterexample"
   ],
   "note": "The code violates the full property:  **C63 (counterexample)**: a polygon of two triangles written with start index one is read back as one ring: the break value was shifted together with the numbers, is not recognised any more, and the shifted value picks a node from the end. Proved part:  **C63 (partial)**: polygons converted to coordinates and connectivity and read back are the same polygons in the same order, packed or not: single-part polygons for every start index, multi-part polygons for start index zero. Packed conversion stores every node once. Missing: multi-part polygons with a positive start index, where it is false (`C63_multipart_start_index_counterexample`)."
  },
  {
   "property": "C64",
   "status": "partial",
   "theorems": [
    "Ocgis.Props.C64_esmf_export_partial",
    "Ocgis.Props.C64_start_index_counterexample",
    "Ocgis.Props.C64_empty_rank_counterexample"
   ],
   "note": "The code violates the full property:  **C64 (counterexample, start index)**: with start index one on two ranks the second rank's triangle \"p q r\" is exported with numbers 5 6 7 although its nodes are number 4 5 6 of the joined nodes: the numbers point one node too far and the last one at nothing, so reading the export raises. **C64 (counterexample, empty rank)**: a rank without polygons makes the export raise. Proved part:  **C64 (partial)**: polygons spread over any number of ranks, converted on each rank and exported to the ESMF layout, are read back from the exported connectivity and the ranks' nodes laid end to end as the polygons of the first rank, then of the second, and so on: the numbers of every rank are shifted to where its nodes end up. Missing: a start index other than zero (`C64_start_index_counterexample`) and ranks without polygons, on which the export raises (`C64_empty_rank_counterexample`)."
  },
  {
   "property": "C65",
   "status": "partial",
   "theorems": [
    "Ocgis.Props.C65_group_maps_partial",
    "Ocgis.Props.C65_nested_counterexample"
   ],
   "note": "The code violates the full property:  **C65 (counterexample)**: the map of a group inside another group is filed under its bare name at the root: asking for its path raises, and when two groups contain a group of the same name the second one's map is dropped. Proved part:  **C65 (partial)**: for metadata whose groups have distinct names and no nested groups, the map created from the metadata returns for every group the map of that group, and for the root that of the root. Missing, because false: nested groups (`C65_nested_counterexample`)."
  },
  {
   "property": "C66",
   "status": "partial",
   "theorems": [
    "Ocgis.Props.C66_directory_partial",
    "Ocgis.Props.C66_serial_partial",
    "Ocgis.Props.C66_existing_refused",
    "Ocgis.Props.C66_nothing_removed",
    "Ocgis.Props.C66_other_rank_counterexample",
    "Ocgis.Props.C66_overwrite_counterexample",
    "Ocgis.Props.C66_ranks_wait_counterexample"
   ],
   "note": "The code violates the full property:  C66 is false for failures of other ranks: rank 1 fails and rank 0 returns; the partially written directory stays. C66 is false with `env.OVERWRITE`: the previous output is removed before the run and lost when the run fails. C66: when the directory is refused on rank 0, the other ranks never get past the barrier, whatever the schedule. Proved part:  C66 (partial: failures of rank 0 only). Whatever the ranks do, however their steps interleave and wherever the run is stopped: the output directory is gone once rank 0 has failed, and is there as long as it has not. C66 on one process (partial: the previous output of an overwriting run). For every list of file operations in the output directory, with a failure of any kind at any point: a run that fails raises the exception of the failure and leaves no output directory, a run that succeeds leaves exactly the files written, and every other directory is as it was."
  },
  {
   "property": "C67",
   "status": "partial",
   "theorems": [
    "Ocgis.Props.C67_iteration",
    "Ocgis.Props.C67_serial",
    "Ocgis.Props.C67_nested_counterexample",
    "Ocgis.Props.C67_other_scope_counterexample"
   ],
   "note": "The code violates the full property:  C67 is false for a run inside another one: the inner run frees the communicator the outer one is using. C67 is false for an engine made in one scope and used in another: the second scope's communicator is not restored."
  },
  {
   "property": "C68",
   "status": "partial",
   "theorems": [
    "Ocgis.Props.C68_independent_partial",
    "Ocgis.Props.C68_allow_empty_partial",
    "Ocgis.Props.C68_rotated_pole_counterexample",
    "Ocgis.Props.C68_allow_empty_counterexample",
    "Ocgis.Props.C68_raw_counterexample"
   ],
   "note": "The code violates the full property:  C68 is false for a field on a rotated pole and two geometries: the first result is on the rotated pole, the second is not. C68 is false when empty returns are allowed: a selection that is not empty is not aggregated, not regridded and keeps its coordinate system. C68 is false for calculations on raw values without aggregation: the output coordinate system is ignored. Proved part:  C68 (partial: operations of `PromiseKept`, and one geometry for a rotated pole kept in its own system). For all datasets and geometries: the collections come dataset by dataset, geometry by geometry, up to the first one that selects nothing; each is what the operations promise for its dataset and its geometry on their own, whatever was done before for others. C68 with empty returns allowed (partial: nothing but the selection is kept): without calculations there is a collection for every dataset and geometry, in order, with exactly the selected cells and the geometry's identifier."
  },
  {
   "property": "C69",
   "status": "partial",
   "theorems": [
    "Ocgis.Props.C69_live_ranks",
    "Ocgis.Props.C69_parallel_partial",
    "Ocgis.Props.C69_disjoint_counterexample"
   ],
   "note": "The code violates the full property:  C69 is false in general: with one geometry on each of two ranks, the second geometry comes out empty. Proved part:  C69 (partial: every geometry but the last meets the part of every rank). On any number of ranks the cells selected for a geometry are those selected from the whole field, in order."
  },
  {
   "property": "C70",
   "status": "partial",
   "theorems": [
    "Ocgis.Props.C70_rank_order",
    "Ocgis.Props.C70_no_deadlock",
    "Ocgis.Props.C70_records_partial",
    "Ocgis.Props.C70_columns_counterexample",
    "Ocgis.Props.C70_fields_counterexample",
    "Ocgis.Props.C70_geojson_counterexample",
    "Ocgis.Props.C70_truncation_counterexample",
    "Ocgis.Props.C70_empty_rank_counterexample"
   ],
   "note": "The code violates the full property:  C70 is false when the collections have different columns: the values of the second are written to CSV under the names of the first, without an error (two datasets with differently named variables). C70 is false when the first collection has several fields: each creates the file anew, and only the last is kept. C70 is false for GeoJSON: with several collections (one per geometry) or several ranks only the last part is kept. C70 is false for shapefiles when two column names have the same first ten characters: one value is lost. C70 is false when a rank has no records: taking the first record for the names of the columns fails. Proved part:  C70: written to CSV or a shapefile from any number of ranks, and read back, the records of all collections come in order with all their values, if every collection has one field, all records have the same columns and every rank has a record. Partial: see the counterexamples below for collections with other columns or several fields, for column names with equal first ten characters and for GeoJSON; `C70_empty_rank_counterexample` for ranks without records."
  },
  {
   "property": "C71",
   "status": "partial",
   "theorems": [
    "Ocgis.Props.C71_construct_partial",
    "Ocgis.Props.C71_assign_partial",
    "Ocgis.Props.C71_last_value",
    "Ocgis.Props.C71_output_crs_partial",
    "Ocgis.Props.C71_order_partial",
    "Ocgis.Props.C71_refused_kept_counterexample",
    "Ocgis.Props.C71_sticky_crs_counterexample",
    "Ocgis.Props.C71_mixed_calculations_counterexample",
    "Ocgis.Props.C71_second_use_counterexample",
    "Ocgis.Props.C71_geojson_multivariate_counterexample",
    "Ocgis.Props.C71_error_kind_counterexample",
    "Ocgis.Props.C71_bad_value_partial",
    "Ocgis.Props.C71_attribute_error_counterexample",
    "Ocgis.Props.C71_constructor_only_counterexample",
    "Ocgis.Props.C71_constructor_alike_partial",
    "Ocgis.Props.C71_error_kind_partial",
    "Ocgis.Props.C71_regrid_options",
    "Ocgis.Props.C71_slice_list"
   ],
   "note": "The code violates the full property:  False in general: a refused assignment does not leave the object as it was. The value stays, and with it a combination that breaks the rules; `execute` does not validate again. False in general: with data on a rotated pole, switching aggregation on and off again leaves the output coordinate system changed, so the result is not that of operations built without it. False in general: whether calculations are checked against `calc_grouping` depends on their order. A mean without a grouping is refused, as documented, unless an expression follows it; an expression with a grouping is refused unless a function follows it. False in general: of two uses of a multivariate function only the first is checked for its variables. False in general: a multivariate function over several datasets may be written to netCDF but not to GeoJSON, although the GeoJSON rule makes the same exception: the classes are compared, not tested for inheritance. False in general: not every refusal is a validation error. A slice with a geometry is an assertion error, a duration without a grouping a type error, and a multivariate function lacking one of three variables a key error. False in general: assigning `None` to the regridding options, which are nullable, is not refused but removes the argument's checks: from then on any option is accepted. A misspelt argument name is accepted as well. False in general: what the constructor takes, an assignment need not take. The old names of two output formats and slices by dimension name are accepted by the constructor only. Proved part:  Constructing operations succeeds exactly if the arguments, as the object then holds them, obey the documented rules. Missing: calculations mixing expressions and functions, a multivariate function used twice or written to GeoJSON from several datasets, and an empty list of calculations; the rules are not enforced as documented there. After any history of construction and assignments, refused or not, the next assignment is accepted exactly if the object then obeys the documented rules: no invalid combination is ever accepted and no valid one refused. Missing: as for construction. Without data on a rotated pole the output coordinate system, too, is the one given last. Missing: rotated pole data, where validation overwrites it. The order in which different arguments are given does not matter, neither in the constructor nor in assignments, and assigning arguments one after the other leads to the object the constructor makes when it is given all of them at once; the verdict of the last assignment is the constructor's. Missing: data on a rotated pole. Assigning to an argument whose own check does not fail with an attribute error: if the value is accepted, reading gives the parsed value; if it is refused, the exception is raised and everything is as before; other attributes are untouched. Missing: attribute errors and names that are not arguments. What both take, they take alike. Missing: the old format names and dictionary slices. A refusal is a validation error, except for a slice together with a geometry, a duration without a grouping and a multivariate function that is given two or more of its variables but not all."
  },
  {
   "property": "C72",
   "status": "partial",
   "theorems": [
    "Ocgis.Props.C72_values_partial",
    "Ocgis.Props.C72_records_partial",
    "Ocgis.Props.C72_union",
    "Ocgis.Props.C72_numbers",
    "Ocgis.Props.C72_null_counterexample",
    "Ocgis.Props.C72_first_decides_counterexample",
    "Ocgis.Props.C72_identifier_counterexample",
    "Ocgis.Props.C72_string_width_counterexample",
    "Ocgis.Props.C72_dictionaries_partial",
    "Ocgis.Props.C72_dictionary_crs_counterexample",
    "Ocgis.Props.C72_dictionary_identifier_counterexample"
   ],
   "note": "The code violates the full property:  False in general: a null property is not masked but reads as the column's fill value; so does a property a later record lacks. False in general: the first record decides the columns' types. A fraction after a whole number loses its fraction, a name after a null is refused, and a property the first record lacks is refused. False in general: identifiers given by later records are replaced by counters if the first record has none. False in general: without a schema the width of a name column in netCDF is that of the first record's name, so a longer name cannot be written. False in general: geometry dictionaries with different coordinate systems all get that of the last. False in general: identifiers filled in for dictionaries without properties may repeat one given by another. Proved part:  Whatever the records, if they are accepted every property with a value that fits its column is read back unchanged, at the position of its record, and every record's geometry is there in order. Missing: values of another kind than the column's, and properties that are null or absent (see the counterexamples). Records with the same properties of the same kinds are accepted, and the field holds each record's geometry, identifier and property values at its position; without an identifier property the identifiers count from one. Missing: records that differ in their properties or have null values. Geometry dictionaries without properties, all with the same coordinate system, become selection geometries in order with that coordinate system and identifiers counting from one. Missing: dictionaries with properties (these are records as above) and with different coordinate systems."
  },
  {
   "property": "C73",
   "status": "partial",
   "theorems": [
    "Ocgis.Props.C73_select_partial",
    "Ocgis.Props.C73_slice_partial",
    "Ocgis.Props.C73_fields_partial",
    "Ocgis.Props.C73_union",
    "Ocgis.Props.C73_equal_numbers",
    "Ocgis.Props.C73_combination",
    "Ocgis.Props.C73_union_len",
    "Ocgis.Props.C73_len_partial",
    "Ocgis.Props.C73_keys",
    "Ocgis.Props.C73_path",
    "Ocgis.Props.C73_both_counterexample",
    "Ocgis.Props.C73_len_counterexample",
    "Ocgis.Props.C73_slice_counterexample",
    "Ocgis.Props.C73_array_counterexample",
    "Ocgis.Props.C73_start_stop_counterexample",
    "Ocgis.Props.C73_same_key_counterexample"
   ],
   "note": "The code violates the full property:  False in general: with identifiers and a condition the identifiers are ignored, while `len` ignores the condition. False in general: `len` counts identifiers that are not in the file, and is not defined for a slice. False in general: negative positions and a stop before the start select what they should not. False in general: a boolean array selects the first two features over and over, and positions out of order select everything between. False as documented: a two-element sequence is not a start and a stop but two positions. False in general: of two files with the same name in different directories the second is listed but never found. Proved part:  Iterating over a file yields, in file order, the records of exactly the features with a selected identifier, or of exactly those that satisfy the condition; with nothing selected it raises an error. Missing: identifiers and a condition together, an empty list of identifiers, and slices (`C73_slice_partial`). Iterating with a slice yields the records of exactly the features at those positions, as Python and NumPy count them. Missing: negative positions, a stop before the start, a slice without a start, boolean arrays, positions out of order, numbered positions in a file geodatabase or in a file that is not numbered from zero. As fields: one per selected feature, with its geometry, its identifier and its attribute values, provided these are of the kinds the file declares. Missing: null attributes (`C72_null_counterexample`). `len` of an iterator is the number of records iterating yields, if every selected identifier is in the file exactly once and asked for once. Missing: identifiers that are absent or asked for twice, identifiers together with a condition, slices."
  },
  {
   "property": "C74",
   "status": "partial",
   "theorems": [
    "Ocgis.Props.C74_used_partial",
    "Ocgis.Props.C74_accepts_partial",
    "Ocgis.Props.C74_metadata_partial",
    "Ocgis.Props.C74_stale_counterexample",
    "Ocgis.Props.C74_iterator_counterexample",
    "Ocgis.Props.C74_metadata_counterexample",
    "Ocgis.Props.C74_numbers_counterexample",
    "Ocgis.Props.C74_shared_counterexample"
   ],
   "note": "The code violates the full property:  False in general: the condition, the identifier's name and the aggregation are not passed on when they are assigned after construction; the geometry assigned next still uses the old ones. False in general: an iterator's own identifiers are dropped, so all of the file's geometries are used. False in general: after a file, a box is described as that file, and custom geometries after a box as that box. False in general: text with three numbers is taken for the name of a file, and a list of three numbers raises the wrong kind of error. False in general: two operations constructed from one parameter object share it, so the second's identifiers replace the first's. Proved part:  After construction and any history of assignments of geometries and of identifiers to select, the geometries used are those that the geometry last accepted stands for, with the identifiers last selected. Missing: assigning the condition, the identifier's name or the aggregation afterwards; iterators with identifiers of their own; text with other than two or four numbers (see the counterexamples). Which geometries are accepted does not depend on the selection arguments, and construction accepts exactly those. After construction and any history of assignments the metadata describes the geometry last accepted, provided it is a file, or numbers with no file before, or other geometries with neither before. Missing: a box or other geometry assigned after a file (see the counterexample)."
  },
  {
   "property": "C75",
   "status": "partial",
   "theorems": [
    "Ocgis.Props.C75_expression_partial",
    "Ocgis.Props.C75_refused",
    "Ocgis.Props.C75_multivariate",
    "Ocgis.Props.C75_exponent_counterexample",
    "Ocgis.Props.C75_name_counterexample",
    "Ocgis.Props.C75_space_counterexample",
    "Ocgis.Props.C75_argument_counterexample",
    "Ocgis.Props.C75_exec_counterexample"
   ],
   "note": "The code violates the full property:  A number written with an exponent counts as a variable: `1e5*tas` is taken for a function of two variables, and then refused. Names of functions are replaced inside the names of variables: the variable `log_tas` is looked up as `np.log_tas`. With spaces around the operators nothing is substituted: the expression accepted as one of `tas` and `pr` refers to names that do not exist when it is evaluated. A variable after a comma is not substituted. A variable with the name under which another is looked up is looked up twice: `_exec_tas` next to `tas`. Proved part:  An expression whose right side is written without spaces and in which no function name is part of another word is turned into the expression in which each function and each variable, and nothing else, is replaced; the output is named by the left side."
  },
  {
   "property": "C76",
   "status": "partial",
   "theorems": [
    "Ocgis.Props.C76_results_partial",
    "Ocgis.Props.C76_clash",
    "Ocgis.Props.C76_text_partial",
    "Ocgis.Props.C76_same_name_counterexample",
    "Ocgis.Props.C76_two_texts_counterexample",
    "Ocgis.Props.C76_text_second_counterexample",
    "Ocgis.Props.C76_daily_counterexample",
    "Ocgis.Props.C76_names_counterexample"
   ],
   "note": "The code violates the full property:  Two datasets whose fields have the same name, which is that of the variable unless given: the second is grouped by the times of the first. Of several calculations given as text only the first is carried out, again and again, which fails: its name is taken. A calculation given as text after another one is refused: the other one is read as text. A calculation after one that brings its own grouping is grouped like it, although no grouping is asked for; before it, it is not grouped. Different names of calculations do not suffice: `a` of `b_c` and `a_b` of `c` have the same result name. Proved part:  The calculations of an engine on any sequence of collections, when fields with the same name have the same times and no calculation is given as text or brings its own grouping: each field ends with the results of each calculation for each of its data variables, grouped by its own times, in place of the data variables. A single calculation given as text puts one variable, named by its left side, in place of the data variables."
  },
  {
   "property": "C77",
   "status": "partial",
   "theorems": [
    "Ocgis.Props.C77_registry_partial",
    "Ocgis.Props.C77_override_counterexample",
    "Ocgis.Props.C77_dictionaries_partial",
    "Ocgis.Props.C77_text_partial",
    "Ocgis.Props.C77_repeated_keyword",
    "Ocgis.Props.C77_no_alias",
    "Ocgis.Props.C77_other_key_partial",
    "Ocgis.Props.C77_none",
    "Ocgis.Props.C77_malformed_counterexample",
    "Ocgis.Props.C77_case_counterexample",
    "Ocgis.Props.C77_variable_case_counterexample",
    "Ocgis.Props.C77_error_counterexample",
    "Ocgis.Props.C77_alias_counterexample",
    "Ocgis.Props.C77_unknown_counterexample",
    "Ocgis.Props.C77_parameters_partial",
    "Ocgis.Props.C77_truth_counterexample",
    "Ocgis.Props.C77_value_counterexample"
   ],
   "note": "The code violates the full property:  A function appended under a key of the library is not used: creating a registry puts the library's back. A keyword that is not `name~value` makes all keywords disappear: the percentile asked for is not the one computed. Text is put in lower case: the alias is another one, and functions with capital letters cannot be asked for. The names of variables given to a multivariate function in a dictionary are put in lower case too. Text in a list that names a function, or `none` among other calculations, is a `TypeError`; text to be evaluated in a dictionary is a `KeyError`. Aliases are not compared if the last calculation is text to be evaluated; two such texts are refused if it is not. Functions without parameters accept any keyword; unknown keywords are accepted before text to be evaluated. The text `false` is true. A value that is no number is accepted as the value of a numerical parameter; the function is what fails. Proved part:  Whatever registries were created before, a key that is none of the library's (nor ICCLIM's) stands for the function with that key a program appended last. `_partial`: for keys of the library see the counterexample. Dictionaries are accepted exactly if every function is known and takes the parameters given, and the aliases are all different; the value then says what the dictionaries say, in order. What is refused is refused with a validation error. `_partial`: text values in lower case (see the counterexample) and no text to be evaluated among the functions. Calculations written in text, separated by bars, are accepted exactly if every function is known and takes the parameters given, and the aliases are all different; the value then says what the text says, in order. What is refused is refused with a validation error. `_partial`: lower case text whose keywords are all well formed (see the counterexamples). A dictionary with a key that means nothing is refused, whatever the other dictionaries are. `_partial`: no text to be evaluated is among the calculations; if it is the last one nothing is checked (see `C77_unknown_counterexample`). A function receives each parameter under its name with the value given, as a value of the type in its definition; variables and parameters without a type are passed on as they are. `_partial`: text for truth values and values that are not of the type are not treated as they should be, see the counterexamples."
  },
  {
   "property": "C78",
   "status": "partial",
   "theorems": [
    "Ocgis.Props.C78_read_exact",
    "Ocgis.Props.C78_bounds_read",
    "Ocgis.Props.C78_deferred_partial",
    "Ocgis.Props.C78_protected",
    "Ocgis.Props.C78_set_wins",
    "Ocgis.Props.C78_unordered_counterexample",
    "Ocgis.Props.C78_two_arrays_counterexample",
    "Ocgis.Props.C78_no_source_counterexample",
    "Ocgis.Props.C78_removed_counterexample"
   ],
   "note": "The code violates the full property:  C78 is false for positions that are not in order: after slicing with `[0, 3, 1]` and with `1:3` two elements are to be seen, and are if the value was read before; reading now gives three. C78 is false with two index arrays: the unread variable is sliced along each axis, the read one is not. C78 is false for a dimension without a source index: sliced and read, it gives the first elements instead of those asked for. C78 is false for removed values: what is seen afterwards depends on whether the variable had been read. Proved part:  **C78.** Whatever is sliced, read, loaded or overwritten, and in whatever order, a caller sees the values they would have seen had the variable been read at the start. Missing: indices that keep nothing or reorder, slices with two index arrays, removed values, dimensions without a source index; see the counterexamples."
  },
  {
   "property": "C79",
   "status": "partial",
   "theorems": [
    "Ocgis.Props.C79_parallel_partial",
    "Ocgis.Props.C79_ends",
    "Ocgis.Props.C79_file_only",
    "Ocgis.Props.C79_mask_counterexample",
    "Ocgis.Props.C79_file_only_counterexample",
    "Ocgis.Props.C79_extra_variable_counterexample",
    "Ocgis.Props.C79_fixed_size_counterexample"
   ],
   "note": "The code violates the full property:  C79 is false where elements are masked, but none of rank 0's: the file of several processes has no fill value and holds the library's default in place of the masked element, the file of one process has one and holds that. C79 is false if only the structure of the file is asked for: several processes give the variable a fill value, one does not. C79 is false if a rank has a variable that rank 0 has not: the file has no such variable when that rank's turn comes, the rank raises an exception, and rank 0 waits for it forever. C79 is false if an unlimited dimension is to be given a fixed size and is distributed: the file gets rank 0's size, rank 1 raises an exception when its turn comes, and rank 0 waits for it forever. Proved part:  **C79.** If several processes write a dataset that is distributed over them, then in whatever order they proceed none of them raises an exception or waits forever, no two of them have the file open at the same time, and the file in the end is the one that a single process with the whole dataset writes. It holds every element of every variable. Missing: the options for unlimited dimensions and for files without data, and masked elements where those of rank 0 are not; see the counterexamples."
  },
  {
   "property": "C80",
   "status": "partial",
   "theorems": [
    "Ocgis.Props.C80_axis",
    "Ocgis.Props.C80_bounds",
    "Ocgis.Props.C80_dimensions_partial",
    "Ocgis.Props.C80_refused",
    "Ocgis.Props.C80_rotated",
    "Ocgis.Props.C80_order",
    "Ocgis.Props.C80_data_variables_partial",
    "Ocgis.Props.C80_axes_needed",
    "Ocgis.Props.C80_distributed_partial",
    "Ocgis.Props.C80_not_distributed",
    "Ocgis.Props.C80_mask",
    "Ocgis.Props.C80_user_map_partial",
    "Ocgis.Props.C80_user_map_twice",
    "Ocgis.Props.C80_transposed_counterexample",
    "Ocgis.Props.C80_points_counterexample",
    "Ocgis.Props.C80_forecast_counterexample",
    "Ocgis.Props.C80_scalar_height_counterexample",
    "Ocgis.Props.C80_scalar_counterexample",
    "Ocgis.Props.C80_user_bounds_counterexample"
   ],
   "note": "The code violates the full property:  **C80, counterexample.** Two-dimensional coordinates whose first dimension is that of x: the map has the dimension of y for x, and that of x for y. **C80, counterexample.** A variable on time and a list of points is not a data variable, although time, longitude and latitude are found. **C80, counterexample.** With times of two dimensions, as for forecasts, a variable with all dimensions of time, y and x is not a data variable, and one that has no dimension of y is. **C80, counterexample.** A height without dimensions is passed over because it has none, and then taken because of its name. **C80, counterexample.** A file with one place, whose longitude and latitude have no dimensions, cannot be distributed. **C80, counterexample.** The user names a coordinate variable and its bounds but not its dimension: the bounds are forgotten. Proved part:  **C80, in part.** The dimensions of an axis are those of its coordinate variable; of a coordinate variable of x or y with several dimensions it is the second or the first. What is missing: that this is the right one; see `C80_transposed_counterexample`. **C80, in part.** If time, x and y each have one dimension and these are different, the data variables are the variables with all three dimensions, in the order of the file. What is missing: data variables on other coordinates; see the counterexamples. **C80, in part.** The dimension that is distributed over the processes is the longer of those of x and y, and that of x if they are equally long; with the other decomposition it is that of x. What is missing: coordinates without dimensions, for which this is an error; see `C80_scalar_counterexample`. **C80, in part.** A dimension map given by the user keeps its coordinate variables and the dimensions that are given; dimensions that are missing are those of the variable in the file. The bounds are kept if the dimensions are given. What is missing: the bounds in the other case; see `C80_user_bounds_counterexample`."
  },
  {
   "property": "C81",
   "status": "partial",
   "theorems": [
    "Ocgis.Props.C81_rename_partial",
    "Ocgis.Props.C81_names",
    "Ocgis.Props.C81_no_data",
    "Ocgis.Props.C81_units",
    "Ocgis.Props.C81_accepted",
    "Ocgis.Props.C81_unknown",
    "Ocgis.Props.C81_field_name",
    "Ocgis.Props.C81_driver",
    "Ocgis.Props.C81_driver_many",
    "Ocgis.Props.C81_driver_key_partial",
    "Ocgis.Props.C81_uri_partial",
    "Ocgis.Props.C81_short_rename_counterexample",
    "Ocgis.Props.C81_given_metadata_counterexample",
    "Ocgis.Props.C81_used_name_counterexample",
    "Ocgis.Props.C81_two_files_counterexample",
    "Ocgis.Props.C81_path_counterexample",
    "Ocgis.Props.C81_unknown_driver_counterexample",
    "Ocgis.Props.C81_directory_counterexample"
   ],
   "note": "The code violates the full property:  **C81, counterexample.** Fewer new names than variables are accepted: the variables without a new name keep theirs, but are data variables no more. **C81, counterexample.** With metadata given by the user the variables are not renamed, but the data variables are the new names: no variable has that name. **C81, counterexample.** A new name that another variable has: the variable asked for is lost, and the other takes its place. **C81, counterexample.** Two shapefiles, or two files with comma-separated values, have no driver, although each has one. **C81, counterexample.** A file whose name ends in `.csv` is taken for netCDF if `.nc` is anywhere in its path, or if it is remote. **C81, counterexample.** A driver that does not exist is not refused. **C81, counterexample.** A file that is in two directories is taken from the last. Proved part:  **C81, in part.** Renaming: the field has every variable of the file, those asked for under their new names and the others under their own, and the data variables are the new names. What is missing: lists of other lengths, names that are in use, and metadata that are given; see the counterexamples. **C81, in part.** A driver is chosen by its key. What is missing: keys that do not exist are not refused; see `C81_unknown_driver_counterexample`. **C81, in part.** A file that exists or is remote is used as it is; else it is looked for in the directories, and if one of them has it the first path found there is used; if there is none it is refused. What is missing: with several directories that have it, the first should be used; see `C81_directory_counterexample`."
  },
  {
   "property": "C82",
   "status": "partial",
   "theorems": [
    "Ocgis.Props.C82_found",
    "Ocgis.Props.C82_rotated",
    "Ocgis.Props.C82_missing_parameter",
    "Ocgis.Props.C82_missing_coordinates",
    "Ocgis.Props.C82_unmarked",
    "Ocgis.Props.C82_never_guessed",
    "Ocgis.Props.C82_request",
    "Ocgis.Props.C82_written",
    "Ocgis.Props.C82_roundtrip_partial",
    "Ocgis.Props.C82_roundtrip_spherical_partial",
    "Ocgis.Props.C82_roundtrip_text_partial",
    "Ocgis.Props.C82_history_partial",
    "Ocgis.Props.C82_rotated_kept",
    "Ocgis.Props.C82_radius_counterexample",
    "Ocgis.Props.C82_sphere_counterexample",
    "Ocgis.Props.C82_equal_counterexample",
    "Ocgis.Props.C82_assigned_counterexample",
    "Ocgis.Props.C82_given_counterexample",
    "Ocgis.Props.C82_history_counterexample",
    "Ocgis.Props.C82_transformed_counterexample",
    "Ocgis.Props.C82_units_counterexample",
    "Ocgis.Props.C82_no_data_counterexample"
   ],
   "note": "The code violates the full property:  **C82.** The shape of the Earth in the file is ignored, for spherical grid mappings as for projections. **C82.** The radius of a `Spherical` coordinate system is not read back. **C82.** Two rotated poles compare equal, wherever the poles are. **C82.** A coordinate system that is asked for is not the one read back when the file has a spherical grid mapping of another name: the file written has both, and cannot be opened. **C82.** A coordinate system that is asked for does not help if that of the file cannot be read. **C82.** After a file with a rotated pole was opened, every file written has that rotated pole, whatever its field has. **C82.** A field that is transformed to a projection is written to a file that cannot be opened. **C82.** Longitudes that were computed from a projection still have its units and standard names. **C82.** Without data variables, a projection is read back as a sphere. Proved part:  **C82.** A projection or rotated pole that is written is read back as it is: class, name, parameters and projection coordinates. Missing: other coordinate systems do not keep all parameters, see the counterexamples below. **C82.** The spherical grid mapping is read back. **C82.** Any other coordinate system is read back from its PROJ.4 text, with its name. **C82.** A file has the coordinate system of the field, whatever was done before, as long as no file with a rotated pole was opened. Missing: this is false after such a file, see `C82_history_counterexample`."
  },
  {
   "property": "C83",
   "status": "partial",
   "theorems": [
    "Ocgis.Props.C83_cartesian",
    "Ocgis.Props.C83_cartesian_and_back",
    "Ocgis.Props.C83_from_cartesian_and_back",
    "Ocgis.Props.C83_radians_counterexample",
    "Ocgis.Props.C83_places_partial",
    "Ocgis.Props.C83_geometry_places_partial",
    "Ocgis.Props.C83_field_partial",
    "Ocgis.Props.C83_failed",
    "Ocgis.Props.C83_refused",
    "Ocgis.Props.C83_pole_projected_counterexample",
    "Ocgis.Props.C83_to_pole_counterexample",
    "Ocgis.Props.C83_pole_geometry_counterexample",
    "Ocgis.Props.C83_origin_counterexample",
    "Ocgis.Props.C83_angular_units_counterexample",
    "Ocgis.Props.C83_range_counterexample",
    "Ocgis.Props.C83_holes_counterexample",
    "Ocgis.Props.C83_half_counterexample",
    "Ocgis.Props.C83_cartesian_counterexample"
   ],
   "note": "The code violates the full property:  **C83.** A grid in radians can be transformed to Cartesian coordinates, but transforming one to a system in radians fails after the coordinates were replaced. **C83.** Full statement false: a grid with a rotated pole transformed to a projected system only gets the longitudes and latitudes, though its coordinate system is the projected one. **C83.** A projected grid cannot be transformed to a rotated pole: an assertion fails. **C83.** Full statement false: geometries with a rotated pole are taken for ones of an oblique Mercator projection, and two rotated poles for the same. **C83.** The origin given to `update_crs` does not replace the grid's own coordinate system: a grid with a rotated pole fails with any other origin, and one of a known system is taken for an oblique Mercator projection if the origin is a rotated pole. **C83.** Radians are not converted: coordinates in radians transformed to degrees on the same sphere stay as they are. **C83.** Full statement false: the longitude of a pole is lost, longitudes below -180 degrees are accepted and come back 360 degrees larger, and with a negative level the point comes back on the other side of the Earth. **C83.** Full statement false: a polygon transformed to Cartesian coordinates or back loses its holes; without heights it gets heights of one. **C83.** Full statement false: a field with a grid and several geometries is half transformed to Cartesian coordinates: the grid and the field's coordinate system change, then an assertion fails and the geometries stay. **C83.** Ellipsoids cannot be transformed to Cartesian coordinates or back, and corners without levels cannot be transformed. Proved part:  **C83.** A grid transformed between coordinate systems keeps the place of every centre and corner; its levels stay. Corners are removed if one of the systems has a rotated pole. What is missing: rotated poles with other systems than spheres (`C83_pole_projected_counterexample`), and an origin that differs from the grid's own (`C83_origin_counterexample`). **C83.** Geometries transformed between known coordinate systems keep the place of every point of their exteriors and holes, and their heights. What is missing: rotated poles (`C83_pole_geometry_counterexample`). **C83.** However often a field is transformed between known coordinate systems, nothing fails, and the centres and corners of its grid and its geometries are in the last system and at the places where they were. What is missing: rotated poles and Cartesian systems."
  },
  {
   "property": "C84",
   "status": "partial",
   "theorems": [
    "Ocgis.Props.C84_values_partial",
    "Ocgis.Props.C84_given_mask_partial",
    "Ocgis.Props.C84_hidden_partial",
    "Ocgis.Props.C84_unmapped_partial",
    "Ocgis.Props.C84_split",
    "Ocgis.Props.C84_resolution",
    "Ocgis.Props.C84_global",
    "Ocgis.Props.C84_east",
    "Ocgis.Props.C84_west",
    "Ocgis.Props.C84_corners_partial",
    "Ocgis.Props.C84_constant_partial",
    "Ocgis.Props.C84_refused",
    "Ocgis.Props.C84_longitude_first",
    "Ocgis.Props.C84_slices_counterexample",
    "Ocgis.Props.C84_unmasked_counterexample",
    "Ocgis.Props.C84_fill_counterexample",
    "Ocgis.Props.C84_value_mask_counterexample",
    "Ocgis.Props.C84_order_counterexample",
    "Ocgis.Props.C84_transposed_counterexample",
    "Ocgis.Props.C84_no_variables_counterexample",
    "Ocgis.Props.C84_greenwich_counterexample",
    "Ocgis.Props.C84_zero_counterexample",
    "Ocgis.Props.C84_operation",
    "Ocgis.Props.C84_operation_counterexample"
   ],
   "note": "The code violates the full property:  **C84 fails** for masks that change from slice to slice: a value masked in the second slice only enters the average (505 instead of 10), though this ESMF respects the masks it is given. **C84 fails** without `split`, and for variables that have latitude and longitude only: cells the destination hides and ESMF does not map are not masked, they show the fill value. **C84 fails** for mapped values equal to the fill value: with `fill_value=0` the zeros of the result are masked, and a slice of zeros raises the error that nothing overlaps; all at once it does not. **C84 fails** for a mask given by the user (\"with same shape as\" the source grid): it is laid over the destination too. Regridding to a grid of another shape is refused; with the same shape, cells of the destination are masked. **C84 fails** for variables stored with longitude before latitude: on a square grid the values come out transposed, on other grids they are refused. **C84 fails** for coordinate matrices stored with longitude before latitude: on a square grid ESMF has the centres of other cells. **C84 fails** for fields without data variables: an unbound local variable, although the code means to use the grid instead. **C84 fails** for regional grids across Greenwich: longitudes from -10 to 10 make a periodic ESMF grid, and the last cell, from 9 to 10, has for ESMF its eastern corners at -10. **C84 fails** for a global grid of two columns, which is not taken to be periodic, and the resolution is wrong for coordinates on both sides of zero. **C84 fails** for the source of the operation: it is left in the spherical system (coordinate systems 1 and 0), even with `revert_dst_crs`; so is the destination without. Proved part:  **C84 (partial).** What the values of a regridded field are, when everything is stored with latitude before longitude: each is the sum of the values of the same slice of the same variable in the cells ESMF names, with ESMF's weights for the source and destination grids; cells ESMF does not map have the fill value. The source grid ESMF sees has the centres of the field's grid, and its usable cells are those hidden neither by the spatial mask nor by the first slice of the first variable; the destination grid is that of the destination. The method is the one asked for; `auto` is conservative when both grids have bounds. **C84 (partial).** With a mask given by the user, it replaces the mask of the first variable: the cells of the source grid ESMF may use are those hidden neither by it nor by the spatial mask. The same holds of the destination, which is missing in the claim (`C84_value_mask_counterexample`); both grids have the shape of the mask. **C84 (partial).** Masked source values do not enter the result, provided all slices of all variables have the same mask and ESMF respects the masks it is given: changing the values under the mask changes nothing. **C84 (partial).** With `split` (the default), for variables with a dimension besides latitude and longitude, cells of the destination that ESMF does not map are masked, among them those the destination's mask hides; cells that are masked hold the fill value. **C84 (partial).** The cells ESMF sees have the corners of the grid's cells, up to whole turns, if neighbouring cells share corners and a grid taken to be periodic really goes around the globe. **C84 (partial).** If ESMF's weights of each cell add up to one, a constant slice stays constant wherever it is mapped."
  },
  {
   "property": "C85",
   "status": "partial",
   "theorems": [
    "Ocgis.Props.C85_separate",
    "Ocgis.Props.C85_replacing",
    "Ocgis.Props.C85_copy",
    "Ocgis.Props.C85_slice",
    "Ocgis.Props.C85_fancy",
    "Ocgis.Props.C85_ranges",
    "Ocgis.Props.C85_deepcopy_partial",
    "Ocgis.Props.C85_session_partial",
    "Ocgis.Props.C85_member_partial",
    "Ocgis.Props.C85_copy_counterexample",
    "Ocgis.Props.C85_slice_counterexample",
    "Ocgis.Props.C85_cascade_counterexample",
    "Ocgis.Props.C85_attributes_counterexample",
    "Ocgis.Props.C85_siblings_counterexample",
    "Ocgis.Props.C85_member_counterexample"
   ],
   "note": "The code violates the full property:  **C85, against the claim.** Elements assigned to a copy of a variable are assigned to the variable too. **C85, against the claim.** The same for a slice by a range: the second element of `x[2:4]` is the fourth of `x`. **C85, against the claim.** A mask that is set on a copy and reaches the other variables of the copy masks the elements of the original's variables too, if these had a mask. **C85, against the claim.** An attribute set on a copy of a collection is set on the collection too. **C85, against the claim.** The other variables in the collection of a deep copy share their arrays with the original's. **C85, against the claim.** The deep copy of a variable with bounds is not the variable its own collection has under its name: the values set on it are not in the slices made from it. Proved part:  **C85 (part).** A deep copy of a variable has the same contents and shares no memory with any variable that existed; the same is true of its bounds. Nothing that existed is changed. Missing: the other variables of the copy's collection share their arrays (`C85_siblings_counterexample`), and the copy of a variable with bounds is not the variable its own collection has (`C85_member_counterexample`). **C85.** What is done to a deep copy does not reach any variable that existed, and what is done to these does not reach the copy. **C85 (part).** The deep copy of a variable without bounds is the variable that its collection has under its name."
  },
  {
   "property": "C86",
   "status": "partial",
   "theorems": [
    "Ocgis.Props.C86_union",
    "Ocgis.Props.C86_union_ranks",
    "Ocgis.Props.C86_union_dimensions_counterexample",
    "Ocgis.Props.C86_mean_partial",
    "Ocgis.Props.C86_mean_same_partial",
    "Ocgis.Props.C86_by_area",
    "Ocgis.Props.C86_between",
    "Ocgis.Props.C86_untouched",
    "Ocgis.Props.C86_succeeds",
    "Ocgis.Props.C86_sequence_counterexample",
    "Ocgis.Props.C86_missing_counterexample",
    "Ocgis.Props.C86_order_counterexample",
    "Ocgis.Props.C86_area_counterexample",
    "Ocgis.Props.C86_ranks_between_partial",
    "Ocgis.Props.C86_root_counterexample",
    "Ocgis.Props.C86_times_counterexample",
    "Ocgis.Props.C86_ranks_missing_counterexample"
   ],
   "note": "The code violates the full property:  **C86 fails** for a union over some of the dimensions: the geometry for each index along the dimensions that stay is that of the first index. **C86 fails**: the same two variables in the other order are refused, because the second one is given the dimensions of the first. **C86 fails**: at a time at which all data are missing, the average is the number zero, and not missing. **C86 fails** for a variable with the dimensions of the geometries in another order: its values get the weights of other cells. With a further dimension the request is refused. **C86 fails** for the mean by area: a geometry without area among others is given the weight one, which may be more than theirs. **C86 fails** on several processes: the root counts with the area of the union of all. Two geometries of one size with the values 0 and 3 have the mean 3/2 on one process, and 1 on two. **C86 fails** on several processes: the weights are sorted with the values of one time and used so for the next. The same data at two times have different averages. **C86 fails** on several processes: where the data of one process are missing, zero takes part in the mean. Proved part:  **C86, partial.** A named variable that has other dimensions than those of the geometries has, at each index along these, the mean of its values that are not masked, at geometries that are not masked, weighted as documented: by area, and by one for a geometry without area. The result is not masked. Missing: an index where there is no such value (see `C86_missing_counterexample`). **C86, partial.** A named variable that has the dimensions of the geometries, in this order, has one element: the mean of its values that are not masked, at geometries that are not masked, weighted as documented. It is masked if there is no such value. Missing: the same dimensions in another order (see `C86_order_counterexample`). **C86, partial.** On several processes, the average of a named variable lies between bounds of all the values that count, on all processes, if each process has one; so where these are equal, it is their common value. Missing: that it is the mean with the weights of all geometries (see the counterexamples below)."
  },
  {
   "property": "C87",
   "status": "partial",
   "theorems": [
    "Ocgis.Props.C87_mask",
    "Ocgis.Props.C87_index_partial",
    "Ocgis.Props.C87_index_counterexample",
    "Ocgis.Props.C87_select_partial",
    "Ocgis.Props.C87_processes",
    "Ocgis.Props.C87_all_counterexample",
    "Ocgis.Props.C87_hint_counterexample",
    "Ocgis.Props.C87_clip_partial",
    "Ocgis.Props.C87_unchecked",
    "Ocgis.Props.C87_clip_slice_counterexample",
    "Ocgis.Props.C87_nearest",
    "Ocgis.Props.C87_nearest_processes_counterexample",
    "Ocgis.Props.C87_buffer_partial",
    "Ocgis.Props.C87_buffer_counterexample",
    "Ocgis.Props.C87_touch_partial",
    "Ocgis.Props.C87_touch_counterexample",
    "Ocgis.Props.C87_grid_partial",
    "Ocgis.Props.C87_grid_optimized_partial",
    "Ocgis.Props.C87_grid_optimized_counterexample",
    "Ocgis.Props.C87_grid_hint_counterexample"
   ],
   "note": "The code violates the full property:  C87 (defect): two lines that share an end, and a point there. The point is in the interior of the geometry, so it is selected without an index; with one it only touches each part, and it is masked. C87 (defect): when all elements of a variable of one dimension are selected, the selection fails with an `IndexError`, for every such variable. C87 (defect): a hint mask replaces the mask of the variable in the search. Here the only element that meets the geometry is masked; with a hint that excludes nothing the selection does not raise: it returns that masked element. C87 (defect): without the check and with the slice, `get_intersection` always fails. C87 (defect): on two processes each returns the nearest of its own elements. C87 (defect): without a mask only the first element of a variable of one dimension is buffered, the others are lost; with two dimensions it fails. C87 (defect): by default a geometry that only touches is left out by a selection, as documented, but not by clipping: here the second geometry, of which only a point is left. C87 (defect): the optimized selection replaces the mask of the grid: the masked cell, which is near, is not masked in the result (while the selection that is not optimized keeps it masked). C87 (defect): a mask given by the caller replaces the mask of the grid, so that the masked cell is selected; and the caller's array is overwritten with the mask of the result. Proved part:  C87 (part): the mask is the same with an index as without, for every geometry whose interior is that of its parts, and for every geometry when touching is enough. For lines that share ends it is not (`C87_index_counterexample`). C87 (part): for every geometry variable distributed in blocks over any number of processes, with or without an index, `get_intersects` raises when no element is selected; otherwise its slice is the smallest rectangle with all selected elements, each process keeps exactly its elements in it with their geometries, and the elements that are not masked are exactly the selected ones. Missing: variables of one dimension with a process all of whose elements are selected (`C87_all_counterexample`), and hint masks (`C87_hint_counterexample`). C87 (part): `get_intersection` selects the same elements as `get_intersects`, with the same slice, and each selected element holds the intersection of its geometry with the subset geometry. The source keeps its geometries; when the operation is in place exactly the selected ones are replaced. Missing: as in `C87_select_partial`. C87 (part): with a mask, every element that is not masked is buffered and the others are none. Missing: variables without a mask (`C87_buffer_counterexample`). C87 (part): when `keep_touches` is given, clipping a field of geometries and selecting from it leave the same elements unmasked, on every process. C87 (part): for every grid and geometry whose hints miss no chosen cell (C23, C61), and without a hint of the caller, the selection raises when no cell is selected; otherwise the slice is the smallest with all selected cells, the cells in it that are not masked are exactly the selected ones, and clipping gives exactly these their intersections. Missing: the optimized selection and masks of the caller (`C87_grid_optimized_counterexample`, `C87_grid_hint_counterexample`), several processes. C87 (part): the optimized selection from a grid without a mask, by the hints alone: it raises when no cell is near, otherwise the slice is the smallest with the cells that are near, and the cells in it that are not masked are exactly these. Missing: grids with a mask (`C87_grid_optimized_counterexample`)."
  },
  {
   "property": "C88",
   "status": "partial",
   "theorems": [
    "Ocgis.Props.C88_whole_partial",
    "Ocgis.Props.C88_exact_partial",
    "Ocgis.Props.C88_given_partial",
    "Ocgis.Props.C88_default_partial",
    "Ocgis.Props.C88_one_chunk",
    "Ocgis.Props.C88_area",
    "Ocgis.Props.C88_checked",
    "Ocgis.Props.C88_contains",
    "Ocgis.Props.C88_index_partial",
    "Ocgis.Props.C88_coarse_counterexample",
    "Ocgis.Props.C88_signed_counterexample",
    "Ocgis.Props.C88_mask_counterexample",
    "Ocgis.Props.C88_outside_counterexample",
    "Ocgis.Props.C88_template_counterexample",
    "Ocgis.Props.C88_rank_counterexample"
   ],
   "note": "The code violates the full property:  C88 (defect): the default buffer is twice the finer spacing, and the source is selected by its centres: when the source is much coarser than the destination, source cells that overlap a destination chunk are missed, and with them their weights (destination cell 11 lies in source cell 2). C88 (defect): the spacing is that of the absolute coordinates: two source cells with centres -1/2 and 1/2 have the spacing zero, and so the default buffer is zero; the weight of a pair that overlaps is lost. C88 (defect): the optimized selection drops the mask of the source: the merged file has weights from a masked cell. C88 (defect): a destination chunk outside of the source stops the run, although the other chunk has weights. C88 (defect): a file name template without a place for the number is accepted; the weights of the last chunk are then read for every chunk. C88 (defect): process zero has no part of the second destination chunk, but another process has; the source slices are gathered and the destination slices are not, so that the index file cannot be written. Proved part:  C88 (part): for every pair of grids with bounds, the source without a mask, and every method whose weights belong to pairs of overlapping cells: if the buffer is at least the reach of the source cells from their centres, and each destination chunk has a cell that overlaps the source and one that is not masked, then writing the chunks and merging their weight files gives the weights of the whole: the same, each as often. Missing: sources that reach further than the buffer (`C88_coarse_counterexample`, `C88_signed_counterexample`), masked sources (`C88_mask_counterexample`), chunks outside of the source (`C88_outside_counterexample`), file names that are not different (`C88_template_counterexample`), dimensions of length one that are split (C62). C88 (part): without the optimized selection, for every source with bounds and any mask: if the buffer is not negative and the source cells reach no further from their centres than five quarters of the resolution of the source (C23), and each destination chunk has a cell that overlaps a source cell that is not masked, and one that is not masked, then the merged weights are those of the whole. Missing: the same as for `C88_whole_partial`, except masked sources. C88 (part): the buffer or the two resolutions that the caller gives are used: if the given buffer, or twice the smaller of the given resolutions, is at least the reach of the source cells from their centres, the merged weights are those of the whole. Missing: the same as for `C88_whole_partial`. C88 (part): the default buffer is enough for evenly spaced coordinates that are not negative, at least two in each direction, when the source cells extend by half a spacing and the larger source spacing is at most four times the larger destination spacing. Missing: coarser sources (`C88_coarse_counterexample`), coordinates around zero (`C88_signed_counterexample`). C88 (part): the index file gets the slices of all chunks, for any number of processes, if the processes agree and process zero has all destination slices. Missing: process zero without a part of a destination chunk, which happens with a spatial decomposition (`C88_rank_counterexample`)."
  },
  {
   "property": "C89",
   "status": "partial",
   "theorems": [
    "Ocgis.Props.C89_last_set_partial",
    "Ocgis.Props.C89_reads_partial",
    "Ocgis.Props.C89_attributes_first",
    "Ocgis.Props.C89_attributes_partial",
    "Ocgis.Props.C89_again",
    "Ocgis.Props.C89_replaced",
    "Ocgis.Props.C89_is_data_partial",
    "Ocgis.Props.C89_crs_partial",
    "Ocgis.Props.C89_units_counterexample",
    "Ocgis.Props.C89_collection_counterexample",
    "Ocgis.Props.C89_same_name_counterexample",
    "Ocgis.Props.C89_rename_counterexample",
    "Ocgis.Props.C89_rename_data_counterexample",
    "Ocgis.Props.C89_remove_bounds_counterexample",
    "Ocgis.Props.C89_time_bounds_counterexample",
    "Ocgis.Props.C89_time_object_counterexample",
    "Ocgis.Props.C89_crs_counterexample",
    "Ocgis.Props.C89_is_data_counterexample"
   ],
   "note": "The code violates the full property:  A time variable that replaces another shows the units of the one before, so that its values denote other dates. A coordinate brings along all variables of the collection it comes from: those of the field with the same names are replaced, here the data variable. Coordinates with the same name: the second replaces the first for both. Renaming the variable of a coordinate loses the coordinate. Renaming a data variable takes it off the list of data variables. Removing the bounds of a coordinate makes the coordinate unreadable. Bounds set on the time variable of a field are gone when it is read again. Every access to the time of a field gives another object. A coordinate system that is set without being added can be neither read nor replaced. A data variable given to a new field is not added when the field has a variable of that name; the other one counts as data. Proved part:  In every history of setting coordinates, setting them to `None`, reading them and adding data variables, no call fails, every coordinate is afterwards the variable it was set to last, with its array, dimensions, bounds and (but for time) identity, and the data variables are those added, each as added last. Missing: names shared between coordinates or with data variables, which the counterexamples show to be lost. Reading coordinates changes none of them: without the reads of a history the field shows the same. So a coordinate that was set once since it was last `None` shows the attributes of the variable. Missing: coordinates set again, where the attributes of the variable before are kept (`C89_units_counterexample`). The data variables given to a new field are its data variables, in order, if their names are not taken. Missing: names that are (`C89_is_data_counterexample`). Setting the coordinate system of a field whose current one can be read: it is the one read afterwards, the one before is gone, other variables and the coordinates stay."
  },
  {
   "property": "C90",
   "status": "partial",
   "theorems": [
    "Ocgis.Props.C90_points_partial",
    "Ocgis.Props.C90_line_counterexample",
    "Ocgis.Props.C90_box",
    "Ocgis.Props.C90_box_clip",
    "Ocgis.Props.C90_order_counterexample",
    "Ocgis.Props.C90_depth_partial",
    "Ocgis.Props.C90_depth_unmasked",
    "Ocgis.Props.C90_depth_counterexample",
    "Ocgis.Props.C90_hint_partial",
    "Ocgis.Props.C90_hint_unmasked",
    "Ocgis.Props.C90_hint_counterexample",
    "Ocgis.Props.C90_polygons_partial",
    "Ocgis.Props.C90_polygon_hint_counterexample",
    "Ocgis.Props.C90_polygon_box_counterexample",
    "Ocgis.Props.C90_unsliced",
    "Ocgis.Props.C90_unsliced_counterexample",
    "Ocgis.Props.C90_touch",
    "Ocgis.Props.C90_touch_depth",
    "Ocgis.Props.C90_touch_counterexample"
   ],
   "note": "The code violates the full property:  C90 (defect): a point in the interior of a line does not only touch it, but when touching is not enough the line has to have the point strictly within its box, and a box of no height has none: nothing is selected. C90 (defect): points may have a connectivity, which tells the node of each element. The boxes are tried on the nodes in their own order, so with two elements in the other order the wrong one is selected. C90 (defect): the second point lies far above the geometry. It is not selected when the third is masked, and it is when no point is: masking one point changes whether another is selected. C90 (defect): a mask given by the caller is to exclude points. The first point is excluded and is selected all the same, and the caller's array says afterwards that it is not masked. C90 (defect): a mask given by the caller is not used for polygons. C90 (defect): the selection of polygons by bounding boxes returns all of them, wherever they are. C90 (defect): without slicing the mask is to tell what is selected; nothing is, and the object returned has all elements, none of them masked. C90 (defect): the check is to stop the program when the geometry touches a point. Points on the edge of the square and at its upper left corner touch it, and the selection goes on with them. Proved part:  C90 (part): selecting from points by a geometry without a third coordinate returns exactly the points that are not masked and that the geometry chooses, in order, with their mask, and the slice tells which they are; the geometries of an intersection are those of the points returned, and there are none when no point is. Missing: geometries whose parts lie along an axis when touching is not enough (`C90_line_counterexample`), masks given by the caller (`C90_hint_counterexample`), third coordinates (`C90_depth_counterexample`), and not slicing (`C90_unsliced_counterexample`). C90 (part): when some process has masked points (and this one has a mask), selecting from points returns exactly those that are not masked, that the geometry chooses in the plane, and that lie in the box and range of third coordinates of some part of it. Missing: objects without masked points (`C90_depth_unmasked`, `C90_depth_counterexample`). C90 (part): when some process has masked points (and this one has a mask), a mask given by the caller leaves out the points it has: exactly those not masked by either that the geometry chooses are returned. The caller's array is overwritten: it tells the points that were not selected. Missing: objects without masked points (`C90_hint_unmasked`, `C90_hint_counterexample`), and polygons (`C90_polygon_hint_counterexample`). C90 (part): selecting from polygons returns exactly those that are not masked and that the geometry chooses, in order, with their mask, whatever the mask given by the caller, which is not changed; the geometries of an intersection are those of the polygons returned. Missing: the mask given by the caller (`C90_polygon_hint_counterexample`), bounding boxes (`C90_polygon_box_counterexample`), and not slicing (`C90_unsliced_counterexample`)."
  },
  {
   "property": "C91",
   "status": "partial",
   "theorems": [
    "Ocgis.Props.C91_percentiles_partial",
    "Ocgis.Props.C91_missing_partial",
    "Ocgis.Props.C91_order_partial",
    "Ocgis.Props.C91_monotone_partial",
    "Ocgis.Props.C91_between_partial",
    "Ocgis.Props.C91_read_back",
    "Ocgis.Props.C91_frequency_partial",
    "Ocgis.Props.C91_bad_percentile",
    "Ocgis.Props.C91_masked_counterexample",
    "Ocgis.Props.C91_half_hour_counterexample",
    "Ocgis.Props.C91_even_width_counterexample",
    "Ocgis.Props.C91_wide_counterexample",
    "Ocgis.Props.C91_error_counterexample"
   ],
   "note": "The code violates the full property:  C91 fails: a masked value enters the percentile, and the result is not masked; a cell that is masked at the first time step only is masked for every calendar day. C91 fails: at half past twelve the difference to the full hour of the day before is a day and a half hour, that to the day after less than a day; a window of one day therefore holds the data of two days. C91 fails: a width of four days selects the days up to two days away, five days. C91 fails for a width of 121 days: 31 December 2003 is sixty days before 29 February 2004 but not in the window of 29 February, although the window of 28 February holds it. C91 fails: data of the first year of the calendar raise an error, because the year before does not exist; so does a single time step, and so do several levels or realizations. Proved part:  C91 (partial: two or more time steps, all at the same full hour and none of them in the first or last year of the calendar, no value is missing, the width is odd and at most 119 days): the output has one value for every calendar day of the data, in the order of the year, and the value is the percentile of exactly the data of the days in the window around that calendar day. C91 (partial, as above): a cell without a value at any time has none for any calendar day. C91 (partial, as above): the result does not depend on the order in which the days of a month are visited. C91 (partial, as above): a higher percentile is not smaller. C91 (partial, as above): the results are within the range of the data. C91 (partial: no value is missing): the percentile along the time axis."
  },
  {
   "property": "C92",
   "status": "partial",
   "theorems": [
    "Ocgis.Props.C92_read_partial",
    "Ocgis.Props.C92_set_partial",
    "Ocgis.Props.C92_set_counterexample",
    "Ocgis.Props.C92_mask_counterexample",
    "Ocgis.Props.C92_remove_counterexample",
    "Ocgis.Props.C92_removed_counterexample",
    "Ocgis.Props.C92_null_counterexample",
    "Ocgis.Props.C92_repeated_counterexample",
    "Ocgis.Props.C92_descending_counterexample",
    "Ocgis.Props.C92_renamed_counterexample",
    "Ocgis.Props.C92_orphan",
    "Ocgis.Props.C92_types",
    "Ocgis.Props.C92_date_counterexample",
    "Ocgis.Props.C92_schema_partial",
    "Ocgis.Props.C92_schema_counterexample"
   ],
   "note": "The code violates the full property:  A value that is set before anything is read is replaced by that of the file when another variable is read. A mask that is set before anything is read is replaced when any column of the file has a null in an integer column, and kept when none has. Removing the value of one variable and reading it again replaces what was set in another. Removing the value of the variable that was read first does not read it again: it is made of fill values. Nulls of text and floating point columns are not masked. Slices with repeated positions: a variable that is read before has the features asked for, a variable that is read afterwards has zeros instead. Positions in descending order give the features in between, in the order of the file. A variable of an attribute with another name makes every variable of the field unreadable; a geometry variable with another name is full of zeros.  A null in the first record makes an integer column, whatever the other records hold. Proved part:  After any history of orderly slices and reading, in any order, every variable shows the features of the file at the positions that are left: attributes by their names, geometries; and exactly the nulls of integer columns are masked. Missing for the full property: values and masks that are set, values that are removed, slices with repeated or descending positions, renamed variables, and nulls of other columns (see the counterexamples). When every variable has its value, setting and reading values and masks behaves as for independent variables: what is read is what was set last, or what was there. Missing for the full property: variables that are not read yet (see the counterexamples). A file that is written has columns that read back with the kinds of the values of the first record, if none of these is null."
  },
  {
   "property": "C93",
   "status": "partial",
   "theorems": [
    "Ocgis.Props.C93_wrap_partial",
    "Ocgis.Props.C93_unwrap_partial",
    "Ocgis.Props.C93_wrap_returns",
    "Ocgis.Props.C93_unwrap_returns",
    "Ocgis.Props.C93_points",
    "Ocgis.Props.C93_roundtrip_partial",
    "Ocgis.Props.C93_match_partial",
    "Ocgis.Props.C93_straddle_counterexample",
    "Ocgis.Props.C93_hole_counterexample",
    "Ocgis.Props.C93_outside_counterexample",
    "Ocgis.Props.C93_touch_counterexample",
    "Ocgis.Props.C93_corner_counterexample",
    "Ocgis.Props.C93_state",
    "Ocgis.Props.C93_ranks_partial",
    "Ocgis.Props.C93_ranks_counterexample",
    "Ocgis.Props.C93_action",
    "Ocgis.Props.C93_variable_partial",
    "Ocgis.Props.C93_variable_counterexample",
    "Ocgis.Props.C93_box_partial",
    "Ocgis.Props.C93_box_counterexample",
    "Ocgis.Props.C93_grid_counterexample"
   ],
   "note": "The code violates the full property:  A geometry from the western hemisphere to beyond 180 degrees is not brought to the convention of an unwrapped field: the place at 350 degrees is not in it, although it is the place at 10 degrees west. A hole is lost: a place in it is in the wrapped polygon. What is beyond 360 degrees, or beyond 180 degrees west, is lost when the geometry is cut. Two parts, of which one ends at 180 degrees and the other is east of it: cutting leaves a line, and an error is raised. A part that touches the western box in a point: the points are not dropped as the lines are, and an error is raised. With longitudes on both sides, one process finds another state than two processes; with an empty process the state may be undefined, depending on the order of a set. The first geometry that tells decides for all: with geometries in both conventions nothing is wrapped, unless it is forced. A box that goes beyond 360 degrees is not prepared: the places just east of 0 degrees are missed. A box that is all in the western hemisphere but said to be unwrapped is made too large. A grid is asked with the box as it is, unstructured coordinates with the prepared boxes: the same box misses, on a grid, what it finds among unstructured coordinates. Proved part:  Wrapping polygons without holes, between 180 west and 360 east: a place is in the result exactly when it, or the same place one turn further east, was in the geometry, and the result is between 180 west and 180 east. (Places on the seam and at the poles are left out.) Missing for the full property: holes, which are lost, coordinates outside of these longitudes, and touching geometries for which an error is raised (see the counterexamples). Unwrapping polygons without holes, between 180 west and 180 east. Unwrapping what was wrapped gives back the places between 0 and 360 degrees. Before a selection the geometry is brought to the convention of the field: a place of the field is then in it exactly when the same place, in any convention, is in the geometry given; unless the geometry goes from the western hemisphere to beyond 180 degrees. Several processes find the state that one process would find, if the longitudes are not both negative and above 180, whatever the order of the set they are gathered in. Wrapping a variable of geometries: if no geometry is on the western side, every geometry that is not masked is wrapped by itself; unwrapping likewise if none is beyond 180 degrees. A bounding box that starts in the western hemisphere is prepared for unwrapped coordinates: a place between 0 and 360 degrees is in the prepared boxes exactly when it, or the same place one turn further west, is in the box."
  },
  {
   "property": "C94",
   "status": "partial",
   "theorems": [
    "Ocgis.Props.C94_records_partial",
    "Ocgis.Props.C94_melted_partial",
    "Ocgis.Props.C94_strict",
    "Ocgis.Props.C94_refused",
    "Ocgis.Props.C94_attached_twice",
    "Ocgis.Props.C94_given",
    "Ocgis.Props.C94_first_masked_counterexample",
    "Ocgis.Props.C94_primary_mask_counterexample",
    "Ocgis.Props.C94_melted_variable_counterexample",
    "Ocgis.Props.C94_melted_alone_counterexample",
    "Ocgis.Props.C94_name_counterexample",
    "Ocgis.Props.C94_realization_bounds_counterexample",
    "Ocgis.Props.C94_dataset_counterexample",
    "Ocgis.Props.C94_repeated_counterexample",
    "Ocgis.Props.C94_masked_bounds_counterexample",
    "Ocgis.Props.C94_strict_counterexample"
   ],
   "note": "The code violates the full property:  A record is lost where the first data variable is masked, though the second has a value there; with the variables in the other order it is kept. Naming another variable as primary mask changes nothing: the first data variable still decides. Melted records of a chosen variable fail. A field with one data variable and nothing else has no melted records. A data variable called `TIME` takes the place of the time. A realization with bounds cannot be iterated, though a time with bounds can. A coordinate made from a dataset cannot have repeated columns. Of columns repeated for several data variables, only those of the last are shown. A masked time is not shown, but its bounds are. Strict records of a field with times need year, month and day, which only tabular drivers make. Proved part:  C94 (one record per position). With standard names, a field yields one record for every position of the first data variable that is not left out, in row-major order, each with the geometry of the position. A record has exactly these columns: the repeated ones, the value of every data variable and follower under its name, and identifier, realization, time and level under their standard names. Missing from the full property: other masked values should not decide which records there are, and names that clash should not hide columns (see the counterexamples below). C94 (melted). Melted, a field yields for every position that is not left out one record per data variable, in order: its name, its value, the columns repeated for it, and the followers and coordinates as before. The data variables have repeated columns of the same names. Missing from the full property: a field whose only variable is melted yields nothing (`C94_melted_alone_counterexample`)."
  },
  {
   "property": "C95",
   "status": "partial",
   "theorems": [
    "Ocgis.Props.C95_parts",
    "Ocgis.Props.C95_order_partial",
    "Ocgis.Props.C95_conventions",
    "Ocgis.Props.C95_seasons_partial",
    "Ocgis.Props.C95_unique_partial",
    "Ocgis.Props.C95_all_partial",
    "Ocgis.Props.C95_dimensions",
    "Ocgis.Props.C95_refused",
    "Ocgis.Props.C95_empty_season",
    "Ocgis.Props.C95_order_counterexample",
    "Ocgis.Props.C95_month_bounds_counterexample",
    "Ocgis.Props.C95_incomplete_month_counterexample",
    "Ocgis.Props.C95_day_counterexample",
    "Ocgis.Props.C95_season_bounds_counterexample",
    "Ocgis.Props.C95_year_season_counterexample",
    "Ocgis.Props.C95_winter_counterexample",
    "Ocgis.Props.C95_unique_bounds_counterexample",
    "Ocgis.Props.C95_middle_counterexample"
   ],
   "note": "The code violates the full property:  C95 is false of the order of groups if years are not grouped on: from July 2000 to June 2001, the months in order are not in the order of their representative times. C95 is false of representatives inside their bounds: the mean of January has bounds from the end of 1999, and is represented by a time a year before, outside of its bounds. C95 is false of representatives inside their bounds also for months of years: three days at the beginning of January are represented by the 16th, after the last of them. C95 is false of representatives of days: the 31st of March with bounds from February is represented by the 31st of February. C95 is false of seasons of times with bounds: October, November and December with bounds until the 1st of January are represented by May of the first of the two years, as April, May and June are. C95 is false of seasons of years: a year without a time of one season makes the grouping fail. C95 is false of winters in one year: the winter of 2000 grouped with the year is made of the first two months and the last. C95 is false of the bounds of unique seasons: they are the first and the last value of the times, which do not cover the bounds of the times. C95 is false of the representative of three times grouped together: it is the first, not the middle one. Proved part:  C95 (order). If years are grouped on, the representative times are in order. C95 (seasons). If every season, in every year when years are grouped on, has times, there is one group for each: its times are those of the season, its bounds are the first and the last of theirs, and the year of the representative is not outside them. The month of the representative is in the season if the season goes over the turn of the year, or the times have no bounds and its months are consecutive. Missing from the full property: seasons without times, seasons that begin with the same month, and representatives of times with bounds (see the counterexamples). C95 (unique seasons). The groups are those of C28 if the times have no bounds; the representative is one of the times of the group, and without bounds the bounds of the group are its first and last time. Missing from the full property: bounds of the times are not looked at (`C95_unique_bounds_counterexample`). C95 (all times). Grouping all times gives one group of all of them, with the first and the last bound, represented by one of them: the last of the first half if there is an even number. Missing from the full property: the representative of an odd number of times is not the middle one (`C95_middle_counterexample`)."
  },
  {
   "property": "C96",
   "status": "partial",
   "theorems": [
    "Ocgis.Props.C96_own_names_partial",
    "Ocgis.Props.C96_slice_partial",
    "Ocgis.Props.C96_field_partial",
    "Ocgis.Props.C96_unknown",
    "Ocgis.Props.C96_loose_partial",
    "Ocgis.Props.C96_distributed_partial",
    "Ocgis.Props.C96_dictionary_counterexample",
    "Ocgis.Props.C96_shared_counterexample",
    "Ocgis.Props.C96_clash_counterexample",
    "Ocgis.Props.C96_own_name_counterexample",
    "Ocgis.Props.C96_listed_counterexample",
    "Ocgis.Props.C96_open_counterexample",
    "Ocgis.Props.C96_last_counterexample",
    "Ocgis.Props.C96_negative_counterexample",
    "Ocgis.Props.C96_first_variable_counterexample",
    "Ocgis.Props.C96_no_data_counterexample",
    "Ocgis.Props.C96_past_end_counterexample"
   ],
   "note": "The code violates the full property:  C96 is false for the caller's dictionary: without `strict` it loses the names the field does not have, and the next field sliced by it, which has them, is not sliced along them. C96 is false when two standard names share a dimension: a field of points cannot be sliced at all. C96 is false when a dimension that has no standard name is called by one: it is gone. C96 is false for the own name of a dimension with a standard name: it is not known. C96 is false for the dimension map of the sliced field: a dimension is listed that was not. C96 is false for distributed slices with an open end: the same slice that works otherwise is refused. C96 is false for the last position given as `-1`, without and with `distributed`: no value is left of a dimension of length one, or a `TypeError`. C96 is false for a negative start of a distributed slice: it counts as the beginning, for the values but not for the dimension. C96 is false for dimensions that only other variables have: a distributed slice leaves them whole. C96 is false for a field without data variables: no distributed slice, whatever is asked for. C96 is false past the end: the dimension is as long as it was, the values are fewer. Proved part:  C96: a slice by standard names is what the slice of the same collection by the own names of its dimensions is, under the own names, and an error is the same; the dictionary is as it was. Not strict and strict slices agree, as all names are known. Partial: for names that are unambiguous (`C96_shared_counterexample`, `C96_clash_counterexample`, `C96_own_name_counterexample`). C96: every variable is cut to the positions the slices keep, and every dimension has its own name and that many positions. Partial: for indices of the kind in `C38_collection_partial`, one array for a variable at most. C96: whatever the slice, the field is afterwards what it was, but that its dimension map lists the name of a variable for which no dimension was listed (`C96_listed_counterexample`). Partial: for names that are unambiguous. C96: without `strict`, names that no dimension has are left out. Partial: they are gone from the caller's dictionary, too (`C96_dictionary_counterexample`). C96: a distributed slice on one process, which is what operations ask for: the dimensions of the first data variable are cut to the positions the slices keep, and every variable along them. Partial: dimensions the first data variable does not have are not cut (`C96_first_variable_counterexample`), and the indices are plain (`C96_open_counterexample`, `C96_last_counterexample`, `C96_negative_counterexample`), one array for a variable at most."
  },
  {
   "property": "C97",
   "status": "partial",
   "theorems": [
    "Ocgis.Props.C97_values",
    "Ocgis.Props.C97_round_trip_partial",
    "Ocgis.Props.C97_grid_kept",
    "Ocgis.Props.C97_several",
    "Ocgis.Props.C97_integers",
    "Ocgis.Props.C97_own_mask_counterexample",
    "Ocgis.Props.C97_source_mask_counterexample",
    "Ocgis.Props.C97_no_time_counterexample",
    "Ocgis.Props.C97_name_counterexample",
    "Ocgis.Props.C97_expanded_counterexample",
    "Ocgis.Props.C97_grid_partial",
    "Ocgis.Props.C97_mask_shape_counterexample",
    "Ocgis.Props.C97_mask_name_counterexample",
    "Ocgis.Props.C97_value_mask_counterexample",
    "Ocgis.Props.C97_clockwise_counterexample",
    "Ocgis.Props.C97_converter",
    "Ocgis.Props.C97_converter_counterexample",
    "Ocgis.Props.C97_validate"
   ],
   "note": "The code violates the full property:  C97 is false of masks: what is masked in the variable but not on the grid is no longer masked. C97 is false of the masks of the source: a variable over the grid, converted under another name and back, loses its own mask in the source field too. C97 is false of variables without time in a field that has one: they are refused. C97 is false of fields without data variables that are given a name: the ESMF field cannot be converted back. C97 is false of grids with bounds: their coordinates are no longer vectors afterwards. C97 is false of the shape of the mask: it has longitude first, the coordinates latitude first. C97 is false of mask variables with another name: the new grid refers to a variable it does not have. C97 is false of given masks: ESMF sees the cell as unusable, the grid that comes back has no mask. C97 is false of the order of corners: counter-clockwise cells come back clockwise. C97 is false of the converter's documented default, `auto`: without the option there are no corners although the grid has bounds. Proved part:  **C97 (partial).** Converting to ESMF and back gives the variable with its dimensions and values, masked exactly where the grid is, as the only data variable; the other variables of the field come along with their values, and with their masks if they are beside the grid. Missing: the mask of the variable itself (`C97_own_mask_counterexample`). **C97 (partial).** A grid with latitude first comes back from ESMF with its centres, its corners - up to whole turns, the second and the last exchanged - and, by the names of the dimensions, its mask."
  },
  {
   "property": "C98",
   "status": "partial",
   "theorems": [
    "Ocgis.Props.C98_redistribute_partial",
    "Ocgis.Props.C98_refused",
    "Ocgis.Props.C98_single_counterexample",
    "Ocgis.Props.C98_memory_counterexample",
    "Ocgis.Props.C98_other_variables_counterexample",
    "Ocgis.Props.C98_stale_dimension_counterexample",
    "Ocgis.Props.C98_empty_dimension_counterexample",
    "Ocgis.Props.C98_communicator_counterexample",
    "Ocgis.Props.C98_scatter_refused",
    "Ocgis.Props.C98_scatter_partial",
    "Ocgis.Props.C98_groups_counterexample",
    "Ocgis.Props.C98_scalars_counterexample"
   ],
   "note": "The code violates the full property:  C98 is false of the code: if one element is left among several processes, it is lost. C98 is false of the code: the values of a variable without source that has the dimension are lost. C98 is false of the code: on a process that gets no elements, variables without the dimension lose their values; when it gets elements again, they are read as fill values. C98 is false of the code: a process that gets no elements keeps its old dimension with its source indices, so that giving every process's dimension to a second redistribution brings elements twice. C98 is false of the code: an empty dimension given for a process without elements, instead of none, is an error. C98 is false of the code: in a communicator of two of three started processes the redistribution is refused. C98 is false of the code: a collection with groups cannot be scattered, whatever the groups are. C98 is false of the code: a collection of scalars only, and one without variables, cannot be scattered to several processes. Proved part:  C98, partial: the source indices of all ranks, in rank order, are shared out evenly again, and nothing is lost, duplicated or reordered. On every rank that gets a part, the dimension holds exactly that part (with its bounds), the other dimensions are as before, every variable with a source and with the dimension reads the elements of its source at the part, and every other variable keeps its value. A rank that gets no part is empty. Missing: a single source index, variables without source, variables without the dimension on emptied ranks, and communicators of fewer processes than were started (see the counterexamples). C98, partial: scattering a collection without groups, none of whose variables is distributed, to the processes of a distribution succeeds; every process gets every variable. A variable with the distributed dimension is cut into parts that joined in rank order are the variable; the others are complete on every process that has a part; the remaining processes get no values. Missing: groups, and collections without dimensions (see the counterexamples)."
  },
  {
   "property": "C99",
   "status": "partial",
   "theorems": [
    "Ocgis.Props.C99_multivariate_partial",
    "Ocgis.Props.C99_inputs_partial",
    "Ocgis.Props.C99_expression_partial",
    "Ocgis.Props.C99_univariate",
    "Ocgis.Props.C99_grouped_partial",
    "Ocgis.Props.C99_units",
    "Ocgis.Props.C99_units_given",
    "Ocgis.Props.C99_divide",
    "Ocgis.Props.C99_input_mask_counterexample",
    "Ocgis.Props.C99_member_counterexample",
    "Ocgis.Props.C99_order_counterexample",
    "Ocgis.Props.C99_place_counterexample",
    "Ocgis.Props.C99_first_counterexample",
    "Ocgis.Props.C99_unused_counterexample",
    "Ocgis.Props.C99_mask_counterexample",
    "Ocgis.Props.C99_integer_counterexample",
    "Ocgis.Props.C99_given_counterexample"
   ],
   "note": "The code violates the full property:  The heat index masks values of the field's own variables, for calculations that come after it: here the temperature of 75.   Such a dimension at another place: an `IndexError`, because the output is indexed as if it were at the same place. A variable that has a dimension more than the first is refused, although it could be computed. A string expression over one variable is decided by another one that does not occur in it, if that is the field's first. The mask of a string expression is lost: an element computed from a masked one is not masked. Quotients of integers are cut off. If one variable is given and another is not, the given one is not used. Proved part:  C99: a calculation with several variables that fit the first of them computes, at each place of the first, its formula from exactly the elements of its variables at the same place, and stores it in the data type of the first; which variable is which is as given. A calculation leaves the values of the field's variables as they are; the masks too, of variables that have none or whose values it does not hide. C99: a string expression, evaluated for data variables that fit the first of them, has at each place of the first the value of the expression from the elements of the named variables there, in the data type of the first. (Masks are lost: see the counterexample.) C99: with a temporal grouping each value of the output is the aggregate of the cell by cell results of the group's times there."
  },
  {
   "property": "C100",
   "status": "partial",
   "theorems": [
    "Ocgis.Props.C100_split_area",
    "Ocgis.Props.C100_split_partial",
    "Ocgis.Props.C100_two_holes_counterexample",
    "Ocgis.Props.C100_threshold_partial",
    "Ocgis.Props.C100_threshold_counterexample",
    "Ocgis.Props.C100_prepared_partial",
    "Ocgis.Props.C100_unsplit",
    "Ocgis.Props.C100_refused",
    "Ocgis.Props.C100_left_out",
    "Ocgis.Props.C100_convert_partial",
    "Ocgis.Props.C100_corners_partial",
    "Ocgis.Props.C100_cleaned_parts",
    "Ocgis.Props.C100_triple_counterexample",
    "Ocgis.Props.C100_height_counterexample",
    "Ocgis.Props.C100_holes_counterexample",
    "Ocgis.Props.C100_break_counterexample"
   ],
   "note": "The code violates the full property:  C100 counterexample: with two holes every hole contributes four pieces of the whole polygon: pieces keep the other hole, which is lost when only exteriors are written, and overlap. C100 counterexample: the pieces are not split again, so that they may all have more nodes than the threshold. C100 counterexample: of a node that occurs three times two remain. C100 counterexample: three-dimensional polygons with a repeated node stop the conversion, whether or not polygons may be left out. C100 counterexample: self-intersections of a polygon with holes are not removed; without permission to leave polygons out it is used as it is, with permission it is left out although its holes could be split. C100 counterexample: a polygon repaired to several is written with a break value that no attribute announces, and cannot be read. Proved part:  C100 for polygons with one hole at most: no piece has a hole, and the pieces of a polygon have only points of the lines through the centroid of the hole in common. Missing: polygons with several holes (`C100_two_holes_counterexample`). C100 for splitting by a number of nodes: the pieces cover exactly what the polygons covered, polygons with no more nodes than the threshold stay as they are, and pieces of polygons without holes have none. Missing: that the pieces have no more nodes than the threshold (`C100_threshold_counterexample`). C100 for one geometry, without removal of self-intersections: the polygons written cover exactly what the geometry covered, are the polygons of the geometry unless a piece was split, and have no holes if the polygons had one at most. C100 for the conversion, without removal of self-intersections: reading the connectivity gives, in their order, the shapes of the geometries that are not left out, and the data variable has the values of just these; a shape consists of the exteriors of polygons that cover what the geometry covered. Missing: a start index for geometries of several polygons (see C63) and self-intersections (`C100_break_counterexample`). C100 for the removal of self-intersections: if no node of a polygon without holes occurs more than twice, the new polygon has the same nodes, in their order, each once; it is the result if it is valid. Missing: nodes that occur three times (`C100_triple_counterexample`)."
  },
  {
   "property": "C101",
   "status": "partial",
   "theorems": [
    "Ocgis.Props.C101_reduce_shapes_partial",
    "Ocgis.Props.C101_reduce_nodes",
    "Ocgis.Props.C101_reduce_succeeds",
    "Ocgis.Props.C101_reduce_twice",
    "Ocgis.Props.C101_slice_partial",
    "Ocgis.Props.C101_start_attribute_counterexample",
    "Ocgis.Props.C101_esmf_zero_counterexample",
    "Ocgis.Props.C101_parts_counterexample",
    "Ocgis.Props.C101_other_start_counterexample",
    "Ocgis.Props.C101_array_of_arrays_counterexample",
    "Ocgis.Props.C101_slice_flat_counterexample"
   ],
   "note": "The code violates the full property:  **C101 (counterexample, start index from the attribute)**: a UGRID file numbered from 1, opened without saying so again. The new connectivity is numbered from 1 too, but says it starts at 0: the shapes change, or cannot be made. **C101 (counterexample, start index from the attribute, other way)**: an ESMF file numbered from 0. **C101 (counterexample, elements with several parts)**: the break value is counted as the first node, and the attribute saying that it is one is lost: two triangles become one seven-sided figure. **C101 (counterexample, other start indices)**: only a start index of 1 is taken off before nodes are picked. **C101 (counterexample, arrays of arrays)**: what `convert_to` returns by default cannot be reduced, whatever it contains. **C101 (counterexample, slicing the ESMF layout)**: the counts are sliced, the flat connectivity is not, so the second element comes out with the nodes of the first. Proved part:  **C101 (reducing, partial)**: the reduced mesh hands out the same shapes as before, element by element, with the same mask and the same number of nodes in every element, and says from where it is numbered. Missing: meshes whose start index is known only from the attribute and differs from the driver's default (`C101_start_attribute_counterexample`), elements with several parts (`C101_parts_counterexample`), start indices other than 0 and 1 (`C101_other_start_counterexample`) and connectivity held as an array of arrays (`C101_array_of_arrays_counterexample`). **C101 (slicing, partial)**: choosing elements of a mesh with one row per element gives their shapes, in the order chosen. Missing: the ESMF layout (`C101_slice_flat_counterexample`)."
  },
  {
   "property": "C102",
   "status": "partial",
   "theorems": [
    "Ocgis.Props.C102_ugrid_names_partial",
    "Ocgis.Props.C102_distributed_partial",
    "Ocgis.Props.C102_points_only_counterexample",
    "Ocgis.Props.C102_old_host_counterexample",
    "Ocgis.Props.C102_blank_counterexample",
    "Ocgis.Props.C102_esmf_written_partial",
    "Ocgis.Props.C102_centres_counterexample",
    "Ocgis.Props.C102_mask_counterexample",
    "Ocgis.Props.C102_height_refused_counterexample",
    "Ocgis.Props.C102_esmf_rewritten_partial",
    "Ocgis.Props.C102_third_column_counterexample",
    "Ocgis.Props.C102_one_centre_counterexample",
    "Ocgis.Props.C102_iterated_counterexample"
   ],
   "note": "The code violates the full property:  **C102 (counterexample, points only)**: a mesh with face coordinates but no polygons is written, and read as far as its names, but no dimension can be found to distribute, so it cannot be opened. **C102 (counterexample, old host)**: centres added to a mesh that was read from a file are written but not named, because the old topology variable is kept as it is. **C102 (counterexample, blanks)**: two blanks between names, or a blank in a name, make the file unreadable. **C102 (counterexample, centres)**: the centres of no mesh are found again. **C102 (counterexample, mask)**: a mask of any other name is not found again. **C102 (counterexample, a third coordinate)**: meshes with heights are refused. **C102 (counterexample, a third column)**: heights of nodes in the file are dropped when the coordinates have been used. **C102 (counterexample, one element)**: the centre of a single element has no dimension, and cannot be written. **C102 (counterexample, after iterating)**: iterating over the shapes takes the start index off the stored connectivity (C52); what is then written is numbered one too low, and is read as other shapes. Proved part:  **C102 (UGRID, partial)**: a mesh of polygons, with or without face coordinates, is written with a topology variable from which reading finds the same node coordinates in the same order, the same connectivity and the same face coordinates, each with its first dimension; all variables of the field are in the file. Missing: a field that still has the topology variable it was read with (`C102_old_host_counterexample`), meshes of points only (`C102_points_only_counterexample`), names with blanks (`C102_blank_counterexample`). **C102 (UGRID, what is distributed)**: the dimension by which a mesh of polygons is divided among processes is the first dimension of its connectivity. **C102 (ESMF unstructured, written, partial)**: a mesh of two coordinates and at least two nodes is written so that reading gives the same coordinates, the same start index and break value, and the same shape for every element, and the mask if it is named as in the format. Missing: centres (`C102_centres_counterexample`), masks of other names (`C102_mask_counterexample`), a third coordinate (`C102_height_refused_counterexample`) and empty meshes. **C102 (ESMF unstructured, rewritten, partial)**: a file with two coordinates, read and written again, whether its coordinates have been used or not, is as before, except that the start index is stated; and it is read as the same mesh. Missing: a third coordinate (`C102_third_column_counterexample`), one element with its centre (`C102_one_centre_counterexample`), meshes whose shapes were iterated over first (`C102_iterated_counterexample`)."
  },
  {
   "property": "C103",
   "status": "partial",
   "theorems": [
    "Ocgis.Props.C103_inner_corners",
    "Ocgis.Props.C103_outer_corners_partial",
    "Ocgis.Props.C103_rectilinear",
    "Ocgis.Props.C103_regular",
    "Ocgis.Props.C103_strip_partial",
    "Ocgis.Props.C103_array_variable",
    "Ocgis.Props.C103_vector_variable",
    "Ocgis.Props.C103_empty_variable",
    "Ocgis.Props.C103_refused",
    "Ocgis.Props.C103_request",
    "Ocgis.Props.C103_request_with_bounds",
    "Ocgis.Props.C103_bent_counterexample",
    "Ocgis.Props.C103_strip_counterexample",
    "Ocgis.Props.C103_two_forms_counterexample",
    "Ocgis.Props.C103_integers_counterexample",
    "Ocgis.Props.C103_name_counterexample",
    "Ocgis.Props.C103_half_counterexample"
   ],
   "note": "The code violates the full property:  C103 fails for the position of the outer corners: only the first row tells the direction and the step. The second row of this array goes down, but the corners on the left of its first cell are below those on its right. C103 fails for a grid with one row: its y coordinate is the same on both sides, so the cells have no height, while the same coordinates as vectors are refused. C103 fails for the two forms of a rectilinear grid with uneven spacing: the coordinate vector and the same coordinates in two dimensions have different outer edges. C103 fails for integers: the corners are cut off to integers, and these centres lie on the edge of their cells; the corners of these arrays are even the centres themselves. C103 fails for a name that is taken: the call is refused, but the variable has been given the other variable as its bounds. C103 fails for grids with bounds on one coordinate: with bounds on x, y gets none and the request goes on without them; and when y is refused x keeps its new bounds. Proved part:  C103, for arrays whose first row and first column go one way: the corners around the outside are one step away from the corners next to them, on every row and every column, and the step is the mean step of the first row (the first column), up or down as it goes. Partial: the direction and the step of other rows and columns play no part (`C103_bent_counterexample`), and integers are cut off (`C103_integers_counterexample`). C103: an array with one row, or with one column, gets the edges of its values as a vector, repeated for both sides. Partial: the two sides have the same corners, so the coordinate that is constant along the strip has cells without extent (`C103_strip_counterexample`)."
  },
  {
   "property": "C104",
   "status": "partial",
   "theorems": [
    "Ocgis.Props.C104_closed_once_partial",
    "Ocgis.Props.C104_exceptions_partial",
    "Ocgis.Props.C104_target",
    "Ocgis.Props.C104_parallel_partial",
    "Ocgis.Props.C104_parallel_used",
    "Ocgis.Props.C104_passes",
    "Ocgis.Props.C104_group_counterexample",
    "Ocgis.Props.C104_missing_group_counterexample",
    "Ocgis.Props.C104_replaced_counterexample",
    "Ocgis.Props.C104_parallel_counterexample"
   ],
   "note": "The code violates the full property:  C104 fails for groups: a request dataset that asks for a group of its file is opened, but the group cannot be closed. The reading is done, an exception leaves it, and the file stays open. C104 fails for groups that are missing: the file stays open. C104 fails for the exception of the body: it is replaced by the exception of closing a group. C104 fails for callers that set `parallel`: asked for without the setting, or left to the default by `None` with it, the template is opened for all processes by the first one alone. Proved part:  C104, for every program that opens scopes inside scopes, uses files, fails anywhere and catches exceptions or not, on every driver, with files that can be opened and files that cannot: afterwards the same files are open as before; every file the program opened was opened once and closed once, after it was opened; a file that was open before is not closed; and whatever is used is open at that moment (or an iterator, which holds no file). Partial: a scope that asks for a group of a file leaves it open (`C104_group_counterexample`, `C104_missing_group_counterexample`). C104, exceptions: when the files can be opened and every scope has something to scope, the exception that leaves the program is the one the program raised, and there is none when it raised none; closing files changes nothing about it. C104, a file created by several processes: unless the caller sets `parallel`, the library opens it for all processes exactly in the passes that all processes make together, whatever the setting, the number of processes and the format; so no process waits in an opening for others that do not come."
  },
  {
   "property": "C105",
   "status": "partial",
   "theorems": [
    "Ocgis.Props.C105_places_partial",
    "Ocgis.Props.C105_plain",
    "Ocgis.Props.C105_file",
    "Ocgis.Props.C105_written",
    "Ocgis.Props.C105_refused",
    "Ocgis.Props.C105_format",
    "Ocgis.Props.C105_no_format",
    "Ocgis.Props.C105_gap_counterexample",
    "Ocgis.Props.C105_longer_counterexample",
    "Ocgis.Props.C105_allow_empty_counterexample",
    "Ocgis.Props.C105_name_counterexample"
   ],
   "note": "The code violates the full property:  C105 fails for geometries after one without data: a collection that is empty is not counted, so the second geometry of two is at the first place, and the last place is empty. C105 fails for names that are longer than the first: records given as dictionaries get the width of the first record's text (`\"A\"`: 1), and the file has no room for the second. C105 fails for fields that were not averaged: with `allow_empty` the aggregation is passed over (ops/engine.py:356), there is no identifier, and writing fails after the coordinates were replaced. C105 fails for properties named like a variable of the dataset. Proved part:  C105: for every sequence of collections, of any length and with any variables and properties: when an aggregated file is written, the collections that are not empty are shown at the places 0, 1, \u2026, in order. At its place, each geometry has its centroid, its properties, its identifier and its averages, all of them its own; no collection disturbs the place of another; the places after the last collection hold nothing; the dimension has as many places as there are selection geometries. Partial: geometries after one without data are not at their own number (`C105_gap_counterexample`)."
  },
  {
   "property": "C106",
   "status": "partial",
   "theorems": [
    "Ocgis.Props.C106_history_partial",
    "Ocgis.Props.C106_value",
    "Ocgis.Props.C106_mask",
    "Ocgis.Props.C106_get",
    "Ocgis.Props.C106_get_mask",
    "Ocgis.Props.C106_reshape",
    "Ocgis.Props.C106_bounds_masked",
    "Ocgis.Props.C106_created",
    "Ocgis.Props.C106_bounds_follow",
    "Ocgis.Props.C106_shared_unlimited_counterexample",
    "Ocgis.Props.C106_short_mask_counterexample",
    "Ocgis.Props.C106_refused_dimensions_counterexample",
    "Ocgis.Props.C106_no_dimensions_counterexample",
    "Ocgis.Props.C106_refused_reshape_counterexample",
    "Ocgis.Props.C106_forced_counterexample",
    "Ocgis.Props.C106_bare_mask_counterexample",
    "Ocgis.Props.C106_stale_bounds_mask_counterexample",
    "Ocgis.Props.C106_bounds_dimension_counterexample",
    "Ocgis.Props.C106_dimension"
   ],
   "note": "The code violates the full property:  C106: two variables that were made with the same unlimited dimension, each with a collection of its own: setting the value of one changes the shape of the other, which no longer has that of its value. C106: a longer value along an unlimited dimension leaves the mask as short as it was. C106: dimensions that are refused are the variable's dimensions nevertheless. C106: `set_dimensions(None)` is refused for a variable with a value, which has no dimensions afterwards. C106: a reshaping that is refused loses the value. C106: forced dimensions take the place of those of the same name, which other variables of the collection have. C106: a variable with a mask but no value takes dimensions of other lengths without complaint. C106: bounds stay masked after the mask of the variable was taken away. C106: dimensions given to a variable take the place of the bounds' own dimension if there are more of them than before (the values are not allocated). Proved part:  C106 (partial: all dimensions have sizes, nothing is forced, and no operation that sets dimensions or bounds is refused): after any history, refused calls of the other operations included, every variable's value and mask have the lengths of its dimensions, which are found in its collection."
  },
  {
   "property": "C107",
   "status": "partial",
   "theorems": [
    "Ocgis.Props.C107_touches",
    "Ocgis.Props.C107_keeps_partial",
    "Ocgis.Props.C107_clean",
    "Ocgis.Props.C107_weight_partial",
    "Ocgis.Props.C107_subset",
    "Ocgis.Props.C107_chunks",
    "Ocgis.Props.C107_refused",
    "Ocgis.Props.C107_options",
    "Ocgis.Props.C107_inside",
    "Ocgis.Props.C107_direct",
    "Ocgis.Props.C107_one_chunk_never",
    "Ocgis.Props.C107_merge_never",
    "Ocgis.Props.C107_existing_directory_counterexample",
    "Ocgis.Props.C107_one_chunk_directory_counterexample",
    "Ocgis.Props.C107_nested_weight_counterexample",
    "Ocgis.Props.C107_above_counterexample",
    "Ocgis.Props.C107_one_chunk_counterexample",
    "Ocgis.Props.C107_defaults_counterexample",
    "Ocgis.Props.C107_subset_removed_counterexample",
    "Ocgis.Props.C107_subset_overwritten_counterexample",
    "Ocgis.Props.C107_history_added_counterexample",
    "Ocgis.Props.C107_left_directory_counterexample",
    "Ocgis.Props.C107_missing_directory_counterexample",
    "Ocgis.Props.C107_grid_types"
   ],
   "note": "The code violates the full property:  Without `nchunks_dst` the directory given is used although it is there, and is removed with all that is in it: files the run has nothing to do with are lost, for a subset as well as for merging only. So is a directory given for a run with one chunk. A weight file deeper in the working directory is not refused: the run succeeds and removes it. A working directory below the path of the weights' own directory name is refused as if the weights were in it. One chunk, no working directory: the weights are written, then the run fails. With all options at their defaults the run fails after writing the weights; the temporary directory stays. A subset without a path of its own, and without `--persist`, is removed by the run that was asked for it. A file that exists at the path of the subset is overwritten. A file that exists at the path of the weights is changed by a run that makes no weights. A refused path of the weights leaves the new working directory behind. A subset in a given directory that is not there fails: the directory is not made. Proved part:  If the command makes its working directory itself, and the path of the subset is free, nothing that was there is changed or removed, whatever fails; a file at the path of the weights is kept if weights are asked for. Missing: runs in a directory that is there (`C107_existing_directory_counterexample`), an existing subset (`C107_subset_overwritten_counterexample`) and weights that are not asked for (`C107_history_added_counterexample`). A successful run that was asked for weights leaves them at the path given, with the record of the command, if it makes its working directory itself. Missing: runs in a directory that is there (`C107_nested_weight_counterexample`)."
  },
  {
   "property": "C108",
   "status": "partial",
   "theorems": [
    "Ocgis.Props.C108_source",
    "Ocgis.Props.C108_extract_partial",
    "Ocgis.Props.C108_again",
    "Ocgis.Props.C108_clean_partial",
    "Ocgis.Props.C108_clean_bounds_never",
    "Ocgis.Props.C108_clean_counterexample",
    "Ocgis.Props.C108_bounds_lost_counterexample",
    "Ocgis.Props.C108_dangling_never",
    "Ocgis.Props.C108_tags_counterexample",
    "Ocgis.Props.C108_spatial_partial",
    "Ocgis.Props.C108_grid_partial",
    "Ocgis.Props.C108_grid_crs_never"
   ],
   "note": "The code violates the full property:   C108 (what fails): with a clean break and without bounds, the bounds are taken out of the old collection as well and are not in the new one. C108 (what fails): the tags of the new collection name variables that are not in it. Proved part:  C108: a variable of a consistent collection can be extracted; the new collection has exactly the variable, its bounds if they are wanted and there, and the dimensions of these, in the order of the old one. Apart from the tags it is consistent. C108: with a clean break, a variable without bounds is afterwards in the new collection, with exactly its dimensions, and nothing else is; the old collection has all the other variables, no longer has the dimensions that only it had, and is consistent. C108: the coordinate system goes with a spatial variable: the new collection has exactly the variable, its bounds if wanted and there, and the coordinate system. C108: a grid is extracted with exactly its coordinate and mask variables and their bounds, in the old order, and without the dimensions only other variables had; the new collection is consistent. The old one stays as it is or, with a clean break, keeps exactly the other variables and loses the dimensions only members had, and is consistent."
  },
  {
   "property": "C109",
   "status": "partial",
   "theorems": [
    "Ocgis.Props.C109_metadata",
    "Ocgis.Props.C109_open_partial",
    "Ocgis.Props.C109_dtype_partial",
    "Ocgis.Props.C109_offset_counterexample",
    "Ocgis.Props.C109_nested_never",
    "Ocgis.Props.C109_wrong_group_counterexample",
    "Ocgis.Props.C109_inherited_never",
    "Ocgis.Props.C109_repeated_never",
    "Ocgis.Props.C109_named_never",
    "Ocgis.Props.C109_predicate_counterexample"
   ],
   "note": "The code violates the full property:  A file with a variable that has an offset but no factor is opened, and its type is that of the packed integers, not of the values: they are truncated when they are loaded (variable/base.py:765-823). If there is such a group, the variable of the inner group is opened with the dimensions of the other one. Variables of groups are in the field whatever the predicate says. Proved part:  A file whose variables are at the root or in groups of it, each with different dimensions of its own group, is opened as a field that has a child for each group, and what the group has; the predicate chooses the variables of the root. Missing: groups in groups (`C109_nested_never`, `C109_wrong_group_counterexample`), dimensions of enclosing groups (`C109_inherited_never`), dimensions that appear twice (`C109_repeated_never`), a name for the field (`C109_named_never`) and variables of groups that do not satisfy the predicate (`C109_predicate_counterexample`). The type of a variable is that of the values netCDF4 reads, if no offset is added without a factor. Missing: variables with an offset only (`C109_offset_counterexample`)."
  },
  {
   "property": "C110",
   "status": "partial",
   "theorems": [
    "Ocgis.Props.C110_set_get",
    "Ocgis.Props.C110_wrong_shape",
    "Ocgis.Props.C110_remove",
    "Ocgis.Props.C110_create",
    "Ocgis.Props.C110_history",
    "Ocgis.Props.C110_check_partial",
    "Ocgis.Props.C110_check_never",
    "Ocgis.Props.C110_cascade_partial",
    "Ocgis.Props.C110_cascade_never",
    "Ocgis.Props.C110_variable_partial",
    "Ocgis.Props.C110_no_role_never",
    "Ocgis.Props.C110_clobber_never",
    "Ocgis.Props.C110_scrip_partial",
    "Ocgis.Props.C110_scrip_read_never",
    "Ocgis.Props.C110_scrip_set_never",
    "Ocgis.Props.C110_scrip_none_never",
    "Ocgis.Props.C110_esmf_never"
   ],
   "note": "Proved part:  C110 (coordinates that lie on the grid): a mask made from values hides exactly the cells one of whose coordinates is hidden or missing. The other variables stay as they were, and coordinates hide what they hid. C110 (variables that do not have exactly the dimensions of the grid, or have no mask of their own): with `cascade`, a mask of the grid hides in every other variable exactly the elements over hidden cells, besides those it hid itself; coordinates, bounds and variables off the grid stay as they were. C110 (a variable that says it is a mask and is in no collection): set as the mask of the grid, its mask is the mask of the grid and the other variables stay as they were. C110 (a file whose mask was neither read nor set): the mask of a SCRIP grid hides the cells whose value of `grid_imask` is zero, however often it is asked for."
  },
  {
   "property": "C111",
   "status": "partial",
   "theorems": [
    "Ocgis.Props.C111_points",
    "Ocgis.Props.C111_polygons_partial",
    "Ocgis.Props.C111_tile",
    "Ocgis.Props.C111_slice",
    "Ocgis.Props.C111_given_mask",
    "Ocgis.Props.C111_empty",
    "Ocgis.Props.C111_point_name",
    "Ocgis.Props.C111_abstraction",
    "Ocgis.Props.C111_polygon_never",
    "Ocgis.Props.C111_name_never",
    "Ocgis.Props.C111_one_axis_never",
    "Ocgis.Props.C111_overload_never",
    "Ocgis.Props.C111_assign_partial",
    "Ocgis.Props.C111_assign_mask_never",
    "Ocgis.Props.C111_assign_vector_never",
    "Ocgis.Props.C111_assign_bounds_never"
   ],
   "note": "Proved part:  C111 (both coordinates have bounds and polygons are wanted): the polygons of a grid are its cells, each in its place: the smallest box with the bounds, or the corners in their order; masked cells have none, and the mask is that of the grid. C111 (the assigned grid has a mask, and bounds if the other has them): the cells of a slice become those of the assigned grid, with centres, bounds and mask. Other cells stay as they were if coordinates are two-dimensional; otherwise those in other rows and columns do."
  },
  {
   "property": "C112",
   "status": "partial",
   "theorems": [
    "Ocgis.Props.C112_conform_partial",
    "Ocgis.Props.C112_given_units",
    "Ocgis.Props.C112_round_trip",
    "Ocgis.Props.C112_no_units",
    "Ocgis.Props.C112_refused",
    "Ocgis.Props.C112_refused_never",
    "Ocgis.Props.C112_integer_never",
    "Ocgis.Props.C112_read",
    "Ocgis.Props.C112_read_conform",
    "Ocgis.Props.C112_bounds_first_never",
    "Ocgis.Props.C112_bounds_first_then",
    "Ocgis.Props.C112_bounds_twice_never",
    "Ocgis.Props.C112_vector_never",
    "Ocgis.Props.C112_dates_never"
   ],
   "note": "Proved part:  C112 (values were read and are not of an integer data type; bounds are in the units of the variable, were not to be converted on their own, and numbers were kept if they are dates): conforming to units of the same kind gives the variable and its bounds these units and leaves what they stand for, and what is hidden."
  },
  {
   "property": "C113",
   "status": "partial",
   "theorems": [
    "Ocgis.Props.C113_columns",
    "Ocgis.Props.C113_read_partial",
    "Ocgis.Props.C113_ranks_partial",
    "Ocgis.Props.C113_one_record_never",
    "Ocgis.Props.C113_lines_never",
    "Ocgis.Props.C113_blank_never",
    "Ocgis.Props.C113_duplicate_never",
    "Ocgis.Props.C113_slice_partial",
    "Ocgis.Props.C113_slice_never",
    "Ocgis.Props.C113_rename_never",
    "Ocgis.Props.C113_rename",
    "Ocgis.Props.C113_added_never",
    "Ocgis.Props.C113_assign_never",
    "Ocgis.Props.C113_assign_partial",
    "Ocgis.Props.C113_round_trip"
   ],
   "note": "Proved part:  C113 (ordinary files, nothing was done with the field before it is read): on every rank that has a part of the file, each column shows the records of that part, in their order; reading one variable does not keep another from showing its own column. C113 (ordinary files; one process, or not just one record): every rank can open and read the file, and what the ranks show is, in the order of the ranks, every record of the file once. C113: slices of a field that was read show the selected records. C113: values that are assigned after the field was read stay, and the other columns show the file."
  },
  {
   "property": "C114",
   "status": "partial",
   "theorems": [
    "Ocgis.Props.C114_process_partial",
    "Ocgis.Props.C114_target",
    "Ocgis.Props.C114_unique",
    "Ocgis.Props.C114_schema",
    "Ocgis.Props.C114_copied_partial",
    "Ocgis.Props.C114_copied_never",
    "Ocgis.Props.C114_refused_never",
    "Ocgis.Props.C114_same_never",
    "Ocgis.Props.C114_missing",
    "Ocgis.Props.C114_options_never",
    "Ocgis.Props.C114_folder_never"
   ],
   "note": "Proved part:  Identifiers are counted: the output, a file other than the source, has the features of the source in their order with identifiers 1, 2, 3 and so on, the other properties and valid geometries as they were and the other geometries cleaned. No other file is changed. Missing: the output must not be the source (`C114_same_never`). Identifiers from a property: if it is an integer for every feature, each feature has that integer."
  },
  {
   "property": "C115",
   "status": "partial",
   "theorems": [
    "Ocgis.Props.C115_identifiers_partial",
    "Ocgis.Props.C115_given",
    "Ocgis.Props.C115_unique_partial",
    "Ocgis.Props.C115_counted_partial",
    "Ocgis.Props.C115_clash_never",
    "Ocgis.Props.C115_twice_never",
    "Ocgis.Props.C115_field_twice",
    "Ocgis.Props.C115_changed_never",
    "Ocgis.Props.C115_unchanged_partial",
    "Ocgis.Props.C115_again",
    "Ocgis.Props.C115_reused_never",
    "Ocgis.Props.C115_file",
    "Ocgis.Props.C115_file_rows_partial"
   ],
   "note": "Proved part:  Each dataset has the identifier it came with, or its position if it came with none. Missing: a request dataset must not be there twice (`C115_twice_never`). Identifiers differ from each other if those that were given differ from each other and from the positions of the others, and no request dataset is there twice. Without any given identifiers there is no clash, and the identifiers are one, two, three and so on. Fields of the caller are not changed, nor are request datasets that are not among the datasets, nor identifiers that were there. If identifiers differ, the rows of the file with the identifier of a dataset are the data variables of that dataset in their order."
  },
  {
   "property": "C116",
   "status": "partial",
   "theorems": [
    "Ocgis.Props.C116_stacked_partial",
    "Ocgis.Props.C116_lost_never",
    "Ocgis.Props.C116_two_never",
    "Ocgis.Props.C116_missing",
    "Ocgis.Props.C116_length_never",
    "Ocgis.Props.C116_first_never",
    "Ocgis.Props.C116_unlimited_never",
    "Ocgis.Props.C116_type_counterexample",
    "Ocgis.Props.C116_repeated_counterexample",
    "Ocgis.Props.C116_empty",
    "Ocgis.Props.C116_name"
   ],
   "note": "The code violates the full property:  Values of later groups are converted to the type of the first group: two and a half is stacked as two. A later group with one value where the first group has three is taken for a group with three equal values. Proved part:  Exactly one variable of the first group has the dimension, and it has length one along it in every group: the result has that variable stacked, the other variables of the first group and the names of the groups. Missing: several variables (`C116_two_never`), masks and attributes (`C116_lost_never`), bounds, and unlimited dimensions (`C116_unlimited_never`)."
  },
  {
   "property": "C117",
   "status": "partial",
   "theorems": [
    "Ocgis.Props.C117_extent_partial",
    "Ocgis.Props.C117_spread_partial",
    "Ocgis.Props.C117_serial_partial",
    "Ocgis.Props.C117_masked_never",
    "Ocgis.Props.C117_vectorized_never",
    "Ocgis.Props.C117_empty_never"
   ],
   "note": "Proved part:  On every process the extent is that of all parts together: least and greatest of all the values that count. Missing: no part may be empty (`C117_empty_never`) or without any value that counts (`C117_masked_never`). There is only one extent of the parts together, so the result does not depend on how the values are spread: parts with the same values in all have the same extent, on any number of processes. In particular it is the extent that one process with all the values has."
  },
  {
   "property": "C118",
   "status": "partial",
   "theorems": [
    "Ocgis.Props.C118_all_partial",
    "Ocgis.Props.C118_total",
    "Ocgis.Props.C118_last",
    "Ocgis.Props.C118_geometries_never",
    "Ocgis.Props.C118_scalar_never",
    "Ocgis.Props.C118_groups_never",
    "Ocgis.Props.C118_without",
    "Ocgis.Props.C118_regrid",
    "Ocgis.Props.C118_given"
   ],
   "note": "Proved part:  The sizes of all variables of all fields are shown, in their order, and the total is their sum. Missing: fields must have different names (`C118_geometries_never`), variables dimensions (`C118_scalar_never`), and those of groups are left out (`C118_groups_never`)."
  },
  {
   "property": "C119",
   "status": "partial",
   "theorems": [
    "Ocgis.Props.C119_values_partial",
    "Ocgis.Props.C119_crossing_never",
    "Ocgis.Props.C119_bounds",
    "Ocgis.Props.C119_beyond",
    "Ocgis.Props.C119_single",
    "Ocgis.Props.C119_report_partial",
    "Ocgis.Props.C119_report_single"
   ],
   "note": "Proved part:  Without bounds the resolution is the mean distance of the first hundred successive values. Missing: no two of them that follow each other may be on different sides of zero (`C119_crossing_never`). The report of a time variable shows whole days of the resolution, so data with steps shorter than a day have resolution nought."
  },
  {
   "property": "C120",
   "status": "partial",
   "theorems": [
    "Ocgis.Props.C120_found_partial",
    "Ocgis.Props.C120_only_partial",
    "Ocgis.Props.C120_clash_never",
    "Ocgis.Props.C120_first_never",
    "Ocgis.Props.C120_all",
    "Ocgis.Props.C120_name_never",
    "Ocgis.Props.C120_aggregated"
   ],
   "note": "Proved part:  Nothing fails, and every record of the table has in the shapefile the geometry it belongs to, under the same identifiers. Missing: identifiers that the geometries have must be named `GID` (`C120_name_never`), and there is no shapefile for aggregated data (`C120_aggregated`). It is the only geometry under these identifiers if no two fields have the same identifiers of dataset and selection geometry."
  },
  {
   "property": "C121",
   "status": "partial",
   "theorems": [
    "Ocgis.Props.C121_named_partial",
    "Ocgis.Props.C121_repeated_never",
    "Ocgis.Props.C121_capital_never",
    "Ocgis.Props.C121_blank_never",
    "Ocgis.Props.C121_none",
    "Ocgis.Props.C121_unknown",
    "Ocgis.Props.C121_field_never",
    "Ocgis.Props.C121_flag",
    "Ocgis.Props.C121_two",
    "Ocgis.Props.C121_nothing",
    "Ocgis.Props.C121_source",
    "Ocgis.Props.C121_object",
    "Ocgis.Props.C121_self_never",
    "Ocgis.Props.C121_regridded"
   ],
   "note": "Proved part:  A name stands for the dataset with that name. Missing: the name is looked up in lower case without blanks around it (`C121_capital_never`, `C121_blank_never`), it must not be shared by a later dataset (`C121_repeated_never`), and there must be requests only (`C121_field_never`)."
  },
  {
   "property": "C122",
   "status": "partial",
   "theorems": [
    "Ocgis.Props.C122_dimension_partial",
    "Ocgis.Props.C122_renamed_never",
    "Ocgis.Props.C122_create_never",
    "Ocgis.Props.C122_replaced_never",
    "Ocgis.Props.C122_again",
    "Ocgis.Props.C122_variable",
    "Ocgis.Props.C122_variable_never",
    "Ocgis.Props.C122_variable_again",
    "Ocgis.Props.C122_same",
    "Ocgis.Props.C122_lookup_never",
    "Ocgis.Props.C122_ranks_never",
    "Ocgis.Props.C122_empty"
   ],
   "note": "Proved part:  A dimension that is added to a group is there on every rank and is found by its name; what else was in the group stays. Missing: it must have the same name in its source (`C122_renamed_never`)."
  },
  {
   "property": "C123",
   "status": "partial",
   "theorems": [
    "Ocgis.Props.C123_alone_partial",
    "Ocgis.Props.C123_empty",
    "Ocgis.Props.C123_order",
    "Ocgis.Props.C123_code_never",
    "Ocgis.Props.C123_init_partial",
    "Ocgis.Props.C123_init_never",
    "Ocgis.Props.C123_create",
    "Ocgis.Props.C123_made",
    "Ocgis.Props.C123_create_never",
    "Ocgis.Props.C123_both_never"
   ],
   "note": "Proved part:  A definition, a text or a code alone is what the coordinate system is made of, and nothing at all is refused. Missing: definitions have no `init`, and the code is not 4326 (below). A definition that begins with the key for a code means the code. Missing: it must be the first key, in lower case and without a text (`C123_init_never`)."
  },
  {
   "property": "C124",
   "status": "partial",
   "theorems": [
    "Ocgis.Props.C124_rows_partial",
    "Ocgis.Props.C124_endless_never",
    "Ocgis.Props.C124_long_never",
    "Ocgis.Props.C124_word",
    "Ocgis.Props.C124_turns"
   ],
   "note": "Proved part:  A text is broken into indented rows with all of its words, each row as full as it can be and narrower than the right edge. Missing: its words must be shorter than the space between indentation and right edge (`C124_endless_never`, `C124_long_never`)."
  },
  {
   "property": "C125",
   "status": "partial",
   "theorems": [
    "Ocgis.Props.C125_path",
    "Ocgis.Props.C125_archive_partial",
    "Ocgis.Props.C125_lost_never",
    "Ocgis.Props.C125_folders_never",
    "Ocgis.Props.C125_again_never",
    "Ocgis.Props.C125_relative_never"
   ],
   "note": "Proved part:  The archive has every file below the folder with its content, and nothing else. Missing: files with the same name, one of them in a folder `shp` or not, must not differ (`C125_lost_never`)."
  },
  {
   "property": "C126",
   "status": "partial",
   "theorems": [
    "Ocgis.Props.C126_date_partial",
    "Ocgis.Props.C126_early_never",
    "Ocgis.Props.C126_ancient_never",
    "Ocgis.Props.C126_late_never",
    "Ocgis.Props.C126_seconds_never"
   ],
   "note": "Proved part:  A number of a date with a year of four digits is that date, with the hour and the minute the fraction is in. Missing: other years (below), and the seconds (`C126_seconds_never`)."
  },
  {
   "property": "C127",
   "status": "partial",
   "theorems": [
    "Ocgis.Props.C127_order",
    "Ocgis.Props.C127_all_partial",
    "Ocgis.Props.C127_ties_never",
    "Ocgis.Props.C127_dropped_never",
    "Ocgis.Props.C127_twice"
   ],
   "note": "Proved part:  If different files have different ends, the answer has the files, in another order. Missing: files with the same end (below)."
  },
  {
   "property": "C128",
   "status": "partial",
   "theorems": [
    "Ocgis.Props.C128_value_partial",
    "Ocgis.Props.C128_question_partial",
    "Ocgis.Props.C128_unnamed_never",
    "Ocgis.Props.C128_none_never",
    "Ocgis.Props.C128_metadata",
    "Ocgis.Props.C128_agree"
   ],
   "note": "Proved part:  With a name and a value the answer is the variables that have the attribute with the value, once each and in their order, whatever the question that is given besides. Missing: `None` as value and no name (below). With a name and a question the answer is the variables with the attribute and a value the question accepts."
  },
  {
   "property": "C129",
   "status": "partial",
   "theorems": [
    "Ocgis.Props.C129_flat_partial",
    "Ocgis.Props.C129_levels",
    "Ocgis.Props.C129_mixed_never",
    "Ocgis.Props.C129_level_leaf_never",
    "Ocgis.Props.C129_merge_never",
    "Ocgis.Props.C129_nothing"
   ],
   "note": "Proved part:  Attributes given flat are on the output variable, over its own; the field is as it was. Missing: attributes one of which is a dictionary (`C129_mixed_never`)."
  },
  {
   "property": "C130",
   "status": "partial",
   "theorems": [
    "Ocgis.Props.C130_variables_partial",
    "Ocgis.Props.C130_groups",
    "Ocgis.Props.C130_collision_never",
    "Ocgis.Props.C130_lost_never",
    "Ocgis.Props.C130_names"
   ],
   "note": "Proved part:  In every group of the file the wanted variables are in the field, in their order and under their new names, if these are different. The names and the predicate are about names in the file, in groups as at the top. Missing: new names that are not different (below)."
  },
  {
   "property": "C131",
   "status": "partial",
   "theorems": [
    "Ocgis.Props.C131_daily_partial",
    "Ocgis.Props.C131_refused",
    "Ocgis.Props.C131_later_never",
    "Ocgis.Props.C131_later_counterexample",
    "Ocgis.Props.C131_units_never",
    "Ocgis.Props.C131_units_counterexample",
    "Ocgis.Props.C131_other_units_never"
   ],
   "note": "The code violates the full property:  So there are times that are not daily with an answer. A frost that is counted in degrees Celsius is not counted in Kelvin if another variable, in degrees Celsius, comes first. Proved part:  With daily data of at least two days, in degrees Celsius, or the same temperatures in Kelvin, the answer is the number of transitions of every series. Missing: the units of the variable that is calculated with (`C131_units_never`)."
  },
  {
   "property": "C132",
   "status": "partial",
   "theorems": [
    "Ocgis.Props.C132_recorded_partial",
    "Ocgis.Props.C132_values",
    "Ocgis.Props.C132_again_never",
    "Ocgis.Props.C132_refused_never"
   ],
   "note": "Proved part:  The history tells runs apart: with different values of the parameters it has different words. Missing: that the words are a command for the run (`C132_again_never`)."
  },
  {
   "property": "C133",
   "status": "partial",
   "theorems": [
    "Ocgis.Props.C133_chunks_partial",
    "Ocgis.Props.C133_bands",
    "Ocgis.Props.C133_empty_never",
    "Ocgis.Props.C133_chunker_never"
   ],
   "note": "Proved part:  There are as many chunks as asked for, and every cell is in exactly one of them. Missing: that the chunker gets them (`C133_chunker_never`)."
  },
  {
   "property": "C134",
   "status": "partial",
   "theorems": [
    "Ocgis.Props.C134_name_partial",
    "Ocgis.Props.C134_letters",
    "Ocgis.Props.C134_single_never",
    "Ocgis.Props.C134_flags_never",
    "Ocgis.Props.C134_month"
   ],
   "note": "Proved part:  Groupings whose seasons are runs of two to twelve months have a name, and if two have the same name they have the same seasons in the same order and the same flag. Missing: seasons of one month and of months that are not in a row (`C134_single_never`), and where the flag is."
  },
  {
   "property": "C135",
   "status": "partial",
   "theorems": [
    "Ocgis.Props.C135_raised",
    "Ocgis.Props.C135_history",
    "Ocgis.Props.C135_warned",
    "Ocgis.Props.C135_callback",
    "Ocgis.Props.C135_logged_partial",
    "Ocgis.Props.C135_warning_never",
    "Ocgis.Props.C135_exception_never"
   ],
   "note": "Proved part:  A message at or above the level of a logger with a file or a stream is in the log, with alias and geometry; one below is not; with neither nothing is. Missing: warnings and exceptions (`C135_warning_never`, `C135_exception_never`)."
  }
 ]
}