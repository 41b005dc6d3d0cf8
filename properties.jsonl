{"id": "C01", "title": "Time-gap filling fills exactly the gaps up to T_fill", "statement": "After temporal gap filling with parameter T_fill, a location is marked extreme at a time step iff it was already extreme, or it lies in a run of non-extreme steps that is bounded on both sides by extreme steps of the same location and is at most T_fill steps long. Gaps at the start or end of the record are never filled, no input extreme is lost, and T_fill=0 changes nothing.", "quantifier": "every boolean time series of every length, every even T_fill (and every kernel width)", "why_tests_cant": "a test fixes one record length, one gap pattern and one T_fill; the claim covers all series, all gap positions and all kernel widths including series shorter than the kernel", "anchors": ["marEx/track.py:fill_time_gaps"]}
{"id": "C02", "title": "Time-gap filling is a closing: extensive, monotone, idempotent", "statement": "Filling gaps twice with the same T_fill gives the same field as filling once; adding extreme cells to the input never removes cells from the output; a larger T_fill never gives fewer extreme cells.", "quantifier": "every pair of boolean series, every T_fill", "why_tests_cant": "idempotence and monotonicity relate two runs on related inputs, for all pairs of series and all window lengths; a test compares a few pairs, and border effects show only for gaps near the ends", "anchors": ["marEx/track.py:fill_time_gaps"]}
{"id": "C03", "title": "Unstructured dilation by R reaches exactly the cells within R neighbour hops", "statement": "On an unstructured mesh one dilation pass with radius R marks a cell iff some marked cell is connected to it by a walk of at most R steps in the neighbour table; missing neighbours (encoded as 0 in the file, -1 internally) never connect anything, and R=0 is the identity.", "quantifier": "every neighbour table, every mask, every R", "why_tests_cant": "reachability through the neighbour table is a statement about walks of every length on every mesh; a test has one small mesh, on which wrong handling of missing neighbours or of the number of passes can go unseen", "anchors": ["marEx/track.py:sparse_bool_power", "marEx/track.py:_build_sparse_dilation_matrix", "marEx/track.py:_setup_unstructured_grid"]}
{"id": "C04", "title": "Unstructured hole filling is an open-close filter", "statement": "On a mesh with a symmetric neighbour table, hole filling is monotone in the input, leaves R_fill=0 fields unchanged on ocean cells, its closing half never removes an ocean extreme cell, and its opening half never adds one.", "quantifier": "every symmetric mesh, mask, field and radius", "why_tests_cant": "the laws hold or fail with the shape of the coast and the symmetry of the neighbour table; no sample of meshes, fields and radii covers them", "anchors": ["marEx/track.py:fill_holes"]}
{"id": "C05", "title": "Gridded hole filling gives the same answer wherever the map is cut", "statement": "For a global grid (periodic longitude), rotating the input field and mask in longitude by any number of columns rotates the filled field by the same amount: the date line of the file has no influence.", "quantifier": "every grid size, field, mask, rotation and R_fill", "why_tests_cant": "all rotations of all fields; a seam artefact shows only for objects that happen to cross the seam of the file", "anchors": ["marEx/track.py:fill_holes"]}
{"id": "C06", "title": "Gridded hole filling never marks masked cells and is neutral for R_fill=0", "statement": "No cell with mask False is extreme after hole filling, and with R_fill=0 the result is the input restricted to the mask; the result is monotone in the input.", "quantifier": "every grid size, field, mask and R_fill", "why_tests_cant": "holds for every field, mask and radius; a leak into the mask needs a particular position of an object next to land", "anchors": ["marEx/track.py:fill_holes"]}
{"id": "C07", "title": "The area filter keeps exactly the objects at or above the threshold (gridded)", "statement": "After area filtering of a gridded field with threshold A, a cell is extreme iff it belongs to an object whose area is at least A; in particular, with area_filter_absolute below every object's area nothing is removed.", "quantifier": "every labelled field, every area assignment, every threshold", "why_tests_cant": "must hold for every list of objects, whichever comes first and whatever ties there are with the threshold; a test with a few objects need not contain the one treated differently", "anchors": ["marEx/track.py:filter_small_objects"]}
{"id": "C08", "title": "The area filter keeps exactly the objects above the threshold (unstructured)", "statement": "On an unstructured mesh the objects kept are exactly those larger than the reported threshold; the threshold is the absolute value or the quantile of the sizes of all objects above the minimum size.", "quantifier": "every list of objects on every mesh, every record and either criterion", "why_tests_cant": "must hold for every list of object sizes, including objects below the internal minimum and sizes equal to the threshold", "anchors": ["marEx/track.py:filter_small_objects"]}
{"id": "C09", "title": "Area-filter parameters resolve to exactly one criterion", "statement": "With neither parameter given the tracker filters by the 0.5 quantile, with one given it uses that one, and giving both is a ConfigurationError; accepted quartiles lie in [0,1] and accepted absolute thresholds are positive.", "quantifier": "every combination of the two optional parameters", "why_tests_cant": "the parameters range over all numbers and their absence; the boundaries of the accepted intervals and all combinations count", "anchors": ["marEx/track.py:_resolve_area_filtering_parameters", "marEx/track.py:_validate_inputs"]}
{"id": "C10", "title": "Objects on a mesh are the connected components of the extreme cells", "statement": "At each time step two extreme ocean cells of an unstructured mesh get the same object ID iff they are joined by a chain of neighbouring extreme cells; non-extreme cells get ID 0.", "quantifier": "every neighbour table and every mask", "why_tests_cant": "connectedness is a statement about chains of every length in every mesh; labels are found by an iterative union whose correctness on a sample says nothing about other shapes", "anchors": ["marEx/track.py:identify_objects"]}
{"id": "C11", "title": "Object IDs never repeat across time steps", "statement": "The per-time-step object IDs of an unstructured mesh are shifted so that no ID occurs at two different time steps, relative order inside a step is kept and background stays 0.", "quantifier": "every sequence of label fields of every length", "why_tests_cant": "depends on the whole history of per-step object counts, including empty steps at any place", "anchors": ["marEx/track.py:track_objects", "marEx/track.py:identify_objects"]}
{"id": "C12", "title": "The overlap list is exact", "statement": "The overlap table between two consecutive label fields lists the pair (a,b) of positive IDs iff they share at least one cell; it lists it once, and the recorded value is the total cell area (or count) of the shared cells.", "quantifier": "every pair of label fields, every number of cells, every cell area", "why_tests_cant": "pairs are encoded in one number, which must be injective for every range of IDs; a test has a few small IDs", "anchors": ["marEx/track.py:check_overlap_slice", "marEx/track.py:find_overlapping_objects"]}
{"id": "C13", "title": "Two objects are linked iff their overlap is at least overlap_threshold of the smaller one", "statement": "A pair of overlapping objects is kept as a link iff overlap >= overlap_threshold * min(area of the two); raising the threshold never adds a link, and the decision is symmetric under exchanging the two time steps.", "quantifier": "every overlap list, every table of positive areas and every threshold", "why_tests_cant": "all tables of overlaps and areas, all thresholds including equality; monotonicity in the threshold relates two runs", "anchors": ["marEx/track.py:enforce_overlap_threshold"]}
{"id": "C14", "title": "Consolidating split objects loses no cell and no area", "statement": "When one parent links to several children, consolidation only renames whole objects: the set of labelled cells is unchanged, objects that were not involved keep their IDs, children of splitting parents get the ID of such a child, and the table holds the total area of every object.", "quantifier": "every label field, every parent and child list", "why_tests_cant": "every field and every pattern of parents and children, also several parents that share children; a test has one split", "anchors": ["marEx/track.py:consolidate_object_ids"]}
{"id": "C15", "title": "Partitioning a merged object only relabels that object", "statement": "When a child object overlaps several parents it is partitioned: every one of its cells receives one of the IDs created for it (its own ID or a fresh one, one per parent), no cell is dropped and no other cell changes.", "quantifier": "every field, every number of parents, both partition methods", "why_tests_cant": "every shape of the object, every number and position of parents, both methods; a dropped cell shows only for particular shapes", "anchors": ["marEx/track.py:split_and_merge_objects", "marEx/track.py:partition_nn_grid", "marEx/track.py:partition_centroid_unstructured"]}
{"id": "C16", "title": "Centroid partition assigns each cell to its nearest parent centroid (grids)", "statement": "On structured grids with nn_partitioning=False each cell of a merged object gets the ID belonging to a parent whose centroid is at minimal (periodic) distance, ties going to the first parent.", "quantifier": "every cell position, every list of centroids, every grid width", "why_tests_cant": "all positions, centroids and grid widths, with ties and the date line in every position", "anchors": ["marEx/track.py:wrapped_euclidian_distance_points", "marEx/track.py:split_and_merge_objects"]}
{"id": "C17", "title": "Nearest-neighbour partition assigns each cell to the parent with the closest cell", "statement": "With nn_partitioning=True each cell of a merged gridded object that lies within max_distance of some parent cell gets the ID of the parent owning the closest parent cell.", "quantifier": "every set of parent cells, every child cell, every max_distance", "why_tests_cant": "the search visits only some buckets of the grid, so a wrong answer needs a particular geometry of parents and cell; all geometries must be covered", "anchors": ["marEx/track.py:partition_nn_grid"]}
{"id": "C18", "title": "The wrapped distance is the distance to the nearest periodic image", "statement": "The squared x-distance used for partitioning on a periodic grid of width Nx equals the minimum over all images x+k*Nx; it is symmetric, zero only for equal columns and never more than (Nx/2)^2.", "quantifier": "all columns in range, all Nx", "why_tests_cant": "all pairs of columns and all widths; the smallest image changes at half the width", "anchors": ["marEx/track.py:wrapped_euclidian_distance_mask_parallel", "marEx/track.py:wrapped_euclidian_distance_points"]}
{"id": "C19", "title": "Split/merge tracking does not depend on the time chunking", "statement": "Running split-and-merge tracking on the same label fields with different time chunk sizes gives the same final object field, object table and merge records.", "quantifier": "every label history and every pair of chunkings", "why_tests_cant": "all divisions of all records into chunks, including chunks of one step; objects that merge at a boundary behave differently only for particular divisions", "anchors": ["marEx/track.py:split_and_merge_objects"]}
{"id": "C20", "title": "Object IDs created during split/merge are fresh", "statement": "Every ID created while partitioning merged objects differs from every ID that existed before or was created earlier, so no two different objects share an ID.", "quantifier": "every record, every history of merges in it, every division into chunks", "why_tests_cant": "freshness is an invariant of the whole history of merges; a clash needs a particular sequence", "anchors": ["marEx/track.py:split_and_merge_objects"]}
{"id": "C21", "title": "Tracking preserves the extreme-cell support", "statement": "At the end of tracking a cell carries a positive event ID at a time step iff it was extreme in the preprocessed field: splitting, merging, consolidation and renaming only relabel.", "quantifier": "every record, mask, division into chunks and choice of parameters", "why_tests_cant": "an invariant of every sequence of splits, merges, consolidations and renamings for every record; a test sees one sequence", "anchors": ["marEx/track.py:split_and_merge_objects", "marEx/track.py:cluster_rename_objects_and_props", "marEx/track.py:run_tracking"]}
{"id": "C22", "title": "Events are exactly the overlap-connected groups of objects", "statement": "For the accepted overlap links of any object field two objects get the same final event ID iff they are connected by a chain of links; final event IDs are exactly 1..N without gaps, and background stays 0. On structured grids this holds end to end for the objects and overlaps of the final field.", "quantifier": "every set of objects, every list of links and every record on a grid", "why_tests_cant": "reachability in every graph of links: chains of any length, in every order; a renumbering that merges or separates too much can pass on small graphs", "anchors": ["marEx/track.py:cluster_rename_objects_and_props"]}
{"id": "C23", "title": "presence, time_start and time_end agree with ID_field", "statement": "An event is present at a time step iff some cell carries its ID then; time_start/time_end are its first/last such steps; global_ID is 0 iff absent; every event in the output is present at least once.", "quantifier": "every tracked field", "why_tests_cant": "all tracked fields, with events that vanish and reappear and steps without events", "anchors": ["marEx/track.py:cluster_rename_objects_and_props"]}
{"id": "C24", "title": "Event areas partition the labelled area", "statement": "At each time step the area of an event is the sum of the cell areas carrying its ID (missing iff absent), and the areas of all present events sum to the total labelled area.", "quantifier": "every labelled field of any length and every map of cell areas", "why_tests_cant": "all fields and area maps; sums over events and over cells must agree at every step", "anchors": ["marEx/track.py:calculate_object_properties", "marEx/track.py:cluster_rename_objects_and_props", "marEx/track.py:compute_area"]}
{"id": "C25", "title": "Centroids of objects crossing the seam are periodic", "statement": "Rotating an object in longitude rotates its centroid by the same amount modulo nx, provided it is narrower than half the grid.", "quantifier": "every grid width and object", "why_tests_cant": "all objects, widths and rotations; the error shows only for objects near both edges of the file", "anchors": ["marEx/track.py:calculate_centroid", "marEx/track.py:cluster_rename_objects_and_props"]}
{"id": "C26", "title": "merge_ledger lists the siblings of a merging event", "statement": "For an event that takes part in a merge at some time step, merge_ledger at that step lists the IDs of the events it merges with; it is -1 everywhere for events that do not merge then.", "quantifier": "every table of merges, every renaming of IDs, every event and step", "why_tests_cant": "all histories of merges: several merges of one event at one step, merges of merged events, chunk boundaries", "anchors": ["marEx/track.py:cluster_rename_objects_and_props"]}
{"id": "C27", "title": "Merge records are well formed (grids)", "statement": "On structured grids every record in the merge output has at least two parents, as many children as parents, the first child being the merged object, distinct children, and overlap values in the order of the parents.", "quantifier": "every record, division into chunks, threshold and partition method", "why_tests_cant": "an invariant of the records over every history of merges, of any number of parents, in every chunk; a test sees one merge", "anchors": ["marEx/track.py:split_and_merge_objects"]}
{"id": "C28", "title": "IDs allocated by parallel chunks never collide", "statement": "Temporary IDs handed out by different time steps/chunks in the parallel algorithm are pairwise different, so no object ID occurs at two time steps.", "quantifier": "every number of chunks, time steps and merges per step", "why_tests_cant": "all schedules of chunks, all numbers of merges in a step; a collision needs a step with more new IDs than were reserved", "anchors": ["marEx/track.py:split_and_merge_objects_parallel"]}
{"id": "C29", "title": "A loaded preprocessing checkpoint equals the saved one", "statement": "On a mesh run_preprocess(checkpoint='load') after a completed run_preprocess(checkpoint='save') returns the same field and statistics, whatever order the chunks are written in and whatever other saves were completed, crashed or loaded before.", "quantifier": "every crash point in the save sequence, every earlier content of the scratch directory", "why_tests_cant": "every crash point of a save, every order in which chunks are written, every earlier content of the directory: these are histories, of which a test runs one without a crash", "anchors": ["marEx/track.py:run_preprocess"]}
{"id": "C30", "title": "Tracker input validation accepts exactly the supported configurations", "statement": "The tracker constructor raises for non-boolean or non-dask data, non-boolean or all-False mask, odd T_fill, quartile outside [0,1], non-positive absolute threshold, regional mode on unstructured data, and accepts everything else it documents.", "quantifier": "every combination of arguments, data and mask", "why_tests_cant": "the combinations of all arguments; acceptance and rejection are both part of the claim", "anchors": ["marEx/track.py:_validate_inputs", "marEx/track.py:__init__"]}
{"id": "C31", "title": "Coordinate units are detected, and centroids follow the convention of the input", "statement": "Longitudes covering a full circle in degrees or radians are recognised, ambiguous ranges are rejected for global data, and centroid longitudes are moved into the range of the input's convention.", "quantifier": "all longitude ranges and unit settings", "why_tests_cant": "all coordinate ranges, in particular those at the tolerance between degrees and radians", "anchors": ["marEx/track.py:_unify_coordinates", "marEx/track.py:_remap_coordinates"]}
{"id": "C32", "title": "Shifting baseline uses exactly the previous W years", "statement": "The rolling climatology for a date in year y and day-of-year d is the mean over the available samples with the same day-of-year in years y-W..y-1 and is missing if the record starts less than W years before y; samples of year y or later have no influence.", "quantifier": "all records, gaps and window lengths", "why_tests_cant": "all sampling patterns, gaps and window lengths; whether a sample has an influence can only be shown for all values of it", "anchors": ["marEx/detect.py:rolling_climatology"]}
{"id": "C33", "title": "Shifting baseline with smoothing uses no data of the target year", "statement": "The smoothed shifting baseline for a date in year y depends only on samples before year y.", "quantifier": "all records and smoothing widths", "why_tests_cant": "independence of a sample is a claim about all values that sample can take, for every record and every smoothing width", "anchors": ["marEx/detect.py:smoothed_rolling_climatology"]}
{"id": "C34", "title": "Shifting baseline output covers exactly the years with a full history", "statement": "preprocess_data with shifting_baseline rejects every record that spans fewer than W calendar years, and otherwise returns exactly the time steps of years >= first year + W.", "quantifier": "all record spans and W", "why_tests_cant": "all spans and start dates, including the boundary at which the span is exactly the window", "anchors": ["marEx/detect.py:preprocess_data"]}
{"id": "C35", "title": "Fixed baseline anomalies have zero mean on every day of year", "statement": "For each cell and each day of year present in the record the fixed-baseline anomalies average to zero over the valid samples, and adding back the climatology gives the data.", "quantifier": "every record, with any missing values, of any length", "why_tests_cant": "all records with all patterns of missing values; a test checks a few days of one record", "anchors": ["marEx/detect.py:_compute_anomaly_fixed_baseline", "marEx/detect.py:_compute_anomaly_detrend_fixed_baseline"]}
{"id": "C36", "title": "Detrended anomalies are unchanged by adding any fitted component", "statement": "The detrended anomaly is orthogonal to every fitted component (constant, polynomials, harmonics) and does not change when a multiple of a fitted component is added to the data; force_zero_mean then changes nothing but rounding.", "quantifier": "every series, all polynomial orders, all multiples of the components", "why_tests_cant": "orthogonality to every component and invariance under adding any multiple of it are claims over all data and all orders", "anchors": ["marEx/detect.py:_compute_anomaly_detrended"]}
{"id": "C37", "title": "An extreme is an anomaly at or above its own threshold", "statement": "extreme_events is True at a point iff the anomaly is a number and is at least the threshold stored for that cell (and that day of year); cells without a threshold (land) are never extreme; raising the threshold never adds extremes.", "quantifier": "every anomaly field, mask and table of thresholds", "why_tests_cant": "all anomaly fields with missing values and ties with the threshold; monotonicity relates two runs", "anchors": ["marEx/detect.py:_identify_extremes_hobday", "marEx/detect.py:_identify_extremes_constant"]}
{"id": "C38", "title": "Day-of-year histogram thresholds are monotone in the percentile and bounded by the bins", "statement": "For fixed data the approximate day-of-year thresholds do not decrease when the percentile increases, and always lie between the precision and half a bin above max_anomaly.", "quantifier": "all histograms and percentiles", "why_tests_cant": "all histograms, including empty ones and those whose mass is in the outermost bins, and all pairs of percentiles", "anchors": ["marEx/detect.py:_rolling_histogram_quantile", "marEx/detect.py:_compute_histogram_quantile_1d"]}
{"id": "C39", "title": "Histogram thresholds are within one bin of the exact quantile", "statement": "When all anomalies fall inside the binned range, the approximate threshold differs from the exact order statistic by at most one bin width.", "quantifier": "all samples, all precisions", "why_tests_cant": "the distance between two quantile estimates must be bounded for every sample and precision; random samples stay far from the worst case", "anchors": ["marEx/detect.py:_rolling_histogram_quantile", "marEx/detect.py:_compute_histogram_quantile_2d"]}
{"id": "C40", "title": "Day-of-year windows are circular and centred", "statement": "The histogram behind the threshold of day d sums the histograms of exactly the window_days_hobday days centred on d, wrapping around the end of the year, for every odd window of at least three days.", "quantifier": "all days, all odd windows up to a year", "why_tests_cant": "all days and all odd windows; the ends of the year are covered by a few of them only", "anchors": ["marEx/detect.py:_rolling_histogram_quantile"]}
{"id": "C41", "title": "Days of zero anomaly are not extreme under the approximate method", "statement": "The approximate threshold is never below its documented floor (the fourth bin edge), so a zero or negative anomaly is never flagged.", "quantifier": "all histograms and percentiles", "why_tests_cant": "all histograms, including those where zero is the most frequent value; the floor matters only for extreme distributions", "anchors": ["marEx/detect.py:_compute_histogram_quantile_2d", "marEx/detect.py:_compute_histogram_quantile_1d"]}
{"id": "C42", "title": "Decimal years lie in their year", "statement": "add_decimal_year maps every time to its year plus the share of the year's days that have passed, in [year, year+1).", "quantifier": "every time of every year", "why_tests_cant": "all times of all years with leap and common length, including the first and last moment of a year", "anchors": ["marEx/detect.py:add_decimal_year"]}
{"id": "C43", "title": "Data validation accepts exactly time-constant masks", "statement": "preprocess_data accepts the data iff at least one location is finite at the first step and every location finite at the first step is finite at every step.", "quantifier": "every data set, with any pattern of missing values", "why_tests_cant": "all patterns of missing values in space and time; one missing value at one step of one cell must be enough to decide", "anchors": ["marEx/detect.py:_validate_data_values"]}
{"id": "C44", "title": "Dimension and coordinate defaults", "statement": "Missing time entries default to 'time', gridded data copies dimensions to coordinates, and the call succeeds iff coordinates are given or the data are gridded and every named dimension and coordinate exists in the data; user entries are never overridden.", "quantifier": "all mappings and datasets", "why_tests_cant": "all mappings and datasets, with every subset of entries missing; both acceptance and rejection are claimed", "anchors": ["marEx/detect.py:_infer_dims_coords"]}
{"id": "C45", "title": "identify_extremes accepts exactly the documented parameter combinations", "statement": "identify_extremes raises ConfigurationError exactly for: unknown method names, non-default precision/max_anomaly with the exact method, percentile <60 with the approximate method, a spatial window on unstructured data / with global_extreme / with exact, and even windows with hobday_extreme.", "quantifier": "all parameter combinations", "why_tests_cant": "all combinations of seven parameters; both acceptance and rejection are claimed", "anchors": ["marEx/detect.py:identify_extremes"]}
{"id": "C46", "title": "Repaired chunks cover the dimension", "statement": "The chunks that checkpoint_to_zarr uses to repair a chunked dimension cover the whole dimension and can be stored: all but the last are equal to the first, the last is not larger. Chunks that can be stored already are left as they are.", "quantifier": "all chunk patterns and all failure modes of the store", "why_tests_cant": "all chunk patterns of every length, including a short chunk in the middle and a large one at the end", "anchors": ["marEx/helper.py:checkpoint_to_zarr"]}
{"id": "C47", "title": "Dependency checks report what is installed", "statement": "has_dependency(name) is True only if the package can be imported, and require_dependencies raises iff one of the packages is missing.", "quantifier": "every state of an installation, every package name", "why_tests_cant": "all states of an installation; a test runs in one environment, in which everything is installed", "anchors": ["marEx/_dependencies.py:DependencyTracker"]}
{"id": "C48", "title": "Quiet wins over verbose, and the last logging call wins", "statement": "After any sequence of configure_logging/set_*_mode calls exactly one verbosity mode is in force, it is the one selected by the last call, quiet taking precedence over verbose, and the level follows the mode unless given.", "quantifier": "every sequence of configuration calls, every environment", "why_tests_cant": "all sequences of configuration calls with all arguments and environments", "anchors": ["marEx/logging_config.py:configure_logging"]}
{"id": "C49", "title": "Wrapping an exception keeps its class mapping and cause", "statement": "wrap_exception returns a marEx exception of the mapped class (base class if unmapped), whose message defaults to the original message, whose details and context name the original type and whose cause is the original exception.", "quantifier": "all exception types and arguments", "why_tests_cant": "all exception types, messages, details and contexts, also those with clashing keys", "anchors": ["marEx/exceptions.py:wrap_exception", "marEx/exceptions.py:MarExError"]}
{"id": "C50", "title": "start_local_cluster never starts more workers than the machine has threads", "statement": "If n_workers*threads_per_worker exceeds the number of logical cores the number of workers is reduced so that it does not.", "quantifier": "all worker, thread and core counts", "why_tests_cant": "all machines and all requests; a test runs on one machine with one number of cores", "anchors": ["marEx/helper.py:start_local_cluster"]}
{"id": "C51", "title": "Every object ID maps to the time step where it lives", "statement": "Whenever the ID-to-time table used for merge bookkeeping is built, it gives for every ID present in the object field the first time step at which it is present.", "quantifier": "every history of label fields", "why_tests_cant": "all histories of labels, also IDs that appear at several steps", "anchors": ["marEx/track.py:compute_id_time_dict"]}
{"id": "C52", "title": "Plot colour limits and grid selection", "statement": "Symmetric plots have limits (-c, c) with c>=0 covering both percentiles; a grid type given to specify_grid (any letter case) is used by every later plot until changed; unknown types are rejected without changing the setting.", "quantifier": "all percentiles; all call sequences", "why_tests_cant": "all data and percentiles, and all sequences of settings and plots", "anchors": ["marEx/plotX/base.py:clim_robust", "marEx/plotX/__init__.py:specify_grid"]}
{"id": "C53", "title": "Filling on a mesh invents no extremes", "statement": "After the filling stages on an unstructured mesh every extreme ocean cell lies within R_fill hops of a cell that was extreme in the input at some time step; a field without extremes stays without extremes.", "quantifier": "every symmetric mesh, mask, record, R_fill and T_fill", "why_tests_cant": "holds or fails depending on the shape of the coast line; no finite set of meshes settles it", "anchors": ["marEx/track.py:fill_holes", "marEx/track.py:fill_time_gaps", "marEx/track.py:run_preprocess"]}
{"id": "C54", "title": "Regional hole filling does not join the northern and southern edges of the map", "statement": "In regional mode gridded hole filling at a cell does not depend on cells at the opposite latitude edge: fields that agree except in rows more than 4*R_fill away give the same result at the cell.", "quantifier": "every grid size, field, mask and R_fill", "why_tests_cant": "quantifies over all fields and all positions of the cell, and relates the results for two fields", "anchors": ["marEx/track.py:fill_holes"]}
{"id": "C55", "title": "Constructing a tracker leaves the caller's data unchanged", "statement": "Creating a tracker does not modify the DataArray, coordinates, mask or areas passed by the caller.", "quantifier": "every input, every unit of the coordinates", "why_tests_cant": "aliasing only shows for inputs whose coordinates are converted; a test that does not keep and compare a reference to its input cannot see it", "anchors": ["marEx/track.py:tracker.__init__", "marEx/track.py:_unify_coordinates"]}
{"id": "C56", "title": "On a mesh the nearest-neighbour partition follows the fewest hops", "statement": "With nn_partitioning=True on a mesh each cell of a merged object is given to the parent that can be reached in the fewest neighbour steps; cells overlapped by a parent stay with that parent.", "quantifier": "every mesh, every child and every set of parents", "why_tests_cant": "depends on the order in which the three neighbour slots are filled, which no finite set of meshes covers", "anchors": ["marEx/track.py:partition_nn_unstructured_optimised"]}
{"id": "C57", "title": "The object table describes the tracked field exactly", "statement": "After splitting and merging, the object table lists exactly the object IDs present in the field, each with its total area.", "quantifier": "every record, chunking and partition method", "why_tests_cant": "the table is updated incrementally by many operations whose interleaving depends on the data; only an invariant over all histories settles it", "anchors": ["marEx/track.py:split_and_merge_objects", "marEx/track.py:consolidate_object_ids"]}
{"id": "C58", "title": "Mesh centroids lie on the globe and move with the object", "statement": "On an unstructured mesh the centroid of every object has latitude in [-90,90] and longitude in (-180,180]; the centroid of a single cell is that cell; moving every cell of an object east by any angle leaves the centroid latitude unchanged and moves its longitude by that angle modulo 360, however wide the object and wherever the date line lies.", "quantifier": "every object (any number of cells, latitudes, longitudes and positive areas) and every rotation angle", "why_tests_cant": "the claim quantifies over all objects and a continuum of rotations; a test samples a few objects and usually none across the date line", "anchors": ["marEx/track.py:calculate_object_properties", "marEx/track.py:cluster_rename_objects_and_props"]}
{"id": "C59", "title": "Tracking on a mesh does not depend on the time chunk length", "statement": "Split-and-merge tracking of an unstructured record succeeds for every chunk length the user chooses for the time dimension, and gives the same objects for all of them.", "quantifier": "every record and every time chunk length", "why_tests_cant": "which objects cross a chunk boundary, and whether the last chunk has one step, depends on record length and chunk length; a test runs one combination", "anchors": ["marEx/track.py:split_and_merge_objects_parallel"]}
{"id": "C60", "title": "Tracking on a mesh returns only converged results", "statement": "The iterative splitting on a mesh returns only when no merging object is left to process; otherwise it raises.", "quantifier": "every record, every max_iteration", "why_tests_cant": "needs every history of the iteration, including those that converge exactly at the limit", "anchors": ["marEx/track.py:split_and_merge_objects_parallel"]}
{"id": "C61", "title": "Checkpoint modes are selected as documented", "statement": "The checkpoint argument of a run overrides the constructor's setting when given; 'load' only reads and can be repeated; a run without checkpointing writes no file; 'save' writes and returns what it reads back.", "quantifier": "every sequence of runs on one tracker and every mode string", "why_tests_cant": "quantifies over all sequences of calls on one object; unit tests create a fresh tracker per run", "anchors": ["marEx/track.py:run_preprocess", "marEx/track.py:run"]}
{"id": "C62", "title": "The reported preprocessing statistics describe the filter", "statement": "accepted_area_fraction lies in [0,1] and is the share, in the total object area, of the objects larger than the reported threshold; on a mesh this is the share of the object cells the area filter keeps.", "quantifier": "every list of object areas and every threshold, including objects exactly at the threshold and no objects at all", "why_tests_cant": "boundary cases of real-valued areas and thresholds cannot be enumerated", "anchors": ["marEx/track.py:run_preprocess", "marEx/track.py:filter_small_objects"]}
{"id": "C63", "title": "Objects on a structured grid are the touching clusters of one step", "statement": "On a structured grid two cells belong to the same object iff they are extreme at the same step and joined by touching (edge or corner) extreme cells of that step, counted across the date line unless the tracker is regional; object IDs are 1..N and never shared between steps; cells that are not extreme get no ID.", "quantifier": "every record, grid size, regional or global", "why_tests_cant": "quantifies over every shape of object, including spirals and shapes that meet only across the date line; a test checks a few shapes", "anchors": ["marEx/track.py:identify_objects"]}
{"id": "C64", "title": "With allow_merging=False events are the space-time clusters (grids)", "statement": "On structured grids with allow_merging=False two cells (of any steps) carry the same event ID iff they are joined by a chain of extreme cells, each touching the next in space and at most one step away; event IDs are 1..N.", "quantifier": "every preprocessed record, grid type, chunking", "why_tests_cant": "every chain of cells through space and time must be followed, however long", "anchors": ["marEx/track.py:run_tracking", "marEx/track.py:identify_objects"]}
{"id": "C65", "title": "A whole run labels exactly the preprocessed extremes and never labels land", "statement": "If run() succeeds, its ID field has the time steps of the input, a cell carries a positive event ID at a step iff the preprocessed field is extreme there at that step, and no land cell ever carries an event ID.", "quantifier": "every record, mask, filling radius, gap length, area criterion, overlap threshold, partition method, chunking, with and without merging, grid and mesh", "why_tests_cant": "composes five stages over all inputs; each stage can add or drop cells only for particular shapes", "anchors": ["marEx/track.py:run", "marEx/track.py:run_preprocess", "marEx/track.py:run_tracking"]}
{"id": "C66", "title": "Areas derived from grid_resolution are the areas of the cells", "statement": "With grid_resolution every cell of a structured grid gets the area of the corresponding patch of the sphere: positive, and adding up to the area of the sphere over a global grid.", "quantifier": "every latitude, resolution and grid, including grids with rows on the poles", "why_tests_cant": "latitude and resolution range over a continuum; the total over a grid needs a telescoping sum for every number of rows", "anchors": ["marEx/track.py:__init__"]}
{"id": "C67", "title": "Detrending orders are checked before any data are used", "statement": "detrend_orders is accepted iff it is omitted (meaning [1]) or is a non-empty list of integers of at least one; every other value raises ConfigurationError before anything is computed, and accepted orders are used as given.", "quantifier": "every list of integers", "why_tests_cant": "lists of orders are unbounded, with repetitions, in any order; a test tries a handful", "anchors": ["marEx/detect.py:compute_normalised_anomaly", "marEx/detect.py:_compute_anomaly_detrended"]}
{"id": "C68", "title": "Standardisation uses the thirty days around each day of year", "statement": "With std_normalise each anomaly of a record containing all 366 days of year is divided by the root mean square of the day-of-year standard deviations over the thirty days from 15 days before to 14 days after its day of year, wrapping around the end of the year, and is missing where that is at most 1e-10; every day of year has one value.", "quantifier": "every record in which all 366 days of year occur, every series of anomalies", "why_tests_cant": "the wrap-around and the missing day 366 depend on the record; a test uses one calendar", "anchors": ["marEx/detect.py:_compute_anomaly_detrended"]}
{"id": "C69", "title": "Raising anomalies never lowers a threshold", "statement": "If some anomalies of a data set are replaced by larger ones (missing values staying missing), no percentile threshold becomes smaller, whatever the size of the anomalies.", "quantifier": "every pair of data sets, one pointwise at least the other; every percentile, precision, max_anomaly, window", "why_tests_cant": "a relation between two arbitrary data sets of arbitrary length; counterexamples need particular empty bins or values beyond the binned range", "anchors": ["marEx/detect.py:_compute_histogram_quantile_2d", "marEx/detect.py:_compute_histogram_quantile_1d"]}
{"id": "C70", "title": "Spatial pooling uses the cells around a cell and no others (global data)", "statement": "On global data, with window_spatial_hobday = s, the day-of-year threshold of a cell depends only on anomalies of cells at most s/2 rows (cut off at the poles) and s/2 columns (around the globe) away.", "quantifier": "every grid size, odd window, cell and data set", "why_tests_cant": "non-influence is a statement about all pairs of data sets that differ elsewhere, for all windows and positions", "anchors": ["marEx/detect.py:_compute_histogram_quantile_2d", "marEx/detect.py:identify_extremes"]}
{"id": "C71", "title": "Cells with constant anomaly are never extreme", "statement": "A cell whose anomaly is zero throughout (such as permanent ice) has no extreme days, with either percentile method and either definition of extremes.", "quantifier": "every record length, calendar, percentile, window", "why_tests_cant": "quantifies over all percentiles, windows, record lengths and constant values; a wrong comparison shows for some only", "anchors": ["marEx/detect.py:_identify_extremes_hobday", "marEx/detect.py:_identify_extremes_constant", "marEx/detect.py:_compute_histogram_quantile_2d", "marEx/detect.py:_compute_histogram_quantile_1d"]}
{"id": "C72", "title": "A missing anomaly removes only itself", "statement": "A missing anomaly at one step of a cell makes that step not extreme and does not remove the cell's thresholds or its other extremes.", "quantifier": "every record and every position of missing values", "why_tests_cant": "which position is missing matters (first step or later), for records of every length", "anchors": ["marEx/detect.py:_compute_histogram_quantile_2d", "marEx/detect.py:_compute_histogram_quantile_1d"]}
{"id": "C73", "title": "The recorded processing steps describe the processing", "statement": "The preprocessing_steps attribute written by preprocess_data names the temporal and spatial window with which the thresholds were computed.", "quantifier": "every accepted parameter combination, gridded or unstructured", "why_tests_cant": "defaults are filled in at one place and recorded at another; only a statement over all combinations shows that they agree", "anchors": ["marEx/detect.py:_get_preprocessing_steps", "marEx/detect.py:identify_extremes"]}
{"id": "C74", "title": "Extremes occur only at ocean cells", "statement": "In the data set returned by preprocess_data, extreme_events is False at every time step at every cell where mask is False.", "quantifier": "every data set accepted by the validation, every method combination", "why_tests_cant": "masks come from the first step of the full record, extremes from a possibly trimmed one; only particular patterns of missing values show the difference", "anchors": ["marEx/detect.py:preprocess_data", "marEx/detect.py:_validate_data_values", "marEx/detect.py:_compute_anomaly_shifting_baseline"]}
{"id": "C75", "title": "The percentile must be a percentile", "statement": "identify_extremes rejects every threshold_percentile outside 0-100, with either percentile method.", "quantifier": "every rational percentile and every data set", "why_tests_cant": "a continuum of values on both sides of the allowed interval, for all data sets", "anchors": ["marEx/detect.py:identify_extremes"]}
{"id": "C76", "title": "Every retained step of a complete record has a shifting-baseline anomaly", "statement": "After the first window_year_baseline years have been removed, every remaining step of a record without missing values has an anomaly, so that thresholds and extremes are defined.", "quantifier": "every calendar, window length and smoothing width", "why_tests_cant": "which days lack a baseline depends on leap years, on the start of the record and on the smoothing width together", "anchors": ["marEx/detect.py:smoothed_rolling_climatology", "marEx/detect.py:preprocess_data"]}
{"id": "C77", "title": "An unset logging switch keeps the mode in force", "statement": "A package function called with only one of verbose/quiet changes only what that switch says; the other one keeps its current setting, as documented (None: use the current logging configuration).", "quantifier": "every logging state, environment and combination of switches", "why_tests_cant": "depends on the calls made before, on the environment variables and on the switch left out", "anchors": ["marEx/logging_config.py:configure_logging", "marEx/detect.py:preprocess_data", "marEx/track.py:__init__"]}
{"id": "C78", "title": "An exception's text shows all that is known about it", "statement": "str() of every new marEx exception contains its message, its details, all its suggestions and context entries and the error code of its class; add_suggestion and add_context store what is given.", "quantifier": "every message, list of suggestions, context and sequence of additions", "why_tests_cant": "strings and lists of every length, and every order of construction and additions", "anchors": ["marEx/exceptions.py:MarExError"]}
{"id": "C79", "title": "Building an exception leaves the caller's objects alone", "statement": "create_data_validation_error and its siblings do not change the context dictionary passed to them.", "quantifier": "every context and every extra information", "why_tests_cant": "only a statement over all dictionaries excludes in-place updates", "anchors": ["marEx/exceptions.py:create_data_validation_error", "marEx/exceptions.py:create_processing_error"]}
{"id": "C80", "title": "Gridded plots close the globe exactly when the data go around it", "statement": "A plot of data on evenly spaced longitudes that go once around the globe gets one more column, 360 degrees after the first and with its values; no longitude occurs twice; regional data are plotted as they are.", "quantifier": "every first longitude, spacing, number of columns and direction", "why_tests_cant": "spacing and start range over a continuum; the boundary cases (both ends present, descending, a single column) are easily missed", "anchors": ["marEx/plotX/gridded.py:wrap_lon"]}
{"id": "C81", "title": "A multi-panel plot shows every step once", "statement": "multi_plot draws each entry along the chosen dimension in a panel of its own, in order, for every number of entries and every col_wrap, and leaves no empty panel.", "quantifier": "every number of entries, every col_wrap of at least one", "why_tests_cant": "two unbounded integers and a ceiling division; a wrong number of rows shows for some remainders only", "anchors": ["marEx/plotX/base.py:multi_plot"]}
{"id": "C82", "title": "Every tracked object has its own colour in an ID plot", "statement": "With plot_IDs different IDs are drawn with different colours of the colour map, for every ID field.", "quantifier": "every number of objects (including none) and every size of colour map", "why_tests_cant": "numbers of objects and colours are unbounded; collisions appear only for particular ratios", "anchors": ["marEx/plotX/base.py:setup_id_plot_params"]}
{"id": "C83", "title": "Plots use the grid file as it is now", "statement": "A plot of unstructured data uses the current content of the grid file at the path given.", "quantifier": "every history of writing grid files, plotting and clearing the cache", "why_tests_cant": "a statement about all histories; a stale cache shows only after rewriting a file that was used", "anchors": ["marEx/plotX/unstructured.py:_load_triangulation", "marEx/plotX/unstructured.py:_load_ckdtree", "marEx/plotX/unstructured.py:clear_cache"]}
{"id": "C84", "title": "Automatic colour limits are the percentiles of the plotted data", "statement": "Without given limits the colour limits are the requested percentiles of the data being plotted.", "quantifier": "every record and pair of percentiles", "why_tests_cant": "depends on which steps hold the extreme values; all records and percentiles count", "anchors": ["marEx/plotX/base.py:_setup_common_params", "marEx/plotX/base.py:clim_robust"]}
{"id": "C85", "title": "A merge on a mesh is resolved completely, whatever its size", "statement": "On an unstructured mesh, whenever an object overlaps two or more objects of the previous step by at least overlap_threshold, tracking splits it among exactly those, for any number of parents and any number of merges per step; the merge record names them with the shared areas, cells lying on a parent go to that parent's piece, and no object of the result overlaps two or more objects of the previous step by the threshold.", "quantifier": "every mesh, every record, every number of parents and of merges in a step, every partition and queue order", "why_tests_cant": "the limits are fixed table sizes (10 parents, 20 merges, 255 new objects) that small fixtures never reach; ties and shrinking pieces need particular area ratios", "anchors": ["marEx/track.py:split_and_merge_objects_parallel"]}
{"id": "C86", "title": "An extreme is a step at or above the requested percentile", "statement": "With the exact method identify_extremes marks a step iff it has a value and this is at least the requested percentile of the pooled anomalies: all anomalies of the cell (global_extreme), or those in the window of days around its day of year (hobday_extreme). The thresholds it reports are those percentiles.", "quantifier": "every record of every cell, every accepted percentile, window and method", "why_tests_cant": "pools, ranks and ties range over all records; off-by-one days and wrong pools agree on most fixtures", "anchors": ["marEx/detect.py:identify_extremes", "marEx/detect.py:_identify_extremes_hobday", "marEx/detect.py:_identify_extremes_constant"]}
{"id": "C87", "title": "Gridded hole filling is a closing and an opening by a disc", "statement": "On a grid, hole filling with radius R gives the morphological closing by the disc of radius R followed by the opening by the same disc, on the sphere's periodic longitude (or the edge-continued region), restricted to the mask.", "quantifier": "every grid, field, mask, radius and cell, both modes", "why_tests_cant": "all fields, and the seam and edges need fields that touch them", "anchors": ["marEx/track.py:fill_holes"]}
{"id": "C88", "title": "Detrending before a fixed baseline removes a trend and a cycle", "statement": "With detrend_fixed_baseline every day of year of the anomalies has mean zero; what is removed is a combination of the fitted trends and one value per day of year; adding any trend of the fitted orders or any constant to the input changes nothing, nor does force_zero_mean.", "quantifier": "every series, every set of polynomial orders, every calendar", "why_tests_cant": "a statement about all series; sampled series with short trends hide the interaction between the two stages", "anchors": ["marEx/detect.py:_compute_anomaly_detrend_fixed_baseline", "marEx/detect.py:_compute_anomaly_detrended", "marEx/detect.py:_compute_anomaly_fixed_baseline"]}
{"id": "C89", "title": "The ocean mask marks the locations with a complete series", "statement": "Whatever the anomaly method, the mask returned by preprocess_data is true exactly at the locations whose input series has a value at every step.", "quantifier": "every input field accepted by preprocess_data, every anomaly and threshold method and parameter, every location", "why_tests_cant": "ranges over all patterns of missing values and all methods; a test has one pattern and one method", "anchors": ["marEx/detect.py:preprocess_data", "marEx/detect.py:_validate_data_values", "marEx/detect.py:compute_normalised_anomaly"]}
{"id": "C90", "title": "Exactly four anomaly methods are accepted, each using only its own parameters", "statement": "preprocess_data accepts the method names detrend_harmonic, shifting_baseline, fixed_baseline and detrend_fixed_baseline and rejects every other with a configuration error (a data validation error if the data are bad); the baseline windows affect only shifting_baseline, the orders only the detrending methods, and omitted orders mean a linear trend.", "quantifier": "every string, every parameter set, every input field", "why_tests_cant": "quantifies over all strings and all values of ignored parameters", "anchors": ["marEx/detect.py:preprocess_data", "marEx/detect.py:compute_normalised_anomaly", "marEx/detect.py:_compute_anomaly_detrended"]}
{"id": "C91", "title": "The output covers the steps of the input", "statement": "preprocess_data returns one extreme flag for every anomaly; the anomalies have the dates of the input, except that with shifting_baseline over W years those earlier than W years after its first year are dropped.", "quantifier": "every input field with common dates, every method and parameter set, every location", "why_tests_cant": "depends on the years present in the record and on the window", "anchors": ["marEx/detect.py:preprocess_data", "marEx/detect.py:_compute_anomaly_shifting_baseline", "marEx/detect.py:identify_extremes"]}
{"id": "C92", "title": "A run reports the number of its events", "statement": "N_events_final of the events returned by run() is the number of different event IDs in ID_field, on grids and meshes, with and without merging, and the coordinate ID lists exactly these IDs.", "quantifier": "every run on every grid and mesh, every setting, every set of input attributes", "why_tests_cant": "the counts must agree with the field for all fields; clashes of attribute names need inputs that carry them", "anchors": ["marEx/track.py:run_stats_attributes", "marEx/track.py:track_objects", "marEx/track.py:run_tracking", "marEx/track.py:cluster_rename_objects_and_props"]}
{"id": "C93", "title": "The merge dataset holds every merge", "statement": "The dataset returned with return_merges=True has one row per merge: its time, the number of parents and of children, their IDs and the shared areas, padded with -1; from it every merge can be read back.", "quantifier": "every list of merges, of any number of parents", "why_tests_cant": "counts are stored in 8 bits; only merges of more than 127 objects show it", "anchors": ["marEx/track.py:split_and_merge_objects", "marEx/track.py:split_and_merge_objects_parallel", "marEx/track.py:run"]}
{"id": "C94", "title": "Dask settings: the user's choice over the package's defaults over what was there", "statement": "configure_dask leaves every dask setting the caller passes at the passed value, every other setting of the package's table at its default, temporary_directory at the directory of the session, and all other settings as they were.", "quantifier": "every previous configuration, every list of settings, every setting, every outcome of the call", "why_tests_cant": "ranges over all configurations and over the failing paths; the settings are process-wide state", "anchors": ["marEx/helper.py:configure_dask", "marEx/helper.py:start_local_cluster", "marEx/helper.py:start_distributed_cluster"]}
{"id": "C95", "title": "A distributed cluster is requested with the resources asked for", "statement": "start_distributed_cluster asks SLURM for a time limit that reads as the given number of minutes, the given workers per node, the memory of the node size, the queue, account and dashboard port, and as many workers as given; unsupported node sizes are rejected before anything is started.", "quantifier": "every runtime, number of workers, node size, option set and previous state", "why_tests_cant": "the time limit is text computed from any number of minutes; failing paths need systems without the package", "anchors": ["marEx/helper.py:start_distributed_cluster"]}
{"id": "C96", "title": "The reported connection is that of the dashboard", "statement": "get_cluster_info returns the port named in the dashboard link (the first :digits/), localhost:port/status, and the name of the machine up to the first dot; it raises exactly when the link names no port.", "quantifier": "every link and host name", "why_tests_cant": "all strings; proxied dashboards and numeric addresses are not in fixtures", "anchors": ["marEx/helper.py:get_cluster_info", "marEx/helper.py:start_local_cluster"]}
{"id": "C97", "title": "Logging does not change what is computed", "statement": "A computation wrapped in log_timing, or a function decorated with log_function_call, is run once and gives its caller the same value or the same exception as without; the log says whether it completed or failed.", "quantifier": "every computation, exception, duration and mode; every list of arguments; every loop length", "why_tests_cant": "depends on durations below the resolution of the clock, on arguments that cannot be shown and on number-theoretic properties of the loop length", "anchors": ["marEx/logging_config.py:log_timing", "marEx/logging_config.py:log_function_call", "marEx/logging_config.py:log_progress"]}
{"id": "C98", "title": "Each message is written once, where the last configuration says", "statement": "After any history of configuring calls a message with the level reaches the console once if the last configuration asked for it, and the log file in force once, and nothing else.", "quantifier": "every history of calls and every level", "why_tests_cant": "duplicated or lost handlers depend on the order of calls in a process", "anchors": ["marEx/logging_config.py:configure_logging", "marEx/logging_config.py:set_verbose_mode", "marEx/logging_config.py:set_quiet_mode"]}
{"id": "C99", "title": "Events have no gaps in time (grids)", "statement": "On structured grids, in the ID field returned by run() an event present at two time steps is present at every step between them; so its duration is the difference of its last and first step.", "quantifier": "every record, chunking, setting and event, with and without merging", "why_tests_cant": "an event is assembled from pairwise links and new IDs across chunks; a repeated ID at distant steps shows only in particular histories", "anchors": ["marEx/track.py:track_objects", "marEx/track.py:cluster_rename_objects_and_props", "marEx/track.py:identify_objects"]}
{"id": "C100", "title": "Plotters accept exactly the data their names fit", "statement": "da.plotX(dimensions, coordinates) gives a plotter exactly if all mapped names other than that of time exist in the data, and an error naming the missing ones otherwise; it is for a mesh if so specified or, nothing being specified, if the data lack the y dimension.", "quantifier": "every mapping, every set of names in the data, every grid specification", "why_tests_cant": "quantifies over all names and mappings; fixtures use lat and lon", "anchors": ["marEx/plotX/__init__.py:PlotXAccessor", "marEx/plotX/base.py:PlotterBase", "marEx/plotX/base.py:multi_plot"]}
{"id": "C101", "title": "A movie shows every step once, in order", "statement": "A movie whose path animate returns has one frame for each time step, in order of time, whatever the number of steps and the order in which the frames are made; frames have even size, as the encoder needs; without ffmpeg it returns None and does nothing.", "quantifier": "every number of steps, every schedule of the frames, every failure", "why_tests_cant": "needs movies beyond 9999 frames, all schedules of the workers, and failing frames", "anchors": ["marEx/plotX/base.py:animate", "marEx/plotX/base.py:make_frame"]}
{"id": "C102", "title": "Movies show what plots show", "statement": "The frame of a step shows what a plot of that step with the same configuration shows: the same values at the same places, under the same projection.", "quantifier": "every grid, mesh, configuration and step", "why_tests_cant": "compares two code paths on all data; pictures are not compared in tests", "anchors": ["marEx/plotX/base.py:make_frame", "marEx/plotX/gridded.py:GriddedPlotter.plot", "marEx/plotX/unstructured.py:UnstructuredPlotter.plot"]}
{"id": "C103", "title": "One colour scale for all panels and frames", "statement": "The colours of a plot are given by norm, else clim, else the percentiles of the data, and by cmap, else a default; all panels of multi_plot, its colour bar and all frames of a movie use the same colour map and range, and panel k shows step k.", "quantifier": "every configuration, every record", "why_tests_cant": "all combinations of options and all data; panels and frames are drawn separately and must agree for all of them", "anchors": ["marEx/plotX/base.py:_setup_common_params", "marEx/plotX/base.py:multi_plot", "marEx/plotX/base.py:single_plot", "marEx/plotX/base.py:animate"]}
{"id": "C104", "title": "Markers sit on the objects of the frame (movies of the objects)", "statement": "With centroids given, a frame of a movie of the object field has a marker at the centroid of each object present in that step whose centroid is known, at most one for each object, and no others.", "quantifier": "every frame, every list of IDs and centroids", "why_tests_cant": "all data; whether a marker is right depends on which values are plotted", "anchors": ["marEx/plotX/base.py:make_frame"]}
{"id": "C105", "title": "Plots of values leave the data and the process as they were", "statement": "Making a plot of values changes neither the data held by the plotter nor numpy's random generator, so later plots and computations do not depend on it.", "quantifier": "every history of plots by one plotter, every state of the generator", "why_tests_cant": "a property of all histories of calls, of which a test makes one or two", "anchors": ["marEx/plotX/base.py:_setup_common_params", "marEx/plotX/base.py:setup_id_plot_params"]}
{"id": "C106", "title": "Starting a cluster keeps the user's dask settings", "statement": "The functions that start a cluster keep the dask settings the user had made before, and a call that is rejected changes no setting.", "quantifier": "every setting, every earlier configuration, every rejected call", "why_tests_cant": "depends on the configuration the process had before, which fixtures reset", "anchors": ["marEx/helper.py:configure_dask", "marEx/helper.py:start_local_cluster", "marEx/helper.py:start_distributed_cluster"]}
{"id": "C107", "title": "start_distributed_cluster reports what it does", "statement": "The number of nodes reported holds the workers asked for, a missing dask_jobqueue is reported as such before anything is changed, and the switches verbose and quiet take effect.", "quantifier": "every request, every installation, every setting of the switches", "why_tests_cant": "needs SLURM, or an installation without the package; the node count is wrong only for some numbers of workers", "anchors": ["marEx/helper.py:start_distributed_cluster"]}
{"id": "C108", "title": "A cluster start that raises leaves no cluster running", "statement": "If start_local_cluster raises, no cluster of the call is left running.", "quantifier": "every machine, link and request", "why_tests_cant": "the failure comes after the workers have been started, for links that fixtures do not have", "anchors": ["marEx/helper.py:get_cluster_info", "marEx/helper.py:start_local_cluster"]}
{"id": "C109", "title": "A log file stays in use", "statement": "A log file asked for with configure_logging stays in use when the verbosity is switched afterwards.", "quantifier": "every history of calls", "why_tests_cant": "a property of sequences of calls of any length, also of calls that only mention verbosity", "anchors": ["marEx/logging_config.py:configure_logging", "marEx/logging_config.py:set_verbose_mode", "marEx/logging_config.py:set_quiet_mode"]}
{"id": "C110", "title": "Events have no gaps in time (meshes)", "statement": "On unstructured meshes, in the ID field returned by run() an event present at two time steps is present at every step between them.", "quantifier": "every mesh, record, chunking and setting", "why_tests_cant": "IDs given out twice by parallel chunks show only for particular records and chunk lengths", "anchors": ["marEx/track.py:track_objects", "marEx/track.py:cluster_rename_objects_and_props", "marEx/track.py:identify_objects"]}
{"id": "C111", "title": "On a mesh events are exactly the overlap-connected groups of objects", "statement": "In the field returned by run() on a mesh two labelled cells have the same event ID iff their objects are joined by a chain of objects overlapping enough in consecutive steps.", "quantifier": "every mesh, record and setting", "why_tests_cant": "depends on the uniqueness of IDs given out in parallel, which fails only for particular records", "anchors": ["marEx/track.py:cluster_rename_objects_and_props"]}
{"id": "C112", "title": "Merge records are well formed (meshes)", "statement": "On a mesh every merge record has at least two parents, as many children and overlap values as parents, distinct children, the first of them an old ID; its parents are objects of the final field at the step before, overlapping the merged object.", "quantifier": "every mesh, record and chunking", "why_tests_cant": "records are written by parallel chunks that work on copies of each other's edge; all interleavings of merges matter", "anchors": ["marEx/track.py:split_and_merge_objects"]}
{"id": "C113", "title": "Centroid partition works on meshes", "statement": "On an unstructured mesh with nn_partitioning=False each cell of a merged object gets the ID belonging to the parent with the nearest centroid.", "quantifier": "every mesh and every merged object", "why_tests_cant": "quantifies over all objects; an object that covers the mesh, as in a small fixture, hides the error", "anchors": ["marEx/track.py:wrapped_euclidian_distance_points", "marEx/track.py:split_and_merge_objects"]}
{"id": "C114", "title": "allow_merging=False has an effect on meshes", "statement": "On a mesh with allow_merging=False two cells (of any steps) carry the same event ID iff they are joined by a chain of extreme cells, each a neighbour of the next and at most one step away.", "quantifier": "every mesh and record", "why_tests_cant": "compares the events of all records with a specification by chains of cells of any length", "anchors": ["marEx/track.py:run_tracking", "marEx/track.py:identify_objects"]}
{"id": "C115", "title": "Spatial pooling stays within a regional domain", "statement": "On regional data the threshold of a cell does not depend on anomalies at the opposite side of the domain.", "quantifier": "every domain, window and record", "why_tests_cant": "quantifies over all anomalies on the other side of the domain, for all windows and positions", "anchors": ["marEx/detect.py:_compute_histogram_quantile_2d", "marEx/detect.py:identify_extremes"]}
{"id": "C116", "title": "An approximate extreme is a step at or above the percentile to within the precision", "statement": "With the approximate method identify_extremes marks a step that has a value iff this is at least the requested percentile of the pooled anomalies, to within the precision asked for.", "quantifier": "all anomalies, percentiles, windows and precisions", "why_tests_cant": "the error of the histogram depends on all data; it must be bounded for every record", "anchors": ["marEx/detect.py:identify_extremes", "marEx/detect.py:_identify_extremes_hobday", "marEx/detect.py:_identify_extremes_constant"]}
{"id": "C117", "title": "The constant histogram threshold is monotone in the percentile and bounded", "statement": "For fixed data the approximate threshold of global_extreme does not decrease when the percentile increases, and always lies between the precision and one bin above max_anomaly.", "quantifier": "all data and pairs of percentiles", "why_tests_cant": "all pairs of percentiles and all data; two tolerances in the code disagree at isolated percentiles", "anchors": ["marEx/detect.py:_rolling_histogram_quantile", "marEx/detect.py:_compute_histogram_quantile_1d"]}
{"id": "C118", "title": "What a plotter accepts, its panels and the shortcuts accept", "statement": "Data and names for which da.plotX(dimensions, coordinates) gives a plotter can be drawn with multi_plot and with the shortcuts single_plot, multi_plot and animate of the accessor.", "quantifier": "every mapping, every set of names in the data", "why_tests_cant": "quantifies over all names and mappings; fixtures use lat and lon", "anchors": ["marEx/plotX/__init__.py:PlotXAccessor", "marEx/plotX/base.py:PlotterBase", "marEx/plotX/base.py:multi_plot"]}
{"id": "C119", "title": "ID plots accept the colour maps of PlotConfig", "statement": "With plot_IDs a colour map may be given by name or as an object, as PlotConfig allows.", "quantifier": "every configuration and ID field", "why_tests_cant": "all combinations of options, colour maps and largest IDs", "anchors": ["marEx/plotX/base.py:_setup_common_params", "marEx/plotX/base.py:multi_plot", "marEx/plotX/base.py:single_plot", "marEx/plotX/base.py:animate"]}
{"id": "C120", "title": "A run reports its own settings and results", "statement": "The attributes of the events returned by run() are the settings of the tracker and the results of this run: total_merges and multi_parent_merges count the merges, the object counts and fractions are those of the preprocessing; attributes of the input are passed on.", "quantifier": "every input with any attributes, every run", "why_tests_cant": "depends on attributes the input happens to carry and on the grid type", "anchors": ["marEx/track.py:run_stats_attributes", "marEx/track.py:track_objects", "marEx/track.py:run_tracking", "marEx/track.py:cluster_rename_objects_and_props"]}
{"id": "C121", "title": "A tracker can be run again", "statement": "Running the same tracker a second time gives the same result as the first run.", "quantifier": "every tracker and pair of modes", "why_tests_cant": "a property of sequences of calls on one object, with all combinations of modes", "anchors": ["marEx/track.py:run_preprocess", "marEx/track.py:run"]}
{"id": "C122", "title": "A negative gap length is rejected", "statement": "The tracker constructor rejects a negative T_fill.", "quantifier": "every configuration", "why_tests_cant": "all combinations of arguments with a negative gap length", "anchors": ["marEx/track.py:_validate_inputs", "marEx/track.py:__init__"]}
{"id": "C123", "title": "Unfit names give a validation error", "statement": "If the names do not fit the data, preprocess_data raises a DataValidationError.", "quantifier": "all mappings and datasets", "why_tests_cant": "all mappings, also incomplete ones and ones that name what is not there", "anchors": ["marEx/detect.py:_infer_dims_coords"]}
{"id": "C124", "title": "The accepted fraction is that of the kept objects, and an empty result is reported as such", "statement": "On a structured grid accepted_area_fraction is the share of the total object area that the area filter keeps; preprocessing that keeps nothing is reported as an empty result.", "quantifier": "every label field and threshold", "why_tests_cant": "objects exactly at the threshold and records without kept objects", "anchors": ["marEx/track.py:run_preprocess", "marEx/track.py:filter_small_objects"]}
{"id": "C125", "title": "A window of one day works", "statement": "window_days_hobday=1, which the argument checks accept, gives the threshold of each day from its own histogram.", "quantifier": "every record and percentile", "why_tests_cant": "all data and percentiles; tests use the default window", "anchors": ["marEx/detect.py:_rolling_histogram_quantile"]}
{"id": "C126", "title": "A baseline needs W years of record", "statement": "The rolling climatology is missing if fewer than W years of record precede the date.", "quantifier": "all records, also with missing years, and all windows", "why_tests_cant": "depends on gaps of whole years in the record; tests use records without gaps", "anchors": ["marEx/detect.py:rolling_climatology"]}
{"id": "C127", "title": "The reported number of objects is that of the kept objects (unstructured)", "statement": "On an unstructured mesh the reported number of filtered objects equals the number of kept objects.", "quantifier": "all label fields and criteria", "why_tests_cant": "all label fields; the count and the filter use different minimum sizes", "anchors": ["marEx/track.py:filter_small_objects"]}
{"id": "C128", "title": "Non-convergence is reported only if objects are left", "statement": "The iterative splitting on a mesh reports non-convergence only if merging objects are left after max_iteration iterations.", "quantifier": "every record and max_iteration", "why_tests_cant": "needs records that converge exactly at the limit, for every limit", "anchors": ["marEx/track.py:split_and_merge_objects_parallel"]}
{"id": "C129", "title": "Standardisation works on every record", "statement": "std_normalise gives standardised anomalies for every record, also when some days of year, such as day 366 of leap years, do not occur in it.", "quantifier": "every record of at least 16 different days of year in which some day of year is missing", "why_tests_cant": "which days of year occur depends on the length and the years of the record; a test uses one calendar", "anchors": ["marEx/detect.py:_compute_anomaly_detrended"]}
{"id": "C130", "title": "After consolidation a parent has one child ID", "statement": "After consolidation every parent overlaps one child ID, the first of its children, and the survivor's area is the sum of the merged areas.", "quantifier": "all frames, links and tables", "why_tests_cant": "children shared by several parents arise only after the merge loop was cut off", "anchors": ["marEx/track.py:consolidate_object_ids"]}
{"id": "C131", "title": "A checkpoint is complete or absent", "statement": "If the saving run died at any point before the end, or another run uses the same directory, load either returns exactly what was saved by one completed run or fails; checkpoints work on every grid type and belong to their data.", "quantifier": "every crash point, history and interleaving of runs", "why_tests_cant": "needs a crash at every point of the writing, and concurrent runs", "anchors": ["marEx/track.py:run_preprocess"]}
{"id": "C132", "title": "Global hole filling does not join the poles", "statement": "On a global grid hole filling at a cell does not depend on cells at the opposite latitude edge: fields that agree except in rows more than 4*R_fill away give the same result at the cell.", "quantifier": "every grid size, field, mask and R_fill", "why_tests_cant": "quantifies over all fields and all positions, and relates the results for two fields", "anchors": ["marEx/track.py:fill_holes"]}
{"id": "C133", "title": "Automatic colour limits are in order", "statement": "For increasing percentiles the automatic colour limits of a plot that is not symmetric are these percentiles of the data, lower one first.", "quantifier": "all data and percentiles", "why_tests_cant": "all data, in particular negative data with a lower percentile of 0", "anchors": ["marEx/plotX/base.py:clim_robust", "marEx/plotX/__init__.py:specify_grid"]}
{"id": "C134", "title": "The ID-to-time table can be built for every record", "statement": "The ID-to-time table is built for every object field, however long the record.", "quantifier": "all label histories", "why_tests_cant": "depends on the ratio of objects to steps, which small fixtures keep favourable", "anchors": ["marEx/track.py:compute_id_time_dict"]}
{"id": "C135", "title": "Movies have the name asked for and leave no temporary files", "statement": "The movie is named after file_name with the extension .mp4, and no temporary files are left, also when making it fails.", "quantifier": "every name, every failure", "why_tests_cant": "needs a failing frame or encoder at every place, and all names", "anchors": ["marEx/plotX/base.py:animate", "marEx/plotX/base.py:make_frame"]}
{"id": "C136", "title": "Plots of IDs leave the data and the process as they were", "statement": "Making a plot with plot_IDs changes neither the data held by the plotter nor numpy's random generator.", "quantifier": "every ID field, every state of the generator", "why_tests_cant": "a property of all histories of calls and all states of the generator", "anchors": ["marEx/plotX/base.py:_setup_common_params", "marEx/plotX/base.py:setup_id_plot_params"]}
{"id": "C137", "title": "Markers sit on the objects, whatever is shown", "statement": "With centroids given, a frame of a movie of any field (for example anomalies) has markers at the centroids of the objects present in that step.", "quantifier": "every frame, every list of IDs and centroids", "why_tests_cant": "whether a marker is right depends on which values are plotted", "anchors": ["marEx/plotX/base.py:make_frame"]}
{"id": "C138", "title": "Decimal years are strictly increasing", "statement": "add_decimal_year is strictly increasing in time.", "quantifier": "all pairs of times", "why_tests_cant": "all pairs of times, also within a day and across leap years: an order property of a continuum", "anchors": ["marEx/detect.py:add_decimal_year"]}
{"id": "C139", "title": "Checkpointing to disk never changes the data", "statement": "checkpoint_to_zarr returns an object equal to its input, and readable, whatever the disk does.", "quantifier": "all chunk patterns, options and failure modes of the store", "why_tests_cant": "all chunk patterns and all points at which the store can fail; a test writes to a working store", "anchors": ["marEx/helper.py:checkpoint_to_zarr"]}
{"id": "C140", "title": "Detrending before a fixed baseline leaves no trend and no cycle", "statement": "The anomalies of detrend_fixed_baseline have no remaining trend, and a pure seasonal cycle gives zero anomalies.", "quantifier": "every series", "why_tests_cant": "all series that correlate with time within the record; simple test series do not", "anchors": ["marEx/detect.py:_compute_anomaly_detrend_fixed_baseline", "marEx/detect.py:_compute_anomaly_detrended", "marEx/detect.py:_compute_anomaly_fixed_baseline"]}
{"id": "C141", "title": "A record too short to leave any output is rejected", "statement": "preprocess_data with shifting_baseline raises when the record is too short to leave any time step.", "quantifier": "all records and windows", "why_tests_cant": "the boundary case of exactly W years, for every W, start date and pattern of gaps", "anchors": ["marEx/detect.py:preprocess_data"]}
{"id": "C142", "title": "What is added to an exception shows in its text", "statement": "str() of an exception shows suggestions and context added with add_suggestion and add_context.", "quantifier": "every exception and every addition", "why_tests_cant": "all texts and all sequences of additions", "anchors": ["marEx/exceptions.py:MarExError"]}
{"id": "C143", "title": "The final re-mapping gives fresh contiguous IDs", "statement": "In every iteration on a mesh the temporary IDs are mapped one-to-one onto a contiguous range of IDs that occur nowhere before, and every cell keeps its ID or gets one of these.", "quantifier": "every mesh, record, chunking and iteration", "why_tests_cant": "an invariant of all iterations over all chunks; a test sees a few iterations", "anchors": ["marEx/track.py:split_and_merge_objects_parallel"]}
{"id": "C144", "title": "One hole filling on a mesh invents no extremes", "statement": "After one call of hole filling on a symmetric mesh every extreme ocean cell lies within R_fill hops of a cell that was extreme before.", "quantifier": "every symmetric mesh, mask, field and R_fill", "why_tests_cant": "holds whatever the shape of the coast line; no finite set of meshes settles it", "anchors": ["marEx/track.py:fill_holes", "marEx/track.py:fill_time_gaps", "marEx/track.py:run_preprocess"]}
{"id": "C145", "title": "The area threshold and the counts of the area filter (gridded)", "statement": "On a grid the threshold is area_filter_absolute, or the area_filter_quartile quantile of the sizes of all objects of the record; the reported numbers are those of the objects before and after filtering; filtering fails exactly when there is no object.", "quantifier": "all label fields and criteria", "why_tests_cant": "all label fields, including those with one object and those with ties at the threshold", "anchors": ["marEx/track.py:filter_small_objects"]}
{"id": "C146", "title": "Centroids lie in the grid", "statement": "The centroid column lies in [0, nx); the centroid row is the weighted mean of the rows and lies between them; an object away from the seam, and every object in regional mode, gets the weighted mean of its columns; the reported longitude is the interpolated one.", "quantifier": "all objects with positive weights", "why_tests_cant": "all shapes, positions and weights, also objects across the edges of the file", "anchors": ["marEx/track.py:calculate_centroid", "marEx/track.py:cluster_rename_objects_and_props"]}
{"id": "C147", "title": "Given units are used, and the original coordinates kept", "statement": "A constructed tracker uses the units given or recognised, converts with an accurate value of pi, and keeps the caller's own longitudes and latitudes for the output.", "quantifier": "all configurations", "why_tests_cant": "all coordinate values in all combinations of given and detected units", "anchors": ["marEx/track.py:_unify_coordinates", "marEx/track.py:_remap_coordinates"]}
{"id": "C148", "title": "The returned client is that of the one cluster started", "statement": "start_local_cluster starts one cluster, with the threads per worker asked for, returns its client, and has the switches verbose and quiet in force.", "quantifier": "every machine, request, mode and history", "why_tests_cant": "depends on the state of logging and of running clusters before the call", "anchors": ["marEx/helper.py:start_local_cluster"]}
{"id": "C149", "title": "What is logged is bounded, and quiet is quiet", "statement": "The parameters logged for a call are bounded in length; log_progress logs the last step of a loop, and nothing in quiet mode; progress bars are shown exactly if tqdm is there and they are not disabled, which by default is in quiet mode only.", "quantifier": "every list of arguments, every loop length and mode", "why_tests_cant": "all numbers and sizes of arguments, all loop lengths", "anchors": ["marEx/logging_config.py:log_timing", "marEx/logging_config.py:log_function_call", "marEx/logging_config.py:log_progress"]}
{"id": "C150", "title": "Progress is logged every frequency percent", "statement": "log_progress logs a line for every frequency percent of a loop.", "quantifier": "every loop length and frequency", "why_tests_cant": "depends on number-theoretic properties of the loop length; round lengths used in tests behave well", "anchors": ["marEx/logging_config.py:log_timing", "marEx/logging_config.py:log_function_call", "marEx/logging_config.py:log_progress"]}
{"id": "C151", "title": "Maps of a mesh show the nearest cells", "statement": "A plot of a mesh with a search tree given shows, at every point of the regular grid, the value of the mesh cell that the tree names for it.", "quantifier": "every mesh, tree and field", "why_tests_cant": "all index tables, also with negative and too large indices, and all fields", "anchors": ["marEx/plotX/base.py:make_frame", "marEx/plotX/gridded.py:GriddedPlotter.plot", "marEx/plotX/unstructured.py:UnstructuredPlotter.plot"]}
{"id": "C152", "title": "The temporary store on disk does not change the result", "statement": "On a mesh the split-and-merge step keeps its object field in a temporary store on disk between iterations. Whatever an earlier run left in the store, in whatever order the chunk tasks of an iteration run, and however often a task is repeated, the objects and merge records returned are those of the same computation in memory.", "quantifier": "every record, every initial content of the store, every order of the chunk tasks and every number of repetitions of each", "why_tests_cant": "all interleavings and retries of the tasks of a distributed scheduler, and all left-over stores", "anchors": ["marEx/track.py:split_and_merge_objects_parallel", "marEx/track.py:refresh_zarr"]}
{"id": "C153", "title": "Losing a worker does not change the result on a mesh", "statement": "If a worker is lost while the split-and-merge step of a mesh record runs, so that dask recomputes the results it held, the run still returns the same merge records as without the loss.", "quantifier": "every record, iteration, chunk and moment of the loss", "why_tests_cant": "crash points between any two tasks of a distributed computation; unit tests lose no worker", "anchors": ["marEx/track.py:split_and_merge_objects_parallel", "marEx/track.py:update_object_id_field_zarr"]}
{"id": "C154", "title": "Two trackers can work in the same temporary directory", "statement": "Two mesh trackers that are given the same temp_dir, one after the other or at the same time, give the results they would give alone.", "quantifier": "every pair of records and every interleaving of their runs", "why_tests_cant": "all interleavings of two processes; unit tests run one tracker at a time", "anchors": ["marEx/track.py:split_and_merge_objects_parallel", "marEx/track.py:refresh_zarr"]}
{"id": "C155", "title": "A neighbour table held in memory is accepted", "statement": "A mesh tracker accepts the same neighbour table whether it is held in memory or in dask chunks.", "quantifier": "every supported mesh configuration and every neighbour table", "why_tests_cant": "quantifies over all configurations; a unit test always builds its table in one of the two ways", "anchors": ["marEx/track.py:_setup_unstructured_grid"]}
{"id": "C156", "title": "What the constructor accepts, run() can lay out", "statement": "If the constructor of a mesh tracker accepts the neighbour table and the cell areas, with or without the warning that it rechunks them, run() does not fail because of their chunks or their size.", "quantifier": "every accepted configuration, chunking and record length", "why_tests_cant": "all chunkings and sizes of two arrays against all record sizes", "anchors": ["marEx/track.py:_setup_unstructured_grid", "marEx/track.py:calculate_object_properties", "marEx/track.py:run_tracking"]}
{"id": "C157", "title": "Mesh records of any length are tracked", "statement": "run() on a mesh accepts records of any number of steps, one included.", "quantifier": "every record length, every data and every setting", "why_tests_cant": "the failure depends on the record length only at one value, and on no value of the data; unit tests use long records", "anchors": ["marEx/track.py:calculate_object_properties", "marEx/track.py:run_tracking"]}
{"id": "C158", "title": "Events carry the caller's time coordinate", "statement": "The time coordinate that the caller names is found in the returned events under the same name and with the same values, whether or not it is named after the time dimension, on grids and meshes.", "quantifier": "every accepted configuration, every name and every values of the time coordinate, with merging and without", "why_tests_cant": "all combinations of names, grid types and modes; unit tests name the coordinate after the dimension", "anchors": ["marEx/track.py:_validate_inputs", "marEx/track.py:run_tracking", "marEx/track.py:split_and_merge_objects_parallel"]}
{"id": "C159", "title": "Merges are returned when asked for", "statement": "run(return_merges=True) returns the events together with the merges.", "quantifier": "every tracker and every result", "why_tests_cant": "the form of the result depends on a setting of the constructor", "anchors": ["marEx/track.py:run"]}
{"id": "C160", "title": "The debug level decides which scheduler messages are hidden", "statement": "A tracker with debug level 2 hides no message of the dask scheduler, level 1 hides only those about run_spec, level 0 also those about large graphs, whatever trackers were constructed before; other errors are always shown.", "quantifier": "every history of constructed trackers, every message and level", "why_tests_cant": "the logger belongs to the process: all histories of constructions matter", "anchors": ["marEx/track.py:_configure_warnings"]}
{"id": "C161", "title": "The unit of the cell areas does not matter", "statement": "On a mesh, multiplying all cell areas by the same positive number (square kilometres instead of square metres) changes neither the preprocessed field nor the events nor whether the run fails; object areas and overlap areas are multiplied by that number, IDs, times, links and centroids stay the same.", "quantifier": "every mesh, every positive cell areas, every record and setting, every positive factor", "why_tests_cant": "a relation between two runs over all records and all factors; a unit test compares single outputs", "anchors": ["marEx/track.py:run", "marEx/track.py:enforce_overlap_threshold", "marEx/track.py:split_and_merge_objects_parallel", "marEx/track.py:calculate_object_properties"]}
{"id": "C162", "title": "The zero point of the data does not matter", "statement": "Adding the same number to all data (kelvin instead of degrees Celsius) leaves the mask, the anomalies, the thresholds and the extremes of preprocess_data unchanged, for all anomaly and extreme methods.", "quantifier": "every record, every grid, every added number, every method and every setting", "why_tests_cant": "a relation between two runs over all records and all offsets", "anchors": ["marEx/detect.py:preprocess_data", "marEx/detect.py:compute_normalised_anomaly", "marEx/detect.py:identify_extremes"]}
{"id": "C163", "title": "The unit of the data does not matter", "statement": "Multiplying all data by the same positive number leaves the mask and the extremes of preprocess_data unchanged and multiplies the anomalies and the thresholds by that number.", "quantifier": "every record, every grid, every positive factor, every method and every setting", "why_tests_cant": "a relation between two runs over all records and all factors", "anchors": ["marEx/detect.py:preprocess_data", "marEx/detect.py:compute_normalised_anomaly", "marEx/detect.py:identify_extremes"]}
{"id": "C164", "title": "Events do not depend on where the map is cut", "statement": "For global gridded data, cutting the map at another longitude turns the events of run() with the map: two cells belong to the same event iff they do on the other map.", "quantifier": "every global grid, every record, every shift of the longitudes and every setting", "why_tests_cant": "a relation between two runs over all records, all shifts and all settings; only objects at the cut can show a difference", "anchors": ["marEx/track.py:run", "marEx/track.py:identify_objects", "marEx/track.py:filter_small_objects"]}
{"id": "C165", "title": "Without merging, events have no direction in time", "statement": "With allow_merging=False, two cells of the preprocessed field belong to the same event iff they do when the record is read backwards in time.", "quantifier": "every grid, every preprocessed field of any length, global and regional", "why_tests_cant": "a relation between two runs over all records; a direction in time shows for particular chains of objects only", "anchors": ["marEx/track.py:run_tracking", "marEx/track.py:identify_objects"]}
{"id": "C166", "title": "Links on a grid are decided exactly, rounding or not", "statement": "On a structured grid, with overlap_threshold written as a decimal fraction, two objects are linked iff the number of shared cells is at least that fraction of the number of cells of the smaller object, also when it is exactly that fraction, although the tracker divides and compares floating-point numbers.", "quantifier": "every fraction, every table of objects below 2^52 cells (divided by the numerator) and every list of overlaps", "why_tests_cant": "decimal fractions are not floating-point numbers and quotients are rounded: all pairs of counts would have to be tried", "anchors": ["marEx/track.py:enforce_overlap_threshold", "marEx/track.py:check_overlap_slice"]}
{"id": "C167", "title": "Object areas on a mesh are the sums of the cell areas, up to rounding", "statement": "On a mesh the reported area of an object is the sum of its cell areas up to a small relative error, for objects of every size.", "quantifier": "every mesh, all cell areas, objects with any number of cells", "why_tests_cant": "the error of a float32 sum grows with the number of cells; objects of millions of cells are out of reach of unit tests", "anchors": ["marEx/track.py:calculate_object_properties", "marEx/track.py:__init__"]}
{"id": "C168", "title": "Rounding does not move a threshold to another bin", "statement": "With the approximate method the day-of-year threshold is taken from the bin that holds the sample at the requested percentile, for every percentile, although the position of the percentile is computed in floating point.", "quantifier": "every percentile, every histogram", "why_tests_cant": "percentiles divided by 100 are not floating-point numbers; the error matters for particular percentiles and sample counts only", "anchors": ["marEx/detect.py:_rolling_histogram_quantile", "marEx/detect.py:_identify_extremes_hobday"]}
{"id": "C169", "title": "Links on a mesh do not hinge on rounding", "statement": "On a mesh, where areas are float32 sums, no overlap fraction exceeds 1, an object lying inside an object of the next step is linked to it for every threshold up to 1, and any other pair is linked as its exact areas require unless its overlap fraction is within the rounding error of the threshold.", "quantifier": "every mesh, all non-negative cell areas, every pair of label fields, every threshold, objects below 2^21 cells", "why_tests_cant": "rounding errors depend on all areas and on the order of summation", "anchors": ["marEx/track.py:enforce_overlap_threshold", "marEx/track.py:check_overlap_slice", "marEx/track.py:calculate_object_properties"]}
{"id": "C170", "title": "Tracking neither adds nor drops time coordinates", "statement": "Along time, the events returned by run() have exactly the coordinates of the record given to the tracker: the same names with the same values, none added and none lost.", "quantifier": "every accepted configuration of names, every record, with and without merging", "why_tests_cant": "every combination of names of the time dimension and coordinate, of further coordinates along time and of the merging setting must be covered", "anchors": ["marEx/track.py:_validate_inputs", "marEx/track.py:run_tracking", "marEx/track.py:cluster_rename_objects_and_props"]}
{"id": "C171", "title": "From raw data to events: a cell belongs to an event iff its anomaly reaches its own threshold and its cluster is large enough", "statement": "With R_fill=0 and T_fill=0, after preprocess_data and tracker(ds.extreme_events, ds.mask, ...).run(), a cell carries an event at a step iff it is an ocean cell, its stored anomaly is at least its stored threshold at that step, and its cluster of touching such cells is large enough for the area filter: at least the area threshold on structured grids, more than it on meshes.", "quantifier": "every raw record, every anomaly and extreme method and percentile, every grid and mesh, every chunking, both area criteria", "why_tests_cant": "the statement spans two modules and quantifies over every cell, step and record: a unit test sees single arrays of single functions", "anchors": ["marEx/detect.py:preprocess_data", "marEx/detect.py:identify_extremes", "marEx/track.py:run", "marEx/track.py:filter_small_objects", "marEx/track.py:identify_objects"]}
{"id": "C172", "title": "Every event cell lies near extremes in space and time", "statement": "On structured grids, for every R_fill and every even T_fill, a cell that carries an event after preprocess_data and run() is an ocean cell and lies within R_fill // 2 cells of a cell that has, within R_fill cells, an anomaly at or above its own threshold at that step, or one before and one after it with at most T_fill steps between them.", "quantifier": "every raw record, every method and setting, every grid (global and regional), every R_fill, every even T_fill", "why_tests_cant": "filling, gap filling, filtering and tracking would have to be tried on every field", "anchors": ["marEx/detect.py:preprocess_data", "marEx/detect.py:identify_extremes", "marEx/track.py:run", "marEx/track.py:fill_holes", "marEx/track.py:fill_time_gaps", "marEx/track.py:identify_objects"]}
{"id": "C173", "title": "Names that pass the check do not fail later", "statement": "When preprocess_data has accepted the dimensions and coordinates it is given, no missing name makes it fail afterwards, in particular not when everything has been computed.", "quantifier": "every data set, all dimension and coordinate mappings that are accepted, every anomaly and extreme method", "why_tests_cant": "every combination of named and unnamed axes and of the methods must be followed through the whole call", "anchors": ["marEx/detect.py:preprocess_data", "marEx/detect.py:_infer_dims_coords", "marEx/detect.py:_compute_anomaly_detrended", "marEx/detect.py:_compute_histogram_quantile_2d", "marEx/detect.py:_identify_extremes_constant"]}
{"id": "C174", "title": "Exact constant percentiles are available for every data set", "statement": "With method_extreme='global_extreme' and method_percentile='exact', identify_extremes computes thresholds for every percentile from 0 to 100 on every grid and every mesh, whatever the number of cells.", "quantifier": "every grid and mesh of any number of cells, every record, every percentile from 0 to 100", "why_tests_cant": "the layout of the data depends on the number of cells: a test runs on meshes of one or two sizes", "anchors": ["marEx/detect.py:_identify_extremes_constant", "marEx/detect.py:identify_extremes"]}
{"id": "C175", "title": "dask_chunks decides the chunks of the output", "statement": "Each chunk length given in dask_chunks for a dimension of the data is the chunk length of the output of preprocess_data along that dimension; along time it is 25 without dask_chunks and 10 if dask_chunks has no entry for time.", "quantifier": "every dask_chunks argument, all names of the dimensions, both extreme methods", "why_tests_cant": "every combination of given and missing entries and of names must be covered", "anchors": ["marEx/detect.py:preprocess_data"]}
{"id": "C176", "title": "Thin samples are announced", "statement": "With day-of-year thresholds, identify_extremes logs a warning iff fewer than 50 of the samples behind a threshold are expected to lie above the requested percentile.", "quantifier": "every record, every grid and mesh, every window of days and of space, every percentile, both percentile methods", "why_tests_cant": "the number of samples behind a threshold depends on calendar, windows and method: a test checks single combinations", "anchors": ["marEx/detect.py:identify_extremes", "marEx/detect.py:_identify_extremes_hobday"]}
{"id": "C177", "title": "Following the installation advice installs what is missing", "statement": "The command that require_dependencies advises in its error installs every package it reports as missing.", "quantifier": "every list of package names", "why_tests_cant": "every combination of missing packages would have to be tried", "anchors": ["marEx/_dependencies.py:require_dependencies", "marEx/_dependencies.py:_get_install_command", "pyproject.toml:optional-dependencies"]}
{"id": "C178", "title": "Events have the documented variables", "statement": "With merging, the events returned by run() have exactly the documented data variables, each once and with the documented dimensions: ID_field, global_ID, area, centroid as (x, y), presence, time_start, time_end and merge_ledger; without merging on a grid they have ID_field only.", "quantifier": "every grid and mesh, all names of the dimensions, every number of steps, with merging and without", "why_tests_cant": "the variables are collected from tables whose columns depend on the shape of the record; unit tests look for the variables they expect, not for others", "anchors": ["marEx/track.py:calculate_object_properties", "marEx/track.py:cluster_rename_objects_and_props", "marEx/track.py:run_tracking"]}
{"id": "C179", "title": "Every precision gives the histogram of that precision", "statement": "With the approximate method the day-of-year histogram counts each anomaly in the bin that contains it, for every precision and max_anomaly, although bin numbers are stored in 16 bits.", "quantifier": "every precision, max_anomaly and record", "why_tests_cant": "bin numbers wrap around only for very fine precisions; unit tests use a few hundred bins", "anchors": ["marEx/detect.py:_compute_histogram_quantile_2d"]}
{"id": "C180", "title": "Thresholds computed in float32 are as accurate as exact ones", "statement": "With the approximate day-of-year method every threshold, computed with float32 bin edges and rounded interpolation, is a positive number at most half a bin above and less than one and a half bins below the sample at the percentile, up to a rounding error of about max_anomaly / 250000, for all samples below max_anomaly.", "quantifier": "every precision and max_anomaly with fewer than 65536 bins, every record, all odd windows, every day and cell, the percentiles in common use", "why_tests_cant": "rounding acts at every edge, centre and interpolation; a test compares a few thresholds with a tolerance", "anchors": ["marEx/detect.py:_compute_histogram_quantile_2d", "marEx/detect.py:_rolling_histogram_quantile"]}
{"id": "C181", "title": "Standardisation adds outputs and changes none", "statement": "preprocess_data with std_normalise=True returns the same mask, anomalies, thresholds and extremes as without it. extreme_events_stn and thresholds_stn are added iff the method is detrend_harmonic, and a step is marked in extreme_events_stn iff its standardised anomaly is at least the standardised threshold of its cell and day. They cause no failure of their own.", "quantifier": "every record, every grid and mesh, every anomaly and extreme method and percentile, every standardisation", "why_tests_cant": "the two runs must be compared for every record and every combination of arguments", "anchors": ["marEx/detect.py:preprocess_data", "marEx/detect.py:identify_extremes", "marEx/detect.py:compute_normalised_anomaly"]}
{"id": "C182", "title": "The statistics of preprocessing are those of the record", "statement": "run_preprocess refuses a record as having no objects iff no cell is extreme after filling. Otherwise, if anything is kept, total_area_IDed is the number of extreme cells after filling and preprocessed_area_fraction is the extreme area of the given record over the extreme area after filling and filtering; without filling it is at least one.", "quantifier": "every record on every grid and mesh, every cell area, both area filters with every setting", "why_tests_cant": "sums over whole records with any number and size of objects, including records with small objects only", "anchors": ["marEx/track.py:run_preprocess", "marEx/track.py:compute_area", "marEx/track.py:filter_small_objects"]}
{"id": "C183", "title": "Raising the percentile never adds an extreme", "statement": "If identify_extremes or preprocess_data succeeds, it succeeds with every larger threshold_percentile up to 100 and all other arguments the same, and every step then marked extreme at a cell is also marked with the smaller percentile; mask and anomalies are the same.", "quantifier": "every record, grid and mesh, both extreme methods, both percentile methods, all windows, every pair of percentiles, every proper histogram; with global_extreme and histograms, up to 10\u2079 steps", "why_tests_cant": "all pairs of percentiles and all records, including records for which the thresholds themselves are in the wrong order", "anchors": ["marEx/detect.py:identify_extremes", "marEx/detect.py:preprocess_data", "marEx/detect.py:_compute_histogram_quantile_1d", "marEx/detect.py:_compute_histogram_quantile_2d"]}
{"id": "C184", "title": "Marks outside the mask have no effect", "statement": "Two records of extremes that agree on the cells of the mask give the same preprocessed field, the same events and the same statistics.", "quantifier": "every pair of records, every mask, grid and mesh, every R_fill and T_fill, every area filter, with merging and without", "why_tests_cant": "whether a mark outside the mask reaches the result depends on the coast, the filling radius and the other marks", "anchors": ["marEx/track.py:fill_holes", "marEx/track.py:run_preprocess", "marEx/track.py:compute_area", "marEx/track.py:identify_objects"]}
{"id": "C185", "title": "New data leave old anomalies as they are", "statement": "With method_anomaly shifting_baseline, appending later time steps to a record changes neither the mask nor any anomaly already computed: the anomalies of the longer record begin with those of the shorter one.", "quantifier": "every record and every continuation of it by later years or by the rest of its last year, all windows of years, every smoothing window shorter than twice the distance between equal days of different years", "why_tests_cant": "a record grows without bound; the smoothing window reaches across the end of the old record, so whether old values change depends on calendar, windows and length", "anchors": ["marEx/detect.py:_compute_anomaly_shifting_baseline", "marEx/detect.py:smoothed_rolling_climatology", "marEx/detect.py:rolling_climatology", "marEx/detect.py:preprocess_data"]}
{"id": "C186", "title": "Orientation and numbering of the cells do not matter to preprocessing", "statement": "If the longitudes of the data of preprocess_data start at another meridian, run westwards instead of eastwards, or the latitudes run southwards instead of northwards, or the cells of a mesh are numbered in another order, it succeeds as before and every place has the same mask, anomalies, thresholds and extremes.", "quantifier": "every record on every grid and mesh, every shift of the longitudes, every renumbering of a mesh, all anomaly and extreme methods and windows whose half is not wider than the grid", "why_tests_cant": "all shifts, renumberings and spatial windows across the cut; unit tests have one arrangement of the data", "anchors": ["marEx/detect.py:preprocess_data", "marEx/detect.py:identify_extremes", "marEx/detect.py:_compute_histogram_quantile_2d", "marEx/detect.py:_validate_data_values"]}
{"id": "C187", "title": "More extremes, longer gaps or a smaller area threshold never lose an event cell", "statement": "If a record of extremes gets more extreme cells, if T_fill grows, or if the area threshold (area_filter_absolute or area_filter_quartile) shrinks, then every cell that carried an event carries one still, whatever the other tracking options are, and the run is not refused if it was not before.", "quantifier": "every pair of records of which one contains the other, every mask, grid and mesh, every R_fill, all pairs of T_fill and of area thresholds, all overlap thresholds, chunks and merging settings", "why_tests_cant": "all pairs of records and settings; the cells that vanish depend on the shape of the coast, on sizes of objects elsewhere in the record and on which object comes first", "anchors": ["marEx/track.py:run", "marEx/track.py:fill_holes", "marEx/track.py:fill_time_gaps", "marEx/track.py:filter_small_objects", "marEx/track.py:identify_objects"]}
{"id": "C188", "title": "A higher percentile never adds an event cell", "statement": "Raising threshold_percentile in preprocess_data and tracking its output with the same tracker arguments (area_filter_absolute) gives the same mask and anomalies, and every cell that carries an event with the higher percentile carries one with the lower.", "quantifier": "every raw record, grid and mesh, all methods, every pair of percentiles, every R_fill, T_fill, area_filter_absolute and tracking option", "why_tests_cant": "the two runs must be compared from raw data to events for all records and all pairs of percentiles", "anchors": ["marEx/detect.py:preprocess_data", "marEx/detect.py:identify_extremes", "marEx/track.py:tracker", "marEx/track.py:run"]}
{"id": "C189", "title": "Data can be preprocessed in pieces", "statement": "Applying preprocess_data to a rectangular piece of a grid, or to any choice of mesh cells, gives at every cell of the piece the mask, anomalies, thresholds and extremes that the whole data give there, and succeeds if the piece has an ocean cell and the whole succeeded.", "quantifier": "every record on every grid and mesh, every rectangle and every choice of cells, all anomaly and extreme methods and windows", "why_tests_cant": "all sizes and positions of pieces; the spatial window of the approximate method reaches across the edge of the piece and is closed around it", "anchors": ["marEx/detect.py:preprocess_data", "marEx/detect.py:identify_extremes", "marEx/detect.py:_compute_histogram_quantile_2d", "marEx/detect.py:_validate_data_values"]}
{"id": "C190", "title": "Steps without extremes before and after a record do not matter", "statement": "Padding a record of extremes with any number of steps without extremes before and after it gives the same preprocessed extremes and the same events at the steps of the record and nothing at the new steps; links and object properties are the same and merge records, the first and last step of every event and its entries in the merge ledger are later by the number of steps put in front.", "quantifier": "every record, every number of empty steps on either side, every mask, fill radius, gap, area criterion, overlap threshold, partition method, grid and mesh", "why_tests_cant": "all records and paddings; padding moves the borders of the time chunks and the ends at which gaps are closed", "anchors": ["marEx/track.py:run", "marEx/track.py:fill_time_gaps", "marEx/track.py:split_and_merge_objects", "marEx/track.py:split_and_merge_objects_parallel", "marEx/track.py:consolidate_object_ids"]}
{"id": "C191", "title": "The numbering of the cells of a mesh does not matter to tracking", "statement": "If the cells of a mesh are numbered in another order (and their neighbours listed in another order), the preprocessed extremes of every cell are the same, with the same area threshold and counts, and the events are the same groups of cells and steps.", "quantifier": "every mesh and every permutation of its cells, every record and mask, every R_fill, T_fill, area criterion, overlap threshold and chunk length", "why_tests_cant": "n! numberings; labels, table rows and processing order all depend on the numbering", "anchors": ["marEx/track.py:run", "marEx/track.py:fill_holes", "marEx/track.py:filter_small_objects", "marEx/track.py:identify_objects", "marEx/track.py:find_overlapping_objects", "marEx/track.py:split_and_merge_objects_parallel", "marEx/track.py:cluster_rename_objects_and_props"]}
{"id": "C192", "title": "nn_partitioning matters only where objects merge", "statement": "The value of nn_partitioning does not affect which objects are linked: two runs that differ only in it link the same objects; if a run reports no merge, the run with the other value returns the same events, object table and links.", "quantifier": "every record, grid and mesh, every mask, fill radius, gap, area criterion, overlap threshold and division into time chunks, both values (and any other way to divide merged objects)", "why_tests_cant": "all records with and without merges; the pieces of a merge are the objects that the following steps are compared with", "anchors": ["marEx/track.py:run", "marEx/track.py:split_and_merge_objects", "marEx/track.py:split_and_merge_objects_parallel", "marEx/track.py:enforce_overlap_threshold", "marEx/track.py:partition_nn_grid", "marEx/track.py:partition_centroid_unstructured"]}
{"id": "C193", "title": "Lowering overlap_threshold never separates an event", "statement": "If overlap_threshold is lowered and nothing else is changed, two cells (at any steps) that carried the same event carry the same event still.", "quantifier": "every record, grid and mesh, every pair of thresholds, all other options", "why_tests_cant": "all records and pairs of thresholds; a lower threshold adds links, but these cause further siblings to be united and further merges to be divided", "anchors": ["marEx/track.py:run", "marEx/track.py:enforce_overlap_threshold", "marEx/track.py:consolidate_object_ids", "marEx/track.py:split_and_merge_objects", "marEx/track.py:split_and_merge_objects_parallel"]}
{"id": "C194", "title": "Objects that merge stay separate events", "statement": "On a grid with merging, where two or more objects of a step meet in one object of the next step, this object is divided so that each of its pieces continues one of them only, and events that were separate stay separate.", "quantifier": "every record of objects on every grid, every overlap threshold, both partition methods, all centroids, every division into time chunks, every step", "why_tests_cant": "merges are resolved in rounds, and each division can create new overlaps; siblings are united afterwards: all shapes and numbers of meeting objects would have to be tried", "anchors": ["marEx/track.py:split_and_merge_objects", "marEx/track.py:consolidate_object_ids", "marEx/track.py:enforce_overlap_threshold"]}
{"id": "C195", "title": "Checkpointed data stay readable", "statement": "checkpoint_to_zarr writes into a directory that exists, and the data it returns can be computed for the rest of the session, whatever clusters are started, closed or fail to start before and after.", "quantifier": "every history of cluster starts (successful and failed), configurations of dask, removals of directories, calls of preprocess_data and checkpoints", "why_tests_cant": "all histories and lifetimes; a unit test writes and reads one checkpoint while everything is alive", "anchors": ["marEx/helper.py:checkpoint_to_zarr", "marEx/helper.py:configure_dask", "marEx/helper.py:start_local_cluster", "marEx/helper.py:start_distributed_cluster"]}
{"id": "C196", "title": "A movie can be made whatever clusters were used before", "statement": "The animation has a place for its frames at every moment of a session: before a cluster is started, while it runs, after its client is closed and after a start that failed.", "quantifier": "every history of cluster starts, failures, removals and other calls, every name of a directory", "why_tests_cant": "all histories; the failure shows only in sessions in which a cluster was used and given up", "anchors": ["marEx/plotX/base.py:animate", "marEx/helper.py:configure_dask", "marEx/helper.py:start_local_cluster"]}
{"id": "C197", "title": "preprocess_data leaves the configuration of dask as it was", "statement": "After a call of preprocess_data, accepted or rejected, every setting of dask has the value it had before the call.", "quantifier": "every session, configuration and setting, every history before and after the call", "why_tests_cant": "the effect is on later computations of the same process; all orders of calls matter", "anchors": ["marEx/detect.py:preprocess_data", "marEx/helper.py:configure_dask", "marEx/helper.py:start_local_cluster"]}
{"id": "C198", "title": "Parts of a record with a long quiet time between them are tracked independently", "statement": "If more than T_fill steps without extremes lie between two parts of a record, no event has cells in both parts and nothing is found in between; and the extremes kept, the events of one part and the steps at which the ledger says that they merge are the same whatever the other parts contain.", "quantifier": "every record on every grid and mesh, all contents and lengths of the parts, every longer gap, all settings, every division into time chunks", "why_tests_cant": "gaps are closed by morphological operations in time, thresholds and numbers are of the whole record, and merges are resolved through it: all contents of all parts matter", "anchors": ["marEx/track.py:run", "marEx/track.py:fill_time_gaps", "marEx/track.py:filter_small_objects", "marEx/track.py:track_objects"]}
{"id": "C199", "title": "What happens far away does not change an event", "statement": "An event stays as it is, cell by cell and step by step, when the extremes of the record are changed at places far from all its cells: farther than the hole filling and the smallest accepted area reach. The merges reported for a group of events, and the steps at which the ledger has entries for its events, stay too.", "quantifier": "every record on every grid, every event, every change of the record at any steps beyond 6 R_fill + area_filter_absolute + 1 rows or columns of the event's cells, all settings, every division into time chunks", "why_tests_cant": "morphological filling, labelling and the area filter run over the whole map, and around its edges; all maps and all distant changes matter", "anchors": ["marEx/track.py:run", "marEx/track.py:fill_holes", "marEx/track.py:fill_time_gaps", "marEx/track.py:filter_small_objects", "marEx/track.py:identify_objects"]}
{"id": "C200", "title": "The loggers of other libraries stay as the application set them", "statement": "marEx's calls leave what other libraries log as the application has set it. While disable_external_loggers is on (the default), messages less serious than errors of the libraries it lists are hidden; turning it off shows them again, and verbose mode never shows less than before.", "quantifier": "every setting of the levels of all loggers of a process, every history of marEx calls, every logger and every seriousness of a message", "why_tests_cant": "levels are inherited along names and kept for the whole process; all histories and all names matter", "anchors": ["marEx/logging_config.py:configure_logging", "marEx/logging_config.py:_configure_external_loggers", "marEx/track.py:_configure_warnings"]}
{"id": "C201", "title": "The log level asked for is in force or refused", "statement": "The level given to configure_logging, as a number or a name, or named by MAREX_LOG_LEVEL, is the level of marEx's messages; a name that is not a level is refused.", "quantifier": "every text and number, with every environment and every combination of verbose and quiet", "why_tests_cant": "all texts; a misspelt level shows no error, only more or fewer messages", "anchors": ["marEx/logging_config.py:configure_logging"]}
{"id": "C202", "title": "Logging information about dask data is safe and informative", "statement": "log_dask_info never ends a computation, and for every dask-backed DataArray or Dataset it logs its shape, chunks, size and number of tasks.", "quantifier": "every object, whatever each of its attributes gives or raises, every message", "why_tests_cant": "all objects and all failures of their attributes", "anchors": ["marEx/logging_config.py:log_dask_info"]}
{"id": "C203", "title": "A progress bar is closed, and completion reported only on completion", "statement": "The block of progress_bar gives what its body gives; the bar is closed in every case; work is reported as completed only if the body ended without an exception.", "quantifier": "every result or exception of the body, every mode, with and without a bar or a logger", "why_tests_cant": "every exception at every point of the body", "anchors": ["marEx/logging_config.py:progress_bar"]}
{"id": "C204", "title": "Objects that never meet are tracked independently, merges included", "statement": "run_tracking on a grid: take away from the preprocessed field a group of objects, none of which shares a cell at consecutive steps with an object that stays (with allow_merging=False: none of which touches one in space and time). Events are then found on exactly the cells that stay, and they are the events these cells had before, none of which had cells that were taken away. The merges reported are those reported before with a parent on the cells that stay, with the same times, areas, parents and children, and the merge_ledger of these events is -1 at the same steps as before.", "quantifier": "every preprocessed field on every grid, every such group, both values of allow_merging, every overlap threshold, both partition methods, every division into time chunks", "why_tests_cant": "one loop over all steps and objects, with one counter of numbers, one table and a limit of ten rounds, divides and relabels all merging objects of the map; all combinations of merges of the group with merges of the rest matter", "anchors": ["marEx/track.py:run_tracking", "marEx/track.py:split_and_merge_objects", "marEx/track.py:consolidate_object_ids", "marEx/track.py:identify_objects"]}
{"id": "C205", "title": "On a mesh, objects that never meet are tracked independently", "statement": "run_tracking on a mesh: take away from the preprocessed field a group of objects, none of which shares a cell at consecutive steps with an object that stays. If tracking the whole succeeds, so does tracking what stays; events are found on exactly the sea cells that stay, and they are the events these cells had before, none of which had cells that were taken away.", "quantifier": "every preprocessed field on every mesh, every such group, every overlap threshold, every labelling of components", "why_tests_cant": "all chunks divide all merging objects of the mesh at once and draw new numbers from blocks laid out in advance; all combinations of the group with the rest matter", "anchors": ["marEx/track.py:run_tracking", "marEx/track.py:split_and_merge_objects_parallel", "marEx/track.py:process_chunk", "marEx/track.py:identify_objects"]}
{"id": "C206", "title": "Steps added later leave past events alone", "statement": "Two records agree on their first M steps. An event of the first that is over (its last step lies more than T_fill steps before the last common one) is an event of the second too: the same cells at the same steps and none besides, whatever follows in either record. On grids, events found before steps are appended are never separated by them.", "quantifier": "every pair of records, on every grid and mesh, every M, T_fill, R_fill, area criterion, overlap threshold, both values of allow_merging, every division into time chunks", "why_tests_cant": "all later records matter; closing in time looks ahead, one filter threshold, one numbering and one table of merges serve the whole record, and chunk borders move", "anchors": ["marEx/track.py:run", "marEx/track.py:run_preprocess", "marEx/track.py:run_tracking", "marEx/track.py:split_and_merge_objects", "marEx/track.py:split_and_merge_objects_parallel", "marEx/track.py:fill_time_gaps", "marEx/track.py:filter_small_objects"]}
{"id": "C207", "title": "The orientation of the map does not matter to tracking on a grid", "statement": "Store the same map with its rows (latitudes) or its columns (longitudes) in the opposite order, mask alike: a run then keeps the same cells after preprocessing and finds the same events, cell for cell.", "quantifier": "every record on every grid, global or regional, both axes, every R_fill, T_fill, area criterion, overlap threshold, both values of allow_merging, every labelling of components", "why_tests_cant": "scans, structuring elements, paddings and numberings all have a direction; all maps and their mirror images matter", "anchors": ["marEx/track.py:run", "marEx/track.py:fill_holes", "marEx/track.py:filter_small_objects", "marEx/track.py:identify_objects", "marEx/track.py:run_tracking"]}
{"id": "C208", "title": "The numbers that the labelling library gives to objects do not matter", "statement": "The libraries that label connected extremes may number the objects in any order (the order depends, for example, on how the data are chunked). Whatever the order, a run keeps the same cells after preprocessing and finds the same events.", "quantifier": "every record on every grid and mesh, every two labellings that are correct on every graph, every R_fill, T_fill, area criterion, overlap threshold, both values of allow_merging, every division into time chunks", "why_tests_cant": "a test runs with the one order that one version of the library gives; all orders matter", "anchors": ["marEx/track.py:identify_objects", "marEx/track.py:filter_small_objects", "marEx/track.py:run_tracking", "marEx/track.py:consolidate_object_ids", "marEx/track.py:split_and_merge_objects"]}
{"id": "C209", "title": "Records with the same groups of cells report the same table of events", "statement": "If two runs find the same events as groups of cells and steps (for example on a mirrored map, a mesh numbered in another order, or with another labelling library), then N_events_final is the same, the event IDs of the one pair with those of the other, and paired events have the same presence, time_start, time_end and area at every step.", "quantifier": "every two tracked records on every grid and mesh whose ID_fields group corresponding cells alike, whatever the options, numbers and chunks behind them, every cell areas", "why_tests_cant": "the table is filled by ID, through renumbered lookups; all pairs of numberings matter", "anchors": ["marEx/track.py:cluster_rename_objects_and_props", "marEx/track.py:run_stats_attributes", "marEx/track.py:run_tracking"]}
{"id": "C210", "title": "On a mesh, running again on the events found gives the identical ID_field", "statement": "On an unstructured mesh, mark the cells that belong to an event (ID_field > 0) and run the tracker on that record with the same settings but R_fill = 0, T_fill = 0 and an absolute area threshold below the size of every object found (for example the absolute threshold of the first run, or any up to 50 cells if it used a quartile). If there was any event, the second run succeeds and returns the same preprocessed record and the identical ID_field; if there was none, it raises an error.", "quantifier": "every successful run on every mesh, every R_fill, T_fill and area criterion of the first run, every overlap threshold, partition method and division into time chunks", "why_tests_cant": "filter, labelling and tracking all run a second time on data they produced; all outputs matter", "anchors": ["marEx/track.py:run", "marEx/track.py:filter_small_objects", "marEx/track.py:identify_objects", "marEx/track.py:run_tracking"]}
{"id": "C211", "title": "On a structured grid, the events of a run can be found again from its ID_field", "statement": "On a structured grid, mark the cells that belong to an event (ID_field > 0), and run the tracker on that record with the same settings but with R_fill = 0, T_fill = 0 and an area threshold of one cell. The second run returns the same preprocessed record and the same events.", "quantifier": "every successful run on every grid, global or regional, every R_fill, T_fill and area criterion of the first run, both values of allow_merging, every overlap threshold, partition method and chunking", "why_tests_cant": "filter, labelling and tracking all run a second time on data they produced; all outputs matter", "anchors": ["marEx/track.py:run", "marEx/track.py:filter_small_objects", "marEx/track.py:identify_objects", "marEx/track.py:run_tracking"]}
{"id": "C212", "title": "Events with the same cells have the same row in the table", "statement": "If the event of a cell consists of the same cells at the same steps in two runs (of whatever lengths, options, chunks and numbers), then time_start, time_end, presence and area at every step are the same in both. In particular past events keep their rows when steps are added to the record, and events of objects that never meet the rest have the rows they would have alone.", "quantifier": "every two tracked records on every grid and mesh, of any lengths, every cell and step, every cell areas", "why_tests_cant": "the table is filled by ID, and IDs differ from run to run; all pairs of runs matter", "anchors": ["marEx/track.py:cluster_rename_objects_and_props", "marEx/track.py:run_tracking"]}
{"id": "C213", "title": "The centroid of an event is that of its cells", "statement": "At every step at which an event has cells both components of its centroid have a value, at the other steps both are NaN. On a structured grid whose latitudes run in one direction the latitude of the centroid lies between the least and the greatest latitude of its cells, and with equally spaced latitudes it is their area-weighted mean; on a regional grid the same holds of the longitude. The centroid depends on nothing but the cells: events with the same cells in two runs have the same centroids; the unit of the cell areas, the orientation of the map (on a global grid: for the latitude) and the numbering of the cells of a mesh do not matter.", "quantifier": "every tracked record on every grid and mesh, every event and step, every positive cell areas and coordinate values", "why_tests_cant": "pixel positions are averaged and then interpolated in the coordinates, for masks found by renumbered IDs; all shapes of events matter", "anchors": ["marEx/track.py:cluster_rename_objects_and_props", "marEx/track.py:calculate_area_centroid_for_slice"]}
{"id": "C214", "title": "Merges already reported stay reported when steps are added", "statement": "Two binary fields agree on their first M steps. With merging allowed on a structured grid, the merges that the two runs report at steps before M - T_fill are the same ones, in the same order: same merge_time, same n_parents and n_children, same overlap_areas, and parents and children on the same cells. An event that is over by then has the same merge_ledger in both: -1 at the same steps. This needs time chunks of at least two steps and the absolute area criterion.", "quantifier": "every two records on every structured grid that agree up to some step, every continuation, every two chunkings, overlap threshold and partition method", "why_tests_cant": "all continuations and chunkings of all records matter; IDs of later objects shift the IDs of the earlier ones", "anchors": ["marEx/track.py:split_and_merge_objects", "marEx/track.py:run_tracking"]}
{"id": "C215", "title": "The merge ledger speaks of an event only while it lives", "statement": "If the merge ledger of a run with allow_merging has an entry for an event at a step, the event has at the step before a cell that is still extreme at that step; so the step lies in the record, after time_start of the event and at most one step after its time_end, and nothing merges at the first step.", "quantifier": "every record on every structured grid, every event, step and sibling slot, all settings, every division into time chunks", "why_tests_cant": "merges are recorded under numbers of objects that later passes change, and events are numbered at the end: all records and chunkings matter", "anchors": ["marEx/track.py:track_objects", "marEx/track.py:split_and_merge_objects", "marEx/track.py:cluster_rename_objects_and_props", "marEx/track.py:run"]}
