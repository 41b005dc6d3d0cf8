# Formal model of marEx: design

## Approach

* The model is a set of small total Lean functions under `lean/Verif/Model/`, one file per area of the code, each
  definition citing the file and lines of `/repo` it mirrors.
* Specifications that do not mention the model (reachability, gaps, quantiles, ...) are in `lean/Verif/Spec/`.
* Helper lemmas are in `lean/Verif/Lemmas/`. Property theorems, one file per group of properties, are in
  `lean/Verif/Props/`; beside each stands an `example` that meets its hypotheses on a concrete, non-trivial case.
* Where the code does not have the property, the negation is proved of the model (name `..._fails`), universally
  quantified where the failure is general, on a concrete input otherwise; the part that does hold is proved under the
  suffix `_partial`, whose docstring says what is missing.
* Theorems are tested against wrong programs: edits of the model in a scratch copy, logged in `seeded/LOG.jsonl`.

## Representation

* A spatial field is a function on cells: `Fin n → α` (flattened grid or mesh), or `Int → Int → α` where the two
  directions matter (hole filling). A time series is a `List`.
* Real numbers are rationals (`ℚ`), or `ℝ` where trigonometry or square roots occur (mesh centroids, grid areas,
  detrending, the constant π). Floating-point rounding is modelled only in `Model/Float.lean` and `Model/FloatUse.lean` (C166–C169). Missing values (NaN) are `Option.none`.
* Exceptions are values (`Except` or an inductive type). Lazy evaluation (dask graphs, `persist`, `compute`) is the
  identity, except where chunk boundaries or write order are visible; there they are explicit (C19, C28, C29, C46, C59).
* Integer width: unbounded integers, except where a width is the point of the statement (C51, C85).
* Loops with a queue or an unbounded `while` are recursions with a measure, or with the code's own iteration limit.

## Plan and result per property

The theorems of each property are listed in `MANIFEST.json`; files are under `lean/Verif/Props/`.

| id | title | model | statement / proof | file | status |
|---|---|---|---|---|---|
| C01 | Time-gap filling fills exactly the gaps up to T_fill | `fill_time_gaps` as pad / dilate / erode / trim on a list of frames | equivalence with the specification of a bounded gap; closing laws | TimeGaps.lean | proved |
| C02 | Time-gap filling is a closing: extensive, monotone, idempotent | `fill_time_gaps` as pad / dilate / erode / trim on a list of frames | equivalence with the specification of a bounded gap; closing laws | TimeGaps.lean | proved |
| C03 | Unstructured dilation by R reaches exactly the cells within R neighbour hops | neighbour table → boolean adjacency, `sparse_bool_power` by repeated squaring | equals hop-bounded reachability, induction on the exponent | Mesh.lean | proved |
| C04 | Unstructured hole filling is an open-close filter | mesh `fill_holes` (open–close; land is set to True before each erosion) | adjunction of dilation and erosion on a symmetric relation; hop distance of invented cells | Mesh.lean | proved |
| C05 | Gridded hole filling gives the same answer wherever the map is cut | gridded `fill_holes`: pad by 2R, closing, opening, trim, mask | witnesses at the seam and the latitude edges; exact closing–opening of the plane away from them; mask and monotonicity laws | FillHoles.lean | partial |
| C06 | Gridded hole filling never marks masked cells and is neutral for R_fill=0 | gridded `fill_holes`: pad by 2R, closing, opening, trim, mask | witnesses at the seam and the latitude edges; exact closing–opening of the plane away from them; mask and monotonicity laws | FillHoles.lean | proved |
| C07 | The area filter keeps exactly the objects at or above the threshold (gridded) | `filter_small_objects` on label fields, areas, thresholds by percentile; statistics | iff-characterisation of the kept cells and counts; universal negation for the first object | Filter.lean | partial |
| C08 | The area filter keeps exactly the objects above the threshold (unstructured) | `filter_small_objects` on label fields, areas, thresholds by percentile; statistics | iff-characterisation of the kept cells and counts; universal negation for the first object | Filter.lean | proved |
| C09 | Area-filter parameters resolve to exactly one criterion | argument resolution and the whole constructor as `Except`, with the caller's array after the call | accepted iff the documented conditions hold; state after acceptance; aliasing | Filter.lean | proved |
| C10 | Objects on a mesh are the connected components of the extreme cells | component labelling as a parameter with a contract; graph of the grid with wrapped columns | same label iff reachable | Components.lean | proved |
| C11 | Object IDs never repeat across time steps | cumulative shift of label fields; `calculate_object_properties` | injectivity across time by induction; table rows ↔ objects of the field | Components.lean | proved |
| C12 | The overlap list is exact | pair encoding, `np.unique` counts, threshold filter | exact shared areas; iff; monotone; symmetric | Overlap.lean | proved |
| C13 | Two objects are linked iff their overlap is at least overlap_threshold of the smaller one | pair encoding, `np.unique` counts, threshold filter | exact shared areas; iff; monotone; symmetric | Events.lean, Overlap.lean | proved |
| C14 | Consolidating split objects loses no cell and no area | `consolidate_object_ids`, serial split/merge loop as a state machine over steps and a queue of merging children | freshness, support and record invariants by induction over the queue and the steps | SplitMerge.lean | proved |
| C15 | Partitioning a merged object only relabels that object | the four partition functions as called | range; argmin over a specification of distance; hop-count bounds by invariants of the front loop; witnesses | Partition.lean | proved |
| C16 | Centroid partition assigns each cell to its nearest parent centroid (grids) | the four partition functions as called | range; argmin over a specification of distance; hop-count bounds by invariants of the front loop; witnesses | Partition.lean | proved |
| C17 | Nearest-neighbour partition assigns each cell to the parent with the closest cell | the four partition functions as called | range; argmin over a specification of distance; hop-count bounds by invariants of the front loop; witnesses | Partition.lean | partial |
| C18 | The wrapped distance is the distance to the nearest periodic image | wrapped distances | minimum over all periodic images | Partition.lean | proved |
| C19 | Split/merge tracking does not depend on the time chunking | the chunk-parallel algorithm: table sizes, ID allocation, iterations | chunk invariance / dependence; injectivity; outcome characterised as iff; universal negations beyond the table sizes | SplitMerge.lean | partial |
| C20 | Object IDs created during split/merge are fresh | `consolidate_object_ids`, serial split/merge loop as a state machine over steps and a queue of merging children | freshness, support and record invariants by induction over the queue and the steps | SplitMerge.lean | proved |
| C21 | Tracking preserves the extreme-cell support | `consolidate_object_ids`, serial split/merge loop as a state machine over steps and a queue of merging children | freshness, support and record invariants by induction over the queue and the steps | Parallel.lean, Rename.lean, SplitMerge.lean | proved |
| C22 | Events are exactly the overlap-connected groups of objects | `cluster_rename_objects_and_props` | components, contiguity, presence, areas, ledger entries | Events.lean, Rename.lean | proved |
| C23 | presence, time_start and time_end agree with ID_field | `cluster_rename_objects_and_props` | components, contiguity, presence, areas, ledger entries | Rename.lean | proved |
| C24 | Event areas partition the labelled area | `cluster_rename_objects_and_props` | components, contiguity, presence, areas, ledger entries | Rename.lean | proved |
| C25 | Centroids of objects crossing the seam are periodic | centroid formulas, grid (ℚ) and mesh (ℝ) | range, rotation | Centroid.lean | partial |
| C26 | merge_ledger lists the siblings of a merging event | `cluster_rename_objects_and_props` | components, contiguity, presence, areas, ledger entries | Rename.lean | partial |
| C27 | Merge records are well formed (grids) | `consolidate_object_ids`, serial split/merge loop as a state machine over steps and a queue of merging children | freshness, support and record invariants by induction over the queue and the steps | SplitMerge.lean | proved |
| C28 | IDs allocated by parallel chunks never collide | the chunk-parallel algorithm: table sizes, ID allocation, iterations | chunk invariance / dependence; injectivity; outcome characterised as iff; universal negations beyond the table sizes | Parallel.lean | partial |
| C29 | A loaded preprocessing checkpoint equals the saved one | save/load as a sequence of store operations with a crash point, histories of runs | induction over histories, case analysis over every prefix | Checkpoint.lean | proved |
| C30 | Tracker input validation accepts exactly the supported configurations | argument resolution and the whole constructor as `Except`, with the caller's array after the call | accepted iff the documented conditions hold; state after acceptance; aliasing | Tracker.lean | proved |
| C31 | Coordinate units are detected, and centroids follow the convention of the input | unit detection, remapping, `np.pi` as the double it is | decision logic; ranges | Tracker.lean | partial |
| C32 | Shifting baseline uses exactly the previous W years | baseline and anomaly formulas over ℚ with missing values | exact characterisations as means over sets of samples | Climatology.lean | proved |
| C33 | Shifting baseline with smoothing uses no data of the target year | baseline and anomaly formulas over ℚ with missing values | exact characterisations as means over sets of samples | Climatology.lean | partial |
| C34 | Shifting baseline output covers exactly the years with a full history | baseline and anomaly formulas over ℚ with missing values | exact characterisations as means over sets of samples | AnomalyMethods.lean, Climatology.lean | proved |
| C35 | Fixed baseline anomalies have zero mean on every day of year | baseline and anomaly formulas over ℚ with missing values | exact characterisations as means over sets of samples | Climatology.lean | proved |
| C36 | Detrended anomalies are unchanged by adding any fitted component | design matrix, pseudo-inverse by the Penrose equations, decimal years | least-squares geometry (orthogonality of residuals) | Detrend.lean | proved |
| C37 | An extreme is an anomaly at or above its own threshold | histograms, windowed sums, interpolation, exact quantiles, `identify_extremes` end to end | order arguments on ranks; `IsQuantile`; windows by modular arithmetic | Threshold.lean | proved |
| C38 | Day-of-year histogram thresholds are monotone in the percentile and bounded by the bins | histograms, windowed sums, interpolation, exact quantiles, `identify_extremes` end to end | order arguments on ranks; `IsQuantile`; windows by modular arithmetic | Threshold.lean | proved |
| C39 | Histogram thresholds are within one bin of the exact quantile | histograms, windowed sums, interpolation, exact quantiles, `identify_extremes` end to end | order arguments on ranks; `IsQuantile`; windows by modular arithmetic | Threshold.lean | partial |
| C40 | Day-of-year windows are circular and centred | histograms, windowed sums, interpolation, exact quantiles, `identify_extremes` end to end | order arguments on ranks; `IsQuantile`; windows by modular arithmetic | Threshold.lean | proved |
| C41 | Days of zero anomaly are not extreme under the approximate method | histograms, windowed sums, interpolation, exact quantiles, `identify_extremes` end to end | order arguments on ranks; `IsQuantile`; windows by modular arithmetic | Threshold.lean | proved |
| C42 | Decimal years lie in their year | design matrix, pseudo-inverse by the Penrose equations, decimal years | least-squares geometry (orthogonality of residuals) | Detrend.lean | proved |
| C43 | Data validation accepts exactly time-constant masks | argument handling and `preprocess_data` composition | iff-characterisations of acceptance; effect of every default | Preprocess.lean | proved |
| C44 | Dimension and coordinate defaults | argument handling and `preprocess_data` composition | iff-characterisations of acceptance; effect of every default | Preprocess.lean | proved |
| C45 | identify_extremes accepts exactly the documented parameter combinations | argument handling and `preprocess_data` composition | iff-characterisations of acceptance; effect of every default | Preprocess.lean | proved |
| C46 | Repaired chunks cover the dimension | helper, dependency, logging, exception modules | decision logic; induction over histories of calls | Support.lean | proved |
| C47 | Dependency checks report what is installed | helper, dependency, logging, exception modules | decision logic; induction over histories of calls | OtherLoggers.lean, Support.lean | partial |
| C48 | Quiet wins over verbose, and the last logging call wins | helper, dependency, logging, exception modules | decision logic; induction over histories of calls | Support.lean | partial |
| C49 | Wrapping an exception keeps its class mapping and cause | helper, dependency, logging, exception modules | decision logic; induction over histories of calls | Support.lean | proved |
| C50 | start_local_cluster never starts more workers than the machine has threads | helper, dependency, logging, exception modules | decision logic; induction over histories of calls | Support.lean | partial |
| C51 | Every object ID maps to the time step where it lives | the chunk-parallel algorithm: table sizes, ID allocation, iterations | chunk invariance / dependence; injectivity; outcome characterised as iff; universal negations beyond the table sizes | Parallel.lean | proved |
| C52 | Plot colour limits and grid selection | the computing parts of plotX | closed forms over ℚ; histories of cache operations | Plot.lean | proved |
| C53 | Filling on a mesh invents no extremes | mesh `fill_holes` (open–close; land is set to True before each erosion) | adjunction of dilation and erosion on a symmetric relation; hop distance of invented cells | Mesh.lean | partial |
| C54 | Regional hole filling does not join the northern and southern edges of the map | gridded `fill_holes`: pad by 2R, closing, opening, trim, mask | witnesses at the seam and the latitude edges; exact closing–opening of the plane away from them; mask and monotonicity laws | FillHoles.lean | proved |
| C55 | Constructing a tracker leaves the caller's data unchanged | argument resolution and the whole constructor as `Except`, with the caller's array after the call | accepted iff the documented conditions hold; state after acceptance; aliasing | Tracker.lean | partial |
| C56 | On a mesh the nearest-neighbour partition follows the fewest hops | the four partition functions as called | range; argmin over a specification of distance; hop-count bounds by invariants of the front loop; witnesses | Partition.lean | partial |
| C57 | The object table describes the tracked field exactly | cumulative shift of label fields; `calculate_object_properties` | injectivity across time by induction; table rows ↔ objects of the field | SplitMerge.lean | proved |
| C58 | Mesh centroids lie on the globe and move with the object | centroid formulas, grid (ℚ) and mesh (ℝ) | range, rotation | MeshCentroid.lean | proved |
| C59 | Tracking on a mesh does not depend on the time chunk length | the chunk-parallel algorithm: table sizes, ID allocation, iterations | chunk invariance / dependence; injectivity; outcome characterised as iff; universal negations beyond the table sizes | Parallel.lean | partial |
| C60 | Tracking on a mesh returns only converged results | the chunk-parallel algorithm: table sizes, ID allocation, iterations | chunk invariance / dependence; injectivity; outcome characterised as iff; universal negations beyond the table sizes | Parallel.lean | proved |
| C61 | Checkpoint modes are selected as documented | save/load as a sequence of store operations with a crash point, histories of runs | induction over histories, case analysis over every prefix | Checkpoint.lean | proved |
| C62 | The reported preprocessing statistics describe the filter | `filter_small_objects` on label fields, areas, thresholds by percentile; statistics | iff-characterisation of the kept cells and counts; universal negation for the first object | Checkpoint.lean | proved |
| C63 | Objects on a structured grid are the touching clusters of one step | component labelling as a parameter with a contract; graph of the grid with wrapped columns | same label iff reachable | Pipeline.lean | proved |
| C64 | With allow_merging=False events are the space-time clusters (grids) | component labelling as a parameter with a contract; graph of the grid with wrapped columns | same label iff reachable | Pipeline.lean | proved |
| C65 | A whole run labels exactly the preprocessed extremes and never labels land | the whole run composed | composition of the above | Pipeline.lean | proved |
| C66 | Areas derived from grid_resolution are the areas of the cells | cell areas over ℝ | trigonometric identities, telescoping sum | GridArea.lean | partial |
| C67 | Detrending orders are checked before any data are used | design matrix, pseudo-inverse by the Penrose equations, decimal years | least-squares geometry (orthogonality of residuals) | Detrend.lean | proved |
| C68 | Standardisation uses the thirty days around each day of year | `Standardise`: daily standard deviations, wrapped rolling window, division by day of year | the window of each day computed by index arithmetic modulo 366; with fewer days the label of the first entry occurs again behind the last one | Detrend.lean, Standardise.lean | proved |
| C69 | Raising anomalies never lowers a threshold | histograms, windowed sums, interpolation, exact quantiles, `identify_extremes` end to end | order arguments on ranks; `IsQuantile`; windows by modular arithmetic | Threshold.lean | partial |
| C70 | Spatial pooling uses the cells around a cell and no others (global data) | histograms, windowed sums, interpolation, exact quantiles, `identify_extremes` end to end | order arguments on ranks; `IsQuantile`; windows by modular arithmetic | Threshold.lean | proved |
| C71 | Cells with constant anomaly are never extreme | histograms, windowed sums, interpolation, exact quantiles, `identify_extremes` end to end | order arguments on ranks; `IsQuantile`; windows by modular arithmetic | Threshold.lean | partial |
| C72 | A missing anomaly removes only itself | histograms, windowed sums, interpolation, exact quantiles, `identify_extremes` end to end | order arguments on ranks; `IsQuantile`; windows by modular arithmetic | Threshold.lean | partial |
| C73 | The recorded processing steps describe the processing | argument handling and `preprocess_data` composition | iff-characterisations of acceptance; effect of every default | Preprocess.lean, Steps.lean | partial |
| C74 | Extremes occur only at ocean cells | argument handling and `preprocess_data` composition | iff-characterisations of acceptance; effect of every default | Preprocess.lean | partial |
| C75 | The percentile must be a percentile | argument handling and `preprocess_data` composition | iff-characterisations of acceptance; effect of every default | Preprocess.lean | partial |
| C76 | Every retained step of a complete record has a shifting-baseline anomaly | baseline and anomaly formulas over ℚ with missing values | exact characterisations as means over sets of samples | Preprocess.lean | partial |
| C77 | An unset logging switch keeps the mode in force | helper, dependency, logging, exception modules | decision logic; induction over histories of calls | Support.lean | partial |
| C78 | An exception's text shows all that is known about it | helper, dependency, logging, exception modules | decision logic; induction over histories of calls | Support.lean | proved |
| C79 | Building an exception leaves the caller's objects alone | helper, dependency, logging, exception modules | decision logic; induction over histories of calls | Support.lean | partial |
| C80 | Gridded plots close the globe exactly when the data go around it | the computing parts of plotX | closed forms over ℚ; histories of cache operations | Plot.lean | partial |
| C81 | A multi-panel plot shows every step once | the computing parts of plotX | closed forms over ℚ; histories of cache operations | Plot.lean | partial |
| C82 | Every tracked object has its own colour in an ID plot | the computing parts of plotX | closed forms over ℚ; histories of cache operations | Plot.lean | partial |
| C83 | Plots use the grid file as it is now | the computing parts of plotX | closed forms over ℚ; histories of cache operations | Plot.lean | partial |
| C84 | Automatic colour limits are the percentiles of the plotted data | the computing parts of plotX | closed forms over ℚ; histories of cache operations | Plot.lean | partial |
| C85 | A merge on a mesh is resolved completely, whatever its size | the chunk-parallel algorithm: table sizes, ID allocation, iterations | chunk invariance / dependence; injectivity; outcome characterised as iff; universal negations beyond the table sizes | MeshMerge.lean | partial |
| C86 | An extreme is a step at or above the requested percentile | histograms, windowed sums, interpolation, exact quantiles, `identify_extremes` end to end | order arguments on ranks; `IsQuantile`; windows by modular arithmetic | Extremes.lean | proved |
| C87 | Gridded hole filling is a closing and an opening by a disc | gridded `fill_holes`: pad by 2R, closing, opening, trim, mask | witnesses at the seam and the latitude edges; exact closing–opening of the plane away from them; mask and monotonicity laws | Morphology.lean | partial |
| C88 | Detrending before a fixed baseline removes a trend and a cycle | `dayMean` of the residual of the least-squares fit, over ℝ | sums over days of year; invariance by linearity; universal negations by witnesses | DetrendFixed.lean | proved |
| C89 | The ocean mask marks the locations with a complete series | `preprocess_data` from the method names; the detrending itself a parameter | iff; dispatch; lengths and dates | AnomalyMethods.lean | proved |
| C90 | Exactly four anomaly methods are accepted, each using only its own parameters | `preprocess_data` from the method names; the detrending itself a parameter | iff; dispatch; lengths and dates | AnomalyMethods.lean | proved |
| C91 | The output covers the steps of the input | `preprocess_data` from the method names; the detrending itself a parameter | iff; dispatch; lengths and dates | AnomalyMethods.lean | proved |
| C92 | A run reports the number of its events | event count and coordinate, attributes as a dictionary, merge rows padded to a common width, 8-bit counts as a parameter | count = cardinality of the set of IDs; dictionary laws; rows read back; universal negations | RunStats.lean | proved |
| C93 | The merge dataset holds every merge | event count and coordinate, attributes as a dictionary, merge rows padded to a common width, 8-bit counts as a parameter | count = cardinality of the set of IDs; dictionary laws; rows read back; universal negations | RunStats.lean | partial |
| C94 | Dask settings: the user's choice over the package's defaults over what was there | dask configuration as a map from setting names to values, the cluster functions as state transformers over configuration, verbosity and running clusters; time limits, links and ports as lists of characters | lookup laws for updates; digits read back; induction over the text for the leftmost match; universal negations | Cluster.lean | proved |
| C95 | A distributed cluster is requested with the resources asked for | dask configuration as a map from setting names to values, the cluster functions as state transformers over configuration, verbosity and running clusters; time limits, links and ports as lists of characters | lookup laws for updates; digits read back; induction over the text for the leftmost match; universal negations | Cluster.lean | proved |
| C96 | The reported connection is that of the dashboard | dask configuration as a map from setting names to values, the cluster functions as state transformers over configuration, verbosity and running clusters; time limits, links and ports as lists of characters | lookup laws for updates; digits read back; induction over the text for the leftmost match; universal negations | Cluster.lean | proved |
| C97 | Logging does not change what is computed | a computation as value or exception with the lines logged; handlers as a list rebuilt by every configuring call | case analysis; floor arithmetic for the percentage; induction over the history of calls | LogUse.lean, OtherLoggers.lean | partial |
| C98 | Each message is written once, where the last configuration says | a computation as value or exception with the lines logged; handlers as a list rebuilt by every configuring call | case analysis; floor arithmetic for the percentage; induction over the history of calls | LogUse.lean | proved |
| C99 | Events have no gaps in time (grids) | the composed tracking; events as chains of overlapping objects of the final field | induction over the chain: consecutive objects are one step apart | Events.lean | proved |
| C100 | Plotters accept exactly the data their names fit | the plotting front end (names, configuration, colour scale, single plots, panels) as functions to what is handed to pcolormesh | case analysis; induction over the panels | Movie.lean | proved |
| C101 | A movie shows every step once, in order | animate with frames made in any order, files as an association list, ffmpeg as a reader of numbered files | injectivity of the padded names, induction over the frames | Movie.lean | proved |
| C102 | Movies show what plots show | frames and markers; the state of a plotter and of the random generator | comparison of the two drawing paths; membership; negations for all inputs | Movie.lean | partial |
| C103 | One colour scale for all panels and frames | the plotting front end (names, configuration, colour scale, single plots, panels) as functions to what is handed to pcolormesh | case analysis; induction over the panels | Movie.lean | proved |
| C104 | Markers sit on the objects of the frame (movies of the objects) | frames and markers; the state of a plotter and of the random generator | comparison of the two drawing paths; membership; negations for all inputs | Movie.lean | proved |
| C105 | Plots of values leave the data and the process as they were | frames and markers; the state of a plotter and of the random generator | comparison of the two drawing paths; membership; negations for all inputs | Movie.lean | proved |
| C106 | Starting a cluster keeps the user's dask settings | dask configuration as a map from setting names to values, the cluster functions as state transformers over configuration, verbosity and running clusters; time limits, links and ports as lists of characters | lookup laws for updates; digits read back; induction over the text for the leftmost match; universal negations | Cluster.lean | partial |
| C107 | start_distributed_cluster reports what it does | dask configuration as a map from setting names to values, the cluster functions as state transformers over configuration, verbosity and running clusters; time limits, links and ports as lists of characters | lookup laws for updates; digits read back; induction over the text for the leftmost match; universal negations | Cluster.lean | partial |
| C108 | A cluster start that raises leaves no cluster running | dask configuration as a map from setting names to values, the cluster functions as state transformers over configuration, verbosity and running clusters; time limits, links and ports as lists of characters | lookup laws for updates; digits read back; induction over the text for the leftmost match; universal negations | Cluster.lean | partial |
| C109 | A log file stays in use | a computation as value or exception with the lines logged; handlers as a list rebuilt by every configuring call | case analysis; floor arithmetic for the percentage; induction over the history of calls | LogUse.lean | partial |
| C110 | Events have no gaps in time (meshes) | the composed tracking; events as chains of overlapping objects of the final field | induction over the chain: consecutive objects are one step apart | Events.lean | partial |
| C111 | On a mesh events are exactly the overlap-connected groups of objects | `cluster_rename_objects_and_props` | components, contiguity, presence, areas, ledger entries | Events.lean | partial |
| C112 | Merge records are well formed (meshes) | `consolidate_object_ids`, serial split/merge loop as a state machine over steps and a queue of merging children | freshness, support and record invariants by induction over the queue and the steps | MeshMerge.lean, Parallel.lean | partial |
| C113 | Centroid partition works on meshes | the four partition functions as called | range; argmin over a specification of distance; hop-count bounds by invariants of the front loop; witnesses | Partition.lean | partial |
| C114 | allow_merging=False has an effect on meshes | component labelling as a parameter with a contract; graph of the grid with wrapped columns | same label iff reachable | Pipeline.lean | partial |
| C115 | Spatial pooling stays within a regional domain | histograms, windowed sums, interpolation, exact quantiles, `identify_extremes` end to end | order arguments on ranks; `IsQuantile`; windows by modular arithmetic | Threshold.lean | partial |
| C116 | An approximate extreme is a step at or above the percentile to within the precision | histograms, windowed sums, interpolation, exact quantiles, `identify_extremes` end to end | order arguments on ranks; `IsQuantile`; windows by modular arithmetic | Extremes.lean | partial |
| C117 | The constant histogram threshold is monotone in the percentile and bounded | histograms, windowed sums, interpolation, exact quantiles, `identify_extremes` end to end | order arguments on ranks; `IsQuantile`; windows by modular arithmetic | Threshold.lean | partial |
| C118 | What a plotter accepts, its panels and the shortcuts accept | the plotting front end (names, configuration, colour scale, single plots, panels) as functions to what is handed to pcolormesh | case analysis; induction over the panels | Movie.lean | partial |
| C119 | ID plots accept the colour maps of PlotConfig | the plotting front end (names, configuration, colour scale, single plots, panels) as functions to what is handed to pcolormesh | case analysis; induction over the panels | Movie.lean | partial |
| C120 | A run reports its own settings and results | event count and coordinate, attributes as a dictionary, merge rows padded to a common width, 8-bit counts as a parameter | count = cardinality of the set of IDs; dictionary laws; rows read back; universal negations | RunStats.lean | partial |
| C121 | A tracker can be run again | save/load as a sequence of store operations with a crash point, histories of runs | induction over histories, case analysis over every prefix | Checkpoint.lean | partial |
| C122 | A negative gap length is rejected | argument resolution and the whole constructor as `Except`, with the caller's array after the call | accepted iff the documented conditions hold; state after acceptance; aliasing | Tracker.lean | partial |
| C123 | Unfit names give a validation error | argument handling and `preprocess_data` composition | iff-characterisations of acceptance; effect of every default | Preprocess.lean | partial |
| C124 | The accepted fraction is that of the kept objects, and an empty result is reported as such | `filter_small_objects` on label fields, areas, thresholds by percentile; statistics | iff-characterisation of the kept cells and counts; universal negation for the first object | AreaStats.lean, Checkpoint.lean | partial |
| C125 | A window of one day works | histograms, windowed sums, interpolation, exact quantiles, `identify_extremes` end to end | order arguments on ranks; `IsQuantile`; windows by modular arithmetic | Threshold.lean | partial |
| C126 | A baseline needs W years of record | baseline and anomaly formulas over ℚ with missing values | exact characterisations as means over sets of samples | Climatology.lean | partial |
| C127 | The reported number of objects is that of the kept objects (unstructured) | `filter_small_objects` on label fields, areas, thresholds by percentile; statistics | iff-characterisation of the kept cells and counts; universal negation for the first object | Filter.lean | partial |
| C128 | Non-convergence is reported only if objects are left | the chunk-parallel algorithm: table sizes, ID allocation, iterations | chunk invariance / dependence; injectivity; outcome characterised as iff; universal negations beyond the table sizes | Parallel.lean | partial |
| C129 | Standardisation works on every record | `Standardise`: daily standard deviations, wrapped rolling window, division by day of year | the window of each day computed by index arithmetic modulo 366; with fewer days the label of the first entry occurs again behind the last one | Detrend.lean, Standardise.lean | partial |
| C130 | After consolidation a parent has one child ID | `consolidate_object_ids`, serial split/merge loop as a state machine over steps and a queue of merging children | freshness, support and record invariants by induction over the queue and the steps | SplitMerge.lean | partial |
| C131 | A checkpoint is complete or absent | save/load as a sequence of store operations with a crash point, histories of runs | induction over histories, case analysis over every prefix | Checkpoint.lean | partial |
| C132 | Global hole filling does not join the poles | gridded `fill_holes`: pad by 2R, closing, opening, trim, mask | witnesses at the seam and the latitude edges; exact closing–opening of the plane away from them; mask and monotonicity laws | FillHoles.lean | partial |
| C133 | Automatic colour limits are in order | the computing parts of plotX | closed forms over ℚ; histories of cache operations | Plot.lean | partial |
| C134 | The ID-to-time table can be built for every record | the chunk-parallel algorithm: table sizes, ID allocation, iterations | chunk invariance / dependence; injectivity; outcome characterised as iff; universal negations beyond the table sizes | Parallel.lean | partial |
| C135 | Movies have the name asked for and leave no temporary files | animate with frames made in any order, files as an association list, ffmpeg as a reader of numbered files | injectivity of the padded names, induction over the frames | Movie.lean | partial |
| C136 | Plots of IDs leave the data and the process as they were | frames and markers; the state of a plotter and of the random generator | comparison of the two drawing paths; membership; negations for all inputs | Movie.lean | partial |
| C137 | Markers sit on the objects, whatever is shown | frames and markers; the state of a plotter and of the random generator | comparison of the two drawing paths; membership; negations for all inputs | Movie.lean | partial |
| C138 | Decimal years are strictly increasing | design matrix, pseudo-inverse by the Penrose equations, decimal years | least-squares geometry (orthogonality of residuals) | Detrend.lean | partial |
| C139 | Checkpointing to disk never changes the data | helper, dependency, logging, exception modules | decision logic; induction over histories of calls | Support.lean | partial |
| C140 | Detrending before a fixed baseline leaves no trend and no cycle | `dayMean` of the residual of the least-squares fit, over ℝ | sums over days of year; invariance by linearity; universal negations by witnesses | DetrendFixed.lean | partial |
| C141 | A record too short to leave any output is rejected | baseline and anomaly formulas over ℚ with missing values | exact characterisations as means over sets of samples | Climatology.lean | partial |
| C142 | What is added to an exception shows in its text | helper, dependency, logging, exception modules | decision logic; induction over histories of calls | Support.lean | partial |
| C143 | The final re-mapping gives fresh contiguous IDs | the chunk-parallel algorithm: table sizes, ID allocation, iterations | chunk invariance / dependence; injectivity; outcome characterised as iff; universal negations beyond the table sizes | Parallel.lean | proved |
| C144 | One hole filling on a mesh invents no extremes | mesh `fill_holes` (open–close; land is set to True before each erosion) | adjunction of dilation and erosion on a symmetric relation; hop distance of invented cells | Mesh.lean | proved |
| C145 | The area threshold and the counts of the area filter (gridded) | `filter_small_objects` on label fields, areas, thresholds by percentile; statistics | iff-characterisation of the kept cells and counts; universal negation for the first object | Filter.lean | proved |
| C146 | Centroids lie in the grid | centroid formulas, grid (ℚ) and mesh (ℝ) | range, rotation | Centroid.lean | proved |
| C147 | Given units are used, and the original coordinates kept | unit detection, remapping, `np.pi` as the double it is | decision logic; ranges | Tracker.lean | proved |
| C148 | The returned client is that of the one cluster started | helper, dependency, logging, exception modules | decision logic; induction over histories of calls | Cluster.lean | proved |
| C149 | What is logged is bounded, and quiet is quiet | a computation as value or exception with the lines logged; handlers as a list rebuilt by every configuring call | case analysis; floor arithmetic for the percentage; induction over the history of calls | LogUse.lean | proved |
| C150 | Progress is logged every frequency percent | a computation as value or exception with the lines logged; handlers as a list rebuilt by every configuring call | case analysis; floor arithmetic for the percentage; induction over the history of calls | LogUse.lean | partial |
| C151 | Maps of a mesh show the nearest cells | frames and markers; the state of a plotter and of the random generator | comparison of the two drawing paths; membership; negations for all inputs | Movie.lean | proved |
| C152 | The temporary store on disk does not change the result | temporary store: order of chunk tasks, retries, left-over and shared stores | store machine = in-memory loop for every schedule; negations for all records | TempStore.lean | proved |
| C153 | Losing a worker does not change the result on a mesh | temporary store: order of chunk tasks, retries, left-over and shared stores | store machine = in-memory loop for every schedule; negations for all records | TempStore.lean | partial |
| C154 | Two trackers can work in the same temporary directory | temporary store: order of chunk tasks, retries, left-over and shared stores | store machine = in-memory loop for every schedule; negations for all records | TempStore.lean | partial |
| C155 | A neighbour table held in memory is accepted | neighbour table, areas and record length of a mesh tracker | case analysis of the constructor and of the run; negations for all configurations | Tracker.lean | partial |
| C156 | What the constructor accepts, run() can lay out | neighbour table, areas and record length of a mesh tracker | case analysis of the constructor and of the run; negations for all configurations | Tracker.lean | partial |
| C157 | Mesh records of any length are tracked | neighbour table, areas and record length of a mesh tracker | case analysis of the constructor and of the run; negations for all configurations | Pipeline.lean | partial |
| C158 | Events carry the caller's time coordinate | names of the time coordinate; form of the result; scheduler logger of the process | case analysis; induction on the history of trackers; negations for all configurations | TimeNames.lean | partial |
| C159 | Merges are returned when asked for | names of the time coordinate; form of the result; scheduler logger of the process | case analysis; induction on the history of trackers; negations for all configurations | TimeNames.lean | partial |
| C160 | The debug level decides which scheduler messages are hidden | names of the time coordinate; form of the result; scheduler logger of the process | case analysis; induction on the history of trackers; negations for all configurations | TimeNames.lean | partial |
| C161 | The unit of the cell areas does not matter | `Parallel`, `Pipeline`, `MeshCentroid` | the run with all areas times `k` is computed step by step from the run with the original areas: fractions are equal, areas are multiplied; so the labelled field and the errors are equal | Scale.lean | proved |
| C162 | The zero point of the data does not matter | `Climatology`, `Preprocess`, `Threshold`, `Detrend` | every stage commutes with `x ↦ a x + b`: means and residuals do, sorting and interpolation do for `a > 0`; for approximate percentiles all extremes disappear in a coarse unit because thresholds are at least the precision | Units.lean | proved |
| C163 | The unit of the data does not matter | `Climatology`, `Preprocess`, `Threshold`, `Detrend` | every stage commutes with `x ↦ a x + b`: means and residuals do, sorting and interpolation do for `a > 0`; for approximate percentiles all extremes disappear in a coarse unit because thresholds are at least the precision | Units.lean | partial |
| C164 | Events do not depend on where the map is cut | `Pipeline` | turning the map and reversing the time are isomorphisms of the graph whose components are the objects (C63) and the unmerged events (C64) | BeforeMerge.lean, NoMerge.lean, Symmetry.lean | partial |
| C165 | Without merging, events have no direction in time | `Pipeline` | turning the map and reversing the time are isomorphisms of the graph whose components are the objects (C63) and the unmerged events (C64) | Symmetry.lean | proved |
| C166 | Links on a grid are decided exactly, rounding or not | `Float`, `FloatUse`: rounding to `p` bits, sums, quotients and percentile positions as the code rounds them | the model of rounding is shown to be rounding to the nearest, ties to even (`Spec.RoundsTo`); rounded decisions compared with exact ones, error bounds by induction on the number of cells, sublist monotonicity of rounded sums | Float.lean | proved |
| C167 | Object areas on a mesh are the sums of the cell areas, up to rounding | `Float`, `FloatUse`: rounding to `p` bits, sums, quotients and percentile positions as the code rounds them | the model of rounding is shown to be rounding to the nearest, ties to even (`Spec.RoundsTo`); rounded decisions compared with exact ones, error bounds by induction on the number of cells, sublist monotonicity of rounded sums | Float.lean | partial |
| C168 | Rounding does not move a threshold to another bin | `Float`, `FloatUse`: rounding to `p` bits, sums, quotients and percentile positions as the code rounds them | the model of rounding is shown to be rounding to the nearest, ties to even (`Spec.RoundsTo`); rounded decisions compared with exact ones, error bounds by induction on the number of cells, sublist monotonicity of rounded sums | Float.lean | partial |
| C169 | Links on a mesh do not hinge on rounding | `Float`, `FloatUse`: rounding to `p` bits, sums, quotients and percentile positions as the code rounds them | the model of rounding is shown to be rounding to the nearest, ties to even (`Spec.RoundsTo`); rounded decisions compared with exact ones, error bounds by induction on the number of cells, sublist monotonicity of rounded sums | Float.lean | proved |
| C170 | Tracking neither adds nor drops time coordinates | `TimeNames`: coordinates along time through the renaming and the restoring | case split on the accepted names and the merging setting; failures for every record with a separate time dimension or coordinate | TimeNames.lean | partial |
| C171 | From raw data to events: a cell belongs to an event iff its anomaly reaches its own threshold and its cluster is large enough | `Workflow`: the composed calls `preprocess_data` → `tracker(ds.extreme_events, ds.mask).run()` on grids and meshes | composition of the detection theorems (C86 …) with C65; clusters by chains of touching hot cells; the lost first cluster (C07) is carried as an explicit exception and proved to occur in every run | Workflow.lean | partial |
| C172 | Every event cell lies near extremes in space and time | `Workflow`: the composed calls `preprocess_data` → `tracker(ds.extreme_events, ds.mask).run()` on grids and meshes | composition of the detection theorems (C86 …) with C65; clusters by chains of touching hot cells; the lost first cluster (C07) is carried as an explicit exception and proved to occur in every run | Workflow.lean | proved |
| C173 | Names that pass the check do not fail later | `NameUse`: the keys read after `_infer_dims_coords` by each method and at the end; the final chunk dictionary | case split on which keys are named; exact characterisation and failures for all accepted names without y, and for all spatial chunk requests | NameUse.lean | partial |
| C174 | Exact constant percentiles are available for every data set | `meshChunk`, `layoutFails` in `identifyExtremes` | square root bound: the chunk length is 0 exactly below 4445 cells | NameUse.lean, Workflow.lean | partial |
| C175 | dask_chunks decides the chunks of the output | `NameUse`: the keys read after `_infer_dims_coords` by each method and at the end; the final chunk dictionary | case split on which keys are named; exact characterisation and failures for all accepted names without y, and for all spatial chunk requests | NameUse.lean | partial |
| C176 | Thin samples are announced | `warnsFew`, `identifyWarns`: the sample estimate of `identify_extremes` | the estimate is compared with the length of the pool of samples that the threshold is computed from; the estimate counts pooled cells that the exact method does not pool | Samples.lean | partial |
| C177 | Following the installation advice installs what is missing | `installAdvice`, `extras` (pyproject.toml) | case split on the name; every list of two or more names | Steps.lean | partial |
| C178 | Events have the documented variables | `EventVars`: the columns of the object table and the variables collected from it | the list of variables is computed for every number of steps; one step is the exception | EventVars.lean | partial |
| C179 | Every precision gives the histogram of that precision | `binNumber16`, `histCounts16` | bin numbers stay below 65536 iff there are at most 65535 bins | Threshold.lean | partial |
| C180 | Thresholds computed in float32 are as accurate as exact ones | `edgeFl`, `digitizeFl`, `centreFl`, `rowThresholdFl`, `gridThresholdsFl` | error bounds for each rounded operation; float32 bins stay ordered; pooled counts as in the exact model | FloatBins.lean | partial |
| C181 | Standardisation adds outputs and changes none | `preprocessStn`: both calls of `identify_extremes` in their order | the result with standardisation is compared with the result without it; success of `identify_extremes` does not depend on the data | StnExtremes.lean | proved |
| C182 | The statistics of preprocessing are those of the record | `computeArea`, `gridStats`, `meshStats`: filter, object table and area sums of a whole record | cells counted object by object: the table of objects sums to the labelled cells; kept cells from the filter theorems | AreaStats.lean | partial |
| C183 | Raising the percentile never adds an extreme | `identifyExtremes`, `preprocess`: checks, all four ways to compute thresholds, comparison | percentiles and row quantiles are monotone; for the one-dimensional histogram quantile the only wrong order leaves no anomaly between the two thresholds | Percentiles.lean | proved |
| C184 | Marks outside the mask have no effect | `runGrid`, `runMesh`, `fillHolesGrid`, `fillHolesMesh`, `gridStats` on two records | without filling every stage reads the cells of the mask only; with filling, the characterisations of the closing show land marks spreading; the fraction counts them | OffMask.lean | partial |
| C185 | New data leave old anomalies as they are | `shiftingBaseline`, `preprocess` on a record and on its continuation | a baseline has samples of earlier years only, whose smoothing windows end inside the old record; the first year is the same | NewData.lean | proved |
| C186 | Orientation and numbering of the cells do not matter to preprocessing | `preprocess` on rearranged data: `validateData`, `anomalyCell`, `identifyExtremes` with `pooled` | rotations and reflections carry spatial windows to spatial windows (up to order, which sums ignore); all else acts on each cell | Orientation.lean | proved |
| C187 | More extremes, longer gaps or a smaller area threshold never lose an event cell | `runGrid`, `runMesh` on two records with two sets of arguments | hole filling, time closing and connected components are monotone, so clusters only grow; the area filter compares cluster sizes with one threshold; refuted where the code is not monotone: first object, quartile of the whole record, second hole filling with half the radius on grids | Monotone.lean | partial |
| C188 | A higher percentile never adds an event cell | `workflowGrid`, `workflowMesh` at two percentiles | C183 gives nested extremes, C187 nested events | Monotone.lean | partial |
| C189 | Data can be preprocessed in pieces | `preprocess` on the cells of a piece and on the whole | every cell is computed from its own record but for the pooled histograms; windows that stay in the piece pool the same cells; edges refuted | Pieces.lean | partial |
| C190 | Steps without extremes before and after a record do not matter | `runGrid`, `runMesh` on a record padded with empty steps | every stage commutes with padding (closing of gaps, labels, table, filter, links, split and merge over chunks) and so do presence, first and last steps and the ledger; one-step chunks refuted | EmptySteps.lean, EmptyTables.lean | partial |
| C191 | The numbering of the cells of a mesh does not matter to tracking | `runMesh` on two meshes that differ by a permutation of the cells | filling commutes with the permutation, labels give the same groups (C10), sizes are a permutation, links and chains are carried over (C22); merging ties refuted | Numbering.lean | partial |
| C192 | nn_partitioning matters only where objects merge | `runGrid`, `runMesh` with two ways to divide merged objects | the loops record a merge whenever they divide an object, so without records they never call the partition; with a merge refuted; events over before the first merge are those of the record cut off there (C206), which has no merge | BeforeMerge.lean, Choice.lean | partial |
| C193 | Lowering overlap_threshold never separates an event | `runGrid`, `runMesh` at two thresholds | the link relation is monotone in the threshold, so chains of links are kept (C22); refuted with merges (meshes) and with splits (grids) | Choice.lean | partial |
| C194 | Objects that merge stay separate events | `trackGrid` (`resolveMerges`, `consolidate`) | induction on the rounds: a step with fewer merges than rounds ends without an object of two parents; siblings united share a parent; induction over steps and chunks; refuted for steps that use up the ten rounds and for united siblings | Divided.lean | partial |
| C195 | Checkpointed data stay readable | `session` (`checkpointDir`, `readable`) | induction over the history: only the removal of its directory loses a checkpoint (iff); refuted for data that outlive the client of a local cluster | Session.lean | partial |
| C196 | A movie can be made whatever clusters were used before | `session` (`framesDir`) | induction over the history: name and existence of the temporary directory; refuted after a client is given up and after a failed start | Session.lean | partial |
| C197 | preprocess_data leaves the configuration of dask as it was | `sessionStep` (`preprocess`) | which settings one call changes; refuted for the one setting it does change, for every history before and after | Session.lean | partial |
| C198 | Parts of a record with a long quiet time between them are tracked independently | `runGrid`, `runMesh`, `preprocessGrid`, `preprocessMesh`, `fillTimeGaps` | time closing of a record with a gap is that of its parts; objects and their sizes are found step by step; an event is a chain of overlaps through consecutive steps; on meshes without merges the objects of a part keep their groups under other numbers (a window of the record); the ledger of the part is that of the part alone among empty steps (C190, C204); refuted for the first part and for the quartile | Separate.lean, SeparateLedger.lean, SeparateMerging.lean, SeparateMesh.lean | partial |
| C199 | What happens far away does not change an event | `runGrid`, `fillStagesGrid`, `filterGrid` | hole filling looks at a box (`SameNear`), time closing at one cell, an object at its own cells and those it touches; a cluster of m cells lies within m touches of each of its cells; chains of touching event cells carry over both ways; a group keeps to itself in both runs, hence its merges and ledger are those of the group alone (C204); refuted for the quartile, and for merging by an event that a far-reaching object shortens; on meshes without merges the same with neighbour hops, through C205 | FarAway.lean, FarAwayLedger.lean, FarAwayMerging.lean, FarAwayMesh.lean, FarMerging.lean | partial |
| C200 | The loggers of other libraries stay as the application set them | levels of all loggers of a process by name, `levelStep`, inherited levels | each call changes only the nine loggers, to ERROR; induction over the history; the first set level on the way to the root; refuted for the nine loggers | OtherLoggers.lean | partial |
| C201 | The log level asked for is in force or refused | `levelInForce` with the upper-case attributes of `logging` | case analysis over the names; refuted for every other name | OtherLoggers.lean | partial |
| C202 | Logging information about dask data is safe and informative | `logDaskInfo`, `progressBar` as values with the lines logged | case analysis over results and exceptions; refuted for datasets and for work that failed | OtherLoggers.lean | partial |
| C203 | A progress bar is closed, and completion reported only on completion | `logDaskInfo`, `progressBar` as values with the lines logged | case analysis over results and exceptions; refuted for datasets and for work that failed | OtherLoggers.lean | partial |
| C204 | Objects that never meet are tracked independently, merges included | `trackingGrid` with the whole loop of `split_and_merge_objects`; contract on the labelling: components are numbered in scan order | simulation: an order-preserving renaming of numbers, extended at every division, commutes with every step of the loop and with the final renaming | AppendedMerges.lean, Ledger.lean, LeftOut.lean, Rows.lean | proved |
| C205 | On a mesh, objects that never meet are tracked independently | `trackingMesh`, `objectFieldMesh` | the objects of the group are the same cells under other numbers; chains of overlaps that begin in the group stay in it, both ways; absence of merges carries over; refuted with merges: a number is given out again to an unrelated object | FarAwayMesh.lean | partial |
| C206 | Steps added later leave past events alone | `trackingGrid`, `trackingMesh`, `runGrid`, `runMesh` | the loop over steps does the same with and without what follows up to the last common step (`chunkLoop_prefix`); events are chains of overlaps, so one that is over cannot grow; the numbers of the first objects keep their order, so the filter drops the same object; closing in time looks ahead T_fill steps; refuted for one-step chunks, the quartile criterion, and meshes with merges | Appended.lean, Rows.lean | partial |
| C207 | The orientation of the map does not matter to tracking on a grid | `runGrid`, `fillFrameGrid`, `filterGrid`, `identifyObjectsGrid` | the disc, the window and the padding of hole filling are symmetric (`C87_window_partial`); touching cells stay touching, so objects are the same sets of cells under other numbers; object sizes are permuted, so the threshold is the same; refuted for the first object, which the filter drops, and for ties when objects merge; with merging allowed, the loop over the steps keeps the two runs alike as long as no object has two parents: links depend on shared cells and areas only, and consolidation joins the children of one parent; events over before the first merge are those of the record cut off there (C206), which has no merge | BeforeMerge.lean, Mirror.lean, NoMerge.lean | partial |
| C208 | The numbers that the labelling library gives to objects do not matter | `identifyObjectsGrid`, `identifyObjectsMesh`, `filterGrid`, `filterMesh`, `splitAndMerge`, `renameField` with two `Labeller`s | objects of two correct labellings are the same sets of cells; sizes are permuted; the loop of C207 with the cells left in place; refuted for the first object, which the filter drops, and for ties when objects merge, with a labelling that numbers backwards | Labels.lean | partial |
| C209 | Records with the same groups of cells report the same table of events | `presenceOf`, `timeStartIdx`, `timeEndIdx`, `eventArea`, `maxId` on two outputs of `trackGrid` or `trackingMesh` | pair the IDs through any common cell; C23 and C24 give presence and area from the cells alone; sums over permuted cells; counts by C92; applied to C191, C207 and C208 | Tables.lean | proved |
| C210 | On a mesh, running again on the events found gives the identical ID_field | `runMesh` applied to `ID_field > 0` of its own output | C65 makes that record the preprocessed field; whole objects are kept, so their sizes stay above the area (`kept_clusterSize`), and any nonempty result holds an object of more than five cells (`mesh_objects_left`); C08 keeps them all and tracking sees the same field | Retrack.lean | proved |
| C211 | On a structured grid, the events of a run can be found again from its ID_field | `runGrid` applied to `ID_field > 0` of its own output | as C210; C07 loses the first object and C204 keeps the groups that never meet it | Retrack.lean | partial |
| C212 | Events with the same cells have the same row in the table | `presenceOf`, `timeStartIdx`, `timeEndIdx`, `eventArea` on two outputs | C23 and C24 express each entry by the cells with the ID; equal cells give equal entries; applied to C204 and C206 | Rows.lean | proved |
| C213 | The centroid of an event is that of its cells | `gridEventCentroid`, `meshEventCentroid` (Model/EventCentroid.lean), on top of `yCentroid`, `xCentroid`, `npInterp`, `meshLat`, `meshLon` | the sums over the masked cells as sums over all cells; `npInterp` is linear between nodes, so monotone, reversible and exact on equally spaced values; permutations of the summands | EventCentroid.lean | proved |
| C214 | Merges already reported stay reported when steps are added | `split_and_merge_objects` (`trackGrid`), its merge records; `runGrid` | as C206: the run on the first steps is the whole run with the later objects left out; every record of the first steps is kept because its parents are, and parents and children are always on the same side | AppendedMerges.lean, Ledger.lean | partial |
| C215 | The merge ledger speaks of an event only while it lives | `trackGrid`, `ledgerAt`, `presenceOf` | an entry comes from a merge record (C26) whose parents overlap the merged object (C27); presence and times of the event from its cells (C23) | LedgerLife.lean | proved |

## Trusted base

* Lean 4.33.0's kernel, and the Lean and Mathlib definitions that occur in the statements.
* The axioms `propext`, `Classical.choice`, `Quot.sound` of Lean; no others are used (list below). No `sorry`, no
  `native_decide`, no `bv_decide`. `decide +kernel` (evaluation by the kernel) is used for concrete witnesses only.
* That the definitions under `lean/Verif/Model/` describe the code. Each cites the lines it was written from; nothing
  was extracted mechanically and the code was not run.
* The contracts of external routines below.

### Contracts of external routines

| routine | what the model assumes | where |
|---|---|---|
| `scipy.sparse.csgraph.connected_components` | same label iff connected, labels `0..k-1` (`Spec.CorrectLabeller`; met by the verified `quickFind`) | C10, C22, C64 |
| `dask_image.ndmeasure.label`, numbering | objects are numbered in the order of their first voxel (`Spec.NumbersInOrder`; met by `quickFind`, `quickFind_inOrder`) | C198 (merging), C204 |
| `dask_image.ndmeasure.label` with `wrap_axes` | components of the graph of the structuring element with the columns joined, labels `1..N` | C63–C65 |
| `dask_image.ndmorph.binary_closing/opening` | textbook erosion and dilation, `border_value = 0` | C01, C05, C06, C54, C87 |
| `np.unique`, `np.bincount`, `np.searchsorted`, `np.argmin` | sorted distinct values, counts, insertion points, first minimum | throughout |
| `np.percentile`, `nanpercentile` | linear interpolation between order statistics (proved equal to `Spec.IsQuantile`) | C07, C52, C84, C86 |
| `np.linalg.pinv` | the four Penrose equations (existence is proved: `exists_pinv`) | C36 |
| `xhistogram` | half-open bins, the last one closed | C38–C41 |
| `flox`/xarray `groupby` | mean or count of the non-missing members of each group | C32–C35, C68 |
| xarray `rolling`, `pad(wrap)`, `pad(edge)`, `construct` | windows and padding by index arithmetic | C01, C05, C40, C68, C70, C86 |
| zarr store, `np.savez` | metadata first, then chunks in some order; unwritten chunks read as fill value; truncated npz cannot be loaded; values are read back unchanged; only regular chunks can be stored | C29, C46, C61 |
| `np.arctan2`, `np.sin`, `np.cos` | the real functions; `arctan2(y, x)` is the argument of `x + iy` (no signed zero) | C58, C66 |
| xarray coordinate assignment | in place on the caller's array | C55 |
| ffmpeg | reads the numbered files of the pattern in order from the first number in 0…4 until one is missing | C101, C135 |
| matplotlib `BoundaryNorm`, `subplots` | colour index by boundary; a single `Axes` for a 1×1 figure | C81, C82 |
| Python `dict`, `set`, `str.lower` | insertion order; the order of a set is a parameter; ASCII letters | C27, C45, C79 |
| `psutil`, `importlib` | the numbers and names they return are parameters | C47, C50 |
| `tempfile.TemporaryDirectory` | the directory is removed with the last reference to the object | C195, C196 |

The distance and partition functions are compiled by numba with `fastmath=True` (track.py 4826, 4887, 4935, 4972, 5116, 5245, 5356, 5422), which allows the compiler to assume that no value is
infinite, although these functions compare with `np.inf`; the model takes these comparisons as Python would.

Rounding is modelled only where it decides about links, mesh areas, percentile positions and day-of-year thresholds (`Model/Float.lean`,
`Model/FloatUse.lean`, `Model/FloatBins.lean`, C166–C169, C180, with unbounded exponents; `np.arange` is taken to round the product and the sum of
each entry separately); everywhere else numbers are exact. Not modelled anywhere: overflow of
`float32`/`float64`, `uint16` (except bin numbers, C179), `int32`; memory and time; warnings, log
text and progress bars; task scheduling of dask beyond the independence of
chunks in `Model/Parallel.lean` and the orders, repetitions and losses of chunk tasks in `Model/TempStore.lean`.

### What is modelled, file by file

| file | modelled | not modelled |
|---|---|---|
| `track.py` | constructor and validation (323–1080), `run`, `run_preprocess`, `run_tracking`, checkpoints, `fill_holes`, `fill_time_gaps`, `filter_small_objects`, `identify_objects`, `calculate_centroid`, `calculate_object_properties`, `check_overlap_slice`, `find_overlapping_objects`, `enforce_overlap_threshold`, `consolidate_object_ids`, `compute_id_time_dict`, `track_objects`, `cluster_rename_objects_and_props`, `split_and_merge_objects`, `split_and_merge_objects_parallel`, the partition and distance functions that are called, `sparse_bool_power`, `regional_tracker`, the temporary store of the mesh iteration | `run_stats_attributes` beyond the statistics of C62, `partition_nn_unstructured` (never reached), dask `persist`/`rechunk` calls, log output |
| `detect.py` | `preprocess_data` (fixed and shifting baselines, mask, extremes), `compute_normalised_anomaly` argument checks, `smoothed_rolling_climatology`, `rolling_climatology`, `_compute_anomaly_*`, `add_decimal_year`, `identify_extremes`, `_identify_extremes_*`, histogram quantiles, `_validate_*`, `_infer_dims_coords` | `_get_preprocessing_steps` beyond C73, dask chunk sizes |
| `helper.py` | `checkpoint_to_zarr`, `start_local_cluster`, `start_distributed_cluster`, `configure_dask` (what is requested and set), chunk repair | SLURM and dask themselves, cluster info output, tunnels |
| `_dependencies.py`, `logging_config.py`, `exceptions.py` | availability table, verbosity state machine, exception construction and wrapping | text of installation hints, log formats and files, timers |
| `plotX` | `clim_robust`, automatic limits, `specify_grid`, grid detection, the accessor and plotter construction, `PlotConfig`, `wrap_lon`, `single_plot`, `multi_plot`, `make_frame`, `animate`, markers, ID colours, caches: everything up to the arguments of `pcolormesh`/`tripcolor` | rendering by matplotlib/cartopy, map features, the pixels |

### Axioms per theorem

Output of `#print axioms` for the theorems in `MANIFEST.json`.

* none: `C05_rotation_invariance_fails`, `C159_merges_returned_partial`.
* `propext`: `C01_zero_is_identity`, `C03_powers_compose`, `C04_radius_zero`, `C06_never_marks_masked`, `C46_storable_chunks_kept`, `C49_wrap_exception`, `C56_fewest_hops_fails`, `C77_switches_partial`, `C77_unset_switch_fails`, `C78_codes_distinguish`, `C79_context_untouched_partial`, `C83_stale_fails`, `C102_mesh_frames_fails`, `C102_mesh_one_step_fails`, `C139_cleanup_fails`, `C149_progress_bar`, `C159_no_merges_returned_fails`, `C177_single_partial`, `C177_several_fails`, `C178_without_merging`, `C200_errors_stay_partial`, `C203_bar_partial`, `C203_completed_fails`.
* `Quot.sound, propext`: `C06_radius_zero`, `C11_ids_never_repeat`, `C26_minus_one_iff_no_merge_partial`, `C26_only_own_id_fails`, `C29_last_completed_save_wins`, `C37_extreme_iff_hobday`, `C37_extreme_iff_constant`, `C50_fitting_request_partial`, `C50_not_reduced_fails`, `C78_text_shows_all`, `C78_text_lines`, `C81_one_step_fails`, `C83_fresh_partial`, `C93_dataset_rows_partial`, `C93_many_parents_fails`, `C97_timing_transparent_partial`, `C97_memory_partial`, `C97_memory_unreadable_fails`, `C98_messages_once`, `C98_after_switch`, `C107_nodes_reported_fails`, `C109_log_file_dropped_fails`, `C123_rejections_partial`, `C131_first_save_crash_partial`, `C131_crash_errors`, `C131_concurrent_saves_fails`, `C132_latitude_edges_not_joined_fails`, `C134_columns_fails`, `C134_long_record_fails`, `C139_dataarray_unchanged_partial`, `C139_dataarray_irregular_fails`, `C139_chunk_error_fails`, `C151_mesh_nearest_cells`, `C200_others_untouched_partial`.
* `Classical.choice, Quot.sound, propext`: the remaining 566 theorems.

## Where the code and a property disagree

Each entry is a theorem (suffix `_fails`) about the model of the code as it is.

* **C05** `C05_rotation_invariance_fails`: on a global 12 × 12 grid without land, with `R_fill = 1`, a plus-shaped object centred on column 5 keeps its eastern arm, but rotated so that it is centred on the last column it loses that arm: the padding of `2R` columns is too narrow for a closing followed by an opening
* **C07** `C07_keeps_exactly_large_fails`: with `area_filter_absolute = 1` a record holding one object of two cells is emptied
* **C07** `C07_first_object_always_lost_fails`: for every record and every criterion: whenever filtering succeeds, the record's first object loses all its cells, however large it is
* **C17** `C17_fails`: a row of 60 cells, child cell 20, parent 1 owns cell 39 (distance 19), parent 2 owns cell 9 (distance 11). Both are within the search radius 40, but the child cell is given to parent 1
* **C17** `C17_seam_fails`: at the seam of a periodic grid whose width (62) is not a multiple of the bucket size (10): child cell 2, parent 1 owns cell 13 (distance 11), parent 2 owns cell 57 (distance 7 across the seam); the child cell is given to parent 1
* **C19** `C19_fails`: for one-step chunks: object 1 splits into 2 and 3; in one chunk of two steps they are consolidated, in two chunks of one step they are not
* **C25** `C25_coarse_grid_fails`: on every grid with 4 to 100 columns: an object of two neighbouring cells in the middle of the grid, at columns `nx / 2` and `nx / 2 + 1`, gets a centroid near column 0, on the opposite side of the globe
* **C25** `C25_inner_object_fails`: for every object that does not cross the seam, has cells within 100 columns of both edges of the grid and cells in both halves: its centroid is not the mean of its columns, not even up to whole turns. On grids of at most 396 columns (1° and coarser) there are such objects of at most half the grid, on grids of fewer than 200 columns every object across the middle is one
* **C25** `C25_pieces_fails`: for every event across the seam with no cell within 100 columns of it on one of its sides (an event made of separate pieces): its centroid is not where it is, not even up to whole turns
* **C26** `C26_only_own_id_fails`: whatever the merges, every entry of the ledger of an event is -1 or the ID of the event itself, so no merging partner is ever listed
* **C26** `C26_siblings_fails`: on a run of the whole tracker: events 1 and 2 merge at step 1, and the ledger of event 1 is [1, 1], that of event 2 [2, 2]
* **C28** `C28_ids_collide_fails`: with a time chunk of 2 the four-parent merge at step 1 needs three new IDs but only two are reserved per step, so the third one is also given out at step 2. In the result ID 10 labels a piece of object 5 at step 1 (the continuation of object 4) and a piece of object 7 at step 2 (the continuation of object 6), so an ID occurs at two steps, for two different objects
* **C31** `C31_coarse_global_grid_fails`: for coarse global grids: with fewer than 360 columns (spacing above one degree) a full circle is rejected
* **C31** `C31_narrow_degrees_taken_for_radians_fails`: on ambiguous ranges: longitudes in degrees spanning about 6.28 degrees are silently taken for radians
* **C31** `C31_straddling_grid_fails`: for grids that straddle zero, such as -0.5° to 359°: a centroid at a western longitude lies outside the range of the input's longitudes
* **C33** `C33_smoothing_uses_target_year_fails`: for every smoothing width of three days or more: changing one sample of the target year (its first day) changes the smoothed baseline of that same year
* **C39** `C39_hobday_one_bin_fails`: as stated: whatever the precision and the binned range, nine anomalies of zero and one of 3.9 bins give, at the 90th percentile, a threshold of 2.5 bins, more than one bin from every value of the sample (and from every value between the two, in the linear-interpolation sense, closer to the lower one)
* **C39** `C39_constant_fails`: for one threshold per cell: when the percentile falls among anomalies below minus one bin and all larger anomalies are in the last bin, the threshold is half of `max_anomaly` (minus one bin), however many bins that is, although the sample at the percentile is minus two bins
* **C47** `C47_status_fails`: for what is printed and warned about, in every environment: each package is listed as available, the profile as full, no suggestion is printed, and there is no warning on import or from `warn_missing_dependency`, whether jax is installed or not
* **C47** `C47_always_available_fails`: in every environment: each known package is reported as available even if it is not installed, requiring it never raises, no package is ever listed as missing, and the installation profile is always "full"
* **C48** `C48_get_logger_resets_fails`: for every history without `get_logger()`: the first `get_logger()` after it throws the chosen mode and level away and goes back to the settings of the environment
* **C50** `C50_not_reduced_fails`: on every machine (logical cores at least as many as physical ones): a request for more threads than the machine has is started unreduced
* **C53** `C53_filling_invents_nothing_fails`: for the two filling stages together.** Cell 0 is the only ocean cell, next to three land cells. The input has no extreme cell at all; with `R_fill = 2`, `T_fill = 2` cell 0 is extreme at every step after the filling stages: the first stage leaves land marked, and the second one dilates the land marks into the ocean
* **C55** `C55_radians_overwritten_fails`: in radians: whatever else happens, the caller's longitudes and latitudes are overwritten by their values in degrees
* **C55** `C55_repeated_construction_fails`: for histories: after `k` trackers built with `coordinate_units='radians'` from one array, its longitudes are the originals multiplied `k` times by 180/π
* **C56** `C56_fewest_hops_fails`: cells 0–1–2–3 and 5–4–3 are two paths of a mesh; parent 0 owns cell 0, three hops from cell 3, and parent 1 owns cell 5, two hops from cell 3; cell 3 is given to parent 0
* **C56** `C56_gap_fails`: when there is a gap: if every child cell that no parent overlaps is four or more hops away from every parent, the search stops after its first round and every such cell goes to the great-circle choice `far`, however many hops that parent is away
* **C59** `C59_remainder_one_fails`: on every record: if the number of time steps leaves a remainder of 1 when divided by the chunk length (or the chunk length is 1), and the record contains at least one merge, tracking on a mesh raises an error, whatever the data
* **C59** `C59_result_depends_on_chunks_fails`: for the results too: the record gives different objects with chunks of 2 and of 4 steps (object 7 is split along a different boundary and into different IDs)
* **C66** `C66_pole_rows_have_no_area_fails`: at the poles: a row centred on a pole (as on grids from 90° to -90°) gets area zero for every resolution
* **C69** `C69_hobday_beyond_range_fails`: (day-of-year thresholds): if all anomalies reach one bin beyond `max_anomaly` there is no threshold on any day and nothing is extreme, at any percentile: anomalies beyond the binned range are not counted at all
* **C69** `C69_constant_beyond_range_fails`: (one threshold per cell): if all anomalies exceed `max_anomaly` by more than a bin the threshold is one bin, the smallest possible, and every time step is extreme
* **C69** `C69_constant_within_range_fails`: (one threshold per cell) even inside the binned range: raising a single anomaly from minus two bins to minus half a bin can lower the threshold from about half of `max_anomaly` to one bin
* **C71** `C71_exact_constant_fails`: with the exact method: a cell with any constant anomaly (zero included) is extreme at every time step, for both definitions, every percentile and every window
* **C72** `C72_missing_removes_all_fails`: one missing anomaly at the first step (day-of-year thresholds) or at any step (one threshold per cell) removes every extreme of the cell, whatever the rest of the record
* **C73** `C73_default_window_not_recorded_fails`: for the default: on every grid, with every accepted parameter set that leaves the spatial window to its default, thresholds are pooled over 5×5 cells and the metadata say that no spatial neighbours were used
* **C74** `C74_exact_fails`: for the exact method: for every value and every percentile, a cell outside the ocean mask has an extreme
* **C74** `C74_shifting_fails`: for the shifting baseline even with the approximate method: the mask is taken before the first years are cut off, the thresholds after
* **C75** `C75_above_100_fails`: with the approximate method every percentile above 100 is accepted, on every data set
* **C76** `C76_day_366_fails`: for days that the years before do not have: with a window of up to three years, the last day of a leap year (day 366) has no anomaly even in complete data
* **C76** `C76_one_year_window_fails`: for a one-year window: if the second year starts on the day of year on which the record starts (a record of whole years does), its first step has no anomaly, and so, with the approximate method, no cell has any extreme at any time
* **C77** `C77_unset_switch_fails`: with one switch given, the other is taken from the environment, not from the mode in force: a user who selected verbose mode and calls a function with `quiet=False` is put back into normal mode
* **C79** `C79_context_changed_fails`: whenever the extra information brings a new key, the dict the caller passed as `context` is changed
* **C80** `C80_closed_grid_fails`: for grids that contain both ends (0° and 360°): the longitude 360° after the first is already there and is added a second time
* **C80** `C80_single_column_fails`: for data with a single longitude: the plot raises an IndexError
* **C80** `C80_descending_fails`: for decreasing longitudes: global data are never wrapped
* **C81** `C81_one_step_fails`: for one step, whatever `col_wrap`: the call raises
* **C82** `C82_refused_fails`: for an ID field without objects (the colour norm of zero bins is refused), and for a colour map with fewer colours than there are objects (for example any standard map of 256 colours with 257 objects)
* **C83** `C83_stale_fails`: a grid file rewritten after it was used once is not read again: the plot shows the old grid
* **C84** `C84_sampled_fails`: the automatic limits do not depend on the steps between every tenth step at all; two records that agree on the steps 0, 10, 20, … get the same limits, however different their other values
* **C85** `C85_too_many_parents_fails`: for large merges: processing stops with "too many parent objects" exactly when ten objects with enough overlap are followed, in the order of the IDs, by one more object that shares a cell with the child — even if that one does not overlap enough
* **C85** `C85_table_sizes_fails`: at the sizes of the fixed tables: with at least two parents, processing raises if the step has 20 merges already, or if the step would have more than 255 new objects
* **C85** `C85_more_than_20_merges_fails`: for a step with many merges: if more than 20 of the queued objects have two or more parents, processing the step raises
* **C85** `C85_more_than_20_handed_on_fails`: at the end of a chunk: the objects of the next step that the last step of a chunk made ambiguous are handed to the next chunk in a table of 20. Up to 20 distinct ones are handed on, each once; with more the run raises
* **C85** `C85_exact_tie_fails`: at an exact tie: objects 1 and 2 merge into 3, which is split into 3 and 5; object 4 of the next step overlaps each of the two pieces by exactly the threshold (1 cell of 2). It is not looked at again, so in the result object 4 still has the two parents 3 and 5
* **C85** `C85_piece_still_merged_fails`: for the pieces: object 4 (cells 0–3) has the parents 1 and 2; object 3 (three cells) shares one cell with it, less than half. After the split the piece 4 has two cells, one of them on object 3, which is now half of the piece. Pieces are not looked at again, so in the result object 4 still has the two parents 1 and 3
* **C87** `C87_edge_fails`: next to the edges: on a global 12 × 12 grid a plus of five cells centred on the last column is its own closing and opening by a disc of radius one, but hole filling removes its cell in the first column
* **C93** `C93_many_parents_fails`: for merges of more than 127 objects: an 8-bit count cannot hold their number, so the dataset is not built or its row gives another number
* **C97** `C97_zero_duration_fails`: in verbose mode, a computation that succeeds within the resolution of the clock is turned into a failure: the closing line divides by the time taken
* **C97** `C97_unshowable_argument_fails`: if one of the logged arguments cannot be shown, the decorated function is never entered and the caller gets the exception of the showing, whatever the function would have returned
* **C97** `C97_memory_unreadable_fails`: when the memory of the process cannot be read (on some systems psutil is not permitted to), in every mode: a step that logs it is not run at all, or its result is lost
* **C102** `C102_global_seam_fails`: around the globe: where a panel has the extra column that closes the globe, the frame of the same step has not
* **C102** `C102_projection_fails`: for projections: a frame is drawn under the Robinson projection whatever the configuration says
* **C102** `C102_names_fails`: for other names: on data without coordinates called "lat" and "lon" no frame can be made, although single plots with the right mapping work
* **C102** `C102_mesh_frames_fails`: for a mesh with a triangulation only: single plots work, but no frame can be made; and without any grid file a movie without colour bar is made of empty maps, where a single plot would raise
* **C102** `C102_mesh_one_step_fails`: for a single step of a mesh that still has its time dimension: it cannot be plotted with either file (on a regular grid such a step is plotted)
* **C106** `C106_user_settings_replaced_fails`: the two functions that start a cluster configure dask with the defaults of the package and no settings of the caller. Whatever the user had set before (`dask.config.set`, a configuration file), starting a local cluster replaces it for every setting in the table of defaults – also when the call then fails
* **C106** `C106_rejected_call_configures_fails`: `start_distributed_cluster` checks the memory of the nodes after it has configured dask: a call that is rejected starts nothing, and yet leaves every default of the package in the configuration
* **C107** `C107_nodes_reported_fails`: the number of nodes that the call reports is too small whenever the workers do not fill the nodes: with `perNode` workers to a job, the reported number of jobs does not hold the workers asked for
* **C107** `C107_missing_jobqueue_fails`: without the package `dask_jobqueue` the call is meant to stop with an ImportError naming it. It never does: the dependency is always reported as available, dask is configured, and the call ends in a TypeError
* **C107** `C107_switches_ignored_fails`: the switches `verbose` and `quiet` of `start_distributed_cluster` have no effect
* **C108** `C108_unnamed_port_leaks_fails`: when the dashboard link names no port (a proxied dashboard such as `https://hub/user/x/proxy/8787/status`), starting a local cluster raises after the workers were started: the cluster runs and the caller has no client to close it with
* **C109** `C109_log_file_dropped_fails`: a log file asked for by the user is given up as soon as a package function is called with `verbose` or `quiet`, or the mode is switched: after that no message of any level reaches any file, unless MAREX_LOG_FILE is set
* **C110** `C110_mesh_gap_fails`: (and C22 with it) on meshes: the merge of eight objects at step 1 takes seven new IDs, two are reserved per step, and the last one is given out again at step 4. The last event found then lies at cell 14 at steps 0 and 1, is absent at step 2 and lies at cell 2 at steps 3 and 4
* **C112** `C112_mesh_stale_parent_fails`: Meshes: a record can name a parent that does not touch the child in the final field. In the example the record of step 2 says that object 7 merged from 5 and 6, but in the final field (see `C28_ids_collide_fails`) object 5 is at cells 0–1 and object 7 at cells 6–7
* **C113** `C113_mesh_centroid_partition_raises_fails`: on meshes: writing the labels back raises an error (one label per mesh cell is assigned to the object's cells only) exactly when the merged object does not cover the whole mesh, so that no object of practical size is partitioned. If it covers the mesh, every cell gets the child ID of its closest parent
* **C114** `C114_mesh_ignores_allow_merging_fails`: on meshes: `allow_merging` is ignored there, the run with merging switched off is the run with merging
* **C114** `C114_mesh_touching_cells_two_events_fails`: on meshes, in terms of events: with `allow_merging=False` two touching cells of consecutive steps (cell 10 at step 1 and cell 11 at step 2, neighbours of each other and both extreme in the preprocessed field) carry different event IDs
* **C115** `C115_regional_wrap_fails`: on regional grids: the westernmost column takes part of its samples from the easternmost one. Whatever the width of the region and the precision, the first column's 70th percentile depends on the anomaly of the last column
* **C116** `C116_missed_extreme_fails`: for the default method, by any number of bins: of nine anomalies of a day, eight zero and one of `K` bins, the 95th percentile is 0.6 `K` bins, yet the step with `K` bins is not extreme: its value is 0.4 `K` bins above the percentile and below the histogram's threshold. With the default precision of 0.01 and range of 5, `K = 499` gives an anomaly of 4.99 that is not extreme although the percentile is 2.994
* **C117** `C117_other_percentiles_fails`: for other percentiles: six samples lie below the histogram and four in its last bin. At the 60th percentile the threshold is 3/2; at a percentile less than 10⁻⁸ above, which is exactly 10⁻¹⁰ (of a whole) above the fraction of the first bin, it is 1
* **C118** `C118_mesh_shortcut_fails`: for the shortcuts `single_plot`, `multi_plot` and `animate` of the accessor, which pass no mappings: on data without a dimension "lat", so on every mesh, they raise, whatever the grid settings say
* **C118** `C118_panels_names_fails`: for `multi_plot` with names of one's own: it makes a second plotter with the default names, so it raises on all data without dimensions called "lat" and "lon", although the plotter it is called on is fine
* **C119** `C119_named_map_fails`: for plots of IDs with a colour map given by name, which `PlotConfig` allows: they raise
* **C120** `C120_input_overrides_fails`: for inputs that carry an attribute of a name used in the report, such as the output of an earlier run: whatever the run did, the value reported under that name is the input's
* **C120** `C120_mesh_merges_unreported_fails`: on meshes with merging switched off: merges are carried out all the same (`C114_mesh_ignores_allow_merging_fails`), and none of the four merge attributes is reported
* **C121** `C121_second_run_fails`: a tracker can be run only once. After any run that did not load (with whatever result), every further run that does not load raises `AttributeError`, because the input was deleted by the first
* **C122** `C122_negative_gap_accepted_fails`: for the range of the gap length: a negative even `T_fill` is accepted in every supported configuration
* **C123** `C123_key_error_fails`: in one corner: a mapping with neither x nor y and no coordinates (a plain time series) raises KeyError instead of the documented DataValidationError, for every data set
* **C124** `C124_one_object_fails`: for every record of a structured grid that has a single object after filling: the object is lost and the statistics raise a division by zero, whatever its size and whatever the criterion
* **C124** `C124_mesh_equal_objects_fails`: on meshes for every record whose objects of more than 50 cells all have the same size, whatever the quartile: none is kept and the statistics raise a division by zero
* **C124** `C124_nothing_kept_raises_fails`: when nothing survives the filter: the statistics raise `ZeroDivisionError`, so the tracker ends with an unrelated error instead of an empty result
* **C124** `C124_fraction_of_kept_fails`: at the threshold: a record with objects of 4 cells each and `area_filter_absolute = 4`: the grid filter keeps two of the three objects, but the reported accepted area fraction is 0
* **C124** `C124_all_at_threshold_fails`: for every record whose largest objects have exactly the threshold area: the grid filter keeps objects at the threshold (C07), but the reported accepted area fraction is 0
* **C125** `C125_one_day_window_fails`: for a window of one day (odd, so accepted by the argument checks): the computation raises for every data set
* **C126** `C126_gap_years_fails`: for records with missing years: whatever the window `W`, a record holding only its first year and the year `W` years later gets a "`W`-year" baseline made of a single sample, although the documentation promises a missing value when there is not enough history
* **C127** `C127_reported_count_absolute_fails`: for small absolute thresholds: whenever the filter keeps an object of at most 5 cells, fewer objects are reported than are kept
* **C128** `C128_converged_at_limit_fails`: at the limit for every record: if all merges are resolved after exactly `max_iteration` iterations, tracking still reports that they are not
* **C128** `C128_exact_limit_fails`: at the limit: the example converges after exactly two iterations (with `max_iteration = 3` it succeeds), but with `max_iteration = 2` it is reported as not converged
* **C129** `C129_no_leap_year_fails`: for records without a leap year: with only 365 days of year present the result still has 366 entries, and day 1 appears twice
* **C129** `C129_needs_all_days_fails`: for every record of at least 16 different days of year that does not contain all 366 of them, in particular for every record without a leap year: the standard deviations contain a day twice and the standardisation raises
* **C130** `C130_shared_child_fails`: in general: parents 1 (children 3, 4) and 2 (children 4, 5) share the child 4. After consolidation parent 2 still overlaps two IDs, 3 and 5
* **C131** `C131_crash_mixes_checkpoints_fails`: after a crash over an earlier checkpoint, whatever the two checkpoints are: a save of `(g, t)` that dies after the field was written and before the statistics file was opened leaves a directory from which `load` returns, without any error, the new field with the old statistics
* **C131** `C131_crash_half_field_fails`: in the middle of writing the field, whatever the two checkpoints are and wherever the crash comes: a save of `(g, t)` over a checkpoint `(f, s)` that dies after `j` chunks leaves a directory from which `load` returns, without any error, the chunks written so far, the fill value for every other chunk, and the old statistics
* **C131** `C131_failed_run_mixes_checkpoints_fails`: without any crash: a saving run whose statistics raise (nothing survives the area filter: see `C62_nothing_kept_raises`) has already replaced the field of the earlier checkpoint
* **C131** `C131_concurrent_saves_fails`: for two trackers that share a directory and save at the same time: some interleaving of two complete saves leaves the field of the second with the statistics of the first, whatever the two results are
* **C131** `C131_structured_grid_fails`: on structured grids: with any `checkpoint` argument that selects saving or loading, `run_preprocess` raises `AttributeError` (the tracker has no `scratch_dir`), for every input and every directory; nothing is ever written
* **C131** `C131_any_checkpoint_loads_fails`: a loading tracker never looks at its own data or parameters: trackers with different inputs, mask or parameters (different `field`, `stats`, `m`) all return the stored pair. Stated as a failure of "a checkpoint is only used for the input it was made from"
* **C132** `C132_latitude_edges_not_joined_fails`: in global mode: on a 12 × 12 grid with `R_fill = 1` two fields that differ only in row 11 (the northern edge) give different results in row 0 (the southern edge), because latitude is padded with `mode="wrap"` too
* **C133** `C133_zero_percentile_fails`: with a lower percentile of 0 for every data set of negative values: the limits are upside down
* **C134** `C134_columns_fails`: the table has `int(max_objects / n_time * 100)` columns, and building it raises whenever some step has more distinct values (0 included) than that
* **C134** `C134_long_record_fails`: for every long record: with more than 100 steps for each of its `max_objects` IDs (0 included) the table has no column at all, and building it raises whatever the steps contain
* **C135** `C135_doubled_extension_fails`: without a name the extension is doubled, and so it is if the name has it already
* **C135** `C135_temp_left_fails`: whenever the call raises after its first steps — the configuration is refused, a frame cannot be made, there is no step, or ffmpeg fails — the directory of temporary files stays, with the frames made so far
* **C136** `C136_ids_change_data_fails`: for plots of IDs: afterwards the plotter holds no zero or negative value any more, so that a later plot of values by the same plotter lacks them
* **C136** `C136_reseeds_fails`: for the random generator: a plot of IDs without a colour table of the user puts numpy's global generator into the state reached from the seed 42 by drawing three numbers for each number up to the largest ID, whatever it was before: random numbers the user draws afterwards are the same in every run
* **C137** `C137_other_data_fails`: for other data, for example anomalies with the objects drawn on top: the markers depend on the plotted values only, not on the objects; where no value happens to equal an ID there is no marker
* **C138** `C138_same_day_collides_fails`: for sub-daily data: all times of one day get the same decimal year
* **C139** `C139_dataarray_irregular_fails`: for every DataArray whose chunks along time cannot be stored as they are (for example monthly chunks): the repair is never applied to a DataArray, the error is swallowed and the caller receives None instead of their data
* **C139** `C139_chunk_error_fails`: for every error of the disk whose text mentions chunks (for example a failed write of a chunk file): the data is lost to the caller, although the handler for other errors would have handed it back
* **C139** `C139_cleanup_fails`: with `cleanup=True` whenever the checkpoint itself succeeds: the store behind the lazily loaded result is deleted before the result is returned
* **C140** `C140_seasonal_cycle_fails`: for the seasonal cycle: a series that depends on the day of year only, and correlates with time, does not have zero anomalies. Part of the cycle is removed as a trend, and the two steps of one day of year keep that difference
* **C140** `C140_trend_left_fails`: for the trend: the anomalies of such a series have a linear trend again, opposite to the one that was removed
* **C141** `C141_exact_span_returns_nothing_fails`: on the boundary: a record of exactly `W` calendar years passes the length check and leaves an empty data set instead of the documented error
* **C142** `C142_added_later_fails`: suggestions and context added afterwards do not change the text of any exception; a suggestion longer than the text is not shown
* **C150** `C150_progress_silent_fails`: "log every `frequency` percent" is not what happens: for every number of steps that has no divisor in common with 100, no step but the last is logged, whatever the frequency
* **C153** `C153_loss_after_update_fails`: in the example the first iteration splits object 5 among its four parents and object 7 among two. If the results of the parallel step are lost after the store has been updated — a worker dies —, the scheduler computes them again from the updated store, in which the objects are already split, and no merge is recorded at all
* **C154** `C154_concurrent_trackers_fails`: let a tracker run on any record, and let another tracker with the same `temp_dir` and a record without objects write its field before the first iteration of this one. Whenever this tracker returns, it returns a record without a single object and without a merge, and raises nothing
* **C155** `C155_table_in_memory_fails`: take any supported mesh configuration and hold its neighbour table in memory instead of in dask chunks. The constructor raises `AttributeError`
* **C156** `C156_chunked_table_fails`: for the neighbour table: a table with several chunks along a dimension is accepted by the constructor, which warns that it is "rechunking to single chunk"; the tracker keeps the table as it is, and every `run()` raises `ValueError`
* **C156** `C156_chunked_areas_fails`: for the areas: cell areas with several chunks are accepted with the same warning, kept as they are, and every `run()` on a record of more than one step raises `ValueError`
* **C156** `C156_table_of_other_size_fails`: for the size of the table: in every supported mesh configuration the constructor also accepts a table for any other number of cells that its entries fit in, and every `run()` then raises `ValueError`
* **C157** `C157_single_step_fails`: on a mesh of more than one cell, a record of a single step that passes the preprocessing is never tracked: `run()` raises `IndexError`, whatever the data and the settings
* **C158** `C158_mesh_own_name_fails`: on meshes: for every configuration that the constructor accepts, with a time coordinate that is not named after the time dimension, `run()` raises `KeyError`
* **C159** `C159_no_merges_returned_fails`: without `allow_merging`: the merges that were asked for are not returned, whatever they are; a caller that unpacks two datasets fails. (On meshes merges happen without `allow_merging` too, see C120.)
* **C160** `C160_earlier_tracker_hides_fails`: once a tracker with a debug level below 2 was constructed in the process, a tracker with any debug level hides every message of the scheduler below the level of errors, whatever the logger was set to and whatever came between
* **C160** `C160_level_one_hides_warnings_fails`: debug level 1, meant to hide only the messages about `run_spec`, hides every warning
* **C163** `C163_unit_approximate_fails`: for the approximate percentiles: whatever the data and the (positive) precision, in a coarse enough unit the same data have no extreme anywhere, whatever the percentile
* **C164** `C164_area_filter_fails`: for whole runs even without hole filling: on a record that looks the same from both sides of the globe, the run keeps the objects of one side (cell 2 at both steps) and drops one of the other (cell 0 at the first step): the area filter loses the first object, and which one is first depends on where the map is cut
* **C164** `C164_merging_tie_fails`: for events with merging: the middle cell of the merged object is equally near to both parents and is given to the one with the smaller ID, and which one that is depends on where the map is cut. On the first map the middle cell belongs to the event of cell 0, on the second to that of cell 2
* **C167** `C167_remaining_cells_ignored_fails`: for large objects: once the sum has reached `2 ^ 25` times the area of each remaining cell, the remaining cells, however many, add nothing
* **C167** `C167_large_objects_fails`: on a mesh whose cells all have the area `2 ^ j`, an object of any number of cells beyond `2 ^ 24` is given the area of `2 ^ 24` cells
* **C167** `C167_equal_cells_bounded_fails`: for every cell area: whatever the area `a` of the (equal) cells, no object is ever given `2 ^ 26` times that area, however many cells it has
* **C168** `C168_82nd_percentile_fails`: with 123 of 150 samples in the lowest bin and 27 in the highest, however many bins lie between, the 82nd percentile is the centre of the last but one bin, but because 0.82 · 150 is rounded to a number below 123 the code returns the centre of the lowest bin
* **C170** `C170_extra_coordinate_fails`: with merging: a record whose time coordinate has a name of its own, and whose time dimension has no coordinate, comes back with a second one, under the name of the dimension
* **C170** `C170_lost_coordinate_fails`: for records with two coordinates along time: the one named after the dimension is lost, without merging altogether, with merging in favour of the values of the other one
* **C171** `C171_first_cluster_lost_fails`: for every record on a structured grid: with an absolute area of at most one cell every extreme ocean cell should belong to an event, but whenever the workflow succeeds there is one that does not
* **C173** `C173_mesh_without_y_fails`: for every mesh whose names are accepted without a coordinate for y, with every method: the KeyError comes when everything has been computed
* **C173** `C173_time_series_fails`: for a single series: names of a time series are accepted if coordinates are given, whatever the method, and the code has branches for such data, but no call finishes
* **C174** `C174_small_mesh_fails`: on every mesh of fewer than 4445 cells: the chunk length along the cells comes out as 0, and dask divides by it
* **C174** `C174_workflow_small_mesh_fails`: for the whole workflow: with exact constant percentiles no record on a mesh of fewer than 4445 cells gets as far as tracking
* **C175** `C175_space_ignored_fails`: for the other dimensions: whatever chunk length is asked for along x and y, they are put into one chunk each
* **C176** `C176_exact_silent_fails`: for exact percentiles on every grid: the default spatial window of 5 by 5 cells is counted although no cells are pooled, so there is no warning with up to 25 times too few samples: at the 95th percentile and with windows of 11 days, for records of 4 to 90 years
* **C177** `C177_several_fails`: for several packages: the one command advised for any two or more missing packages does not install those outside the extra `full` and the requirements of marEx. That is so for psutil, which marEx tracks, and for every name marEx does not know, which are the names `require_dependencies` reports in practice (`C47_unknown_missing_partial`)
* **C178** `C178_one_step_fails`: for every gridded record of one step tracked with merging: beside the documented variables the events have a ninth, `centroid-2`
* **C178** `C178_component_order_fails`: for the order of the components: the documentation gives the centroid as (x, y), but the first component of an event in a single cell of a grid is the latitude of the cell and the second its longitude
* **C179** `C179_counts_fails`: with 65536 bins: every missing value and every anomaly at or above the last edge is counted in the lowest bin, which holds the most negative anomalies
* **C180** `C180_below_max_anomaly_fails`: near `max_anomaly`: with the default precision 0.01 and the default maximum 5 the last edge is the float32 number before 5. Anomalies of that size are below `max_anomaly` and yet not counted: where all anomalies are so large, there is no threshold on any day
* **C182** `C182_small_objects_fails`: on meshes for every record whose objects all have at most 50 cells (5 with `area_filter_absolute`): it is refused as a record without objects
* **C184** `C184_mesh_filling_fails`: for every `R_fill ≥ 1` on meshes: wherever every ocean cell has a cell outside the mask within `R_fill` hops, marks on the cells outside the mask, and nowhere else, make every ocean cell extreme after hole filling, while a record without marks stays empty
* **C184** `C184_grid_filling_fails`: for every `R_fill ≥ 1` on grids: on every map, global or regional, on which every cell has a cell outside the mask within distance `R_fill`, marks on the cells outside the mask, and nowhere else, make every ocean cell at least `2 R_fill` from the edges extreme after hole filling, while a record without marks stays empty
* **C184** `C184_area_fraction_fails`: for the statistics even without filling: the objects are those of the mask, but every mark outside the mask counts in `preprocessed_area_fraction`. Of two records with the same objects the one with more marks reports the larger fraction
* **C187** `C187_first_T_fill_fails`: on structured grids for `T_fill` from 0 to any positive even number: filling time gaps also fills holes a second time, with half the radius, and that opening removes cells that the first one kept. On the channels, every ocean cell extreme for one step, a run with `T_fill = 0` finds an event, and with any positive `T_fill` it is refused: nothing is left of the data
* **C187** `C187_first_object_fails`: on structured grids: with `area_filter_absolute = 1`, cell 3 belongs to an event; with more extreme cells, which join it to the first object of the record, it does not, and there is no event left
* **C187** `C187_quartile_fails`: with the default `area_filter_quartile = 0.5`: larger extremes appearing later in the record raise the threshold of the whole record, and the event cell of the second step, which nothing has changed around, is an event cell no more
* **C188** `C188_lower_percentile_fails`: on structured grids: cell 2 belongs to an event of the first year at the 75th percentile, but not at the 60th, where the warm cell joins it to the first object of the record
* **C189** `C189_edge_fails`: at the edges of a piece: in a strip of any number of cells in which only the last but one has a positive anomaly, leaving out the last one changes the threshold of the first, far away from the cut, because its window is closed around the piece
* **C190** `C190_one_step_chunk_fails`: with a chunk of one step: both records are cut into chunks of two steps. One empty step more in front leaves a last chunk of one step, whose objects are not consolidated
* **C191** `C191_merges_fails`: with merges: numbered from its other end the line and the record are the same, so the run is; but the cell in the middle, as far from the one object as from the other, goes with the lower numbers
* **C192** `C192_links_fails`: with merges: the documentation says that the choice "does NOT affect which objects are linked", but the object on cell 5 after the merge continues the event of cell 0 with `nn_partitioning=True` and the event of cell 7 without it
* **C193** `C193_mesh_merge_fails`: on a mesh with merges: at 1/2 the object of the second step continues the one on cells 0–5 as a whole; at 1/4 it is a merge, and its cell 8 goes with the other object
* **C193** `C193_grid_split_fails`: on a grid, even without any merge: at 1/2 the object on cell 3 is followed by the one on cells 0–3; at 1/3 it is first united with its sibling on cells 5–8, and the union, of which the next object covers one cell in five, is followed by none
* **C194** `C194_limit_fails`: at a step with ten merges: at each of the ten rounds one piece covers enough of both objects, and both become one event
* **C194** `C194_united_fails`: even without any recorded merge: both objects of the last step continue the first object, neither the second; united as siblings they continue the second one too, and both objects become one event
* **C195** `C195_lost_with_client_fails`: data checkpointed while a local cluster runs do not outlive its client. For every session in which a cluster was started successfully, whatever was done between the start and the checkpoint that leaves dask's temporary directory alone, and whatever is done after the checkpoint: once the client is given up, the data cannot be computed
* **C196** `C196_no_movie_after_client_fails`: once the client of the last cluster is given up, `animate` raises: dask is still configured with the directory that went away with the client, and `animate`, unlike `checkpoint_to_zarr`, does not check that it exists. For every session and everything done before and after that leaves the setting alone
* **C196** `C196_no_movie_after_failed_start_fails`: the same after a start that failed (for example `start_local_cluster(n_workers=0)`, or a dashboard link without a port): dask keeps the name of a directory that is removed with the failed call, and `animate` raises from then on, also if it worked before
* **C197** `C197_setting_stays_fails`: the setting is not restored. Whatever it was before, the user's own value or the `False` with which the package configures its clusters, it is `True` after an accepted call and stays so until somebody sets it again
* **C197** `C197_order_matters_fails`: so the configuration of a session depends on the order of two calls: a local cluster started after `preprocess_data` has the setting off, one started before it has it on
* **C198** `C198_first_part_fails`: grids: a part tracked by itself loses its first object, which it keeps as a later part of a record. For every two accepted parts, every gap longer than `T_fill`, and an area threshold that every object meets: some cell is extreme in the combined run and not in the run of the part alone
* **C198** `C198_quartile_fails`: with the default `area_filter_quartile = 0.5` the threshold is that of the whole record: the event of a middle part is there or not according to what comes after the gap
* **C199** `C199_quartile_fails`: with the default `area_filter_quartile = 0.5` the threshold is that of the whole map: extremes three columns away (`R_fill` 0), after which nothing within two cells of the event has changed at any step, take an event away
* **C199** `C199_overlap_fails`: with `allow_merging = True`: whether an object continues an event depends on its size, and so on cells far from the event. The event of cells 0–4 at step 3 is unchanged within `6 R_fill + ⌈a⌉ + 1 = 2` cells of all its cells, at all steps; it lasts one step in the first run, and goes on at step 4 in the second
* **C200** `C200_hidden_in_verbose_fails`: for the nine loggers, whatever the application has set: one call of a package function with `verbose` (or `quiet`) given, in verbose mode just as in quiet mode, hides everything less serious than an error
* **C200** `C200_not_given_back_fails`: for the nine loggers: once they have been quietened, no later call of marEx gives them back, not even `configure_logging(disable_external_loggers=False)`
* **C201** `C201_unknown_name_fails`: every other name, given as the level or in the environment, is neither in force nor refused: the level is silently INFO (given as `level`, also in quiet and in verbose mode). The only texts that are refused are two that happen to name something else in the standard library
* **C202** `C202_dataset_fails`: for every dataset: it has chunks but no shape, so all that is logged is that the information could not be logged
* **C203** `C203_completed_fails`: without a bar, a block that ended with an exception is reported as completed, whatever the exception
* **C205** `C205_merges_fails`: with merges: the merge of eight objects at step 1 takes seven new IDs, two are reserved per step, and the last one is given out again at step 4. The objects of steps 3 and 4, which an empty step separates from the others, are then one event with cell 14 of step 0; tracked alone they are not
* **C206** `C206_one_step_chunk_fails`: with chunks of one step the events of a record already over depend on the chunks: cells 0–1 and 3 of step 1, which follow one object of step 0, are one object for the next step when step 1 shares its chunk with step 0, and the object of step 2 does not follow it; alone, cell 3 is followed
* **C206** `C206_mesh_merges_fails`: on meshes with merges: eight objects have merged and are gone after step 1; when two more merge at step 4, one of them gets the ID of a past event, which from then on has cells at step 3 as well
* **C206** `C206_quartile_fails`: with the default `area_filter_quartile = 0.5`, three steps added at the end of a record take an event away that had been over for two steps
* **C207** `C207_area_filter_fails`: of two single cells at the first step the area filter drops the one that comes first on the map
* **C207** `C207_merging_tie_fails`: with merging the middle cell of the merged object, at equal distance from both, goes to the event that comes first on the map
* **C208** `C208_area_filter_fails`: for the area filter on structured grids: of two single cells at the first step it drops the one that is numbered first
* **C208** `C208_merging_tie_fails`: for merges on structured grids: the middle cell of the merged object is equally near to both parents and goes with the one numbered first
* **C208** `C208_mesh_merging_tie_fails`: for merges on meshes, in the same way
* **C211** `C211_grid_first_object_fails`: for every run on a structured grid that found an event: running again on `ID_field > 0` without filling, with an absolute area of at most one cell, always loses a cell that belonged to an event
* **C214** `C214_one_step_chunk_fails`: with chunks of one step the reported merges depend on the chunks: cells 0–1 and 3 of step 1, which follow one object of step 0, are one object when step 1 shares its chunk with step 0, and nothing merges at step 2; alone they are two objects, and they merge

## What partial theorems leave out

* **C05** `C05_rotation_invariance_partial`: Missing: the `2R` columns on each side of the cut.
* **C07** `C07_keeps_exactly_large_partial`: **C07**, what the code does: a cell is extreme after filtering iff it belongs to an object with at least `threshold` cells *and that object is not the first one of the record*. So the property holds for every object but the first, which is always removed.
* **C17** `C17_nearest_cell_partial`: Missing: cells whose nearest parent cell is farther than one bucket size but within `R` (`C17_fails`), and periodic grids whose width is not a multiple of the bucket size (`C17_seam_fails`).
* **C19** `C19_chunking_irrelevant_partial`: Missing: one-step chunks after the first (`C19_fails`).
* **C25** `C25_rotates_partial`: Missing: objects on coarse grids and objects crossing the seam without cells near it (`C25_coarse_grid_fails`, `C25_inner_object_fails`, `C25_pieces_fails`).
* **C26** `C26_minus_one_iff_no_merge_partial`: Missing: that the listed IDs are those of the merging partners (`C26_siblings_fails`).
* **C28** `C28_ids_unique_partial`: Missing: the distance is not always enough (`C28_ids_collide_fails`).
* **C31** `C31_full_circle_recognised_partial`: **C31** for global grids in degrees: the units are recognised exactly when the grid has at least 360 columns.
* **C31** `C31_centroid_range_partial`: **C31** for centroid longitudes in degrees: data on `[0, 360)` gets centroids on `[0, 360)`, the same place on the globe; data on `[-180, 180]` gets them on `[-180, 180]`, unchanged; the latitude is unchanged.
* **C31** `C31_centroid_range_radians_partial`: The same in radians.
* **C33** `C33_smoothed_baseline_partial`: Missing: independence from the first half window of year `y` itself.)
* **C39** `C39_hobday_partial`: Missing from the full statement: "within one bin", which is false, see below.
* **C39** `C39_constant_partial`: Missing: ranks that fall among the anomalies below minus one bin, where the claim is false, see below.
* **C47** `C47_status_partial`: Missing: the table says that every package is available, see `C47_status_fails`.
* **C47** `C47_unknown_missing_partial`: Missing: any relation to what is installed.
* **C47** `C47_profile_partial`: Missing: the checks report every known package as available.
* **C48** `C48_last_call_wins_partial`: Missing: histories in which the package logger is fetched by `get_logger()` for the first time after that call.
* **C50** `C50_fitting_request_partial`: Missing: requests that do not fit.
* **C50** `C50_reduced_request_partial`: Missing: requests for more threads than there are physical cores.
* **C53** `C53_filling_invents_nothing_partial`: Missing: `T_fill > 0` with `R_fill ≥ 2`, where it fails.
* **C55** `C55_degrees_untouched_partial`: **C55**, the part that holds: data in degrees is left as it was.
* **C56** `C56_at_most_three_times_partial`: Missing: the assigned parent is the one with the fewest hops (`C56_fewest_hops_fails`).
* **C56** `C56_connected_cells_partial`: Missing: the parent is the one with the fewest hops (`C56_fewest_hops_fails`).
* **C59** `C59_no_merges_partial`: Missing: records with merges, for which both parts of C59 fail, see above.
* **C66** `C66_cell_area_partial`: **C66**, the part that holds: a cell that does not reach over a pole has its true area, wherever it lies in longitude.
* **C66** `C66_areas_sum_to_sphere_partial`: **C66**: on a grid whose rows fill the globe from pole to pole (`m` rows, `2m` columns, row centres half a cell away from the poles) the cell areas add up to the area of the sphere.
* **C66** `C66_area_positive_partial`: **C66**: away from the poles every cell has a positive area.
* **C69** `C69_hobday_data_monotone_partial`: Missing: anomalies beyond `max_anomaly`, where the claim is false, see below.
* **C71** `C71_zero_anomaly_partial`: Missing: the exact method, where the claim is false, see below.
* **C72** `C72_hobday_missing_partial`: Missing: the first step.
* **C73** `C73_recorded_window_partial`: Missing: the default window on grids.
* **C74** `C74_extremes_in_mask_partial`: Missing: the fixed baseline with the exact method and the shifting baseline, where the claim is false, see below.
* **C75** `C75_percentile_range_partial`: Missing: percentiles above 100 with the approximate method.
* **C76** `C76_anomaly_exists_partial`: Missing from the documented behaviour ("the first `W` years are removed", so that all later steps of a complete record have anomalies): the two cases below.
* **C77** `C77_switches_partial`: C77, partial: a package function called with neither `verbose` nor `quiet` leaves the logging configuration alone; called with both it selects the mode they name, whatever was in force.
* **C79** `C79_context_untouched_partial`: C79, partial: building an exception without extra information leaves the caller's context as it was.
* **C80** `C80_wraps_global_partial`: Missing: see the `_fails` theorems.
* **C81** `C81_panels_partial`: Missing: one step.
* **C82** `C82_distinct_colours_partial`: Missing: no objects, fewer colours than objects.
* **C83** `C83_fresh_partial`: A plot made after the operations `ops` uses the content that the file has then, if the file was not written since it was first loaded (or since the cache was last cleared).
* **C84** `C84_limits_of_data_partial`: Missing: the values at the other steps, so C84 holds for records of one step only.
* **C85** `C85_succeeds_within_limits_partial`: Missing: larger merges (`C85_too_many_parents_fails`, `C85_table_sizes_fails`).
* **C85** `C85_cells_follow_parents_partial`: **C85**, which piece a cell belongs to (`nn_partitioning=True`): `R` is twice the square root of the largest parent area in units of the mean cell area, rounded down, but at least 20. A cell of the merged object that lies on a parent goes to the piece of that parent. A cell connected to a parent by at most `2 R` hops inside the object goes to a parent at most three times as many hops away as the nearest.
* **C87** `C87_open_close_partial`: Missing: the `2R` rows and columns next to the edges, where it is false (`C05_rotation_invariance_fails`, `C87_edge_fails`).
* **C87** `C87_window_partial`: Missing for C87: the window should reach `4R` cells (`C87_edge_fails`).
* **C93** `C93_dataset_rows_partial`: Missing: merges of more than 127 objects.
* **C97** `C97_timing_transparent_partial`: Missing: verbose mode on a clock that does not advance, where the property fails (`C97_zero_duration_fails`).
* **C97** `C97_decorated_call_partial`: Missing: arguments that cannot be shown (`C97_unshowable_argument_fails`).
* **C97** `C97_memory_partial`: Missing: see `C97_memory_unreadable_fails`.
* **C102** `C102_frame_is_panel_partial`: Missing: data all around the globe, other projections, other names (see the `_fails` theorems).
* **C110** `C110_mesh_events_without_gaps_partial`: Missing: records whose new object IDs repeat in time (`C28_ids_collide_fails`), for which one event can be made of objects that never overlap.
* **C111** `C111_mesh_tracked_events_partial`: Missing: that the IDs are always unique in time, which is false (`C28_ids_collide_fails`).
* **C116** `C116_approximate_days_partial`: Missing: agreement to one bin (`C39_hobday_one_bin_fails`), samples at or beyond `max_anomaly`, percentile 100 and windows of one day or more than two years.
* **C116** `C116_approximate_constant_partial`: Missing: cells with other values, where `t` can be far off (`C39_constant_fails`).
* **C117** `C117_constant_monotone_bounded_partial`: Missing from the full statement: percentiles that sit exactly 10⁻¹⁰ above a cumulative fraction, where the code's comparisons `>=` and `<` disagree.
* **C120** `C120_attributes_partial`: Missing: input attributes of these names.
* **C123** `C123_rejections_partial`: C123: every rejection is a data validation error, except that unstructured data given neither coordinates nor an x dimension raise KeyError.
* **C124** `C124_fraction_partial`: Missing: equality with the kept share (`C124_fraction_of_kept_fails`, `C124_all_at_threshold_fails`) and records of which nothing is kept (`C124_nothing_kept_raises_fails`, `C124_one_object_fails`).
* **C127** `C127_reported_count_absolute_partial`: Missing: thresholds below 5, where `C127_reported_count_absolute_fails`.
* **C130** `C130_one_child_per_parent_partial`: Missing: children with several linked parents, which remain when the merge loop hits its iteration limit (`C130_shared_child_fails`).
* **C131** `C131_first_save_crash_partial`: Missing: directories with an earlier checkpoint (`C131_crash_mixes_checkpoints_fails`).
* **C132** `C132_latitude_edges_not_joined_partial`: Missing: the `4R` rows next to the edges.
* **C133** `C133_limits_ordered_partial`: Missing: a lower percentile of 0.
* **C134** `C134_table_built_partial`: **C134**: the table is built whenever the record has at most 100 steps and all IDs are below `max_objects`.
* **C138** `C138_increasing_in_days_partial`: Missing: times of the same day.)
* **C139** `C139_dataset_unchanged_partial`: Missing: such failures, `cleanup=True`, DataArrays (see the `_fails` theorems).
* **C139** `C139_dataarray_unchanged_partial`: C139 (DataArrays), partial: a DataArray checkpointed without `cleanup` is readable afterwards and unchanged if the chunks along time can be stored as they are, or if writing fails for another reason.
* **C141** `C141_longer_span_partial`: C141: a record spanning more than `W` calendar years leaves a non-empty output, so together with the error the output is empty only in the boundary case above.
* **C153** `C153_loss_before_update_partial`: **C153**, the part that holds: results of the parallel step that are lost before the store is updated are computed again as they were.
* **C154** `C154_one_after_another_partial`: **C154**, the part that holds: trackers run one after the other with one `temp_dir` do not influence each other. Whatever earlier runs did to the store, finished or broken off anywhere (`history`: any sequence of changes), a run from the constructor on that nobody interferes with gives the result of the algorithm in memory.
* **C155** `C155_table_in_chunks_partial`: Missing: tables held in memory, for which it is false (`C155_table_in_memory_fails`).
* **C156** `C156_single_chunks_run_partial`: Missing: other layouts, for which it is false (`C156_chunked_table_fails`, `C156_chunked_areas_fails`, `C156_table_of_other_size_fails`).
* **C157** `C157_without_merges_partial`: Missing: records of one step, and records with merges, which can raise (C59, C85, C134).
* **C158** `C158_grid_time_coordinate_partial`: **C158** on structured grids: whatever the name of the time coordinate, the events of every constructed tracker carry it under that name, with the values of the record, with merging and without.
* **C158** `C158_mesh_time_coordinate_partial`: Missing: every other name (`C158_mesh_own_name_fails`).
* **C159** `C159_merges_returned_partial`: Missing: trackers without `allow_merging` (`C159_no_merges_returned_fails`).
* **C160** `C160_errors_shown_partial`: **C160**, what holds: whatever trackers were constructed before, an error message of the scheduler that contains none of the three known texts is shown.
* **C160** `C160_debug_shows_all_partial`: **C160**, what holds: as long as only trackers with debug level 2 or more were constructed, the messages of the scheduler are shown as without marEx.
* **C160** `C160_hidden_errors_partial`: **C160**, what holds: debug levels 0 and 1 differ in what they hide of the error messages: level 0 hides the three known texts, level 1 only `run_spec`.
* **C163** `C163_unit_exact_partial`: Missing: the approximate percentiles, for which it is false.
* **C164** `C164_before_merges_partial`: Missing: events that reach the first merge or come later (`C164_merging_tie_fails`), and the preprocessing (`C05_rotation_invariance_fails`, `C164_area_filter_fails`).
* **C164** `C164_group_partial`: Missing: groups with merges (`C164_merging_tie_fails`), and the preprocessing (`C05_rotation_invariance_fails`, `C164_area_filter_fails`).
* **C164** `C164_merging_partial`: Missing: records with merges (`C164_merging_tie_fails`), and the preprocessing (`C05_rotation_invariance_fails`, `C164_area_filter_fails`).
* **C164** `C164_objects_partial`: **C164**, the part that holds (objects): two cells belong to the same object iff they do on a map of the globe that is cut elsewhere.
* **C164** `C164_events_partial`: Missing: the preprocessing, which depends on the cut (see `C05_rotation_invariance_fails` and `C164_area_filter_fails`), and events with merging, which depend on it too (`C164_merging_tie_fails`).
* **C167** `C167_mesh_areas_partial`: Missing: larger objects, see below.
* **C168** `C168_same_bin_partial`: Missing: the other percentiles, see below.
* **C170** `C170_same_coordinates_partial`: Missing: runs with merging and records with both coordinates (see the `_fails` theorems).
* **C171** `C171_grid_workflow_partial`: Missing: that cluster.
* **C173** `C173_accepted_names_partial`: Missing: the other accepted names.
* **C173** `C173_stage_partial`: Missing: C173 asks that none of the later stops occur.
* **C174** `C174_exact_constant_partial`: Missing: smaller meshes.
* **C175** `C175_time_chunk_partial`: Missing: entries for the other dimensions, see below.
* **C175** `C175_thresholds_partial`: Missing: the spatial dimensions, see below.
* **C176** `C176_warning_true_partial`: Missing: that it warns whenever this is so, see below.
* **C177** `C177_single_partial`: Missing: several packages (`C177_several_fails`).
* **C178** `C178_documented_variables_partial`: Missing: gridded records of one step.
* **C179** `C179_counts_partial`: Missing: finer precisions.
* **C180** `C180_threshold_partial`: Missing: samples closer to `max_anomaly` (`C180_below_max_anomaly_fails`) and other percentiles (`C168_82nd_percentile_fails`).
* **C182** `C182_mesh_partial`: Missing: the error of the filter says that there are no objects also for records whose objects are all small (`C182_small_objects_fails`).
* **C184** `C184_grid_without_filling_partial`: Missing: `R_fill ≥ 1`.
* **C184** `C184_mesh_without_filling_partial`: Missing: `R_fill ≥ 1`.
* **C187** `C187_grid_absolute_partial`: Missing: the steps up to the second run's first event, where the lost first object (C07) may be a larger one (`C187_first_object_fails`), and `T_fill` from 0 to a positive number with `R_fill` above 1 (`C187_first_T_fill_fails`).
* **C188** `C188_grid_workflow_partial`: Missing: the steps up to that first event, where the lost first object (C07) may be a larger one with the smaller percentile.
* **C189** `C189_pieces_partial`: Missing: those cells, see below.
* **C190** `C190_objects_partial`: Missing: chunks of one step (`C19_fails`).
* **C190** `C190_empty_steps_partial`: Missing: chunks of one step (`C19_fails`).
* **C190** `C190_mesh_partial`: Missing: records with merges, where the result depends on the chunks (`C59_result_depends_on_chunks_fails`), and `T_fill > 0` beside land, where empty steps can get extremes (`C53_filling_invents_nothing_fails`).
* **C190** `C190_table_partial`: Missing: chunks of one step (`C190_one_step_chunk_fails`).
* **C190** `C190_run_table_partial`: Missing: chunks of one step (`C190_one_step_chunk_fails`).
* **C191** `C191_events_partial`: Missing: records with merges, see below.
* **C192** `C192_before_merges_partial`: Missing: events that reach the first merge or come later (`C192_links_fails`).
* **C192** `C192_group_partial`: Missing: groups with merges (`C192_links_fails`).
* **C192** `C192_grid_partial`: Missing: records with merges, where the objects after the merge differ, see below.
* **C192** `C192_mesh_partial`: **C192**, the part that holds (meshes): if a run reports no merge, every other way to divide merged objects gives the same field, events, object table and links.
* **C193** `C193_mesh_partial`: Missing: records with merges, see below.
* **C193** `C193_grid_partial`: **C193**, the part that holds (grids, `allow_merging=False`): the threshold has no effect.
* **C194** `C194_pieces_partial`: Missing: steps with ten merges (`C194_limit_fails`), and that united pieces do not continue two objects together (`C194_united_fails`).
* **C195** `C195_readable_iff_partial`: Missing: the directory may go while the session lasts (`C195_lost_with_client_fails`).
* **C196** `C196_frames_have_a_place_partial`: Missing: sessions in which the directory was removed or a start failed (`C196_no_movie_after_client_fails`, `C196_no_movie_after_failed_start_fails`).
* **C196** `C196_configure_iff_partial`: Missing: that last case, in which the property is false.
* **C197** `C197_one_setting_partial`: Missing: that setting (`C197_setting_stays_fails`).
* **C198** `C198_middle_part_partial`: Missing: the first part of a record, which loses its first object (`C198_first_part_fails`), the quartile criterion (`C198_quartile_fails`), and the events with merging, for which see `C198_middle_part_merging_partial`.
* **C198** `C198_ledger_partial`: Missing: as in `C198_middle_part_merging_partial`; that the entries are those of the merging partners (`C26_siblings_fails`).
* **C198** `C198_middle_part_merging_partial`: Missing: as in `C198_middle_part_partial`, the first part of a record and the quartile criterion; chunks of one step (`C190_one_step_chunk_fails`).
* **C198** `C198_mesh_preprocessing_partial`: Missing: the quartile criterion, whose threshold is that of the whole record, parts that are refused alone because their objects are all small (`C182_small_objects_fails`) and `T_fill > 0` beside land (`C53_filling_invents_nothing_fails`).
* **C198** `C198_mesh_parts_partial`: Missing: as for the preprocessing above, and records with merges, where IDs can be given twice (`C110_mesh_gap_fails`: one event before and after an empty step).
* **C199** `C199_far_away_partial`: Missing: `area_filter_quartile` (`C199_quartile_fails`), events that begin before both runs have had another one (the first object of a record is dropped, C07), `allow_merging = True` (`C199_overlap_fails`; `C199_far_away_merging_partial`) and meshes (`C199_mesh_far_away_partial`).
* **C199** `C199_merges_partial`: Missing: as in `C199_far_away_merging_partial`.
* **C199** `C199_ledger_partial`: Missing: as in `C199_far_away_merging_partial`; that the entries are those of the merging partners (`C26_siblings_fails`).
* **C199** `C199_far_away_merging_partial`: Missing: single events that share cells with others (`C199_overlap_fails`), `area_filter_quartile` (`C199_quartile_fails`), groups that begin before both runs have had another object (C07), and meshes (`C199_mesh_far_away_partial`).
* **C199** `C199_mesh_far_away_partial`: Missing: runs with merges, where IDs can be given twice (`C205_merges_fails`), and `area_filter_quartile` (`C199_quartile_fails`).
* **C200** `C200_others_untouched_partial`: Missing: those nine are changed for good, see `C200_not_given_back_fails`.
* **C200** `C200_errors_stay_partial`: Missing: less serious messages, see `C200_hidden_in_verbose_fails`.
* **C201** `C201_known_level_partial`: Missing: any other name, see `C201_unknown_name_fails`.
* **C202** `C202_array_partial`: Missing: datasets, see `C202_dataset_fails`.
* **C203** `C203_bar_partial`: Missing: the report is made whatever happened, see `C203_completed_fails`.
* **C205** `C205_mesh_group_alone_partial`: Missing: records with merges (`C205_merges_fails`).
* **C206** `C206_over_merging_partial`: Missing: chunks of one step (`C206_one_step_chunk_fails`).
* **C206** `C206_never_separated_merging_partial`: Missing: chunks of one step (`C206_one_step_chunk_fails`).
* **C206** `C206_over_mesh_partial`: Missing: records with merges (`C206_mesh_merges_fails`).
* **C206** `C206_run_merging_partial`: Missing: chunks of one step (`C206_one_step_chunk_fails`), and the quartile criterion (`C206_quartile_fails`).
* **C206** `C206_run_without_merging_partial`: Missing: the quartile criterion (`C206_quartile_fails`).
* **C206** `C206_run_mesh_partial`: Missing: runs with merges (`C206_mesh_merges_fails`) and the quartile criterion (`C206_quartile_fails`).
* **C206** `C206_table_partial`: Missing: chunks of one step (`C206_one_step_chunk_fails`).
* **C207** `C207_before_merges_partial`: Missing: events that reach the first merge or come later (`C207_merging_tie_fails`).
* **C207** `C207_group_partial`: Missing: groups with merges (`C207_merging_tie_fails`).
* **C207** `C207_run_partial`: Missing: records whose first extremes form several objects, of which the area filter drops the first (`C207_area_filter_fails`).
* **C207** `C207_merging_partial`: Missing: records with merges (`C207_merging_tie_fails`).
* **C207** `C207_run_merging_partial`: Missing: records with merges (`C207_merging_tie_fails`), and records whose first extremes form several objects (`C207_area_filter_fails`).
* **C208** `C208_events_merging_partial`: Missing: records with merges (`C208_merging_tie_fails`).
* **C208** `C208_run_partial`: Missing: records with merges (`C208_merging_tie_fails`), and records whose first extremes form several objects, of which the filter drops the one numbered first (`C208_area_filter_fails`).
* **C208** `C208_mesh_run_partial`: Missing: records with merges (`C208_mesh_merging_tie_fails`).
* **C211** `C211_grid_partial`: Missing: that object, which is always lost (`C211_grid_first_object_fails`), and the events that meet it.
* **C211** `C211_grid_without_merging_partial`: Missing: the first object and the events that meet it.
* **C214** `C214_reported_partial`: Missing: chunks of one step (`C214_one_step_chunk_fails`).
* **C214** `C214_columns_partial`: Missing: chunks of one step (`C214_one_step_chunk_fails`).
* **C214** `C214_run_partial`: Missing: chunks of one step (`C214_one_step_chunk_fails`), and the quartile criterion (`C206_quartile_fails`).
* **C214** `C214_ledger_partial`: Missing: chunks of one step (`C214_one_step_chunk_fails`); that the entries are those of the merging partners (`C26_siblings_fails`).
