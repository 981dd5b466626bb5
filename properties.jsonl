{"id": "C01", "title": "OrderedCollection behaves like an insertion-ordered map", "statement": "After any sequence of add, remove (by id or by position), replace (by id, with an id that is new to the collection), remake and clear, a collection lists exactly the objects that are in it, each once, in insertion order with replacements in place; len, iteration, membership, lookup by id, lookup by position and index() all agree with that list.", "quantifier": "every finite sequence of operations, every object identity assignment, every collection size", "why_tests_cant": "interleavings of removal holes, replacement and compaction are unbounded; tests only sample a few short sequences", "anchors": ["py_gnome/gnome/utilities/orderedcollection.py: OrderedCollection.add, remove, replace, remake, get, index, __iter__, __len__, __contains__, clear"]}
{"id": "C02", "title": "Replacing by position replaces the object shown at that position", "statement": "coll[i] = x replaces the object that coll[i] returned just before, and nothing else, for every reachable collection and every valid position i.", "quantifier": "every reachable collection (including after removals), every position", "why_tests_cant": "the fault needs a removal followed by a positional replacement without compaction; the state space of holes is unbounded", "anchors": ["py_gnome/gnome/utilities/orderedcollection.py: OrderedCollection.replace, get, __setitem__"]}
{"id": "C03", "title": "Replacement keeps one entry per object", "statement": "After any replace the collection never shows the same object twice and never keeps an object in values() that iteration and len do not show.", "quantifier": "every reachable collection and every replacement object, including one already stored elsewhere in the collection", "why_tests_cant": "needs the universally quantified uniqueness invariant over histories, not a sample", "anchors": ["py_gnome/gnome/utilities/orderedcollection.py: OrderedCollection.replace, values, __iter__, __len__"]}
{"id": "C04", "title": "Collection events match observable changes", "statement": "Each successful add of an object not yet present fires exactly one 'add' callback with it, re-adding fires none; remove fires one 'remove' with the removed object and replace one 'replace' with the new one; failed operations fire none. Replaying the fired add and remove events over a plain list reproduces the collection for histories without replace and clear (a replace event does not name the object that left, clear fires no event).", "quantifier": "every operation history and every set of registered callbacks", "why_tests_cant": "event/state agreement is a history property", "anchors": ["py_gnome/gnome/utilities/orderedcollection.py: add, remove, replace, register_callback, fire_event, clear"]}
{"id": "C05", "title": "Infinite dates are totally ordered with all finite dates", "statement": "InfDateTime('-inf') < every datetime < InfDateTime('inf'); with the comparison operators of these objects <, <=, >, >=, ==, != form one total order on {-inf} ∪ datetimes ∪ {inf}, whichever side the infinite object is on.", "quantifier": "all pairs and triples of values", "why_tests_cant": "total-order laws quantify over all triples of dates", "anchors": ["py_gnome/gnome/utilities/inf_datetime.py: InfTime, MinusInfTime, InfDateTime"]}
{"id": "C06", "title": "A process is active exactly when the step midpoint lies in its active range", "statement": "prepare_for_model_step makes a mover active iff it is on and the midpoint of the step lies within [active_start, active_stop]; the active_range setter accepts exactly the pairs with start < stop, so a mover left at the default range is active at every step, and over consecutive equal steps the active steps form one contiguous block.", "quantifier": "every model time, step size, active range (finite or infinite ends)", "why_tests_cant": "quantifies over all schedules and range positions relative to the step grid", "anchors": ["py_gnome/gnome/movers/movers.py: Process._check_active_startstop, Process.prepare_for_model_step", "py_gnome/gnome/utilities/inf_datetime.py"]}
{"id": "C07", "title": "Loading a cached step returns what was saved for it", "statement": "With the disk cache enabled, after any history of saves (for possibly different step numbers, with or without an uncertain container) load_timestep(n) returns the data arrays, mass balance and time stamp most recently saved for step n, for both certain and uncertain containers, provided no mass-balance key has the name of a data array; and raises CacheError when step n was never saved since the last rewind.", "quantifier": "every history of save_timestep / load_timestep / rewind, every data content", "why_tests_cant": "histories and key sets are unbounded; in-memory and on-disk paths must agree", "anchors": ["py_gnome/gnome/utilities/cache.py: ElementCache.save_timestep, load_timestep, rewind, _set_weathering_data, _get_weathering_data"]}
{"id": "C08", "title": "Cache file names do not collide", "statement": "Two different (step number, certain/uncertain) pairs never use the same cache file.", "quantifier": "all non-negative step numbers, including those with more than six digits", "why_tests_cant": "infinitely many step numbers; padding overflow starts past what tests run", "anchors": ["py_gnome/gnome/utilities/cache.py: ElementCache._make_filename"]}
{"id": "C09", "title": "A disabled cache serves only the most recent step", "statement": "With the disk cache disabled throughout, load_timestep(n) succeeds iff n is the step saved last since the last rewind.", "quantifier": "every history of saves, loads and rewinds", "why_tests_cant": "history property", "anchors": ["py_gnome/gnome/utilities/cache.py: save_timestep, load_timestep, rewind"]}
{"id": "C10", "title": "Saved uncertain data belongs to the save that wrote the certain data", "statement": "load_timestep(n) never combines the certain container of one save with the uncertain container of a different, earlier save of step n.", "quantifier": "every history of saves with uncertainty toggled between saves", "why_tests_cant": "needs a history with re-saving of the same step under different settings", "anchors": ["py_gnome/gnome/utilities/cache.py: save_timestep, load_timestep"]}
{"id": "C11", "title": "Model clock is start time plus step count times time step", "statement": "In every state reachable through step, rewind and the start_time / time_step / duration / run_backwards / uncertain setters, model_time = start_time + n·time_step where n = current_time_step, with n read as 0 before the first step.", "quantifier": "every sequence of API calls, every time step sign and size, any duration", "why_tests_cant": "sequences of setter calls and steps are unbounded", "anchors": ["py_gnome/gnome/model.py: Model.step, rewind, time_step, start_time, duration, run_backwards, current_time_step"]}
{"id": "C12", "title": "Number of time steps always reflects duration and time step", "statement": "num_time_steps = 1 + floor(duration/time_step) in every reachable state, whichever of duration, time_step and run_backwards was set last.", "quantifier": "every sequence of setter calls and every sign combination", "why_tests_cant": "the bad state needs a particular order of sign changes; only an invariant over all setter sequences settles it", "anchors": ["py_gnome/gnome/model.py: Model._reset_num_time_steps, duration, time_step, run_backwards, __init__"]}
{"id": "C13", "title": "A full run produces one output per time step and then stops", "statement": "full_run() returns max(1, num_time_steps) outputs numbered 0,1,2,… with step times start, start+dt, …; the last one is flagged as last step; after it every further step() raises StopIteration and changes nothing.", "quantifier": "every duration and time step, any state before the run", "why_tests_cant": "unbounded run lengths", "anchors": ["py_gnome/gnome/model.py: Model.full_run, step, write_output, rewind"]}
{"id": "C14", "title": "Changing a setting mid-run restarts the run", "statement": "Setting start_time, time_step, map, or changing uncertain or run_backwards puts the model back before step 0 at start_time; shortening the run via duration also does, in either time direction.", "quantifier": "every reachable state, every new value", "why_tests_cant": "quantifies over all mid-run states and both signs of duration", "anchors": ["py_gnome/gnome/model.py: setters of Model"]}
{"id": "C15", "title": "Weathering sub-steps tile the model step", "statement": "The sub-steps used for weathering start at model_time, are contiguous, each have positive length, their lengths add up to exactly the (whole-second) time step, all but possibly the last have the same length floor(time_step/n); when more sub-steps than seconds are requested the split is rejected with an error.", "quantifier": "every positive whole-second time step and every positive number of sub-steps", "why_tests_cant": "arithmetical property over two unbounded integers", "anchors": ["py_gnome/gnome/model.py: Model._split_into_substeps"]}
{"id": "C16", "title": "Cumulative release count is monotone and never exceeds the total", "statement": "For a prepared release, the number of elements due by time t is 0 before release_time, non-decreasing in t, and never more than num_elements for t up to the end of release; at the end of the release it equals num_elements.", "quantifier": "every release time, duration, time step, number of elements and every pair of times", "why_tests_cant": "continuum of times; rounding at breakpoints", "anchors": ["py_gnome/gnome/spills/release.py: Release.generate_release_timeseries, num_elements_after_time, prepare_for_model_run"]}
{"id": "C17", "title": "Number of elements released does not depend on how time is cut into intervals", "statement": "Releasing over consecutive intervals covering [a,b] yields in total exactly as many elements as due at b minus those due at a, for any cut points; hence two runs with different time steps that reach the same end time release the same number when the prepared series is the same.", "quantifier": "every finite increasing list of interval boundaries", "why_tests_cant": "all possible schedules of release calls", "anchors": ["py_gnome/gnome/spills/spill.py: Spill.release_elements", "py_gnome/gnome/spills/release.py: num_elements_after_time", "py_gnome/gnome/model.py: Model.step (two half-step releases)"]}
{"id": "C18", "title": "Released mass equals the spilled amount", "statement": "At the end of the release the sum of the initial masses of all elements released by a spill equals the release mass, and at any time it is (elements released)·(mass/num_elements) ≤ release mass.", "quantifier": "every amount, number of elements and release schedule", "why_tests_cant": "sum over unbounded release schedules", "anchors": ["py_gnome/gnome/spills/release.py: Release.prepare_for_model_run, initialize_elements", "py_gnome/gnome/spills/spill.py: Spill.release_elements"]}
{"id": "C19", "title": "Rewinding a spill and releasing again reproduces the release", "statement": "After rewind, running the same schedule of releases gives the same element counts and initial values as the first run.", "quantifier": "every release schedule before and after rewind", "why_tests_cant": "equality of two whole histories", "anchors": ["py_gnome/gnome/spills/release.py: PointLineRelease.rewind, PolygonRelease.rewind, initialize_elements_post_substance", "py_gnome/gnome/spills/spill.py: Spill.rewind"]}
{"id": "C20", "title": "All element arrays always have the same length", "statement": "After any sequence of releases, element removals, element splits and rewinds, every data array of a spill container has the same number of rows, which is num_released.", "quantifier": "every history, any number of arrays and spills", "why_tests_cant": "history invariant", "anchors": ["py_gnome/gnome/spill_container.py: SpillContainer.release_elements, _append_data_arrays, model_step_is_done, split_element, rewind", "py_gnome/gnome/spills/le.py: LEData.extend_data_arrays"]}
{"id": "C21", "title": "Removal drops exactly the marked elements and keeps order", "statement": "model_step_is_done removes exactly the elements marked to_be_removed from every array, and keeps the remaining rows unchanged and in order; off-map elements are removed in the step they left the map.", "quantifier": "every container content", "why_tests_cant": "every mask over arrays of every size", "anchors": ["py_gnome/gnome/spill_container.py: SpillContainer.model_step_is_done", "py_gnome/gnome/model.py: move_elements"]}
{"id": "C22", "title": "Element ids are unique", "statement": "No two elements alive in a spill container have the same id, unless the element was produced by split_element; ids increase in release order and are never reused in a run.", "quantifier": "every history of releases and removals over several spills", "why_tests_cant": "history property over id counter and removals", "anchors": ["py_gnome/gnome/spill_container.py: SpillContainer.release_elements", "py_gnome/gnome/array_types.py: IdArrayType", "py_gnome/gnome/spills/spill.py: release_elements"]}
{"id": "C23", "title": "Splitting an element conserves mass", "statement": "split_element replaces one element by num copies whose masses add up to the mass of the original (also per component), leaves every other element untouched, and copies all other properties.", "quantifier": "every container, index, num ≥ 2 and list of fractions summing to one", "why_tests_cant": "arbitrary sizes and fractions", "anchors": ["py_gnome/gnome/spill_container.py: SpillContainer.split_element", "py_gnome/gnome/array_types.py: ArrayType.split_element, ArrayTypeDivideOnSplit.split_element"]}
{"id": "C24", "title": "Certain and uncertain containers list corresponding spills", "statement": "With uncertainty on, after any sequence of adding, removing, replacing spills or toggling uncertainty, the certain and uncertain containers hold the same number of spills in the same order, the k-th being a copy of the k-th.", "quantifier": "every sequence of collection operations", "why_tests_cant": "history invariant over two collections", "anchors": ["py_gnome/gnome/spill_container.py: SpillContainerPair._add_item, _add_spill_pair, remove, __setitem__, uncertain"]}
{"id": "C25", "title": "Element data buffer growth never loses or corrupts rows", "statement": "Appending rows to an element data buffer keeps all previous rows unchanged and new rows hold the initial value (before being initialised), across any number of buffer growths.", "quantifier": "every sequence of append sizes", "why_tests_cant": "buffer boundary conditions at each doubling", "anchors": ["py_gnome/gnome/spills/le.py: LEData.extend_data_arrays, initialize_data_arrays"]}
{"id": "C26", "title": "Fate data view writes go back to the same elements", "statement": "Getting the view for a fate, modifying it and updating the container changes exactly the elements of that fate with positive mass and no others, for any interleaving of views of different fates.", "quantifier": "every assignment of fates and masses, every order of view requests", "why_tests_cant": "aliasing depends on history of requests", "anchors": ["py_gnome/gnome/spill_container.py: FateDataView._get_fate_mask, _set_data, get_data, update_sc, reset"]}
{"id": "C27", "title": "Output cadence follows the output time step", "statement": "In a forward run with output_timestep = P and model step dt ≤ P, step k ≥ 1 is written iff the number of whole output intervals elapsed, floor(k·dt/P), increased at step k (so no drift ever accumulates); if P ≤ dt every step is written.", "quantifier": "every dt, P > 0 and every step number", "why_tests_cant": "drift shows only in long runs; all step numbers must be covered", "anchors": ["py_gnome/gnome/outputters/outputter.py: Outputter.prepare_for_model_step, write_output"]}
{"id": "C28", "title": "Output cadence in backward runs mirrors the forward run", "statement": "A backward run (negative time step) writes at the same step numbers as the forward run with the same step size and output time step.", "quantifier": "every dt and P", "why_tests_cant": "only shows for step sizes that do not divide the output interval", "anchors": ["py_gnome/gnome/outputters/outputter.py: prepare_for_model_step"]}
{"id": "C29", "title": "Without output_timestep every step is written", "statement": "If output_timestep is None and no start time or single-step option is set, every step is written, except step 0 when output_zero_step is False (and the last step is written when output_last_step is True).", "quantifier": "every run length and every combination of flags", "why_tests_cant": "flag state persists between steps; needs all histories", "anchors": ["py_gnome/gnome/outputters/outputter.py: prepare_for_model_run, prepare_for_model_step, write_output"]}
{"id": "C30", "title": "No output before output_start_time", "statement": "With output_start_time set, no step before that time is written and the first step at or after it (in the direction of the run) is written.", "quantifier": "every start time, dt of either sign", "why_tests_cant": "relative position of start time to the step grid and direction", "anchors": ["py_gnome/gnome/outputters/outputter.py: prepare_for_model_step"]}
{"id": "C31", "title": "Land check reports a real land pixel on the path", "statement": "When the land check reports a hit, the reported hit pixel is a land pixel inside the raster, the reported last water pixel is the pixel visited just before on the path from the start and is not land (unless it is the start), and the element is marked beached; when it reports no hit, the final position is the requested end position and no visited pixel inside the raster was land.", "quantifier": "every raster, every start and end pixel (also outside the raster)", "why_tests_cant": "unbounded rasters and paths", "anchors": ["py_gnome/gnome/cy_gnome/cy_land_check.pyx: c_find_first_pixel, find_first_pixel, check_land"]}
{"id": "C32", "title": "Pixel walk always terminates at the end pixel", "statement": "The pixel walk between two pixels always terminates, visits max(|dx|,|dy|)+1 pixels, consecutive ones adjacent (8-neighbourhood), beginning at the start and ending at the end pixel, monotone in x and y; and it never reads outside of the raster.", "quantifier": "every pair of integer pixels", "why_tests_cant": "termination and bounds over all integers", "anchors": ["py_gnome/gnome/cy_gnome/cy_land_check.pyx: c_find_first_pixel"]}
{"id": "C33", "title": "Multi-resolution land check agrees with the full-resolution check", "statement": "check_land_layers gives the same result as check_land on the finest raster.", "quantifier": "every raster and move", "why_tests_cant": "depends on geometry of two rasterisations of the same line at different resolutions", "anchors": ["py_gnome/gnome/cy_gnome/cy_land_check.pyx: check_land_layers, check_land", "py_gnome/gnome/maps/map.py: RasterMap.build_coarser_rasters"]}
{"id": "C34", "title": "Response operations work exactly for their active duration", "statement": "For an operation active from S to E, the active durations used for mass removal over consecutive model steps add up to E − S (restricted to the simulated period).", "quantifier": "every alignment of S, E with the step grid, any number of steps", "why_tests_cant": "alignment of two real intervals with a grid", "anchors": ["py_gnome/gnome/weatherers/cleanup.py: RemoveMass._set__timestep, prepare_for_model_step"]}
{"id": "C35", "title": "Marking for removal takes the shortest prefix that holds enough mass", "statement": "Marking elements for a response operation with a target mass marks the shortest prefix of the available elements whose total mass reaches the target, or all of them if they hold less, and no others.", "quantifier": "every list of element masses and target", "why_tests_cant": "arbitrary lists", "anchors": ["py_gnome/gnome/weatherers/cleanup.py: CleanUpBase._update_LE_status_codes"]}
{"id": "C36", "title": "Response operations conserve mass", "statement": "In each skimming/burning/dispersion/beaching step the mass added to the mass-balance entry equals the mass taken from the elements, is never negative and never exceeds the mass available; no component becomes negative.", "quantifier": "every element mass/component table, every rate and efficiency", "why_tests_cant": "real-valued tables of any size", "anchors": ["py_gnome/gnome/weatherers/cleanup.py: Skimmer.weather_elements, Burn.weather_elements, ChemicalDispersion.weather_elements", "py_gnome/gnome/weatherers/manual_beaching.py: Beaching.weather_elements"]}
{"id": "C37", "title": "Manual beaching removes the observed amounts", "statement": "Over a run that covers the active range, manual beaching removes in total the sum of the observed amounts in the series (while enough oil is available), however the observation times fall relative to the model steps.", "quantifier": "every series of observations, every step grid", "why_tests_cant": "piecewise integration over arbitrary grids", "anchors": ["py_gnome/gnome/weatherers/manual_beaching.py: Beaching._remove_mass, timeseries"]}
{"id": "C38", "title": "Elements marked for skimming are marked only once", "statement": "While a skimmer is active, elements are marked for skimming only in the step in which none is marked yet.", "quantifier": "every run", "why_tests_cant": "history property", "anchors": ["py_gnome/gnome/weatherers/cleanup.py: Skimmer.prepare_for_model_step, _update_LE_status_codes"]}
{"id": "C39", "title": "A point is in exactly one of two polygons sharing a boundary", "statement": "If a polygon is cut into two polygons along a common vertex path, a point is reported inside the whole iff it is inside exactly one of the parts – also when it lies on the cut; the answer does not depend on the starting vertex, on orientation, or on repeating the first vertex at the end; and no point outside the bounding box is inside.", "quantifier": "every polygon (any number of vertices) and point, exact arithmetic", "why_tests_cant": "all polygons and boundary coincidences", "anchors": ["py_gnome/gnome/utilities/geometry/c_point_in_polygon.c: c_point_in_poly1"]}
{"id": "C40", "title": "Bounding boxes contain their points and merging gives the least box containing both", "statement": "fromPoints gives the least box containing all points; Merge gives the least box containing both; Overlaps is symmetric and true iff some point is in both; Inside/PointInside agree.", "quantifier": "all boxes and point lists", "why_tests_cant": "lattice laws over all boxes", "anchors": ["py_gnome/gnome/utilities/geometry/BBox.py: BBox, fromPoints, fromBBArray, Merge, Overlaps, Inside, PointInside"]}
{"id": "C41", "title": "A polygon set returns the polygons that were appended", "statement": "After appending any polygons, len is their number, item i is the i-th polygon with its metadata (also by negative index), iteration gives them in order and out-of-range indices raise IndexError; two sets are equal iff they hold equal polygons.", "quantifier": "every list of polygons of any sizes, including empty ones", "why_tests_cant": "offset arithmetic over unbounded histories", "anchors": ["py_gnome/gnome/utilities/geometry/polygons.py: PolygonSet.append, __getitem__, __len__, __iter__, __eq__"]}
{"id": "C42", "title": "Thinning a polygon does not change how it is drawn", "statement": "After thinning at some scale, the sequence of pixels drawn (sequential duplicates dropped) is the same as for the original polygon, the vertices are a subsequence of the original ones, and closedness is preserved.", "quantifier": "every polygon and scale", "why_tests_cant": "all vertex lists", "anchors": ["py_gnome/gnome/utilities/geometry/polygons.py: Polygon.thin"]}
{"id": "C43", "title": "Projection and inverse projection agree", "statement": "to_lonlat(to_pixel(p)) = p for unrounded pixels, to_pixel(to_lonlat(pixel), asint) returns the same integer pixel, and every point of the bounding box falls inside the image.", "quantifier": "every bounding box with positive extent, image size, point, in exact arithmetic", "why_tests_cant": "continuum of inputs", "anchors": ["py_gnome/gnome/utilities/projections.py: GeoProjection, FlatEarthProjection, RegularGridProjection"]}
{"id": "C44", "title": "Plume element generation loses nothing between time steps", "statement": "The elements generated over consecutive time steps add up, per depth, to the number due from the beginning to the end of the last step; counts are never negative, and with the mass per element set from a total count N the total is at most N and more than N − (number of depths).", "quantifier": "every flux profile, release window and step", "why_tests_cant": "rounding accumulates over unbounded steps", "anchors": ["py_gnome/gnome/utilities/plume.py: PlumeGenerator"]}
{"id": "C45", "title": "Weatherers run in the documented order, ties in insertion order", "statement": "The weatherers are ordered by the documented class order, those of equal rank stay in insertion order, none is lost or duplicated; a weatherer class unknown to the order makes setup fail rather than run in arbitrary position.", "quantifier": "every list of weatherers", "why_tests_cant": "all permutations", "anchors": ["py_gnome/gnome/model.py: Model._order_weatherers", "py_gnome/gnome/weatherers/__init__.py: weatherer_sort"]}
{"id": "C46", "title": "round_time rounds to the nearest multiple within the day", "statement": "round_time returns a multiple of the rounding interval (counted from midnight) at distance at most half an interval, ties up, and is idempotent.", "quantifier": "every time and positive rounding interval", "why_tests_cant": "all integers pairs", "anchors": ["py_gnome/gnome/utilities/time_utils.py: round_time"]}
{"id": "C47", "title": "All integration methods agree for constant currents", "statement": "For a velocity field constant in space and time Euler, RK2 and RK4 give the same displacement velocity·dt; for a field uniform in space and linear in time RK2 and RK4 give the exact integral.", "quantifier": "every velocity, time step, position", "why_tests_cant": "identity over reals", "anchors": ["py_gnome/gnome/movers/movers.py: PyMover.get_delta_Euler, get_delta_RK2, get_delta_RK4"]}
{"id": "C48", "title": "Reference dictionary never maps one id to two objects", "statement": "Once an object is registered under an id, storing a different object under that id raises and leaves the registry unchanged; lookups return the object registered first.", "quantifier": "every history of registrations", "why_tests_cant": "history property", "anchors": ["py_gnome/gnome/gnomeobject.py: Refs"]}
{"id": "C49", "title": "The density update at the end of a step reaches the floating elements", "statement": "At the end of every step the density of each floating element with mass is recomputed from its components, temperature and water content and stored with the element, also when other elements are submerged, beached or without mass.", "quantifier": "every mix of fates and masses", "why_tests_cant": "depends on a mix of fates, and the loss is silent", "anchors": ["py_gnome/gnome/ops/density.py: recalc_density", "py_gnome/gnome/spill_container.py: FateDataView.update_sc"]}
{"id": "C50", "title": "Response operations do not depend on the number of weathering sub-steps", "statement": "The amount a response operation (skimming, burning, dispersion) removes in a model step is rate × active duration × efficiency, whatever the number of weathering sub-steps the step is split into.", "quantifier": "every number of sub-steps, every table of elements, every rate", "why_tests_cant": "interaction of two settings that are tested separately; real-valued tables", "anchors": ["py_gnome/gnome/model.py: Model.weather_elements, _split_into_substeps", "py_gnome/gnome/weatherers/cleanup.py: RemoveMass.prepare_for_model_step, Skimmer.weather_elements"]}
{"id": "C51", "title": "Efficiency of a response operation stays usable", "statement": "The efficiency of a response operation is always either unset or a number between 0 and 1, invalid assignments being ignored; and an unset efficiency is usable (computed from waves or wind).", "quantifier": "every sequence of assignments", "why_tests_cant": "history property", "anchors": ["py_gnome/gnome/weatherers/cleanup.py: CleanUpBase.efficiency, ChemicalDispersion.prepare_for_model_step, _set_efficiency"]}
{"id": "C52", "title": "The image box of a projection is the area shown in the image", "statement": "After creating a projection or setting its scale, its image box (bounding_box) is the area of the world shown in the image; in particular it contains the bounding box asked for.", "quantifier": "every bounding box of positive extent, every integer image size, all scaling projections", "why_tests_cant": "continuum of inputs; the error is half a pixel", "anchors": ["py_gnome/gnome/utilities/projections.py: GeoProjection.set_scale, FlatEarthProjection.set_scale, RegularGridProjection.set_scale, image_box"]}
{"id": "C53", "title": "Projecting coordinates does not change the caller's array", "statement": "to_pixel and to_lonlat return the projected coordinates and leave the array given to them as it was, so that calling twice gives the same result and asking for the pixel of an element does not move the element.", "quantifier": "every array and projection", "why_tests_cant": "aliasing between caller and callee is invisible in tests that look at the returned value", "anchors": ["py_gnome/gnome/utilities/projections.py: GeoProjection.to_lonlat, RectangularGridProjection.to_pixel, to_2d_coords"]}
{"id": "C54", "title": "Default references go to the first provider and respect the user's choice", "statement": "When a run is set up, every reference an object requires and that is not set becomes the first object of the model that serves that name, in the order environment, map, movers, weatherers, outputters; references already set and objects that opted out are not touched; a required reference is never left empty when some object of the model serves it; setting up again changes nothing; and a reference attached automatically follows a change of the provider in the model.", "quantifier": "every model composition and every combination of set and unset references", "why_tests_cant": "tests build one or two compositions; the rule quantifies over all collections and orders", "anchors": ["py_gnome/gnome/gnomeobject.py: GnomeId.gather_ref_as, _attach_default_refs", "py_gnome/gnome/model.py: Model._attach_default_refs", "py_gnome/gnome/spills/spill.py: Spill._attach_default_refs"]}
{"id": "C55", "title": "Times survive conversion to seconds and back", "statement": "Converting a time to seconds and back gives the same time, whatever the time zone of the machine; durations between times are preserved and daylight saving time never enters; arrays give the same numbers as scalars.", "quantifier": "every time of whole seconds and every machine time zone", "why_tests_cant": "tests run in one time zone and on a few dates", "anchors": ["py_gnome/gnome/utilities/time_utils.py: date_to_sec, sec_to_datetime, sec_to_date"]}
{"id": "C56", "title": "RK2 and RK4 have their order of accuracy", "statement": "For a steady current that is an affine function of position, the displacement computed by RK2 (RK4) is the Taylor polynomial of the exact trajectory up to the second (fourth) power of the time step.", "quantifier": "every affine current, time step, position and linear conversion of metres to degrees", "why_tests_cant": "tests compare a few trajectories with tolerances that lower order methods also meet", "anchors": ["py_gnome/gnome/movers/movers.py: PyMover.get_delta_RK2, get_delta_RK4"]}
{"id": "C57", "title": "A single output is written once, at the step that reaches the start time", "statement": "With output_single_step, the only steps written are: the initial step if no output start time is set or it is the model's start, otherwise the first later step at or after the output start time; plus the initial and the last step if output_zero_step or output_last_step ask for them. In particular with those off at most one step is written. In a backward run the same holds with times reversed.", "quantifier": "every setting, start time, time step and run length", "why_tests_cant": "the rule depends on the alignment of start time and steps over the whole run", "anchors": ["py_gnome/gnome/outputters/outputter.py: Outputter.prepare_for_model_run, prepare_for_model_step, write_output"]}
{"id": "C58", "title": "A line release puts its elements along its line", "statement": "The elements of a release with a start and an end position lie on the segment between them, in order of release; successive steps join without gap or overlap; the source is at the start until the release time and at the end from the end of the release, and moves at constant speed in between; an instantaneous release is spread over the whole segment whenever it is released.", "quantifier": "every release setting, time step and sequence of intervals", "why_tests_cant": "positions depend on the alignment of intervals, time step and duration", "anchors": ["py_gnome/gnome/spills/release.py: PointLineRelease.generate_release_timeseries, initialize_elements"]}
{"id": "C59", "title": "Changing what a model consists of rewinds it", "statement": "After adding, replacing or removing a mover, weatherer, environment object or spill, or setting the map, the start time or the time step of a model that has been stepped, the model is rewound: the next step is the initial one and every spill takes part in it.", "quantifier": "every model state and every operation on its collections", "why_tests_cant": "tests add objects before the run; the failures need an operation in the middle of one", "anchors": ["py_gnome/gnome/model.py: Model._register_callbacks, _callback_add_mover, _callback_add_weatherer_env, _callback_add_spill, rewind", "py_gnome/gnome/spills/release.py: Release.num_elements_after_time"]}
{"id": "C60", "title": "The environment contains every object that the model's objects refer to", "statement": "Whenever a mover, weatherer or environment object is part of the model, the environment objects it refers to (wind, tide, waves, water, current), directly or through other environment objects, are in the model's environment, each once; and adding an object puts nothing else there.", "quantifier": "every composition and every graph of references, cyclic ones included", "why_tests_cant": "reference graphs are unbounded; tests use one level", "anchors": ["py_gnome/gnome/model.py: Model._add_to_environ_collec, _callback_add_mover, _callback_add_weatherer_env, Model.__init__"]}
{"id": "C61", "title": "Elements are where their status says", "statement": "On a raster map, after any sequence of releases and steps, every element that is in water is at a position that is not land, every element on land is on land, and after a step all remaining elements are within the map bounds and not above the surface; an element is removed exactly if it ends the step outside of the map bounds.", "quantifier": "every raster, projection, coarse layers, movers, random numbers and sequence of releases and steps", "why_tests_cant": "an invariant of the whole run over all maps and moves; tests follow a few elements on one map", "anchors": ["py_gnome/gnome/maps/map.py: RasterMap.beach_elements, _set_off_map_status, resurface_airborne_elements, refloat_elements", "py_gnome/gnome/model.py: Model.move_elements, release_elements", "py_gnome/gnome/cy_gnome/cy_land_check.pyx: check_land_layers"]}
{"id": "C62", "title": "Beached elements stay put and refloat to their last position in water", "statement": "An element on land does not move while it is on land; in a step it refloats exactly if the random number drawn for it allows; it then continues from its last position in water before it hit the land (at its depth), next to the place where it beached.", "quantifier": "every state of the container, half-life, random numbers and moves", "why_tests_cant": "depends on the history of an element over several steps", "anchors": ["py_gnome/gnome/maps/map.py: RasterMap.refloat_elements, beach_elements", "py_gnome/gnome/model.py: Model.release_elements, move_elements"]}
{"id": "C63", "title": "The oil budget is closed", "statement": "At the end of every step, the mass released so far is the mass in the elements plus the mass that left the map plus the mass lost to weathering; 'beached' is the mass of the elements on land.", "quantifier": "every run: map, moves, random numbers, losses", "why_tests_cant": "an accounting identity over the whole run; tests check the entries one by one in runs where nothing leaves the map", "anchors": ["py_gnome/gnome/model.py: Model.move_elements, weather_elements, step", "py_gnome/gnome/maps/map.py: GnomeMap._set_off_map_status, ParamMap.beach_elements", "py_gnome/gnome/spill_container.py: FateDataView, SpillContainer.model_step_is_done"]}
{"id": "C64", "title": "The fate of an element follows its status and depth", "statement": "After a step, the fate of an element that is in water and not subject to a response is surface weathering if it is at the surface and subsurface weathering if it is below; elements on land and of substances that do not weather have fate non-weathering; other elements keep their fate.", "quantifier": "every container state and move", "why_tests_cant": "depends on the order of the updates within a step", "anchors": ["py_gnome/gnome/model.py: Model.move_elements, _update_fate_status"]}
{"id": "C65", "title": "Half-lives mean half-lives", "statement": "The probability that a beached element is still on land after a time T is one half to the power T / half-life however T is divided into steps; a negative half-life means never and zero means at once. The half-life weatherer leaves of every component the fraction one half to the power T / half-life however T is divided into steps, and an element's mass is the sum of its components.", "quantifier": "every half-life, every sequence of time steps, every number of components; the joint distribution of the random numbers", "why_tests_cant": "a statement about probabilities and real exponents for all divisions into steps", "anchors": ["py_gnome/gnome/maps/map.py: RasterMap.refloat_elements", "py_gnome/gnome/weatherers/core.py: HalfLifeWeatherer.weather_elements, Weatherer._halflife"]}
{"id": "C66", "title": "The questions one can ask a map agree with each other", "statement": "For every point, on_land and on_land_points give the same answer, which is that of the raster, false off the raster; in_water is true exactly for points on the map that are not on land; allowable_spill_position is true exactly for points on the map, not on land and within the spillable area if there is one.", "quantifier": "every raster, projection, bounds, spillable area and point", "why_tests_cant": "the answers come from separate code paths; the difference shows only at points off the raster or for certain raster values", "anchors": ["py_gnome/gnome/maps/map.py: RasterMap.on_land, on_land_points, in_water, _in_water_pixel, allowable_spill_position"]}
{"id": "C67", "title": "Longitudes are brought to the convention asked for", "statement": "convert_longitude gives the same meridian in the range asked for, does not change longitudes already in it, and the two conversions undo each other; a map read with shift_lons has all its land and its bounds in that range.", "quantifier": "every longitude; every set of polygons and map bounds", "why_tests_cant": "the failure depends on the signs of all points of the map together", "anchors": ["py_gnome/gnome/utilities/__init__.py: convert_longitude", "py_gnome/gnome/maps/map.py: ShiftLon360, ShiftLon180, MapFromBNA"]}
{"id": "C68", "title": "Elements are on a tide flat exactly while it is dry", "statement": "With a tide flat map, after every step an element that is not beached is marked as on the tide flat if and only if the place where it is is dry at the time of the step; it stays at its place as long as that is dry and moves as an element in water in the step in which it is flooded.", "quantifier": "every map, tide flat (any function of place and time), movers and sequence of steps", "why_tests_cant": "depends on the history of the element and the tide over several steps", "anchors": ["py_gnome/gnome/maps/tideflat_map.py: TideflatMap.beach_elements, refloat_elements, SimpleTideflat.is_dry", "py_gnome/gnome/model.py: Model.move_elements"]}
{"id": "C69", "title": "A map from a rectangular grid has its land where the grid has it", "statement": "For a map made from a land mask and two coordinate axes, a point is on land exactly if the mask is land for the cell that contains it, whatever the refinement; points outside of the grid are not on land; converting to pixels and back gives the same place.", "quantifier": "every mask, every pair of increasing axes (also with unequal spacing), every refinement and point", "why_tests_cant": "continuum of points and axes; errors of one cell at the edges are easily missed", "anchors": ["py_gnome/gnome/maps/map.py: map_from_rectangular_grid, refine_axis", "py_gnome/gnome/utilities/projections.py: RectangularGridProjection.to_pixel, to_lonlat"]}
{"id": "C70", "title": "A time series means its values and the lines between them", "statement": "For a time series with ascending times, the value at each of its times is exactly the one given; between two neighbouring times each component lies between the two given values and within 1e-5 of the straight line; outside of its times the request is refused or, when extrapolation is allowed, answered with the nearest end value; a single value holds for all times.", "quantifier": "every ascending series of any length, every time, both settings", "why_tests_cant": "binary search and special cases for one and two values; all lengths and all times", "anchors": ["py_gnome/lib_gnome/OSSMTimeValue_c.cpp: GetTimeValue, GetInterpolatedComponent, ClampToTimeRange, GetTimeChange", "py_gnome/gnome/cy_gnome/cy_ossm_time.pyx: CyOSSMTime.get_time_value"]}
{"id": "C71", "title": "Only time series with ascending times are taken", "statement": "A time series whose times are not strictly ascending is refused however it is handed over, so that every series that is taken has a value at each of its times.", "quantifier": "every series, as an array or as a list", "why_tests_cant": "the check must hold for all series and all ways to hand them over", "anchors": ["py_gnome/gnome/utilities/timeseries.py: Timeseries._check_timeseries, _timeseries_is_ascending"]}
{"id": "C72", "title": "The running average of a wind is its average over the past hours", "statement": "At each of its times the running average is the average by hourly steps of the wind's speed over the given past hours, times before the data counting with the first value; so it lies between the least and the greatest speed, and a steady wind has its own speed as its running average.", "quantifier": "every ascending wind series, number of hours greater than zero and model time within the data", "why_tests_cant": "depends on where the model time lies relative to the data and on values left over from earlier iterations", "anchors": ["py_gnome/lib_gnome/OSSMTimeValue_c.cpp: CalculateRunningAverage", "py_gnome/gnome/environment/running_average.py: RunningAverage"]}
{"id": "C73", "title": "The wind applied is the wind given", "statement": "A wind made from data in any unit of speed, as (u, v) or as speed and direction and however the coordinates are named, applies at each of the given times the given velocity in metres per second.", "quantifier": "every series, unit and way to name the coordinates", "why_tests_cant": "all combinations of units, coordinates and their names", "anchors": ["py_gnome/gnome/environment/wind.py: Wind.__init__, new_set_timeseries, set_wind_data, _convert_units", "py_gnome/gnome/utilities/convert.py: to_time_value_pair"]}
{"id": "C74", "title": "The data a wind reports describe the wind it applies", "statement": "Whatever a user does to a wind (set its series, its data, its units, its time zone), the series it reports and saves, read in the units it reports, is the wind it applies; so saving and loading gives the same wind, and a change of time zone moves the times only.", "quantifier": "every sequence of such operations", "why_tests_cant": "an invariant over all sequences of operations", "anchors": ["py_gnome/gnome/environment/wind.py: Wind.timeseries, units, set_wind_data, _set_timezone_offset, WindSchema"]}
{"id": "C75", "title": "Making a wind does not change the caller's data", "statement": "The array or list handed to a wind is afterwards what it was before, so that two winds made from the same data are the same.", "quantifier": "every series, unit and coordinates", "why_tests_cant": "depends on aliasing between the caller's array and the working copy", "anchors": ["py_gnome/gnome/environment/wind.py: Wind.new_set_timeseries, set_wind_data, _convert_units", "py_gnome/gnome/utilities/timeseries.py: Timeseries._xform_input_timeseries"]}
{"id": "C76", "title": "Data that are refused leave the wind as it was", "statement": "When setting the series or the data of a wind raises an exception, the wind reports and applies afterwards what it did before.", "quantifier": "every wind and every series that is refused", "why_tests_cant": "all ways for a call to fail at all points", "anchors": ["py_gnome/gnome/environment/wind.py: Wind.new_set_timeseries, set_wind_data"]}
{"id": "C77", "title": "Asking a wind for values does not change it", "statement": "Every question for the wind at some time, with or without a word on extrapolation, is answered as it would be on its own, also after questions that failed, and the wind, including its own setting for extrapolation, is as it was.", "quantifier": "every wind and every sequence of questions", "why_tests_cant": "sequences of questions mixing failures and settings", "anchors": ["py_gnome/gnome/environment/wind.py: Wind.at"]}
{"id": "C78", "title": "A wind file is read as what it says, however it is loaded", "statement": "A wind file with a header of three, four or five lines gives the place, units, time zone and rows that are written in it; a row with a mistake is refused; and `Wind(filename=...)` and `Wind.from_file(...)` give the same wind.", "quantifier": "every file, with any number of rows and blank lines and either way to write years and directions", "why_tests_cant": "unbounded files, and the reader guesses what a line is from its contents", "anchors": ["py_gnome/gnome/environment/wind.py: read_ossm_format, _read_ossm_header, _read_ossm_data_line, Wind.__init__, Wind.from_file"]}
{"id": "C79", "title": "What is loaded from a save file is what was saved", "statement": "Saving an object and loading it back gives an object with the same data, the same contents of data files and the same references, at any depth: an object shared by several others is loaded once and shared again, and different objects stay different. Saving does not disturb files that are in the archive already.", "quantifier": "every graph of objects without cycles, all names and all data files", "why_tests_cant": "graphs of any size and shape with any clash of names between objects and data files", "anchors": ["py_gnome/gnome/gnomeobject.py: GnomeId.save, GnomeId.load", "py_gnome/gnome/persist/base_schema.py: ObjType.save, ObjType._save, ObjType.load, ObjType._deser, hydrate_json, _process_supporting_file, gen_unique_filename"]}
{"id": "C80", "title": "Equality of objects is an equivalence that never fails", "statement": "Two objects are equal exactly if they are of the same class and agree in every attribute that counts, floats and arrays up to the documented tolerance, nested objects likewise; every object equals itself, a == b and b == a are the same, and comparing does not raise an exception.", "quantifier": "all objects with any nesting of attributes", "why_tests_cant": "recursion through nested objects of any depth and all combinations of types of attributes", "anchors": ["py_gnome/gnome/gnomeobject.py: GnomeId.__eq__, GnomeId._diff, GnomeId.__ne__"]}
{"id": "C81", "title": "An update changes what it is given and reports truly", "statement": "Updating an object from a dictionary gives the attributes in the dictionary the values there and leaves all others, and all that may not be updated, as they were; it returns True exactly if something changed; and an update that fails leaves the object as it was.", "quantifier": "every object, schema and dictionary", "why_tests_cant": "all combinations of attributes, with aliasing between old and new lists and failures at any point", "anchors": ["py_gnome/gnome/gnomeobject.py: GnomeId.update_from_dict, GnomeId._attr_changed", "py_gnome/gnome/persist/base_schema.py: ObjTypeSchema.process_subnode"]}
{"id": "C82", "title": "Natural weathering takes from the elements what it reports", "statement": "In each step of evaporation, natural dispersion with sedimentation, dissolution and biodegradation, the mass added to the entries of the mass balance is the mass that the elements lose together; it is not negative, no component of an element grows or becomes negative, and the masses stay numbers.", "quantifier": "every set of elements, oil, wind and waves, any length of step", "why_tests_cant": "nonlinear formulas over real parameters of any size, including oils heavier than water", "anchors": ["py_gnome/gnome/weatherers/evaporation.py: Evaporation.weather_elements", "py_gnome/gnome/weatherers/natural_dispersion.py: NaturalDispersion.weather_elements, disperse_oil_DS, disperse_oil_Li", "py_gnome/gnome/weatherers/dissolution.py: Dissolution.weather_elements", "py_gnome/gnome/weatherers/bio_degradation.py: Biodegradation.weather_elements"]}
{"id": "C83", "title": "Weathering treats an element the same whatever elements are beside it", "statement": "What a natural weathering process does to an element in a step depends on that element, the oil and the conditions at its place, not on how many or which other elements there are.", "quantifier": "every element and every two sets of elements that contain it", "why_tests_cant": "compares runs with different sets of elements", "anchors": ["py_gnome/gnome/weatherers/natural_dispersion.py: NaturalDispersion.weather_elements", "py_gnome/gnome/weatherers/dissolution.py: slick_subsurface_mass_xfer_rate", "py_gnome/gnome/weatherers/evaporation.py: Evaporation.weather_elements", "py_gnome/gnome/weatherers/emulsification.py: Emulsification.weather_elements", "py_gnome/gnome/weatherers/bio_degradation.py: Biodegradation.weather_elements"]}
{"id": "C84", "title": "Emulsification only adds water, up to the maximum of the oil, once it has begun", "statement": "The water content of an element is zero until the oil's time or evaporated fraction for emulsification is reached, grows in wind from then on, never falls, and is never above the oil's maximum; the reported water content is the mass-weighted mean.", "quantifier": "every oil with a maximum between 0 and 1, every sequence of steps and winds", "why_tests_cant": "a monotonicity over all runs, with thresholds in time and in evaporated fraction", "anchors": ["py_gnome/gnome/weatherers/emulsification.py: Emulsification.weather_elements_adios2, _water_uptake_coeff", "py_gnome/lib_gnome/Weatherers_c.cpp: emulsify"]}
{"id": "C85", "title": "The fractions evaporated and lost say what they mean", "statement": "At every time 'frac_evap' of an element is the part of its initial mass that evaporated and 'frac_lost' the part that is gone; the former is never more than the latter, and the evaporated masses of all elements add up to 'evaporated' in the mass balance.", "quantifier": "every sequence of evaporation and other losses", "why_tests_cant": "an invariant over any interleaving of processes", "anchors": ["py_gnome/gnome/weatherers/evaporation.py: Evaporation.weather_elements", "py_gnome/gnome/weatherers/__init__.py: sort_order"]}
{"id": "C86", "title": "Spreading never makes a slick smaller", "statement": "In a run the area an element covers by spreading ('fay_area') never decreases, whatever happens to its mass, density, age or fate and whatever is released beside it. A step of spreading raises it to no more than the volume of the element at its present density over the thickness limit, raises it strictly for floating oil past the first phase and thicker than the limit, and leaves it alone for other oil.", "quantifier": "every run of any length, every interleaving of releases, spreading, Langmuir and other processes", "why_tests_cant": "an invariant over runs of any length with changes by other processes in between", "anchors": ["py_gnome/gnome/weatherers/spreading.py: FayGravityViscous.weather_elements, update_area", "py_gnome/gnome/spills/release.py: Release.initialize_elements_post_substance"]}
{"id": "C87", "title": "Oil never gets thinner than the thickness limit", "statement": "Spreading stops at the thickness limit of the oil: at every time of a run the volume of an element over its area is at least the limit.", "quantifier": "every run of any length", "why_tests_cant": "depends on the whole history of areas and densities", "anchors": ["py_gnome/gnome/weatherers/spreading.py: FayGravityViscous.weather_elements, init_area", "py_gnome/gnome/spills/release.py: Release.initialize_elements_post_substance"]}
{"id": "C88", "title": "A step of spreading follows Fay's law and the diffusive law", "statement": "Below the limit, the area of a blob grows in a time step by the step times the sum of two rates: that of Fay's gravity-viscous law A = C sqrt(t) at the time at which this law gives the present area, and that of the diffusive law A = K t^(7/6) at the time at which that one does; an element gains its share of the volume. The first phase lasts until the gravity-inertial and the gravity-viscous laws agree, and oil is released with the area at that time.", "quantifier": "all volumes, buoyancies, areas and time steps", "why_tests_cant": "a differential law; sampling areas does not establish it", "anchors": ["py_gnome/gnome/weatherers/spreading.py: FayGravityViscous.update_area"]}
{"id": "C89", "title": "More viscous oil has no lower thickness limit", "statement": "The thickness limit lies between 0.01 mm and 0.1 mm and does not decrease with the viscosity of the oil.", "quantifier": "all viscosities", "why_tests_cant": "a statement about all pairs of real numbers, false only in a narrow range", "anchors": ["py_gnome/gnome/weatherers/spreading.py: FayGravityViscous.get_thickness_limit"]}
{"id": "C90", "title": "Oil just released covers Fay's initial area", "statement": "The elements released at once cover together the area documented for the end of the first phase of spreading, with the viscosity of water, and each its share of the volume; in a continuous release the blob is all the oil released until then. Oil lighter than water covers a positive area from its release on; denser oil is refused.", "quantifier": "all volumes, densities, viscosities, numbers of elements, continuous and instantaneous releases at every time", "why_tests_cant": "sums over any number of elements and all real parameters", "anchors": ["py_gnome/gnome/spills/release.py: Release.initialize_elements_post_substance", "py_gnome/gnome/weatherers/spreading.py: FayGravityViscous.init_area, _set_init_relative_buoyancy"]}
{"id": "C91", "title": "How oil spreads depends on itself only", "statement": "The spreading of the oil of a spill does not depend on other spills, and the spreading of an element does not depend on what happens to other elements of its spill.", "quantifier": "every set of elements and spills", "why_tests_cant": "quantifies over all sets of other elements", "anchors": ["py_gnome/gnome/weatherers/spreading.py: FayGravityViscous.weather_elements, update_area"]}
{"id": "C92", "title": "Langmuir circulation reduces the area within bounds and with the wind", "statement": "Langmuir leaves floating oil between a tenth and all of its area by spreading; with more wind the oil never covers more, thicker oil never covers less, and the two wind speeds reported as bounds of the effect are such that below the lower one all of the slick is covered, between them the part of the formula, and above the upper one a tenth. Oil at least as dense as the water covers a tenth in any wind.", "quantifier": "all winds, densities, thicknesses, elements", "why_tests_cant": "monotonicity over the reals with the exceptional cases of division by zero and NaN", "anchors": ["py_gnome/gnome/weatherers/spreading.py: Langmuir.weather_elements, _get_frac_coverage, _wind_speed_bound"]}
{"id": "C93", "title": "The coverage of a slick comes from its own wind and thickness", "statement": "In calm air floating oil covers all of its slick. The coverage of the oil of a spill does not depend on other spills and the wind over them, and the thickness it comes from is that of the floating oil of the spill.", "quantifier": "every run, every wind field", "why_tests_cant": "quantifies over all other spills and histories of beaching", "anchors": ["py_gnome/gnome/weatherers/spreading.py: Langmuir.weather_elements, _get_frac_coverage"]}
{"id": "C94", "title": "A mover moves only elements in the water, and none when it is not active", "statement": "Each of the movers (simple, current, wind, point wind, random, ice-aware random, rise velocity, 3D random) returns one move for every element; it is zero for elements that do not float in the water, and all are zero and nothing fails when the mover is not active. With any number of movers in a model, an element that does not float stays where it is.", "quantifier": "all sets of elements, all lists of movers, all parameters, fields and random numbers", "why_tests_cant": "quantifies over all combinations of movers, elements, velocity fields and random numbers", "anchors": ["py_gnome/gnome/movers/simple_mover.py: SimpleMover.get_move", "py_gnome/gnome/movers/py_current_movers.py: CurrentMover.get_move", "py_gnome/gnome/movers/py_wind_movers.py: WindMover.get_move", "py_gnome/gnome/movers/c_wind_movers.py: PointWindMover.get_move", "py_gnome/gnome/movers/movers.py: CyMover.get_move", "py_gnome/gnome/movers/random_movers.py: IceAwareRandomMover.get_move", "py_gnome/gnome/movers/vertical_movers.py: RiseVelocityMover.get_move", "py_gnome/lib_gnome/Random_c.cpp: get_move", "py_gnome/lib_gnome/RandomVertical_c.cpp: get_move", "py_gnome/lib_gnome/RiseVelocity_c.cpp: get_move", "py_gnome/lib_gnome/WindMover_c.cpp: get_move", "py_gnome/gnome/model.py: Model.move_elements"]}
{"id": "C95", "title": "Wind moves only elements at the surface", "statement": "No wind mover moves an element that is below the surface of the water, whatever the kind of wind (point or gridded), the numerical method and the uncertainty.", "quantifier": "all winds, elements, methods, steps, draws", "why_tests_cant": "quantifies over all velocity fields and all stages of the numerical methods", "anchors": ["py_gnome/gnome/movers/py_wind_movers.py: WindMover.get_move", "py_gnome/gnome/environment/environment_objects.py: GridWind.at", "py_gnome/gnome/environment/wind.py: Wind.at", "py_gnome/lib_gnome/WindMover_c.cpp: GetMove", "py_gnome/gnome/movers/movers.py: PyMover.delta_method"]}
{"id": "C96", "title": "Current uncertainty perturbs along and across the flow within the given fractions", "statement": "The move of an element by an uncertain current differs from the certain one by the fraction drawn of its length along the flow and by the fraction drawn across it, both within the parameters of the mover; every deviation within them is possible; the vertical part is not changed.", "quantifier": "all currents, draws and parameters", "why_tests_cant": "a geometric identity over the reals and all draws", "anchors": ["py_gnome/gnome/movers/py_current_movers.py: CurrentMover._add_uncertainty, _update_uncertainty_values, get_move"]}
{"id": "C97", "title": "Uncertainty drawn for an element stays with the element", "statement": "Between two redraws, an element keeps the numbers drawn for it while other elements are released and removed, and no two elements share a row.", "quantifier": "all runs: every sequence of releases, removals, inactive and active steps", "why_tests_cant": "sequences of arbitrary length with removals in between", "anchors": ["py_gnome/gnome/movers/py_current_movers.py: CurrentMover.prepare_for_model_step, model_step_is_done, _update_uncertainty", "py_gnome/gnome/movers/py_wind_movers.py: WindMover.prepare_for_model_step, model_step_is_done, update_uncertainty"]}
{"id": "C98", "title": "Uncertainty begins after the delay, and the bookkeeping never fails", "statement": "An uncertain mover perturbs nothing until the delay has passed since the start of the model, every element afterwards, and no sequence of releases and removals makes it fail.", "quantifier": "all runs, delays, durations, steps", "why_tests_cant": "sequences of arbitrary length; the failure needs a removal in a particular window", "anchors": ["py_gnome/gnome/movers/py_current_movers.py: CurrentMover.prepare_for_model_step, model_step_is_done", "py_gnome/gnome/movers/py_wind_movers.py: WindMover.prepare_for_model_step, model_step_is_done"]}
{"id": "C99", "title": "Windage stays in its range and its effect does not depend on the step", "statement": "The windage of every element is at all times within the range set for it; with infinite persistence it is what was drawn at the release; with finite persistence the spread of the distance travelled in a given time does not depend on the length of the time step. Ranges the wrong way round are refused.", "quantifier": "all runs: releases with all ranges and persistences, steps of all lengths, all draws", "why_tests_cant": "quantifies over draws and step lengths; random tests hit the range with high probability only", "anchors": ["py_gnome/gnome/utilities/rand.py: random_with_persistance", "py_gnome/gnome/spills/initializers.py: InitWindages.initialize", "py_gnome/gnome/movers/c_wind_movers.py: WindMoversBase.prepare_for_model_step", "py_gnome/gnome/movers/py_wind_movers.py: WindMover.prepare_for_model_step"]}
{"id": "C100", "title": "Wind uncertainty is the same in both wind movers, unbiased, and turns by at most 60 degrees", "statement": "Given the same wind and the same random numbers, PointWindMover and WindMover move an uncertain element alike; along the wind the perturbed wind has on average the speed of the wind; a draw that was accepted turns the wind by at most 60 degrees for as long as it is used.", "quantifier": "all winds, draws, times, scales", "why_tests_cant": "an average over all draws and a comparison of two implementations over the reals", "anchors": ["py_gnome/gnome/movers/py_wind_movers.py: WindMover.add_uncertainty, update_uncertainty, update_uncertainty_values", "py_gnome/lib_gnome/WindMover_c.cpp: AddUncertainty"]}
{"id": "C101", "title": "Diffusion spreads elements by twice the coefficient times the step", "statement": "In each step of RandomMover the mean square of the displacement of an element along each axis is 2 D dt (D the diffusion coefficient, times the uncertainty factor for uncertain elements), without drift, forward and backward in time, so that the spread over a given time does not depend on the length of the step; submerged elements are not moved.", "quantifier": "all coefficients, factors, steps, latitudes", "why_tests_cant": "an integral over all draws; a sample has a sampling error larger than the deviation", "anchors": ["py_gnome/lib_gnome/Random_c.cpp: GetMove, PrepareForModelStep", "py_gnome/lib_gnome/CompFunctions.cpp: GetRandomVectorInUnitCircle", "py_gnome/gnome/movers/random_movers.py: RandomMover"]}
{"id": "C102", "title": "Vertical mixing keeps elements in the water column", "statement": "RandomMover3D leaves every element between the surface and the bottom; it puts elements at the surface back into the water unless the surface is allowed, in which case it leaves them there; with no mixing below the mixed layer no element leaves the layer; it works in backward runs.", "quantifier": "all parameters, depths, steps and draws", "why_tests_cant": "reflections off two boundaries for all real draws", "anchors": ["py_gnome/lib_gnome/RandomVertical_c.cpp: GetMove", "py_gnome/gnome/movers/random_movers.py: RandomMover3D", "py_gnome/gnome/cy_gnome/movers.pxd: RandomVertical_c.get_move"]}
{"id": "C103", "title": "Ice follows the 80/20 rule", "statement": "Below 20 % ice an element moves as in open water, from 80 % up with the ice and without wind and diffusion, in between in proportion without jumps; an element is not affected by the ice around other elements.", "quantifier": "all concentrations, velocities and sets of elements", "why_tests_cant": "continuity and independence of all other elements", "anchors": ["py_gnome/gnome/environment/environment_objects.py: IceAwareCurrent.at, IceAwareWind.at", "py_gnome/gnome/movers/random_movers.py: IceAwareRandomMover.get_move"]}
{"id": "C104", "title": "The triangle reported for a point contains it, and every point of the grid has one", "statement": "Looking up a point in a triangular grid gives a triangle that contains the point, or none; a point that lies in some triangle of the grid is found.", "quantifier": "all grids, search trees and points", "why_tests_cant": "the search walks a tree of half planes of arbitrary depth; points on vertices and in bays of the boundary are rare in tests", "anchors": ["py_gnome/lib_gnome/DagTreeIO.cpp: WhatTriIsPtIn, Right_or_Left_of_Segment, FindTriThirdPoint", "py_gnome/lib_gnome/MakeDagTree.cpp: split, BuildSideList, Right_or_Left"]}
{"id": "C105", "title": "Building the search structure of a grid ends, and so does every search in it", "statement": "For every grid and whichever sides are picked first, the search structure is built; each record refers to records after it or to none, so that the search for any point ends after at most as many steps as there are records, with the answer of the tree the structure stands for.", "quantifier": "all topologies", "why_tests_cant": "structural invariant of a recursive construction of arbitrary size", "anchors": ["py_gnome/lib_gnome/MakeDagTree.cpp: MakeDagTree, split, newNodexx, ConvertSegNoToTopIndex", "py_gnome/lib_gnome/DagTreeIO.cpp: WhatTriIsPtIn"]}
{"id": "C106", "title": "Interpolation in a triangle is the linear one", "statement": "The value interpolated at a point in a triangle is that of the one linear function through the three vertices: exact at vertices, between the smallest and the largest of the values, continuous across sides.", "quantifier": "all triangles, points, values", "why_tests_cant": "for all real positions and values", "anchors": ["py_gnome/lib_gnome/TriGridVel_c.cpp: GetInterpolationValues", "py_gnome/lib_gnome/TimeGridVel_c.cpp: TimeGridVelTri_c::GetScaledPatValue"]}
{"id": "C107", "title": "Currents on triangles are those of the file", "statement": "With data on cells a point in a triangle has the current of that triangle; with data on nodes the interpolated one; outside the grid there is none.", "quantifier": "all grids, data and points", "why_tests_cant": "off-by-one at a single index of arbitrarily many; vertices", "anchors": ["py_gnome/lib_gnome/TimeGridVel_c.cpp: TimeGridVelTri_c::GetScaledPatValue", "py_gnome/lib_gnome/TriGridVel_c.cpp: GetDepthAtPoint"]}
{"id": "C108", "title": "The weights of the corners of a cell sum to one and are not negative", "statement": "The bilinear weights of the four corners of a cell of a curvilinear grid for a point in the range of the corners are not negative and sum to one, and reproduce bilinear fields on rectangles.", "quantifier": "all cells, points", "why_tests_cant": "for all real corners; fails only for cells that lean one way", "anchors": ["py_gnome/lib_gnome/TriGridVel_c.cpp: GetBilinearInterpolationValues, GetRectCornersFromTriIndexOrPoint"]}
{"id": "C109", "title": "Scaled currents of a CatsMover have the given speed at the reference point", "statement": "With scaling on, the current at the reference point has the speed given times the value of the tide, and everywhere at the surface it is the pattern of the file times one factor; with scaling off it is the pattern times the tide; a step fails exactly if the scaling is impossible or there is no value of the tide; below the surface and outside nothing moves; the velocities shown are those used.", "quantifier": "all patterns, settings, tides, times and places", "why_tests_cant": "for all real patterns and settings", "anchors": ["py_gnome/lib_gnome/CATSMover_c.cpp: ComputeVelocityScale, PrepareForModelStep, GetScaledPatValue, GetMove", "py_gnome/gnome/movers/c_current_movers.py: CatsMover.get_scaled_velocities", "py_gnome/gnome/cy_gnome/cy_cats_mover.pyx"]}
{"id": "C110", "title": "Removing a tide undoes setting it", "statement": "After a tide of a CatsMover has been removed the settings are as before it was set, and after it has been replaced they are as if only the new tide had been set.", "quantifier": "all movers and tides", "why_tests_cant": "a law between sequences of calls, for all earlier settings", "anchors": ["py_gnome/gnome/movers/c_current_movers.py: CatsMover.tide", "py_gnome/gnome/cy_gnome/cy_cats_mover.pyx: set_shio, set_ossm, unset_tide, ref_point"]}
{"id": "C111", "title": "Changing the time zone of a release moves it as a whole", "statement": "When the time zone of a release is changed, its beginning and its end both move by the difference of the zones, its duration and everything else stay, and going back to the old zone undoes the change; a change that is refused leaves the release as it was; after an update the release is at the times given in the update.", "quantifier": "all releases and time zones", "why_tests_cant": "all pairs of offsets and both kinds of releases; order of assignments", "anchors": ["py_gnome/gnome/spills/release.py: Release.timezone_offset, Release._set_timezone_offset, Release.end_release_time, BaseReleaseSchema", "py_gnome/gnome/gnomeobject.py: GnomeId.update_from_dict"]}
{"id": "C112", "title": "A release always has one number of elements and an end not before its beginning", "statement": "After any sequence of assignments to a release, accepted or refused, exactly one of the total number of elements and the number in each step is set, the one assigned last, and the end of the release is not before its beginning; the constructor refuses anything else.", "quantifier": "all sequences of assignments of any length", "why_tests_cant": "invariant over unbounded sequences of setters, including refused ones", "anchors": ["py_gnome/gnome/spills/release.py: Release.__init__, num_elements, num_per_timestep, end_release_time, release_time, timezone_offset"]}
{"id": "C113", "title": "The amount of a spill is what was given, in any units", "statement": "The amount assigned to a spill is the amount shown and its mass is that of the amount; assigning the amount shown changes nothing; other units show the same mass; uncertainty changes the amount by a factor between 1/3 and 5/3 if it is on and a direction is given, and otherwise not; another substance keeps the amount; a spill made of a release has the mass of the release.", "quantifier": "all spills, amounts, units, densities and scales", "why_tests_cant": "algebraic laws for all values", "anchors": ["py_gnome/gnome/spills/spill.py: Spill.__init__, amount, units, substance, set_amount_uncertainty", "py_gnome/gnome/spills/release.py: Release.release_mass"]}
{"id": "C114", "title": "A polygon release puts elements in its polygons, in proportion to area, weight or volume", "statement": "Every element of a polygon release is in one of its polygons, at the surface, whatever is drawn. Within a triangle of a polygon the chance of being in any set is the area of the part of the triangle in the set over that of the triangle; polygons are chosen in proportion to their areas, to the weights given, or to their areas times thicknesses; weights of the wrong number or not summing to one are refused; an even thickness is the same as none.", "quantifier": "all polygons, triangulations, weights, thicknesses, draws and measurable or other sets", "why_tests_cant": "a statement about probability measures on the plane", "anchors": ["py_gnome/gnome/spills/release.py: PolygonRelease.get_polys_as_tris, compute_distribution, prepare_for_model_run, initialize_elements", "py_gnome/gnome/utilities/geometry/geo_routines.py: random_pt_in_tri, poly_area_weight"]}
{"id": "C115", "title": "A release at given positions gives every position its share", "statement": "Every new element of a release with custom positions gets one of those positions, and every position gets the number of elements over the number of positions, rounded down, or more by at most the remainder, whatever is drawn.", "quantifier": "all lists of positions, numbers of elements and draws", "why_tests_cant": "for all sizes and random draws", "anchors": ["py_gnome/gnome/spills/release.py: Release.initialize_elements"]}
{"id": "C116", "title": "A grid release puts one element at each point of an even grid over its bounds", "statement": "The elements of a grid release are at the points of an even grid, as many as the resolution says, no two at the same place, within the bounds, with all four corners, and their mean is the centroid shown; a single number as resolution gives about its square of points, about as far apart both ways.", "quantifier": "all bounds and resolutions", "why_tests_cant": "for all sizes; rounding at extreme shapes", "anchors": ["py_gnome/gnome/spills/release.py: GridRelease"]}
{"id": "C117", "title": "Velocity to speed and direction and back is the identity", "statement": "Speeds made of velocities are not negative and directions are from 0 to below 360 degrees; converting back gives the velocity up to the rounding to 14 decimals; a positive speed and a direction converted to a velocity and back are themselves, 360 degrees being 0; winds are named by where they come from, currents by where they go; directions outside 0 to 360 and negative speeds are refused, nothing else.", "quantifier": "all velocities, speeds and directions, arrays of any length", "why_tests_cant": "an identity of real functions on all quadrants", "anchors": ["py_gnome/gnome/utilities/transforms.py: r_theta_to_uv_wind, uv_to_r_theta_wind, r_theta_to_uv_current, uv_to_r_theta_current"]}
{"id": "C118", "title": "Uncertain wind speeds are quantiles of the Rayleigh distribution about the wind", "statement": "The quantile is the inverse of the distribution and the density its derivative; uncertainty of the wind speed multiplies all speeds by one factor and leaves directions, is refused without a direction or for scales outside (0, 1/2], and changes speeds upwards to more and downwards to less wind, by a finite factor.", "quantifier": "all speeds, series and scales", "why_tests_cant": "real analysis; small and extreme scales", "anchors": ["py_gnome/gnome/utilities/distributions.py: RayleighDistribution", "py_gnome/gnome/environment/wind.py: Wind.set_speed_uncertainty"]}
{"id": "C119", "title": "Every element of a spill is in exactly one of its contours", "statement": "Given increasing cutoffs for a spill, every element of the spill is in exactly one contour, with elements of that spill only, between the cutoffs on both sides, the last without an upper end.", "quantifier": "all cutoffs and elements", "why_tests_cant": "partition of all values; boundary cases", "anchors": ["py_gnome/gnome/utilities/hull.py: calculate_contours"]}
{"id": "C120", "title": "Sizes drawn from a bounded Weibull distribution are within the bounds, and can be drawn", "statement": "Whatever is drawn, a size is between the bounds given, and the first draw between them is taken; the fraction below a size is an increasing distribution; bounds that are accepted leave a chance of a size between them.", "quantifier": "all parameters, bounds and draws", "why_tests_cant": "a loop without a bound on its length", "anchors": ["py_gnome/gnome/utilities/distributions.py: WeibullDistribution", "py_gnome/gnome/utilities/compute_fraction.py: fraction_below_d"]}
{"id": "C121", "title": "The density of an oil follows its measurements", "statement": "At a temperature at which fresh oil was measured the density is the one measured; between measurements it lies between them, warmer oil is never denser, below the pour point it does not change, the order of the measurements does not matter and those of weathered oil do not count; asking for many temperatures gives what asking one by one gives; the density changes continuously with the temperature.", "quantifier": "all lists of measurements and all temperatures", "why_tests_cant": "monotony and continuity of a function over all temperatures and records", "anchors": ["py_gnome/gnome/spills/gnome_oil.py: density_at_temp, vol_expansion_coeff, GnomeOil.density_at_temp, bounding_temperatures, get_densities, _get_reference_densities, _vol_expansion_coeff"]}
{"id": "C122", "title": "The viscosity of an oil follows its measurements", "statement": "Oil measured at one or two temperatures has the viscosities measured there, and oil measured on an exponential curve has that viscosity at every temperature; viscosities are positive and fall with temperature if the measurements do; they do not depend on how the fit is solved nor on what was asked before; an oil always answers from the measurements it has.", "quantifier": "all lists of measurements and all temperatures", "why_tests_cant": "real analysis and least squares for any number of measurements; a cache", "anchors": ["py_gnome/gnome/spills/gnome_oil.py: GnomeOil.kvis_at_temp, determine_visc_constants"]}
{"id": "C123", "title": "New elements of an oil have the density and viscosity of the oil in the water of the model", "statement": "New elements of an oil get its density, not above that of the water, its viscosity, both at the temperature of the water in the environment given, and the components of the oil in proportion to their mass; the elements already there stay as they are.", "quantifier": "all oils, waters, environments and elements", "why_tests_cant": "an argument that is not passed on; for all oils and temperatures", "anchors": ["py_gnome/gnome/spills/gnome_oil.py: GnomeOil.initialize_elements", "py_gnome/gnome/ops/density.py: init_density", "py_gnome/gnome/ops/viscosity.py: init_viscosity"]}
{"id": "C124", "title": "Weathered oil floats, and gets denser as it loses its light components", "statement": "Updating the density never makes an element denser than the water; fresh oil keeps the density of new elements; the density is between those of the lightest and heaviest components; losing components lighter than the oil on average makes it denser; taking up water brings it closer to the density of the water and never beyond.", "quantifier": "all oils, component masses and water contents", "why_tests_cant": "inequalities for any number of components", "anchors": ["py_gnome/gnome/ops/density.py: recalc_density", "py_gnome/gnome/spills/gnome_oil.py"]}
{"id": "C125", "title": "The averages and amounts of the mass balance are those of the elements", "statement": "The averages of density and viscosity reported are averages by mass, between the extremes of the elements and exact in the case of equal values; with no mass left the last ones stay; what floats is the mass in the water at the surface; the amount released is the mass of everything released so far whatever happened since, and never falls; the amount not weathering is that of elements marked so.", "quantifier": "all elements and sequences of releases and changes", "why_tests_cant": "invariant over unbounded runs", "anchors": ["py_gnome/gnome/ops/aggregated_data.py: aggregate"]}
{"id": "C126", "title": "Weathering thickens the oil", "statement": "The viscosity of an element is that of the fresh oil at the temperature of the water, is never less than it, never falls with evaporation or water taken up, and is the documented function of both.", "quantifier": "all viscosities, fractions evaporated and water contents", "why_tests_cant": "monotony of real functions in several arguments", "anchors": ["py_gnome/gnome/ops/viscosity.py: recalc_viscosity, _get_kv1_weathering_visc_update"]}
{"id": "C127", "title": "Waves given by their height are those of the wind that would raise them", "statement": "Giving as wave height the height of the waves that a wind of at least 4.43 m/s raises over unlimited fetch gives the same wave height, whitecaps and period as that wind, whatever the actual wind.", "quantifier": "all wind speeds and salinities", "why_tests_cant": "an identity of real functions", "anchors": ["py_gnome/gnome/environment/waves.py: Waves.get_value, pseudo_wind, mean_wave_period", "py_gnome/gnome/utilities/weathering/adios2.py: Adios2"]}
{"id": "C128", "title": "More wind or a longer fetch never makes lower waves", "statement": "Wave heights are between 0 and 30 m; they do not fall with the wind nor with the fetch, and are highest with unlimited fetch.", "quantifier": "all wind speeds and fetches", "why_tests_cant": "monotony across the thresholds of piecewise formulas", "anchors": ["py_gnome/gnome/environment/waves.py: Waves.compute_H", "py_gnome/gnome/utilities/weathering/adios2.py: Adios2.wave_height"]}
{"id": "C129", "title": "Whitecaps cover a fraction that grows with the wind", "statement": "The fraction of the sea covered by whitecaps is between 0 and 1, grows with the wind without jumps, and is less in saltier water, with the documented decay constants; the wind used for emulsification is the greater of the actual one and that of the waves given.", "quantifier": "all wind speeds and salinities", "why_tests_cant": "monotony and continuity of a piecewise function", "anchors": ["py_gnome/gnome/environment/waves.py: Waves.whitecap_fraction, get_emulsification_wind", "py_gnome/gnome/utilities/weathering/lehr_simecek.py", "py_gnome/gnome/utilities/weathering/monahan.py"]}
{"id": "C130", "title": "The properties of the water are returned in the unit asked for", "statement": "What is asked of the water comes in the unit asked for, or in SI; a value set in a unit is returned in that unit as it was given, without changing any other; after any sequence of assignments all units are valid; units not valid for a property are refused and leave the water as it was; as an environment object the water has its value at every point.", "quantifier": "all waters, units, values and sequences of assignments", "why_tests_cant": "invariants and conversions for all values; partial updates", "anchors": ["py_gnome/gnome/environment/water.py: Water.get, Water.set, Water.units, Water.density, WaterProperty"]}
{"id": "C131", "title": "What is read from a netCDF output file is what was written", "statement": "Reading the step with a given index, or the step nearest to a given time, from a netCDF output file returns the time and the arrays of the elements that were written for that step, for the forecast as for the uncertain file; the mass balance of a step is the one written for it; indices outside of the file are refused.", "quantifier": "all runs, of any number of steps with any numbers of elements at each, with or without uncertainty, and all indices and times", "why_tests_cant": "ragged arrays: the place of a step in the file depends on all the steps before it, for both containers", "anchors": ["py_gnome/gnome/outputters/netcdf.py: NetCDFOutput.write_output, prepare_for_model_run, read_data"]}
{"id": "C132", "title": "Which arrays a netCDF file has depends on which_data and the run", "statement": "The arrays written are the standard ones, all, or most of those of the run, as asked for by which_data at that run, whatever was run before; positions are always written.", "quantifier": "all sequences of runs with any sets of arrays and any which_data", "why_tests_cant": "a set changed in place from run to run: histories are unbounded", "anchors": ["py_gnome/gnome/outputters/netcdf.py: NetCDFOutput._update_arrays_to_output, which_data"]}
{"id": "C133", "title": "A gridded current at any time is interpolated from its records, whatever was asked for before", "statement": "The velocity that a c_GridCurrentMover uses at a time is interpolated linearly between the records before and after that time, of one file or a list of files, is that of the first or last record before or after all of them if extrapolation is allowed, and is refused otherwise, whatever the times asked for before; it is the same for data on cells and on nodes, whatever the time offset.", "quantifier": "all files and lists of files of any numbers of records, and all sequences of times and settings of extrapolation", "why_tests_cant": "a cache of two records with indices relative to a current file; the histories of queries are unbounded", "anchors": ["py_gnome/lib_gnome/TimeGridVel_c.cpp: TimeGridVel_c::CheckInterval, SetInterval, CheckAndScanFile, TimeGridVelRect_c::GetScaledPatValue, TimeGridVelCurv_c::GetInterpolatedValue", "py_gnome/gnome/movers/c_current_movers.py: c_GridCurrentMover"]}
{"id": "C134", "title": "The numerical methods of the mover of gridded currents agree", "statement": "In a current that is the same everywhere and always, every num_method (Euler, RK2, RK4) moves an element by the velocity times the time step, and an uncertain one by its own velocity; RK4 is exact for currents that change linearly in time.", "quantifier": "all velocities, places, times and time steps", "why_tests_cant": "an identity for all inputs, of which tests have fixed a wrong value", "anchors": ["py_gnome/lib_gnome/GridCurrentMover_c.cpp: GridCurrentMover_c::GetMove", "py_gnome/gnome/basic_types.py: numerical_methods"]}
{"id": "C135", "title": "A response works in the periods of its schedule", "statement": "For every time, the period it is in, the next one, and the time to the next beginning or end of a period are found; a response works in exactly the steps of which at least half lies within one of its periods.", "quantifier": "all schedules of ordered periods, times and time steps", "why_tests_cant": "all positions of a step relative to any number of periods", "anchors": ["py_gnome/gnome/weatherers/roc.py: Response._is_active, index_of, next_interval_index, time_to_next_interval, is_operating"]}
{"id": "C136", "title": "The times a burn reports for a step add up to the step, and to the time of burning", "statement": "In every step the times of collecting, transit, burning and cleaning are not negative and add up to the step; every step ends; the time of burning reported grows by the time spent burning.", "quantifier": "all booms, oils, lengths of steps, and histories of steps", "why_tests_cant": "loops over phases that may span steps or repeat within one; unbounded histories", "anchors": ["py_gnome/gnome/weatherers/roc.py: Burn.prepare_for_model_step, _collect, _transit, _burn, _clean"]}
{"id": "C137", "title": "A boom takes from the water what it collects, and never holds more than it can", "statement": "The room in the boom is between none and all of it; what is taken from the water in a step is the recovery rate times the time of collecting in it.", "quantifier": "all booms, oils, lengths of steps, and histories of steps", "why_tests_cant": "a boom may be filled, burned and filled again within a step", "anchors": ["py_gnome/gnome/weatherers/roc.py: Burn.prepare_for_model_step, _collect, _clean"]}
{"id": "C138", "title": "The elements lose what a burn or skimmer reports", "statement": "The mass a burn or a skimmer reports as removed from the water is gone from the elements.", "quantifier": "all elements of any fates, and amounts", "why_tests_cant": "depends on which elements are part of the view of floating ones, for all mixes of fates", "anchors": ["py_gnome/gnome/weatherers/roc.py: Burn.weather_elements, Skim.weather_elements, _remove_mass_simple", "py_gnome/gnome/spill_container.py: SpillContainerPairData, FateDataView"]}
{"id": "C139", "title": "Burns take oil in proportion, and the mass balance accounts for it", "statement": "What is removed is what is asked for or all there is, the same share of every component of every element; boomed and burned oil together are what was removed; no burn burns more than it has boomed, and oil that was not there is given back as room in the boom.", "quantifier": "all masses, numbers of elements and components, numbers of burns and sequences of their calls", "why_tests_cant": "sums over unbounded interleavings of several burns", "anchors": ["py_gnome/gnome/weatherers/roc.py: _remove_mass_simple, Burn.weather_elements"]}
{"id": "C140", "title": "A skimmer's rates respect its pumps", "statement": "The fluid recovered is at most what the nameplate pump or the encounter allows, the water decanted at most what the decant pump does; recovered fluid is oil and water, water is decanted or retained.", "quantifier": "all skimmers, thicknesses and water contents", "why_tests_cant": "arithmetic with several limits for all inputs", "anchors": ["py_gnome/gnome/weatherers/roc.py: Skim._collect"]}
{"id": "C141", "title": "The times and amounts a skimmer reports for a step are consistent", "statement": "The times of skimming, transit and offloading in a step are not negative and add up to no more than the step; every step ends; the room left is between none and the storage; amounts are rates times the time of skimming.", "quantifier": "all skimmers, oils, lengths of steps, and histories of steps", "why_tests_cant": "loops over phases that may span steps or repeat within one; unbounded histories", "anchors": ["py_gnome/gnome/weatherers/roc.py: Skim.prepare_for_model_step, _collect, _transit, _offload"]}
{"id": "C142", "title": "A skimmer never holds more than its storage", "statement": "What is retained in a step without offloading fits into the room there was.", "quantifier": "all skimmers, oils, lengths of steps, and histories of steps", "why_tests_cant": "a factor between units that shows only when the storage gets full", "anchors": ["py_gnome/gnome/weatherers/roc.py: Skim._collect"]}
{"id": "C143", "title": "The times a spraying plane reports for a step fit in it, and it never carries more than its payload", "statement": "In every step the times of the activities are not negative and do not add up to more than the step; every step ends without an exception; the dispersant on board is between none and the payload, and what is sprayed is not more than the pump gives in the time on site.", "quantifier": "all planes, schedules, oils, lengths of steps and histories of steps, with pauses between the periods", "why_tests_cant": "a state machine whose activities span steps and periods", "anchors": ["py_gnome/gnome/weatherers/roc.py: Disperse.prepare_for_model_step, simulate_plane, update_time"]}
{"id": "C144", "title": "The dispersant reported as applied is what was sprayed", "statement": "Over a run the dispersant reported as applied is the sum of what was sprayed in its steps.", "quantifier": "all planes, oils and sequences of steps", "why_tests_cant": "a counter that is wrong only from the second step that sprays", "anchors": ["py_gnome/gnome/weatherers/roc.py: Disperse.weather_elements, simulate_plane"]}
{"id": "C145", "title": "A plane never treats more oil than there is", "statement": "The mass of oil treated in a step is at most that of the oil that can be dispersed.", "quantifier": "all planes, oils and steps", "why_tests_cant": "several sprayings within a step, mixed units", "anchors": ["py_gnome/gnome/weatherers/roc.py: Disperse.simulate_plane, dispersable_oil_amount"]}
{"id": "C146", "title": "A plane flies in every period long enough for a sortie", "statement": "If a period leaves enough time for a sortie from the first step within it, the plane sets out.", "quantifier": "all schedules, steps and planes", "why_tests_cant": "periods need not begin with a step", "anchors": ["py_gnome/gnome/weatherers/roc.py: Disperse.simulate_plane"]}
{"id": "C147", "title": "A plane sets out only if the sortie can be finished in the period", "statement": "At the time a plane leaves its base, the period it is in lasts longer than the shortest sortie.", "quantifier": "all schedules, steps, planes and histories", "why_tests_cant": "depends on where in a step the plane gets ready again", "anchors": ["py_gnome/gnome/weatherers/roc.py: Disperse.simulate_plane, Platform.sortie_possible"]}
{"id": "C148", "title": "A plane goes home in time", "statement": "A plane begins another pass only if there is time for a whole pass until it has to go back.", "quantifier": "all planes, schedules and histories", "why_tests_cant": "the time left is a number of passes that may be negative", "anchors": ["py_gnome/gnome/weatherers/roc.py: Disperse.simulate_plane, Platform.num_passes_possible, max_onsite_time"]}
{"id": "C149", "title": "Dates and seconds are translated into each other", "statement": "From 1970 on, the date the library gives for a second is its date in standard time, and the seconds of that date are the same again.", "quantifier": "all seconds, all standard offsets, all daylight-saving rules", "why_tests_cant": "calendars over centuries; the wrong cases are one hour of a day in summer, and years after 2039 and 2099", "anchors": ["py_gnome/lib_gnome/StringFunctions.cpp: SecondsToDate, DateToSeconds"]}
{"id": "C150", "title": "Times read from a file are rounded to the nearest minute and keep their order", "statement": "A time is moved by at most half a minute, to a whole minute; a later time is never put before an earlier one.", "quantifier": "all seconds, all standard offsets, all daylight-saving rules", "why_tests_cant": "depends on the last minute of hours, days, months and years", "anchors": ["py_gnome/lib_gnome/StringFunctions.cpp: RoundDateSeconds"]}
{"id": "C151", "title": "A gridded value is returned in the unit asked for", "statement": "A value is returned in the unit asked for, otherwise in the unit of GNOME, otherwise as stored; an unknown unit gives the stored value and a warning.", "quantifier": "all values, units and tables of units", "why_tests_cant": "combinations of three optional units, known or not", "anchors": ["py_gnome/gnome/environment/gridded_objects_base.py: Variable.at"]}
{"id": "C152", "title": "The components of a gridded vector are returned in the unit asked for", "statement": "Every component of a vector is in the unit asked for, otherwise in the unit of GNOME.", "quantifier": "all vectors, units and tables of units", "why_tests_cant": "right whenever the stored unit is the one asked for, as in most tests", "anchors": ["py_gnome/gnome/environment/gridded_objects_base.py: VectorVariable.at, VectorVariable.constant, VectorVariable.__init__"]}
{"id": "C153", "title": "A time series is the line between its values", "statement": "Between its times a series is linear, at its times exact; outside it is its first or last value if it may be extrapolated and is refused otherwise; there are always as many values as times; values come in the unit asked for.", "quantifier": "all series of any length, times and units", "why_tests_cant": "any number of values, at and between all times", "anchors": ["py_gnome/gnome/environment/timeseries_objects_base.py: TimeseriesData.at, data, time, __init__"]}
{"id": "C154", "title": "A copy of a time series in other units says the same", "statement": "In every unit, a series and its copy in other units have the same value at every time.", "quantifier": "all series and units", "why_tests_cant": "unbounded series; depends on what of the copy is asked for", "anchors": ["py_gnome/gnome/environment/timeseries_objects_base.py: TimeseriesData.in_units"]}
{"id": "C155", "title": "A vector of time series gives what its components give", "statement": "Each component of the vector, in the unit asked for and with the extrapolation asked for, is what the series given for it has.", "quantifier": "all series, units and times", "why_tests_cant": "components with different units", "anchors": ["py_gnome/gnome/environment/timeseries_objects_base.py: TimeseriesVector.__init__, at"]}
{"id": "C156", "title": "Asking a current or wind gives the same answer whatever was asked before", "statement": "The answer depends on the points, the time, the unit, the extrapolation and the settings of the object at the time, and not on earlier questions.", "quantifier": "all histories of questions and changes", "why_tests_cant": "results are remembered: the effect is only seen for certain sequences of calls", "anchors": ["py_gnome/gnome/environment/environment_objects.py: GridCurrent.at, GridWind.at"]}
{"id": "C157", "title": "Speed and direction of a gridded wind are those of its velocity", "statement": "Speed and direction give the velocity back by the convention for winds, and ice slows the wind without turning it.", "quantifier": "all velocities, all concentrations of ice", "why_tests_cant": "reals; conventions for angles in all quadrants", "anchors": ["py_gnome/gnome/environment/environment_objects.py: GridWind.transform_result, IceAwareWind.at"]}
{"id": "C158", "title": "A steady current is that of its speed and direction", "statement": "After any sequence of changes of speed and direction, the current at every point is the vector with this speed and direction, in the unit asked for.", "quantifier": "all speeds, directions, units, numbers of points and sequences of changes", "why_tests_cant": "cached components must follow every sequence of setters", "anchors": ["py_gnome/gnome/environment/environment_objects.py: SteadyUniformCurrent"]}
{"id": "C159", "title": "Tides are computed in daylight saving time when it is in force", "statement": "Daylight saving time is used from the first or second Sunday (by the year) of its first month to the Sunday on which it ends, at two in the morning, and never if it is switched off.", "quantifier": "all dates and hours", "why_tests_cant": "the wrong days are in one week of the year, for some weekdays", "anchors": ["py_gnome/lib_gnome/ShioTimeValue_c.cpp: DaylightSavingTimeInEffect"]}
{"id": "C160", "title": "The hours of the year for which tides are computed are those of the days asked for", "statement": "The computation spans the first to the end of the last day, in hours of the year of the first day, an hour earlier in daylight saving time.", "quantifier": "all pairs of dates, also over New Year", "why_tests_cant": "only wrong over the end of a year and in years far ahead", "anchors": ["py_gnome/lib_gnome/ShioHeight.cpp: GetJulianDayHr, GetTideHeight", "py_gnome/lib_gnome/ShioCurrent1.cpp: GetTideCurrent"]}
{"id": "C161", "title": "The speed of a standing wave is the rate of change of the height", "statement": "Between the first and the last of the highs and lows the speed is the derivative of the smooth curve through them, times the scale: zero at every high and low, in with a rising and out with a falling tide.", "quantifier": "all lists of highs and lows, all times, all scales", "why_tests_cant": "derivatives at all times of all curves", "anchors": ["py_gnome/lib_gnome/ShioTimeValue_c.cpp: GetConvertedHeightValue, GetDeriv, InHeightTimeRange"]}
{"id": "C162", "title": "The answer of a tide station depends on the time only", "statement": "The tide at a time does not depend on which times were asked before, nor on what the variable for the answer held.", "quantifier": "all histories of questions, all kinds of stations", "why_tests_cant": "tables are kept between questions: a wrong answer depends on what was asked before", "anchors": ["py_gnome/lib_gnome/ShioTimeValue_c.cpp: GetTimeValue", "py_gnome/gnome/cy_gnome/cy_ossm_time.pyx: CyOSSMTime.get_time_value", "py_gnome/lib_gnome/CATSMover_c.cpp: PrepareForModelStep"]}
{"id": "C163", "title": "The highs and lows found are those of the curve", "statement": "There is one high or low for every turning point of the computed heights, highs and lows in turn, each at a minute where the water stops rising or falling and with the height of that minute; if there is no room for them an error is given.", "quantifier": "all curves of heights, any number of days", "why_tests_cant": "all curves; wrong only where two computed heights are equal or the room runs out", "anchors": ["py_gnome/lib_gnome/ShioHeight.cpp: GetReferenceCurve, FindHighLow"]}
{"id": "C164", "title": "Times of a subordinate station are shifted in order", "statement": "Highs, lows and all times between them are shifted by the offsets of high and low, between a high and a low in proportion; as long as the highs and lows keep their order so do all times, and otherwise there is an error.", "quantifier": "all lists of highs and lows, all samples, all offsets", "why_tests_cant": "the shift depends on the place among any number of highs and lows", "anchors": ["py_gnome/lib_gnome/ShioHeight.cpp: DoOffSetCorrection, GetWeights"]}
{"id": "C165", "title": "Heights of a subordinate station are corrected", "statement": "Every height is corrected with the factors and summands of high and low water, smoothly from one to the other, and at a high or low with its own.", "quantifier": "all lists of highs and lows, all samples, all corrections", "why_tests_cant": "the samples after the last high or low of the days are an exception", "anchors": ["py_gnome/lib_gnome/ShioHeight.cpp: DoOffSetCorrection", "py_gnome/lib_gnome/CompFunctions.cpp: Hermite"]}
{"id": "C166", "title": "The place in the tidal cycle is that of the events next to the time", "statement": "The phase is that of the last event, the fraction the part of the time to the next that has passed; the fraction grows with time.", "quantifier": "all lists of events, all times", "why_tests_cant": "all times before, between and after the events, for two kinds of stations", "anchors": ["py_gnome/lib_gnome/ShioTimeValue_c.cpp: GetLocationInTideCycle", "py_gnome/lib_gnome/CurrentCycleMover_c.cpp: PrepareForModelStep"]}
{"id": "C167", "title": "A tide station file is read only if it is complete", "statement": "A file is accepted exactly if every expected line is there with its key and a number, and then the values are those of the lines; height files may leave out the lines of the datum.", "quantifier": "all files", "why_tests_cant": "files with any line missing or misspelt", "anchors": ["py_gnome/lib_gnome/ShioTimeValue_c.cpp: ReadShioValues, GetKeyedValue, GetKeyedLine", "py_gnome/gnome/cy_gnome/cy_shio_time.pyx: CyShioTime._read_time_values"]}
{"id": "C168", "title": "In a run the oil spreads in exactly one way", "statement": "When a run is set up exactly one object that spreads the oil and exactly one for Langmuir cells are switched on if some weatherer that is switched on works with the area of the oil, and none otherwise; missing ones are made, all other weatherers stay as they are and none is lost.", "quantifier": "all lists of weatherers in any order with any switches", "why_tests_cant": "depends on which of any number of weatherers are switched on and in which order they were added", "anchors": ["py_gnome/gnome/model.py: Model.setup_model_run, _order_weatherers", "py_gnome/gnome/weatherers/spreading.py: FayGravityViscous, ConstantArea, Langmuir"]}
{"id": "C169", "title": "Switches set by the user are respected in a run", "statement": "A weatherer that the user switched off stays off, one that is on stays on.", "quantifier": "all lists of weatherers in any order with any switches", "why_tests_cant": "the switch is changed only for some combinations of weatherers", "anchors": ["py_gnome/gnome/model.py: Model.setup_model_run"]}
{"id": "C170", "title": "A second run uses the weatherers of the first", "statement": "Setting up a model that has been run before gives the same weatherers, switched on or off in the same way and in the same order.", "quantifier": "all lists of weatherers in any order with any switches", "why_tests_cant": "the first run changes the order of the weatherers, which matters for the second only with some lists", "anchors": ["py_gnome/gnome/model.py: Model.setup_model_run, _order_weatherers"]}
{"id": "C171", "title": "Asking for elements by a condition gives exactly those that meet it", "statement": "The answer has, for every property asked for, the values of exactly the elements that meet the condition, in the order of the elements.", "quantifier": "all conditions with any number of comparisons, all data", "why_tests_cant": "all conditions and values; wrong only for fractions and for mixed conditions", "anchors": ["py_gnome/gnome/model.py: Model.get_spill_data"]}
{"id": "C172", "title": "A step returns what every outputter returns", "statement": "What a step returns has the result of every outputter under its class name, the number of the step and whether the model is valid.", "quantifier": "all lists of outputters, all steps", "why_tests_cant": "depends on all outputters of a model together", "anchors": ["py_gnome/gnome/model.py: Model.write_output, step"]}
{"id": "C173", "title": "Every object is told of the end of a run once", "statement": "At the end of a full run, whether it ends regularly or with an error at any step, the objects of a model are told once that it is over, after the output of all steps.", "quantifier": "all lengths of runs, errors at any step", "why_tests_cant": "errors may come at any step", "anchors": ["py_gnome/gnome/model.py: Model.full_run, step, post_model_run"]}
{"id": "C174", "title": "Output written after a run is that written during it", "statement": "Writing the output of a cached run afterwards writes exactly the steps that would have been written in the run.", "quantifier": "all settings of the outputter, all time steps, all lengths", "why_tests_cant": "which steps are due depends on all settings and the length of the run", "anchors": ["py_gnome/gnome/outputters/outputter.py: Outputter.write_output_post_run, prepare_for_model_step, prepare_for_model_run"]}
{"id": "C175", "title": "A file for Google Earth is always one document", "statement": "Whatever runs are made, complete, failed or continued, the file is one document: header, the steps that were due so far in their order, footer.", "quantifier": "all lengths of runs, errors at any step, all states before", "why_tests_cant": "the file depends on the whole history of the outputter", "anchors": ["py_gnome/gnome/outputters/kmz.py: KMZOutput.write_output, post_model_run, rewind, clean_output_files"]}
{"id": "C176", "title": "In a file for Google Earth each step is shown until the next", "statement": "The time span of a step ends when that of the next step in the file begins.", "quantifier": "all settings of the outputter, all time steps, all lengths", "why_tests_cant": "the spans depend on the ratio of output interval and time step", "anchors": ["py_gnome/gnome/outputters/kmz.py: KMZOutput.write_output"]}
{"id": "C177", "title": "A save file cannot write outside the folder it is unpacked to", "statement": "Whatever the names in an archive, everything is written to the folder itself, under names without separators and without characters that are not allowed on Windows.", "quantifier": "all archives", "why_tests_cant": "an attacker chooses the names", "anchors": ["py_gnome/gnome/utilities/save_updater.py: extract_zipfile, sanitize_filename"]}
{"id": "C178", "title": "Every file of an archive is unpacked", "statement": "Every file of an archive is found in the folder with its own content; a file made by saving under the very name its objects refer to.", "quantifier": "all archives with any number of files and folders", "why_tests_cant": "depends on all names of the archive together", "anchors": ["py_gnome/gnome/utilities/save_updater.py: extract_zipfile, sanitize_filename", "py_gnome/gnome/persist/base_schema.py: sanitize_string"]}
{"id": "C179", "title": "An update leaves no reference to a removed file", "statement": "Updating a save file from version 3 takes the references to removed files out of the list of weatherers and keeps all others in their order.", "quantifier": "all lists of references, all sets of removed files", "why_tests_cant": "the list changes while it is gone through: wrong only for some orders", "anchors": ["py_gnome/gnome/utilities/save_updater.py: v3tov4"]}
{"id": "C180", "title": "An update keeps the substance of each spill", "statement": "Updating a save file from version 0 gives every spill the substance of its own element type and loses no spill.", "quantifier": "any number of spills and element types", "why_tests_cant": "wrong only with several element types", "anchors": ["py_gnome/gnome/utilities/save_updater.py: v0tov1"]}
{"id": "C181", "title": "An update keeps windages and removes only their files", "statement": "Updating a save file from version 1 puts windages into the objects whose initializers had them, removes exactly those files and does not fail.", "quantifier": "all folders, any number of objects and initializers", "why_tests_cant": "depends on which objects share initializers", "anchors": ["py_gnome/gnome/utilities/save_updater.py: v1tov2"]}
{"id": "C182", "title": "A save file is brought up to date by exactly the steps that it lacks", "statement": "An update is accepted if and only if the file has a known version and each of the steps from that version on succeeded, in order.", "quantifier": "all versions, any number of steps, failures at any step", "why_tests_cant": "failures may come at any step", "anchors": ["py_gnome/gnome/utilities/save_updater.py: update_savefile"]}
{"id": "C183", "title": "A gridded current that is written to a file and read again is the same", "statement": "write_gridcur followed by read_file gives the same times, coordinates, velocities and units.", "quantifier": "all grids of any size, on nodes or on cells, any number of times", "why_tests_cant": "loss only on grids whose steps are unequal", "anchors": ["py_gnome/gnome/environment/gridcur.py: write_gridcur", "py_gnome/gnome/environment/gridcur.py: read_file", "py_gnome/gnome/environment/gridcur.py: make_grid_arrays"]}
{"id": "C184", "title": "Both readers of gridded currents put velocities in the same places", "statement": "For a GridCur file the current object of the Python code and the mover of the C++ code have the same velocity at the same place.", "quantifier": "all grids of any size, all lines", "why_tests_cant": "two readers in two languages, any size of grid", "anchors": ["py_gnome/gnome/environment/gridcur.py: read_file", "py_gnome/lib_gnome/TimeGridVel_c.cpp: TimeGridCurRect_c::ReadTimeData", "py_gnome/lib_gnome/TimeGridVel_c.cpp: TimeGridVel_c::GetVelocityIndex"]}
{"id": "C185", "title": "Velocities outside the grid are refused", "statement": "A line of a GridCur file whose row or column is not in the grid is refused, and places without a line have no current.", "quantifier": "all grids of any size, all rows and columns, any number of lines", "why_tests_cant": "any place, any number of lines", "anchors": ["py_gnome/gnome/environment/gridcur.py: read_file"]}
{"id": "C186", "title": "A drifting ship moves by its windage, if it is in water", "statement": "ShipDriftMover moves each element in water by windage times the scaled wind times the time step, and no other element.", "quantifier": "any number of elements in water, on land or not released, all winds, windages and scales", "why_tests_cant": "depends on which of any number of elements are in water", "anchors": ["py_gnome/gnome/movers/ship_drift_mover.py: ShipDriftMover.get_move", "py_gnome/gnome/movers/ship_drift_mover.py: ShipDriftMover.wind_scale"]}
{"id": "C187", "title": "Shapes of a BNA file are read as they are", "statement": "ReadBNA gives the polygons, lines and points of a file in order, with their names and points, polygons without the repeated last point.", "quantifier": "files of any number of shapes of any size, with blank lines anywhere, polygons closed or not", "why_tests_cant": "any number and size of shapes", "anchors": ["py_gnome/gnome/utilities/file_tools/haz_files.py: GetNextBNAPolygon", "py_gnome/gnome/utilities/file_tools/haz_files.py: ReadBNA"]}
{"id": "C188", "title": "Files that are not in BNA format are refused", "statement": "A file that is accepted consists of headers with two names in quotes and a number, each followed by so many lines of two coordinates.", "quantifier": "all files of any length", "why_tests_cant": "there are endlessly many malformed files", "anchors": ["py_gnome/gnome/utilities/file_tools/haz_files.py: GetNextBNAPolygon", "py_gnome/gnome/utilities/file_tools/haz_files.py: ReadBNA"]}
{"id": "C189", "title": "Longitudes of a map are shifted into the range that is asked for", "statement": "With shift_lons=360 every negative longitude of the map gets 360 degrees more, with 180 every longitude above 180 gets 360 less, and no other is changed.", "quantifier": "maps with any number of points at any longitudes", "why_tests_cant": "depends on which of any number of points lie on which side", "anchors": ["py_gnome/gnome/maps/map.py: ShiftLon360", "py_gnome/gnome/maps/map.py: ShiftLon180", "py_gnome/gnome/maps/map.py: MapFromBNA"]}
{"id": "C190", "title": "Each shape of a map file gets its role, and default bounds contain everything", "statement": "Polygons named as spillable area or map bounds, in any spelling of case and spaces, have these roles, other polygons are land; bounds that are given come first, then those of the file, then the smallest box around all land and spillable areas.", "quantifier": "files of any number of shapes, with or without given bounds and spillable areas", "why_tests_cant": "any number of shapes in any order", "anchors": ["py_gnome/gnome/maps/map.py: MapFromBNA.__init__"]}
{"id": "C191", "title": "The shoreline that is exported is the land of the map", "statement": "to_geojson contains each land polygon and each lake as a closed ring, and no other ring.", "quantifier": "any number of polygons of any size", "why_tests_cant": "any combination of land and lakes", "anchors": ["py_gnome/gnome/maps/map.py: MapFromBNA.to_geojson"]}
{"id": "C192", "title": "The box, the centre and the size of a view agree", "statement": "After any changes of box, centre, width, height, zooming and shifting, the box of a viewport has its centre, width and height; each change has its effect and leaves the rest.", "quantifier": "all sequences of changes, all numbers", "why_tests_cant": "any order and number of changes", "anchors": ["py_gnome/gnome/utilities/map_canvas.py: Viewport", "py_gnome/gnome/utilities/map_canvas.py: MapCanvas.zoom", "py_gnome/gnome/utilities/map_canvas.py: MapCanvas.shift_viewport"]}
{"id": "C193", "title": "Grid lines cover the whole image", "statement": "Every multiple of the chosen interval within the image is drawn as a line across all of the image.", "quantifier": "all sizes and places of images, all numbers of lines, degrees or degrees and minutes", "why_tests_cant": "depends on the shape and latitude of the image", "anchors": ["py_gnome/gnome/utilities/map_canvas.py: GridLines.get_lines", "py_gnome/gnome/utilities/map_canvas.py: GridLines.refresh_scale", "py_gnome/gnome/utilities/map_canvas.py: GridLines.get_step_size"]}
{"id": "C194", "title": "The orientation of a polygon is that of its area", "statement": "is_clockwise says that a polygon is clockwise exactly if its signed area is not positive; the answer does not depend on the vertex it begins with, on whether the first vertex is repeated, on position or scale, and is opposite for the reversed polygon unless the area is zero. On convex polygons is_clockwise_convex gives the same answer.", "quantifier": "all polygons with any number of vertices", "why_tests_cant": "all shapes and all vertices to begin with", "anchors": ["py_gnome/gnome/utilities/geometry/poly_clockwise.py: is_clockwise, is_clockwise_convex"]}
{"id": "C195", "title": "Surface concentration is estimated from the floating elements of the same spill and age", "statement": "The concentration at an element is the estimate from the floating elements of its spill that are younger than the end of its hour; elements of other spills have no influence.", "quantifier": "any number of elements, spills and ages, any estimator", "why_tests_cant": "any ages and spills, nested index arrays", "anchors": ["py_gnome/gnome/utilities/surface_concentration.py: surface_conc_kde", "py_gnome/gnome/utilities/surface_concentration.py: compute_surface_concentration"]}
{"id": "C196", "title": "An update of an appearance sets what is given", "statement": "Updating an appearance sets the attributes that are given, leaves the others and those that are only read, and to_dict reports them.", "quantifier": "all dictionaries of any size", "why_tests_cant": "any combination of attributes", "anchors": ["py_gnome/gnome/utilities/appearance.py: Appearance.update_from_dict", "py_gnome/gnome/utilities/appearance.py: Appearance.to_dict", "py_gnome/gnome/gnomeobject.py: update_from_dict"]}
{"id": "C197", "title": "GeoJSON files hold the forecast", "statement": "After a run into a folder the GeoJSON file of each written step holds the features of the forecast, rounded if asked for; what the step returns has the forecast and the uncertain elements.", "quantifier": "all runs of any length, all elements, all settings", "why_tests_cant": "any runs with and without uncertainty", "anchors": ["py_gnome/gnome/outputters/geo_json.py: TrajectoryGeoJsonOutput.write_output", "py_gnome/gnome/outputters/geo_json.py: TrajectoryGeoJsonOutput.output_to_file"]}
{"id": "C198", "title": "An outputter that is off writes nothing and does not disturb the run", "statement": "An outputter that is switched off writes no step and does not stop the run.", "quantifier": "all kinds of outputters, all settings, runs of any length", "why_tests_cant": "all combinations of settings and kinds", "anchors": ["py_gnome/gnome/outputters/outputter.py: Outputter.prepare_for_model_step", "py_gnome/gnome/outputters/geo_json.py: TrajectoryGeoJsonOutput.write_output", "py_gnome/gnome/outputters/weathering.py: WeatheringOutput.write_output", "py_gnome/gnome/outputters/oil_budget.py: OilBudgetOutput.__init__", "py_gnome/gnome/outputters/binary.py: BinaryOutput.prepare_for_model_run", "py_gnome/gnome/model.py: Model.write_output"]}
{"id": "C199", "title": "The archive of binary output holds the steps that were written", "statement": "After a run the archive holds a forecast file, and an uncertain file if there is uncertainty, of each written step, numbered from 0, and no files are left beside it.", "quantifier": "all runs of any length, all choices of written steps, all files that are there before", "why_tests_cant": "any choice of written steps", "anchors": ["py_gnome/gnome/outputters/binary.py: BinaryOutput.write_output", "py_gnome/gnome/outputters/binary.py: BinaryOutput._zip_binary_files", "py_gnome/gnome/outputters/binary.py: BinaryOutput.post_model_run"]}
{"id": "C200", "title": "The shapefile that is reported holds the layers that were asked for", "statement": "After a run the file that the outputter reports exists, can be opened and has the layers that were asked for.", "quantifier": "all names, settings and contents of the folders", "why_tests_cant": "any names and combinations of settings", "anchors": ["py_gnome/gnome/outputters/shape.py: ShapeOutput", "py_gnome/gnome/utilities/shapefile_builder.py: ShapefileBuilder"]}
{"id": "C201", "title": "The oil budget adds up", "statement": "The table of the oil budget has a row for each written step; in each row the oil released is the sum of the other columns, and the time is that of the step.", "quantifier": "all runs of any length, all mass balances that add up", "why_tests_cant": "any mixture of weathering and cleanup", "anchors": ["py_gnome/gnome/outputters/oil_budget.py: OilBudgetOutput.write_output"]}
{"id": "C202", "title": "The two tests whether a point is in a polygon agree", "statement": "points_in_poly of the Python module and of the compiled module give the same answer; for both, a point is in exactly one of two polygons that share a boundary and make up a polygon it is in; the array of points of the caller is not changed.", "quantifier": "all polygons with any number of vertices, closed or not, all points", "why_tests_cant": "all points, also on the boundary", "anchors": ["py_gnome/gnome/utilities/geometry/PinP.py: points_in_poly, CrossingsTest", "py_gnome/gnome/utilities/geometry/c_point_in_polygon.c: c_point_in_poly1"]}
{"id": "C203", "title": "Runs that make no sense are refused before the first step", "statement": "The first step of a model goes ahead exactly if time step and duration have the same sign, no spill that is on is released before the start in the direction of the run, none has an oil heavier than its water, a run backwards has neither continuous releases nor weathering, and every active object has or finds the wind, water and waves it needs; a refusal says why; warnings are given exactly for the spills they are about.", "quantifier": "all models with any number of spills, movers, weatherers, environment objects and outputters, all times and durations", "why_tests_cant": "combinations of signs, switches, references and times; tests try one fault at a time", "anchors": ["py_gnome/gnome/model.py: Model.check_inputs, Model.validate, Model._validate_env_coll, Model.find_by_attr, Model.step", "py_gnome/gnome/gnomeobject.py: validate_refs"]}
{"id": "C204", "title": "Slices of a collection are slices of the list of its objects", "statement": "collection[start:stop:step] gives the objects that the same slice of the list of its objects gives, for any bounds, after any additions, removals and replacements.", "quantifier": "all collections reached by any history of calls, all start, stop and step, given or left out", "why_tests_cant": "bounds that are negative, left out or beyond the end, in collections with removed objects", "anchors": ["py_gnome/gnome/utilities/orderedcollection.py: OrderedCollection.__getitem__, _slice_attr"]}
{"id": "C205", "title": "Merging a model adds what is missing and nothing else", "statement": "After model.merge(other) the movers, weatherers, outputters and spills are those of the model and then those of the other that it did not have, each once and in order; its environment has what either environment has; settings that were made stay; and the number of time steps is that of its duration and time step.", "quantifier": "all pairs of models with any numbers of objects that refer to each other in any way", "why_tests_cant": "any sharing of objects, any nesting of references", "anchors": ["py_gnome/gnome/model.py: Model.merge, Model._add_to_environ_collec, Model._callback_add_mover, Model._callback_add_weatherer_env"]}
{"id": "C206", "title": "Environment objects take the place of those of their class", "statement": "add_env with quash puts each object in the place of the first object of the same class, or at the end if there is none, and leaves the others where they are.", "quantifier": "all environments reached by any history of calls, all lists of new objects", "why_tests_cant": "any history of additions and removals before", "anchors": ["py_gnome/gnome/model.py: Model.add_env", "py_gnome/gnome/utilities/orderedcollection.py: OrderedCollection.index, __setitem__, replace"]}
{"id": "C207", "title": "Arrays of numbers come back from a save file as they were", "statement": "Arrays of oil data that are saved and loaded are the same; what is written is the nearest number with the figures that are kept, so saving once more changes nothing, the order of numbers and their signs stay, and fractions keep their sum.", "quantifier": "all arrays of rational numbers of any length, any number of figures", "why_tests_cant": "all numbers, ties and powers of ten included", "anchors": ["py_gnome/gnome/persist/extend_colander.py: NumpyArraySchema", "py_gnome/gnome/utilities/__init__.py: _round_sf_float, round_sf_array"]}
{"id": "C208", "title": "The images of a run are there, and no others", "statement": "After a run the folder has an image of each written step in each image format, named by the step and the format; the name that is handed back is that of a file; no image of an earlier run is left; and no file that is not an image, background or animation is removed.", "quantifier": "all folders, formats and lists of written steps, any number of earlier runs", "why_tests_cant": "any combination of formats, steps and files that are there before", "anchors": ["py_gnome/gnome/outputters/renderer.py: Renderer.prepare_for_model_run, Renderer.clean_output_files, Renderer.write_output"]}
{"id": "C209", "title": "Every element is drawn once, the chosen kind on top", "statement": "In the image of a step each element is drawn once, where it is, as a cross on land and as a dot elsewhere, black for the forecast and red for uncertainty; all elements of the kind chosen to be on top are drawn after all others.", "quantifier": "all forecasts and uncertain containers with any number of elements in any state", "why_tests_cant": "any mixture of states of elements", "anchors": ["py_gnome/gnome/outputters/renderer.py: Renderer.draw_elements, Renderer.write_output, Renderer.draw_ontop"]}
{"id": "C210", "title": "Currents in the JSON output are those of each mover at the time of the step", "statement": "The output of currents for a step has, for each mover that is on, the velocities of that mover at the time of the step, in the order of its grid; the speed that is written is that of the velocity up to rounding.", "quantifier": "all lists of movers of any kinds in any order, all times, all velocities", "why_tests_cant": "any mixture and order of kinds of movers", "anchors": ["py_gnome/gnome/outputters/json.py: CurrentJsonOutput.write_output", "py_gnome/gnome/movers/c_current_movers.py: get_scaled_velocities", "py_gnome/gnome/movers/c_wind_movers.py: get_scaled_velocities"]}
{"id": "C211", "title": "Currents driven by the wind have the speed given for the reference wind", "statement": "A wind from the direction and with the speed given for a pattern makes the pattern have, at the reference point, the speed given; other winds count by their component along that direction, in proportion to their speed or to its square; the two patterns add up; with averaging the wind that counts is the mean over the past hours, so for a steady wind averaging makes no difference.", "quantifier": "all winds, angles, speeds and patterns (real numbers), all series of winds, any number of hours", "why_tests_cant": "all directions and speeds of the wind, all combinations of settings", "anchors": ["py_gnome/lib_gnome/ComponentMover_c.cpp: ComponentMover_c::SetOptimizeVariables, CalculateAveragedWindsVelocity, GetMove", "py_gnome/lib_gnome/OSSMTimeValue_c.cpp: OSSMTimeValue_c::GetTimeValue, CheckStartTime", "py_gnome/gnome/movers/c_current_movers.py: ComponentMover"]}
{"id": "C212", "title": "Currents driven by the wind are reported for the time asked for, and have all their patterns", "statement": "get_scaled_velocities(time) of a ComponentMover reports the currents of that time, whatever was called before; a mover is made only if all its files can be read, and then has all its patterns.", "quantifier": "all histories of calls, all winds", "why_tests_cant": "any history of calls", "anchors": ["py_gnome/lib_gnome/ComponentMover_c.cpp: ComponentMover_c::PrepareForModelStep, ModelStepIsDone, GetOptimizeValue, TextRead", "py_gnome/gnome/movers/c_current_movers.py: ComponentMover.get_scaled_velocities, get_optimize_values"]}
{"id": "C213", "title": "The elements sent to the web client have all their data in their own row", "statement": "For every step that is written SpillJsonOutput gives one table for certain and one for uncertain elements; all lists of a table have as many entries as there are elements, and entry i of every list, also of additional data, is that of element i, rounded; contours are in one list for each spill with any, and there is a contour for each band of the colormap with an element of the spill, with the colour and label of the band, around exactly the elements in it; bounds are around all elements.", "quantifier": "all elements, any number of them, of spills, of additional arrays and of bands", "why_tests_cant": "alignment of all lists for any number of elements, all colormaps", "anchors": ["py_gnome/gnome/outputters/json.py: SpillJsonOutput.write_output, generate_cutoff_struct", "py_gnome/gnome/utilities/hull.py: calculate_contours, calculate_hull"]}
{"id": "C214", "title": "In ice elements move with the ice, in open water with the current", "statement": "Under an IceMover an element in water moves with the velocity of the ice where coverage is at least 0.8, with the current where it is at most 0.2, and between with a mix that goes evenly from one to the other; coverage and velocities are those of the file at the place and time, in their units. Under an IceWindMover the wind counts in full, not at all, or in part by the same rule, and only at the surface.", "quantifier": "all files with any values, units and scale factors, all places and times, all elements", "why_tests_cant": "all values of coverage and velocities, both sides of the limits", "anchors": ["py_gnome/lib_gnome/TimeGridVel_c.cpp: TimeGridVelIce_c::GetScaledPatValue, GetScaledPatValueIce, GetDataField, GetInterpolatedValue, ReadTimeDataFields", "py_gnome/lib_gnome/TimeGridWind_c.cpp: TimeGridWindIce_c::GetScaledPatValue", "py_gnome/lib_gnome/IceMover_c.cpp: IceMover_c::GetMove", "py_gnome/lib_gnome/IceWindMover_c.cpp: IceWindMover_c::GetMove", "py_gnome/gnome/movers/c_current_movers.py: IceMover"]}
{"id": "C215", "title": "Ice and movement are reported as elements feel them", "statement": "get_ice_fields, get_ice_velocities and get_movement_velocities report for each cell the coverage, thickness and velocity of the ice of the file at the time asked for, and the velocity with which an element there is moved.", "quantifier": "all files, times and cells", "why_tests_cant": "all values and all times between records", "anchors": ["py_gnome/lib_gnome/TimeGridVel_c.cpp: TimeGridVelIce_c::GetIceFields, GetIceVelocities, GetMovementVelocities", "py_gnome/lib_gnome/TimeGridWind_c.cpp: TimeGridWindIce_c::GetMovementVelocities", "py_gnome/gnome/movers/c_current_movers.py: IceMover.get_ice_fields, get_ice_velocities, get_movement_velocities"]}
{"id": "C216", "title": "Loading by class gives an object of the class", "statement": "load of a class gives, from a folder or an archive, the file that was named or else the first file that has an object of the class, and finds one if there is one; from a json file its object; the object is one of the class.", "quantifier": "all folders and archives with any files in any order, all names, all classes", "why_tests_cant": "any order of files of other classes before the right one", "anchors": ["py_gnome/gnome/gnomeobject.py: GnomeId.load"]}
{"id": "C217", "title": "An archive that is accepted is safe to unpack", "statement": "is_savezip_valid accepts an archive only if its checksums are right, nothing that will be read as json is larger than the limit, no file is larger than the ratio times its size in the archive, so the whole is not either, and no name leads to another folder; and it accepts all archives like that.", "quantifier": "all archives with any number of entries of any names and sizes, all limits", "why_tests_cant": "all names and all sizes of entries", "anchors": ["py_gnome/gnome/persist/save_load.py: is_savezip_valid", "py_gnome/gnome/utilities/save_updater.py: extract_zipfile"]}
{"id": "C218", "title": "An ensemble has a model for each pair of uncertainties, and commands reach the right ones", "statement": "A ModelBroadcaster has one model for each pair of uncertainties of wind and amount, with the shifts of the pair; after any history of commands each model is as if it had been given the commands for it, by index, by pair or for all, and no others, in order; answers to a command for all are in the order of the pairs; an exception in a model is raised to the caller.", "quantifier": "all models, all lists of uncertainties, all histories of commands with any effects", "why_tests_cant": "any number of models, any history", "anchors": ["py_gnome/gnome/multi_model_broadcast.py: ModelConsumer.handle_cmd, ModelBroadcaster.__init__, cmd, handle_child_exception, stop, _set_uncertainty", "py_gnome/gnome/utilities/cache.py: ElementCache._create_new_dir"]}
{"id": "C219", "title": "More evaporates in more wind, in warmer water, of lighter oil and in a longer time", "statement": "The mass that evaporates of an element in a step does not get less with more wind, with warmer water, with a longer step or with a larger area, nor more with more water in the emulsion; it is between nothing and what there is. A component with a lower boiling point has a vapour pressure that is not lower; at the boiling point it is that of the atmosphere.", "quantifier": "all elements, all oils with any number of components, all winds, temperatures and times (real numbers)", "why_tests_cant": "monotone for all real inputs, not at sample points", "anchors": ["py_gnome/gnome/weatherers/evaporation.py: Evaporation._set_evap_decay_constant, weather_elements", "py_gnome/gnome/spills/gnome_oil.py: GnomeOil.vapor_pressure"]}
{"id": "C220", "title": "Weathering takes its wind from any wind of the model", "statement": "Whatever kind of wind a model has, evaporation gets a wind speed for every element: that of the wind at the element, but at least 1 m/s, and 1 m/s where the wind has no data.", "quantifier": "all winds of any kind, all positions", "why_tests_cant": "all kinds of winds, all positions with and without data", "anchors": ["py_gnome/gnome/weatherers/core.py: Weatherer.get_wind_speed", "py_gnome/gnome/weatherers/evaporation.py: Evaporation._mass_transport_coeff", "py_gnome/gnome/environment/environment_objects.py: IceAwareWind.at"]}
{"id": "C221", "title": "More wind never makes an emulsion with less water", "statement": "Of two histories of wind over an element, one of them never weaker than the other, the stronger never leaves the emulsion with less water, at any time.", "quantifier": "all histories of winds and steps of any lengths, all oils that emulsify", "why_tests_cant": "any number of steps with any winds", "anchors": ["py_gnome/gnome/weatherers/emulsification.py: Emulsification.weather_elements_adios2", "py_gnome/lib_gnome/Weatherers_c.cpp: emulsify"]}
{"id": "C222", "title": "Rougher seas take more oil from the surface, of thinner oil and in smaller droplets more", "statement": "If more waves break, or with more energy, or there is more sediment, or the oil is less viscous, dispersion and sedimentation together take no less from an element, and dispersion alone no less if there is no sediment. In smaller droplets each component is degraded no less.", "quantifier": "all seas, elements and times (real numbers), any number of components", "why_tests_cant": "monotone for all real inputs", "anchors": ["py_gnome/gnome/weatherers/natural_dispersion.py: NaturalDispersion.disperse_oil_DS", "py_gnome/gnome/weatherers/bio_degradation.py: Biodegradation.bio_degradate_oil"]}
{"id": "C223", "title": "The ERMA package has one layer for each one asked for, each with its own data", "statement": "The data package written for ERMA has one layer for each kind of layer asked for (and each output time, if asked for), and each layer refers to the data of its own kind: best estimate, uncertainty, boundaries, contours, map areas, spill locations; whatever the file name of the package.", "quantifier": "all settings, file names, runs with and without uncertainty, any number of output times", "why_tests_cant": "all names and combinations of 12 switches, any number of times", "anchors": ["py_gnome/gnome/outputters/erma_data_package.py: ERMADataPackageOutput.write_output, post_model_run, build_package, make_particle_package_layer", "py_gnome/gnome/outputters/shape.py: ShapeOutput"]}
{"id": "C224", "title": "The time slider of the ERMA package steps as the output does", "statement": "The time slider of each layer of the package has the time between outputs as its step, or what the user set.", "quantifier": "all output steps, model steps and settings", "why_tests_cant": "all steps, not those tried", "anchors": ["py_gnome/gnome/outputters/erma_data_package.py: ERMADataPackageOutput.prepare_for_model_run"]}
{"id": "C225", "title": "The folder of the ERMA package is named as asked, or after the start of this run", "statement": "If no folder name was given, the folder is named after the start of the run that made the package; if one was given, it has this name. After any history of runs and changes.", "quantifier": "all histories of runs and changes of settings", "why_tests_cant": "any history", "anchors": ["py_gnome/gnome/outputters/erma_data_package.py: ERMADataPackageOutput.prepare_for_model_run, rewind"]}
{"id": "C226", "title": "Times in UTC in the ERMA package use the offset that is set", "statement": "The times in UTC of the elements and contours of the package are the model times less the offset that was set last.", "quantifier": "all histories of changes of the offset, all times", "why_tests_cant": "any history of changes", "anchors": ["py_gnome/gnome/outputters/erma_data_package.py: ERMADataPackageOutput.__init__", "py_gnome/gnome/outputters/shape.py: ShapeOutput"]}
{"id": "C227", "title": "In the ERMA package each element has the colour of its own spill", "statement": "Each floating or beached element is in exactly one class of the legend of its layer; the class has the colour that the style of its own spill gives for its value, or the default one if its spill has no style.", "quantifier": "all lists of spills with any styles, all elements", "why_tests_cant": "any number of spills, bounds and colours, all values", "anchors": ["py_gnome/gnome/outputters/erma_data_package.py: ERMADataPackageOutput.spills_match_style, group_like_spills, make_particle_package_layer"]}
{"id": "C228", "title": "In the ERMA package each contour has the colour of its own cutoff", "statement": "Each contour is in exactly one class of the legend, that of its own spill and cutoff.", "quantifier": "all lists of spills with any styles", "why_tests_cant": "any number of spills and cutoffs", "anchors": ["py_gnome/gnome/outputters/erma_data_package.py: ERMADataPackageOutput.generate_cutoff_struct, make_contour_polygon_package_layer"]}
{"id": "C229", "title": "All environment objects that a file has are made from it, once, and refer to each other", "statement": "env_from_netCDF returns an object of every gridded class that can be made from the file (all known classes by default, or those asked for), none of a class that an object already made is of, and an object that needs another refers to one of the class that it needs.", "quantifier": "all families of classes with any requirements, all lists of classes in any order, all files", "why_tests_cant": "any number of classes, any order", "anchors": ["py_gnome/gnome/environment/environment.py: env_from_netCDF, ice_env_from_netCDF, Environment"]}
{"id": "C230", "title": "Tides and movers made from files keep their settings in a save file", "statement": "A tide or mover made from a file has after saving and loading every setting that it had: name, scales, offset of time, extrapolation, numerical method, times of uncertainty.", "quantifier": "all such classes, all settings, all values", "why_tests_cant": "all combinations of settings of eight classes; which are lost is found exactly", "anchors": ["py_gnome/gnome/environment/tide.py: Tide, TideSchema", "py_gnome/gnome/movers/c_current_movers.py: CatsMover, c_GridCurrentMover, IceMover, CurrentCycleMover, ComponentMover", "py_gnome/gnome/movers/c_wind_movers.py: c_GridWindMover, IceWindMover", "py_gnome/gnome/gnomeobject.py: GnomeId.new_from_dict"]}
{"id": "C231", "title": "An element in a gridded wind is moved by the wind of the nearest point of the file", "statement": "With a wind file on a regular grid, a floating element less than half a grid spacing away from a point of the file is moved by its windage times the scale of the mover times the wind of that point, on a straight line in time between the two records around the model time, with calm where the value is missing; elsewhere it is not moved, nor are elements under water or on land. Whether the file's latitudes go up or down makes no difference.", "quantifier": "For all files with at least two latitudes and longitudes (in either direction), all values, scales, times, steps and elements.", "why_tests_cant": "Tests read a few files with one orientation and check a few points.", "anchors": ["py_gnome/lib_gnome/TimeGridWind_c.cpp: TimeGridWindRect_c::TextRead, ReadTimeData, GetScaledPatValue", "py_gnome/lib_gnome/TimeGridVel_c.cpp: GetVelocityIndex", "py_gnome/lib_gnome/RectUtils.cpp: GetLScaleAndOffsets", "py_gnome/lib_gnome/GridWindMover_c.cpp: get_move, GetMove"]}
{"id": "C232", "title": "The wind reported on a grid is the wind that moves elements there", "statement": "At each point a gridded wind mover reports (get_points, get_center_points), the velocity of the same number in get_scaled_velocities(time) is the wind that moves an element at that point at that time; the corners of each reported cell go round it.", "quantifier": "For all files on regular grids, all scales of the mover, times and points.", "why_tests_cant": "Tests look at the number of reported values only.", "anchors": ["py_gnome/lib_gnome/TimeGridWind_c.cpp: TimeGridWindRect_c::GetPointsHdl, GetScaledVelocities, GetCellCenters, GetCellData", "py_gnome/lib_gnome/GridWindMover_c.cpp: GetScaledVelocities", "py_gnome/gnome/movers/c_wind_movers.py: c_GridWindMover.get_scaled_velocities, get_points, get_cells"]}
{"id": "C233", "title": "Which variables of a file an environment object takes depends on the file only, and they belong together", "statement": "When currents, winds or other environment objects are made from a netCDF file without naming the variables, the variables taken are the same in every run, and the eastward and northward components are of the same set, for a file that has both components of each set it has.", "quantifier": "For all lists of known names, all files and all orders in which Python lists a set.", "why_tests_cant": "Tests run in one order of names and have files with one set of variables.", "anchors": ["py_gnome/gnome/environment/names.py: nc_names, capitalize_name_mapping", "py_gnome/gnome/environment/environment_objects.py: GridCurrent, GridWind, IceVelocity", "py_gnome/gnome/environment/gridded_objects_base.py: VectorVariable.from_netCDF"]}
{"id": "C234", "title": "Images of ice show each cell in the colour of its value, in a box that holds all cells, as text that can be decoded", "statement": "The colours of a gradient go from the first to the last colour given and stay between them; a value has the colour of its part of the scale, more ice never an earlier colour; the bounding box returned is the smallest that holds the grids of all ice movers; the images returned are data URIs whose body is the image in base 64.", "quantifier": "For all gradients, scales, values, grids, numbers of ice movers and images.", "why_tests_cant": "Nothing in the test suite calls the outputter's images with other scales or decodes them.", "anchors": ["py_gnome/gnome/outputters/image.py: IceImageOutput.set_gradient_colors, add_gradient_to_canvas, lookup_gradient_color, render_images", "py_gnome/gnome/movers/c_current_movers.py: get_grid_bounding_box"]}
{"id": "C235", "title": "A tide read from a file has one value for each row of the file, in the file's order and in metres per second, or the file is refused", "statement": "A file with a name, a position, units of speed and rows (day, month, year, hour, minute and two values, separated by commas or blanks) is read exactly when every line after the header, but for blank lines and a last row of zeros, is a row and the times do not go back; the series then has the rows' times and their values times the factor of the units. Otherwise the file is refused with an error and nothing is kept of it.", "quantifier": "For all files with such a header, all texts of rows, all numbers of rows, blank lines and trailing empty lines, all time zones of the computer.", "why_tests_cant": "Tests read the few files of the sample data, all of them well formed.", "anchors": ["py_gnome/lib_gnome/OSSMTimeValue_c.cpp: ReadTimeValues, ConvertRowValuesToUV", "py_gnome/lib_gnome/TimeValuesIO.cpp: IsLongWindFile, IsOSSMTimeFile, IsNDBCWindFile, IsNCDCWindFile", "py_gnome/lib_gnome/OUTILS.cpp: StrToSpeedUnits", "py_gnome/gnome/cy_gnome/cy_ossm_time.pyx: _read_time_values", "py_gnome/gnome/environment/tide.py: Tide._obj_to_create"]}
{"id": "C236", "title": "Rows of a tide file with dates that do not exist are refused, and years of two digits mean the years 1940 to 2039", "statement": "A row is accepted only when its month, day, hour and minute are those of a date and a time of day; a year below 40 is of this century, one from 40 to 99 of the last, one from 1900 on is as given.", "quantifier": "For all rows as text.", "why_tests_cant": "Tests have rows with good dates only.", "anchors": ["py_gnome/lib_gnome/OSSMTimeValue_c.cpp: DateIsValid, CorrectTwoDigitYear, DateValuesAreZero, ReadTimeValues", "py_gnome/lib_gnome/StringFunctions.cpp: DateToSeconds"]}
{"id": "C237", "title": "Reading a file of a series looks at lines of that file only", "statement": "Whatever the file, deciding which kind of file it is looks at no line beyond its last.", "quantifier": "For all files.", "why_tests_cant": "Reading beyond the end of a vector may pass unnoticed in a test; no test has a file that is cut off.", "anchors": ["py_gnome/lib_gnome/TimeValuesIO.cpp: IsOSSMTimeFile, IsLongWindFile, IsHydrologyFile", "py_gnome/lib_gnome/OSSMTimeValue_c.cpp: ReadTimeValues"]}
{"id": "C238", "title": "The direction of a wind in a file means that bearing", "statement": "A direction that is a number means that bearing, up to whole circles, and the sixteen names of the compass mean their bearings, 22.5 degrees apart, clockwise from north.", "quantifier": "For all words and numbers.", "why_tests_cant": "Tests have bearings from 0 to 360 only.", "anchors": ["py_gnome/lib_gnome/OUTILS.cpp: ConvertToDegrees", "py_gnome/lib_gnome/OSSMTimeValue_c.cpp: ConvertRowValuesToUV", "py_gnome/gnome/utilities/timeseries.py: Timeseries"]}
{"id": "C239", "title": "A time that is saved comes back as the same instant", "statement": "A start time, a time of a series or a bound of an active range that is saved and loaded again is the same instant, also when it has a time zone or no end; a time with a zone in the text of a save file or a request is read as its instant.", "quantifier": "For all times with and without zone, all offsets, and the infinite times.", "why_tests_cant": "Tests have times without a zone.", "anchors": ["py_gnome/gnome/persist/extend_colander.py: LocalDateTime", "py_gnome/gnome/utilities/inf_datetime.py: InfTime, MinusInfTime"]}
{"id": "C240", "title": "A series of values with times is loaded exactly when its times go up strictly and its entries are good, and a good series comes back as it was", "statement": "A wind, a running average or observed beaching is loaded exactly when every entry is a time and a value within its range and the times, in whole seconds, go up strictly; a series with these properties that is saved comes back entry by entry.", "quantifier": "For all series, of any length, of all kinds of values with any ranges.", "why_tests_cant": "Tests try one duplicate and one pair out of order.", "anchors": ["py_gnome/gnome/persist/validators.py: no_duplicate_datetime, ascending_datetime, convertible_to_seconds", "py_gnome/gnome/persist/extend_colander.py: DatetimeValue2dArray, DatetimeValue1dArray", "py_gnome/gnome/environment/wind.py: WindTimeSeriesSchema", "py_gnome/gnome/weatherers/manual_beaching.py: BeachingTimeSeriesSchema", "py_gnome/gnome/environment/running_average.py: TimeSeriesSchema"]}
{"id": "C241", "title": "Winds that are loaded have speeds of at least 0 and directions from 0 to 360", "statement": "Each entry of a wind that is loaded has a speed that is at least 0 and a direction that is a number from 0 to 360 degrees.", "quantifier": "For all save files.", "why_tests_cant": "Tests try one negative speed and one direction above 360.", "anchors": ["py_gnome/gnome/environment/wind.py: MagnitudeDirectionTuple, WindTupleSchema", "py_gnome/gnome/weatherers/manual_beaching.py: BeachingTupleSchema"]}
{"id": "C242", "title": "Points and velocities of fixed length are loaded with that length", "statement": "A velocity of a simple mover or a point kept as an array of three numbers is loaded only with three numbers, and comes back as it was saved.", "quantifier": "For all lengths and all lists of numbers.", "why_tests_cant": "Tests load what they saved.", "anchors": ["py_gnome/gnome/persist/extend_colander.py: NumpyFixedLen, NumpyFixedLenSchema", "py_gnome/gnome/movers/simple_mover.py: SimpleMoverVelocitySchema", "py_gnome/gnome/persist/base_schema.py: WorldPointNumpy"]}
{"id": "C243", "title": "The names of data files come back in their order", "statement": "The file or files of an object come back from a save file in their order, with their paths or, from an archive, with their names; one name comes back as one name.", "quantifier": "For all lists of names, any path rule.", "why_tests_cant": "Tests have objects with one file.", "anchors": ["py_gnome/gnome/persist/extend_colander.py: FilenameSchema"]}
{"id": "C244", "title": "Larger and lighter droplets rise faster, without jumps", "statement": "A droplet of oil not denser than the water gets a rise velocity that is a number not below 0; it does not fall as the droplet gets larger, as the oil gets lighter or as the water gets thinner, and it changes without jumps over the three ranges of size.", "quantifier": "For all sizes not below 0, all densities of oil up to that of the water, all viscosities (from 4e-7 m2/s for the order by size).", "why_tests_cant": "Tests take a few sizes; the middle range is a cubic whose order depends on all parameters.", "anchors": ["py_gnome/lib_gnome/RiseVelocity_c.cpp: GetRiseVelocity, get_rise_velocity", "py_gnome/gnome/cy_gnome/cy_rise_velocity_mover.pyx: rise_velocity_from_drop_size", "py_gnome/gnome/spills/initializers.py: InitRiseVelFromDropletSizeFromDist"]}
{"id": "C245", "title": "Droplets that are denser than the water sink", "statement": "An element denser than the water around it sinks under the rise velocity mover, and one that is lighter rises.", "quantifier": "For all densities, sizes above 0, viscosities above 0 and steps.", "why_tests_cant": "Tests use oil that floats.", "anchors": ["py_gnome/lib_gnome/RiseVelocity_c.cpp: GetRiseVelocity, GetMove", "py_gnome/gnome/spills/initializers.py: InitRiseVelFromDropletSizeFromDist"]}
{"id": "C246", "title": "The rise velocity changes smoothly with the size of the droplet", "statement": "The rise velocity has a slope at every size, also where the laws for small and for large droplets are joined.", "quantifier": "For all sizes above 0, densities of oil below that of the water, viscosities above 0.", "why_tests_cant": "A slope is not seen in single values.", "anchors": ["py_gnome/lib_gnome/RiseVelocity_c.cpp: GetRiseVelocity"]}
{"id": "C247", "title": "A release is loaded with the settings it was saved with", "statement": "A release of any kind that could be built, also after another number of elements per time step was set, can be saved and loaded and then shows the same times, numbers, mass, positions, time zone and name.", "quantifier": "For all kinds of release, all arguments, all numbers per step.", "why_tests_cant": "Tests save point releases with a total number of elements.", "anchors": ["py_gnome/gnome/spills/release.py: Release, PointLineRelease, PolygonRelease, GridRelease, SubsurfaceRelease, VerticalPlumeRelease, InitElemsFromFile and their schemas", "py_gnome/gnome/gnomeobject.py: GnomeId.new_from_dict", "py_gnome/gnome/persist/base_schema.py: ObjType"]}
{"id": "C248", "title": "A release has the number of elements it was built with", "statement": "A release built with a total number of elements, or with a number for each time step, has that number, with the mass, time zone and name that were given.", "quantifier": "For all kinds of release and all arguments.", "why_tests_cant": "Tests build releases with a total number.", "anchors": ["py_gnome/gnome/spills/release.py: __init__ of the releases", "py_gnome/gnome/spills/initializers.py: InitRiseVelFromDropletSizeFromDist"]}
{"id": "C249", "title": "The times of satellite images", "statement": "A time of day in the attributes of a polygon of a satellite image (TIME), with the hour in one digit or two and the minutes in two, and any other characters, is read as that time, on the day in its attributes.", "quantifier": "for every day, hour, minute and way of writing the time", "why_tests_cant": "The readers of the sample files meet a handful of times; that 1:45 is read as 14:05 shows only when all hours are tried with all minutes.", "anchors": ["py_gnome/gnome/spills/release.py: NESDISRelease.load_nesdis"]}
{"id": "C250", "title": "Which time a release from a satellite image has", "statement": "A release from a file of polygons begins and ends at the time of its first polygon; each polygon has its own time or else the time that was given; it is 50 micrometers thick when its oil is called thick and 5 otherwise.", "quantifier": "for all lists of polygons, with and without times that can be read, and all times given", "why_tests_cant": "The samples have one time in all polygons; which time a polygon without one gets depends on all those before it.", "anchors": ["py_gnome/gnome/spills/release.py: NESDISRelease.load_nesdis, NESDISRelease.__init__"]}
{"id": "C251", "title": "Releases from files of splots", "statement": "A release made from a file of splots has at each place as many elements as the file says.", "quantifier": "for all files, numbers of elements and random numbers drawn", "why_tests_cant": "The outcome is random; the tests look at the positions of one file, not at how many elements each has.", "anchors": ["py_gnome/gnome/spills/release.py: release_from_splot_data, Release.initialize_elements"]}
{"id": "C252", "title": "Releases from saved results and from plumes", "statement": "A release from a record of a NetCDF file of results releases, at its time, elements at the positions in the file.", "quantifier": "for all records, times and steps of a run", "why_tests_cant": "No test steps a model with such a release.", "anchors": ["py_gnome/gnome/spills/release.py: InitElemsFromFile, VerticalPlumeRelease, Release.initialize_elements", "py_gnome/gnome/spills/spill.py: Spill.release_elements"]}
{"id": "C253", "title": "The station of a tide", "statement": "The position in the header of a file of a tide, in degrees and minutes north and west or in degrees, is the location of the station, to a millionth of a degree.", "quantifier": "for all positions, in both forms", "why_tests_cant": "The sample files are of stations in the north west of the globe; for the rest of it the minutes have to be taken with the sign of the degrees.", "anchors": ["py_gnome/lib_gnome/OSSMTimeValue_c.cpp: ReadOSSMTimeHeader, ReadHydrologyHeader", "py_gnome/gnome/cy_gnome/cy_ossm_time.pyx: CyOSSMTime.station_location"]}
{"id": "C254", "title": "Winds of buoys and weather stations", "statement": "A series read from a file of a buoy (NDBC) or of a weather station (NCDC) has the winds of the rows that have one, each at its own time; rows with a missing wind give none.", "quantifier": "for all files of rows, with blank lines and missing values anywhere", "why_tests_cant": "Whether a missing value becomes a wind of 99 m/s depends on the rows of the file, and the samples have few of them.", "anchors": ["py_gnome/lib_gnome/OSSMTimeValue_c.cpp: ReadNDBCWind, ReadNCDCWind"]}
{"id": "C255", "title": "Currents of a tidal cycle", "statement": "With the harmonics of a tide, a mover of currents of a tidal cycle moves elements with the pattern for the place in the cycle: at every quarter from the maximum flood on the pattern of that quarter, between two patterns a mean weighted by the distance to each, after the last pattern the first again, times the scale and the strength of the tide.", "quantifier": "for all numbers of patterns, all phases and fractions of the cycle, all runs of steps before", "why_tests_cant": "Which patterns are loaded depends on the steps before and on whether the place falls on a pattern; the one sample has twelve patterns and is only checked for movement.", "anchors": ["py_gnome/lib_gnome/CurrentCycleMover_c.cpp: PrepareForModelStep, GetMove, GetScaledVelocities", "py_gnome/lib_gnome/TimeGridVel_c.cpp: CheckInterval, SetInterval", "py_gnome/gnome/movers/c_current_movers.py: CurrentCycleMover"]}
{"id": "C256", "title": "Currents of a cycle without a tide", "statement": "Without a tide, the mover of currents of a cycle uses the pattern for the time since the first step of the run, linear in time between two patterns, times the scale; after the time of the last pattern the step fails, or the last pattern stays with extrapolation.", "quantifier": "for all files of at least two patterns with rising times, all times of the model, whatever the steps before have loaded, for runs that do not start at the epoch itself", "why_tests_cant": "The records in memory are reused from step to step, so a wrong reuse shows only in some sequences of times.", "anchors": ["py_gnome/lib_gnome/CurrentCycleMover_c.cpp: PrepareForModelStep, GetMove", "py_gnome/lib_gnome/TimeGridVel_c.cpp: CheckInterval, SetInterval"]}
{"id": "C257", "title": "The windages of a spill are those given for it", "statement": "A function that makes a spill refuses windages that make no sense and otherwise gives the spill the windages it is called with, or those of its substance; spills that are made later do not change them, and a call that is refused changes nothing.", "quantifier": "for all lists of substances that the caller has and all sequences of calls", "why_tests_cant": "The windages are kept in the substance, which the caller may use for several spills; tests make one spill per substance.", "anchors": ["py_gnome/gnome/spills/spill.py: _setup_spill, point_line_spill, surface_point_line_spill, grid_spill, subsurface_spill, spatial_release_spill, polygon_release_spill, Spill.substance", "py_gnome/gnome/spills/substance.py: Substance.windage_range, Substance.windage_persist"]}
{"id": "C258", "title": "A spill is released where and when it was asked for", "statement": "The functions that make spills from points and lines make a release from the start to the end that are given, at the depth given or at the surface, over the time given, and refuse positions without two or three numbers and ends before the beginning.", "quantifier": "for all positions of any number of coordinates, with or without an end, and all times", "why_tests_cant": "Tests look at a position with depth and one without, not at the mixtures of start and end.", "anchors": ["py_gnome/gnome/spills/spill.py: point_line_spill, surface_point_line_spill, subsurface_spill", "py_gnome/gnome/spills/release.py: PointLineRelease, Release.end_release_time"]}
{"id": "C259", "title": "A step of a boat that sprays dispersant ends", "statement": "With a boat as platform of a dispersant operation, every step of the model comes to its end, whatever the schedule, the step and the settings of the boat.", "quantifier": "for all schedules, lengths of steps, settings with positive times and rates, and states of the boat", "why_tests_cant": "The boat is simulated by a loop over its states until the time of the step is used up; a state that uses no time shows only in steps at the end of a period or with options that no test sets.", "anchors": ["py_gnome/gnome/weatherers/roc.py: Disperse.prepare_for_model_step, Disperse.simulate_boat, Disperse.update_time"]}
{"id": "C260", "title": "The times a spraying boat reports add up to the step", "statement": "The times of transit, on site and reloading that a boat reports for a step are at least 0 and add up to the step, while it is in service.", "quantifier": "for all schedules, steps and histories of steps", "why_tests_cant": "The sum depends on where the boat is when a period ends and another begins.", "anchors": ["py_gnome/gnome/weatherers/roc.py: Disperse.simulate_boat"]}
{"id": "C261", "title": "A boat carries no more than its payload and is back in time", "statement": "A boat always carries between nothing and its payload of dispersant, reports as payloads what it has sprayed, sets out only if it can be back by the end of the last period, and leaves the site in time.", "quantifier": "for all sequences of steps of any length and number of sorties", "why_tests_cant": "Several sorties in one step, and sorties over many steps, are beyond the cases of the tests.", "anchors": ["py_gnome/gnome/weatherers/roc.py: Disperse.simulate_boat, Platform.sortie_possible, Platform.one_way_transit_time, Platform.refuel_reload"]}
{"id": "C262", "title": "The oil a boat treats is a number", "statement": "What a boat reports as oil treated is a number, nothing if there is no oil that can be dispersed, and never more than the oil that there is or than the dispersant sprayed is good for.", "quantifier": "for all steps, with and without oil that can be dispersed", "why_tests_cant": "A run in which all of the oil has become too viscous while the boat is on site is not tested.", "anchors": ["py_gnome/gnome/weatherers/roc.py: Disperse.simulate_boat, Disperse.dispersable_oil_amount, Disperse.weather_elements"]}
{"id": "C263", "title": "Dispersant removes what it is credited with", "statement": "Applying dispersant changes only elements that can be dispersed: each loses its share of the oil treated times the efficacy for its viscosity and the wind, at most all of its mass, from all components in the same proportion. All in all at most 78 % of the oil treated is dispersed. What the elements lose is what is added to 'chem_dispersed' and taken from 'floating', in every step and over every run.", "quantifier": "for all elements, winds, amounts treated and sequences of steps", "why_tests_cant": "Rests on sums over any number of elements and steps; tests look at one case.", "anchors": ["py_gnome/gnome/weatherers/roc.py: Disperse.weather_elements, Disperse.dispersable_oil_idxs, Disperse.get_disp_eff, Response._remove_mass_indices"]}
{"id": "C264", "title": "Dispersant can be applied in any wind", "statement": "A step in which oil is treated with dispersant succeeds whatever the speed of the wind.", "quantifier": "for all wind speeds, elements and amounts treated", "why_tests_cant": "Tests use moderate winds; the table of efficacies ends at 36 m/s.", "anchors": ["py_gnome/gnome/weatherers/roc.py: Disperse.wind_eff_list, Disperse.get_disp_eff, Disperse.get_disp_eff_avg"]}
{"id": "C265", "title": "An efficacy that is set is used", "statement": "With an efficacy set by the user, that fraction of the oil treated is dispersed, as long as there is so much oil.", "quantifier": "for all efficacies, winds, elements and amounts treated", "why_tests_cant": "The tests leave the efficacy to be computed.", "anchors": ["py_gnome/gnome/weatherers/roc.py: Disperse.__init__ (disp_eff), Disperse.prepare_for_model_step, Disperse.weather_elements"]}
{"id": "C266", "title": "Efficacy falls away from its best", "statement": "For oils thicker than 1000 cSt a thicker oil is not dispersed better, for oils thinner than that a thinner one is not; the efficacy rises with the wind up to 9 m/s and does not rise above. Between two viscosities of the table the efficacy is that of the larger.", "quantifier": "for all viscosities and wind speeds", "why_tests_cant": "A statement about all pairs of viscosities and winds.", "anchors": ["py_gnome/gnome/weatherers/roc.py: Disperse.wind_eff_list, Disperse.visc_eff_table, Disperse.get_disp_eff"]}
{"id": "C267", "title": "Loading one after the other takes longer", "statement": "With loading type 'simultaneous' refuelling and reloading take the longer of the two times, with 'separate' their sum.", "quantifier": "for all platforms", "why_tests_cant": "The flag is passed from one object to another as a string; tests use one of the types.", "anchors": ["py_gnome/gnome/weatherers/roc.py: Platform.refuel_reload, Disperse.simulate_boat, Disperse.simulate_plane"]}
{"id": "C268", "title": "The pump does what it can", "statement": "The pump of a platform runs between its smallest and largest rate, at the rate closest to the one that the dosage asks for. A dosage can be sprayed exactly with some width of swath of the platform if and only if it lies between the smallest and the largest dosage that the platform reports.", "quantifier": "for all platforms and dosages", "why_tests_cant": "An equivalence over all dosages and widths.", "anchors": ["py_gnome/gnome/weatherers/roc.py: Platform.eff_pump_rate, Platform.max_dosage, Platform.min_dosage"]}
{"id": "C269", "title": "A distance is the same in every unit", "statement": "The times a platform needs for a distance to the slick or for a length of passes do not depend on the unit in which that is given.", "quantifier": "for all platforms, distances and units", "why_tests_cant": "Tests give all distances in nautical miles.", "anchors": ["py_gnome/gnome/weatherers/roc.py: Platform.one_way_transit_time, Platform.pass_duration, Disperse._attr, Disperse.units"]}
{"id": "C270", "title": "The fraction of a pass spent on spraying", "statement": "The fraction of a pass that is spent on spraying is the time of spraying over the duration of the pass.", "quantifier": "for all platforms, lengths and types of passes", "why_tests_cant": "There is no test of it.", "anchors": ["py_gnome/gnome/weatherers/roc.py: Platform.spray_time_fraction, Platform.pass_duration"]}
{"id": "C271", "title": "Sorties and passes fit into the time", "statement": "A sortie is possible if and only if the time is more than the way there, one pass in both directions and the way back; then it is possible with more time and for nearer slicks, too. The passes that are said to be possible in a time fit into it.", "quantifier": "for all platforms, times, distances and lengths of passes", "why_tests_cant": "Depends on how fractions of seconds are cut off, for all durations.", "anchors": ["py_gnome/gnome/weatherers/roc.py: Platform.sortie_possible, Platform.num_passes_possible, Platform.one_way_transit_time"]}
{"id": "C272", "title": "An attribute of a platform can be set", "statement": "Setting an attribute of a platform to a value with a unit of the right kind stores both, and leaves the other attributes alone.", "quantifier": "for all platforms, attributes, values and units", "why_tests_cant": "Not tested; a test would use one attribute and one unit.", "anchors": ["py_gnome/gnome/weatherers/roc.py: Platform.set, Platform._units_type"]}
{"id": "C273", "title": "Every figure of a platform can be asked for", "statement": "For a platform with all of its attributes set, the times of transit, passes, loading and cascading, the rates and the dosages can all be computed.", "quantifier": "for all platforms", "why_tests_cant": "Some of the figures are computed only with options that no test sets.", "anchors": ["py_gnome/gnome/weatherers/roc.py: Platform.release_rate, Platform.cascade_time, Platform.get, Platform._attr"]}
{"id": "C274", "title": "A spill of another substance is refused and not added", "statement": "Adding a spill that makes the spills which are switched on differ in substance raises an error, and the spills of the model are then as before, in the forecast and in the uncertainty run.", "quantifier": "for all histories of adding, removing, switching, changing substances, rewinds and preparations, and all new spills", "why_tests_cant": "The test of the error looks only at the exception, not at the spills afterwards.", "anchors": ["py_gnome/gnome/spill_container.py: SpillContainer._set_substancespills, _spills_changed, SpillContainerPair._add_item"]}
{"id": "C275", "title": "A run has one substance", "statement": "When a run is prepared without an error, all spills that are switched on are of one substance, the substance of the run is that one (the one that does not weather when no spill is on), and the arrays have its number of components. Without uncertainty this is possible exactly when they are of one substance; spills that are switched off do not matter.", "quantifier": "for all histories of adding, removing, switching, changing substances, rewinds and preparations", "why_tests_cant": "Substances and switches can be changed at any time between additions without a check.", "anchors": ["py_gnome/gnome/spill_container.py: SpillContainer._set_substancespills, SpillContainer.prepare_for_model_run"]}
{"id": "C276", "title": "A refused spill can be removed", "statement": "A spill whose addition was refused can be removed, and the spills are then as before.", "quantifier": "for all histories and all refused spills, with and without uncertainty", "why_tests_cant": "No test goes on after the error.", "anchors": ["py_gnome/gnome/spill_container.py: SpillContainerPair.remove, SpillContainerPair.rewind, SpillContainer.rewind"]}
{"id": "C277", "title": "With uncertainty on there is an uncertainty run", "statement": "Switching uncertainty on makes a copy of every spill, in order; whenever uncertainty is on there is an uncertainty run, and after a rewind it has the spills of the forecast.", "quantifier": "for all histories", "why_tests_cant": "Tests switch uncertainty on only with spills that fit together.", "anchors": ["py_gnome/gnome/spill_container.py: SpillContainerPair.uncertain, SpillContainer.uncertain_copy, SpillContainerPair.rewind"]}
{"id": "C278", "title": "What dissolves more", "statement": "Only aromatic components dissolve. Of a component with larger molecules for its density no more dissolves, in a longer step and of a slick with a larger area no less.", "quantifier": "for all elements, oils, winds, seas and lengths of the step", "why_tests_cant": "Tests look at single values of the rates.", "anchors": ["py_gnome/gnome/weatherers/dissolution.py: Dissolution.dissolve_oil, droplet_subsurface_mass_xfer_rate, slick_subsurface_mass_xfer_rate", "py_gnome/gnome/utilities/weathering/banerjee_huibers.py: BanerjeeHuibers.partition_coeff"]}
{"id": "C279", "title": "Islands of a curvilinear grid are told apart", "statement": "When a curvilinear current file with a land mask is read and the land is numbered to make boundaries, two land cells receive the same number exactly if they belong to one block of land: a path of land cells with common sides joins them, where all the land at the edge of the grid counts as one block.", "quantifier": "For every size of the grid, every land mask and every two land cells.", "why_tests_cant": "A test uses a file or two; whether the merging ends and puts together neither too much nor too little depends on the shape of every coastline.", "anchors": ["py_gnome/lib_gnome/GridMapUtils.cpp: NumberIslands, CheckSurroundingPoints, ThereIsALowerLandNeighbor, ResetMaskValues", "py_gnome/lib_gnome/TimeGridVel_c.cpp: TimeGridVelCurv_c::ReorderPoints"]}
{"id": "C280", "title": "Numbers of land cells run without gaps up to the reported count", "statement": "After the land of a curvilinear grid is numbered, land cells have numbers from 3 up and water cells do not; number 3 is exactly that of land linked with the edge; no number is above the reported count, and every number from 4 up to the count is the number of some land cell inside the grid.", "quantifier": "For every size of the grid and every land mask.", "why_tests_cant": "Blocks are renumbered after each of an unknown number of merges; a gap would show only for particular coastlines.", "anchors": ["py_gnome/lib_gnome/GridMapUtils.cpp: NumberIslands, ResetMaskValues"]}
{"id": "C281", "title": "A continuous release gives every time step its even share", "statement": "When a continuous release is prepared for a run, every time step of the release releases at least one element, the numbers of two steps differ by at most one, and with a number of elements per step every step releases exactly that number; a continuous release is refused exactly if the run goes backwards or has steps under a second, or if one element per step would not last to the end of the release.", "quantifier": "For every time of release, duration, time step and number of elements, and every step of the release.", "why_tests_cant": "Rounding of the cumulative number at every step and the last, shorter step give many cases; a test checks a total for one release.", "anchors": ["py_gnome/gnome/spills/release.py: Release.prepare_for_model_run, generate_release_timeseries, element_timestep_ratio, get_num_release_time_steps, num_elements_after_time", "py_gnome/gnome/environment/timeseries_objects_base.py: TimeseriesData.at"]}
{"id": "C282", "title": "A tidal current station gives its corrected current at every time of its period", "statement": "At every time from the tidal event before the first of the period to the event after the last, the current of a tide station is computed from the events corrected by the station's time offsets and speed ratios, and at the corrected time of an event it is the corrected speed. (False from the last event of the period on: the event after the last is stored one place too far, so the sample keeps the time and the speed of the reference station.)", "quantifier": "For every list of events of any length, corrections, and time.", "why_tests_cant": "A test looks at a few times in the middle of a period; that the tail of every period keeps the reference values needs the general argument.", "anchors": ["py_gnome/lib_gnome/ShioCurrent2.cpp: GetRefCurrent, GetFloodEbbSpans", "py_gnome/lib_gnome/ShioCurrent1.cpp: DoOffSetCurrents, CurveFitOffsetCurve, GetFloodEbbKey, DoHermite", "py_gnome/lib_gnome/CompFunctions.cpp: Hermite"]}
{"id": "C283", "title": "Between slack water and a maximum a tidal current keeps its direction and does not exceed the maximum", "statement": "Between a maximum flood or ebb and the slack water next to it the current of a tide station runs in the direction of the maximum and is at most as fast. (False exactly when the change on the other side of slack water is more than five times as steep: then the curve exceeds the maximum.)", "quantifier": "For every list of events of any length in order, corrections, and time between two events.", "why_tests_cant": "The bound holds for a cubic with a slope that depends on three events; samples do not tell for which ratios of slopes it fails.", "anchors": ["py_gnome/lib_gnome/ShioCurrent1.cpp: CurveFitOffsetCurve, DoHermite", "py_gnome/lib_gnome/ShioCurrent2.cpp: GetFloodEbbSpans", "py_gnome/lib_gnome/CompFunctions.cpp: Hermite"]}
{"id": "C284", "title": "Tidal events that corrections put out of order do not disturb the others", "statement": "After the corrections of a station, events in order are left alone, two neighbours in the wrong order are set a minute apart around their mean time, no speed or label changes, and the events that take part in the curve follow each other in time. (The last is proved for neighbours only: with offsets of many hours events that become neighbours because the ones between are left out may be in the wrong order.)", "quantifier": "For every sequence of events of any length and every correction.", "why_tests_cant": "The repair is an iteration over all events with at most five passes; tests have events in order.", "anchors": ["py_gnome/lib_gnome/ShioCurrent1.cpp: DoOffSetCurrents, CurveFitOffsetCurve"]}
{"id": "C285", "title": "Currents of a regular grid at depth follow the levels of the file", "statement": "With a file of currents on a regular grid that has levels in metres listed from the top, the current that moves an element at depth d is that of the profile through the values of its cell: the value of the top level above it, linear between neighbouring levels, exactly the value of a level at its depth, and the value of the deepest level below it; values are weighted in time first. A file without levels acts at the surface only. (The code reads outside the table of values below the deepest level; all the rest is proved.)", "quantifier": "For every list of levels, every table of values, every cell, weight in time and depth.", "why_tests_cant": "The search overwrites earlier matches and has three tests after its loop; tests use files with one level.", "anchors": ["py_gnome/lib_gnome/TimeGridVel_c.cpp: TimeGridVelRect_c::GetScaledPatValue, TimeGridVelRect_c::GetDepthIndices"]}
{"id": "C286", "title": "Currents of a curvilinear grid at depth follow the levels of the file", "statement": "With a file of currents in the cells of a curvilinear grid, the current at a depth down to the bottom is that of the profile through the levels of the file at the cell, whether the levels are metres, parts of the depth or the curves of ROMS, and whether they are listed from the top or from the bottom; below the bottom it is zero. (The code weights levels in metres as if they were parts of the depth, and takes the bottom's current at the surface when parts of the depth are listed from the bottom; it is right for parts listed from the top and for ROMS.)", "quantifier": "For every list of levels, depth of the sea, table of values, cell and depth.", "why_tests_cant": "Three kinds of levels with two orders and weights computed elsewhere than the search; no test has a file of each kind.", "anchors": ["py_gnome/lib_gnome/TimeGridVel_c.cpp: TimeGridVelCurv_c::GetScaledPatValue, TimeGridVelCurv_c::GetDepthIndices, GetDepthAtIndex"]}
{"id": "C287", "title": "Currents on the points of a curvilinear grid at depth are made of profiles at the corners", "statement": "With a file of currents on the points of a curvilinear grid, the current at a depth is the sum over the four corners, with their weights, of the profile through the levels of the file. (The code uses the depths of the sea at the first points of the grid as depths of the levels: over a flat bottom it divides by zero, over another the current may be several times the largest of the file. Above the first level, below the last and below the bottom it is right.)", "quantifier": "For every list of levels, bathymetry, table of values, set of corners and depth.", "why_tests_cant": "The error needs a place strictly between two levels; tests of such files are at the surface.", "anchors": ["py_gnome/lib_gnome/TimeGridVel_c.cpp: TimeGridVelCurv_c::GetInterpolatedValue, TimeGridVelCurv_c::TextRead"]}
{"id": "C288", "title": "Currents on triangles with several levels follow the levels at the nodes", "statement": "With a file of currents on triangles with several levels, the current at any depth that all three corners reach is the sum, with their weights, of the profiles through the levels of the file at the corners; at the surface it is the value of the top level. (The code takes the values of other nodes at the surface, stores values in the other order than parts of the depth, and uses a level above the water where the sea is shallower than the highest level. For heights above the bottom that stay under water it is right below the surface.)", "quantifier": "For every list of levels, depths of the sea at the nodes, values, corners and depth.", "why_tests_cant": "Surface and depth are two code paths with different indexing; tests of triangles have a single level.", "anchors": ["py_gnome/lib_gnome/TimeGridVel_c.cpp: TimeGridVelTri_c::GetScaledPatValue, GetScaledPatValue3D, GetDepthIndices, TextRead, ReadTimeData"]}
{"id": "C289", "title": "A burn takes the oil of the layer above two millimetres", "statement": "A burn of a given area, thickness and efficiency removes, over a run, the oil of the layer above 2 mm over the area at the efficiency (density x efficiency x area x (thickness - 2 mm) x share of oil in the mixture), or all of the oil it took hold of when that is less, however the run is divided into steps and whatever happens to the other elements; when the run does not cover all of the burn it removes the rate times the time common to both; a layer of 2 mm or less does not burn.", "quantifier": "every burn, slick, water content, start, step and number of steps, any changes of other elements between steps", "why_tests_cant": "the amount depends on how start and (wetness-dependent) end fall among the steps, the end being fixed only in the first burning step", "anchors": ["py_gnome/gnome/weatherers/cleanup.py: Burn.prepare_for_model_run, prepare_for_model_step, _init_rate_duration, _set_burn_params, weather_elements; RemoveMass._set__timestep; CleanUpBase._update_LE_status_codes, _avg_frac_oil"]}
{"id": "C290", "title": "A save file goes to the place asked for", "statement": "Saving an object to a folder puts one archive named after the object there, saving to a path puts it at the path (with the suffix .gnome unless it ends in .zip or .gnome), saving to nothing gives an open archive; the place is returned, the archive holds all files of the object, with overwriting exactly those. Without overwriting nothing existing is lost: a file in a folder or a file that is no archive is refused, an archive is added to, its files readable as before. A file that does not exist is created whatever overwrite says, and an open archive can be given.", "quantifier": "every object, place, setting of overwrite and state of the disk", "why_tests_cant": "combination of kinds of place, what is there already and overwrite", "anchors": ["py_gnome/gnome/gnomeobject.py: GnomeId.save", "py_gnome/gnome/utilities/save_updater.py: sanitize_filename"]}
{"id": "C291", "title": "A save that does not succeed leaves the files as they were", "statement": "When save is refused or fails, every file is as before; in any case no other file than the save file is touched.", "quantifier": "every object, place, setting of overwrite and state of the disk", "why_tests_cant": "an exception in the middle of writing after the old file was opened for overwriting", "anchors": ["py_gnome/gnome/gnomeobject.py: GnomeId.save"]}
{"id": "C292", "title": "Saving in the middle of a run adds the state and touches nothing else", "statement": "A model saved in the middle of a run has in its archive also the state of the elements and of the uncertain elements; all other files of the archive and on the disk are as they were.", "quantifier": "every model, place and state of the disk", "why_tests_cant": "the state is written through the working directory under fixed names", "anchors": ["py_gnome/gnome/model.py: Model.save, Model._save_spill_data", "py_gnome/gnome/outputters/netcdf.py: NetCDFOutput.clean_output_files"]}
{"id": "C293", "title": "A label of a grid line in degrees, minutes and seconds says where the line is", "statement": "With grid lines in degrees, minutes and seconds every line has one label, in the order of the lines, put where the line meets the top or the left side of the view. The label is the position of the line to half a second, with the letter of the right hemisphere, and has less than 60 minutes and seconds; for the lines of the built-in intervals it is exact. (The code carries 60 seconds to the minutes but not 60 minutes to the degrees: a position a hair below one degree would be labelled 0 degrees 60 minutes.)", "quantifier": "For every view, number of lines, position and orientation.", "why_tests_cant": "Whether rounding reaches 60 depends on the position; a picture with labels is not compared with anything.", "anchors": ["py_gnome/gnome/utilities/map_canvas.py: GridLines.get_tags, get_lines, refresh_scale, DMS_STEPS"]}
{"id": "C294", "title": "Different grid lines have different decimal labels", "statement": "With grid lines in decimal degrees the label is within half a hundredth of a degree of its line and lines in different places have different labels. (Labels have two decimals, while lines may be 0.001, 0.0025 or 0.005 degrees apart: in a view of a harbour several lines have the same label. From intervals of a hundredth of a degree on the claim holds.)", "quantifier": "For every view, number of lines and pair of lines.", "why_tests_cant": "Depends on the extent of the view; only small views fail.", "anchors": ["py_gnome/gnome/utilities/map_canvas.py: GridLines.get_tags, get_lines, refresh_scale, DEG_STEPS"]}
{"id": "C295", "title": "Bounds, spillable area and land of a map are the points that were given", "statement": "Bounds given as points (longitude, latitude) are exactly these points, nothing or 'global' is the whole world, anything else is refused; the bounding box is the least box around the bounds. Spillable area and land given as a list of polygons are these polygons, one polygon is a list of one, an empty list is no polygon. (Points with depths are silently regrouped to other points; one polygon as an array is an IndexError; an empty list as spillable area is an IndexError.)", "quantifier": "For every list of points, list of polygons and form in which they are given.", "why_tests_cant": "The forms that may be given are many and are told apart by the exceptions they cause.", "anchors": ["py_gnome/gnome/maps/map.py: GnomeMap.map_bounds, spillable_area, land_polys, get_map_bounding_box", "py_gnome/gnome/utilities/geometry/polygons.py: PolygonSet.append"]}
{"id": "C296", "title": "A model finds the objects that it has", "statement": "Looking for objects of a class or with the value of an attribute in a collection gives the first one, or all of them in order, and nothing exactly when there is none. A model contains exactly the objects of its collections, its map and the objects within these. (Objects within objects, such as the release of a spill, are not found.)", "quantifier": "For every model, collection, class, attribute and value.", "why_tests_cant": "Quantifies over all contents and orders of collections; nothing in the test suite asks for objects within objects.", "anchors": ["py_gnome/gnome/model.py: Model.contains_object, find_by_class, find_by_attr"]}
{"id": "C297", "title": "Weatherers asked for by name are added, all or none", "statement": "Adding weathering by names adds one weatherer for each name, in the order of the names, after those that are there; 'standard' stands for evaporation, dispersion and emulsification; a name that is not known is refused and nothing is added. (What comes before the unknown name has been added.) A single name that is not in a list is refused.", "quantifier": "For every list of names and every state of the model.", "why_tests_cant": "The state after an exception is not looked at by tests.", "anchors": ["py_gnome/gnome/model.py: Model.add_weathering", "py_gnome/gnome/weatherers/__init__.py: weatherers_by_name, standard_weatherering_sets"]}
{"id": "C298", "title": "A land map from the mask of a netCDF grid has its land where the mask is 0", "statement": "On the map made from a regular grid with a mask, a place in the cell that begins at a point of the grid is land exactly when the mask of the point is 0; the last cell of each axis is as wide as the one before it. The refinement does not matter. A grid whose rows of longitudes or columns of latitudes differ is refused.", "quantifier": "For every regular grid with two or more increasing longitudes and latitudes, every mask, refinement and place.", "why_tests_cant": "The tables are turned, reversed and refined on the way; a mistake moves land by a cell or mirrors it, which one point does not show.", "anchors": ["py_gnome/gnome/maps/map.py: grid_from_nc, map_from_rectangular_grid_nc_file"]}
{"id": "C299", "title": "The raster of a map file has the size that was asked for, and square pixels", "statement": "The raster made from the polygons of a map file has at most the number of pixels that was asked for and misses it by less than a row. It is made exactly when the number is not less than the ratio of height to width of the box on the ground, and has pixels both ways. Pixels are as wide as high on the ground up to the rounding of the numbers of columns and rows.", "quantifier": "For every number of pixels and every ratio of the sides.", "why_tests_cant": "The two numbers are rounded one after the other; tests look at one file.", "anchors": ["py_gnome/gnome/maps/map.py: MapFromBNA.build_raster, raster_size"]}
{"id": "C300", "title": "On the map of a file the innermost polygon decides what is land", "statement": "Lakes in land are water and islands in lakes are land: at every place the innermost of the polygons around it decides, water where there is none. (Polygons are drawn in the order of the file: an island that comes before the lake around it is drawn over. Where every polygon comes after those around it, the claim holds; in any file the last polygon that covers a place decides.)", "quantifier": "For every list of polygons and place.", "why_tests_cant": "Depends on the order of the polygons in the file; the test files have one order.", "anchors": ["py_gnome/gnome/maps/map.py: MapFromBNA.build_raster"]}
{"id": "C301", "title": "In GeoJSON output of ice each cell is in the feature of its value", "statement": "With a value of coverage or thickness for each cell there is one feature for each rounded value that occurs, in ascending order, and no other; taken together the features have every cell exactly once, in the feature of its value. The value of a feature is that of the ice to half a hundredth (coverage) or half a tenth (thickness).", "quantifier": "For every number of cells and all values and cells.", "why_tests_cant": "Cells are grouped by equality of rounded numbers; whether a cell is lost or doubled depends on all values together.", "anchors": ["py_gnome/gnome/outputters/geo_json.py: IceGeoJsonOutput.get_coverage_fc, get_thickness_fc, get_grouped_fc_from_1d_array"]}
{"id": "C302", "title": "Ice in GeoJSON output has valid geometries", "statement": "The geometry of a feature of ice is a MultiPolygon as GeoJSON (RFC 7946) has it: polygons, in these closed rings, in these positions. (It never is: the level of rings is missing and rings are not closed. With these added it would be.)", "quantifier": "For every feature with a cell.", "why_tests_cant": "The package geojson does not check geometries, and no test looks at the nesting.", "anchors": ["py_gnome/gnome/outputters/geo_json.py: IceGeoJsonOutput.get_grouped_fc_from_1d_array"]}
{"id": "C303", "title": "The vectors of a gridded current shown to the user stand at their own centres", "statement": "get_data_vectors and get_centers of a structured grid list the same cells, those that are not masked, row by row, each once: at each centre is the vector of its cell. Components on the faces of cells are the mean of the two faces, missing ones are no flow; with an angle of the grid each vector is turned by the angle of its own cell, against the clock, and keeps its speed. (Components at the centres: a value that is missing in a cell that is not masked is left out, and the vectors after it stand at wrong centres.)", "quantifier": "For every size of grid, mask, angle and all components.", "why_tests_cant": "Two functions compress tables by a mask; that they stay in step depends on all masks and missing values.", "anchors": ["py_gnome/gnome/environment/gridded_objects_base.py: VectorVariable.get_data_vectors, Grid_S.get_centers", "py_gnome/gnome/environment/environment_objects.py: VelocityGrid.get_data_vectors"]}
{"id": "C304", "title": "The moves of a step add up, in any order of the movers", "statement": "After the movers of a step each element is where it was plus the sum of the moves of all movers, each taken at the place before the step; the order of the movers does not matter, a mover that is not active may as well be left out, and an element moves the same whatever elements are beside it.", "quantifier": "For every list of movers, their random numbers, elements and length of step.", "why_tests_cant": "All orders and combinations of movers; a mover that looked at places already changed by another one would only show in some orders.", "anchors": ["py_gnome/gnome/model.py: Model.move_elements", "py_gnome/gnome/movers/: get_move of SimpleMover, CurrentMover, WindMover, PointWindMover, RandomMover, IceAwareRandomMover, RiseVelocityMover, RandomMover3D"]}
{"id": "C305", "title": "A run can be repeated", "statement": "After a rewind a run depends on the settings of the model only: whatever has been run before, for any number of steps, with and without uncertainty, the same elements are shown in every step, although movers keep random numbers and standard deviations from earlier runs and the generators have been used.", "quantifier": "all models with any movers, all numbers of steps before the rewind and after it, all generators", "why_tests_cant": "equality of two whole runs from arbitrary leftovers; a test repeats one run", "anchors": ["py_gnome/gnome/model.py: Model.rewind, setup_model_run, step", "py_gnome/gnome/utilities/rand.py: seed", "py_gnome/gnome/movers/py_wind_movers.py: WindMover.prepare_for_model_run, update_uncertainty", "py_gnome/gnome/movers/py_current_movers.py: CurrentMover", "py_gnome/lib_gnome/WindMover_c.cpp: PrepareForModelRun, UpdateUncertainty", "py_gnome/lib_gnome/CurrentMover_c.cpp"]}
{"id": "C306", "title": "Models in one process do not disturb each other", "statement": "A model gives the same run when the steps of another model in the same process come in between.", "quantifier": "all pairs of models, all numbers of steps", "why_tests_cant": "the random numbers are drawn from generators of the process; only runs side by side show it", "anchors": ["py_gnome/gnome/utilities/rand.py: seed", "py_gnome/gnome/model.py: Model.rewind, step"]}
{"id": "C307", "title": "The forecast is the same with uncertainty on and off", "statement": "Turning uncertainty on adds the uncertain elements and leaves the forecast as it is.", "quantifier": "all models, all numbers of steps", "why_tests_cant": "both kinds of elements share movers and generators; relational statement about two runs", "anchors": ["py_gnome/gnome/model.py: Model.setup_time_step, move_elements, release_elements", "py_gnome/gnome/movers/py_wind_movers.py: WindMover", "py_gnome/lib_gnome/WindMover_c.cpp: UpdateUncertainty"]}
{"id": "C308", "title": "In a steady current a run backwards goes back over the run forwards", "statement": "With movers of a current that is the same everywhere and always, in open water, every element goes as many metres as the current does in the time of the run, and a run backwards from where a run forwards ended takes every element back to where it was. (True for currents along a meridian or a parallel, and always for latitude and depth; in longitude other currents miss it by one step of the current times the difference of the lengths of a degree at the two ends.)", "quantifier": "all lists of such movers, all numerical methods, time steps and numbers of steps, all elements in the water", "why_tests_cant": "a sum over all steps of two runs, with the length of a degree changing on the way", "anchors": ["py_gnome/gnome/model.py: Model.move_elements, step, run_backwards", "py_gnome/gnome/movers/simple_mover.py: SimpleMover.get_move", "py_gnome/gnome/movers/py_current_movers.py: CurrentMover.get_move", "py_gnome/gnome/movers/movers.py: PyMover.get_delta_Euler, get_delta_RK2, get_delta_RK4", "py_gnome/gnome/utilities/projections.py: FlatEarthProjection.meters_to_lonlat"]}
{"id": "C309", "title": "The vectors shown on an image are those of its time", "statement": "The vectors of a gridded property on an image are interpolated between the records around the time of the image, and are those of the first or last record before and after the data. (At and before the first record those of the last are shown; after the last the drawing raises.)", "quantifier": "all data with two or more records, all times", "why_tests_cant": "tests look at no image; the first time of a file is the usual start of a run and gives plausible vectors", "anchors": ["py_gnome/gnome/outputters/renderer.py: GridPropVisLayer.draw_to_image, Renderer.add_vec_prop"]}
{"id": "C310", "title": "Each point of the grid with a value within an image has its vector there, and drawing changes nothing", "statement": "An image shows exactly one arrow for each point of the grid that has a value and whose arrow is within the image, from the point along the velocity; the grid is as before. (Points without a value are drawn at 0, 0 if that is in the image, and with values on faces the centres of masked faces are moved to 0, 0 in the grid itself.)", "quantifier": "all grids, masks, values, scales and images", "why_tests_cant": "needs a mask and a look at the grid after drawing; the damage appears elsewhere", "anchors": ["py_gnome/gnome/outputters/renderer.py: GridPropVisLayer.draw_to_image"]}
{"id": "C311", "title": "Movers and weatherers can be switched on and off during a run", "statement": "Whatever is switched on or off between steps, no step raises for it. (True if everything is on when a run begins. A mover with uncertainty that was off when the first run began has no start time, a weatherer that was off has no entry in the mass balance; the theorem says exactly when the step after a switch raises.)", "quantifier": "all models and all histories of runs, steps and switches", "why_tests_cant": "histories of switching are unbounded; tests switch before the run", "anchors": ["py_gnome/gnome/model.py: Model.setup_model_run, setup_time_step, weather_elements", "py_gnome/gnome/movers/py_current_movers.py: CurrentMover.prepare_for_model_run, prepare_for_model_step", "py_gnome/gnome/movers/py_wind_movers.py: WindMover.prepare_for_model_run, prepare_for_model_step", "py_gnome/gnome/weatherers/evaporation.py: Evaporation.prepare_for_model_run, weather_elements", "py_gnome/gnome/weatherers/natural_dispersion.py: NaturalDispersion", "py_gnome/gnome/weatherers/cleanup.py: Skimmer, Burn, ChemicalDispersion"]}
{"id": "C312", "title": "A data file that was fetched is the file of the server", "statement": "get_datafile hands back a file that was there untouched, or the whole file of the server; when it raises, nothing is left behind; no other file is touched. (A connection that is closed early gives part of the file as if it were all, and one that breaks off leaves a part that every later call hands back.)", "quantifier": "all servers, connections and file systems", "why_tests_cant": "connections that break at every point cannot be tried", "anchors": ["py_gnome/gnome/utilities/remote_data.py: get_datafile"]}
{"id": "C313", "title": "Oil biodegrades and dissolves by the kind of its components", "statement": "With Biodegradation or Dissolution in the model an oil whose data give the kinds of its components (saturates, aromatics, resins, asphaltenes) is weathered: saturates boiling below 722.85 K and aromatics lose mass at the rate of their kind and climate, less in arctic conditions and never all; the others keep theirs; two steps take what one step of the same length takes; and a Biodegradation that is saved and loaded has the same climate.", "quantifier": "for all oils, components, droplets, masses and lengths of steps", "why_tests_cant": "tests put the kinds of the components into the oil by hand or skip the weatherer; rates for all kinds, boiling points and steps, and the independence of the cutting of time, are statements about all numbers", "anchors": ["py_gnome/gnome/weatherers/bio_degradation.py: Biodegradation.weather_elements, get_K_comp_rates, bio_degradate_oil, __init__", "py_gnome/gnome/weatherers/dissolution.py: Dissolution.dissolve_oil", "py_gnome/gnome/spills/gnome_oil.py: GnomeOil._init_from_json"]}
{"id": "C314", "title": "The point at a distance and bearing is where the great circle leads", "statement": "For a place that is not a pole, a distance in metres and a bearing in degrees clockwise from north, FlatEarthProjection.geodesic_sphere returns the longitude and latitude of the point that is reached along the great circle beginning in that bearing, at that distance on a sphere of the radius of the code. From every place, poles too, the distance to the point returned is the one given; the latitude returned is between -90 and 90; due north the longitude stays. A degree to the north is the degree of the flat-earth projection to one part in a million.", "quantifier": "for all longitudes, latitudes, distances and bearings, as real numbers", "why_tests_cant": "tests go along the equator and a meridian for one degree; the formula with arcsin and arctan2 has to be right in all quadrants and at all distances", "anchors": ["py_gnome/gnome/utilities/projections.py: FlatEarthProjection.geodesic_sphere, meters_to_lonlat"]}
{"id": "C315", "title": "A spill appears when the clock reaches its time", "statement": "In the output of a step of a run an instantaneous spill is there with all its elements if the clock has reached its release time, and is not there before, in runs forwards and backwards alike. (True forwards, and backwards for spills at the start of the run; backwards a spill at a time that the clock has yet to reach is there at once, although the model only warns of it as one after the start.)", "quantifier": "for all spills, release times, starts, time steps of either sign and steps", "why_tests_cant": "tests of runs backwards release at the start of the run; which elements exist at which step for any release time and step is a statement about all runs", "anchors": ["py_gnome/gnome/model.py: Model.step, release_elements, run_backwards, check_inputs", "py_gnome/gnome/spills/spill.py: Spill.release_elements", "py_gnome/gnome/spills/release.py: Release.num_elements_after_time, generate_release_timeseries"]}
{"id": "C316", "title": "The shore of a parameterized map is at its distance and bearing", "statement": "For a ParamMap with a centre away from the poles the point of the shore that is nearest to the centre is at the given distance in the given direction; after an update of the centre, the distance or the bearing the map is the one with the new value and the old others. (True on the equator, and everywhere for shores to the east and west; no point of the shore is ever nearer than the distance; elsewhere the shore is too far away: due north by 1 / cos of the latitude, twice at 60 degrees.)", "quantifier": "for all centres, distances, units and bearings, as real numbers", "why_tests_cant": "tests take a centre on the equator or a bearing of 90; the nearest of all points of the shore at all latitudes and bearings is a statement about all numbers", "anchors": ["py_gnome/gnome/maps/map.py: ParamMap.__init__, build, distance, update_from_dict", "py_gnome/gnome/utilities/projections.py: FlatEarthProjection.meters_to_lonlat"]}
{"id": "C317", "title": "A topology that a gridded mover wrote is read again as it was", "statement": "The file that export_topology writes, and that a c_GridCurrentMover writes beside its data and names as its topology file, gives when it is read again the same order of nodes, vertices, triangles and search tree, with depths and without. (Order, triangles and tree are the same. A vertex is the same or a millionth of a degree nearer to zero in longitude or latitude, since a double is cut off and not rounded: a quarter of the vertices between 64 and 67 or 128 and 134 degrees, none at whole degrees.)", "quantifier": "for all grids with coordinates within 360 degrees, with and without depths", "why_tests_cant": "whether numbers come back through text and doubles depends on each coordinate; tests read the topology of other places, or look at a few values with a tolerance", "anchors": ["py_gnome/lib_gnome/TimeGridVel_c.cpp: TimeGridVelTri_c::ExportTopology, ReadTopology, TimeGridVelCurv_c::ExportTopology", "py_gnome/lib_gnome/DagTreeIO.cpp: ReadTVerticesBody, ReadTTopologyBody, ReadTIndexedDagTreeBody, ReadTransposeArray", "py_gnome/gnome/movers/c_current_movers.py: c_GridCurrentMover.__init__, export_topology"]}
{"id": "C318", "title": "In a file for Google Earth each element of the map is a point of its kind", "statement": "At each step that is written, the floating elements of the best guess and of the uncertain run are, each once, points at their longitude and latitude to six decimals in the placemark of that kind, those on shore or on a dry tide flat in the other one; submerged elements and those off the map are in neither; the styles of the placemarks are defined and their pictures are in the file. (Elements on a tide flat are left out, and those below the surface are shown as floating.)", "quantifier": "for all groups of elements with any status, place and depth, all times and output intervals", "why_tests_cant": "a test looks at the file of a small run without tide flats or depth", "anchors": ["py_gnome/gnome/outputters/kmz.py: KMZOutput.write_output", "py_gnome/gnome/outputters/kmz_templates.py: build_one_timestep, header_template", "py_gnome/gnome/maps/tideflat_map.py"]}
{"id": "C319", "title": "A colour map gives a value the colour of its place in the range", "statement": "get_colors gives the low end of the range the first colour, the high end the last, a value between them the colour nearest to its place and one outside the colour of the end it is beyond; the colours go with the values, in ranges of either direction, and do not depend on the unit. (For the range 0-255, also used if none is given, values are cut off and taken modulo 256: 256 has the colour of 0.)", "quantifier": "for all ranges, values and units", "why_tests_cant": "tests take the values of the table's 256 places", "anchors": ["py_gnome/gnome/utilities/colormaps.py: ColorMap.get_colors"]}
{"id": "C320", "title": "The land on images is the land of the map", "statement": "The background of the images of a Renderer that was given a BNA file, or the map of that file, shows land and lakes as the map has them, in the same order, and the map's bounds and spillable areas exactly if that was asked for. (Bounds spelled \"MapBounds\" are bounds of the map but land on the image; polygons marked neither as land nor as lake are water on the map and land on the image; of a map object bounds and spillable areas are never shown; a map without a file, or with land given as points, cannot be drawn.)", "quantifier": "for all files, maps and settings", "why_tests_cant": "tests draw a few files and no one looks at the images", "anchors": ["py_gnome/gnome/outputters/renderer.py: Renderer.__init__, draw_land", "py_gnome/gnome/maps/map.py: MapFromBNA, GnomeMap.get_polygons"]}
{"id": "C321", "title": "The time stamp of images looks as its attributes say", "statement": "Whatever documented attributes are given to a Renderer and to set_timestamp_attrib, in any order, the stamp on the images has for each the value set last, or the default, and there is none if it was turned off last. (The documented names dt_format and align have no effect; the code looks for format and alignment.)", "quantifier": "for all sequences of calls and values", "why_tests_cant": "tests do not look at the stamp on the image", "anchors": ["py_gnome/gnome/outputters/renderer.py: Renderer.set_timestamp_attrib, draw_timestamp"]}
{"id": "C322", "title": "A gridded object has its data and its grid from the sources named for them", "statement": "from_netCDF of a gridded variable or vector takes data and times from the data set that is given, else from data_file, else from filename, which is the default of lowest priority; the grid from a grid that is given, else from grid_file, else from the data set, else from filename; and it is made whenever these are named and have what is asked for. (filename, if it is given, replaces data_file and grid_file.)", "quantifier": "for all combinations of arguments and contents of files", "why_tests_cant": "tests give one file, or two files without filename", "anchors": ["py_gnome/gnome/environment/gridded_objects_base.py: Variable.init_from_netCDF, VectorVariable.init_from_netCDF"]}
{"id": "C323", "title": "An ice-aware current has its ice from the ice file", "statement": "IceAwareCurrent.from_netCDF with a file and an ice file takes the current from the first and concentration and velocity of the ice from the second; without an ice file, and for IceAwareWind, all come from the first; objects that are given are used. (The data of the ice file are never looked at: the data set of the current's file is passed on with it. Without filename, with data_file and grid_file, both raise KeyError.)", "quantifier": "for all files and objects given", "why_tests_cant": "no test gives an ice file", "anchors": ["py_gnome/gnome/environment/environment_objects.py: IceAwareCurrent.init_from_netCDF, IceAwareWind.from_netCDF", "py_gnome/gnome/environment/gridded_objects_base.py: VectorVariable._get_shared_vars"]}
{"id": "C324", "title": "A gridded file is read as the grid it tells, or it is refused", "statement": "A mover made with a netCDF file reads it as the grid that its attribute grid_type tells (regular when there is none), a list of netCDF files is opened with the first of them, a table in the units of its first line, and a file in no known format is refused with an exception. (A wind on triangles is read as a regular grid; IceMover and IceWindMover end the program on any file that is not curvilinear; files in the netCDF-4 format are refused.)", "quantifier": "for all files, attributes, lists and movers", "why_tests_cant": "tests open a few good files; the wrong grid gives wrong currents without an error", "anchors": ["py_gnome/lib_gnome/TimeGridVel_c.cpp: IsNetCDFFile, IsNetCDFPathsFile", "py_gnome/lib_gnome/GridCurrentMover_c.cpp: TextRead", "py_gnome/lib_gnome/GridWindMover_c.cpp: TextRead", "py_gnome/lib_gnome/IceMover_c.cpp: TextRead", "py_gnome/gnome/movers/c_current_movers.py: c_GridCurrentMover, IceMover"]}
{"id": "C325", "title": "A file that a list names relative to the list is found there", "statement": "If a list of data files names a file by the way from the directory of the list and the file is there, that file is used; if a name is not there, the longest end of it that is there beside the list is used; otherwise the name stays as it is. (A file of the same name where the program runs is taken first; for a list in the root directory the files are looked for where the program runs.)", "quantifier": "for all directories, names and contents of the disk", "why_tests_cant": "the outcome depends on what is on the disk and where the program runs; tests run in one place", "anchors": ["py_gnome/lib_gnome/Replacements.cpp: ResolvePathFromInputFile", "py_gnome/lib_gnome/StringFunctions.cpp: ResolvePath, SplitPathIntoDirAndFile, split, join"]}
{"id": "C326", "title": "The times of a netCDF file are the instants its units tell", "statement": "When a mover opens a netCDF file of currents or winds (regular, curvilinear or triangular grid), the time of every record is the date in the attribute `units` plus the value times the unit (days, hours, minutes or seconds, in full or as udunits abbreviates them). [Fails: abbreviations such as `h` are taken as seconds; `MINUTES` in capitals and dates with only an hour are refused; a time zone is not looked at; curvilinear grids are a day late with dates of 1900 from March on; seconds since 1970 are rounded by the reader of triangles.]", "quantifier": "every reader, time zone of the computer, text of units, date, value and record on a whole minute", "why_tests_cant": "the units, dates and values that files may have are unbounded; tests read a few files", "anchors": ["py_gnome/lib_gnome/TimeGridVel_c.cpp: TimeGridVelRect_c::TextRead, TimeGridVelCurv_c::TextRead, TimeGridVelTri_c::TextRead, GetFileStartTime, ScanFileForTimes", "py_gnome/lib_gnome/TimeGridWind_c.cpp: TimeGridWindRect_c::TextRead, TimeGridWindCurv_c::TextRead"]}
{"id": "C327", "title": "data_start and data_stop are moved by the time offset as the data are", "statement": "`data_start` and `data_stop` of a gridded current mover are the first and last instants of its data plus `time_offset`, by which the mover shifts its data. [Fails for a single netCDF file: the offset is left out.]", "quantifier": "every number of files and records, every offset", "why_tests_cant": "the combination of lists of files, kinds of file and offsets is not covered by tests, which use an offset of zero", "anchors": ["py_gnome/lib_gnome/TimeGridVel_c.cpp: GetDataStartTime, GetDataEndTime", "py_gnome/gnome/movers/c_current_movers.py: c_GridCurrentMover.data_start, data_stop", "py_gnome/gnome/cy_gnome/cy_gridcurrent_mover.pyx: get_data_start, get_data_end"]}
{"id": "C328", "title": "A curvilinear grid becomes two triangles for every water cell, with the right neighbours", "statement": "When a curvilinear netCDF file is opened, every cell of water becomes two triangles with the four corners of the cell, land becomes none, and of any two triangles one is recorded as the neighbour across a side of the other exactly if it has both ends of that side; a side without such a triangle is an edge of the grid.", "quantifier": "every number of rows and columns and every mask of land", "why_tests_cant": "masks are arbitrary patterns; tests open one or two files and do not look at the neighbours", "anchors": ["py_gnome/lib_gnome/TimeGridVel_c.cpp: TimeGridVelCurv_c::ReorderPoints, ReorderPointsNoMask, ReorderPointsCOOPSNoMask"]}
{"id": "C329", "title": "The data for a triangle of a curvilinear grid are those of its cell", "statement": "From every triangle of a curvilinear grid the index into the data of the file is that of the cell the triangle belongs to, the corners reported for the cell are the points of the file at its corners or -1 for the row and the column that are made up, nodes are at points of the file, and those made up continue the grid.", "quantifier": "every grid, mask, triangle and position of points", "why_tests_cant": "index arithmetic over extended grids can be off by one for some masks only", "anchors": ["py_gnome/lib_gnome/TriGridVel_c.cpp: GetRectIndexFromTriIndex, GetRectIndexFromTriIndex2, GetRectCornersFromTriIndexOrPoint", "py_gnome/lib_gnome/TimeGridVel_c.cpp: TimeGridVelCurv_c::ReorderPoints"]}
{"id": "C330", "title": "Without a mask, water that moves at some time is water", "statement": "A cell of a curvilinear file without a land mask in which the current is not zero in some record is part of the grid. [Fails: land is every cell that is at rest in the first record.]", "quantifier": "every file without a mask", "why_tests_cant": "whether a cell is at rest in the first record depends on the data", "anchors": ["py_gnome/lib_gnome/TimeGridVel_c.cpp: TimeGridVelCurv_c::ReorderPointsNoMask"]}
{"id": "C331", "title": "A gridded mover reports one velocity for each point it reports, that of the place", "statement": "`get_scaled_velocities(time)` of a gridded current, cycle, ice or wind mover returns one velocity for each point of `get_center_points()`, the velocity of the file at that place. [Fails on curvilinear grids: the call raises a TypeError, as the number of cells is computed as a float.]", "quantifier": "every kind of grid, numbers of triangles and points, mask of land and data", "why_tests_cant": "tests call it with a few files of triangles and regular grids", "anchors": ["py_gnome/gnome/movers/c_current_movers.py: c_GridCurrentMover.get_scaled_velocities, IceMover.get_scaled_velocities, CurrentCycleMover.get_scaled_velocities", "py_gnome/gnome/movers/c_wind_movers.py: c_GridWindMover.get_scaled_velocities, IceWindMover.get_scaled_velocities", "py_gnome/lib_gnome/TimeGridVel_c.cpp: TimeGridVelCurv_c::GetScaledVelocities, GetCellCenters"]}
{"id": "C332", "title": "NetCDF output is in the file that is reported", "statement": "After a run, the file that a netCDF outputter names as `filename` holds the steps that were written (with zip_output the archive holds them, and no other file of it remains), the uncertain file holds those of the uncertainty run or is gone, and no other file is touched. [Fails after `filename` or `zip_output` of an outputter is set: the named file is then deleted or missing.]", "quantifier": "every file name, number of steps, content of the folder before the run, uncertainty on or off, and sequence of changes of the outputter", "why_tests_cant": "names with several dots, folders with dots, stale files and changed settings are too many combinations for tests", "anchors": ["py_gnome/gnome/outputters/netcdf.py: NetCDFOutput.__init__, prepare_for_model_run, write_output, _zip_output_files, clean_output_files", "py_gnome/gnome/outputters/outputter.py: OutputterFilenameMixin"]}
{"id": "C333", "title": "A netCDF outputter that is saved and loaded writes as before", "statement": "A netCDF outputter loaded from a save file writes the files that the saved one writes. [Fails with zip_output: the loaded outputter writes to the name of the archive, and then overwrites and deletes it, so that no output remains.]", "quantifier": "every file name, steps, content of the folder and uncertainty", "why_tests_cant": "tests compare settings of the loaded outputter, and do not run it", "anchors": ["py_gnome/gnome/outputters/netcdf.py: NetCDFOutputSchema, NetCDFOutput.__init__, _zip_output_files"]}
{"id": "C334", "title": "A polygon release has weights or thicknesses, not both, and each polygon is shown with its own", "statement": "A polygon release made from polygons never has both weights and thicknesses, whatever is set afterwards and whether or not it is accepted; its polygons stay as given; and `get_polygons` and `get_metadata` list every polygon with the weight and the thickness of the feature it belongs to.", "quantifier": "every list of polygons and multipolygons, every sequence of settings of weights and thicknesses, with or without errors", "why_tests_cant": "sequences of settings, including failing ones, are unbounded", "anchors": ["py_gnome/gnome/spills/release.py: PolygonRelease.__init__, gen_fc_from_kwargs, weights, thicknesses, get_polygons, get_metadata", "py_gnome/gnome/utilities/geometry/geo_routines.py: mixed_polys_to_polygon"]}
{"id": "C335", "title": "Weights and thicknesses that are set are read back", "statement": "After setting the weights or thicknesses of a polygon release they are those that were set, None removes them, and a setting that is refused changes nothing. [Fails: a list that is too short is mixed with the old values, None raises a KeyError where a value is missing, after deleting those before it.]", "quantifier": "every release, list of values and None", "why_tests_cant": "tests set lists of the right length", "anchors": ["py_gnome/gnome/spills/release.py: PolygonRelease.weights, thicknesses"]}
{"id": "C336", "title": "A polygon release that is accepted can be run", "statement": "A polygon release made with one weight per polygon (summing to one), with thicknesses, or with neither, is prepared for a run, and its polygons get shares by weight, volume and area. [Fails with fewer thicknesses than polygons: they are accepted, and the run raises a TypeError.]", "quantifier": "every list of polygons, areas, weights and thicknesses", "why_tests_cant": "tests use one or two polygons", "anchors": ["py_gnome/gnome/spills/release.py: PolygonRelease.__init__, compute_distribution, get_polys_as_tris, prepare_for_model_run"]}
{"id": "C337", "title": "Objects that are shared in JSON are shared in the objects made from it", "statement": "When objects are made from JSON in which an object with the same id is mentioned in several places with the same contents, every mention becomes a reference to one object, which holds what the JSON says. This holds when the objects that are mentioned again have no objects in them. An object with objects in it that is mentioned again (waves with their wind, in the environment and in a weatherer) is updated with references of its own: the wind in it is made a second time, and a mover that has the same wind in the JSON has another wind than the waves.", "quantifier": "for all JSON trees of any size and depth, ids, values, and all orders of mentions", "why_tests_cant": "The effect depends on the order of mentions over the whole tree; tests make objects one at a time or compare values, which are equal in both copies.", "anchors": ["py_gnome/gnome/persist/base_schema.py: ObjType.deserialize, ObjType._deser, ObjTypeSchema.process_subnode", "py_gnome/gnome/gnomeobject.py: GnomeId.update_from_dict, GnomeId.new_from_dict"]}
{"id": "C338", "title": "The tide at a reference station is the sum of its constituents", "statement": "The height of the water that a tide station gives is its datum plus the sum over its constituents of the amplitude times the cosine of the phase, with amplitude and phase corrected for the year, to one part in 4·10^10 of the amplitudes, at any time however far into the year; it never differs from the datum by more than the amplitudes together. The current of a station is its mean plus this sum, or for a hydraulic station plus the square root of it with the direction of the sum. The speeds of all 114 constituents are the whole-number combinations of the motions of sun and moon that define them.", "quantifier": "for all stations, numbers of constituents, amplitudes, phases, corrections for the year, times (also negative)", "why_tests_cant": "Phases are cut to a turn before the cosine is taken with a rounded factor from degrees to radians, so the error has to be bounded for every time; a wrong speed among 114 shows only months into the year.", "anchors": ["py_gnome/lib_gnome/ShioHeight.cpp: RStatHeight, GetReferenceCurve", "py_gnome/lib_gnome/ShioCurrent2.cpp: RStatCurrent, GetRefCurrent"]}
{"id": "C339", "title": "A rotary current station gives the speed of its current, positive for flood and negative for ebb", "statement": "The value of a rotary current station is the speed of its velocity, with a sign; the velocity is made of the two halves of its constituents, east and north, or in the direction of the flood and to the right of it. A current that goes with the flood and against the ebb is positive, one that goes with the ebb and against the flood negative; when the directions do not tell, the sign is kept from the time before and changes where the speed is least. At the start of the curve, where there is no time before, the sign of a station with east and north components is to be that of the nearer direction: this fails because angles on both sides of east are compared without a turn. Flood and ebb directions that are not from 0 to 360 are taken as east.", "quantifier": "for all stations, flood and ebb directions in whole degrees, velocities, values before", "why_tests_cant": "The sign depends on two directions, the components and the two values before; tests use stations whose current goes back and forth.", "anchors": ["py_gnome/lib_gnome/ShioCurrent2.cpp: RStatCurrentRot, GetVelDir, getVector, rotateVector", "py_gnome/lib_gnome/ShioCurrent1.cpp: FixAngle, GetCDirec"]}
{"id": "C340", "title": "A tide uses the year data of its own folder, and has values in the period that it tells", "statement": "Whatever tides were asked before in the same process, a tide answers with the corrections of the year that are in its own folder, or with an error if there is no file. This holds when all tides of the process have the same folder, and always for years before 1990 and after 2019; for the years between, the first folder that was read is used for all tides. A tide has values from its data_start to its data_stop if there is a file for every year: this holds from six hours after data_start, before that the file of the year before is asked for.", "quantifier": "for all folders, files, sequences of requests to any number of tides, times", "why_tests_cant": "What is kept is global to the process: each test process uses one folder.", "anchors": ["py_gnome/lib_gnome/ShioTimeValue_c.cpp: ReadYearData, GetTimeValue", "py_gnome/gnome/environment/tide.py: Tide.yeardata, Tide.data_start, Tide.data_stop, _get_shio_yeardata_limits"]}
{"id": "C341", "title": "The dispersion computed in Python is that of the compiled library", "statement": "For every set of elements, sea state and step, the masses that disperse and settle and the droplet sizes that NaturalDispersion computes with the method D&S1988 are those that gnome.cy_gnome.cy_weatherers.disperse_oil computes for the same input. (For no elements the compiled function cannot be called; for one element or more the claim holds.)", "quantifier": "for all lists of elements with a density that is not zero, all sea states, all whole steps", "why_tests_cant": "A test compares the two on a few inputs; one divides by the density and multiplies with it later, and both have thresholds and caps.", "anchors": ["py_gnome/gnome/weatherers/natural_dispersion.py: NaturalDispersion.disperse_oil_DS", "py_gnome/gnome/cy_gnome/cy_weatherers.pyx: disperse_oil", "py_gnome/lib_gnome/Weatherers_c.cpp: adios2_disperse"]}
{"id": "C342", "title": "Python movers and compiled movers move elements alike", "statement": "Without uncertainty a WindMover and a PointWindMover with the same wind move every element at the surface alike: in any wind with the method Euler, in a steady wind with every method. A CurrentMover with the current that a CatsMover has in a step moves elements as the CatsMover does. Alike means within 0.002 percent to the east and within a hundred-millionth to the north, up to 80 degrees of latitude.", "quantifier": "for all winds, currents, methods, steps (also backwards), windages, elements at the surface in any status, latitudes up to 80 degrees north and south", "why_tests_cant": "The two kinds have their own constants for the size of the earth and for pi; a test compares them at one place with a tolerance of its own.", "anchors": ["py_gnome/gnome/movers/py_wind_movers.py: WindMover.get_move", "py_gnome/gnome/movers/py_current_movers.py: CurrentMover.get_move", "py_gnome/gnome/utilities/projections.py: FlatEarthProjection.meters_to_lonlat", "py_gnome/lib_gnome/WindMover_c.cpp: GetMove", "py_gnome/lib_gnome/CATSMover_c.cpp: GetMove", "py_gnome/lib_gnome/GEOMETRY.cpp: LongToLatRatio3", "py_gnome/lib_gnome/Units.h: METERSPERDEGREELAT"]}
{"id": "C343", "title": "Uncertain elements of compiled movers keep their draws", "statement": "An element of an uncertain run of a compiled mover (CatsMover, ComponentMover, gridded currents and winds, PointWindMover) keeps the random numbers drawn for it until they are uncertain_duration old, through any releases and removals of other elements; none is older, and each element has one row. (Not so if elements are removed while the mover is off: then an element gets the numbers of another.)", "quantifier": "all runs of any length with any releases, removals, switching, times and draws, all kinds of compiled movers", "why_tests_cant": "The list of draws is kept in parallel to the elements; that rows and elements stay together concerns all histories of releases and removals.", "anchors": ["py_gnome/lib_gnome/CurrentMover_c.cpp: UpdateUncertainty, ReallocateUncertainty, AllocateUncertainty", "py_gnome/lib_gnome/WindMover_c.cpp: UpdateUncertainty, ReallocateUncertainty", "py_gnome/gnome/cy_gnome/cy_mover.pyx: model_step_is_done, prepare_for_model_step"]}
{"id": "C344", "title": "Uncertainty of compiled movers begins after the delay, in runs forwards and backwards", "statement": "A compiled mover makes every element uncertain in each active step from uncertain_time_delay after the start of the model on and none before. (True for a mover that is active from the first step, in runs forwards, and backwards for CatsMover, ComponentMover and PointWindMover. In runs backwards gridded currents are uncertain in the first step only and gridded winds never. The delay of a mover that becomes active later counts from then.)", "quantifier": "all runs with any releases, removals and switching, either direction of time, all delays", "why_tests_cant": "Tests of uncertainty run forwards.", "anchors": ["py_gnome/lib_gnome/GridCurrentMover_c.cpp: PrepareForModelStep", "py_gnome/lib_gnome/GridWindMover_c.cpp: PrepareForModelStep", "py_gnome/lib_gnome/CurrentMover_c.cpp: PrepareForModelStep", "py_gnome/lib_gnome/WindMover_c.cpp: PrepareForModelStep"]}
{"id": "C345", "title": "uncertain_duration and uncertain_time_delay are seconds", "statement": "As documented, the draws of uncertain elements are renewed after uncertain_duration seconds and begin uncertain_time_delay seconds after the start. (Not in compiled movers: they take both as hours, so that the values of the documentation of PointWindMover keep the first draws for more than a year.)", "quantifier": "all durations, delays, runs and kinds of compiled movers", "why_tests_cant": "Tests compare the attribute with what it was set to.", "anchors": ["py_gnome/gnome/movers/c_current_movers.py: CurrentMoversBase.uncertain_duration, uncertain_time_delay", "py_gnome/gnome/movers/c_wind_movers.py: WindMoversBase.uncertain_duration, uncertain_time_delay"]}
{"id": "C346", "title": "Copies of compiled objects have the settings of the original", "statement": "A copy (deepcopy or pickle) of a random mover can be made after any history of settings and is as the original, as is that of a time series made from values. A copy of a CATS mover has its scale, reference point and durations, but its left and right uncertainty exchanged (the numbers are drawn from the same interval) and no pattern or tide; a copy of a component mover is of another class; a copy of a series from a file has its values but not its units or file name; a copy of a tide does not extrapolate.", "quantifier": "all settings, histories of settings, values and files", "why_tests_cant": "Tests copy a random mover with default settings.", "anchors": ["py_gnome/gnome/cy_gnome/cy_random_mover.pyx: CyRandomMover.__reduce__", "py_gnome/gnome/cy_gnome/cy_current_mover.pyx: CyCurrentMover.__reduce__", "py_gnome/gnome/cy_gnome/cy_cats_mover.pyx: CyCatsMover.__reduce__", "py_gnome/gnome/cy_gnome/cy_ossm_time.pyx: CyTimeseries.__reduce__", "py_gnome/gnome/cy_gnome/cy_shio_time.pyx: CyShioTime.__reduce__", "py_gnome/gnome/gnomeobject.py: GnomeObject.__deepcopy__"]}
{"id": "C347", "title": "The age of an element is the time since its release", "statement": "At every output of a run forwards the age of each element is the time since the instant at which its release asked for it, to within half a time step, for any number of spills and whatever elements are removed; it is a whole number of time steps and exact for elements released at the start. In a run backwards all ages are the time since the start of the run. (Not with time steps that have fractions of a second: the fraction is cut off in every step.)", "quantifier": "all spills, release functions, time steps, removals and numbers of steps", "why_tests_cant": "Tests look at ages of one instantaneous release after a few steps.", "anchors": ["py_gnome/gnome/model.py: Model.step, Model.step_is_done", "py_gnome/gnome/spill_container.py: SpillContainer.release_elements, SpillContainer.model_step_is_done", "py_gnome/gnome/spills/spill.py: Spill.release_elements"]}
{"id": "C348", "title": "A file for GNOME Analyst holds the elements of its step", "statement": "A file of the binary outputter has one record for each element, in order. A reader that counts longitudes to the west and hours from the beginning of the period of four years finds each element at its place and of its age to the precision of the format (at most about two metres, and 16 seconds for ages up to months), beached exactly if it is on land, and the date of the step in the header to the minute, in hours to eight seconds.", "quantifier": "all dates, elements, ages and ways of rounding to single precision", "why_tests_cant": "Tests count files.", "anchors": ["py_gnome/gnome/outputters/binary.py: BinaryOutput.output_to_file"]}
{"id": "C349", "title": "A model that is loaded has the settings it was saved with", "statement": "The name, the times, the direction, the uncertainty, the mode, the location and the other settings of a model are the same after saving and loading, and the model that is loaded stands at the beginning of a run. (Not weathering_substeps, which becomes 1; not make_default_refs, which the constructor sets to True whatever it is given; not a time step with fractions of a second or one that is left open; and a model that was saved in the middle of a run does not go on where it was, though its elements are in the file.)", "quantifier": "all settings and states of a run", "why_tests_cant": "Tests load models with default settings, and compare with an equality that both models fail in the same way.", "anchors": ["py_gnome/gnome/model.py: ModelSchema, Model.__init__, Model.load, Model._load_spill_data", "py_gnome/gnome/gnomeobject.py: GnomeId.new_from_dict"]}
{"id": "C350", "title": "Moving everything in time moves the run", "statement": "If the start of the model, the times of winds and other series, the release times, the active ranges and the start of output are all moved by the same time, the run is the same at moved times: the clock shows the same steps at moved times after any sequence of commands, movers are active in the same steps, series have the same values, spills release the same batches and outputters write the same steps. (The running average of a wind is an exception: in a run that begins at the epoch of 1970 it begins elsewhere.)", "quantifier": "all commands, ranges, series, releases, outputters, times and amounts by which they are moved", "why_tests_cant": "Tests use one start time.", "anchors": ["py_gnome/gnome/model.py: Model", "py_gnome/gnome/movers/movers.py: Process.prepare_for_model_step", "py_gnome/lib_gnome/OSSMTimeValue_c.cpp: GetTimeValue, CalculateRunningAverage", "py_gnome/gnome/environment/timeseries_objects_base.py: TimeseriesData.at", "py_gnome/gnome/spills/release.py: Release", "py_gnome/gnome/outputters/outputter.py: Outputter"]}
{"id": "C351", "title": "A run that is continued is the run with the longer duration", "statement": "If a run forwards has come to its end, its duration is made longer and it goes on, the steps seen and the state of the clock at the end are those of a run with the longer duration from the beginning, and outputters write the steps that they would have written and the last step of the first part. (Not with output_zero_step False and no output interval: there nothing but the last step is written in one run, and every step after the first part in a run that was continued. A run backwards starts anew, C14.)", "quantifier": "all durations, time steps, outputters and numbers of steps", "why_tests_cant": "Tests do not continue a run.", "anchors": ["py_gnome/gnome/model.py: Model.duration, Model.step, Model.full_run", "py_gnome/gnome/outputters/outputter.py: Outputter.prepare_for_model_step, Outputter.write_output"]}
{"id": "C352", "title": "Moving everything on the map moves the run", "statement": "If a run on a raster map is repeated with everything moved by the same number of degrees of longitude and latitude - the places of release, the bounds of the map, the raster with its projection - and with the same displacements, random numbers and losses, the elements are at the same places moved by as much, with the same statuses, masses and fates, and the mass balance is the same. A move in longitude of the fields of current, wind and ice together with the elements leaves the displacements of all movers and of all numerical methods as they are.", "quantifier": "all moves, maps, releases, sequences of steps, movers and fields", "why_tests_cant": "A test looks at one place; here two runs of any length are compared at every place.", "anchors": ["py_gnome/gnome/model.py: Model.move_elements, Model.release_elements", "py_gnome/gnome/maps/map.py: RasterMap.beach_elements, RasterMap.refloat_elements", "py_gnome/gnome/utilities/projections.py: GeoProjection.set_scale, to_pixel, to_lonlat", "py_gnome/gnome/movers/movers.py: get_delta_RK4", "py_gnome/gnome/array_types.py: last_water_positions"]}
{"id": "C353", "title": "Where the oil goes does not depend on how it weathers", "statement": "Two runs on the same raster map with the same places and times of release, the same displacements by the movers and the same random numbers have the same number of elements at the same positions with the same statuses at every time, whatever their weatherers, response operations, amounts and substances are: weathering and responses change masses and fates, never a position or a status.", "quantifier": "all maps, sequences of releases, steps and markings, all amounts taken by weatherers", "why_tests_cant": "A relation between two runs of any length with different weathering; tests run one at a time.", "anchors": ["py_gnome/gnome/model.py: Model.weather_elements, Model.move_elements, Model._update_fate_status", "py_gnome/gnome/maps/map.py: RasterMap.beach_elements, RasterMap.refloat_elements", "py_gnome/gnome/spill_container.py: SpillContainer.model_step_is_done"]}
{"id": "C354", "title": "The running average of a wind is the one of the wind as it is", "statement": "A running average that is prepared for a run or for a step is the average of its wind and of its past hours as they are then; it is always the whole average of one wind, one number of hours and one time, and it has a value for the time of the step whenever the wind has one.", "quantifier": "all winds, hours, times and sequences of changes and preparations", "why_tests_cant": "A test prepares a run after few changes; that every sequence of changed winds, changed hours, runs and steps leaves the average of what is set is a statement about all of them.", "anchors": ["py_gnome/gnome/environment/running_average.py: RunningAverage", "py_gnome/gnome/cy_gnome/cy_ossm_time.pyx: create_running_average, check_time_in_range", "py_gnome/lib_gnome/OSSMTimeValue_c.cpp: CheckStartTime"]}
{"id": "C355", "title": "Spills do not disturb each other", "statement": "A run with two spills shows, at every step, the elements of the run with only the one and of the run with only the other, with the same places, statuses, masses and fates, and its mass balance is the sum of theirs; the order of the spills does not matter.", "quantifier": "all raster maps, releases, movers and losses that are functions of the element, and lengths of run", "why_tests_cant": "A test compares one pair of spills; that nothing of one spill reaches the other through the shared arrays, in any run, needs the whole step as a function.", "anchors": ["py_gnome/gnome/model.py: Model.step, Model.move_elements, Model.release_elements", "py_gnome/gnome/maps/map.py: RasterMap.refloat_elements, RasterMap.beach_elements", "py_gnome/gnome/spill_container.py: SpillContainer.model_step_is_done"]}
{"id": "C356", "title": "With nothing uncertain, uncertain elements move as the forecast", "statement": "When every setting of uncertainty of the movers is none (scales and fractions 0, factor of diffusion 1), an element of the uncertainty run is moved in a step exactly as an element of the forecast at the same place with the same random numbers of diffusion.", "quantifier": "all movers of the kinds modelled in any number, winds, currents, steps, elements and numbers drawn", "why_tests_cant": "Tests compare one mover at one wind; that the perturbation vanishes with its settings for all winds and draws is an identity over the reals.", "anchors": ["py_gnome/gnome/movers/simple_mover.py: SimpleMover.get_move", "py_gnome/gnome/movers/py_current_movers.py: CurrentMover.get_move", "py_gnome/gnome/movers/py_wind_movers.py: WindMover.add_uncertainty, WindMover.prepare_for_model_step", "py_gnome/lib_gnome/WindMover_c.cpp: WindMover_c::AddUncertainty, PrepareForModelStep", "py_gnome/lib_gnome/Random_c.cpp: Random_c::GetMove"]}
{"id": "C357", "title": "Slack water, floods and ebbs found at a tidal current station are those of its curve", "statement": "The prediction of a tidal current station (not rotary) steps through its curve every ten minutes and lists events: slack water before flood, strongest flood, slack water before ebb, strongest ebb. For a station whose current is never exactly zero at a minute, never equal at two successive samples, and whose first event is slack water, a flood of water flowing in or an ebb of water flowing out, the events reported are, in order and as many as there is room for, exactly the turning points and changes of sign of the samples; each carries the label of the direction in which the water flows, and its time is a minute of the twenty before at which the current stops rising, stops falling or changes its sign, with the current of that minute (or 0 for slack water). Otherwise not: a station that begins in an ebb that slackens once without turning reports this and the following strongest ebb as floods, slack water at which the current is exactly zero is reported up to ten minutes away, a zero at a sample before an ebb is a flood of strength 0, and two equal samples stop the prediction with an error.", "quantifier": "for all curves, begin times, numbers of steps and of events for which there is room", "why_tests_cant": "Tests compare the events of a few stations with printed tables; that none is lost, invented or labelled wrongly for any curve is a statement about the whole loop.", "anchors": ["py_gnome/lib_gnome/ShioCurrent2.cpp: GetRefCurrent", "py_gnome/lib_gnome/ShioCurrent1.cpp: FindFloodEbb"]}
{"id": "C358", "title": "The curve of a tide station begins and ends at the times that are asked for and is not changed in between", "statement": "The prediction of a station is made for a longer time than asked for and then cut. If the points of the curve are in order and cover the time from b to e, the points that are kept are one at b, the points strictly between b and e, unchanged and in order, and one at e, where the two new points have the values of the curve (straight lines through its points); every value of the curve that is kept is a value of the curve before; the times are then counted from b, so the first is 0 and the last is e - b; and the events that are kept are exactly those from b to e, both included. This holds for currents; for heights it does not hold when a point before the last is exactly at e: this point is then there twice.", "quantifier": "for all curves in order that cover the time asked for, all begins and ends", "why_tests_cant": "Tests look at a station and a day; that no point is lost, doubled or moved at either end for any curve and any times is a statement about all of them.", "anchors": ["py_gnome/lib_gnome/ShioCurrent1.cpp: FixCEnds", "py_gnome/lib_gnome/ShioHeight.cpp: FixHEnds, ResetTime", "py_gnome/lib_gnome/ShioCurrent2.cpp: ResetCTime", "py_gnome/lib_gnome/ShioTimeValue_c.cpp: ShioTimeValue_c::GetTimeValue"]}
{"id": "C359", "title": "In a steady current the place reached does not depend on the time step", "statement": "With a time step that is a whole number of times shorter, and as many times more steps, every element gets to the same place. (Latitude and depth are the same; the longitude differs for a current that is not along a parallel or a meridian, by no more than what the current goes east in one of the longer steps times the difference of the lengths of a degree of longitude at the two ends of the way.)", "quantifier": "all sets of steady movers, time steps, factors, numbers of steps and elements in the water", "why_tests_cant": "a test compares a few trajectories at one latitude, with a tolerance", "anchors": ["py_gnome/gnome/movers/simple_mover.py: SimpleMover.get_move", "py_gnome/gnome/movers/py_current_movers.py: CurrentMover.get_move", "py_gnome/gnome/movers/movers.py: PyMover.get_delta_Euler, get_delta_RK2, get_delta_RK4", "py_gnome/gnome/utilities/projections.py: FlatEarthProjection.meters_to_lonlat"]}
{"id": "C360", "title": "What the oil does does not depend on the number of elements that it is in", "statement": "If every element is replaced by k elements at its place that share its mass and area, then release, spreading, windrows, evaporation, natural dispersion and sedimentation, biodegradation and emulsification do the same with the parts as with the whole, and report the same amounts, to the mass balance too. (True for all of them and with their errors; dissolution does so only where nothing is dissolved from the slick, as it multiplies the winds at all the elements.)", "quantifier": "all numbers of parts, lists of elements, oils, winds, waves and time steps", "why_tests_cant": "tests use one number of elements; sums over the elements, first elements and products over them would have to be compared between runs", "anchors": ["py_gnome/gnome/weatherers/evaporation.py: Evaporation.weather_elements", "py_gnome/gnome/weatherers/natural_dispersion.py: NaturalDispersion.weather_elements", "py_gnome/gnome/weatherers/dissolution.py: Dissolution.weather_elements", "py_gnome/gnome/weatherers/bio_degradation.py: Biodegradation.weather_elements", "py_gnome/gnome/weatherers/emulsification.py: Emulsification.weather_elements", "py_gnome/gnome/weatherers/spreading.py: FayGravityViscous.weather_elements, Langmuir.weather_elements", "py_gnome/gnome/spills/release.py: Release.initialize_elements_post_substance"]}
{"id": "C361", "title": "The check for land does not depend on how the map lies or which way an element goes", "statement": "On a map that is mirrored from east to west or from south to north, elements whose moves are mirrored are stopped by the mirrored land, at the mirrored places; on a map turned over its diagonal the same moves are stopped, coming from the same places; and land is in the way from one place to another exactly if it is in the way back. (True of the check at full resolution on mirrored and turned maps, and on the way back where the straight way is nowhere midway between two pixels: for moves of an odd number of pixels, along rows, columns and diagonals. Of two equally near pixels the one nearer to the start is taken, so other ways differ from the way back; the check in layers counts its coarse cells from one side: it gives mirrored results for moves on rasters that are a whole number of coarse cells, and otherwise lets an element pass in one map that is stopped in the mirrored one.)", "quantifier": "all rasters, moves and lists of elements", "why_tests_cant": "the pixels of a way depend on both ends; a test looks at a few moves on one map", "anchors": ["py_gnome/gnome/cy_gnome/cy_land_check.pyx: c_find_first_pixel, check_land, check_land_layers", "py_gnome/gnome/maps/map.py: RasterMap._check_land_layers"]}
{"id": "C362", "title": "Response operations treat the same oil alike whatever the number of elements it is in", "statement": "If every element is replaced by k elements that share its mass, then skimmers, burns, dispersant and observed beaching remove and report the same amounts and leave the same oil in the parts; and an operation marks as much oil for treatment as before. (True of the removal, over any number of sub-steps of a skimmer; of marking only that no more is marked of the parts, never less than should be treated or all there is, and no more than one part beyond it: marking takes whole elements.)", "quantifier": "all numbers of parts, elements, fates, rates, efficiencies, durations and targets above zero", "why_tests_cant": "tests use one number of elements; the amount marked depends on where a running sum passes the target", "anchors": ["py_gnome/gnome/weatherers/cleanup.py: CleanUpBase._update_LE_status_codes, Skimmer.weather_elements, Burn.weather_elements, ChemicalDispersion.weather_elements", "py_gnome/gnome/weatherers/manual_beaching.py: Beaching.weather_elements"]}
{"id": "C363", "title": "In a mirrored world the elements go the mirrored ways", "statement": "If currents, winds, ice and elements are mirrored from east to west at a meridian, from south to north at the equator, or both, and the numbers drawn are mirrored with them (left for right), then every mover returns the mirrored moves, every step of the model with any set of movers brings the elements to the mirrored places, and so does every run away from shores, with or without uncertainty, forwards or backwards; and every mover has a mirrored one, which draws numbers that it might have drawn.", "quantifier": "all mirrors, sets of movers, fields, methods, draws, elements, step lengths and numbers of steps", "why_tests_cant": "a test compares a few moves in one place; a wrong sign in one quadrant, or one direction treated unlike the others, shows only in comparing whole worlds", "anchors": ["py_gnome/gnome/movers/movers.py: PyMover.get_delta_Euler, get_delta_RK2, get_delta_RK4", "py_gnome/gnome/movers/simple_mover.py: SimpleMover.get_move", "py_gnome/gnome/movers/py_current_movers.py: CurrentMover.get_move, _add_uncertainty", "py_gnome/gnome/movers/py_wind_movers.py: WindMover.get_move, add_uncertainty", "py_gnome/lib_gnome/WindMover_c.cpp: WindMover_c::AddUncertainty, GetMove", "py_gnome/lib_gnome/Random_c.cpp: Random_c::GetMove", "py_gnome/lib_gnome/RandomVertical_c.cpp: RandomVertical_c::GetMove", "py_gnome/gnome/utilities/projections.py: FlatEarthProjection.meters_to_lonlat"]}
{"id": "C364", "title": "Waves lose energy, and whitecaps cover a part of the sea that grows with the wind", "statement": "The rate at which waves lose energy to turbulence, asked for a wave height and a wind speed, is zero without waves or wind and never negative; the percentage of the sea covered by whitecaps after Zhao and Toba is zero without wind, never negative, no less in more wind, without a jump where its two laws of drag meet, and at most 100. (True of the turbulence of the waves that the model itself computes for any wind and fetch, and exactly where the roughness length is less than 10 m: higher waves in light wind gain energy, 1 m in 1 m/s for one. True of the whitecaps but for the bound: in 50 m/s more than the whole sea is covered.)", "quantifier": "all wave heights, wind speeds and fetches that are not negative", "why_tests_cant": "tests compare a few values; signs and bounds over all heights and winds are statements about logarithms and powers", "anchors": ["py_gnome/gnome/environment/waves.py: Waves.energy_dissipation_rate", "py_gnome/gnome/utilities/weathering/pierson_moskowitz.py: PiersonMoskowitz.peak_wave_speed, peak_angular_frequency", "py_gnome/gnome/utilities/weathering/zhao_toba.py: ZhaoToba.percent_whitecap_coverage"]}
{"id": "C365", "title": "Responses work with the thickness of the slick", "statement": "The thickness from which a burn, a skimmer and a spraying aircraft or boat (dosage by thickness) compute how much they collect or spray is the volume of the emulsion over the area that it covers; it is zero if no area is covered, does not depend on the order or the number of the elements that the oil is in, and the dosage in gallons per acre and in metres is the same amount, the thickness divided by the ratio of oil to dispersant. (True if all elements hold the same share of water; otherwise the water of an average element is used, and elements of the same mass look thinner than they are, never thicker. An element that has lost its oil makes the rest look thinner.)", "quantifier": "all lists of elements with water below 1, densities, ratios and numbers of parts", "why_tests_cant": "a test sees one slick, mostly without water; means of products and products of means agree there", "anchors": ["py_gnome/gnome/weatherers/roc.py: Response._get_thickness, Disperse.dosage_from_thickness, Burn._collect, Skim._collect"]}
{"id": "C366", "title": "Two currents move oil as their sum does", "statement": "Two movers of currents, or of winds, without uncertainty, move every element in a step as one mover does whose field is the sum of both. (True with the method Euler, and with every method if the fields are the same everywhere, though they may change with time; true of two point winds and of two simple movers. False of the methods of Runge and Kutta, the default, where the fields differ from place to place: each mover looks ahead along its own field only; with RK2 the difference is at most half a step times the change of each field over the way that the other one goes.)", "quantifier": "all fields, methods, time zones, steps, times and lists of elements", "why_tests_cant": "tests move elements by one mover at a time, or by uniform fields; how the look-ahead of one mover misses the other shows only for fields that vary", "anchors": ["py_gnome/gnome/movers/movers.py: PyMover.get_delta_Euler, get_delta_RK2, get_delta_RK4", "py_gnome/gnome/movers/py_current_movers.py: CurrentMover.get_move", "py_gnome/gnome/movers/py_wind_movers.py: WindMover.get_move", "py_gnome/gnome/movers/simple_mover.py: SimpleMover.get_move", "py_gnome/gnome/movers/c_wind_movers.py: PointWindMover", "py_gnome/gnome/model.py: Model.move_elements"]}
{"id": "C367", "title": "Only speed times time matters", "statement": "In a world that does not change with time, where all currents, winds and rise velocities are k times faster and all coefficients of diffusion k times larger, a run of as many steps, each k times shorter, takes every element to exactly the same places, with every numerical method, whatever the times and time zones. (With uncertain currents and diffusion too; winds without uncertainty.)", "quantifier": "all factors above zero, steady fields, movers, numbers of steps and lengths of steps, lists of elements, random numbers", "why_tests_cant": "tests run one step length; a time step that is used where it should not be, or used twice, shows only in comparing worlds", "anchors": ["py_gnome/gnome/movers/movers.py: PyMover.get_delta_Euler, get_delta_RK2, get_delta_RK4", "py_gnome/gnome/movers/py_current_movers.py: CurrentMover.get_move", "py_gnome/gnome/movers/py_wind_movers.py: WindMover.get_move", "py_gnome/gnome/movers/simple_mover.py: SimpleMover.get_move", "py_gnome/lib_gnome/Random_c.cpp: Random_c::GetMove", "py_gnome/lib_gnome/RandomVertical_c.cpp: RandomVertical_c::GetMove", "py_gnome/lib_gnome/RiseVelocity_c.cpp: RiseVelocity_c::GetMove", "py_gnome/gnome/model.py: Model.move_elements"]}
{"id": "C368", "title": "A share of the oil of a slick weathers as the slick does", "statement": "If every element of a slick is given the k-th part of its mass, its initial mass, its area and its share of the slick, then evaporation, natural dispersion and sedimentation (both methods), emulsification, dissolution and biodegradation leave the k-th part of every component and report the k-th part of the amounts, and fail exactly where they do for the whole; the elements get the same water content, droplet sizes and evaporated fractions.", "quantifier": "all lists of elements, mixtures, winds, seas, steps and numbers of parts", "why_tests_cant": "a test has one amount of oil; a threshold in kilograms, or a mass that is not divided by the right total, shows only in comparing amounts", "anchors": ["py_gnome/gnome/weatherers/evaporation.py: Evaporation.weather_elements", "py_gnome/gnome/weatherers/natural_dispersion.py: NaturalDispersion.weather_elements", "py_gnome/gnome/weatherers/emulsification.py: Emulsification.weather_elements", "py_gnome/gnome/weatherers/dissolution.py: Dissolution.weather_elements", "py_gnome/gnome/weatherers/bio_degradation.py: BioDegradation.weather_elements"]}
{"id": "C369", "title": "The numbers in the ERMA legend are the bounds of the classes, in the unit shown", "statement": "In the ERMA data package with colours by mass, the two numbers in the text of each class are, in the unit of mass or volume that the style asks for, as many kilograms of the oil of each spill of the class as the bounds of the class; the conversion from mass gives for every unit of mass or volume the amount that a spill of that mass says it has, grows with the mass, and refuses all other units. (Wrong where spills of oils with different densities and the same style are put together and volumes are shown: the text has the volumes of the first oil.)", "quantifier": "all tables of units, densities, lists of spills with any styles, with and without putting spills together", "why_tests_cant": "tests convert a few amounts and have one spill; that the text holds for the other spills of a group needs all groupings and densities", "anchors": ["py_gnome/gnome/utilities/__init__.py: convert_mass_to_mass_or_volume", "py_gnome/gnome/outputters/erma_data_package.py: ERMADataPackageOutput.make_particle_package_layer, group_like_spills", "py_gnome/gnome/spills/spill.py: Spill.amount"]}
{"id": "C370", "title": "The title of an offset from UTC tells the offset that is used", "statement": "A TZOffset without a title gets one that, read as a sign, hours and minutes, is exactly the time by which times are moved with it: the offset, given in hours or as a timedelta, cut to whole minutes towards zero; an offset that is not specified says so and moves nothing; a title that is given is kept; two offsets with the same made title move times alike; saved and read again, an offset has the same hours, title and effect.", "quantifier": "all offsets, positive and negative, given as hours or timedelta, with and without titles", "why_tests_cant": "tests try a few time zones; hours and minutes are computed apart from the shift, with another way of cutting, and agree only by an argument about floors of all numbers", "anchors": ["py_gnome/gnome/utilities/time_utils.py: TZOffset.__post_init__, as_timedelta, as_iso_string, TZOffsetSchema.serialize, deserialize"]}
{"id": "C371", "title": "Spreading works with the oil and the water of the run", "statement": "Whatever was run before with the same model, each step of Fay spreading in a run works with the buoyancy of the oil of this run in the water of this run and with the thickness at which this oil stops spreading; oil that floats gives no error, oil that sinks is refused at the first release; each weathering of released oil with spreading on is one step of it. (True if spreading is on when the run begins or another weatherer wants areas, and if it is on at the first release, however it is switched later; if not, switching it on later fails, or works with the oil of an earlier run.)", "quantifier": "all histories of runs, of switching spreading on and off, of releases and weathering; all densities and viscosities", "why_tests_cant": "a test runs a model once; what an object remembers of an earlier run shows only over histories", "anchors": ["py_gnome/gnome/weatherers/spreading.py: FayGravityViscous.prepare_for_model_run, _set_init_relative_buoyancy, initialize_data, weather_elements", "py_gnome/gnome/model.py: Model.setup_model_run, release_elements"]}
{"id": "C372", "title": "A wind on a curvilinear grid is that of its records around the place, at the time", "statement": "A gridded wind on a curvilinear grid gives at a place the sum, weighted by the corners of its cell, of the values that the records have there, linear in time between records also of different files and constant before the first and after the last, times the scale of the file; corners without values add nothing; the wind is between the least and the greatest value around it; a time outside of the records is refused where extrapolation is not allowed. (True for values on nodes, and for values of cells where there is one file; with several files the values of cells are not interpolated if a file has one time, and are undefined between two files; outside of the grid the wind is whatever is in memory.)", "quantifier": "all files of records, corners and weights, all sequences of times asked for that C133 allows", "why_tests_cant": "tests have one small file and few times; two branches of the code treat the same records by different conditions, which shows between files only", "anchors": ["py_gnome/lib_gnome/TimeGridWind_c.cpp: TimeGridWindCurv_c::GetScaledPatValue, GetInterpolatedMove"]}
