# Design of the formal model

Subject: NOAA-ORR-ERD/PyGnome, read as text in `/repo` (nothing is built or run).
Prover: Lean 4.33.0 with single Mathlib modules. Project in `/verif/lean`.

## Layout

For an area `X` there are up to four files under `/verif/lean/Verif/X/`:

| file | content |
|---|---|
| `Model.lean` | functions that mirror the source branch by branch; every definition cites file and lines in `/repo` and states simplifications |
| `Spec.lean`  | small independent specification (never calls the model) |
| `Lemmas.lean`| helper lemmas |
| `Props.lean` | the property theorems, one block per property id, with non-vacuity `example`s and, where the code violates the property, the negation with a concrete witness |

Exceptions are values (`Except`/`Option`), mutable objects become returned states, loops become
folds or recursion, external calls become parameters.

## Modelling conventions and trusted base

* Trusted: Lean's kernel, the axioms `propext`, `Classical.choice`, `Quot.sound` (only those may appear in
  `#print axioms` of a property theorem), and the reading of the source that the comments document.
* No own axioms, no `sorry`/`admit`, no `native_decide`/`bv_decide`.
* Floating point is modelled by exact rationals or an arbitrary linear ordered field. Rounding error,
  overflow, NaN and infinities are **not** modelled unless a property is about them.
* Times are integers or rationals counting seconds; datetimes are their offset from an epoch.
* numpy arrays are lists; dtype conversion, broadcasting and memory layout are not modelled except where
  noted (aliasing of arrays is modelled where a property depends on it).
* Python ints are `Int`/`Nat`; 32-bit wrap-around of element ids is not modelled unless stated.
* Random numbers are parameters (any sequence).
* Not modelled at all: file formats (netCDF, kmz, png), GUI, colander (de)serialisation details beyond what
  an area states, C++ movers, third-party packages (`gridded`, `nucos`, `shapely`, …).

## What is modelled

Paths under `/repo/py_gnome/gnome`. Everything not listed is not modelled.

| area | modelled code | left out |
|---|---|---|
| `OC` | `utilities/orderedcollection.py` | events are the list of callbacks fired |
| `Time` | `utilities/inf_datetime.py` | arithmetic with numpy types |
| `Cache` | `utilities/cache.py` | pickling, temporary directories |
| `Clock` | `model.py` clock, `num_time_steps`, rewind, stepping | physics of a step |
| `Output` | `outputters/outputter.py` write decision | file formats |
| `Release` | `spills/release.py` (base and point/line), `Spill.release_elements` | polygons, subsurface plume release |
| `Container` | `spill_container.py` arrays, splitting, removal | |
| `Pair` | `spill_container.py` pair of forecast / uncertain | random perturbation |
| `LE` | `spills/le.py` | individual initialisers |
| `Fate` | `spill_container.py` `FateDataView` | |
| `Land` | `cy_gnome/cy_land_check.pyx` | GUI drawing of the raster |
| `Cleanup` | `weatherers/cleanup.py`, `manual_beaching.py` | oil physics (rates are parameters) |
| `Geom` | `utilities/geometry/*.py`, `utilities/projections.py` | shapefile reading |
| `Plume` | `utilities/plume.py` generator | plume physics |
| `Weath` | `weatherers/core.py`, `weatherers/__init__.py` order | |
| `TimeUtil` | `utilities/time_utils.py` | time zone database (a zone is an offset, a flag and a shift) |
| `Integ` | `movers/movers.py` Euler, RK2, RK4 | C++ movers |
| `Comp` | `model.py` constructor, callbacks, `_add_to_environ_collec` | what a step computes |
| `RefDict` | `persist/save_load.py` `Refs`, default references of `gnomeobject.py` | files |
| `MapStep` | `model.py` `move_elements`, `release_elements`, `_update_fate_status`; `maps/map.py` beaching, refloating, off-map, `ParamMap` | movers (a displacement per element; zero unless in water), weatherers (a loss per element), uncertainty |
| `HalfLife` | `maps/map.py` `refloat_elements` probability, `weatherers/core.py` `HalfLifeWeatherer` | real numbers for floats |
| `MapStep` (tide) | `maps/tideflat_map.py` | |
| `MapQ` | `maps/map.py` questions, `ShiftLon*`; `convert_longitude` | |
| `RectGrid` | `maps/map.py` `map_from_rectangular_grid`, `refine_axis`; `RectangularGridProjection` | descending axes |
| `TSeries` | `lib_gnome/OSSMTimeValue_c.cpp` `GetTimeValue`, `GetInterpolatedComponent`, `CalculateRunningAverage`; `utilities/timeseries.py` checks | Hermite interpolation (never selected), file reading |
| `PointWind` | `environment/wind.py` `Wind` (set, get, units, time zone, `at`); `utilities/convert.py` | trigonometry (parameter `Polar`), `_time` axis, aliasing of `_timeseries` after `set_wind_data` |
| `WindFile` | OSSM wind files: header of three to five lines, rows, both loaders | `int()`/`float()` on text, encodings, `nan`/`inf` in rows |
| `Persist` | save files: file names, references, data files, loading; `==` of objects; `update_from_dict` | json text, `version.txt`, versions of save files, schemas of particular classes, lists and dictionaries as attributes in `==`, nested updates |
| `NatWeath` | `weatherers/evaporation.py`, `natural_dispersion.py`, `dissolution.py`, `bio_degradation.py`, `emulsification.py` (the algorithm in use), `lib_gnome/Weatherers_c.cpp` `emulsify` | winds over ice, masked winds, floating-point overflow, `weather_elements_lehr` (not called), Li's droplet sizes, where the view is kept (see `Fate`) |
| `Spread` | `weatherers/spreading.py` `FayGravityViscous` and `Langmuir`, `spills/release.py` `initialize_elements_post_substance` | `ConstantArea`, splitting and removal of elements, NaN winds; infinities and NaN of the floats are followed by cases |
| `Mover` | `get_move` of `SimpleMover`, `CurrentMover`, `WindMover`, `PointWindMover`, `RandomMover`, `IceAwareRandomMover`, `RiseVelocityMover`, `RandomMover3D` with the C++ behind them; the lists of uncertainty of `CurrentMover` and `WindMover`; `random_with_persistance`, `InitWindages`; `IceAwareCurrent.at`, `IceAwareWind.at` | exact reals (the C++ has single precision and millionths of a degree); the random generators deliver what they are given; velocity fields are functions; the `gridded` library with its memory of results; depth-dependent diffusion (no Python access) |
| `Dag` | `lib_gnome/MakeDagTree.cpp` (side list, splitting, the array of records), `lib_gnome/DagTreeIO.cpp` 413-692 (the search), interpolation on triangles and in cells with four corners (`TriGridVel_c.cpp` 146-348, 513-595, 676-695; `TimeGridVel_c.cpp` 8714-8851) | reading of files, memory, rounding (exact integers and fractions), which pickable side is picked (any), velocities at several depths |
| `Cats` | `lib_gnome/CATSMover_c.cpp` 255-454, `cy_cats_mover.pyx` (tide, reference point), `CatsMover` in `c_current_movers.py` (settings, scaled velocities) | the pattern (any function), reading of tides (any function of time), uncertainty, eddy diffusion, rounding |
| `SpillSet` | `Release.__init__` (numbers, times, mass), `num_elements`, `num_per_timestep`, `release_time`, `end_release_time`, `release_mass`, `timezone_offset` and `update` of the times; `Spill.amount`, `units`, `substance`, `set_amount_uncertainty`, `__init__` (amount) | custom positions (see `Release`), on, windage, names |
| `Place` | `PolygonRelease.get_polys_as_tris`, `compute_distribution`, `prepare_for_model_run` (weights), `initialize_elements`, `random_pt_in_tri`, `poly_area_weight`; `Release.initialize_elements` (positions); `GridRelease` | triangulation by `trimesh` and area by `pyproj` (data of the model), setters of polygons, weights and thicknesses, NESDIS files, floats, the numpy generator (`choice` chooses with the weights given) |
| `Convert` | `transforms.py`; `RayleighDistribution`, `WeibullDistribution`, `fraction_below_d`; `Wind.set_speed_uncertainty`; selection of elements in `hull.calculate_contours` | floats and signed zeros, numpy's generator, hulls, the other distributions (one call of numpy each) |
| `Oil` | `GnomeOil.density_at_temp`, `kvis_at_temp` (least squares as a parameter), `initialize_elements`; `ops/density.py`, `ops/viscosity.py`, `ops/aggregated_data.py` | floats, units, loading of oils, numpy's `lstsq` (any solution of the normal equations) |
| `Waves` | `Adios2`, `LehrSimecek`, `Monahan`, `Waves.get_value`, `get_emulsification_wind` | floats, masked winds, Ding-Farmer and Delvigne-Sweeney |
| `Water` | `Water.get`, `set`, `units`, `__init__`, `density`, `WaterProperty.at` | `nucos` and `gsw` (parameters), keys of units that are no properties |
| `NcOut` | `NetCDFOutput.write_output`, `prepare_for_model_run`, `read_data`, `_update_arrays_to_output` | the netCDF library (variables over an unlimited dimension), attributes, chunks, zipping |
| `TGrid` | `TimeGridVel_c::CheckInterval`, `SetInterval`, `CheckAndScanFile`, the part on time of `GetScaledPatValue` and `GetInterpolatedValue`; `GridCurrentMover_c::GetMove` | cyclic currents, depths, reading of files; reads past the end of an array of times (taken to match nothing) and the uninitialised `testTime` (taken to differ from all times) |
| `Roc` | of `weatherers/roc.py`: the schedule, `Burn` and `Skim` (steps, amounts, mass balance, view of the elements), `Disperse` with a plane | the encounter and pump rates of `Disperse`, durations of flights, efficiencies (parameters); boats; barges; unit conversions of attributes; the log of messages |
| `Dates` | of `lib_gnome/StringFunctions.cpp`: `RoundDateSeconds`, `SecondsToDate`, `DateToSeconds`, `DateString2Secs` | the C library's `localtime` and `mktime` (Gregorian calendar, one offset and one hour of daylight saving time are assumed); overflow of `time_t` |
| `Fields` | units of `Variable.at`, `VectorVariable.at` and `.constant` (`gridded_objects_base.py`); `TimeseriesData`, `TimeseriesVector`; the table of results and 'r-theta' of `GridCurrent`, `GridWind`, `IceAwareWind`; `SteadyUniformCurrent` | `nucos` and `gridded` (assumptions in `UnitModel.lean` and `MemoModel.lean`); interpolation in space; floats |
| `Shio` | of `lib_gnome/ShioTimeValue_c.cpp`: `DaylightSavingTimeInEffect`, `GetTimeValue` (which table is used, standing and progressive waves), `GetDeriv`, `GetConvertedHeightValue`, `GetLocationInTideCycle`, `ReadShioValues`; of `ShioHeight.cpp`: `GetJulianDayHr`, the span of `GetTideHeight`, `GetReferenceCurve`, `FindHighLow`, `DoOffSetCorrection`, `GetWeights` | the sum of constituents (`RStatHeight`), year data, `FindExtraHL`, `FixHEnds`; the currents (`ShioCurrent1.cpp`, `ShioCurrent2.cpp`); floats |
| `Run` | of `model.py`: steps 1 and 2 of `setup_model_run` (which weatherers are on), `get_spill_data`, `write_output`, the calls of `post_model_run` in `step` and `full_run` | array types other than 'area', the text of conditions, what outputters return |
| `Output` (Post, Kmz) | `outputter.py` `write_output_post_run`; `kmz.py` parts of the document, time spans | the text of the kml, the zip file |
| `Upd` | of `save_updater.py`: `extract_zipfile`, `sanitize_filename`, the removal of references in `v3tov4`, substances in `v0tov1`, windages in `v1tov2`, `update_savefile` | rewriting of names within json files, renaming of classes (`v2tov3`, `v4tov5`), replacement of oils that cannot be used any more |
| `GridCur` | `gridcur.py` `read_file`, `write_gridcur`, `make_grid_arrays`; of `TimeGridVel_c.cpp` the reading and indexing of GridCur files | the text of numbers and dates, memory limits of the C++ reader |
| `Drift` | `ship_drift_mover.py` `get_move` | the wind at an element (from a grid), conversion to degrees |
| `Bna` | `haz_files.py` `GetNextBNAPolygon`, `ReadBNA`; of `maps/map.py`: `ShiftLon360`, `ShiftLon180`, `MapFromBNA.__init__`, `to_geojson` | the text of numbers, the drawing of the raster, letters outside ASCII |
| `Canvas` | of `map_canvas.py`: `Viewport`, `zoom`, `shift_viewport`, `GridLines` without labels | drawing, colours, labels, projections (see `Geom`) |
| `Hull` | of `hull.py` `calculate_contours`; `surface_concentration.py` | hulls themselves, the kernel density estimator |
| `Appear` | `appearance.py` `Appearance.update_from_dict`, `to_dict` | nested colour maps |
| `OutFiles` | `geo_json.py` trajectory output, `binary.py` files and archive, `shape.py` and `ShapefileBuilder` names and bundles, `oil_budget.py`, `on` of all outputters | contents of binary records, geometry of boundaries, ice output |
| `Geom/PinP`, `Geom/Clockwise` | `geometry/PinP.py`, `geometry/poly_clockwise.py` | rounding of doubles |
| `Run/Check` | `model.py` `check_inputs`, `validate`, `find_by_attr`; `gnomeobject.py` `validate_refs` | texts of messages; the order of the messages about the environment, which is that of a Python set |
| `OC/Slice` | `orderedcollection.py` `_slice_attr`, `__getitem__` | slice assignment (not in the code) |
| `Run/Merge` | `model.py` `merge`, `_add_to_environ_collec`, the callbacks on adding | objects as trees of identities and references |
| `OC/Quash` | `model.py` `add_env` | — |
| `Persist/Sig` | `utilities/__init__.py` `_round_sf_float`, `round_sf_array`; `extend_colander.py` `NumpyArraySchema` | doubles (numbers are rationals); NaN and infinities |
| `Output/Render` | `renderer.py` file names, cleaning, formats, order of drawing | the pixels; grids and properties that are drawn too |
| `MapStep/Calls` | `model.py` `weather_elements` (calls of weatherers, sub-steps), marking and removal by response operations | what each weatherer takes is given |
| `Output/CurJson` | `outputters/json.py` `CurrentJsonOutput.write_output` | the velocities of each mover are given |
| `Mover/Component` | `ComponentMover_c.cpp` scales, averaging of winds, what is kept between calls, reading of the two files | velocities of the patterns are given; uncertainty |
| `Output/SpillJson` | `outputters/json.py` `SpillJsonOutput`: tables, cutoffs, contours, bounds | a hull is the list of its elements; rounding is any function |
| `Mover/IceGrid` | `TimeGridVel_c.cpp` `TimeGridVelIce_c`, `TimeGridWind_c.cpp` `TimeGridWindIce_c`, `IceMover_c.cpp`, `IceWindMover_c.cpp`: reading, mixing, moves, reports | records loaded, data at the surface, no uncertainty |
| `Upd/Load` | `gnomeobject.py` `GnomeId.load`, `persist/save_load.py` `is_savezip_valid` | reading of a json file left out; sizes are those of the headers |
| `Run/Ensemble` | `multi_model_broadcast.py` `ModelConsumer`, `ModelBroadcaster` | messages arrive in order and in time; commands other than those of the constructor act in any way |
| `NatWeath/Evap` | `gnome_oil.py` `vapor_pressure`, `weatherers/core.py` `get_wind_speed` | real numbers; of a wind only its speed |
| `outputters/erma_data_package.py` | 137-520, 845-1245 | `OutFiles/Erma`, `OutFiles/Legend`: which shapefiles are made under which names, which layers refer to them, the archive, the step of the time slider, the name of the folder, offsets of time; grouping of spills by style, classes of the legend with their expressions, cutoffs of contours. Not: the templates' other fields, geometry of the shapefiles, fonts |
| `environment/environment.py` | 20-60, 147-264 | `Fields/EnvFile`: the loop of `env_from_netCDF` over classes and needs; not: the reading of files |
| `environment/tide.py`, constructors and schemas in `movers/c_current_movers.py`, `movers/c_wind_movers.py` | see file | `Persist/FileObj`: settings that are saved and what the constructors make of them; not: which kind of tide file it is |
| `lib_gnome/TimeGridWind_c.cpp`, `GridWindMover_c.cpp`, `TimeGridVel_c.cpp`, `RectUtils.cpp` | 80-179, 407-421, 578-708, 777-815; 121-213, 277-281; 1687-1716; 993-1015 | `GridCur/WindRect`: regular gridded winds, value at a point, move, reported grid; not: reading of netCDF, several files, uncertainty, curvilinear grids |
| `environment/names.py` | 107-189 | `Fields/Names`: capitals, list of a set, search by name; not: standard names (in library `gridded`) |
| `outputters/image.py`, `movers/c_current_movers.py` | 97-181, 228-292; 855-903 | `Output/IceImage`: gradients, look-up of colours, box, text; not: drawing |
| `lib_gnome/OSSMTimeValue_c.cpp`, `lib_gnome/TimeValuesIO.cpp`, `lib_gnome/OUTILS.cpp`, `lib_gnome/StringFunctions.cpp` | 867-1133, 1303-1386; 56-323, 388-403; 7-61, 226-242; 198-231, 590-613 | `TSeries/TideFile`: kinds of files, rows by characters, dates, units, directions; not: rows of NDBC and NCDC files, numbers with a point |
| `persist/extend_colander.py`, `persist/validators.py` | 24-58, 77-97, 126-184, 222-246; 20-66 | `Persist/Types`: times, series, fixed vectors, file names; not: GeoJSON, polygons, time differences |
| `lib_gnome/RiseVelocity_c.cpp` | 64-109, 199-209 | `Mover/RiseVel`: speed by size over the reals, NaN of the square root; not: `GetDropletSize` and the derivative, which nothing calls |
| `spills/release.py` constructors and schemas | 95-126, 137-214, 528-580, 718-799, 1017-1072, 1416-1470, 1486-1521, 1566-1598 | `Release/Saved`: which arguments each kind takes, passes on, saves and loads; not: NESDIS releases |
| `spills/release.py` `NESDISRelease` | 1209-1303 | `Release/Nesdis`: times, thickness, begin and end; not: reading the shapefile |
| `spills/release.py` `release_from_splot_data`, `InitElemsFromFile`, `VerticalPlumeRelease` | 1478-1660 | `Release/FromFile`: number and positions of elements; methods that nothing calls are left out |
| `lib_gnome/OSSMTimeValue_c.cpp` headers, NDBC, NCDC | 25-45, 511-850, 1136-1297 | `TSeries/Station`: position of the station, rows of buoys and weather stations after splitting; not: the splitting of lines into fields |
| `lib_gnome/CurrentCycleMover_c.cpp`, cyclic part of `TimeGridVel_c.cpp` | 69-123, 203-266, 421-424; 321-398, 1273-1376 | `GridCur/CycleMover`: records loaded and their weights; not: places of elements in the grid, uncertainty |
| `gnome/spills/spill.py` (helpers), windages of `substance.py` | 492-960; 144-191 | `SpillSet/Helpers`: substances as shared objects with their windages, positions and times of the releases; not: name, water, `on` |
| `gnome/weatherers/roc.py` (`Disperse.simulate_boat`) | 865-1131, 1547-1577 | `Roc/Boat`: states, times, dispersant and oil of a boat; durations and rates are parameters; not: the report in words, area sprayed |
| `gnome/weatherers/roc.py` (`Disperse.weather_elements`, tables) | 168-183, 641-676, 848-863, 1553-1633 | `Roc/Spray`: elements, efficacy by wind and viscosity, removal and mass balance |
| `gnome/weatherers/roc.py` (`Platform`) | 262-591 | `Roc/Platform`: times, rates, dosages, units; not: loading of `platforms.json` |
| `gnome/spill_container.py` (the substance) | 371-376, 392-461, 514-520, 740-780, 839, 1118-1218 | `SpillSet/Subst`: the check for one substance with its exceptions, in both containers; collections as lists |
- `lib_gnome/GridMapUtils.cpp`: `CheckSurroundingPoints`, `ThereIsALowerLandNeighbor`, `ResetMaskValues`, `NumberIslands` (`TGrid/IslandsModel.lean`). The three kinds of water are one, memory errors are left out.
- Currents of tide stations that are not rotary: `GetRefCurrent` 874-911 (storing of the extra events), `DoOffSetCurrents` 977-1067, `CurveFitOffsetCurve`, `GetFloodEbbKey`, `GetFloodEbbSpans` with flag 0, `DoHermite`, `Hermite` (`Shio/StationCurModel.lean`). Not modelled: `FindExtraFE`, `OffsetUV`, `FixCEnds`, rotary stations.
- Currents below the surface from gridded files: `GetDepthIndices`, `GetDepthAtIndex`, `GetScaledPatValue` of regular and curvilinear grids and triangles, `GetInterpolatedValue`, `GetScaledPatValue3D`, tables of depths and order of values on triangles (`TGrid/DepthModel.lean`). Given, not modelled there: cell or corners and weights at a place, weight in time.
- `Verif/Cleanup/BurnModel.lean`: a burn from start to end (`weatherers/cleanup.py` `Burn` 413-483, 565-665, 684-729): rate and duration, marking in the first active step, the new rate and duration from the water content of what was marked, removal step by step, with any changes of other elements between the steps. Not modelled: efficiency from wind (see C51), units, sub-steps.
- `Verif/Persist/SaveLocModel.lean`: where an object is saved (`gnomeobject.py` `GnomeId.save` 788-903, `model.py` `Model.save`, `_save_spill_data` 1447-1516): kinds of place, overwriting, adding to an archive, the state in the middle of a run. What the schemas write is a parameter (`Verif/Persist/Model.lean`).
- `Verif/Canvas/TagsModel.lean`: labels of grid lines (`utilities/map_canvas.py` `GridLines.get_tags` 690-739). `ToDegMinSec` of the package nucos is taken as whole degrees and minutes and the rest in seconds.
- `Verif/MapQ/GivenModel.lean`: setters of the polygons of a map (`maps/map.py` 206-304).
- `Verif/Run/AskModel.lean`: `contains_object`, `find_by_class`, `find_by_attr`, `add_weathering` of `model.py`.
- `Verif/RectGrid/NcModel.lean`: `grid_from_nc`, `map_from_rectangular_grid_nc_file` of `maps/map.py` (1643-1705).
- `Verif/Bna/RasterModel.lean`: `MapFromBNA.build_raster` (`maps/map.py` 1349-1400). Which pixels a polygon covers is given (py_gd draws them).
- `Verif/OutFiles/IceJsonModel.lean`: features of ice (`outputters/geo_json.py` 315-352).
- `Verif/GridCur/ArrowModel.lean`: `VectorVariable.get_data_vectors` (`gridded_objects_base.py` 1223-1275), `Grid_S.get_centers` (368-385), `VelocityGrid.get_data_vectors` (`environment_objects.py` 236-270). Padding and the mask of cells are given (package gridded).
- `Verif/Run/RepeatModel.lean`: what movers keep from step to step and from run to run (`WindMover`, `CurrentMover` in Python and C++), the three random generators and their seeding, the order of a step for the forecast and the uncertain elements; releases, refloating, beaching and weathering are arbitrary functions there. (C305, C306, C307)
- `Verif/Mover/SteadyModel.lean`: runs of `SimpleMover` and `CurrentMover` in a steady uniform current, forwards and backwards, in open water.
- `Verif/Canvas/PropVecModel.lean`: vectors of a gridded property on images (`GridPropVisLayer.draw_to_image`): records, points, mask, box, what is written to the grid.
- `Verif/Run/OnOffModel.lean`: what `setup_model_run` prepares for movers and weatherers that are on, what steps need of it, and the switches in between.
- `Verif/Persist/FetchModel.lean`: `get_datafile`, with connections that close early or break off.
- `Verif/NatWeath/BioModel.lean`: `Biodegradation` and what `Dissolution` takes from the oil: rates by kind and boiling point, steps, what an oil object knows of its components, what is saved.
- `Verif/Geom/GreatModel.lean`: `FlatEarthProjection.geodesic_sphere` over the real numbers.
- `Verif/Release/BackModel.lean`: the calls of `release_elements` in the steps of a run of either direction.
- `Verif/MapQ/ParamModel.lean`: `ParamMap`: straight shore and bounds from centre, distance and bearing, and its update.
- `Verif/Dag/TopoModel.lean`: topology files of gridded movers (`ExportTopology`, `ReadTopology` and the readers of `DagTreeIO.cpp`), with doubles as rational numbers of 53 bits.
- `Output/KmzPtModel.lean`: the placemarks of a step of a file for Google Earth (`kmz.py` `write_output`, `kmz_templates.py`); not the text around them. C318.
- `Canvas/CmapModel.lean`: `ColorMap.get_colors` with colours as integers; numpy's conversion to bytes is a cut-off modulo 256. C319.
- `Output/LandImgModel.lean`: the land of a `Renderer` and `draw_land` (what is drawn, not the pixels), with `Bna/Model.lean` for the map. C320.
- `Output/StampModel.lean`: attributes of the time stamp of images. C321.
- `Fields/SrcModel.lean`: which file data, grid and times of gridded objects come from (`init_from_netCDF`, `_get_shared_vars`, `IceAwareCurrent`, `IceAwareWind`); not what is in the files. C322, C323.
- `GridCur/OpenModel.lean`: the choice of the reader of a gridded file (`IsNetCDFFile`, `IsNetCDFPathsFile`, `TextRead` of the five classes of movers, recognition of text formats); the inside of files and the resolution of names in lists are parameters. C324
- `GridCur/ResolveModel.lean`: names of files in lists (`ResolvePathFromInputFile`, `ResolvePath`, `split`, `join`); the disk is a predicate on names. C325
- `TGrid/NcTimesModel.lean`: text of units of times, dates, values and instants of records of netCDF files by the five readers and by the scan for the first and last time; `GetDataStartTime`, `GetDataEndTime`. Numbers are exact apart from the `float` of triangular grids. C326, C327
- `TGrid/CurvTriModel.lean`: triangles of curvilinear grids (`ReorderPoints`, `ReorderPointsNoMask`, `ReorderPointsCOOPSNoMask`), and back from a triangle to the data (`GetRectIndexFromTriIndex`, `GetRectCornersFromTriIndexOrPoint`). The code that is commented out (boundaries) and memory are not modelled. C328, C329, C330
- `TGrid/VelsModel.lean`: numbers of velocities and points that the five gridded movers report, and the velocities and centres of cells of curvilinear grids (`GetScaledVelocities`, `GetCellCenters`). C331
- `OutFiles/NcFileModel.lean`: names of the files of a netCDF output, their creation, filling, zipping and removal on a file system, saving and loading of the names (`outputters/netcdf.py`). C332, C333
- `Release/PolySetModel.lean`: weights, thicknesses and polygons of `PolygonRelease`: constructor, setters, shares, `get_polygons`, `get_metadata`. C334–C336
- `persist/base_schema.py` `ObjType.deserialize`, `_deser`, `process_subnode` and `gnomeobject.py` `update_from_dict`, `new_from_dict` over a heap of objects with references (Persist/DeserModel): C337. Not modelled: kinds of attributes, attributes that cannot be updated, errors.
- `ShioHeight.cpp` `RStatHeight` and `ShioCurrent2.cpp` `RStatCurrent` with the corrections for the year and the table of 114 speeds (Shio/HarmModel): C338. Rotary stations (`RStatCurrentRot`) are not modelled.
- `ShioCurrent2.cpp` `RStatCurrentRot`, `GetVelDir`, `getVector`, `rotateVector`, `ShioCurrent1.cpp` `FixAngle`, `GetCDirec` (Shio/RotaryModel): C339. Not modelled: `FixCurve`, `RotToMajorMinor`, `OffsetUV` and the factor 0.017453293.
- `ShioTimeValue_c.cpp` `ReadYearData` with the years kept by the process, the year of `GetTimeValue`, `tide.py` `data_start`, `data_stop` (Shio/YearModel): C340. Year files are lists of pairs.
- `Weatherers_c.cpp` `adios2_disperse` behind `cy_weatherers.disperse_oil` (NatWeath/LibDispModel), compared with `disperse_oil_DS`: C341. Real numbers; the density is not zero.
- (Mover/SameProps) the wind movers of Mover/MoveModel and the current movers of Mover/MoveModel and Cats/Model compared: C342.
- (Mover/LibUncModel, LibUncProps) lib_gnome/CurrentMover_c.cpp, WindMover_c.cpp, GridCurrentMover_c.cpp, GridWindMover_c.cpp: UpdateUncertainty, AllocateUncertainty, ReallocateUncertainty, PrepareForModelStep, as called by cy_mover.pyx and movers.py over a run; hours of c_current_movers.py and c_wind_movers.py: C343-C345.
- (Persist/CopyModel, CopyProps) `__reduce__` and constructors of CyRandomMover, CyCurrentMover, CyCatsMover, CyTimeseries, CyShioTime: C346.
- (Run/AgeModel, AgeProps) ages of elements over a run: model.py step, step_is_done; spill_container.py release_elements, model_step_is_done; spill.py release_elements: C347.
- (OutFiles/BinFileModel, BinFileProps) outputters/binary.py output_to_file: C348.
- (Run/SettingsModel, SettingsProps) model.py ModelSchema, __init__, load; gnomeobject.py new_from_dict: C349.
- (Run/ShiftProps, ExtendProps) no new code: runs moved in time and runs that are continued, about the models of clock, active ranges, series, releases and output: C350, C351.
- (MapStep/EastProps) no new code: runs moved on the map, about the models of one step on a raster map and of the movers: C352.
- (MapStep/CourseProps) no new code: runs with different weathering compared, about the model of Calls: C353.
* `TSeries/AvgObjModel.lean`: the `RunningAverage` object (`environment/running_average.py:76-258`): making it, the hours, the wind, `prepare_for_model_run`, `prepare_for_model_step`, `check_time_in_range`. Not modelled: `get_value(time)` and `get_timeseries(datetime)`, which assign the pair returned by `get_time_value` to an array of records.
* `MapStep/SpillsProps.lean`: runs of two spills and of each alone, with the steps of `MapStep/Model.lean`; movers are functions of the place (per step), losses functions of the element.
* `Mover/ZeroUncProps.lean`: the moves of one step for forecast and uncertain elements, from the rows of `Mover/MoveModel.lean` and `Mover/WindUncModel.lean`, with `uncertain_diffusion` (`py_wind_movers.py:190-192`, `WindMover_c.cpp:471-477`).
- `Shio/FloodModel.lean`: the loop of `GetRefCurrent` (`ShioCurrent2.cpp` 523-836) for stations that are not rotary and `FindFloodEbb` (`ShioCurrent1.cpp` 1493-1591); minutes are integers and currents rationals, the curve is a parameter. Not: `FindFloodEbbRot`, `FindExtraFE`, `FindExtraFERot`, offsets (see `Shio/OffsetModel.lean`).
- `Shio/EndsModel.lean`: `FixCEnds` (`ShioCurrent1.cpp` 1758-1881), `FixHEnds` (`ShioHeight.cpp` 1026-1125), `ResetCTime`, `ResetTime`, and the copying of what is not flagged (`ShioTimeValue_c.cpp` 613-626, 695-721), for stations that are not rotary. Not: the parts for u and v, the conversion to seconds. `OffsetReferenceCurve` and `GetSlackRatio` (`ShioCurrent2.cpp`) are never called because `Key` is always `curveFitKey` (`ShioCurrent1.cpp` 864).
- `Waves/TurbModel.lean`: `Waves.energy_dissipation_rate` (`environment/waves.py` 232-259), `PiersonMoskowitz` (29-42), `ZhaoToba.percent_whitecap_coverage`. Real numbers; a roughness of exactly 10 m (division by zero) is left out of the statements.
- `Roc/ThickModel.lean`: `Response._get_thickness` (`roc.py` 77-86), `Disperse.dosage_from_thickness` (819-827). Exact rationals and exact units; a mean water content of exactly 1 is left out.
- `OutFiles/LabelModel.lean`: `convert_mass_to_mass_or_volume` and the numbers in the texts of the classes of the ERMA legend (styles by mass), before rounding to four digits; `nucos` is any table of units.
- `TimeUtil/ZoneModel.lean`: `TZOffset` and its schema; hours are exact numbers.
- `Spread/StateModel.lean`: what `FayGravityViscous` remembers over runs (`thickness_limit`, `_init_relative_buoyancy`), with switching on and off, releases and weathering in any order.
- `TGrid/WindCurvModel.lean`: winds on a curvilinear grid, values on nodes and of cells, over the loading in time of `TGrid/Model.lean`. Not modelled: finding the cell and the weights.

## Plan per property

| id | model | proof idea |
|---|---|---|
| C01 | state = slots (`List (Option obj)`) + id→slot index; all operations | refinement to an abstract duplicate-free list by simulation over all op sequences |
| C02 | same | negation with a witness (raw slot used as position after a removal), `_partial` for collections without holes |
| C03 | same | negation with a witness (replacement already stored elsewhere), `_partial` when it is new |
| C04 | same, with event log | step lemma: events emitted = abstract change |
| C05 | inductive `DT = ninf/fin/inf` with one comparison per class method | case analysis against `WithBot (WithTop Int)` order |
| C06 | `Process.prepare_for_model_step` over the same dates | decision logic; contiguity by order convexity |
| C07–C10 | cache state = in-memory entry + directory (finite map filename→dict) | refinement to abstract "last save per step" map; C10 negated with a witness and partial |
| C11–C14 | model clock state machine: start, dt, duration, direction, step, number of steps | invariant over all op sequences; C12/C14 expected to fail for backward runs: witness + partial |
| C15 | `_split_into_substeps` on integers | induction on the range list |
| C16–C19 | release series, interpolation with `ceil`, spill counter | monotonicity of piecewise-linear interpolation, telescoping; C19 witness for the un-reset accumulator |
| C20–C25 | container of named columns; buffers; pair of collections | invariants over op sequences |
| C26 | view state with explicit aliasing flag | interleavings; witness if aliasing breaks it |
| C27–C30 | outputter state machine | closed form of the accumulator (`k·dt mod P`), invariants; witnesses for backward runs and `None` cadence |
| C31–C33 | Bresenham walk with error term, raster lookup, layered search | loop invariant; C33 witness |
| C34–C38 | sub-timestep arithmetic, marking, mass removal | telescoping sums, prefix sums; witnesses for C34, C37, C38 |
| C39 | crossing-number test over an ordered field | parity is a sum over edges, symmetric in edge direction |
| C40 | boxes over a linear order | order theory |
| C41–C42 | points array + index array; thinning loop | append invariant; destuttering lemma |
| C43 | affine maps over a field | `field_simp`, floor lemmas |
| C44 | floor of cumulative mass | telescoping, floor sums |
| C45 | stable sort by rank | insertion/merge sort stability |
| C46 | integer arithmetic | `omega`-style |
| C47 | vector-valued field over a field | `ring` |
| C48 | finite map registry | induction over ops |
| C49–C51 | fate views, skimmer sub-steps, dispersion efficiency | witnesses and partial statements |
| C52–C53 | projections: image box, aliasing | affine arithmetic, witnesses |
| C54 | objects with provided / required names | closed form of the gathering fold |
| C55 | zone = offset, flag, shift | integer arithmetic, witnesses |
| C56 | linear maps over a rational module | `module` |
| C57 | write decision of an outputter | induction over steps |
| C59 | collections, callbacks, prepared spills | case analysis over operations, induction over histories |
| C60 | finite reference graph, worklist search | functional induction, invariant over histories |
| C58 | piecewise linear series of fractions of the line | affine image of a monotone series |
| C61, C62, C64 | elements with positions, status, last water position on a raster | invariant over runs, pixel centres |
| C63 | rational masses | step formula for the total, induction over runs |
| C65 | Lebesgue measure on the cube of random numbers, real powers | `Measure.pi_pi`, `rpow` laws |
| C66 | numpy indexing with `Option` for IndexError | case analysis |
| C67 | masked assignment with numpy's shape rules, floor | cases, floor arithmetic |
| C68 | as C61 with one more status, tide flat = any function per step | invariant over runs |
| C69 | piecewise linear interpolation on a list | induction over the axis |
| C70 | binary search and scan on a list, results `ok`/`err`/`garbage` | functional induction, linear arithmetic |
| C71 | acceptance as a function of how the series is handed over | induction |
| C72 | nested loops with the stale velocity as state | loop invariants, trapezoid sum |
| C73–C77 | record of units, reported rows, applied series; the caller's array as part of the result | case analysis, invariant over operation lists |
| C78 | `WindFile` | case analysis on the header, induction over the rows; counterexamples |
| C79 | `Persist` (Model, Lemmas) | mutual induction over the object, invariant on archive and references; then on loading; counterexamples |
| C80 | `Persist/Eq` | mutual induction over values; counterexamples |
| C81 | `Persist/Update` | induction over the schema; counterexamples |
| C82 | the formulas over ℝ with `exp`, `sqrt` and powers; NaN as an outcome | sign analysis; sums over lists |
| C83 | processes as functions of the list of elements | a function of the element exists / two lists that refute it |
| C84 | the C++ loop body per element; lives of an element as an inductive relation | invariant by induction |
| C85 | interleavings as an inductive relation | invariant by induction |
| C86, C87 | steps of a run as an inductive relation, arbitrary other processes in between | invariants by induction |
| C88 | the formula of a step against the derivatives of two laws | `HasDerivAt` of the square root and of powers |
| C89–C91 | formulas and lists over ℝ | case analysis; filters of lists |
| C92, C93 | the coverage with cases for infinities and NaN | monotonicity of real powers; Bernoulli's inequality for the exponent |
| C94–C96 | rows of moves over ℝ³, a type of all movers | case analysis per mover, induction over the list of movers |
| C97, C98 | state machine of the list of uncertainty over runs | invariant (aligned prefix of element ids) by induction over steps |
| C99 | redraws over runs of releases and steps | induction over operations; spread by algebra |
| C100 | the two formulas over ℝ | algebra, sums over lists of draws, trigonometry |
| C101 | moments as iterated integrals over square and disc | interval integrals, substitution by the sine |
| C102, C103 | reflections and mixtures by cases | case analysis, linear arithmetic |
| C104 | `Dag/Model`, `Spec`, `Lemmas`, `Props`, `Cases` | induction over trees; cross products |
| C105 | `Dag/ArrayModel`, `ArrayProps` | the array is the flattened tree; the loop is the search in the tree |
| C106 | `Dag/InterpModel`, `InterpProps` | algebra over fractions |
| C107 | `Dag/InterpProps` | C104 and C106 |
| C108 | `Dag/InterpProps` | order and algebra over fractions |
| C109 | `Cats/Model`, `Props` | case analysis over the reals |
| C110 | `Cats/Props` | laws between sequences of settings |
| C111 | `SpillSet` | setters with exceptions; algebra |
| C112 | `SpillSet` | refinement of two optional numbers by one tagged number over all sequences of assignments |
| C113 | `SpillSet` | algebra of units |
| C114 | `Place` | Lebesgue measure of preimages under affine maps; sums over lists |
| C115 | `Place` | counting |
| C116 | `Place` | algebra on lists, bounds of rounding |
| C117 | `Convert` | complex argument, periodicity |
| C118 | `Convert` | exp, log, derivative, bounds of pi and exp |
| C119 | `Convert` | first cutoff not below the value |
| C120 | `Convert` | induction on draws, monotone distribution |
| C121 | `Oil` | sorting, case analysis on intervals, closed form |
| C122 | `Oil` | least squares, exp |
| C123 | `Oil` | computation |
| C124 | `Oil` | weighted means |
| C125 | `Oil` | induction on runs |
| C126 | `Oil` | monotony of exp and powers |
| C127 | `Waves` | square roots, powers |
| C128 | `Waves` | monotony by cases |
| C129 | `Waves` | monotony by cases |
| C130 | `Water` | refinement to the property in SI units |
| C131 | `NcOut` | invariant of the written file over steps |
| C132 | `NcOut` | induction over runs |
| C133 | `TGrid` | invariant of the loaded data over queries, refinement to the series of all records |
| C134 | `TGrid` | algebra |
| C135 | `Roc` | case analysis over ordered periods |
| C136, C137 | `Roc` | invariant and measure of the loop of a step, induction over steps |
| C138 | `Roc`, `Fate` | view of the elements as in C49 |
| C139 | `Roc` | induction over calls of several burns |
| C140 | `Roc` | arithmetic |
| C141, C142 | `Roc` | invariant and measure of the loop of a step, induction over steps |
| C143, C144, C145, C146, C147, C148 | `Roc` | invariant and measure of the state machine of a plane, induction over steps |
| C149, C150 | `Dates` | calendar arithmetic over integers, case analysis |
| C151, C152 | `Fields` | algebra of linear units |
| C153, C154, C155 | `Fields` | induction over ordered times, algebra |
| C156 | `Fields` | invariant of the table over histories |
| C157 | `Fields` | complex numbers |
| C158 | `Fields` | invariant over setters |
| C159, C160 | `Shio` | calendar arithmetic |
| C161, C162 | `Shio` | derivative of a cubic, induction over extremes; invariant over histories |
| C163 | `Shio` | loop invariant over the samples |
| C164, C165 | `Shio` | invariant of the index, monotone pieces |
| C166, C167 | `Shio` | induction over lists |
| C168, C169, C170 | `Run` | counting in lists, order by sorting, idempotence |
| C171, C172, C173 | `Run` | decision logic; induction over outputters and steps |
| C174, C175, C176 | `Output` | simulation of the run by the later writing; induction over steps |
| C177, C178 | `Upd` | induction over archives; refinement of a dictionary |
| C179, C180, C181, C182 | `Upd` | loop invariant of an iterator over a changing list; induction over steps |
| C183, C184, C185 | `GridCur` | round trip; index arithmetic; fold over lines |
| C186 | `Drift` | masked arrays as lists |
| C187, C188 | `Bna` | round trip; acceptance as an inductive grammar |
| C189, C190, C191 | `Bna` | masked assignment; loop invariants; bounding boxes |
| C192, C193 | `Canvas` | invariant over operations; floor arithmetic |
| C119, C195 | `Hull` | counting in sorted lists; loop over time bins, scatter of masked arrays |
| C196 | `Appear` | refinement of dictionaries |
| C197, C198 | `OutFiles/Geo` | folder as dictionary; run over the model of write decisions |
| C199 | `OutFiles/Bin` | invariant over steps; loop that moves files into an archive |
| C200 | `OutFiles/Shape` | names as lists of parts |
| C201 | `OutFiles/Budget` | sums |
| C194 | `Geom/Clockwise` | signed area as a sum of triangles seen from any point |
| C202 | `Geom/PinP` | parities that differ by a telescoping sum |
| C203 | `Run/Check` | decision logic against a specification of sensible runs; messages by membership |
| C204 | `OC/Slice` | positions of a Python slice, on top of the refinement C01 |
| C205 | `Run/Merge` | lists by membership, induction over trees of references |
| C206 | `OC/Quash` | on top of the refinement C01 |
| C207 | `Persist/Sig` | nearest number with `p` figures as specification, `Int.log` for the decade |
| C208 | `Output/Render` | exact set of files after a run |
| C209 | `Output/Render` | marks as a permutation of the elements |
| C63 | `MapStep/Calls` | exact account of every run: induction over operations, calls of a step as a fold |
| C210 | `Output/CurJson` | loop over the movers with the kind of clock as state |
| C211 | `Mover/Component` | trigonometry over the reals; induction over the hours |
| C212 | `Mover/Component` | invariant over histories of calls |
| C213 | `Output/SpillJson` | columns to rows; induction over containers, spills and bands |
| C214, C215 | `Mover/IceGrid` | case analysis on coverage; linearity in time; convexity |
| C216, C217 | `Upd/Load` | induction on files and entries |
| C218 | `Run/Ensemble` | induction on histories: each model sees exactly its commands |
| C219, C220 | `NatWeath/Evap` | monotonicity by real analysis: bounds on logarithm and exponential |
| C221, C222 | `NatWeath/Rates` | closed form of the steps in a steady wind (geometric sum), convexity of the exponential; monotonicity |
| C223-C226 | `OutFiles/Erma` | source files by name: the map from kind of data to file name is one to one for names with at most one dot; arithmetic of `timedelta.seconds`; history of runs |
| C227, C228 | `OutFiles/Legend` | groups are a partition of the spills; the class that an element meets is the number of bounds below its value; classes of contours by number of cutoff |
| C229 | `Fields/EnvFile` | invariant of the loop (what is needed is there, none twice); monotone list |
| C230 | `Persist/FileObj` | settings as maps; saving and loading composed, by cases |
| C231 | `GridCur/WindRect` | position in the grid computed in closed form; rounding to the nearest |
| C232 | `GridCur/WindRect` | negation by witness; inner points by C231 |
| C233 | `Fields/Names` | all orders of a set as a relation; witness with the documented order; induction on the written lists |
| C234 | `Output/IceImage` | floor and clip; induction on the ranges and on the movers |
| C235–C238 | `TSeries/TideFile` | scanners over characters; induction on the lines; the list of rows as a relation |
| C239–C243 | `Persist/Types` | round trips; a series is accepted exactly if strictly ascending (sorting and removal of duplicates of the library) |
| C244–C246 | `Mover/RiseVel` | the cubic as a sum of two Hermite parts with weights not below 0; continuity and derivatives by Mathlib |
| C247–C248 | `Release/Saved` | all kinds of release, arguments as optional values |
| C249–C250 | `Release/Nesdis` | `strptime` as the first match of a regular expression, lists of digits |
| C251–C252 | `Release/FromFile` | on top of the positions of `Place/Grid` |
| C253–C254 | `TSeries/Station` | rationals; rows as a relation between lines and winds |
| C255–C256 | `GridCur/CycleMover` | rationals; invariant of the records loaded over runs of steps |
| C257–C258 | `SpillSet/Helpers` | heap of substances as a list, calls as functions on it |
| C259–C262 | `Roc/Boat` | fuelled loop, invariant of a step and decreasing measure, witnesses that never end by an invariant cycle |
| C263–C266 | `Roc/Spray` | pointwise relation between elements before and after, sums, tables by finite check of indices and monotone search |
| C267–C273 | `Roc/Platform` | attributes by name, direct computation |
| C274–C277 | `SpillSet/Subst` | induction over the copies, case analysis of the check |
| C278 | `NatWeath/DissProps` | monotone factors |
- C279, C280: numbering of land. The loop that merges ends since the sum of the numbers falls; an invariant (cells of one number are equivalent, numbers without gap, edge has 3) for any equivalence that contains the links; at the end neighbours have one number.
- C281: shares of the steps of a continuous release, over the model of releases; the time series at its own times, floor of sums.
- C282-C284: fit of a tidal current station; lemma: a regular station is fitted to its corrected events, the event before the first and an empty event. The curve between a maximum and slack water is a share of the maximum with an explicit cubic.
- C285-C288: currents at depth. Spec: `Profile`, constant outside and linear between levels. Lemma: both forms of the search find a level at the depth or a pair around it, for any levels; with levels in order the value is that of the profile. ROMS levels are reduced to the same search by counting from the other end.
- C289 (`Cleanup/BurnProps`): the amount burned does not depend on the division into steps.
- C290-C292 (`Persist/SaveLocProps`): the place of a save file and what else is touched.
- C293-C294 (`Canvas/TagsProps`): labels of grid lines. C295 (`MapQ/GivenProps`): polygons given to a map. C296-C297 (`Run/AskProps`): looking for objects, weatherers by name.
- C298 (`RectGrid/NcProps`): land from the mask of a netCDF grid, through C69.
- C299-C300 (`Bna/RasterProps`): size of the raster, which polygon decides at a pixel.
- C301-C302 (`OutFiles/IceJsonProps`): grouping of cells by value, form of the geometries.
- C303 (`GridCur/ArrowProps`): vectors and centres of structured grids.
- C304 (`Mover/SumProps`): moves of a step add up, on the model of C94.
- C318, C319: elements of a step and places in a colour range, as lists and rationals.
- C320, C321: marks drawn by a Renderer from a file or map, attributes by name.
- C322, C323: arguments as a record of optional files, resolution to sources.
- C324: bytes and global attributes of a file to a reader, per mover.
- C325: paths as lists of parts, `split` undoes `join`, search as the least index.
- C326: the text is scanned field by field (lemmas of C238's file), the instant is exact on whole minutes. C327: decision logic of the four cases.
- C328: a rank lemma on filtered ranges gives the numbers of cells and nodes; neighbours by case analysis on rows and columns. C329: the largest row and smallest column. C330: counterexample at slack water.
- C331: numbers by kind of grid; cells by the rank lemma of C328.
- C332, C333: a run is followed on a file system given as a function of names; steps by induction.
- C334–C336: invariant over sequences of settings; settings compared with what is read; shares as fractions.
- C337 objects shared in JSON are shared when made: induction over the tree with the state of references.
- C338 tides are the sum of their constituents: bounds on π to 20 digits, periods of the cosine, Doodson's numbers.
- C339 signs of rotary currents: decision logic over real components, angles by trigonometric identities.
- C340 year data: invariant of what is kept over sequences of requests.
- C341 two implementations of dispersion: equality element by element, density cancelled.
- C342 movers alike: bounds on the constants, cosine bounded below up to 80 degrees.
- C343-C345 draws of compiled movers: invariant that rows and elements are in parallel, over all runs; start of the mover is the first active step. C346 copies: constructor applied to what `__reduce__` gives.
- C347 ages: invariant over runs (distance from the truth, multiples of the step, how many were released). C348: error bounds from the relative error of single precision, hours from the calendar of Dates. C349: constructor applied to what is saved, with the clock of C11-C14.
- C350: each model commutes with moving times. C351: explicit outputs of a run of the clock; two states of an outputter that differ in one flag.
- C352: a relation between the two containers, kept by every operation; the last position in water counts for elements on land only.
- C353: every run has the course of its bare run (no mass, no weathering, no marks), by a relation that ignores masses and fates.
* C354: the running average is the one of the wind as it is (partial).
* C355: spills do not disturb each other (partial).
* C356: with nothing uncertain, uncertain elements move as the forecast (partial).
- C357 slack water, floods and ebbs of a tidal current station (`Shio/FloodProps.lean`): induction over the samples with an invariant relating the last label to sign and slope of the current.
- C358 ends of the curve of a tide station (`Shio/EndsProps.lean`): the list of points split at the two places that are found.
- C359 steady currents with shorter steps (`Mover/FinerProps.lean`): sums of a monotone function over coarse and fine steps.
- C360 the same oil in more elements (`NatWeath/PartsProps.lean`, `Spread/PartsProps.lean`): every process commutes with replacing each element by `k` parts; sums over parts.
- C361 mirrored maps and the way back (`Land/TurnProps.lean`): paths of pixels commute with mirrors; the specification of the first stop determines the result; the nearest pixel on the way back. The check in layers (`Land/LayerTurnProps.lean`): a coarse cell is land exactly if a pixel in it is; mirrors commute with coarse cells on rasters of whole cells.
- C362 response operations with the oil in more elements (`Cleanup/PartsProps.lean`): views, their masses and scaling commute with dividing elements; marking by the minimal prefix that holds the target (C35), whose excess is at most one part.
- C363 mirrored worlds (`Mover/MirrorProps.lean`): a relation between movers and their mirrored ones (mirrored fields and draws); moves, steps and runs commute with mirroring; every mover has a mirrored one.
- C364 turbulence and whitecaps (`Waves/TurbProps.lean`): sign of the logarithm of 10 m over the roughness; waves of the model have at most a sixteenth of the steepness that matters; drag has two branches that meet.
- C365 thickness for responses (`Roc/ThickProps.lean`): against volume over area; exact for equal water, below it for equal masses (tangent of 1/x), order, parts, dosage.
- C366 superposition (`Mover/AddProps.lean`): two movers against one with the sum of the fields; Euler always, every method for uniform fields, point winds, simple movers.
- C367 pace (`Mover/PaceProps.lean`): a world k times faster in steps k times shorter; one mover, one step, whole runs by induction.
- C368 shares (`NatWeath/ShareProps.lean`): the k-th part of every element against the k-th part of the result, for six ways of weathering; dissolution in full here.
- C369 labels of the ERMA legend (`OutFiles/LabelProps.lean`): kilograms of the oil of each spill of a group against the bounds of its classes.
- C370 titles of offsets (`TimeUtil/ZoneProps.lean`): the title read as a text against the shift.
- C371 memory of spreading (`Spread/StateProps.lean`): what each step works with against the oil and water of the run, over all histories.
- C372 winds on a curvilinear grid (`TGrid/WindCurvProps.lean`): blend of the corners at the time, bounds, refusals.

Properties can all be expressed; those that the code violates get the negation with a concrete witness and
a `_partial` theorem that states the part that does hold. See "Disagreements" below (filled in as found).

## Disagreements (code violates the property; witness proved)

* C02 `OrderedCollection.replace(int, x)` uses the raw slot number: after a removal it replaces another object
  (`C02_counterexample_hole`), a negative position moves the new object to the front (`C02_counterexample_negative`).
* C03 Replacing by an object that is already stored leaves an orphan slot: `values()` shows it twice
  (`C03_counterexample`).
* C10 `ElementCache`: a step saved again without uncertainty leaves the old `_uncert` file; loading the step later
  combines the two saves (`C10_counterexample`).
* C11 (side remark) assigning a zero time step raises after the step is stored and before the rewind; the clock law
  is then broken (`C11_zero_step_breaks`).
* C12 `run_backwards` flips the duration without recomputing `num_time_steps` if the time step already has the new sign
  (`C12_counterexample`, `C12_counterexample_setter`); a backward model without a time step gets a positive one and
  stops after step 0 (`C12_auto_step_backward`).
* C14 Shortening a backward run does not rewind, extending it does: the comparison in the `duration` setter is the
  wrong way round for negative durations (`C14_counterexample`, `C14_backward_extend_restarts`).
* C15 (docstring) the split can give many more sub-steps than requested plus one (`C15_docstring_count`).
* C28 Backward runs keep a floor-mod remainder of a negative accumulator, so outputs are dropped unless step and
  interval divide one another (`C28_counterexample`, `C28_counterexample_long`).
* C29 With `output_timestep` None the step-0 decision sticks: `output_zero_step=False` suppresses every later output but
  the last (`C29_nothing_written`).
* C30 Step 0 ignores `output_start_time`; backward runs write before it and never after it; a start time before the
  model start forces an output at step 1 (`C30_counterexample_zero`, `C30_counterexample_backward`,
  `C30_start_before_model`).
* C19 `PointLineRelease.rewind` does not reset the cumulative released volume that `Release.rewind` resets; after a rewind
  a continuous release starts with another bulk volume and spreading area (`C19_counterexample`).
* C20 `split_element` with fractions of the wrong number or sum raises after some arrays have been split
  (`C20_counterexample`); preparing again without a rewind keeps arrays of the old length
  (`C20_prepare_without_rewind`).
* C23 (side remark) fractions that add up to 1 only within 1.001e-5 are accepted and create or lose mass
  (`C23_tolerance` bounds it).
* C24 `SpillContainerPair`: adding a spill twice gives the uncertain container a second copy
  (`C24_counterexample_readd`); replacing a spill after a removal replaces the wrong copy or raises
  (`C24_counterexample_replace`, `C24_replace_raises`).
* C26 `FateDataView` keeps arrays requested earlier and writes them back later, over newer values set through the view
  'all' (`C26_counterexample_stale`); a view that is the container itself and is not written back lets the next request
  shorten the container's arrays (`C26_counterexample_alias`).
* C49 `recalc_density` fills the view of floating elements and writes back the view 'all': the densities are lost unless
  all elements float and have mass (`C49_counterexample`, `C49_density_lost`).
- C33: `check_land_layers` can miss land that `check_land` finds. The line is rasterised anew in the coarser raster, and the coarse path need not pass through every coarse cell that the fine path passes through. Witness: 32 × 32 raster, land only at (16, 15), move (15, 14) → (17, 16), ratio 16 as chosen by the code: the element ends at (17, 16), in water status, having passed over land (`C33_counterexample`).
* C34 A response operation whose active range lies strictly inside of one model step works for `stop - step start` instead
  of `stop - start` (`C34_counterexample`: four times the amount).
* C35 A target of zero (amount 0 or efficiency 0) marks one element (`C35_counterexample`).
* C37 Manual beaching raises IndexError if the active start falls between two steps (`C37_counterexample`).
* C38 A skimmer marks elements again in every active step: it marks with `skim | surface_weather` and looks for `skim`
  alone (`C38_counterexample`, `C38_skim_never_seen`).
* C50 With n weathering sub-steps a skimmer removes n times its amount: the duration is set once per step and used in each
  sub-step (`C50_counterexample`, `C50_substeps_multiply`).
* C51 An invalid efficiency given to the constructor, or assigned while unset, becomes NaN; a dispersion with unset efficiency
  raises TypeError in its first active step (`C51_counterexample`).
* C40 `fromBBArray` of boxes with a null box among them is the null box (`C40_counterexample_null`); an infinite box
  `Overlaps` a null box (`C40_counterexample_inf`).
* C41 Appending an empty polygon to a polygon set with points raises ValueError (`C41_append_empty`: the slice `-0:` is
  the whole array); `==` of sets does not compare how the points are divided into polygons (`C41_counterexample_eq`).
* C42 `Polygon.thin` rounds coordinates × scale; the projections subtract the centre, add half the image and round down.
  So a polygon of several pixels may be thinned away (`C42_counterexample`); points merged by thinning are drawn at most
  one pixel apart (`C42_within_one_pixel`).
* C43 As integer pixels the southern and eastern borders of the bounding box are outside of the image; the docstring of
  `to_pixel` promises the zeroth pixel for the minimum (`C43_counterexample`).
* C52 The image box is computed from integer corners, to which `to_lonlat` adds half a pixel (`C52_shift`,
  `C52_counterexample`).  `RegularGridProjection.set_scale` does not update it (`C52_counterexample_grid`).
* C53 `to_lonlat` of a float array works in place on the caller's array; `RectangularGridProjection.to_pixel` clips the
  caller's positions to the grid (`C53_counterexample_lonlat`, `C53_counterexample_grid`).
* C44 If the time step does not divide the release duration, the elements of the last, incomplete step are never generated
  (`C44_counterexample`).
* C46 `round_time` drops the fraction of the second before rounding (0.9 s, interval 1 s → 0), is not idempotent if the interval
  does not divide the day, and overwrites an array of `datetime64[s]` that it is given (`C46_counterexample_*`).
* C47 RK2 and RK4 take the end of the step from the whole second of the model time and through the machine's time zone: a
  fraction of a second is lost, and in zones with another daylight saving shift than one hour the end of the step is wrong
  (`C47_counterexample_fraction`, `C47_counterexample_zone`).
* C48 `Refs.update` bypasses the check for a second object (`C48_counterexample_update`); `gen_default_name` adds a
  string, a list and a number and always raises (not used anywhere).
* C54 A reference attached automatically is kept when its object leaves the model (`C54_counterexample_stale`).
* C55 The round trip fails in zones with another daylight saving shift than one hour; before 1970 and after 2106 arrays wrap
  around (`C55_counterexample_shift`, `C55_counterexample_array`).
* C57 In a backward run a single output with a start time between two steps is never written
  (`C57_counterexample_backward`).
* C58 If the time step does not divide the duration of a release, the source of a moving release covers as much of the line in
  the last, shorter step as in a whole one; an instantaneous line release whose release time lies before the interval in which it
  is released (run started later, spill switched on later) puts all elements at the end position
  (`C58_counterexample_speed`, `C58_counterexample_late`).
* C59 The callback meant for spills is registered with the movers: adding or removing a spill does not rewind the model, and a
  spill added to a running model is never prepared and silently releases nothing; removing a weatherer or an environment object
  does not rewind either (`C59_counterexample`, `C59_new_spill_silent`).
* C60 Movers, weatherers and environment objects given to the constructor are added before the callbacks are registered and do
  not bring their environment objects along (`C60_counterexample`).
* C61 With a zero refloat half-life, an element released on land is put back to its 'last water position', which was never set:
  longitude/latitude (0, 0), in water even if that is land (`C61_counterexample`).
* C62 The last water position has no depth: an element that beached below the surface refloats at depth 0. An element released
  on land refloats to longitude/latitude (0, 0) (`C62_counterexample_depth`, `C62_counterexample_released`, `C62_depth_lost`).
* C63 Elements that leave the map in a step are weathered in the same step: what they lose is counted as off the map and as
  weathered (`C63_counterexample`; `C63_step` gives the exact excess). `ParamMap` adds the mass that leaves the map three times
  (`C63_counterexample_param`).
* C64 The fate is set from the depth before the move: an element that surfaces is treated as submerged for one more step, one that
  sinks as floating (`C64_counterexample`).
* C65 In a backward run nothing on land ever refloats (`C65_backward`); `HalfLifeWeatherer` raises if the number of half-lives is
  neither one nor the number of components, although its documentation says that it keeps the first ones (`C65_shape`).
* C61 On a `ParamMap` an element that comes onto the land from the side is put to the continuation of the shoreline, possibly
  far behind the place where it came from; a move parallel to the shoreline raises (`C61_counterexample_param`).
* C66 `_in_water_pixel` negates the method `_off_raster` instead of its result: off the raster `in_water` raises IndexError or,
  for negative pixels, answers for the other side of the raster. `on_land` tests a bit, `on_land_points` equality with 1, and
  beaching any value other than 0 (`C66_counterexample`, `C66_counterexample_flags`).
* C67 `ShiftLon360` and `ShiftLon180` assign an array of the wrong length and ignore the ValueError: a map with points on both
  sides is not shifted, and land and map bounds can end in different conventions. `convert_longitude` takes off one turn only
  (`C67_counterexample_mixed`, `C67_counterexample_bounds`, `C67_counterexample_far`).
* C69 `RectangularGridProjection` clips: west and north of the grid points count as in the cell at the edge, east and south as
  water (`C69_counterexample`).
* C71 `_check_timeseries` returns early for lists: times in any order are taken. A two-value list the wrong way round then has no
  value at any time (`C71_counterexample`, `C71_counterexample_unusable`).
* C72 A sample before the data is replaced by the first value only when the *model time* is before the data; otherwise it counts as
  calm with a stale second component. A steady wind of 6 has a three hour average of 1 at its start (`C72_counterexample`). Zero
  past hours divide by zero (`C72_zero_hours`).
* C73 `_convert_units` compares the coordinate system with the enumeration only: for the string `'uv'` the second component is not
  converted (`C73_counterexample`).
* C74 `set_wind_data` keeps the converted rows as the reported series, setting `units` converts nothing; a later change of time zone
  or saving and loading then changes the wind (`C74_counterexample_*`).
* C75 `np.asarray` does not copy, and the conversion is in place: the caller's array is overwritten, and a second wind from it is
  converted twice (`C75_counterexample`, `C75_counterexample_twice`).
* C76 The reported series, or the units, are set before the conversion that may raise (`C76_counterexample`).
* C78 (loaders): `Wind(filename=…)` sets `longitude` from the latitude of the file and `latitude` from its longitude; `Wind.from_file` does not.
* C78 (refused): a first row with a mistake is taken for the line with the time zone (its day of month becomes the offset) and is lost without an error; a missing name gives NameError, reported as a malformed file.
* C79: `_process_supporting_file` keeps the first of two data files of the same name, so the second object loads the data of the first; the json file of an object is not written at all if its own data file has that name (`coast` with `coast.json`); a brace in a name makes `gen_unique_filename` raise.
* C80: `np.allclose(self, other)` is relative to `other`, so `a == b` and `b == a` can differ; a float compared with `None` (a wind with and without longitude) raises TypeError, which is caught for arrays only.
* C81: `process_subnode` empties and fills lists in place; `_attr_changed` then compares the list with itself, so `update` returns False, and a failure leaves the list empty or incomplete. `Model.update_from_dict` works around this for spills only.
* C82 For oil heavier than water the rising velocity in the sedimentation formula is negative, and so is the sedimented mass: oil
  appears (`C82_counterexample_heavy`). With Li2017 one element as heavy as water makes the mass of all elements NaN, and an element
  without area raises (`C82_counterexample_li`). Biodegradation divides by the droplet size of every element as soon as one is not
  zero (`C82_counterexample_bio`).
* C83 Dispersion adds up what the elements give and takes the same fraction of all (`C83_counterexample_dispersion`). Dissolution
  multiplies by `np.prod` of the winds at all elements (`C83_counterexample_dissolution`).
* C85 `frac_lost` is set in evaporation only; dispersion, dissolution and biodegradation come later in a step
  (`C85_counterexample`).
* C87 The maximal area is recomputed in every step from the initial mass and the present density, but the area never shrinks: oil
  whose density rises or that evaporates is thinner than the limit (`C87_counterexample`, `C87_counterexample_density`).
* C89 `1e-5 + 0.9091*(vo - 1e-6)` exceeds 1e-4 just below 1e-4 (`C89_counterexample`).
* C90 `init_area` is documented with the viscosity of water and called with that of the oil (`C90_counterexample`). A continuous
  release that puts out nothing in its first twelve hours (a model that starts later, or few elements) keeps `_previously_released` at
  zero: its oil has zero area for ever (`C90_late`, `C90_never_spreads`).
* C91 `update_area` takes the length of the first phase from `blob_init_vol[0]`, the first floating element
  (`C91_counterexample`).
* C93 0/0 is taken for a tenth (`C93_counterexample_calm`); the wind is the maximum over all floating oil
  (`C93_counterexample_spills`); the volume is the first element's 'bulk_init_volume' and the area that of what floats
  (`C93_counterexample_thickness`).
* C95 `Wind.at` gives the wind at all depths and `WindMover` does not look at the depth (`C95_counterexample`).
* C97 `model_step_is_done` returns early when the mover is not active, so the rows of elements removed then are not removed
  (`C97_counterexample`).
* C98 with a delay the list is empty when the first elements are removed and `np.delete` raises (`C98_counterexample_runs`); the
  delay is counted from the first active step of the mover (`C98_counterexample_delay`).
* C99 for steps shorter than the persistence the range is widened on purpose, without bound: 1 %–4 % with 900 s and a step of 100 s
  gives −2 % to 7 % (`C99_counterexample`).
* C100 below 1 m/s `WindMover` computes `u * diffusion * rand` (C++: `u + diffusion * rand`) and does not multiply by the time step
  (`C100_counterexample_same`, `C100_light_wind_ignores_step`); draws are tested with the deviation at the time of the draw, which
  is 0 at the start (`C100_counterexample_angle`).
* C101 in the first step the numbers come from the unit disc but are scaled as if from the square (`C101_counterexample`).
* C102 an element reflected at the surface is not checked against the mixed layer (`C102_counterexample_layer`); the step is declared
  `unsigned long` in `movers.pxd` for `RandomVertical_c` and `RiseVelocity_c`: OverflowError in backward runs
  (`C102_counterexample_backward`).
* C103 `wind_v[wind_v < min_val] = min_val` with `min_val=0` removes all wind towards west and south
  (`C103_counterexample_wind`).
- **C104** (`DagTreeIO.cpp` 514-692): at a vertex of the grid the triangle reported need not contain the vertex (the last test compares the point with the third vertex of the wrong triangle); a point on the right of a boundary side's line is reported outside at once, so that points inside triangles of concave grids are lost, depending on which sides were picked first. `thirdPoint` is stale at a boundary side, and the test for a triangle near the last one compares `triIndex` with six times a number.
- **C107** (`TimeGridVel_c.cpp` 8782, 8830): `triIndex > 0` leaves the first triangle of a grid with data on cells without a current.
- **C108** (`TriGridVel_c.cpp` 250): the longitude of the second corner is compared with the smallest latitude. In the western hemisphere a cell leaning east gets negative weights. `GetInterpolationValuesFromIndex` (350-408) uses a point it has not set.
- **C110** (`cy_cats_mover.pyx` 198-238): a Shio tide turns the scaling on; removing any tide turns it off and forgets the reference point, also those the user set. Replacing a tide by assignment keeps the reference point of the first tide's station.
- **C111**: `Release._set_timezone_offset` moves `release_time` first and then reads `end_release_time`, which for an instantaneous release is `release_time`, already moved. Towards the east the release goes on for the difference of the zones; towards the west `end_release_time` is before `release_time`, the setter raises, and the beginning has been moved although the zone has not. In `update` the zone comes last in the schema, so that times given together with a new zone are moved too.
- **C112**: `num_per_timestep = None` raises a `TypeError` (`val is not None or val < 0`), after the number was removed. `release_time` is not checked against `end_release_time`.
- **C113**: with units of volume the mass is kept and the amount changes when the substance is changed. `Spill(release=r)` sets the mass of `r` to that of the default amount, 0.
- **C114**: without weights and thicknesses a `PolygonRelease` weighs triangles by shapely's area, degrees squared, and with thicknesses polygons by the area on the Earth. The same thickness everywhere therefore gives a different distribution from none: too many elements far from the equator. Read but not modelled: the setter of `polygons` uses a name that is not defined; `thicknesses = None` and `weights = None` raise `KeyError` unless all polygons have one.
- **C116**: `GridRelease` with a single number as resolution raises `ZeroDivisionError` for a box much taller than wide (`rx` is rounded to 0), and gets no points for one much wider than tall. With one point in a direction it is at the lower bound, not at the centroid. Read but not modelled: `retain_initial_positions` is a `NameError`.
- **C118**: `Wind.set_speed_uncertainty` takes the speed as the mean of a Rayleigh distribution and quantiles at 1/2 plus or minus the scale, that is about the median, which is 0.94 of the mean. With a scale below about 0.044 'up' therefore makes the wind slower. With 0.5, which is accepted, 'up' is the quantile at 1, infinity.
- **C119**: `calculate_contours` with a single cutoff has no contour for what is above it. An element exactly at a cutoff is in two contours. With several, the value of the last cutoff is not used.
- **C120**: `WeibullDistribution` accepts `max_ == min_` although the message says `maximum > minimum`; drawing then does not end. A numpy wind of calm, velocity (0, 0), has direction 180 because of signed zeros (read, not modelled).
- **C121**: between two measured temperatures the coefficient of expansion is the difference of the densities over the colder density, so the density just below a measured temperature differs from the one measured by `(a - b)²/(2a - b)`.
- **C122**: `_visc_A_k` is computed at first use and kept; kvis measurements changed later have no effect.
- **C123**: `GnomeOil.initialize_elements` calls the initializers without the environment, so the density of new elements is at the temperature of the oil's own water, by default 300 K, while their viscosity is at that of the environment's.
- **C126**: the emulsion formula divides by `1.187 - fw/0.84`, which is zero at a water content of 99.7 % and negative above, so that a negative number is raised to 2.49.
- **C127**: `mean_wave_period` uses `U * 0.71 * U**1.23` for the wind stress factor instead of `0.71 * U**1.23`; at 32 m/s the period is over 600 s where the comment in the code says 15.7 s.
- **C128**: the fetch-limited formula is 1.8 % below the unlimited one where they meet.
- **C130**: `density` is always in kg/m³ but `get('density')` converts it from `units['density']`. The setter of `units` takes over what comes before a wrong unit. The docstring of `__init__` says that it takes SI; the values are read in `units`.
- **C131**: the forecast and the uncertain file share one running position, advanced by the number of elements of the last container written. When they differ in number (as when elements leave the map in only one), the forecast file has gaps or overwritten elements and is read at the wrong place. A negative index from `-2n` to `-n-1` returns the time of one step with the elements of the first.
- **C132**: arrays missing in one run are removed from the list and not written by later runs; after a run with 'all', 'standard' still writes all.
- **C133**: loaded records are known by their index in their file only. When times go from one file to another, the record loaded last is kept as the first of the new interval if its index fits, though it is of another file: with files of two records each, a step back over the gap between them is enough, as when RK4 goes on to the next element. With extrapolation, times from after the last record to before the first, as on running a model again, use the last record. On nodes of a curvilinear grid the time weight is recomputed without the time offset, and between files from index -1. After a change of files the times of the new file are read at the old indices, maybe past their end.
- **C134**: RK2 (`TRAPEZOID`) computes the northward move from `v0.v` over half the time step, so elements move half as far north as they should. RK2 and RK4 ignore uncertainty.
- **C135**: `_is_active` is true for steps that begin in a period and whose middle is in it: a step that begins a second before its period is lost.
- **C136**: a burn that goes beyond the end of a step adds to the time of burning what remains, not what has passed.
- **C137**: when a boom is filled more than once in a step, only the last filling is taken from the water.
- **C138**: `Burn` and `Skim` change the view of the floating elements and never write it back: with one element that is not floating, elements keep all their mass while the mass balance reports it removed.
- **C139**: a burn of several may burn more than it boomed (limited only by what all have boomed); oil that was not there is given back to the room of the boom as kilograms added to cubic feet.
- **C142**: the time to fill the storage is computed with barrels: 42 times what fits is taken.
- **C143**: when a period ends while the plane is out, the next period begins with an activity that should have ended long before: negative times, a step longer than it is, and dispersant far above the payload.
- **C144**: `_disp_sprayed_this_timestep` is never set back (the line sets `disp_sprayed_this_timestep`): all earlier steps are added again in each.
- **C145**: the oil treated (kg) is divided by the density before it is taken off the oil available (kg), so the same oil is treated again by each pass.
- **C146**: a plane gets ready only at the exact beginning of a period, or when one begins within a step that is worked in; by C135 such steps are not. A period that does not begin with a step passes with the plane at its base.
- **C147**: the time to the end of the period is computed at the beginning of the step, so a plane loaded within it sets out too late.
- **C148**: the number of passes possible is compared with 0 only; if negative, the plane goes on until it has no dispersant.
- **C149**: in daylight saving time `SecondsToDate` does not take off the hour for times before one in the morning: the date is an hour late; years from 2100 on, and in that hour from 2040 on, get a wrong century.
- **C150**: `RoundDateSeconds` adds the year twice for 31 December 23:59:31 and later in years up to 2019: such a record is put a year late.
- **C151**: the warning for an unknown unit has two places in its format and one argument: `IndexError`.
- **C152**: `VectorVariable.at` converts what its components have converted before: data in cm/s come out a hundred times too small. `constant` of a vector with one unit for all components fails.
- **C154**: `in_units` keeps the name of the old unit beside the new numbers.
- **C155**: `TimeseriesVector` sets the unit of the first component on all of them (also in the caller's objects) without conversion; `extrapolate` is not passed on.
- **C156**: results are remembered by points and time only: another unit, a refusal to extrapolate, or a new setting has no effect on a question asked before.
- **C157**: the direction is the angle from east to which the wind blows, not the direction it comes from; `IceAwareWind` scales it as if it were a component, and sets negative angles to `min_val`.
- **C158**: `SteadyUniformCurrent.at` ignores `units`.
- **C159**: since 2007 daylight saving time should end on the first Sunday of November (day at most 7); the code compares with 14: the days after that Sunday up to the 7th are still in daylight saving time.
- **C160**: a span over New Year loses its last day; years from 2036 on are refused.
- **C162**: the first question to a progressive wave, and to a standing wave before the first or from the last high or low of its table on, is answered with what the caller's variable held, times the scale; a table is computed with the daylight saving time of its first midnight, so that the tide at a time differs by an hour with the table that is there.
- **C163**: a low between two equal samples ends in error 16 (an `else` is missing); error 41 (no room) is put into a variable that is not returned.
- **C165**: behind the last high or low of the days, all samples but the first keep the height of the reference station; that first is corrected as if a low came next.
- **C166**: before the first event the fraction falls instead of growing; for stations of heights the ends of the intervals are wrong, so that slack water is reported as halfway past the maximum and the maximum as halfway to it.
- **C167**: `ReadShioValues` tests the errors of `GetKeyedValue`, which are negative, with `> 0`: missing or misspelt lines are silently 0, and height files without datum lines, which the code means to accept, are refused.
- **C169**: spreading that the user has switched off is switched on if any weatherer needs the area; of two objects that spread the last one added is used, even if the user has switched that one off and the other on.
- **C170**: with `ConstantArea` added before `FayGravityViscous` the first run uses Fay's formula; setting up sorts the weatherers, and the second run uses the constant area.
- **C171**: values are cut to whole numbers (0.9 kg is not above 0.5 kg); `a && b || c` is read as `a && (b || c)`; `!=` finds nothing.
- **C172**: of two outputters of one class only what the last one returned is in the result of a step.
- **C173**: a full run that goes well calls `post_model_run` twice; one whose first step raises does not call it.
- **C174**: without `output_last_step` the last step is written if the one before was; `timedelta.seconds` drops whole days and makes negative steps positive; an outputter used before has its first output behind it.
- **C175**: continuing a run with a longer duration writes steps behind the footer.
- **C176**: with an output interval that is not a multiple of the time step spans leave gaps and overlap.
- **C178**: names that become equal overwrite each other; files outside the only folder of an archive are ignored, even the model itself.
- **C179**: entries are removed from the list that is being iterated: of two removed neighbours one stays.
- **C180**: all spills get the substance of the element type that is found first; without element types the update raises NameError.
- **C181**: with a shared initializer the second removal raises, after the version has been written; other initializers of the object are lost.
- **C182**: a save file of a later version is not refused.
- **C183**: only the ends of the coordinates are written.
- **C184**: the Python reader takes rows as longitudes, the C++ reader as latitudes from the north.
- **C185**: row 0 is taken as the last row.
- **C186**: with any element out of the water assigning to the masked array raises ValueError; `wind_scale` and `drift_angle` are never used, and setting `wind_scale` recurses without end.
- **C188**: a line with a single number is taken as both coordinates; without a comma before it the number of points loses its first digit.
- **C189**: the assignment to the masked array raises ValueError unless all longitudes are on one side, and the error is ignored: a map across the date line is not shifted.
- **C190**: a file without land raises; lines of three or more points are taken as land.
- **C191**: without land the lakes are left out.
- **C193**: tall images far from the equator lack lines in the east, since the number of meridians is taken from pixels; with few lines the largest interval of 40 degrees does not reach over the image.
- **C119**: with a single cutoff the elements above it are in no contour; an element at a cutoff is in two; the last cutoff has no effect.
- **C195**: sunken, beached and evaporated elements count as well.
- **C196**: an update that lacks any name of the schema raises KeyError after the names of the schema have been set.
- **C197**: the file of the forecast is overwritten by that of the uncertain elements, under the same name; without uncertainty every file is an empty collection; `round_data` has no effect.
- **C198**: GeoJSON and weathering output write all steps when they are off; an oil budget is on even if `on=False` is given; binary files and KMZ without `output_zero_step`, and JSON of spills, stop the run when they are off.
- **C199**: if the last step is not written the archive is asked for a file that is not there: the run fails, the files are gone and the archive cannot be read.
- **C200**: without `zip_output` a `.zip` is reported that is not written (the default of the uncertain boundary is on); with uncertainty the bundle has `.shp` files alone; if the stem of the name has a dot all layers are written to the same file.
- **C201**: the table has no columns for dissolution, degradation and cleanup.
- **C194**: `is_clockwise_convex` says that a counter-clockwise polygon is clockwise if its first three vertices are on a line.
- **C202**: on the boundary the Python test and the compiled test differ (the corners of a square); the Python test changes the shape of the caller's array if it is a single point.
- **C203**: a positive time step with a negative duration passes the checks (the second test of the signs repeats the first); a mover with a wind of its own is refused if the environment has none; with a negative time step and duration but without `run_backwards`, spills at the start are reported to be too late; the messages about end positions speak of start positions.
- **C204**: slices with negative bounds or bounds beyond the end differ from those of a list: `coll[-2:]` of three objects has five, `coll[:5]` raises.
- **C205**: a model without a time step takes over the time step and the number of time steps of the other, though its own duration differs.
- **C206**: after a removal `add_env(..., quash=True)` replaces the wrong object or raises KeyError (`index` and `__setitem__` count holes differently).
- **C207**: save files keep 8 significant figures; three mass fractions that sum to one come back with the sum 0.99999999.
- **C208**: with two image formats the second file is `foreground_00001.pngbmp`; with only an animation the name handed back is no file; images of steps from 100000 on are not cleared; `foreground_notes.txt` is removed. (The pattern for the animation has the folder twice, so an old animation in a relative folder stays too.)
- **C209**: with colours by depth uncertain elements look like those of the forecast.
- **C210**: after a mover in Python the following movers in C are asked with a datetime instead of a number (TypeError); a grid of quads gives `num_tri / 2`, a float, to `np.zeros` (TypeError).
- **C211**: with averaged winds the second pattern is scaled with a vector whose components are the average along the first pattern and 0, so it stands still in the wind it is meant for; averaging ignores scaling by wind stress; with `extrapolate` the hours before the data count as calm unless the wind extrapolates too.
- **C212**: asked in a step for another time, the mover answers for the time of the step; if the first of two files cannot be read but the second can, no error is reported and there is no first pattern.
- **C213**: with an output directory every step fails (`output_to_file` does not exist); contours of depth and windage, which the table of units offers, fail with a KeyError at the first element.
- **C214**: the factor for the unit of the thickness also multiplies the coverage, so with thickness in centimetres ice is ignored; with data on nodes the velocity of the ice is looked up among the currents, so ice is ignored too; there is one scale factor for currents and ice.
- **C215**: the movement reported uses the coverage of the earlier record, movement itself that at the time; for winds in ice the velocity of the ice is reported although the wind moves nothing there. `IceMover.get_scaled_velocities` asks for an array of `num_tri / 2` entries, a float, and fails on grids of cells (not modelled).
- **C216**: for the path of a json file `'obj_type' in json` asks the module, a `TypeError`; a file loaded by name may be of any class.
- **C217**: the extension is looked at before unpacking removes characters, so `M.js?on` may have any size and is read as json; names with two full stops that lead nowhere are rejected.
- **C218**: `_set_cache_dir` calls `create_new_dir`, which caches do not have, so no ensemble can be made; `with_traceback()` lacks its argument, so exceptions of models are raised as `TypeError`; with an uncertainty given twice one model is shifted twice and another not at all. Also, not modelled: answers are sent with `send_unicode`, but are bytes.
- **C220**: `get_wind_speed` passes `min_val` to `IceAwareWind.at` as a positional argument, but `at` takes it by keyword only: a `TypeError`, so no weathering by wind with an ice aware wind.
- **C221**: a step adds `k dt exp(-k (age - start) / S_max)`, with the present `k` for all the time since the beginning, as if this wind had always blown: after a long calm a gale adds less water than a breeze.
- **C223**: names of shapefiles are made with `stem`-like cuts at the last dot after a tag was added: with two dots in the file name (`v1.2.zip`) all tags are cut off and each shapefile overwrites the one before; all layers show the last.
- **C224**: `timedelta.seconds` leaves out the days: output once a day gives a step of 0 minutes. Fractions of a minute are cut off. Runs of years use a key with a typo.
- **C225**: the name made from the start of the first run is kept as if the user had given it.
- **C226**: the outputters for the shapefiles are made in the constructor and keep its offset.
- **C227**: styles are compared without their colours: spills that differ in colours only are drawn in the colours of the first. The class before the last has `<=`, the last has `>=`: a value on this bound is in both.
- **C228**: numbers of cutoffs start at 0 for each spill, and classes are by number only: with two styled spills each contour is in classes of both.
- **C229**: `__metaclass__` has no effect in Python 3, so no subclasses are known and by default nothing is made; for a need that is not met an object of the class itself is made in place of one of the class that is needed.
- **C230**: offsets of time (commented out of the schema), numerical methods and averaging of winds are not saved; four constructors set the name to that of the file after the one given; a scale of 0 of a tide is taken for none.
- **C232**: `GetScaledVelocities` of a regular gridded wind divides by ten and leaves out the mover's `wind_scale`; the reported points are spread over the cells' outer bounds rather than the file's points, so that the outer ones have no wind. `add_offset` of a packed file is not read at all.
- **C233**: `list(set(..))` makes the order of the names change with Python's hash seed: which of several sets of variables is taken changes from run to run, and u and v may come from different sets.
- **C234**: `"..{}".format(bytes)` gives `b'..'` in the data URI; `lookup_gradient_color` does not subtract the lower end of the scale.
- **C236**: `DateIsValid` looks at day and month only, and at no month's length; hours and minutes are not checked.
- **C237**: `IsOSSMTimeFile` and `IsHydrologyFile` ask for three lines and look at the fourth; `IsLongWindFile` asks for five and looks at the sixth. The header of real NDBC files (`#YY  MM DD ..`) is not recognised, since the whole line is compared with `#YY`.
- **C238**: `ConvertToDegrees` takes a word as a number only if it begins with a digit, and any other word that is no point of the compass as 0.
- **C239**: `LocalDateTime` strips time zones on saving and on loading.
- **C241**: `Range` lets NaN pass.
- **C242**: `NumpyFixedLen.deserialize` does not call `Tuple.deserialize`, so neither the length nor the parts are checked.
- **C245**: `GetRiseVelocity` takes the square root of a negative number for elements denser than the water from 0.2 mm on.
- **C246**: `a2` is `a1 (d2 - d1) / (2 d1)`, the slope of Stokes' law is `2 a1 (d2 - d1) / d1`.
- **C247**: `PointLineRelease.__init__` drops `num_per_timestep`; `GridRelease.__init__` does not take the keys of its schema; `SubsurfaceRelease` does not save its distribution; `Release.centroid` takes the length of `None` for plumes and releases from a file. `retain_initial_positions` is not saved.
- **C248**: as C247; `SubsurfaceRelease` passes its further arguments to the initializer too, which refuses them.
- **C249**: `load_nesdis` keeps the digits of the time only, so that `1:45` becomes `145`, which `%H%M` reads as 14:05; `0:45` is read as 04:05, `2:15` as 21:05.
- **C250**: the variable `release_time` is overwritten in the loop, so that polygons without a time get that of the last one before.
- **C251**: `release_from_splot_data` does not pass the number of elements, so that there are 1000; a file of one line is an `IndexError`.
- **C252**: `Spill.release_elements` calls `initialize_elements`, which `InitElemsFromFile` and `VerticalPlumeRelease` inherit from `Release`: it raises for want of positions. `set_newparticle_positions` is called by nothing.
- **C253**: `latdeg + latmin / 60` with negative degrees; the longitude of the form with minutes is always west; lines with other than two or four numbers are 0, 0.
- **C254**: `ReadNDBCWind` takes 99 and 999, which stand for missing values, as speed and direction, and words like `MM` as 0; `ReadNCDCWind` sets the minutes to 0 after reading them.
- **C255**: at the maximum flood itself (`fFraction==0 && fOffset==0`) the pattern is taken by the time since the start of the run, as without a tide, and the step fails when that is after the last pattern; when the number of patterns is no multiple of four, the start of a quarter extrapolates (`timeDataInterval++` after `ceil`), with two patterns it fails; a tide that is a series of values ends in a call on a null pointer; `get_scaled_velocities` weighs the patterns with the time of the model instead of the place in the cycle, without scale and tide.
- **C257**: `_setup_spill` sets the windages on the substance object it is handed, so that a second spill made of the same substance changes the windages of the first; a call refused for `windage_persist=0` has already set the range.
- **C259**: `simulate_boat` never ends when a boat is deactivated before the time of the step is used up (no branch for 'deactivated' in the loop), with `cascade_on` (no branch for 'cascade'), and with `onsite_reload_refuel` after the boat has gone back ('refuel_reload' leads to 'onsite' at once, where the time is up and is set back).
- **C260**: time that a boat waits on site outside of periods is not reported; a boat on its way when a period ends reports a negative time when the next begins.
- **C261**: whether a sortie is possible is decided with the time left at the beginning of the step (`tte`), so that a sortie may begin too late; then the remaining time on site is negative and dispersant is taken up.
- **C262**: the mean density of no elements is not a number, and so is the oil treated; `simulate_plane` has a test for that.
- **C264**: `wind_eff_list[int(spd)]` has 37 entries; a wind of 37 m/s or more raises `IndexError`.
- **C265**: `disp_eff` given by the user is stored ('fixed') and never used: `weather_elements` always calls `get_disp_eff`.
- **C267**: `refuel_reload(simul=self.loading_type)` gets the string 'separate', which is true.
- **C269**: `pass_duration` ignores its `units`, `one_way_transit_time` its `unit`; `Disperse` passes `transit` and `pass_length` without converting from its units.
- **C270**: `spray_time_fraction` converts the length to metres and has it converted from nautical miles again.
- **C271**: `num_passes_possible` divides by the duration cut off to whole seconds (and by 0 for passes of less than a second).
- **C272**: `Platform.set` looks for the unit in the name of the kind of quantity (a string) instead of the list of units.
- **C273**: `release_rate` asks for 'swadth_width' and `cascade_time` for 'refuel' (and 'max_rage_with_payload'), attributes that do not exist: both always raise `AttributeError`, so that every plane with `cascade_on` stops the model. The duration of cascading in `Roc/Plane` stands for a repaired `cascade_time`.
- **C274**: `_spills_changed` checks the substances after the collection has changed; the spill that is refused stays in it, and the uncertain copy is not made.
- **C276**: with uncertainty `SpillContainerPair.remove` first deletes the copy at the same place, which does not exist for a refused spill; `rewind` raises the error of the substances again. Only switching uncertainty off helps.
- **C277**: `uncertain` sets `_uncertain` before it makes the copies; when a copy is refused the pair has no `_u_spill_container` and nearly everything raises `AttributeError`.
- C279: `landPolyNum` goes from 1 to 4 with the first land cell inside, which receives 4, and the second receives `landPolyNum`, again 4. Two separate islands can have one number. `CheckSurroundingPoints` always returns 0, since it looks for a number of at least 3 below 0.
- C282: `GetRefCurrent` stores the event after the last at `MaxMinCount+1` after it has incremented `MaxMinCount`, two places after the last event instead of one. After the last event of the period `GetFloodEbbKey` returns 40 and the sample keeps time and speed of the reference curve (`C282_counterexample_every`).
- C283: the slope at slack water is the mean of the two chords; with a next chord more than five times as steep as this one the curve exceeds the maximum (`C283_counterexample_every`).
- C284: `DoOffSetCurrents` tests `flag` where it means the label, so every pair is moved, and only neighbours are marked; with offsets -9, 8, 9, 3 h the events left are out of order (`C284_counterexample`).
- C285: for regular grids nothing tests that no level was found; the index is then before the start of the table (`C285_counterexample_every`).
- C286: levels in metres are multiplied with the depth of the sea for the weights (`C286_counterexample_metres`); parts of the depth listed from the bottom give the bottom's current at the surface (`C286_counterexample_order`).
- C287: weights between levels use the depth of the sea at grid points 0, 1, ... as depths of levels 0, 1, ... (`C287_counterexample_flat`, `C287_counterexample_bathymetry`).
- C288: on triangles the surface path indexes the table by node although it is ordered by node and level (`C288_counterexample_surface`); sigma depths and values are in opposite order (`C288_counterexample_sigma`); a level above the water is given depth + 1 and then chosen as the top (`C288_counterexample_shallow`).
- C289: a burn that starts and ends inside one step (a layer of 3 mm lasts 17 s, one of 5 cm 14 min) works also for the part of the step before its start (`cleanup.py` 52-73): more burns than the layer above 2 mm.
- C290: `save(path, overwrite=False)` refuses a path that does not exist ("already exists"), though the documentation says it is created; an open `ZipFile` is documented and raises TypeError in `os.fspath`.
- C291: the archive is opened with 'w' before anything is known to be writable: when saving fails the earlier save file is lost.
- C292: saving in the middle of a run deletes files `spills_data_arrays.nc` and `spills_data_arrays_uncertain.nc` of the working directory; nothing reads the saved state back (`model.py` 1550 is commented out).
- C293: 60 minutes are not carried to the degrees (`map_canvas.py` 719-721).
- C294: labels with two decimals for lines 0.001, 0.0025 and 0.005 degrees apart.
- C295: points with depths are regrouped by `reshape(-1, 2)`; one polygon as a numpy array and an empty spillable area are IndexErrors (only TypeError is caught).
- C296: `contains_object` asks `hasattr(o, 'contains_object')`, which no object but the model has.
- C297: `add_weathering` stops at an unknown name with the earlier ones added; its documentation offers 'the full list' of `weatherers/__init__.py`, of which only five names are accepted.
- Not a property: `map_from_regular_grid` (`map.py` 1728) uses a name that is not defined (`resolution`) and cannot be called. `RunningAverage.get_value(time)` and `get_timeseries(time)` put a pair of array and error code (`cy_ossm_time.pyx` 241-270) into a structured array and cannot be used with times; C72 is about the series itself.
- C300: polygons are drawn in the order of the file; an island before its lake is lost.
- C302: coordinates of `MultiPolygon` have cells, corners, numbers; GeoJSON has polygons, rings, positions, numbers, and rings are closed.
- C303: `MaskedArray(x, mask=...)` keeps the mask of the data, `compressed()` drops these values too; `get_centers` does not.
- C306: the random generators are those of the process (`rand.seed` seeds the C library, `random` and `numpy.random` globally; `model.py` 413). Two models stepped in turn get different numbers than one run alone (`C306_counterexample`). Also `MakeDagTree.cpp` 265 calls `srand` when a triangular grid is loaded, which sets the generator of a model that is in the middle of a run back.
- C307: uncertain elements draw from the same generators between the draws for the forecast, so with diffusion the forecast with uncertainty on is not the one with it off (`C307_counterexample`).
- A `WindMover` or `CurrentMover` that is off when the run begins and is switched on during it has not been prepared (`model.py` 898-901): with uncertainty on, `model_start_time` is missing (`AttributeError`) or that of an earlier run.
- C308: a run backwards in an oblique current does not come back to the start: the move of a step is projected at the latitude where the step begins (`projections.py` 355-399), which is another one on the way back. The miss is one step of the current times the difference of the lengths of a degree (`C308_miss`).
- C309: `draw_to_image` takes record `index_of(time) - 1`, which is -1, the last record, at and before the first time (`renderer.py` 788-795); after the last time `data[t0 + 1]` raises `IndexError`.
- C310: masked points are drawn at (0, 0), and `start = grid.face_coordinates` is not copied before `start[mask] = [0, 0]` (`renderer.py` 816-822): the grid is damaged.
- C311: movers and weatherers that are off when the run begins are not prepared (`model.py` 899-911): `AttributeError` for `model_start_time`, `KeyError` for the entry of the mass balance when they are switched on later.
- C312: `get_datafile` writes to the final name while reading and compares nothing with `Content-Length` (`remote_data.py` 79-94).
- C313: `GnomeOil` never sets `sara_type` (the lines are commented out, `gnome_oil.py` 294-298), which `Biodegradation` and `Dissolution` read: `AttributeError`. `arctic` is not in the schema.
- C315: backwards, `release_elements` of the first step gets a time span that begins before all later release times, so a spill the clock has not reached is there from the first output on.
- C316: `ParamMap.build` uses degrees of longitude for both axes (`map.py` 522-532), so shores that are not due east or west are too far away outside the equator.
- C317: `(*ptsH)[i].h = 1000000 * x` (`DagTreeIO.cpp` 170-199) cuts off: -131.312167 is read as -131.312166.
- C318: an element on a dry tide flat (status 32) is in no placemark of a file for Google Earth; one below the surface is among the "Floating Splots".
- C319: with the range 0-255 a colour map does not clip or round: 256 has the colour of 0, 254.9 that of 254.
- C320: "MapBounds" is land on images and bounds on the map; polygons marked neither 1 nor 2 are land on images and water on the map; `draw_map_bounds` and `draw_spillable_area` do nothing for map objects; a Renderer of a map without a file raises TypeError, of land given as points KeyError.
- C321: `set_timestamp_attrib(dt_format=…, align=…)`, as documented, has no effect.
- C322: `filename` replaces `data_file` and `grid_file` in `init_from_netCDF`, though it is documented as the source of lowest priority.
- C323: `IceAwareCurrent.from_netCDF(filename=…, ice_file=…)` reads the ice from `filename` (the shared `dataset` goes along); with `data_file` and `grid_file` instead of `filename` it raises KeyError.
- C324: `GridWindMover_c::TextRead` reads a triangular grid as a regular one; `IceMover_c::TextRead` and `IceWindMover_c::TextRead` return no error and no grid for anything but a curvilinear file, and the next call (`extrapolate_in_time`) goes through the null pointer; `IsNetCDFFile` knows only files that begin with "CDF", so netCDF-4 files are refused; a list of files that does not end with an end of line loses the last character of its first name.
- C325: a file of the name in the list that is there from where the program runs is used before the one beside the list; a list in the root directory has an empty directory, which is taken to be the current one. `ConvertPathToCurrentPlatform` has no effect (its argument is a copy).
- C326: `h`, `d`, `min`, `s` are taken as seconds; `MINUTES` is refused, as its T is blanked; a date with the hour alone is refused; time zones are ignored; curvilinear files with dates of 1900 from March on are a day late; triangular files hold times in a `float`.
- C327: with one netCDF file `data_start` and `data_stop` leave `time_offset` out.
- C330: without a mask, cells at rest in the first record are land for the whole run.
- C331: `num_tri / 2` is a float, and `np.zeros` of a float raises a TypeError: `get_scaled_velocities` cannot be called on curvilinear grids. With velocities on nodes the C++ shows the velocity of one corner in the middle of a cell.
- C332: `forecast_filename`, `_u_filename` and `zip_filename` are set in the constructor only. Setting `filename` afterwards makes the outputter delete the file of the new name and write to the old one; setting `zip_output` leaves the reported name without a file.
- C333: with `zip_output` the saved `filename` is that of the archive. The loaded outputter takes it as the name of the netCDF file too; `_zip_output_files` opens it for writing, and removes it: all output is lost.
- C335: the setters of `weights` and `thicknesses` zip the values with the features without comparing lengths; `del feat.properties[...]` raises a KeyError; the setter of `polygons` uses the undefined name `poly`.
- C336: the constructor compares the number of weights with that of polygons, but not the number of thicknesses.
- C337: `ObjType.deserialize` updates an object that is mentioned again by `refs[id_].update_from_dict(cstruct)` without passing `refs`; the objects in the second mention are looked up in a dictionary that has only the new ids, and are made again. After `Model.deserialize(model.serialize())` waves that are mentioned in the environment and in a weatherer have another wind than the movers.
- C339: `RStatCurrentRot` compares `fabs(sFloodDir - argu)` with `fabs(sEbbDir - argu)` for angles from 0 to 360 without taking a turn off: a current 75° from the flood and 90° from the ebb is taken as ebb when east lies between it and the flood. `GetCDirec` checks the range after `FixAngle`, which turns any direction that is out of range into 0 (east), so that error 33 is never given for it.
- C340: `ReadYearData` keeps year data by year alone: a tide with another `yeardata` folder gets the data of the folder that was read first (years 1990 to 2019). `GetTimeValue` starts its curve on the day six hours before, so that the first six hours of the first year for which there are data (from `data_start`) give an error.
- C341: `cy_weatherers.disperse_oil` takes the address of the first element of each array: without elements it is an IndexError, where `disperse_oil_DS` does nothing.
- C343: a compiled mover that is off while elements are removed and others released gives an element the draws of another one, as the Python movers do (C97).
- C344: GridCurrentMover_c, IceMover_c and GridWindMover_c::PrepareForModelStep take the elapsed time without fabs (CurrentMover_c and WindMover_c have it), so that in runs backwards gridded currents lose their uncertainty after the first step and gridded winds never have any.
- C345: uncertain_duration and uncertain_time_delay are documented as seconds in all movers (and given as 3.0 * 3600 to PointWindMover in documentation/source/scripting/movers.rst 36), and taken as hours by the compiled ones.
- C346: CyCurrentMover.__reduce__ gives left before right while the constructor takes right before left; CyComponentMover inherits it, so that its copy is a CyCurrentMover; CyTimeseries.__reduce__ asks hasattr for an attribute that Python cannot see.
- C347: `age` is an array of int32, so that time steps with fractions of a second (allowed as timedelta) are cut in every step.
- C349: Model.__init__ sets make_default_refs = True whatever it is given (model.py 332); weathering_substeps is read only in the schema and is lost by loading; a time step with fractions of a second is cut by loading; _load_spill_data is commented out, so that a model saved in the middle of a run starts anew.
- C350: OSSMTimeValue_c::CalculateRunningAverage takes model time 0 (1 January 1970) for no time given.
- C351: with output_zero_step False and no output_timestep, a run that is continued writes every step after its first end, a run at once none but the last.
- C352: last_water_positions is zero until an element beaches; one that is released on land refloats to (0, 0) wherever the map is (as in C62).
* C354: a wind changed during a run is not noticed by `RunningAverage.prepare_for_model_step` as long as the stored series reaches the time; the series may end before the wind does (`environment/running_average.py:213-224`, `OSSMTimeValue_c.cpp:1454-1457`).
* C355: with a positive refloat half-life the random numbers of `refloat_elements` are shared by all spills in the order of their elements, so a further spill changes the course of the others (`maps/map.py:1127-1146`).
* C262: two sprayings of a boat in a step may treat more oil than there is: `dispersable_oil_amount` divides the kilograms treated by the density (`roc.py:1573-1577`).
* C356: in wind below 1 m/s the uncertainty of the wind movers is not turned off by scales of 0: a diffusion of `sqrt(600 / dt)` is always used (`py_wind_movers.py:400-405`, `WindMover_c.cpp:375-385`).
- C357: `GetRefCurrent` copies the label of the event before when a turning point does not follow slack water of its kind. A first turning point is always labelled by its shape, so a station that begins in an ebb which slackens without turning reports an ebb as a flood, and the next strongest ebb copies this label. `FindFloodEbb` looks for a strict change of sign, so a current that is exactly zero at a minute is not found and the middle of the twenty minutes is reported. A zero at a sample followed by ebb is labelled 1 (`ShioCurrent2.cpp` 828) where 2 is meant. Equal samples call `RStatCurrentRot` for every station and end with error 16 unless it is above the current before.
- C358: `FixHEnds` looks for the first point with `endTime < time` where `FixCEnds` has `endTime <= time`; with a point exactly at the end of the time the next point is moved there, so that the last time of the curve of heights is there twice. The code says that this curve of heights is no longer used.
- C359: the length of a degree of longitude is taken at the start of each step, so in a current that is not along a parallel or a meridian the longitude depends on the time step (`C359_counterexample`), within the bound of `C359_close`.
- C360: `slick_subsurface_mass_xfer_rate` multiplies the winds at all elements (`np.prod(U_10 / 3600)`), so the mass dissolved from a slick gets smaller with every element that the same oil is divided into (`C360_counterexample`).
- C361: the way of an element from one pixel to another and the way back may go over different pixels (`C361_counterexample`: two pixels along, one across), and the check in layers lets an element pass an islet that stops it on the mirrored map (`C361_counterexample_layers`), also on rasters of whole coarse cells when the move begins off the raster (`C361_counterexample_outside`).
- C362: marking takes whole elements: of one element of 10 kg all is marked when 4 kg should be treated, of ten parts four (`C362_counterexample`). The treated amount depends on the number of elements.
- C364: `energy_dissipation_rate(1, 1)` is negative (`C364_counterexample_turbulence`): the roughness exceeds the 10 m at which the wind is measured. `percent_whitecap_coverage(50)` is above 100 (`C364_counterexample_whitecaps`). Neither is used by a weatherer.
- C365: the water content is averaged over elements: one element with three quarters of water and one without give 1.6 mm instead of 2.5 mm (`C365_counterexample`); elements without oil count too (`C365_counterexample_empty`).
- C366: with RK2 (the default) two currents that vary in space do not move an element as their sum does (`C366_counterexample_rk2`).
- C369: `make_particle_package_layer` converts the bounds of a class with the `standard_density` of the first spill of the group, but `spills_match_style` does not compare substances: for another oil of the group, volumes in the legend are wrong (`C369_counterexample`).
- C371: spreading that is off when a run begins, or at the first release, and is switched on later, fails with arithmetic on `None` (`C371_counterexample_late`, `_release`), or uses buoyancy and thickness of the oil of an earlier run (`C371_counterexample_stale`): `prepare_for_model_run` is called only if it is on.
- C372: with several files, values of cells are undefined between two files (`fOverLap` is not looked at, `C372_counterexample_gap`) and not interpolated if the file has one time (`C372_counterexample_single`); outside of the grid an uninitialised velocity is returned (`C372_counterexample_outside`).
