{
 "claims": [
  {
   "property": "C01",
   "status": "proved",
   "theorems": [
    "Verif.OC.C01_refines_ordered_map"
   ],
   "note": "simulation over every history of the operations; replace by position and replace by an already stored object are excluded (C02, C03)"
  },
  {
   "property": "C02",
   "status": "partial",
   "theorems": [
    "Verif.OC.C02_replace_by_position_partial",
    "Verif.OC.C02_not_replaces_position",
    "Verif.OC.C02_counterexample_hole",
    "Verif.OC.C02_counterexample_negative"
   ],
   "note": "false of the code after a removal and for negative positions (witnesses); holds without holes and for non-negative positions"
  },
  {
   "property": "C03",
   "status": "partial",
   "theorems": [
    "Verif.OC.C03_one_entry_partial",
    "Verif.OC.C03_counterexample"
   ],
   "note": "false of the code when the replacement is already stored (witness); holds when it is new"
  },
  {
   "property": "C04",
   "status": "proved",
   "theorems": [
    "Verif.OC.C04_events_match",
    "Verif.OC.C04_replay",
    "Verif.OC.C04_failure_is_silent"
   ],
   "note": "event log equals that of the abstract list along every allowed history"
  },
  {
   "property": "C05",
   "status": "proved",
   "theorems": [
    "Verif.InfDate.C05_total_order",
    "Verif.InfDate.C05_laws",
    "Verif.InfDate.C05_neg",
    "Verif.InfDate.C05_range"
   ],
   "note": "comparison dispatch of Python included"
  },
  {
   "property": "C06",
   "status": "proved",
   "theorems": [
    "Verif.InfDate.C06_range_accepted",
    "Verif.InfDate.C06_mk",
    "Verif.InfDate.C06_active_iff",
    "Verif.InfDate.C06_default_always_active",
    "Verif.InfDate.C06_contiguous",
    "Verif.InfDate.C06_range_invariant",
    "Verif.InfDate.C06_handover"
   ],
   "note": "whole-second time steps, microsecond clock"
  },
  {
   "property": "C07",
   "status": "proved",
   "theorems": [
    "Verif.Cache.C07_load_returns_last_save",
    "Verif.Cache.C07_name_clash"
   ],
   "note": "every history of saves, rewinds and toggles; file round trip of arrays trusted"
  },
  {
   "property": "C08",
   "status": "proved",
   "theorems": [
    "Verif.Cache.C08_filenames_distinct"
   ],
   "note": "all integers"
  },
  {
   "property": "C09",
   "status": "proved",
   "theorems": [
    "Verif.Cache.C09_disabled_only_newest"
   ],
   "note": ""
  },
  {
   "property": "C10",
   "status": "partial",
   "theorems": [
    "Verif.Cache.C10_one_save_partial",
    "Verif.Cache.C10_counterexample"
   ],
   "note": "false when a step is saved again without uncertainty (witness); holds when uncertainty is not dropped"
  },
  {
   "property": "C100",
   "status": "partial",
   "theorems": [
    "Verif.Mover.C100_same_partial",
    "Verif.Mover.C100_counterexample_same",
    "Verif.Mover.C100_light_wind_ignores_step",
    "Verif.Mover.C100_along",
    "Verif.Mover.C100_unbiased",
    "Verif.Mover.C100_none",
    "Verif.Mover.C100_angle_partial",
    "Verif.Mover.C100_angle_grows",
    "Verif.Mover.C100_turn",
    "Verif.Mover.C100_strength_grows",
    "Verif.Mover.C100_counterexample_angle"
   ],
   "note": "Agree from 1 m/s up; in light wind WindMover does not multiply by the step and scales instead of adding; the angle is tested once, with the deviation of that time."
  },
  {
   "property": "C101",
   "status": "partial",
   "theorems": [
    "Verif.Mover.C101_variance_partial",
    "Verif.Mover.C101_mean",
    "Verif.Mover.C101_first_step",
    "Verif.Mover.C101_counterexample",
    "Verif.Mover.C101_steps",
    "Verif.Mover.C101_surface_only",
    "Verif.Mover.C101_bounded"
   ],
   "note": "Holds in every step but the first, whose draws come from the disc."
  },
  {
   "property": "C102",
   "status": "partial",
   "theorems": [
    "Verif.Mover.C102_in_column",
    "Verif.Mover.C102_all",
    "Verif.Mover.C102_below_surface",
    "Verif.Mover.C102_surface_allowed",
    "Verif.Mover.C102_mirrored",
    "Verif.Mover.C102_still_below",
    "Verif.Mover.C102_horizontal",
    "Verif.Mover.C102_layer_partial",
    "Verif.Mover.C102_counterexample_layer",
    "Verif.Mover.C102_forward_partial",
    "Verif.Mover.C102_counterexample_backward"
   ],
   "note": "In the column always; the layer leaks when a step can carry an element by more than its depth; backward runs raise OverflowError."
  },
  {
   "property": "C103",
   "status": "partial",
   "theorems": [
    "Verif.Mover.C103_monotone",
    "Verif.Mover.C103_no_jump",
    "Verif.Mover.C103_current",
    "Verif.Mover.C103_random",
    "Verif.Mover.C103_wind_partial",
    "Verif.Mover.C103_full_ice",
    "Verif.Mover.C103_counterexample_wind",
    "Verif.Mover.C103_wind_never_west"
   ],
   "note": "Current and diffusion in full; IceAwareWind puts its floor under each component of the wind."
  },
  {
   "property": "C104",
   "status": "partial",
   "theorems": [
    "Verif.Dag.C104_true_partial",
    "Verif.Dag.C104_right_or_lost",
    "Verif.Dag.C104_outside",
    "Verif.Dag.C104_found_partial",
    "Verif.Dag.C104_counterexample_vertex",
    "Verif.Dag.C104_counterexample_lost"
   ],
   "note": "Away from vertices a triangle reported contains the point; a point in a triangle is found when no boundary line of the grid cuts the triangle; vertices can be put in a wrong triangle and points in bays are lost."
  },
  {
   "property": "C105",
   "status": "proved",
   "theorems": [
    "Verif.Dag.C105_builds",
    "Verif.Dag.C105_ends",
    "Verif.Dag.C105_whole",
    "Verif.Dag.C105_forward"
   ],
   "note": "In full."
  },
  {
   "property": "C106",
   "status": "proved",
   "theorems": [
    "Verif.Dag.C106_linear",
    "Verif.Dag.C106_unique",
    "Verif.Dag.C106_vertex",
    "Verif.Dag.C106_between",
    "Verif.Dag.C106_continuous"
   ],
   "note": "In full, over exact numbers."
  },
  {
   "property": "C107",
   "status": "partial",
   "theorems": [
    "Verif.Dag.C107_cell_partial",
    "Verif.Dag.C107_node_partial",
    "Verif.Dag.C107_outside",
    "Verif.Dag.C107_depth_partial",
    "Verif.Dag.C107_counterexample_first",
    "Verif.Dag.C107_counterexample_vertex"
   ],
   "note": "With data on cells the first triangle never has a current; at a vertex the wrong triangle may be used."
  },
  {
   "property": "C108",
   "status": "partial",
   "theorems": [
    "Verif.Dag.C108_sum",
    "Verif.Dag.C108_range_partial",
    "Verif.Dag.C108_rectangle",
    "Verif.Dag.C108_corners",
    "Verif.Dag.C108_cell",
    "Verif.Dag.C108_counterexample"
   ],
   "note": "The sum and rectangles in full; a cell leaning one way gets negative weights because a latitude is compared with a longitude."
  },
  {
   "property": "C109",
   "status": "proved",
   "theorems": [
    "Verif.Cats.C109_unscaled",
    "Verif.Cats.C109_at_ref",
    "Verif.Cats.C109_scaled",
    "Verif.Cats.C109_hydrology",
    "Verif.Cats.C109_refuses",
    "Verif.Cats.C109_still",
    "Verif.Cats.C109_moves",
    "Verif.Cats.C109_shown",
    "Verif.Cats.C109_switched_off"
   ],
   "note": "In full for forecast elements; the pattern is any function."
  },
  {
   "property": "C11",
   "status": "proved",
   "theorems": [
    "Verif.Clock.C11_clock",
    "Verif.Clock.C11_zero_step_breaks"
   ],
   "note": "every history incl. failing steps; time steps non-zero (a zero step is shown to break the law)"
  },
  {
   "property": "C110",
   "status": "partial",
   "theorems": [
    "Verif.Cats.C110_undo_partial",
    "Verif.Cats.C110_replace_partial",
    "Verif.Cats.C110_set",
    "Verif.Cats.C110_counterexample_undo",
    "Verif.Cats.C110_counterexample_replace"
   ],
   "note": "Holds for movers without scaling and reference point, with the old tide removed first."
  },
  {
   "property": "C111",
   "status": "partial",
   "theorems": [
    "Verif.SpillSet.C111_partial",
    "Verif.SpillSet.C111_back",
    "Verif.SpillSet.C111_no_zone",
    "Verif.SpillSet.C111_update_partial",
    "Verif.SpillSet.C111_counterexample_lasts",
    "Verif.SpillSet.C111_counterexample_refused",
    "Verif.SpillSet.C111_counterexample_update"
   ],
   "note": "Holds for releases whose end has been given; an instantaneous release gets an end an offset later than its beginning, or is refused half moved. Updates that change times and zone move the times given."
  },
  {
   "property": "C112",
   "status": "partial",
   "theorems": [
    "Verif.SpillSet.C112_count_partial",
    "Verif.SpillSet.C112_times_partial",
    "Verif.SpillSet.C112_new",
    "Verif.SpillSet.C112_refuses",
    "Verif.SpillSet.C112_counterexample_count",
    "Verif.SpillSet.C112_counterexample_times",
    "Verif.SpillSet.C112_start"
   ],
   "note": "The constructor in full; assigning None to the number in each step leaves none, and the beginning can be moved behind the end."
  },
  {
   "property": "C113",
   "status": "partial",
   "theorems": [
    "Verif.SpillSet.C113_set",
    "Verif.SpillSet.C113_same",
    "Verif.SpillSet.C113_units",
    "Verif.SpillSet.C113_uncertainty",
    "Verif.SpillSet.C113_substance_partial",
    "Verif.SpillSet.C113_release_partial",
    "Verif.SpillSet.C113_counterexample_substance",
    "Verif.SpillSet.C113_counterexample_release"
   ],
   "note": "Assignment, units and uncertainty in full; with units of volume another substance changes the amount, and a spill made of a release without an amount loses the mass of the release."
  },
  {
   "property": "C114",
   "status": "partial",
   "theorems": [
    "Verif.Place.C114_inside",
    "Verif.Place.C114_uniform",
    "Verif.Place.C114_area",
    "Verif.Place.C114_by_area",
    "Verif.Place.C114_by_weight",
    "Verif.Place.C114_by_thickness",
    "Verif.Place.C114_volumes",
    "Verif.Place.C114_refused",
    "Verif.Place.C114_place",
    "Verif.Place.C114_counterexample_even"
   ],
   "note": "All in full for polygons given as non-degenerate triangles, except that an even thickness differs from none: areas are in degrees without thicknesses and on the Earth with them."
  },
  {
   "property": "C115",
   "status": "proved",
   "theorems": [
    "Verif.Place.C115_all",
    "Verif.Place.C115_share",
    "Verif.Place.C115_even",
    "Verif.Place.C115_none"
   ],
   "note": "In full."
  },
  {
   "property": "C116",
   "status": "partial",
   "theorems": [
    "Verif.Place.C116_points",
    "Verif.Place.C116_within",
    "Verif.Place.C116_corners",
    "Verif.Place.C116_distinct",
    "Verif.Place.C116_init",
    "Verif.Place.C116_mean_partial",
    "Verif.Place.C116_resolution_partial",
    "Verif.Place.C116_counterexample_mean",
    "Verif.Place.C116_counterexample_resolution"
   ],
   "note": "The grid in full; its mean is the centroid with two points or more each way; a single number fails for boxes far from square."
  },
  {
   "property": "C117",
   "status": "proved",
   "theorems": [
    "Verif.Convert.C117_range",
    "Verif.Convert.C117_there_and_back",
    "Verif.Convert.C117_lists",
    "Verif.Convert.C117_back_and_there",
    "Verif.Convert.C117_refused",
    "Verif.Convert.C117_currents",
    "Verif.Convert.C117_compass"
   ],
   "note": "In full over the reals; the way back from speed and direction without the rounding."
  },
  {
   "property": "C118",
   "status": "partial",
   "theorems": [
    "Verif.Convert.C118_quantile_cdf",
    "Verif.Convert.C118_cdf_quantile",
    "Verif.Convert.C118_density",
    "Verif.Convert.C118_from_zero",
    "Verif.Convert.C118_below_one",
    "Verif.Convert.C118_refused",
    "Verif.Convert.C118_factor",
    "Verif.Convert.C118_order",
    "Verif.Convert.C118_faster_partial",
    "Verif.Convert.C118_counterexample_slower",
    "Verif.Convert.C118_counterexample_infinite"
   ],
   "note": "The distribution in full; uncertainty upwards makes the wind slower for scales below 0.044, because the quantiles are about the median, and infinite for 0.5."
  },
  {
   "property": "C119",
   "status": "partial",
   "theorems": [
    "Verif.Convert.C119_covered_partial",
    "Verif.Convert.C119_once_partial",
    "Verif.Convert.C119_members",
    "Verif.Convert.C119_counterexample_above",
    "Verif.Convert.C119_counterexample_twice",
    "Verif.Hull.C119_partial",
    "Verif.Hull.C119_twice",
    "Verif.Hull.C119_last",
    "Verif.Hull.C119_contours",
    "Verif.Hull.C119_counterexample"
   ],
   "note": "Holds with two cutoffs or more for elements that are not at a cutoff."
  },
  {
   "property": "C12",
   "status": "partial",
   "theorems": [
    "Verif.Clock.C12_num_time_steps_partial",
    "Verif.Clock.C12_counterexample",
    "Verif.Clock.C12_counterexample_setter",
    "Verif.Clock.C12_auto_step_backward"
   ],
   "note": "false of the code when the sign of the time step contradicts the direction at the moment run_backwards is set (witness); holds for all histories with consistent signs"
  },
  {
   "property": "C120",
   "status": "partial",
   "theorems": [
    "Verif.Convert.C120_bounds",
    "Verif.Convert.C120_found",
    "Verif.Convert.C120_fraction",
    "Verif.Convert.C120_chance_partial",
    "Verif.Convert.C120_counterexample"
   ],
   "note": "Bounds in full; equal bounds are accepted and leave no chance."
  },
  {
   "property": "C121",
   "status": "partial",
   "theorems": [
    "Verif.Oil.C121_density_partial",
    "Verif.Oil.C121_between",
    "Verif.Oil.C121_measured",
    "Verif.Oil.C121_antitone",
    "Verif.Oil.C121_solid",
    "Verif.Oil.C121_order",
    "Verif.Oil.C121_weathered",
    "Verif.Oil.C121_array",
    "Verif.Oil.C121_jump",
    "Verif.Oil.C121_counterexample"
   ],
   "note": "All in full except continuity: the density jumps just below each measured temperature."
  },
  {
   "property": "C122",
   "status": "partial",
   "theorems": [
    "Verif.Oil.C122_viscosity_partial",
    "Verif.Oil.C122_one",
    "Verif.Oil.C122_two",
    "Verif.Oil.C122_curve",
    "Verif.Oil.C122_positive",
    "Verif.Oil.C122_falls",
    "Verif.Oil.C122_unique",
    "Verif.Oil.C122_stable",
    "Verif.Oil.C122_counterexample"
   ],
   "note": "All in full for a new oil; once a viscosity has been asked for, new measurements are ignored."
  },
  {
   "property": "C123",
   "status": "partial",
   "theorems": [
    "Verif.Oil.C123_new_partial",
    "Verif.Oil.C123_same_water",
    "Verif.Oil.C123_but_density",
    "Verif.Oil.C123_counterexample"
   ],
   "note": "Everything but the density; the density is at the temperature of the oil's own water, or 300 K."
  },
  {
   "property": "C124",
   "status": "proved",
   "theorems": [
    "Verif.Oil.C124_cap",
    "Verif.Oil.C124_fresh",
    "Verif.Oil.C124_range",
    "Verif.Oil.C124_light",
    "Verif.Oil.C124_water",
    "Verif.Oil.C124_oil",
    "Verif.Oil.C124_padding"
   ],
   "note": "In full for one element (C49 has the writing back)."
  },
  {
   "property": "C125",
   "status": "proved",
   "theorems": [
    "Verif.Oil.C125_average",
    "Verif.Oil.C125_no_mass",
    "Verif.Oil.C125_floating",
    "Verif.Oil.C125_released",
    "Verif.Oil.C125_monotone",
    "Verif.Oil.C125_nonweathering"
   ],
   "note": "In full."
  },
  {
   "property": "C126",
   "status": "partial",
   "theorems": [
    "Verif.Oil.C126_partial",
    "Verif.Oil.C126_thickens",
    "Verif.Oil.C126_bounds",
    "Verif.Oil.C126_fresh",
    "Verif.Oil.C126_dry",
    "Verif.Oil.C126_rate",
    "Verif.Oil.C126_emulsion",
    "Verif.Oil.C126_counterexample"
   ],
   "note": "For water contents up to 99 %; above 99.7 % there is none."
  },
  {
   "property": "C127",
   "status": "partial",
   "theorems": [
    "Verif.Waves.C127_pseudo",
    "Verif.Waves.C127_height_partial",
    "Verif.Waves.C127_given",
    "Verif.Waves.C127_period",
    "Verif.Waves.C127_comment",
    "Verif.Waves.C127_energy",
    "Verif.Waves.C127_counterexample"
   ],
   "note": "Height and whitecaps agree; the period does not."
  },
  {
   "property": "C128",
   "status": "partial",
   "theorems": [
    "Verif.Waves.C128_range",
    "Verif.Waves.C128_wind",
    "Verif.Waves.C128_fetch",
    "Verif.Waves.C128_wind_partial",
    "Verif.Waves.C128_counterexample"
   ],
   "note": "In full for unlimited fetch and for changes of fetch; with a given fetch more wind can lower the waves, by 2 % at most."
  },
  {
   "property": "C129",
   "status": "proved",
   "theorems": [
    "Verif.Waves.C129_decay",
    "Verif.Waves.C129_range",
    "Verif.Waves.C129_wind",
    "Verif.Waves.C129_salt",
    "Verif.Waves.C129_no_jump",
    "Verif.Waves.C129_emulsification"
   ],
   "note": "In full."
  },
  {
   "property": "C13",
   "status": "proved",
   "theorems": [
    "Verif.Clock.C13_full_run"
   ],
   "note": "all steps succeed; step 0 is always produced"
  },
  {
   "property": "C130",
   "status": "partial",
   "theorems": [
    "Verif.Water.C130_get_partial",
    "Verif.Water.C130_get_refused",
    "Verif.Water.C130_density",
    "Verif.Water.C130_set",
    "Verif.Water.C130_set_refused",
    "Verif.Water.C130_units_valid",
    "Verif.Water.C130_new_valid",
    "Verif.Water.C130_units",
    "Verif.Water.C130_refused_partial",
    "Verif.Water.C130_at",
    "Verif.Water.C130_counterexample",
    "Verif.Water.C130_counterexample_refused"
   ],
   "note": "In full but for the density with a unit of its own, and for dicts of units with a wrong one that is not the first."
  },
  {
   "property": "C131",
   "status": "partial",
   "theorems": [
    "Verif.NcOut.C131_forecast",
    "Verif.NcOut.C131_uncertain",
    "Verif.NcOut.C131_partial",
    "Verif.NcOut.C131_counterexample",
    "Verif.NcOut.C131_from_end",
    "Verif.NcOut.C131_nothing",
    "Verif.NcOut.C131_time",
    "Verif.NcOut.C131_its_time",
    "Verif.NcOut.C131_beyond",
    "Verif.NcOut.C131_before_partial",
    "Verif.NcOut.C131_counterexample_before",
    "Verif.NcOut.C131_balance"
   ],
   "note": "In full without uncertainty and for the uncertain file; the forecast file of a run with uncertainty if both containers always have the same number of elements; indices below the first are refused but for some."
  },
  {
   "property": "C132",
   "status": "partial",
   "theorems": [
    "Verif.NcOut.C132_first",
    "Verif.NcOut.C132_all_partial",
    "Verif.NcOut.C132_there",
    "Verif.NcOut.C132_positions",
    "Verif.NcOut.C132_counterexample_lost",
    "Verif.NcOut.C132_counterexample_kept"
   ],
   "note": "In full for the first run; later runs write what is there and was there at all runs before."
  },
  {
   "property": "C133",
   "status": "partial",
   "theorems": [
    "Verif.TGrid.C133_partial",
    "Verif.TGrid.C133_one_file",
    "Verif.TGrid.value_unique",
    "Verif.TGrid.C133_counterexample",
    "Verif.TGrid.C133_counterexample_ends",
    "Verif.TGrid.C133_nodes_partial",
    "Verif.TGrid.C133_counterexample_nodes",
    "Verif.TGrid.C133_counterexample_nodes_gap"
   ],
   "note": "In full for one file without extrapolation; with it, unless times jump over all records; for lists of files, if successive times are at most one record apart, and all files have three records if times go backwards. On nodes without time offset and not between files."
  },
  {
   "property": "C134",
   "status": "partial",
   "theorems": [
    "Verif.TGrid.C134_partial",
    "Verif.TGrid.C134_rk2_north",
    "Verif.TGrid.C134_rk4_linear",
    "Verif.TGrid.C134_rk4_order",
    "Verif.TGrid.C134_uncertain_partial",
    "Verif.TGrid.C134_not_uncertain",
    "Verif.TGrid.C134_counterexample",
    "Verif.TGrid.C134_counterexample_uncertain"
   ],
   "note": "Euler and RK4 without uncertainty in full; RK2 moves half as far north as it should; uncertainty only with Euler."
  },
  {
   "property": "C135",
   "status": "partial",
   "theorems": [
    "Verif.Roc.C135_index",
    "Verif.Roc.C135_index_none",
    "Verif.Roc.C135_next",
    "Verif.Roc.C135_time",
    "Verif.Roc.C135_partial",
    "Verif.Roc.C135_counterexample"
   ],
   "note": "Finding periods and the next boundary in full; steps that begin before their period are not worked in."
  },
  {
   "property": "C136",
   "status": "partial",
   "theorems": [
    "Verif.Roc.Burn.C136_time",
    "Verif.Roc.Burn.C136_ends",
    "Verif.Roc.Burn.C136_partial",
    "Verif.Roc.Burn.C136_counterexample"
   ],
   "note": "Times of activities and the end of steps in full; the time of burning reported if a step does not end within a burn. The giving back of room when the oil runs out is not part of the histories."
  },
  {
   "property": "C137",
   "status": "partial",
   "theorems": [
    "Verif.Roc.Burn.C137_capacity",
    "Verif.Roc.Burn.C137_partial",
    "Verif.Roc.Burn.C137_counterexample"
   ],
   "note": "The room in full; what is taken from the water for steps of up to an hour."
  },
  {
   "property": "C138",
   "status": "partial",
   "theorems": [
    "Verif.Roc.Removal.C138_partial",
    "Verif.Roc.Removal.C138_lost",
    "Verif.Roc.Removal.C138_counterexample"
   ],
   "note": "Holds if all elements are floating and have mass; fails whenever one is not."
  },
  {
   "property": "C139",
   "status": "partial",
   "theorems": [
    "Verif.Roc.Removal.C139_amount",
    "Verif.Roc.Removal.C139_share",
    "Verif.Roc.Removal.C139_balance",
    "Verif.Roc.Removal.C139_partial",
    "Verif.Roc.Removal.C139_counterexample",
    "Verif.Roc.Removal.C139_counterexample_room",
    "Verif.Roc.Removal.C139_room"
   ],
   "note": "In full but that each of several burns burns no more than it boomed, and for the room given back."
  },
  {
   "property": "C14",
   "status": "partial",
   "theorems": [
    "Verif.Clock.C14_setters_restart_partial",
    "Verif.Clock.C14_counterexample",
    "Verif.Clock.C14_backward_extend_restarts"
   ],
   "note": "false for the duration of backward runs (witness); everything else holds"
  },
  {
   "property": "C140",
   "status": "proved",
   "theorems": [
    "Verif.Roc.Skim.C140_rates",
    "Verif.Roc.Skim.C140_some"
   ],
   "note": ""
  },
  {
   "property": "C141",
   "status": "proved",
   "theorems": [
    "Verif.Roc.Skim.C141_time",
    "Verif.Roc.Skim.C141_ends",
    "Verif.Roc.Skim.C141_room",
    "Verif.Roc.Skim.C141_amounts",
    "Verif.Roc.Skim.C141_ashore"
   ],
   "note": ", Verif.Roc.Skim.C141_goes_on"
  },
  {
   "property": "C142",
   "status": "partial",
   "theorems": [
    "Verif.Roc.Skim.C142_partial",
    "Verif.Roc.Skim.C142_overfull",
    "Verif.Roc.Skim.C142_counterexample"
   ],
   "note": "Holds for steps in which the storage does not get full."
  },
  {
   "property": "C143",
   "status": "partial",
   "theorems": [
    "Verif.Roc.Plane.C143_partial",
    "Verif.Roc.Plane.C143_pump",
    "Verif.Roc.Plane.C143_counterexample",
    "Verif.Roc.Plane.C143_overfull"
   ],
   "note": "In full for histories in which pauses find the plane at its base."
  },
  {
   "property": "C144",
   "status": "partial",
   "theorems": [
    "Verif.Roc.Plane.C144_partial",
    "Verif.Roc.Plane.C144_counterexample"
   ],
   "note": "Right as long as only one step has treated oil."
  },
  {
   "property": "C145",
   "status": "partial",
   "theorems": [
    "Verif.Roc.Plane.C145_partial",
    "Verif.Roc.Plane.C145_counterexample"
   ],
   "note": "Holds for each spraying, and so for the first of a step."
  },
  {
   "property": "C146",
   "status": "partial",
   "theorems": [
    "Verif.Roc.Plane.C146_partial",
    "Verif.Roc.Plane.C146_missed",
    "Verif.Roc.Plane.C146_ready",
    "Verif.Roc.Plane.C146_counterexample"
   ],
   "note": "Holds for periods that begin with a step, of steps not longer than the flight; in others the plane never sets out."
  },
  {
   "property": "C147",
   "status": "partial",
   "theorems": [
    "Verif.Roc.Plane.C147_partial",
    "Verif.Roc.Plane.C147_counterexample"
   ],
   "note": "Holds for planes that are ready at the beginning of a step."
  },
  {
   "property": "C148",
   "status": "partial",
   "theorems": [
    "Verif.Roc.Plane.C148_partial",
    "Verif.Roc.Plane.C148_no_oil",
    "Verif.Roc.Plane.C148_counterexample"
   ],
   "note": "Holds after passes that end before the plane has to go back."
  },
  {
   "property": "C149",
   "status": "partial",
   "theorems": [
    "Verif.Dates.C149_two_digits",
    "Verif.Dates.C149_partial",
    "Verif.Dates.C149_counterexample",
    "Verif.Dates.C149_counterexample_dst",
    "Verif.Dates.C149_counterexample_2100",
    "Verif.Dates.C149_counterexample_2040"
   ],
   "note": "Holds from 1970 to 2099 outside of the first hour of days in daylight saving time."
  },
  {
   "property": "C15",
   "status": "proved",
   "theorems": [
    "Verif.Clock.C15_substeps_tile",
    "Verif.Clock.C15_too_many",
    "Verif.Clock.C15_docstring_count"
   ],
   "note": "whole-second steps"
  },
  {
   "property": "C150",
   "status": "partial",
   "theorems": [
    "Verif.Dates.C150_partial",
    "Verif.Dates.C150_counterexample",
    "Verif.Dates.C150_counterexample_year",
    "Verif.Dates.C150_counterexample_dst",
    "Verif.Dates.C150_counterexample_order"
   ],
   "note": "Holds for times that are not in the last half minute of a year up to 2019, nor in the hours of C149."
  },
  {
   "property": "C151",
   "status": "partial",
   "theorems": [
    "Verif.Fields.C151_partial",
    "Verif.Fields.C151_no_unit",
    "Verif.Fields.C151_counterexample",
    "Verif.Fields.C151_counterexample_unknown"
   ],
   "note": "An unknown unit that is asked for raises an IndexError instead of a warning."
  },
  {
   "property": "C152",
   "status": "partial",
   "theorems": [
    "Verif.Fields.C152_partial",
    "Verif.Fields.C152_twice",
    "Verif.Fields.C152_counterexample",
    "Verif.Fields.C152_counterexample_speed",
    "Verif.Fields.C152_constant",
    "Verif.Fields.C152_constant_counterexample"
   ],
   "note": "Right when stored in the unit asked for; otherwise converted twice."
  },
  {
   "property": "C153",
   "status": "proved",
   "theorems": [
    "Verif.Fields.C153",
    "Verif.Fields.C153_lengths",
    "Verif.Fields.C153_units",
    "Verif.Fields.C153_made",
    "Verif.Fields.C153_single"
   ],
   "note": ""
  },
  {
   "property": "C154",
   "status": "partial",
   "theorems": [
    "Verif.Fields.C154_partial",
    "Verif.Fields.C154_same_unit",
    "Verif.Fields.C154_counterexample",
    "Verif.Fields.C154_counterexample_kelvin"
   ],
   "note": "The numbers are right, the copy keeps the old unit's name."
  },
  {
   "property": "C155",
   "status": "partial",
   "theorems": [
    "Verif.Fields.C155_partial",
    "Verif.Fields.C155_counterexample",
    "Verif.Fields.C155_counterexample_units",
    "Verif.Fields.C155_counterexample_extrapolate"
   ],
   "note": "Holds for components in the unit of the vector, without a request to extrapolate."
  },
  {
   "property": "C156",
   "status": "partial",
   "theorems": [
    "Verif.Fields.C156_partial",
    "Verif.Fields.C156_unremembered",
    "Verif.Fields.C156_counterexample",
    "Verif.Fields.C156_counterexample_units",
    "Verif.Fields.C156_counterexample_extrapolate",
    "Verif.Fields.C156_counterexample_set"
   ],
   "note": "Holds while no setting changes and equal points and times are asked about in the same way; and always for questions that do not use the table."
  },
  {
   "property": "C157",
   "status": "partial",
   "theorems": [
    "Verif.Fields.C157_partial",
    "Verif.Fields.C157_no_ice",
    "Verif.Fields.C157_counterexample",
    "Verif.Fields.C157_counterexample_west",
    "Verif.Fields.C157_counterexample_ice",
    "Verif.Fields.C157_counterexample_south"
   ],
   "note": "The speed is right; the direction is the mathematical angle."
  },
  {
   "property": "C158",
   "status": "partial",
   "theorems": [
    "Verif.Fields.C158_partial",
    "Verif.Fields.C158_speed",
    "Verif.Fields.C158_counterexample",
    "Verif.Fields.C158_counterexample_units"
   ],
   "note": "All but the unit, which is ignored."
  },
  {
   "property": "C159",
   "status": "partial",
   "theorems": [
    "Verif.Shio.C159_partial",
    "Verif.Shio.C159_wrong",
    "Verif.Shio.C159_counterexample",
    "Verif.Shio.C159_counterexample_november",
    "Verif.Shio.sunday_calendar"
   ],
   "note": "Holds outside of the first week of November after its first Sunday, since 2007."
  },
  {
   "property": "C16",
   "status": "proved",
   "theorems": [
    "Verif.Release.C16_release_count",
    "Verif.Release.C16_total",
    "Verif.Release.C16_batches"
   ],
   "note": "exact arithmetic instead of floats; third-party searchsorted/interp modelled from documentation"
  },
  {
   "property": "C160",
   "status": "partial",
   "theorems": [
    "Verif.Shio.C160_partial",
    "Verif.Shio.C160_counterexample",
    "Verif.Shio.C160_counterexample_newyear",
    "Verif.Shio.C160_counterexample_2036"
   ],
   "note": "Within a year, and to the year after without its last day; up to 2035."
  },
  {
   "property": "C161",
   "status": "proved",
   "theorems": [
    "Verif.Shio.C161",
    "Verif.Shio.C161_sign",
    "Verif.Shio.smooth_ends",
    "Verif.Shio.smooth_deriv"
   ],
   "note": ""
  },
  {
   "property": "C162",
   "status": "partial",
   "theorems": [
    "Verif.Shio.C162_partial",
    "Verif.Shio.C162_height",
    "Verif.Shio.C162_counterexample",
    "Verif.Shio.C162_counterexample_height",
    "Verif.Shio.C162_counterexample_progressive",
    "Verif.Shio.C162_counterexample_dst"
   ],
   "note": "Holds for current stations whose tables agree (no switch of daylight saving time between them) and for standing waves from the first to before the last extreme; never for progressive waves."
  },
  {
   "property": "C163",
   "status": "partial",
   "theorems": [
    "Verif.Shio.C163_partial",
    "Verif.Shio.C163_reported",
    "Verif.Shio.C163_counterexample",
    "Verif.Shio.C163_counterexample_low",
    "Verif.Shio.C163_counterexample_full"
   ],
   "note": "Holds while no two successive heights are equal and there is room for all highs and lows."
  },
  {
   "property": "C164",
   "status": "proved",
   "theorems": [
    "Verif.Shio.Offset.C164",
    "Verif.Shio.Offset.C164_at",
    "Verif.Shio.Offset.C164_order",
    "Verif.Shio.Offset.C164_peaks"
   ],
   "note": "For highs and lows in turn and in order (C163)."
  },
  {
   "property": "C165",
   "status": "partial",
   "theorems": [
    "Verif.Shio.Offset.C165_partial",
    "Verif.Shio.Offset.C165_counterexample",
    "Verif.Shio.Offset.C165_counterexample_end",
    "Verif.Shio.Offset.C165_counterexample_first"
   ],
   "note": "Holds up to the last high or low."
  },
  {
   "property": "C166",
   "status": "partial",
   "theorems": [
    "Verif.Shio.Cycle.C166_partial",
    "Verif.Shio.Cycle.C166_before",
    "Verif.Shio.Cycle.C166_height",
    "Verif.Shio.Cycle.C166_counterexample",
    "Verif.Shio.Cycle.C166_counterexample_backwards",
    "Verif.Shio.Cycle.C166_counterexample_height",
    "Verif.Shio.Cycle.C166_counterexample_slack"
   ],
   "note": "Holds for current stations from the first to the last event."
  },
  {
   "property": "C167",
   "status": "partial",
   "theorems": [
    "Verif.Shio.File.C167_partial",
    "Verif.Shio.File.C167_headers",
    "Verif.Shio.File.C167_ignored",
    "Verif.Shio.File.C167_counterexample",
    "Verif.Shio.File.C167_counterexample_short",
    "Verif.Shio.File.C167_counterexample_typo"
   ],
   "note": "Complete files with datum lines are read; section headers are checked."
  },
  {
   "property": "C168",
   "status": "proved",
   "theorems": [
    "Verif.Run.C168",
    "Verif.Run.C168_others"
   ],
   "note": "Ids of objects are distinct; those of the objects made are new."
  },
  {
   "property": "C169",
   "status": "partial",
   "theorems": [
    "Verif.Run.C169_partial",
    "Verif.Run.C169_counterexample",
    "Verif.Run.C169_counterexample_two"
   ],
   "note": "All but the objects that spread and for Langmuir cells; of those only the last is on if the area is needed."
  },
  {
   "property": "C17",
   "status": "proved",
   "theorems": [
    "Verif.Release.C17_cut_independent",
    "Verif.Release.C17_two_runs",
    "Verif.Release.C17_catches_up"
   ],
   "note": "any cut points, also with the spill switched off and on"
  },
  {
   "property": "C170",
   "status": "partial",
   "theorems": [
    "Verif.Run.C170_partial",
    "Verif.Run.C170_counterexample"
   ],
   "note": "With all objects that spread of one class."
  },
  {
   "property": "C171",
   "status": "partial",
   "theorems": [
    "Verif.Run.C171_partial",
    "Verif.Run.C171_mixed",
    "Verif.Run.C171_unknown",
    "Verif.Run.C171_counterexample",
    "Verif.Run.C171_counterexample_or"
   ],
   "note": "For whole values and conditions that do not mix && and ||."
  },
  {
   "property": "C172",
   "status": "partial",
   "theorems": [
    "Verif.Run.C172_partial",
    "Verif.Run.C172_step",
    "Verif.Run.C172_counterexample"
   ],
   "note": "Only the last outputter of each class."
  },
  {
   "property": "C173",
   "status": "partial",
   "theorems": [
    "Verif.Run.C173_partial",
    "Verif.Run.C173_counterexample",
    "Verif.Run.C173_counterexample_first"
   ],
   "note": "Runs that go well tell twice, runs that fail at the first step never."
  },
  {
   "property": "C174",
   "status": "partial",
   "theorems": [
    "Verif.Output.C174_partial",
    "Verif.Output.C174_counterexample",
    "Verif.Output.C174_counterexample_day",
    "Verif.Output.C174_counterexample_backward",
    "Verif.Output.C174_counterexample_used"
   ],
   "note": "Runs forwards with steps below a day, the last step written, no start time or an unused outputter."
  },
  {
   "property": "C175",
   "status": "partial",
   "theorems": [
    "Verif.Output.C175_partial",
    "Verif.Output.C175_counterexample",
    "Verif.Output.C175_broken",
    "Verif.Output.C175_last"
   ],
   "note": "All but continued runs and errors at the first step."
  },
  {
   "property": "C176",
   "status": "partial",
   "theorems": [
    "Verif.Output.C176_partial",
    "Verif.Output.C176_counterexample",
    "Verif.Output.C176_overlap",
    "Verif.Output.C176_every"
   ],
   "note": "Output interval a multiple of the time step."
  },
  {
   "property": "C177",
   "status": "proved",
   "theorems": [
    "Verif.Upd.C177"
   ],
   "note": "Names and folders on posix."
  },
  {
   "property": "C178",
   "status": "partial",
   "theorems": [
    "Verif.Upd.C178_partial",
    "Verif.Upd.C178_saved",
    "Verif.Upd.C178_counterexample",
    "Verif.Upd.C178_counterexample_folders",
    "Verif.Upd.C178_counterexample_one"
   ],
   "note": "Archives made by saving, and names that stay different without folders or within the only folder."
  },
  {
   "property": "C179",
   "status": "partial",
   "theorems": [
    "Verif.Upd.C179_partial",
    "Verif.Upd.C179_others",
    "Verif.Upd.C179_counterexample"
   ],
   "note": "If no two neighbours are removed; the others are always kept."
  },
  {
   "property": "C18",
   "status": "proved",
   "theorems": [
    "Verif.Release.C18_released_mass"
   ],
   "note": "exact arithmetic"
  },
  {
   "property": "C180",
   "status": "partial",
   "theorems": [
    "Verif.Upd.C180_partial",
    "Verif.Upd.C180_none",
    "Verif.Upd.C180_counterexample"
   ],
   "note": "If all element types have the same substance."
  },
  {
   "property": "C181",
   "status": "partial",
   "theorems": [
    "Verif.Upd.C181_partial",
    "Verif.Upd.C181_counterexample",
    "Verif.Upd.C181_counterexample_again",
    "Verif.Upd.C181_counterexample_other"
   ],
   "note": "If no initializer is used twice."
  },
  {
   "property": "C182",
   "status": "partial",
   "theorems": [
    "Verif.Upd.C182_partial",
    "Verif.Upd.C182_newer",
    "Verif.Upd.C182_counterexample"
   ],
   "note": "Files of known versions; later versions are accepted as they are."
  },
  {
   "property": "C183",
   "status": "partial",
   "theorems": [
    "Verif.GridCur.C183_partial",
    "Verif.GridCur.C183_before",
    "Verif.GridCur.C183_counterexample"
   ],
   "note": "Equally spaced grids."
  },
  {
   "property": "C184",
   "status": "partial",
   "theorems": [
    "Verif.GridCur.C184_native",
    "Verif.GridCur.C184_python",
    "Verif.GridCur.C184_partial",
    "Verif.GridCur.C184_outside",
    "Verif.GridCur.C184_counterexample"
   ],
   "note": "Square grids: the fields are turned by a right angle against each other."
  },
  {
   "property": "C185",
   "status": "partial",
   "theorems": [
    "Verif.GridCur.C185_partial",
    "Verif.GridCur.C185_last",
    "Verif.GridCur.C185_missing",
    "Verif.GridCur.C185_counterexample"
   ],
   "note": "Places too large, or so small that counting from the end leaves the grid."
  },
  {
   "property": "C186",
   "status": "partial",
   "theorems": [
    "Verif.Drift.C186_partial",
    "Verif.Drift.C186_fails",
    "Verif.Drift.C186_counterexample",
    "Verif.Drift.C186_counterexample_scale"
   ],
   "note": "If all elements are in water and the scale is one."
  },
  {
   "property": "C187",
   "status": "proved",
   "theorems": [
    "Verif.Bna.C187",
    "Verif.Bna.C187_two"
   ],
   "note": "For any way to write numbers that Python reads back."
  },
  {
   "property": "C188",
   "status": "partial",
   "theorems": [
    "Verif.Bna.C188_partial",
    "Verif.Bna.C188_counterexample",
    "Verif.Bna.C188_counterexample_header"
   ],
   "note": "Up to lines of a single number and the character before the number of a header."
  },
  {
   "property": "C189",
   "status": "partial",
   "theorems": [
    "Verif.Bna.C189_partial",
    "Verif.Bna.C189_mixed",
    "Verif.Bna.C189_counterexample"
   ],
   "note": "If all longitudes are on one side; else nothing is shifted."
  },
  {
   "property": "C19",
   "status": "partial",
   "theorems": [
    "Verif.Release.C19_rewind_partial",
    "Verif.Release.C19_rewind_state",
    "Verif.Release.C19_counterexample"
   ],
   "note": "false for the cumulative volume of point/line releases (witness); random positions of base releases are not part of the model"
  },
  {
   "property": "C190",
   "status": "partial",
   "theorems": [
    "Verif.Bna.C190_partial",
    "Verif.Bna.C190_counterexample",
    "Verif.Bna.C190_counterexample_line"
   ],
   "note": "Files with land and without long lines."
  },
  {
   "property": "C191",
   "status": "partial",
   "theorems": [
    "Verif.Bna.C191_partial",
    "Verif.Bna.C191_counterexample"
   ],
   "note": "If there is any land."
  },
  {
   "property": "C192",
   "status": "proved",
   "theorems": [
    "Verif.Canvas.C192",
    "Verif.Canvas.C192_new",
    "Verif.Canvas.C192_effects",
    "Verif.Canvas.C192_zoom"
   ],
   "note": "Exact arithmetic."
  },
  {
   "property": "C193",
   "status": "partial",
   "theorems": [
    "Verif.Canvas.C193_partial",
    "Verif.Canvas.C193_counterexample",
    "Verif.Canvas.C193_counterexample_north"
   ],
   "note": "Images of less than 40 degrees per line, tall ones not wider in degrees than their pixels say."
  },
  {
   "property": "C194",
   "status": "partial",
   "theorems": [
    "Verif.Geom.C194_area",
    "Verif.Geom.C194_rotate",
    "Verif.Geom.C194_close",
    "Verif.Geom.C194_reverse",
    "Verif.Geom.C194_similar",
    "Verif.Geom.C194_cut",
    "Verif.Geom.C194_partial",
    "Verif.Geom.C194_counterexample"
   ],
   "note": "is_clockwise in full; the quick test for convex polygons whose first three vertices are not on a line."
  },
  {
   "property": "C195",
   "status": "partial",
   "theorems": [
    "Verif.Hull.C195_partial",
    "Verif.Hull.C195_counterexample"
   ],
   "note": "With all elements, whether they float or not."
  },
  {
   "property": "C196",
   "status": "partial",
   "theorems": [
    "Verif.Appear.C196_partial",
    "Verif.Appear.C196_fails",
    "Verif.Appear.C196_counterexample"
   ],
   "note": "If all names of the schema are given."
  },
  {
   "property": "C197",
   "status": "partial",
   "theorems": [
    "Verif.OutFiles.C197_partial",
    "Verif.OutFiles.C197_empty",
    "Verif.OutFiles.C197_round",
    "Verif.OutFiles.C197_counterexample"
   ],
   "note": "What is returned; the files hold the uncertain elements."
  },
  {
   "property": "C198",
   "status": "partial",
   "theorems": [
    "Verif.OutFiles.C198_partial",
    "Verif.OutFiles.C198_off",
    "Verif.OutFiles.C198_stops",
    "Verif.OutFiles.C198_budget",
    "Verif.OutFiles.C198_counterexample"
   ],
   "note": "Kinds that ask whether they are on."
  },
  {
   "property": "C199",
   "status": "partial",
   "theorems": [
    "Verif.OutFiles.C199_partial",
    "Verif.OutFiles.C199_lost",
    "Verif.OutFiles.C199_again",
    "Verif.OutFiles.C199_loose",
    "Verif.OutFiles.C199_counterexample"
   ],
   "note": "Runs whose last step is written."
  },
  {
   "property": "C20",
   "status": "partial",
   "theorems": [
    "Verif.Container.C20_equal_lengths_partial",
    "Verif.Container.C20_counterexample",
    "Verif.Container.C20_prepare_without_rewind"
   ],
   "note": "false when split_element raises for bad fractions (earlier arrays are already split) and when prepare_for_model_run runs without a rewind (witnesses); holds for every other history"
  },
  {
   "property": "C200",
   "status": "partial",
   "theorems": [
    "Verif.OutFiles.C200_partial",
    "Verif.OutFiles.C200_missing",
    "Verif.OutFiles.C200_raw",
    "Verif.OutFiles.C200_shp",
    "Verif.OutFiles.C200_dots",
    "Verif.OutFiles.C200_counterexample"
   ],
   "note": "Zipped output under a name with at most one dot."
  },
  {
   "property": "C201",
   "status": "partial",
   "theorems": [
    "Verif.OutFiles.C201_partial",
    "Verif.OutFiles.C201_rows",
    "Verif.OutFiles.C201_hours",
    "Verif.OutFiles.C201_since",
    "Verif.OutFiles.C201_counterexample"
   ],
   "note": "Without dissolution, degradation and cleanup."
  },
  {
   "property": "C202",
   "status": "partial",
   "theorems": [
    "Verif.Geom.C202_partial",
    "Verif.Geom.C202_turned",
    "Verif.Geom.C202_cut",
    "Verif.Geom.C202_array",
    "Verif.Geom.C202_counterexample",
    "Verif.Geom.C202_counterexample_array"
   ],
   "note": "Points that are not on the boundary; on it the Python test is the compiled one of the polygon turned by 180 degrees."
  },
  {
   "property": "C203",
   "status": "partial",
   "theorems": [
    "Verif.Run.Check.C203_objects",
    "Verif.Run.Check.C203_partial",
    "Verif.Run.Check.C203_exact",
    "Verif.Run.Check.C203_invalid",
    "Verif.Run.Check.C203_warnings",
    "Verif.Run.Check.C203_others",
    "Verif.Run.Check.C203_counterexample",
    "Verif.Run.Check.C203_counterexample_own",
    "Verif.Run.Check.C203_counterexample_late",
    "Verif.Run.Check.C203_counterexample_end"
   ],
   "note": "All but negative durations of forward runs and objects with a wind of their own that is not in the environment."
  },
  {
   "property": "C204",
   "status": "partial",
   "theorems": [
    "Verif.OC.C204_partial",
    "Verif.OC.C204_history",
    "Verif.OC.C204_counterexample"
   ],
   "note": "Bounds that are not negative and not beyond the end."
  },
  {
   "property": "C205",
   "status": "partial",
   "theorems": [
    "Verif.Run.Merge.C205_partial",
    "Verif.Run.Merge.C205_again",
    "Verif.Run.Merge.C205_steps",
    "Verif.Run.Merge.C205_counterexample"
   ],
   "note": "All but the number of time steps of a model without a time step."
  },
  {
   "property": "C206",
   "status": "partial",
   "theorems": [
    "Verif.OC.C206_partial",
    "Verif.OC.C206_counterexample"
   ],
   "note": "Environments from which nothing was removed since they were built."
  },
  {
   "property": "C207",
   "status": "partial",
   "theorems": [
    "Verif.Persist.Sig.C207_partial",
    "Verif.Persist.Sig.C207_nearest",
    "Verif.Persist.Sig.C207_error",
    "Verif.Persist.Sig.C207_mono",
    "Verif.Persist.Sig.C207_sum",
    "Verif.Persist.Sig.C207_counterexample"
   ],
   "note": "Exact for numbers with at most 8 significant figures; for others the error is bounded."
  },
  {
   "property": "C208",
   "status": "partial",
   "theorems": [
    "Verif.Output.Render.C208_partial",
    "Verif.Output.Render.C208_first",
    "Verif.Output.Render.C208_anim",
    "Verif.Output.Render.C208_counterexample",
    "Verif.Output.Render.C208_counterexample_gif",
    "Verif.Output.Render.C208_counterexample_late",
    "Verif.Output.Render.C208_counterexample_own"
   ],
   "note": "One image format, steps below 100000."
  },
  {
   "property": "C209",
   "status": "partial",
   "theorems": [
    "Verif.Output.Render.C209_partial",
    "Verif.Output.Render.C209_counterexample"
   ],
   "note": "Without colours by depth."
  },
  {
   "property": "C21",
   "status": "proved",
   "theorems": [
    "Verif.Container.C21_removal_exact",
    "Verif.Container.C21_off_map_removed"
   ],
   "note": "in every state reached by a history as in C20"
  },
  {
   "property": "C210",
   "status": "partial",
   "theorems": [
    "Verif.Output.CurJson.C210_partial",
    "Verif.Output.CurJson.C210_order",
    "Verif.Output.CurJson.C210_speed",
    "Verif.Output.CurJson.C210_counterexample",
    "Verif.Output.CurJson.C210_counterexample_quads"
   ],
   "note": "No grid of quads and no mover in C with currents that change with time after one in Python."
  },
  {
   "property": "C211",
   "status": "partial",
   "theorems": [
    "Verif.Mover.Component.C211_speed",
    "Verif.Mover.Component.C211_reference",
    "Verif.Mover.Component.C211_mean",
    "Verif.Mover.Component.C211_steady_partial",
    "Verif.Mover.Component.C211_counterexample",
    "Verif.Mover.Component.C211_counterexample_stress",
    "Verif.Mover.Component.C211_counterexample_extrapolate",
    "Verif.Mover.Component.C211_averaged",
    "Verif.Mover.Component.C211_gap"
   ],
   "note": "Without averaging in full; with averaging for one pattern scaled by wind speed and data for all the hours."
  },
  {
   "property": "C212",
   "status": "partial",
   "theorems": [
    "Verif.Mover.Component.C212_partial",
    "Verif.Mover.Component.C212_files",
    "Verif.Mover.Component.C212_counterexample",
    "Verif.Mover.Component.C212_counterexample_files"
   ],
   "note": "Outside of steps; in a step the currents are those of the step. Files: unless only the second of two can be read."
  },
  {
   "property": "C213",
   "status": "partial",
   "theorems": [
    "Verif.Output.SpillJson.C213_partial",
    "Verif.Output.SpillJson.C213_missing",
    "Verif.Output.SpillJson.C213_bands",
    "Verif.Output.SpillJson.C213_counterexample",
    "Verif.Output.SpillJson.C213_counterexample_depth"
   ],
   "note": "In full without an output directory and without contours of depth or windage, both of which fail in the code."
  },
  {
   "property": "C214",
   "status": "partial",
   "theorems": [
    "Verif.Mover.Ice.C214_partial",
    "Verif.Mover.Ice.C214_between",
    "Verif.Mover.Ice.C214_closer",
    "Verif.Mover.Ice.C214_move",
    "Verif.Mover.Ice.C214_wind",
    "Verif.Mover.Ice.C214_windMove",
    "Verif.Mover.Ice.C214_cm",
    "Verif.Mover.Ice.C214_nodes",
    "Verif.Mover.Ice.C214_counterexample",
    "Verif.Mover.Ice.C214_counterexample_nodes",
    "Verif.Mover.Ice.C214_counterexample_scale"
   ],
   "note": "For data in cells, thickness in metres and one scale factor; otherwise the ice is ignored or its velocity scaled wrongly (shown for all inputs)."
  },
  {
   "property": "C215",
   "status": "partial",
   "theorems": [
    "Verif.Mover.Ice.C215_partial",
    "Verif.Mover.Ice.C215_between",
    "Verif.Mover.Ice.C215_counterexample",
    "Verif.Mover.Ice.C215_counterexample_cover",
    "Verif.Mover.Ice.C215_counterexample_wind"
   ],
   "note": "Thickness in full; the rest where coverage is constant in time, thickness in metres and there is one scale factor."
  },
  {
   "property": "C216",
   "status": "partial",
   "theorems": [
    "Verif.Upd.Load.C216_partial",
    "Verif.Upd.Load.C216_first",
    "Verif.Upd.Load.C216_alike",
    "Verif.Upd.Load.C216_never",
    "Verif.Upd.Load.C216_counterexample",
    "Verif.Upd.Load.C216_counterexample_name"
   ],
   "note": "Folders and archives; json files by themselves never load, and files loaded by name can be of another class."
  },
  {
   "property": "C217",
   "status": "partial",
   "theorems": [
    "Verif.Upd.Load.C217_partial",
    "Verif.Upd.Load.C217_accepts",
    "Verif.Upd.Load.C217_expansion",
    "Verif.Upd.Load.C217_counterexample",
    "Verif.Upd.Load.C217_counterexample_dots"
   ],
   "note": "For names without the characters that unpacking removes; with one of them in the extension the limit for json files is avoided."
  },
  {
   "property": "C218",
   "status": "partial",
   "theorems": [
    "Verif.Run.Ensemble.C218_partial",
    "Verif.Run.Ensemble.C218_one",
    "Verif.Run.Ensemble.C218_all",
    "Verif.Run.Ensemble.C218_history",
    "Verif.Run.Ensemble.C218_size",
    "Verif.Run.Ensemble.C218_lookup",
    "Verif.Run.Ensemble.C218_nodup",
    "Verif.Run.Ensemble.C218_stopped",
    "Verif.Run.Ensemble.C218_error",
    "Verif.Run.Ensemble.C218_errorAll",
    "Verif.Run.Ensemble.C218_never",
    "Verif.Run.Ensemble.C218_counterexample",
    "Verif.Run.Ensemble.C218_counterexample_twice",
    "Verif.Run.Ensemble.C218_prepare"
   ],
   "note": "Commands for any history; construction up to the shifts. The constructor always fails in the code (shown for all inputs), exceptions are raised as TypeError."
  },
  {
   "property": "C219",
   "status": "proved",
   "theorems": [
    "Verif.NatWeath.Evap.C219_wind",
    "Verif.NatWeath.Evap.C219_warmer",
    "Verif.NatWeath.Evap.C219_time",
    "Verif.NatWeath.Evap.C219_emulsion",
    "Verif.NatWeath.Evap.C219_none",
    "Verif.NatWeath.Evap.C219_bounds",
    "Verif.NatWeath.Evap.C219_lighter",
    "Verif.NatWeath.Evap.C219_boiling",
    "Verif.NatWeath.Evap.C219_warmer_pressure"
   ],
   "note": "For boiling points from 150 K on, at temperatures above the pole of the formula (water from 270 to 320 K: boiling points up to 1500 K)."
  },
  {
   "property": "C22",
   "status": "proved",
   "theorems": [
    "Verif.Container.C22_ids_unique"
   ],
   "note": "certain and uncertain container together, any interleaving, across rewinds"
  },
  {
   "property": "C220",
   "status": "partial",
   "theorems": [
    "Verif.NatWeath.Evap.C220_partial",
    "Verif.NatWeath.Evap.C220_never",
    "Verif.NatWeath.Evap.C220_counterexample"
   ],
   "note": "For all winds but IceAwareWind, with which evaporation always fails."
  },
  {
   "property": "C221",
   "status": "partial",
   "theorems": [
    "Verif.NatWeath.Rates.C221_partial",
    "Verif.NatWeath.Rates.C221_grows",
    "Verif.NatWeath.Rates.C221_counterexample"
   ],
   "note": "For steady winds and equal steps, any number of them. For winds that change it is false in the code."
  },
  {
   "property": "C222",
   "status": "proved",
   "theorems": [
    "Verif.NatWeath.Rates.C222_rougher",
    "Verif.NatWeath.Rates.C222_noSediment",
    "Verif.NatWeath.Rates.C222_droplets"
   ],
   "note": "Dispersion by the default method; the height of the waves the same."
  },
  {
   "property": "C223",
   "status": "partial",
   "theorems": [
    "Verif.OutFiles.Erma.C223_partial",
    "Verif.OutFiles.Erma.C223_once",
    "Verif.OutFiles.Erma.C223_dots",
    "Verif.OutFiles.Erma.C223_counterexample"
   ],
   "note": "For file names with at most one dot; with more dots all layers show the same data. No name is twice in the package."
  },
  {
   "property": "C224",
   "status": "partial",
   "theorems": [
    "Verif.OutFiles.Erma.C224_partial",
    "Verif.OutFiles.Erma.C224_set",
    "Verif.OutFiles.Erma.C224_days",
    "Verif.OutFiles.Erma.C224_cut",
    "Verif.OutFiles.Erma.C224_year",
    "Verif.OutFiles.Erma.C224_back",
    "Verif.OutFiles.Erma.C224_counterexample"
   ],
   "note": "For forward steps of whole minutes below an hour, or whole hours below a day; otherwise cut off or false."
  },
  {
   "property": "C225",
   "status": "partial",
   "theorems": [
    "Verif.OutFiles.Erma.C225_partial",
    "Verif.OutFiles.Erma.C225_stuck",
    "Verif.OutFiles.Erma.C225_counterexample"
   ],
   "note": "For the first run, or a name given; later runs keep the name of the first."
  },
  {
   "property": "C226",
   "status": "partial",
   "theorems": [
    "Verif.OutFiles.Erma.C226_partial",
    "Verif.OutFiles.Erma.C226_changed",
    "Verif.OutFiles.Erma.C226_counterexample"
   ],
   "note": "If the offset is not changed after construction."
  },
  {
   "property": "C227",
   "status": "partial",
   "theorems": [
    "Verif.OutFiles.Legend.C227_partial",
    "Verif.OutFiles.Legend.C227_groups",
    "Verif.OutFiles.Legend.C227_counterexample",
    "Verif.OutFiles.Legend.C227_counterexample_bound"
   ],
   "note": "For values off the last bound and styles with the same colours if they match otherwise; false for others."
  },
  {
   "property": "C228",
   "status": "partial",
   "theorems": [
    "Verif.OutFiles.Legend.C228_partial",
    "Verif.OutFiles.Legend.C228_drawn",
    "Verif.OutFiles.Legend.C228_both",
    "Verif.OutFiles.Legend.C228_counterexample",
    "Verif.OutFiles.Legend.C228_cutoffs"
   ],
   "note": "For one spill with a style; which classes a contour meets is settled for all."
  },
  {
   "property": "C229",
   "status": "partial",
   "theorems": [
    "Verif.Fields.EnvFile.C229_partial",
    "Verif.Fields.EnvFile.C229_all",
    "Verif.Fields.EnvFile.C229_itself",
    "Verif.Fields.EnvFile.C229_default",
    "Verif.Fields.EnvFile.C229_counterexample"
   ],
   "note": "For lists of classes in which each comes after those that it needs. By default nothing is made from any file; a class before those that it needs is made twice and refers to itself."
  },
  {
   "property": "C23",
   "status": "proved",
   "theorems": [
    "Verif.Container.C23_split_conserves",
    "Verif.Container.C23_tolerance",
    "Verif.Container.C23_rejects"
   ],
   "note": "exact when the fractions add up to one; np.allclose tolerance bounded separately"
  },
  {
   "property": "C230",
   "status": "partial",
   "theorems": [
    "Verif.Persist.FileObj.C230_partial",
    "Verif.Persist.FileObj.C230_dropped",
    "Verif.Persist.FileObj.C230_which",
    "Verif.Persist.FileObj.C230_name",
    "Verif.Persist.FileObj.C230_zero",
    "Verif.Persist.FileObj.C230_again",
    "Verif.Persist.FileObj.C230_counterexample",
    "Verif.Persist.FileObj.C230_names"
   ],
   "note": "For settings in the schema; exactly which are lost is settled."
  },
  {
   "property": "C231",
   "status": "proved",
   "theorems": [
    "Verif.GridCur.WindRect.C231_nearest",
    "Verif.GridCur.WindRect.C231_everywhere",
    "Verif.GridCur.WindRect.C231_time",
    "Verif.GridCur.WindRect.C231_move"
   ],
   "note": "Exact arithmetic, one file, forecast elements."
  },
  {
   "property": "C232",
   "status": "partial",
   "theorems": [
    "Verif.GridCur.WindRect.C232_counterexample",
    "Verif.GridCur.WindRect.C232_counterexample_tenth",
    "Verif.GridCur.WindRect.C232_counterexample_edge",
    "Verif.GridCur.WindRect.C232_counterexample_scale",
    "Verif.GridCur.WindRect.C232_reported_partial",
    "Verif.GridCur.WindRect.C232_inner_partial",
    "Verif.GridCur.WindRect.C232_outer",
    "Verif.GridCur.WindRect.C232_cells"
   ],
   "note": "The code reports a tenth of the wind, without the mover's scale, and the outer points lie on the edge of the area, where no wind is applied. Proved: entry k, j is a tenth of the file's wind at k, j; at inner points the element is moved by ten times the reported wind times the scale; cells are walked round."
  },
  {
   "property": "C233",
   "status": "partial",
   "theorems": [
    "Verif.Fields.Names.C233_counterexample",
    "Verif.Fields.Names.C233_counterexample_mixed",
    "Verif.Fields.Names.C233_depends",
    "Verif.Fields.Names.C233_found_partial",
    "Verif.Fields.Names.C233_single_partial",
    "Verif.Fields.Names.C233_written",
    "Verif.Fields.Names.C233_components"
   ],
   "note": "The names are put through a set, so their order changes from run to run; with the order shown in the module's own documentation, a file with u, v, water_u and water_v gives water_u with v. Proved: a variable is found exactly if there is one of the names; a single one is taken in every order; in the written order the components belong together."
  },
  {
   "property": "C234",
   "status": "partial",
   "theorems": [
    "Verif.Output.IceImage.C234_counterexample",
    "Verif.Output.IceImage.C234_counterexample_low",
    "Verif.Output.IceImage.C234_counterexample_text",
    "Verif.Output.IceImage.C234_colour_partial",
    "Verif.Output.IceImage.C234_shifted",
    "Verif.Output.IceImage.C234_gradient",
    "Verif.Output.IceImage.C234_box"
   ],
   "note": "The text has b'..' in place of the base 64 body, for every image, and the lower end of a scale is not taken off. Proved for scales from 0 (those of the two images): colours by parts, monotone; gradients; the box."
  },
  {
   "property": "C235",
   "status": "proved",
   "theorems": [
    "Verif.TSeries.TideFile.C235_rows",
    "Verif.TSeries.TideFile.C235_text",
    "Verif.TSeries.TideFile.C235_file",
    "Verif.TSeries.TideFile.C235_series",
    "Verif.TSeries.TideFile.C235_units"
   ],
   "note": "Characters of the lines are modelled; a word that is not a number counts as 0, as in the code. A file with nothing but the row of zeros is refused with the error for missing units."
  },
  {
   "property": "C236",
   "status": "partial",
   "theorems": [
    "Verif.TSeries.TideFile.C236_counterexample",
    "Verif.TSeries.TideFile.C236_partial",
    "Verif.TSeries.TideFile.C236_years",
    "Verif.TSeries.TideFile.C236_time"
   ],
   "note": "The 31st of February at 99 hours and 75 minutes is accepted (and is the 6th of March). Proved: months and days out of 1..12 and 1..31 are refused, the rest is taken as written; the years."
  },
  {
   "property": "C237",
   "status": "partial",
   "theorems": [
    "Verif.TSeries.TideFile.C237_counterexample",
    "Verif.TSeries.TideFile.C237_counterexample_five",
    "Verif.TSeries.TideFile.C237_partial",
    "Verif.TSeries.TideFile.C237_short"
   ],
   "note": "With a header of three lines and nothing else the fourth line is looked at; with five lines the sixth. Proved: six lines are enough, and four with a row."
  },
  {
   "property": "C238",
   "status": "partial",
   "theorems": [
    "Verif.TSeries.TideFile.C238_counterexample",
    "Verif.TSeries.TideFile.C238_partial",
    "Verif.TSeries.TideFile.C238_points",
    "Verif.TSeries.TideFile.C238_other"
   ],
   "note": "A negative number, and any unknown word, is read as north. Proved for numbers that begin with a digit and for the sixteen points."
  },
  {
   "property": "C239",
   "status": "partial",
   "theorems": [
    "Verif.Persist.Types.C239_counterexample",
    "Verif.Persist.Types.C239_counterexample_text",
    "Verif.Persist.Types.C239_partial",
    "Verif.Persist.Types.C239_again",
    "Verif.Persist.Types.C239_written"
   ],
   "note": "The zone is cut off both ways, so a time with a zone comes back as another instant unless the zone is the local one. Proved: times without a zone and infinite times."
  },
  {
   "property": "C24",
   "status": "partial",
   "theorems": [
    "Verif.Pair.C24_correspond_partial",
    "Verif.Pair.C24_rewind_restores",
    "Verif.Pair.C24_counterexample_readd",
    "Verif.Pair.C24_counterexample_replace",
    "Verif.Pair.C24_replace_raises"
   ],
   "note": "false when a spill is added twice and when a spill is replaced after a removal (witnesses); holds for all other histories, and a rewind repairs it"
  },
  {
   "property": "C240",
   "status": "proved",
   "theorems": [
    "Verif.Persist.Types.C240_iff",
    "Verif.Persist.Types.C240_roundtrip"
   ],
   "note": "For any kind of value and any test of values."
  },
  {
   "property": "C241",
   "status": "partial",
   "theorems": [
    "Verif.Persist.Types.C241_counterexample",
    "Verif.Persist.Types.C241_partial",
    "Verif.Persist.Types.C241_accepts"
   ],
   "note": "NaN passes the ranges. Proved for all other numbers."
  },
  {
   "property": "C242",
   "status": "partial",
   "theorems": [
    "Verif.Persist.Types.C242_counterexample",
    "Verif.Persist.Types.C242_partial"
   ],
   "note": "Loading does not check the length. Proved: what can be saved comes back."
  },
  {
   "property": "C243",
   "status": "proved",
   "theorems": [
    "Verif.Persist.Types.C243_names",
    "Verif.Persist.Types.C243_same"
   ],
   "note": ""
  },
  {
   "property": "C244",
   "status": "proved",
   "theorems": [
    "Verif.Mover.RiseVel.C244_size",
    "Verif.Mover.RiseVel.C244_buoyancy",
    "Verif.Mover.RiseVel.C244_continuous"
   ],
   "note": "The order by size is proved for viscosities from 4e-7 m2/s."
  },
  {
   "property": "C245",
   "status": "partial",
   "theorems": [
    "Verif.Mover.RiseVel.C245_counterexample",
    "Verif.Mover.RiseVel.C245_partial",
    "Verif.Mover.RiseVel.C245_rises"
   ],
   "note": "From 0.2 mm on a denser droplet gets NaN. Proved for smaller ones and for all lighter droplets."
  },
  {
   "property": "C246",
   "status": "partial",
   "theorems": [
    "Verif.Mover.RiseVel.C246_counterexample",
    "Verif.Mover.RiseVel.C246_partial",
    "Verif.Mover.RiseVel.middle_deriv"
   ],
   "note": "At 0.2 mm the slope jumps to a quarter. Proved for smaller droplets."
  },
  {
   "property": "C247",
   "status": "partial",
   "theorems": [
    "Verif.Release.Saved.C247_counterexample",
    "Verif.Release.Saved.C247_partial",
    "Verif.Release.Saved.C247_lost",
    "Verif.Release.Saved.C247_never"
   ],
   "note": "Numbers per step of point releases are lost, four kinds cannot be loaded. Proved for the others."
  },
  {
   "property": "C248",
   "status": "partial",
   "theorems": [
    "Verif.Release.Saved.C248_counterexample",
    "Verif.Release.Saved.C248_partial",
    "Verif.Release.Saved.C248_refused"
   ],
   "note": "Point and subsurface releases do not take over the number per step. Proved for the rest."
  },
  {
   "property": "C249",
   "status": "partial",
   "theorems": [
    "Verif.Release.Nesdis.C249_partial",
    "Verif.Release.Nesdis.C249_short",
    "Verif.Release.Nesdis.C249_long",
    "Verif.Release.Nesdis.C249_counterexample"
   ],
   "note": "Hours of two digits, and of one digit from 2:40 on; what the others are read as is settled."
  },
  {
   "property": "C25",
   "status": "proved",
   "theorems": [
    "Verif.LE.C25_buffer_growth",
    "Verif.LE.C25_equal_lengths"
   ],
   "note": "any number of arrays, extensions and writes"
  },
  {
   "property": "C250",
   "status": "partial",
   "theorems": [
    "Verif.Release.Nesdis.C250_partial",
    "Verif.Release.Nesdis.C250_polygons",
    "Verif.Release.Nesdis.C250_release",
    "Verif.Release.Nesdis.C250_counterexample"
   ],
   "note": "The time of the release and the thickness in full; polygons without a time get that of the last one before them with a time, not the time given."
  },
  {
   "property": "C251",
   "status": "partial",
   "theorems": [
    "Verif.Release.FromFile.C251_partial",
    "Verif.Release.FromFile.C251_share",
    "Verif.Release.FromFile.C251_total",
    "Verif.Release.FromFile.C251_one",
    "Verif.Release.FromFile.C251_large",
    "Verif.Release.FromFile.C251_counterexample"
   ],
   "note": "For files of 1000 elements in all; always 1000 are released."
  },
  {
   "property": "C252",
   "status": "partial",
   "theorems": [
    "Verif.Release.FromFile.C252_partial",
    "Verif.Release.FromFile.C252_never",
    "Verif.Release.FromFile.C252_plume",
    "Verif.Release.FromFile.C252_after",
    "Verif.Release.FromFile.C252_counterexample"
   ],
   "note": "Shown to fail for every record with elements and every plume; what is left is the time before the release."
  },
  {
   "property": "C253",
   "status": "partial",
   "theorems": [
    "Verif.TSeries.Station.C253_partial",
    "Verif.TSeries.Station.C253_south",
    "Verif.TSeries.Station.C253_other",
    "Verif.TSeries.Station.C253_none",
    "Verif.TSeries.Station.C253_river",
    "Verif.TSeries.Station.C253_counterexample"
   ],
   "note": "Degrees not below 0, or without minutes; what other headers give is settled."
  },
  {
   "property": "C254",
   "status": "partial",
   "theorems": [
    "Verif.TSeries.Station.C254_partial",
    "Verif.TSeries.Station.C254_buoys",
    "Verif.TSeries.Station.C254_stations",
    "Verif.TSeries.Station.C254_counterexample",
    "Verif.TSeries.Station.C254_counterexample_minutes"
   ],
   "note": "For rows of buoys that have a wind, with minutes; exactly what is read is settled for both kinds of file."
  },
  {
   "property": "C255",
   "status": "partial",
   "theorems": [
    "Verif.GridCur.CycleMover.C255_partial",
    "Verif.GridCur.CycleMover.C255_continuous",
    "Verif.GridCur.CycleMover.C255_counterexample",
    "Verif.GridCur.CycleMover.C255_counterexample_flood",
    "Verif.GridCur.CycleMover.C255_counterexample_late",
    "Verif.GridCur.CycleMover.C255_counterexample_six",
    "Verif.GridCur.CycleMover.C255_counterexample_two",
    "Verif.GridCur.CycleMover.C255_counterexample_series",
    "Verif.GridCur.CycleMover.C255_counterexample_reported"
   ],
   "note": "For a multiple of four patterns, away from the very maximum of the flood."
  },
  {
   "property": "C256",
   "status": "proved",
   "theorems": [
    "Verif.GridCur.CycleMover.C256_elapsed",
    "Verif.GridCur.CycleMover.C256_after"
   ],
   "note": "Whatever was loaded before, between two records and after the last."
  },
  {
   "property": "C257",
   "status": "partial",
   "theorems": [
    "Verif.SpillSet.Helpers.C257_accepted",
    "Verif.SpillSet.Helpers.C257_made",
    "Verif.SpillSet.Helpers.C257_partial",
    "Verif.SpillSet.Helpers.C257_own_partial",
    "Verif.SpillSet.Helpers.C257_refused_partial",
    "Verif.SpillSet.Helpers.C257_counterexample",
    "Verif.SpillSet.Helpers.C257_counterexample_refused"
   ],
   "note": "While no later call sets windages on the same substance; refused calls other than for the persistence."
  },
  {
   "property": "C258",
   "status": "proved",
   "theorems": [
    "Verif.SpillSet.Helpers.C258_point",
    "Verif.SpillSet.Helpers.C258_surface",
    "Verif.SpillSet.Helpers.C258_subsurface"
   ],
   "note": "For the three functions with positions."
  },
  {
   "property": "C259",
   "status": "partial",
   "theorems": [
    "Verif.Roc.Boat.C259_partial",
    "Verif.Roc.Boat.C259_counterexample",
    "Verif.Roc.Boat.C259_counterexample_cascade",
    "Verif.Roc.Boat.C259_counterexample_onsite"
   ],
   "note": "For steps within a period in which no sortie begins too late."
  },
  {
   "property": "C26",
   "status": "partial",
   "theorems": [
    "Verif.FateView.C26_views_partial",
    "Verif.FateView.C26_spec_meaning",
    "Verif.FateView.C26_counterexample_stale",
    "Verif.FateView.C26_counterexample_alias",
    "Verif.FateView.C26_members"
   ],
   "note": "any sequence of get/modify/update on proper fates; false when the overlapping view 'all' is mixed in or a view is not written back (witnesses)"
  },
  {
   "property": "C260",
   "status": "partial",
   "theorems": [
    "Verif.Roc.Boat.C260_partial",
    "Verif.Roc.Boat.C260_counterexample",
    "Verif.Roc.Boat.C260_counterexample_pause"
   ],
   "note": "For steps within a period in which no sortie begins too late."
  },
  {
   "property": "C261",
   "status": "partial",
   "theorems": [
    "Verif.Roc.Boat.C261_partial",
    "Verif.Roc.Boat.C261_sprayed",
    "Verif.Roc.Boat.C261_counterexample"
   ],
   "note": "For any number of steps that follow each other within periods, in which no sortie begins too late."
  },
  {
   "property": "C262",
   "status": "partial",
   "theorems": [
    "Verif.Roc.Boat.C262_partial",
    "Verif.Roc.Boat.C262_counterexample",
    "Verif.Roc.Boat.C262_amount",
    "Verif.Roc.Boat.C262_counterexample_amount"
   ],
   "note": "With oil that can be dispersed.; one spraying never treats more than there is (C262_amount), two of them can, as the kilograms treated are divided by the density before they are taken off (C262_counterexample_amount)"
  },
  {
   "property": "C263",
   "status": "proved",
   "theorems": [
    "Verif.Roc.Spray.C263_removed",
    "Verif.Roc.Spray.C263_run"
   ],
   "note": ""
  },
  {
   "property": "C264",
   "status": "partial",
   "theorems": [
    "Verif.Roc.Spray.C264_partial",
    "Verif.Roc.Spray.C264_counterexample"
   ],
   "note": "For winds below 37 m/s."
  },
  {
   "property": "C265",
   "status": "partial",
   "theorems": [
    "Verif.Roc.Spray.C265_partial",
    "Verif.Roc.Spray.C265_counterexample"
   ],
   "note": "If the efficacy set is that of the tables."
  },
  {
   "property": "C266",
   "status": "proved",
   "theorems": [
    "Verif.Roc.Spray.C266_viscosity",
    "Verif.Roc.Spray.C266_wind",
    "Verif.Roc.Spray.C266_table"
   ],
   "note": ""
  },
  {
   "property": "C267",
   "status": "partial",
   "theorems": [
    "Verif.Roc.Platform.C267_partial",
    "Verif.Roc.Platform.C267_counterexample",
    "Verif.Roc.Platform.C267_short"
   ],
   "note": "For simultaneous loading; for separate loading the time is always too short."
  },
  {
   "property": "C268",
   "status": "proved",
   "theorems": [
    "Verif.Roc.Platform.C268_rate",
    "Verif.Roc.Platform.C268_dosage"
   ],
   "note": ""
  },
  {
   "property": "C269",
   "status": "partial",
   "theorems": [
    "Verif.Roc.Platform.C269_partial",
    "Verif.Roc.Platform.C269_counterexample",
    "Verif.Roc.Platform.C269_counterexample_pass"
   ],
   "note": "For nautical miles."
  },
  {
   "property": "C27",
   "status": "proved",
   "theorems": [
    "Verif.Output.C27_forward_cadence",
    "Verif.Output.C27_every_step",
    "Verif.Output.C27_count",
    "Verif.Output.C27_subsecond_interval"
   ],
   "note": "closed form for any number of steps; the step before the start time logic is off"
  },
  {
   "property": "C270",
   "status": "partial",
   "theorems": [
    "Verif.Roc.Platform.C270_partial",
    "Verif.Roc.Platform.C270_counterexample"
   ],
   "note": "The value lies between 0 and the fraction."
  },
  {
   "property": "C271",
   "status": "partial",
   "theorems": [
    "Verif.Roc.Platform.C271_sortie",
    "Verif.Roc.Platform.C271_partial",
    "Verif.Roc.Platform.C271_counterexample"
   ],
   "note": "Sorties in full; passes when one takes a whole number of seconds."
  },
  {
   "property": "C272",
   "status": "partial",
   "theorems": [
    "Verif.Roc.Platform.C272_partial",
    "Verif.Roc.Platform.C272_counterexample"
   ],
   "note": "For units whose names are part of the name of the kind of quantity."
  },
  {
   "property": "C273",
   "status": "partial",
   "theorems": [
    "Verif.Roc.Platform.C273_partial",
    "Verif.Roc.Platform.C273_never",
    "Verif.Roc.Platform.C273_counterexample"
   ],
   "note": "All but the release rate and the time of cascading."
  },
  {
   "property": "C274",
   "status": "partial",
   "theorems": [
    "Verif.SpillSet.Subst.C274_partial",
    "Verif.SpillSet.Subst.C274_step",
    "Verif.SpillSet.Subst.C274_counterexample"
   ],
   "note": "The refused spill stays, and is missing in the uncertainty run. Proved: when it is refused, and what an accepted one does."
  },
  {
   "property": "C275",
   "status": "proved",
   "theorems": [
    "Verif.SpillSet.Subst.C275_ready",
    "Verif.SpillSet.Subst.C275_iff",
    "Verif.SpillSet.Subst.C275_off"
   ],
   "note": ""
  },
  {
   "property": "C276",
   "status": "partial",
   "theorems": [
    "Verif.SpillSet.Subst.C276_partial",
    "Verif.SpillSet.Subst.C276_stuck",
    "Verif.SpillSet.Subst.C276_counterexample"
   ],
   "note": "With uncertainty it cannot be removed and no rewind is possible. Proved without uncertainty."
  },
  {
   "property": "C277",
   "status": "partial",
   "theorems": [
    "Verif.SpillSet.Subst.C277_partial",
    "Verif.SpillSet.Subst.C277_error",
    "Verif.SpillSet.Subst.C277_rewind",
    "Verif.SpillSet.Subst.C277_counterexample"
   ],
   "note": "With spills of different substances the flag is set and there are no copies. Proved for the others, and for rewinds."
  },
  {
   "property": "C278",
   "status": "proved",
   "theorems": [
    "Verif.NatWeath.C278_aromatic",
    "Verif.NatWeath.C278_kow",
    "Verif.NatWeath.C278_time",
    "Verif.NatWeath.C278_area",
    "Verif.NatWeath.C278_droplets"
   ],
   "note": ""
  },
  {
   "property": "C279",
   "status": "partial",
   "theorems": [
    "Verif.TGrid.Islands.C279_counterexample",
    "Verif.TGrid.Islands.C279_counterexample_every",
    "Verif.TGrid.Islands.C279_linked",
    "Verif.TGrid.Islands.C279_partial",
    "Verif.TGrid.Islands.C279_block"
   ],
   "note": "The first two land cells inside the grid receive the same number 4 though they may be separate islands. Proved: the exact classes for every grid, and the claim whenever the first two cells are of one block."
  },
  {
   "property": "C28",
   "status": "partial",
   "theorems": [
    "Verif.Output.C28_backward_partial",
    "Verif.Output.C28_counterexample",
    "Verif.Output.C28_counterexample_long"
   ],
   "note": "false unless one of step and interval divides the other (witness)"
  },
  {
   "property": "C280",
   "status": "proved",
   "theorems": [
    "Verif.TGrid.Islands.C280_land",
    "Verif.TGrid.Islands.C280_edge",
    "Verif.TGrid.Islands.C280_count"
   ],
   "note": "Linked means by steps over land, over the edge, or between the first two land cells inside (see C279)."
  },
  {
   "property": "C281",
   "status": "proved",
   "theorems": [
    "Verif.Release.C281_count",
    "Verif.Release.C281_share",
    "Verif.Release.C281_per_step",
    "Verif.Release.C281_refused"
   ],
   "note": ""
  },
  {
   "property": "C282",
   "status": "partial",
   "theorems": [
    "Verif.Shio.StationCur.C282_counterexample_every",
    "Verif.Shio.StationCur.C282_counterexample",
    "Verif.Shio.StationCur.C282_partial",
    "Verif.Shio.StationCur.C282_through",
    "Verif.Shio.StationCur.C282_corrected",
    "Verif.Shio.StationCur.C282_room",
    "Verif.Shio.StationCur.C282_until"
   ],
   "note": "Missing: times from the last event of the period on, where the claim is false."
  },
  {
   "property": "C283",
   "status": "partial",
   "theorems": [
    "Verif.Shio.StationCur.C283_counterexample_every",
    "Verif.Shio.StationCur.C283_counterexample",
    "Verif.Shio.StationCur.C283_partial",
    "Verif.Shio.StationCur.C283_rising",
    "Verif.Shio.StationCur.C283_extremes",
    "Verif.Shio.StationCur.C283_alike"
   ],
   "note": "Missing: a change on the other side of slack water more than five times as steep, where the claim is false."
  },
  {
   "property": "C284",
   "status": "partial",
   "theorems": [
    "Verif.Shio.StationCur.C284_counterexample",
    "Verif.Shio.StationCur.C284_partial",
    "Verif.Shio.StationCur.C284_values",
    "Verif.Shio.StationCur.C284_sorted",
    "Verif.Shio.StationCur.C284_minute"
   ],
   "note": "Missing: order of events between which others were left out, where the claim is false."
  },
  {
   "property": "C285",
   "status": "partial",
   "theorems": [
    "Verif.TGrid.Depth.C285_counterexample_every",
    "Verif.TGrid.Depth.C285_counterexample",
    "Verif.TGrid.Depth.C285_partial",
    "Verif.TGrid.Depth.C285_time",
    "Verif.TGrid.Depth.C285_single"
   ],
   "note": "Missing: below the deepest level, where the code reads outside its table."
  },
  {
   "property": "C286",
   "status": "partial",
   "theorems": [
    "Verif.TGrid.Depth.C286_counterexample_metres",
    "Verif.TGrid.Depth.C286_counterexample_order",
    "Verif.TGrid.Depth.C286_counterexample",
    "Verif.TGrid.Depth.C286_partial",
    "Verif.TGrid.Depth.C286_roms_partial",
    "Verif.TGrid.Depth.C286_metres",
    "Verif.TGrid.Depth.C286_below",
    "Verif.TGrid.Depth.C286_single",
    "Verif.TGrid.Depth.roms_down"
   ],
   "note": "Missing: levels in metres between two levels and parts of the depth listed from the bottom, where the claim is false."
  },
  {
   "property": "C287",
   "status": "partial",
   "theorems": [
    "Verif.TGrid.Depth.C287_counterexample_flat",
    "Verif.TGrid.Depth.C287_counterexample_bathymetry",
    "Verif.TGrid.Depth.C287_counterexample",
    "Verif.TGrid.Depth.C287_partial"
   ],
   "note": "Missing: between levels, where the claim is false."
  },
  {
   "property": "C288",
   "status": "partial",
   "theorems": [
    "Verif.TGrid.Depth.C288_counterexample_surface",
    "Verif.TGrid.Depth.C288_counterexample_sigma",
    "Verif.TGrid.Depth.C288_counterexample_shallow",
    "Verif.TGrid.Depth.C288_counterexample",
    "Verif.TGrid.Depth.C288_partial",
    "Verif.TGrid.Depth.C288_corner",
    "Verif.TGrid.Depth.C288_single"
   ],
   "note": "Missing: the surface, parts of the depth and nodes shallower than the highest level, where the claim is false."
  },
  {
   "property": "C289",
   "status": "partial",
   "theorems": [
    "Verif.Cleanup.Fire.C289_steps_partial",
    "Verif.Cleanup.Fire.C289_whole_partial",
    "Verif.Cleanup.Fire.C289_enough",
    "Verif.Cleanup.Fire.C289_thin",
    "Verif.Cleanup.Fire.C289_counterexample"
   ],
   "note": "holds unless the burn starts and ends strictly inside one step; there it also works for the part of the step before its start (500 kg for 100 kg)"
  },
  {
   "property": "C29",
   "status": "partial",
   "theorems": [
    "Verif.Output.C29_every_step_partial",
    "Verif.Output.C29_nothing_written",
    "Verif.Output.C29_counterexample"
   ],
   "note": "false for output_zero_step = False: nothing is written before the last step"
  },
  {
   "property": "C290",
   "status": "partial",
   "theorems": [
    "Verif.Persist.SaveLoc.C290_place",
    "Verif.Persist.SaveLoc.C290_overwrite",
    "Verif.Persist.SaveLoc.C290_keep",
    "Verif.Persist.SaveLoc.C290_none",
    "Verif.Persist.SaveLoc.C290_counterexample"
   ],
   "note": "all but two points of the documentation: without overwriting a path that does not exist is refused as existing, and an open archive raises TypeError"
  },
  {
   "property": "C291",
   "status": "partial",
   "theorems": [
    "Verif.Persist.SaveLoc.C291_refused_partial",
    "Verif.Persist.SaveLoc.C291_others",
    "Verif.Persist.SaveLoc.C291_counterexample"
   ],
   "note": "refused saves change nothing and no other file is ever touched; an exception while writing loses the earlier save file"
  },
  {
   "property": "C292",
   "status": "partial",
   "theorems": [
    "Verif.Persist.SaveLoc.C292_partial",
    "Verif.Persist.SaveLoc.C292_open",
    "Verif.Persist.SaveLoc.C292_counterexample"
   ],
   "note": "holds unless the working directory has a file spills_data_arrays.nc (or the uncertain one), which is deleted"
  },
  {
   "property": "C293",
   "status": "partial",
   "theorems": [
    "Verif.Canvas.Tags.C293_angle",
    "Verif.Canvas.Tags.C293_exact",
    "Verif.Canvas.Tags.C293_lines",
    "Verif.Canvas.Tags.C293_anchor",
    "Verif.Canvas.Tags.C293_partial",
    "Verif.Canvas.Tags.C293_counterexample"
   ],
   "note": "all but minutes below 60 where the seconds of the last minute are rounded up; the lines of the built-in intervals never get there in exact arithmetic"
  },
  {
   "property": "C294",
   "status": "partial",
   "theorems": [
    "Verif.Canvas.Tags.C294_angle",
    "Verif.Canvas.Tags.C294_partial",
    "Verif.Canvas.Tags.C294_counterexample"
   ],
   "note": "holds from intervals of 0.01 degrees on; false for finer ones"
  },
  {
   "property": "C295",
   "status": "partial",
   "theorems": [
    "Verif.MapQ.Given.C295_bounds_partial",
    "Verif.MapQ.Given.C295_area_partial",
    "Verif.MapQ.Given.C295_box",
    "Verif.MapQ.Given.C295_counterexample_bounds",
    "Verif.MapQ.Given.C295_counterexample_empty",
    "Verif.MapQ.Given.C295_counterexample_array",
    "Verif.MapQ.Given.C295_counterexample_area"
   ],
   "note": "missing: points with more than two numbers, one polygon as an array, an empty list as spillable area, where the claim is false"
  },
  {
   "property": "C296",
   "status": "partial",
   "theorems": [
    "Verif.Run.Ask.C296_partial",
    "Verif.Run.Ask.C296_class",
    "Verif.Run.Ask.C296_attr",
    "Verif.Run.Ask.C296_counterexample"
   ],
   "note": "searches are complete; objects within objects are not found"
  },
  {
   "property": "C297",
   "status": "partial",
   "theorems": [
    "Verif.Run.Ask.C297_partial",
    "Verif.Run.Ask.C297_word",
    "Verif.Run.Ask.C297_counterexample"
   ],
   "note": "missing: taking back what was added before an unknown name, where the claim is false"
  },
  {
   "property": "C298",
   "status": "proved",
   "theorems": [
    "Verif.RectGrid.Nc.C298_land",
    "Verif.RectGrid.Nc.C298_refused"
   ],
   "note": "increasing axes of two or more points"
  },
  {
   "property": "C299",
   "status": "proved",
   "theorems": [
    "Verif.Bna.Raster.C299_bound",
    "Verif.Bna.Raster.C299_made",
    "Verif.Bna.Raster.C299_square"
   ],
   "note": "the ratio on the ground is given and positive"
  },
  {
   "property": "C30",
   "status": "partial",
   "theorems": [
    "Verif.Output.C30_start_time_partial",
    "Verif.Output.C30_cadence_from_start",
    "Verif.Output.C30_counterexample_zero",
    "Verif.Output.C30_counterexample_backward",
    "Verif.Output.C30_start_before_model"
   ],
   "note": "holds for forward runs from step 1 on; false for step 0, backward runs, start times before the model start"
  },
  {
   "property": "C300",
   "status": "partial",
   "theorems": [
    "Verif.Bna.Raster.C300_last",
    "Verif.Bna.Raster.C300_none",
    "Verif.Bna.Raster.C300_partial",
    "Verif.Bna.Raster.C300_counterexample"
   ],
   "note": "holds where polygons come after those around them; false for islands before their lake"
  },
  {
   "property": "C301",
   "status": "proved",
   "theorems": [
    "Verif.OutFiles.IceJson.C301_partition",
    "Verif.OutFiles.IceJson.C301_round",
    "Verif.OutFiles.IceJson.C301_short"
   ],
   "note": ""
  },
  {
   "property": "C302",
   "status": "partial",
   "theorems": [
    "Verif.OutFiles.IceJson.C302_partial",
    "Verif.OutFiles.IceJson.C302_never",
    "Verif.OutFiles.IceJson.C302_order",
    "Verif.OutFiles.IceJson.C302_counterexample"
   ],
   "note": "false for every feature: the level of rings is missing; what is written would be valid with that level and closed rings"
  },
  {
   "property": "C303",
   "status": "partial",
   "theorems": [
    "Verif.GridCur.Arrow.C303_staggered",
    "Verif.GridCur.Arrow.C303_turned",
    "Verif.GridCur.Arrow.C303_turn",
    "Verif.GridCur.Arrow.C303_cells",
    "Verif.GridCur.Arrow.C303_partial",
    "Verif.GridCur.Arrow.C303_counterexample"
   ],
   "note": "false where values at centres are missing in cells that are not masked"
  },
  {
   "property": "C304",
   "status": "proved",
   "theorems": [
    "Verif.Mover.C304_order",
    "Verif.Mover.C304_sum",
    "Verif.Mover.C304_alone",
    "Verif.Mover.C304_inactive"
   ],
   "note": "with the random numbers given for each mover; exact arithmetic"
  },
  {
   "property": "C305",
   "status": "proved",
   "theorems": [
    "Verif.Run.Repeat.C305_settings",
    "Verif.Run.Repeat.C305_again"
   ],
   "note": "exceptions, and what spills, maps and weatherers keep, are treated under C98, C19, C62, C170"
  },
  {
   "property": "C306",
   "status": "partial",
   "theorems": [
    "Verif.Run.Repeat.C306_partial",
    "Verif.Run.Repeat.C306_counterexample"
   ],
   "note": "false: the generators belong to the process; holds if the other model draws nothing"
  },
  {
   "property": "C307",
   "status": "partial",
   "theorems": [
    "Verif.Run.Repeat.C307_partial",
    "Verif.Run.Repeat.C307_counterexample"
   ],
   "note": "false with diffusion, refloating or short windage persistence: the uncertain elements use up numbers; holds if nothing in the forecast is random"
  },
  {
   "property": "C308",
   "status": "partial",
   "theorems": [
    "Verif.Mover.C308_north",
    "Verif.Mover.C308_east",
    "Verif.Mover.C308_miss",
    "Verif.Mover.C308_partial",
    "Verif.Mover.C308_counterexample"
   ],
   "note": "false for oblique currents, by exactly the amount of C308_miss; holds along meridians and parallels"
  },
  {
   "property": "C309",
   "status": "partial",
   "theorems": [
    "Verif.Canvas.PropVec.C309_partial",
    "Verif.Canvas.PropVec.C309_first",
    "Verif.Canvas.PropVec.C309_late",
    "Verif.Canvas.PropVec.C309_counterexample"
   ],
   "note": "false at and before the first time (the last record is shown) and after the last (raises); holds in between"
  },
  {
   "property": "C31",
   "status": "proved",
   "theorems": [
    "Verif.Land.C31_find_first",
    "Verif.Land.C31_check_land"
   ],
   "note": "Full functional specification of the march (first stop of the straight path) and of check_land on a list of elements. A diagonal squeeze between two land pixels also counts as a hit, the hit pixel then is one of the two."
  },
  {
   "property": "C310",
   "status": "partial",
   "theorems": [
    "Verif.Canvas.PropVec.C310_partial",
    "Verif.Canvas.PropVec.C310_unmasked",
    "Verif.Canvas.PropVec.C310_grid",
    "Verif.Canvas.PropVec.C310_counterexample",
    "Verif.Canvas.PropVec.C310_counterexample_dot"
   ],
   "note": "false with masks: dots at 0, 0 and centres of faces overwritten; holds without a mask, and for nodes away from 0, 0"
  },
  {
   "property": "C311",
   "status": "partial",
   "theorems": [
    "Verif.Run.OnOff.C311_partial",
    "Verif.Run.OnOff.C311_needs",
    "Verif.Run.OnOff.C311_counterexample",
    "Verif.Run.OnOff.C311_counterexample_weathering",
    "Verif.Run.OnOff.C311_counterexample_time"
   ],
   "note": "false for what is off when a run begins; exactly when is C311_needs"
  },
  {
   "property": "C312",
   "status": "partial",
   "theorems": [
    "Verif.Persist.Fetch.C312_partial",
    "Verif.Persist.Fetch.C312_kept",
    "Verif.Persist.Fetch.C312_asked",
    "Verif.Persist.Fetch.C312_others",
    "Verif.Persist.Fetch.C312_broken",
    "Verif.Persist.Fetch.C312_counterexample",
    "Verif.Persist.Fetch.C312_slash"
   ],
   "note": "false for connections that are closed early or break off"
  },
  {
   "property": "C313",
   "status": "partial",
   "theorems": [
    "Verif.NatWeath.Bio.C313_partial",
    "Verif.NatWeath.Bio.C313_kinds",
    "Verif.NatWeath.Bio.C313_steps",
    "Verif.NatWeath.Bio.C313_aromatics",
    "Verif.NatWeath.Bio.C313_never",
    "Verif.NatWeath.Bio.C313_saved",
    "Verif.NatWeath.Bio.C313_counterexample"
   ],
   "note": "false: an oil object never gets the attribute sara_type, so both fail with the first element, and arctic conditions are not saved; proved for oils whose kinds of components are set by hand"
  },
  {
   "property": "C314",
   "status": "proved",
   "theorems": [
    "Verif.Geom.Great.C314_circle",
    "Verif.Geom.Great.C314_distance",
    "Verif.Geom.Great.C314_latitude",
    "Verif.Geom.Great.C314_north",
    "Verif.Geom.Great.C314_degree"
   ],
   "note": "over real numbers; from the poles only the distance is proved (over the reals arctan2 of 0, 0 loses the bearing there)"
  },
  {
   "property": "C315",
   "status": "partial",
   "theorems": [
    "Verif.Release.C315_partial",
    "Verif.Release.C315_start",
    "Verif.Release.C315_at_once",
    "Verif.Release.C315_never",
    "Verif.Release.C315_counterexample"
   ],
   "note": "proved forwards and for spills at the start of a run backwards; false for later spills of runs backwards, which are there from the first output on"
  },
  {
   "property": "C316",
   "status": "partial",
   "theorems": [
    "Verif.MapQ.Param.C316_partial",
    "Verif.MapQ.Param.C316_least",
    "Verif.MapQ.Param.C316_middle",
    "Verif.MapQ.Param.C316_north",
    "Verif.MapQ.Param.C316_update",
    "Verif.MapQ.Param.C316_counterexample"
   ],
   "note": "proved on the equator and for shores to the east and west; false elsewhere, where the shore is further away than given"
  },
  {
   "property": "C317",
   "status": "partial",
   "theorems": [
    "Verif.Dag.Topo.C317_partial",
    "Verif.Dag.Topo.C317_read",
    "Verif.Dag.Topo.C317_coordinate",
    "Verif.Dag.Topo.C317_whole",
    "Verif.Dag.Topo.C317_counterexample"
   ],
   "note": "false for the vertices, which move by up to a millionth of a degree towards zero; the rest comes back"
  },
  {
   "property": "C318",
   "status": "partial",
   "theorems": [
    "Verif.Output.Pt.C318_partial",
    "Verif.Output.Pt.C318_count",
    "Verif.Output.Pt.C318_style",
    "Verif.Output.Pt.C318_below",
    "Verif.Output.Pt.C318_counterexample"
   ],
   "note": "false: elements on a dry tide flat are left out, and elements below the surface are shown as floating; proved where there are neither, the number of points, the styles and times for all"
  },
  {
   "property": "C319",
   "status": "partial",
   "theorems": [
    "Verif.Canvas.Cmap.C319_partial",
    "Verif.Canvas.Cmap.C319_order",
    "Verif.Canvas.Cmap.C319_units",
    "Verif.Canvas.Cmap.C319_single",
    "Verif.Canvas.Cmap.C319_bytes",
    "Verif.Canvas.Cmap.C319_cut",
    "Verif.Canvas.Cmap.C319_counterexample"
   ],
   "note": "false for the range 0-255, which is used if none is given: values are cut off and taken modulo 256; proved for all other ranges"
  },
  {
   "property": "C32",
   "status": "proved",
   "theorems": [
    "Verif.Land.C32_march_is_path",
    "Verif.Land.C32_path_shape",
    "Verif.Land.C32_path_near_line",
    "Verif.Land.C32_terminates",
    "Verif.Land.C32_no_overflow"
   ],
   "note": "Integers unbounded in the model; C32_no_overflow gives a range in which int32 suffices."
  },
  {
   "property": "C320",
   "status": "partial",
   "theorems": [
    "Verif.Output.LandImg.C320_partial",
    "Verif.Output.LandImg.C320_map",
    "Verif.Output.LandImg.C320_kind",
    "Verif.Output.LandImg.C320_object",
    "Verif.Output.LandImg.C320_counterexample"
   ],
   "note": "false: bounds spelled without a space are drawn as land, so are polygons that the map leaves out, maps without a file and land given as points cannot be drawn, and a map's bounds and spillable areas are never shown; proved for files of tidy polygons and for land and lakes of their maps"
  },
  {
   "property": "C321",
   "status": "partial",
   "theorems": [
    "Verif.Output.Stamp.C321_partial",
    "Verif.Output.Stamp.C321_names",
    "Verif.Output.Stamp.C321_ignored",
    "Verif.Output.Stamp.C321_counterexample"
   ],
   "note": "false: the documented names dt_format and align have no effect (format and alignment do); proved for all other attributes"
  },
  {
   "property": "C322",
   "status": "partial",
   "theorems": [
    "Verif.Fields.Src.C322_partial",
    "Verif.Fields.Src.C322_name",
    "Verif.Fields.Src.C322_counterexample"
   ],
   "note": "false: filename replaces data_file and grid_file although it is documented as the default of lowest priority; proved if it is not given with another file"
  },
  {
   "property": "C323",
   "status": "partial",
   "theorems": [
    "Verif.Fields.Src.C323_partial",
    "Verif.Fields.Src.C323_given",
    "Verif.Fields.Src.C323_two",
    "Verif.Fields.Src.C323_lacks",
    "Verif.Fields.Src.C323_ignored",
    "Verif.Fields.Src.C323_counterexample"
   ],
   "note": "false: the data of an ice file are never looked at, the ice is that of the current's file; proved without an ice file and for ice that is given"
  },
  {
   "property": "C324",
   "status": "partial",
   "theorems": [
    "Verif.GridCur.Open.C324_partial",
    "Verif.GridCur.Open.C324_wind",
    "Verif.GridCur.Open.C324_ice",
    "Verif.GridCur.Open.C324_list",
    "Verif.GridCur.Open.C324_formats",
    "Verif.GridCur.Open.C324_units",
    "Verif.GridCur.Open.C324_counterexample",
    "Verif.GridCur.Open.C324_counterexample_wind",
    "Verif.GridCur.Open.C324_counterexample_newer"
   ],
   "note": "false: winds on triangles are read as regular grids, movers of ice call a null pointer for other grids than curvilinear ones, netCDF-4 files are refused; proved for movers of currents and classic files"
  },
  {
   "property": "C325",
   "status": "partial",
   "theorems": [
    "Verif.GridCur.Resolve.C325_partial",
    "Verif.GridCur.Resolve.C325_first",
    "Verif.GridCur.Resolve.C325_moved",
    "Verif.GridCur.Resolve.C325_windows",
    "Verif.GridCur.Resolve.C325_there",
    "Verif.GridCur.Resolve.C325_root",
    "Verif.GridCur.Resolve.C325_counterexample"
   ],
   "note": "false: a file of the same name where the program runs is taken first; proved when there is none"
  },
  {
   "property": "C326",
   "status": "partial",
   "theorems": [
    "Verif.TGrid.NcTimes.C326_partial",
    "Verif.TGrid.NcTimes.C326_zone",
    "Verif.TGrid.NcTimes.C326_float",
    "Verif.TGrid.NcTimes.C326_counterexample",
    "Verif.TGrid.NcTimes.C326_capital",
    "Verif.TGrid.NcTimes.C326_hour",
    "Verif.TGrid.NcTimes.C326_year1900",
    "Verif.TGrid.NcTimes.C326_single"
   ],
   "note": "proved with the unit in full and without a capital T; false for abbreviations, capitals, time zones, 1900 from March on in curvilinear grids, values that are no float in triangular grids"
  },
  {
   "property": "C327",
   "status": "partial",
   "theorems": [
    "Verif.TGrid.NcTimes.C327_partial",
    "Verif.TGrid.NcTimes.C327_offset",
    "Verif.TGrid.NcTimes.C327_counterexample"
   ],
   "note": "proved for lists of files, files that are not netCDF, or no offset; with one netCDF file the offset is left out"
  },
  {
   "property": "C328",
   "status": "proved",
   "theorems": [
    "Verif.TGrid.CurvTri.C328_neighbours",
    "Verif.TGrid.CurvTri.C328_valid",
    "Verif.TGrid.CurvTri.C328_count",
    "Verif.TGrid.CurvTri.C328_cell"
   ],
   "note": "the two forms of reordering (cells of the file; cells between points) are one model with rows and columns of cells as parameters"
  },
  {
   "property": "C329",
   "status": "proved",
   "theorems": [
    "Verif.TGrid.CurvTri.C329_index",
    "Verif.TGrid.CurvTri.C329_cell",
    "Verif.TGrid.CurvTri.C329_corners",
    "Verif.TGrid.CurvTri.C329_place",
    "Verif.TGrid.CurvTri.C329_point"
   ],
   "note": "positions are exact numbers"
  },
  {
   "property": "C33",
   "status": "partial",
   "theorems": [
    "Verif.Land.C33_layers_sound_partial",
    "Verif.Land.C33_layers_agree_partial",
    "Verif.Land.C33_counterexample"
   ],
   "note": "The claim is false: the layered check can miss land (counterexample with the code's own ratio). Proved: its hits are real, and it agrees on moves within one row or column of coarse cells."
  },
  {
   "property": "C330",
   "status": "partial",
   "theorems": [
    "Verif.TGrid.CurvTri.C330_partial",
    "Verif.TGrid.CurvTri.C330_counterexample"
   ],
   "note": "a cell is water exactly if it moves in the first record"
  },
  {
   "property": "C331",
   "status": "partial",
   "theorems": [
    "Verif.TGrid.Vels.C331_partial",
    "Verif.TGrid.Vels.C331_curved",
    "Verif.TGrid.Vels.C331_counterexample",
    "Verif.TGrid.Vels.C331_cells",
    "Verif.TGrid.Vels.C331_all",
    "Verif.TGrid.Vels.C331_nodes"
   ],
   "note": "counts agree for triangles and regular grids; on curvilinear grids the Python call raises; what the C++ computes for them is proved to be the velocity of the cell around each point when data are on cells"
  },
  {
   "property": "C332",
   "status": "partial",
   "theorems": [
    "Verif.OutFiles.NcFile.C332_partial",
    "Verif.OutFiles.NcFile.C332_plain",
    "Verif.OutFiles.NcFile.C332_zip",
    "Verif.OutFiles.NcFile.C332_names",
    "Verif.OutFiles.NcFile.C332_counterexample",
    "Verif.OutFiles.NcFile.C332_counterexample_name",
    "Verif.OutFiles.NcFile.C332_counterexample_zip"
   ],
   "note": "outputters as built, whose name does not end in .zip when zipped"
  },
  {
   "property": "C333",
   "status": "partial",
   "theorems": [
    "Verif.OutFiles.NcFile.C333_partial",
    "Verif.OutFiles.NcFile.C333_lost",
    "Verif.OutFiles.NcFile.C333_counterexample"
   ],
   "note": "without zip_output; with it, it is proved that every run of a loaded outputter loses its output"
  },
  {
   "property": "C334",
   "status": "proved",
   "theorems": [
    "Verif.Release.PolySet.C334_one",
    "Verif.Release.PolySet.C334_shapes",
    "Verif.Release.PolySet.C334_shown",
    "Verif.Release.PolySet.C334_made",
    "Verif.Release.PolySet.C334_absent"
   ],
   "note": "releases made from polygons"
  },
  {
   "property": "C335",
   "status": "partial",
   "theorems": [
    "Verif.Release.PolySet.C335_partial",
    "Verif.Release.PolySet.C335_unset",
    "Verif.Release.PolySet.C335_counterexample",
    "Verif.Release.PolySet.C335_counterexample_none"
   ],
   "note": "lists of the right length, and None when every feature has a value"
  },
  {
   "property": "C336",
   "status": "partial",
   "theorems": [
    "Verif.Release.PolySet.C336_partial",
    "Verif.Release.PolySet.C336_weights",
    "Verif.Release.PolySet.C336_areas",
    "Verif.Release.PolySet.C336_counterexample"
   ],
   "note": "thicknesses one for each polygon"
  },
  {
   "property": "C337",
   "status": "partial",
   "theorems": [
    "Verif.Persist.Deser.C337_partial",
    "Verif.Persist.Deser.C337_counterexample"
   ],
   "note": "Proved when objects mentioned again have no objects in them; refuted for waves mentioned twice with their wind: the second mention makes a second wind."
  },
  {
   "property": "C338",
   "status": "proved",
   "theorems": [
    "Verif.Shio.Harm.C338_height",
    "Verif.Shio.Harm.C338_current",
    "Verif.Shio.Harm.C338_hydraulic",
    "Verif.Shio.Harm.C338_range",
    "Verif.Shio.Harm.C338_strongest",
    "Verif.Shio.Harm.C338_speeds"
   ],
   "note": "Real numbers; the station has as many constituents as its arrays."
  },
  {
   "property": "C339",
   "status": "partial",
   "theorems": [
    "Verif.Shio.Rotary.C339_speed",
    "Verif.Shio.Rotary.C339_axes",
    "Verif.Shio.Rotary.C339_east_north",
    "Verif.Shio.Rotary.C339_parts",
    "Verif.Shio.Rotary.C339_sign",
    "Verif.Shio.Rotary.C339_opposite",
    "Verif.Shio.Rotary.C339_history",
    "Verif.Shio.Rotary.C339_directions",
    "Verif.Shio.Rotary.C339_counterexample",
    "Verif.Shio.Rotary.C339_counterexample_directions"
   ],
   "note": "Proved except for the sign at the start of a curve, refuted for flood and ebb on both sides of east; directions out of range are not errors."
  },
  {
   "property": "C34",
   "status": "partial",
   "theorems": [
    "Verif.Cleanup.C34_one_step",
    "Verif.Cleanup.C34_duration_partial",
    "Verif.Cleanup.C34_amount_partial",
    "Verif.Cleanup.C34_counterexample"
   ],
   "note": "False for an operation strictly inside of one step (the time before its start is counted too). Proved exactly otherwise, and the exact excess per step."
  },
  {
   "property": "C340",
   "status": "partial",
   "theorems": [
    "Verif.Shio.Year.C340_partial",
    "Verif.Shio.Year.C340_late",
    "Verif.Shio.Year.C340_counterexample",
    "Verif.Shio.Year.C340_period_partial",
    "Verif.Shio.Year.C340_counterexample_period",
    "Verif.Shio.Year.C340_limits"
   ],
   "note": "Refuted for tides with different folders in 1990-2019, and for the first six hours after data_start; proved otherwise."
  },
  {
   "property": "C341",
   "status": "partial",
   "theorems": [
    "Verif.NatWeath.Lib.C341_element",
    "Verif.NatWeath.Lib.C341_partial",
    "Verif.NatWeath.Lib.C341_counterexample"
   ],
   "note": "Refuted for no elements (IndexError of the compiled function), proved for one or more. Real numbers."
  },
  {
   "property": "C342",
   "status": "proved",
   "theorems": [
    "Verif.Mover.C342_wind",
    "Verif.Mover.C342_current",
    "Verif.Mover.C342_scale",
    "Verif.Mover.m2l_alike"
   ],
   "note": "Real numbers: single precision of the library is not modelled. Under water WindMover differs (C95); in winds that change the methods differ."
  },
  {
   "property": "C343",
   "status": "partial",
   "theorems": [
    "Verif.Mover.LibUnc.C343_keeps_partial",
    "Verif.Mover.LibUnc.C343_counterexample"
   ],
   "note": "Fails when elements are removed while the mover is not active."
  },
  {
   "property": "C344",
   "status": "partial",
   "theorems": [
    "Verif.Mover.LibUnc.C344_delay_partial",
    "Verif.Mover.LibUnc.C344_late",
    "Verif.Mover.LibUnc.C344_backwards",
    "Verif.Mover.LibUnc.C344_counterexample",
    "Verif.Mover.LibUnc.C344_counterexample_late"
   ],
   "note": "Fails backwards for gridded movers, and for movers that become active later."
  },
  {
   "property": "C345",
   "status": "partial",
   "theorems": [
    "Verif.Mover.LibUnc.C345_hours_partial",
    "Verif.Mover.LibUnc.C345_counterexample"
   ],
   "note": "The values are taken as hours."
  },
  {
   "property": "C346",
   "status": "partial",
   "theorems": [
    "Verif.Persist.Copy.C346_random",
    "Verif.Persist.Copy.C346_cats_partial",
    "Verif.Persist.Copy.C346_draws",
    "Verif.Persist.Copy.C346_lost",
    "Verif.Persist.Copy.C346_exact",
    "Verif.Persist.Copy.C346_counterexample",
    "Verif.Persist.Copy.C346_counterexample_class",
    "Verif.Persist.Copy.C346_series_partial",
    "Verif.Persist.Copy.C346_series",
    "Verif.Persist.Copy.C346_tide_partial",
    "Verif.Persist.Copy.C346_tide_made",
    "Verif.Persist.Copy.C346_counterexample_times",
    "Verif.Persist.Copy.C346_counterexample_units"
   ],
   "note": "Copies of movers with patterns, of series from files and of tides lose settings."
  },
  {
   "property": "C347",
   "status": "partial",
   "theorems": [
    "Verif.Run.Age.C347_age_partial",
    "Verif.Run.Age.C347_steps",
    "Verif.Run.Age.C347_exact",
    "Verif.Run.Age.C347_backwards",
    "Verif.Run.Age.C347_counterexample"
   ],
   "note": "Fails for time steps with fractions of a second."
  },
  {
   "property": "C348",
   "status": "proved",
   "theorems": [
    "Verif.OutFiles.BinFile.C348_header",
    "Verif.OutFiles.BinFile.C348_elements",
    "Verif.OutFiles.BinFile.C348_hours"
   ],
   "note": "Rounding to single precision is any function with the relative error of the format."
  },
  {
   "property": "C349",
   "status": "partial",
   "theorems": [
    "Verif.Run.Settings.C349_settings_partial",
    "Verif.Run.Settings.C349_begins",
    "Verif.Run.Settings.C349_made",
    "Verif.Run.Settings.C349_counterexample",
    "Verif.Run.Settings.C349_counterexample_made",
    "Verif.Run.Settings.C349_counterexample_goes_on"
   ],
   "note": "weathering_substeps, make_default_refs, fractions of the step and a step left open are lost; a run that was saved does not go on."
  },
  {
   "property": "C35",
   "status": "partial",
   "theorems": [
    "Verif.Cleanup.C35_marking_partial",
    "Verif.Cleanup.C35_counterexample"
   ],
   "note": "Proved for positive targets; a zero target marks one element."
  },
  {
   "property": "C350",
   "status": "partial",
   "theorems": [
    "Verif.Run.Shift.C350_active",
    "Verif.Run.Shift.C350_series",
    "Verif.Run.Shift.C350_average_partial",
    "Verif.Run.Shift.C350_counterexample_average",
    "Verif.Run.Shift.C350_data",
    "Verif.Run.Shift.C350_prepare",
    "Verif.Run.Shift.C350_release",
    "Verif.Run.Shift.C350_written",
    "Verif.Run.Shift.C350_clock",
    "Verif.Run.Shift.C350_full_run"
   ],
   "note": "all but the running average at the epoch of 1970, which the library takes for no time given"
  },
  {
   "property": "C351",
   "status": "partial",
   "theorems": [
    "Verif.Run.Extend.C351_clock",
    "Verif.Run.Extend.C351_output_partial",
    "Verif.Run.Extend.C351_counterexample_output"
   ],
   "note": "missing: outputters with output_zero_step False and no output interval, where the claim is false"
  },
  {
   "property": "C352",
   "status": "partial",
   "theorems": [
    "Verif.MapStep.East.C352_polygon",
    "Verif.MapStep.East.C352_projection",
    "Verif.MapStep.East.C352_run_partial",
    "Verif.MapStep.East.C352_counterexample",
    "Verif.Mover.East.C352_delta",
    "Verif.Mover.East.C352_move",
    "Verif.Mover.East.C352_positions"
   ],
   "note": "missing: elements released on land, which refloat to longitude and latitude 0, where the claim is false"
  },
  {
   "property": "C353",
   "status": "proved",
   "theorems": [
    "Verif.MapStep.Course.C353_bare",
    "Verif.MapStep.Course.C353_same"
   ],
   "note": "the displacements are given, so a mover that looked at masses would be outside of the model (none does)"
  },
  {
   "property": "C354",
   "status": "partial",
   "theorems": [
    "Verif.TSeries.AvgObj.C354_partial",
    "Verif.TSeries.AvgObj.C354_run",
    "Verif.TSeries.AvgObj.C354_run_same",
    "Verif.TSeries.AvgObj.C354_run_none",
    "Verif.TSeries.AvgObj.C354_step",
    "Verif.TSeries.AvgObj.C354_inRange",
    "Verif.TSeries.AvgObj.C354_origin",
    "Verif.TSeries.AvgObj.C354_made",
    "Verif.TSeries.AvgObj.C354_reaches",
    "Verif.TSeries.AvgObj.C354_counterexample",
    "Verif.TSeries.AvgObj.C354_hours",
    "Verif.TSeries.AvgObj.C354_counterexample_reach"
   ],
   "note": "prepare_for_model_step does nothing while the stored series reaches the time, so a changed wind or changed hours are not noticed during a run (C354_counterexample, C354_hours); a wind of two days or less whose times do not come out even with the step of the average is not reached to its end (C354_counterexample_reach). Proved: a run that is prepared renews the average whatever was before, the stored series is always one whole average, it is that of the wind while wind and hours are left alone, and it reaches the time of the step for winds of more than two days"
  },
  {
   "property": "C355",
   "status": "partial",
   "theorems": [
    "Verif.MapStep.Spills.C355_partial",
    "Verif.MapStep.Spills.C355_nothing",
    "Verif.MapStep.Spills.C355_order",
    "Verif.MapStep.Spills.C355_counterexample",
    "Verif.MapStep.Spills.runOf_run"
   ],
   "note": "when refloating is by chance (a positive half-life) the random numbers are handed out in the order of the elements of all spills, so adding a spill changes which elements of the others refloat (C355_counterexample). Proved for half-lives of zero and below (no chance), with movers as functions of place and time and losses as functions of the element"
  },
  {
   "property": "C356",
   "status": "partial",
   "theorems": [
    "Verif.Mover.ZeroUnc.C356_partial",
    "Verif.Mover.ZeroUnc.C356_one",
    "Verif.Mover.ZeroUnc.C356_counterexample",
    "Verif.Mover.ZeroUnc.C356_counterexample_python"
   ],
   "note": "in wind below one metre per second both wind movers use a diffusion that no setting turns off: the compiled one adds a random wind, the Python one replaces the wind (two counterexamples). Proved for SimpleMover, CurrentMover, RandomMover and, from one metre per second up, WindMover and PointWindMover, in any combination"
  },
  {
   "property": "C357",
   "status": "partial",
   "theorems": [
    "Verif.Shio.Flood.C357_partial",
    "Verif.Shio.Flood.C357_all",
    "Verif.Shio.Flood.C357_counterexample_ebb",
    "Verif.Shio.Flood.C357_counterexample_zero",
    "Verif.Shio.Flood.C357_counterexample_sample",
    "Verif.Shio.Flood.C357_counterexample_flat"
   ],
   "note": "false in the code when the station begins in an ebb that slackens without turning, when the current is exactly zero at a minute or a sample and when two samples are equal; the events of rotary stations and the extra times of FindExtraFE are not modelled"
  },
  {
   "property": "C358",
   "status": "partial",
   "theorems": [
    "Verif.Shio.Ends.C358_partial",
    "Verif.Shio.Ends.C358_curve",
    "Verif.Shio.Ends.C358_events",
    "Verif.Shio.Ends.C358_reset",
    "Verif.Shio.Ends.C358_counterexample"
   ],
   "note": "false in the code for heights with a point exactly at the end of the time; the conversion to whole seconds is not modelled"
  },
  {
   "property": "C359",
   "status": "partial",
   "theorems": [
    "Verif.Mover.C359_partial",
    "Verif.Mover.C359_close",
    "Verif.Mover.C359_counterexample"
   ],
   "note": "false for oblique currents, with the bound of C359_close; holds along meridians and parallels"
  },
  {
   "property": "C36",
   "status": "proved",
   "theorems": [
    "Verif.Cleanup.C36_skim",
    "Verif.Cleanup.C36_burn",
    "Verif.Cleanup.C36_disperse",
    "Verif.Cleanup.C36_beach"
   ],
   "note": "Under the assumption that an element's mass is the sum of its non-negative components and rates are not negative."
  },
  {
   "property": "C360",
   "status": "partial",
   "theorems": [
    "Verif.NatWeath.C360_evaporation",
    "Verif.NatWeath.C360_dispersion",
    "Verif.NatWeath.C360_dispersion_Li",
    "Verif.NatWeath.C360_biodegradation",
    "Verif.NatWeath.C360_emulsification",
    "Verif.NatWeath.C360_dissolution_partial",
    "Verif.NatWeath.C360_counterexample",
    "Verif.Spread.C360_fay",
    "Verif.Spread.C360_langmuir",
    "Verif.Spread.C360_release"
   ],
   "note": "false for dissolution from the slick (product of the winds at all elements); proved for everything else"
  },
  {
   "property": "C361",
   "status": "partial",
   "theorems": [
    "Verif.Land.C361_east_west",
    "Verif.Land.C361_south_north",
    "Verif.Land.C361_diagonal",
    "Verif.Land.C361_back_partial",
    "Verif.Land.C361_noTie",
    "Verif.Land.C361_counterexample",
    "Verif.Land.C361_counterexample_layers",
    "Verif.Land.C361_layers_east_west_partial",
    "Verif.Land.C361_layers_south_north_partial",
    "Verif.Land.C361_counterexample_outside"
   ],
   "note": "way back false where two pixels are equally near; check in layers proved on mirrored rasters of whole coarse cells for moves on the raster, false otherwise"
  },
  {
   "property": "C362",
   "status": "partial",
   "theorems": [
    "Verif.Cleanup.C362_skim",
    "Verif.Cleanup.C362_burn",
    "Verif.Cleanup.C362_disperse",
    "Verif.Cleanup.C362_beach",
    "Verif.Cleanup.C362_skim_steps",
    "Verif.Cleanup.C362_marking_partial",
    "Verif.Cleanup.C362_counterexample"
   ],
   "note": "removal proved in full; marking takes whole elements, so that the amount marked depends on their number"
  },
  {
   "property": "C363",
   "status": "proved",
   "theorems": [
    "Verif.Mover.C363_methods",
    "Verif.Mover.C363_mover",
    "Verif.Mover.C363_step",
    "Verif.Mover.C363_run",
    "Verif.Mover.C363_exists"
   ],
   "note": "all modelled movers; exact real arithmetic; runs away from shores (land check mirrored: C361)"
  },
  {
   "property": "C364",
   "status": "partial",
   "theorems": [
    "Verif.Waves.C364_calm",
    "Verif.Waves.C364_sign_partial",
    "Verif.Waves.C364_waves_partial",
    "Verif.Waves.C364_counterexample_turbulence",
    "Verif.Waves.C364_drag",
    "Verif.Waves.C364_whitecaps_partial",
    "Verif.Waves.C364_counterexample_whitecaps",
    "Verif.Waves.C364_counterexample"
   ],
   "note": "the turbulence of waves too high for the wind is negative, and more than 100 percent of the sea is covered in 50 m/s; the rest proved"
  },
  {
   "property": "C365",
   "status": "partial",
   "theorems": [
    "Verif.Roc.Thick.C365_same_partial",
    "Verif.Roc.Thick.C365_thinner_partial",
    "Verif.Roc.Thick.C365_counterexample",
    "Verif.Roc.Thick.C365_counterexample_empty",
    "Verif.Roc.Thick.C365_order",
    "Verif.Roc.Thick.C365_parts",
    "Verif.Roc.Thick.C365_none",
    "Verif.Roc.Thick.C365_dosage"
   ],
   "note": "exact if all elements hold the same share of water; the mean of the water is taken over elements, not over oil"
  },
  {
   "property": "C366",
   "status": "partial",
   "theorems": [
    "Verif.Mover.C366_currents_partial",
    "Verif.Mover.C366_winds_partial",
    "Verif.Mover.C366_point_winds",
    "Verif.Mover.C366_simple",
    "Verif.Mover.C366_near_partial",
    "Verif.Mover.C366_counterexample_rk2",
    "Verif.Mover.C366_counterexample"
   ],
   "note": "exact for Euler, and for all methods where the fields are uniform in space; RK2 and RK4 look ahead along one field only"
  },
  {
   "property": "C367",
   "status": "proved",
   "theorems": [
    "Verif.Mover.C367_methods",
    "Verif.Mover.C367_mover",
    "Verif.Mover.C367_step",
    "Verif.Mover.C367_run",
    "Verif.Mover.C367_places"
   ],
   "note": "all modelled movers, winds without uncertainty; exact real arithmetic; away from shores"
  },
  {
   "property": "C368",
   "status": "proved",
   "theorems": [
    "Verif.NatWeath.C368_evaporation",
    "Verif.NatWeath.C368_dispersion",
    "Verif.NatWeath.C368_dispersion_Li",
    "Verif.NatWeath.C368_emulsification",
    "Verif.NatWeath.C368_dissolution",
    "Verif.NatWeath.C368_biodegradation"
   ],
   "note": "exact real arithmetic; share of the slick scaled with the mass"
  },
  {
   "property": "C369",
   "status": "partial",
   "theorems": [
    "Verif.OutFiles.Label.C369_convert",
    "Verif.OutFiles.Label.C369_refused",
    "Verif.OutFiles.Label.C369_amount",
    "Verif.OutFiles.Label.C369_order",
    "Verif.OutFiles.Label.C369_partial",
    "Verif.OutFiles.Label.C369_shown",
    "Verif.OutFiles.Label.C369_counterexample"
   ],
   "note": "holds for units of mass, for oils of one density, or if spills are not put together; the text of a group uses the density of its first spill"
  },
  {
   "property": "C37",
   "status": "partial",
   "theorems": [
    "Verif.Cleanup.C37_beaching_partial",
    "Verif.Cleanup.C37_counterexample"
   ],
   "note": "Proved when the active start is on the step grid or before the run; otherwise the first active step raises."
  },
  {
   "property": "C370",
   "status": "proved",
   "theorems": [
    "Verif.TimeUtil.Zone.C370_title",
    "Verif.TimeUtil.Zone.C370_titled",
    "Verif.TimeUtil.Zone.C370_shift",
    "Verif.TimeUtil.Zone.C370_delta",
    "Verif.TimeUtil.Zone.C370_same",
    "Verif.TimeUtil.Zone.C370_saved",
    "Verif.TimeUtil.Zone.C370_width"
   ],
   "note": "exact arithmetic; offsets whose fraction is not exact in binary may have a title that is a minute off"
  },
  {
   "property": "C371",
   "status": "partial",
   "theorems": [
    "Verif.Spread.State.C371_partial",
    "Verif.Spread.State.C371_none",
    "Verif.Spread.State.C371_steps",
    "Verif.Spread.State.C371_sinks",
    "Verif.Spread.State.C371_kept",
    "Verif.Spread.State.C371_counterexample",
    "Verif.Spread.State.C371_counterexample_late",
    "Verif.Spread.State.C371_counterexample_release",
    "Verif.Spread.State.C371_counterexample_stale"
   ],
   "note": "holds if spreading is on when the run begins (or areas are wanted) and at the first release; false if it is switched on later"
  },
  {
   "property": "C372",
   "status": "partial",
   "theorems": [
    "Verif.TGrid.WindCurv.C372_nodes",
    "Verif.TGrid.WindCurv.C372_refused",
    "Verif.TGrid.WindCurv.C372_between",
    "Verif.TGrid.WindCurv.C372_one",
    "Verif.TGrid.WindCurv.C372_partial",
    "Verif.TGrid.WindCurv.C372_cells_refused",
    "Verif.TGrid.WindCurv.C372_counterexample",
    "Verif.TGrid.WindCurv.C372_counterexample_gap",
    "Verif.TGrid.WindCurv.C372_counterexample_single",
    "Verif.TGrid.WindCurv.C372_counterexample_outside"
   ],
   "note": "values of cells with several files are wrong in the code (counterexamples); outside of the grid nothing is set; finding the cell and its weights is not modelled; exact arithmetic; sequences of queries as in C133"
  },
  {
   "property": "C38",
   "status": "partial",
   "theorems": [
    "Verif.Cleanup.C38_counterexample",
    "Verif.Cleanup.C38_skim_never_seen",
    "Verif.Cleanup.C38_once_partial",
    "Verif.Cleanup.C38_burn_twice",
    "Verif.Cleanup.C38_marked"
   ],
   "note": "False for skimmers (the mark is skim|surface_weather, the test is for skim alone). Holds for burning and dispersion."
  },
  {
   "property": "C39",
   "status": "proved",
   "theorems": [
    "Verif.Geom.C39_cut",
    "Verif.Geom.C39_rotate",
    "Verif.Geom.C39_reverse",
    "Verif.Geom.C39_close",
    "Verif.Geom.C39_repeat",
    "Verif.Geom.C39_bounding_box",
    "Verif.Geom.C39_components",
    "Verif.Geom.C39_fan",
    "Verif.Geom.C39_rectangle",
    "Verif.Geom.C39_hull",
    "Verif.Geom.C39_triangle_inside",
    "Verif.Geom.C39_triangle_outside"
   ],
   "note": "Exact arithmetic. Also: components and holes, reduction to triangles, rectangles exactly, convex hull."
  },
  {
   "property": "C40",
   "status": "partial",
   "theorems": [
    "Verif.Geom.C40_constructor",
    "Verif.Geom.C40_inside",
    "Verif.Geom.C40_overlaps_symm",
    "Verif.Geom.C40_overlaps",
    "Verif.Geom.C40_merge",
    "Verif.Geom.C40_null",
    "Verif.Geom.C40_fromPoints",
    "Verif.Geom.C40_fromBBArray",
    "Verif.Geom.C40_asPoly",
    "Verif.Geom.C40_counterexample_null",
    "Verif.Geom.C40_counterexample_inf",
    "Verif.Geom.C40_eq"
   ],
   "note": "Proved for proper boxes (infinite ones included). Fails for null boxes: in fromBBArray, and in Overlaps with an infinite box."
  },
  {
   "property": "C41",
   "status": "partial",
   "theorems": [
    "Verif.Geom.C41_set_partial",
    "Verif.Geom.C41_append_iff",
    "Verif.Geom.C41_append_empty",
    "Verif.Geom.C41_eq_partial",
    "Verif.Geom.C41_counterexample_eq"
   ],
   "note": "Proved when no empty polygon is appended after a non-empty one, which is exactly when append does not raise; == ignores the division into polygons."
  },
  {
   "property": "C42",
   "status": "partial",
   "theorems": [
    "Verif.Geom.C42_thin",
    "Verif.Geom.C42_one_pixel",
    "Verif.Geom.C42_empty",
    "Verif.Geom.C42_within_one_pixel",
    "Verif.Geom.C42_counterexample",
    "Verif.Geom.C42_set"
   ],
   "note": "Proved for drawing by rounding coordinates times scale; false for the projections that draw (other origin, rounding down), where points may move by one pixel."
  },
  {
   "property": "C43",
   "status": "partial",
   "theorems": [
    "Verif.Geom.C43_roundtrip",
    "Verif.Geom.C43_pixel",
    "Verif.Geom.C43_nearest",
    "Verif.Geom.C43_in_image",
    "Verif.Geom.C43_in_image_int",
    "Verif.Geom.C43_orientation",
    "Verif.Geom.C43_rectangular",
    "Verif.Geom.C43_displacement",
    "Verif.Geom.C43_counterexample"
   ],
   "note": "Round trips and the closed image proved; as integer pixels the southern and eastern borders are outside."
  },
  {
   "property": "C44",
   "status": "partial",
   "theorems": [
    "Verif.Plume.C44_nonneg",
    "Verif.Plume.C44_adjacent",
    "Verif.Plume.C44_sum",
    "Verif.Plume.C44_complete_partial",
    "Verif.Plume.C44_counterexample",
    "Verif.Plume.C44_total",
    "Verif.Plume.C44_endless",
    "Verif.Plume.C44_outside"
   ],
   "note": "Steps add up, counts are non-negative and the bounds on the total hold. If the step does not divide the duration, the last incomplete step is never generated."
  },
  {
   "property": "C45",
   "status": "proved",
   "theorems": [
    "Verif.Weath.C45_order",
    "Verif.Weath.C45_unknown",
    "Verif.Weath.C45_single",
    "Verif.Weath.C45_idempotent"
   ],
   "note": "A single weatherer of unknown class is accepted, there is nothing to order."
  },
  {
   "property": "C46",
   "status": "partial",
   "theorems": [
    "Verif.TimeUtil.nearest_spec",
    "Verif.TimeUtil.C46_nearest_partial",
    "Verif.TimeUtil.C46_nearest_floor",
    "Verif.TimeUtil.C46_nearest_even",
    "Verif.TimeUtil.C46_idempotent_partial",
    "Verif.TimeUtil.C46_values",
    "Verif.TimeUtil.C46_counterexample_fraction",
    "Verif.TimeUtil.C46_counterexample_idempotent",
    "Verif.TimeUtil.C46_counterexample_mutation"
   ],
   "note": "Holds for whole seconds or even intervals; idempotent if the interval divides the day. Overwrites an array given by the caller."
  },
  {
   "property": "C47",
   "status": "partial",
   "theorems": [
    "Verif.Integ.C47_constant",
    "Verif.Integ.C47_rk2_linear_partial",
    "Verif.Integ.C47_rk4_cubic_partial",
    "Verif.Integ.C47_counterexample_fraction",
    "Verif.Integ.C47_counterexample_zone"
   ],
   "note": "Constant fields: all inputs. Fields varying in time: whole seconds and zones with a shift of one hour; RK4 even for cubic fields."
  },
  {
   "property": "C48",
   "status": "partial",
   "theorems": [
    "Verif.RefDict.C48_conflict",
    "Verif.RefDict.C48_store",
    "Verif.RefDict.C48_first_partial",
    "Verif.RefDict.C48_lookup_partial",
    "Verif.RefDict.C48_counterexample_update"
   ],
   "note": "Holds for histories without dict.update."
  },
  {
   "property": "C49",
   "status": "partial",
   "theorems": [
    "Verif.FateView.C49_density_stored_partial",
    "Verif.FateView.C49_density_lost",
    "Verif.FateView.C49_counterexample"
   ],
   "note": "false as soon as one element is not floating or has no mass (witness and general loss theorem)"
  },
  {
   "property": "C50",
   "status": "partial",
   "theorems": [
    "Verif.Cleanup.C50_counterexample",
    "Verif.Cleanup.C50_substeps_multiply",
    "Verif.Cleanup.C50_one_substep_partial"
   ],
   "note": "False: n sub-steps remove n times the amount."
  },
  {
   "property": "C51",
   "status": "partial",
   "theorems": [
    "Verif.Cleanup.C51_counterexample",
    "Verif.Cleanup.C51_efficiency_partial"
   ],
   "note": "False from an unset efficiency (NaN); holds from a numeric one."
  },
  {
   "property": "C52",
   "status": "partial",
   "theorems": [
    "Verif.Geom.C52_counterexample",
    "Verif.Geom.C52_shift",
    "Verif.Geom.C52_half_pixel_partial",
    "Verif.Geom.C52_grid_partial",
    "Verif.Geom.C52_counterexample_grid"
   ],
   "note": "False: the box is shifted by half a pixel, and that of a regular grid projection is not updated."
  },
  {
   "property": "C53",
   "status": "partial",
   "theorems": [
    "Verif.Geom.C53_unchanged_partial",
    "Verif.Geom.C53_grid_iff",
    "Verif.Geom.C53_counterexample_lonlat",
    "Verif.Geom.C53_counterexample_grid"
   ],
   "note": "False for to_lonlat of float pixels and for to_pixel of rectangular grids."
  },
  {
   "property": "C54",
   "status": "partial",
   "theorems": [
    "Verif.RefDict.C54_attached",
    "Verif.RefDict.C54_everywhere",
    "Verif.RefDict.C54_kept",
    "Verif.RefDict.C54_idempotent",
    "Verif.RefDict.C54_complete",
    "Verif.RefDict.C54_counterexample_stale"
   ],
   "note": "All but the last clause: an attached reference does not follow a change of the provider."
  },
  {
   "property": "C55",
   "status": "partial",
   "theorems": [
    "Verif.TimeUtil.C55_duration",
    "Verif.TimeUtil.C55_monotone",
    "Verif.TimeUtil.C55_roundtrip_partial",
    "Verif.TimeUtil.C55_time_plus",
    "Verif.TimeUtil.C55_roundtrip_standard",
    "Verif.TimeUtil.C55_roundtrip_error",
    "Verif.TimeUtil.C55_counterexample_shift",
    "Verif.TimeUtil.C55_array",
    "Verif.TimeUtil.C55_counterexample_array"
   ],
   "note": "Round trip holds where daylight saving shifts by one hour or is not used; arrays only from 1970 to 2106."
  },
  {
   "property": "C56",
   "status": "proved",
   "theorems": [
    "Verif.Integ.C56_rk2",
    "Verif.Integ.C56_rk4"
   ],
   "note": "Over any rational vector space."
  },
  {
   "property": "C57",
   "status": "partial",
   "theorems": [
    "Verif.Output.C57_single_partial",
    "Verif.Output.C57_at_most_one",
    "Verif.Output.C57_counterexample_backward"
   ],
   "note": "Forward runs; in backward runs a start time between two steps is missed."
  },
  {
   "property": "C58",
   "status": "partial",
   "theorems": [
    "Verif.Release.C58_line_partial",
    "Verif.Release.C58_instant_partial",
    "Verif.Release.C58_speed_partial",
    "Verif.Release.C58_counterexample_late",
    "Verif.Release.C58_counterexample_speed"
   ],
   "note": "Constant speed only if the time step divides the duration; a late instantaneous release is put at the end of the line."
  },
  {
   "property": "C59",
   "status": "partial",
   "theorems": [
    "Verif.Comp.C59_rewinds_partial",
    "Verif.Comp.C59_prepared",
    "Verif.Comp.C59_counterexample",
    "Verif.Comp.C59_new_spill_silent"
   ],
   "note": "Fails for removing weatherers and environment objects and for adding and removing spills: a spill added to a running model releases nothing."
  },
  {
   "property": "C60",
   "status": "partial",
   "theorems": [
    "Verif.Comp.C60_environment_partial",
    "Verif.Comp.C60_only",
    "Verif.Comp.C60_counterexample"
   ],
   "note": "Holds for models built by adding to an empty one from which no environment object is removed."
  },
  {
   "property": "C61",
   "status": "partial",
   "theorems": [
    "Verif.MapStep.C61_placed_partial",
    "Verif.MapStep.C61_on_map_partial",
    "Verif.MapStep.C61_removed",
    "Verif.MapStep.C61_counterexample",
    "Verif.MapStep.C61_param_partial",
    "Verif.MapStep.C61_counterexample_param"
   ],
   "note": "Fails for a zero half-life if longitude/latitude (0, 0) is land and an element is released on land."
  },
  {
   "property": "C62",
   "status": "partial",
   "theorems": [
    "Verif.MapStep.C62_stays",
    "Verif.MapStep.C62_refloats_partial",
    "Verif.MapStep.C62_last_water",
    "Verif.MapStep.C62_depth_lost",
    "Verif.MapStep.C62_counterexample_depth",
    "Verif.MapStep.C62_counterexample_released"
   ],
   "note": "The depth is lost; an element released on land refloats to longitude/latitude (0, 0)."
  },
  {
   "property": "C63",
   "status": "partial",
   "theorems": [
    "Verif.MapStep.C63_closed_partial",
    "Verif.MapStep.C63_step",
    "Verif.MapStep.C63_move",
    "Verif.MapStep.C63_gnome",
    "Verif.MapStep.Calls.C63_account",
    "Verif.MapStep.Calls.C63_removal",
    "Verif.MapStep.C63_counterexample",
    "Verif.MapStep.C63_counterexample_param"
   ],
   "note": "C63_account gives the budget of every run exactly, with response operations and sub-steps; what is missing for the full claim is false of the code: elements that leave the map are still weathered in that step and that mass is counted twice; ParamMap counts off-map mass three times."
  },
  {
   "property": "C64",
   "status": "partial",
   "theorems": [
    "Verif.MapStep.C64_fate_partial",
    "Verif.MapStep.C64_counterexample"
   ],
   "note": "The depth before the move is used."
  },
  {
   "property": "C65",
   "status": "proved",
   "theorems": [
    "Verif.HalfLife.C65_refloat",
    "Verif.HalfLife.C65_half",
    "Verif.HalfLife.C65_negative",
    "Verif.HalfLife.C65_zero",
    "Verif.HalfLife.C65_backward",
    "Verif.HalfLife.C65_weather",
    "Verif.HalfLife.C65_weather_one",
    "Verif.HalfLife.C65_shape"
   ],
   "note": "Real numbers for floats, independent uniform random numbers; forward time steps (backwards nothing refloats)."
  },
  {
   "property": "C66",
   "status": "partial",
   "theorems": [
    "Verif.MapQ.C66_on_land_partial",
    "Verif.MapQ.C66_in_water_partial",
    "Verif.MapQ.C66_allowable",
    "Verif.MapQ.C66_counterexample",
    "Verif.MapQ.C66_counterexample_flags"
   ],
   "note": "Rasters of zeros and ones; in_water raises or answers for the other side of the map for points off the raster."
  },
  {
   "property": "C67",
   "status": "partial",
   "theorems": [
    "Verif.MapQ.C67_convert360",
    "Verif.MapQ.C67_convert180_partial",
    "Verif.MapQ.C67_inverse",
    "Verif.MapQ.C67_shift_partial",
    "Verif.MapQ.C67_map_partial",
    "Verif.MapQ.C67_counterexample_far",
    "Verif.MapQ.C67_counterexample_mixed",
    "Verif.MapQ.C67_counterexample_bounds"
   ],
   "note": "convert_longitude holds within one and a half turns; shift_lons does nothing if only some of the points have to be shifted."
  },
  {
   "property": "C68",
   "status": "proved",
   "theorems": [
    "Verif.MapStep.C68_dry",
    "Verif.MapStep.C68_stays"
   ],
   "note": "Raster map below the tide flat; as in C61, with a zero half-life the place (0, 0) is not land."
  },
  {
   "property": "C69",
   "status": "partial",
   "theorems": [
    "Verif.RectGrid.C69_cell_partial",
    "Verif.RectGrid.C69_refine",
    "Verif.RectGrid.C69_roundtrip",
    "Verif.RectGrid.C69_pixel",
    "Verif.RectGrid.C69_counterexample"
   ],
   "note": "Points west and north of the grid are treated as in the cell at the edge."
  },
  {
   "property": "C70",
   "status": "proved",
   "theorems": [
    "Verif.TSeries.C70_given_times",
    "Verif.TSeries.C70_between",
    "Verif.TSeries.C70_outside_refused",
    "Verif.TSeries.C70_outside_held",
    "Verif.TSeries.C70_single",
    "Verif.TSeries.C70_no_garbage",
    "Verif.TSeries.C70_many"
   ],
   "note": "Exact arithmetic; linear interpolation, the only kind in use."
  },
  {
   "property": "C71",
   "status": "partial",
   "theorems": [
    "Verif.TSeries.C71_array_partial",
    "Verif.TSeries.C71_array_usable_partial",
    "Verif.TSeries.C71_counterexample",
    "Verif.TSeries.C71_counterexample_unusable"
   ],
   "note": "The order of the times is not checked for lists."
  },
  {
   "property": "C72",
   "status": "partial",
   "theorems": [
    "Verif.TSeries.C72_partial",
    "Verif.TSeries.C72_bounds",
    "Verif.TSeries.C72_counterexample",
    "Verif.TSeries.C72_zero_hours"
   ],
   "note": "Fails in the first hours of a wind that does not extrapolate."
  },
  {
   "property": "C73",
   "status": "partial",
   "theorems": [
    "Verif.PointWind.C73_partial",
    "Verif.PointWind.C73_data_partial",
    "Verif.PointWind.C73_refused",
    "Verif.PointWind.C73_velocity_partial",
    "Verif.PointWind.C73_counterexample"
   ],
   "note": "With the string 'uv' the second component is not converted."
  },
  {
   "property": "C74",
   "status": "partial",
   "theorems": [
    "Verif.PointWind.C74_partial",
    "Verif.PointWind.C74_recorded",
    "Verif.PointWind.C74_timezone_partial",
    "Verif.PointWind.C74_timezone_none",
    "Verif.PointWind.C74_saved_partial",
    "Verif.PointWind.C74_counterexample_data",
    "Verif.PointWind.C74_counterexample_units",
    "Verif.PointWind.C74_counterexample_tz",
    "Verif.PointWind.C74_counterexample_saved"
   ],
   "note": "Holds while only speeds and directions are set and units are not changed."
  },
  {
   "property": "C75",
   "status": "partial",
   "theorems": [
    "Verif.PointWind.C75_partial",
    "Verif.PointWind.C75_counterexample",
    "Verif.PointWind.C75_counterexample_twice"
   ],
   "note": "An array not in metres per second is overwritten."
  },
  {
   "property": "C76",
   "status": "partial",
   "theorems": [
    "Verif.PointWind.C76_partial",
    "Verif.PointWind.C76_counterexample",
    "Verif.PointWind.C76_counterexample_units"
   ],
   "note": "The wind applied is kept, but the series or the units reported are not."
  },
  {
   "property": "C77",
   "status": "proved",
   "theorems": [
    "Verif.PointWind.C77"
   ],
   "note": ""
  },
  {
   "property": "C78",
   "status": "partial",
   "theorems": [
    "Verif.WindFile.C78_read",
    "Verif.WindFile.C78_loaders_partial",
    "Verif.WindFile.C78_refused_partial",
    "Verif.WindFile.C78_rows",
    "Verif.WindFile.C78_row_valid",
    "Verif.WindFile.C78_points",
    "Verif.WindFile.C78_calendar",
    "Verif.WindFile.C78_counterexample",
    "Verif.WindFile.C78_counterexample_lost",
    "Verif.WindFile.C78_number"
   ],
   "note": "The constructor exchanges latitude and longitude; a first row with a mistake is taken for the time zone."
  },
  {
   "property": "C79",
   "status": "partial",
   "theorems": [
    "Verif.Persist.C79_partial",
    "Verif.Persist.C79_append_partial",
    "Verif.Persist.C79_succeeds_partial",
    "Verif.Persist.C79_counterexample_files",
    "Verif.Persist.C79_counterexample_json",
    "Verif.Persist.C79_counterexample_brace"
   ],
   "note": "Fails for two data files of the same name from different directories, for a data file named as the object with .json, and for names with braces."
  },
  {
   "property": "C80",
   "status": "partial",
   "theorems": [
    "Verif.PersistEq.C80_means",
    "Verif.PersistEq.C80_refl",
    "Verif.PersistEq.C80_no_raise_partial",
    "Verif.PersistEq.C80_sym_partial",
    "Verif.PersistEq.C80_counterexample",
    "Verif.PersistEq.C80_counterexample_sym",
    "Verif.PersistEq.C80_counterexample_raises"
   ],
   "note": "The tolerance is relative to the second object; a float against None raises TypeError."
  },
  {
   "property": "C81",
   "status": "partial",
   "theorems": [
    "Verif.Update.C81_untouched",
    "Verif.Update.C81_set",
    "Verif.Update.C81_partial",
    "Verif.Update.C81_refused_partial",
    "Verif.Update.C81_counterexample",
    "Verif.Update.C81_counterexample_refused"
   ],
   "note": "Lists are changed in place, so that their changes are neither reported nor undone."
  },
  {
   "property": "C82",
   "status": "partial",
   "theorems": [
    "Verif.NatWeath.C82_evaporation",
    "Verif.NatWeath.C82_evaporation_runs",
    "Verif.NatWeath.C82_dispersion_partial",
    "Verif.NatWeath.C82_dispersion_li_partial",
    "Verif.NatWeath.C82_dissolution",
    "Verif.NatWeath.C82_dissolution_times",
    "Verif.NatWeath.C82_biodegradation_partial",
    "Verif.NatWeath.C82_heavy_sediment_negative",
    "Verif.NatWeath.C82_counterexample_heavy",
    "Verif.NatWeath.C82_counterexample_li",
    "Verif.NatWeath.C82_counterexample_bio",
    "Verif.NatWeath.C82_droplets"
   ],
   "note": "Holds for evaporation and dissolution; oil heavier than water has negative sedimentation (or NaN with Li2017), biodegradation gives NaN for a mix of elements with and without droplets."
  },
  {
   "property": "C83",
   "status": "partial",
   "theorems": [
    "Verif.NatWeath.C83_evaporation",
    "Verif.NatWeath.C83_emulsification",
    "Verif.NatWeath.C83_dispersion_partial",
    "Verif.NatWeath.C83_counterexample_dispersion",
    "Verif.NatWeath.C83_counterexample_dissolution",
    "Verif.NatWeath.C83_dissolution_partial",
    "Verif.NatWeath.C83_dissolution_water",
    "Verif.NatWeath.C83_dissolution_factor",
    "Verif.NatWeath.C83_counterexample_bio",
    "Verif.NatWeath.C83_not"
   ],
   "note": "Dispersion spreads the loss over all elements, dissolution multiplies the winds of all elements, biodegradation looks whether any element has droplets."
  },
  {
   "property": "C84",
   "status": "proved",
   "theorems": [
    "Verif.NatWeath.C84_bounds",
    "Verif.NatWeath.C84_never_falls",
    "Verif.NatWeath.C84_onset",
    "Verif.NatWeath.C84_first_uptake",
    "Verif.NatWeath.C84_content"
   ],
   "note": ""
  },
  {
   "property": "C85",
   "status": "partial",
   "theorems": [
    "Verif.NatWeath.C85_evaporated",
    "Verif.NatWeath.C85_lost_partial",
    "Verif.NatWeath.C85_counterexample"
   ],
   "note": "frac_lost is set by evaporation only and not by the processes after it."
  },
  {
   "property": "C86",
   "status": "proved",
   "theorems": [
    "Verif.Spread.C86_never_shrinks",
    "Verif.Spread.C86_step",
    "Verif.Spread.C86_spreads",
    "Verif.Spread.C86_stays"
   ],
   "note": "Real numbers for floats; elements are not removed."
  },
  {
   "property": "C87",
   "status": "partial",
   "theorems": [
    "Verif.Spread.C87_partial",
    "Verif.Spread.C87_counterexample",
    "Verif.Spread.C87_counterexample_density"
   ],
   "note": "Holds for the mass at release while the density never rises; weathering thins the oil further."
  },
  {
   "property": "C88",
   "status": "proved",
   "theorems": [
    "Verif.Spread.C88_rate",
    "Verif.Spread.C88_first_phase"
   ],
   "note": "Real numbers for floats."
  },
  {
   "property": "C89",
   "status": "partial",
   "theorems": [
    "Verif.Spread.C89_partial",
    "Verif.Spread.C89_sides_partial",
    "Verif.Spread.C89_counterexample"
   ],
   "note": "The middle part of the formula overshoots just below 100 centistokes."
  },
  {
   "property": "C90",
   "status": "partial",
   "theorems": [
    "Verif.Spread.C90_instant",
    "Verif.Spread.C90_continuous",
    "Verif.Spread.C90_area_partial",
    "Verif.Spread.C90_late",
    "Verif.Spread.C90_never_spreads",
    "Verif.Spread.C90_buoyancy",
    "Verif.Spread.C90_counterexample",
    "Verif.Spread.C90_counterexample_late"
   ],
   "note": "The viscosity of the oil is used for that of water; a continuous release whose first elements come after twelve hours covers no area ever."
  },
  {
   "property": "C91",
   "status": "partial",
   "theorems": [
    "Verif.Spread.C91_spills",
    "Verif.Spread.C91_partial",
    "Verif.Spread.C91_counterexample"
   ],
   "note": "Holds between spills and for oil released at once; in continuous releases the first floating element decides."
  },
  {
   "property": "C92",
   "status": "proved",
   "theorems": [
    "Verif.Spread.C92_bounds",
    "Verif.Spread.C92_wind",
    "Verif.Spread.C92_thickness",
    "Verif.Spread.C92_heavy",
    "Verif.Spread.C92_wind_bounds"
   ],
   "note": "A tenth up to 1e-13, as the exponent is not exactly a third."
  },
  {
   "property": "C93",
   "status": "partial",
   "theorems": [
    "Verif.Spread.C93_calm_partial",
    "Verif.Spread.C93_spills_partial",
    "Verif.Spread.C93_thickness_partial",
    "Verif.Spread.C93_counterexample_calm",
    "Verif.Spread.C93_counterexample_spills",
    "Verif.Spread.C93_counterexample_thickness"
   ],
   "note": "Fails for oil as dense as water, for winds that differ between spills, and after part of the oil beached."
  },
  {
   "property": "C94",
   "status": "proved",
   "theorems": [
    "Verif.Mover.C94_mover",
    "Verif.Mover.C94_inactive",
    "Verif.Mover.C94_model",
    "Verif.Mover.C94_model_inactive"
   ],
   "note": "RiseVelocityMover and RandomMover3D raise in backward runs (see C102); the theorem is about the moves returned."
  },
  {
   "property": "C95",
   "status": "partial",
   "theorems": [
    "Verif.Mover.C95_grid_partial",
    "Verif.Mover.C95_point_mover_partial",
    "Verif.Mover.C95_depth",
    "Verif.Mover.C95_counterexample"
   ],
   "note": "Holds for GridWind with every method and for PointWindMover; WindMover with a point Wind moves submerged elements."
  },
  {
   "property": "C96",
   "status": "proved",
   "theorems": [
    "Verif.Mover.C96_components",
    "Verif.Mover.C96_distance",
    "Verif.Mover.C96_bounded",
    "Verif.Mover.C96_reached",
    "Verif.Mover.C96_mover"
   ],
   "note": ""
  },
  {
   "property": "C97",
   "status": "partial",
   "theorems": [
    "Verif.Mover.C97_keeps_partial",
    "Verif.Mover.C97_counterexample"
   ],
   "note": "Fails when elements are removed while the mover is not active."
  },
  {
   "property": "C98",
   "status": "partial",
   "theorems": [
    "Verif.Mover.C98_runs_partial",
    "Verif.Mover.C98_delay_partial",
    "Verif.Mover.C98_counterexample_runs",
    "Verif.Mover.C98_counterexample_delay"
   ],
   "note": "With a delay, an element leaving before it is over makes np.delete raise; the delay counts from the first active step."
  },
  {
   "property": "C99",
   "status": "partial",
   "theorems": [
    "Verif.Mover.C99_spread",
    "Verif.Mover.C99_spread_independent",
    "Verif.Mover.C99_within_iff",
    "Verif.Mover.C99_in_range_partial",
    "Verif.Mover.C99_infinite",
    "Verif.Mover.C99_infinite_run",
    "Verif.Mover.C99_refused",
    "Verif.Mover.C99_counterexample"
   ],
   "note": "In range for steps at least as long as the persistence; shorter steps widen the range, below zero with the defaults."
  }
 ]
}