{
 "claims": [
  {
   "property": "C01",
   "status": "proved",
   "theorems": [
    "Simple.Calendar.C01_dayOfYear",
    "Simple.Calendar.C01_roundtrip_date",
    "Simple.Calendar.C01_roundtrip_day",
    "Simple.Calendar.C01_rejects"
   ],
   "note": ""
  },
  {
   "property": "C02",
   "status": "proved",
   "theorems": [
    "Simple.Calendar.C02_order",
    "Simple.Calendar.C02_total_order",
    "Simple.Calendar.C02_sub",
    "Simple.Calendar.C02_is_earlier"
   ],
   "note": ""
  },
  {
   "property": "C03",
   "status": "partial",
   "theorems": [
    "Simple.Calendar.C03_addDays_exact_iff",
    "Simple.Calendar.C03_addDays_wrong",
    "Simple.Calendar.C03_violated",
    "Simple.Calendar.C03_addHours_partial",
    "Simple.Calendar.C03_addSeconds_partial",
    "Simple.Calendar.C03_negative",
    "Simple.Calendar.C03_violated_negative"
   ],
   "note": "False in general: add_days casts day+n to u8 (C03_violated: Jan 1 + 300 days = Feb 14). C03_addDays_exact_iff characterises exactly when it is right (day + n%365 < 256); add_hours/minutes/seconds are proved under that condition. Negative amounts move the date forwards (C03_negative, C03_violated_negative)."
  },
  {
   "property": "C04",
   "status": "partial",
   "theorems": [
    "Simple.Calendar.C04_nth_call_partial",
    "Simple.Calendar.C04_terminates_partial",
    "Simple.Calendar.C04_violated_never_ends"
   ],
   "note": "False in general: a period through the new year whose tail after the new year is shorter than the timestep may never end (C04_violated_never_ends). Proved exactly for timesteps < 224 days when the tail is at least one timestep."
  },
  {
   "property": "C05",
   "status": "proved",
   "theorems": [
    "Simple.Calendar.C05_contains",
    "Simple.Calendar.C05_new_rejects"
   ],
   "note": ""
  },
  {
   "property": "C06",
   "status": "proved",
   "theorems": [
    "Simple.Calendar.C06_interpolate",
    "Simple.Calendar.C06_endpoints",
    "Simple.Calendar.C06_monotone"
   ],
   "note": ""
  },
  {
   "property": "C07",
   "status": "proved",
   "theorems": [
    "Simple.Matrix.C07_total_map",
    "Simple.Matrix.C07_from_data",
    "Simple.Matrix.C07_new",
    "Simple.Matrix.C07_eye",
    "Simple.Matrix.C07_diag",
    "Simple.Matrix.C07_write",
    "Simple.Matrix.C07_out_of_range",
    "Simple.Matrix.C07_history",
    "Simple.Matrix.C07_concat_rows",
    "Simple.Matrix.C07_concat_rows_mismatch",
    "Simple.Matrix.C07_copy_from",
    "Simple.Matrix.C07_compare"
   ],
   "note": ""
  },
  {
   "property": "C08",
   "status": "partial",
   "theorems": [
    "Simple.Matrix.C08_prod_into_partial",
    "Simple.Matrix.C08_prod_into_mismatch",
    "Simple.Matrix.C08_mul",
    "Simple.Matrix.C08_mul_mismatch",
    "Simple.Matrix.C08_violated_zero_dimension",
    "Simple.Matrix.C08_eye_neutral",
    "Simple.Matrix.C08_assoc",
    "Simple.Matrix.C08_add_sub",
    "Simple.Matrix.C08_add_sub_into_partial",
    "Simple.Matrix.C08_add_sub_mismatch",
    "Simple.Matrix.C08_scale",
    "Simple.Matrix.C08_scale_mismatch",
    "Simple.Matrix.C08_violated_add_into_destination"
   ],
   "note": "False in two corners: add_into/sub_into do not check the destination's shape (C08_violated_add_into_destination) and prod_into panics on a zero dimension (C08_violated_zero_dimension). Proved with positive dimensions and matching destination."
  },
  {
   "property": "C09",
   "status": "proved",
   "theorems": [
    "Simple.Matrix.C09_band_product",
    "Simple.Matrix.C09_same_as_full",
    "Simple.Matrix.C09_tri_diag"
   ],
   "note": ""
  },
  {
   "property": "C10",
   "status": "partial",
   "theorems": [
    "Simple.Matrix.C10_write",
    "Simple.Matrix.C10_write_rejected",
    "Simple.Matrix.C10_read_outside",
    "Simple.Matrix.C10_total_map",
    "Simple.Matrix.C10_scale",
    "Simple.Matrix.C10_violated_new",
    "Simple.Matrix.C10_violated_new_witness",
    "Simple.Matrix.C10_column_prod_partial",
    "Simple.Matrix.C10_column_prod_mismatch",
    "Simple.Matrix.C10_violated_narrow",
    "Simple.Matrix.C10_violated_tall"
   ],
   "note": "new() ignores the given value (C10_violated_new); a matrix narrower than its band panics (C10_violated_narrow); a non-square column product drops rows (C10_violated_tall). The rest is proved."
  },
  {
   "property": "C11",
   "status": "proved",
   "theorems": [
    "Simple.Matrix.C11_chain_succeeds",
    "Simple.Matrix.C11_solves",
    "Simple.Matrix.C11_solves_copy",
    "Simple.Matrix.C11_no_panic",
    "Simple.Matrix.C11_singular_fails",
    "Simple.Matrix.C11_dominant_succeeds",
    "Simple.Matrix.C11_compact"
   ],
   "note": ""
  },
  {
   "property": "C12",
   "status": "partial",
   "theorems": [
    "Simple.Matrix.C12_converges",
    "Simple.Matrix.C12_error",
    "Simple.Matrix.C12_sweep",
    "Simple.Matrix.C12_result_partial",
    "Simple.Matrix.C12_residual",
    "Simple.Matrix.C12_fixed_point",
    "Simple.Matrix.C12_exact_accepted",
    "Simple.Matrix.C12_mismatch",
    "Simple.Matrix.C12_violated_nan"
   ],
   "note": "A NaN iterate is accepted as converged (C12_violated_nan, on a model of extended floats). Everything else proved over an ordered field."
  },
  {
   "property": "C13",
   "status": "proved",
   "theorems": [
    "Simple.Poly.C13_push_eval",
    "Simple.Poly.C13_push_overflow",
    "Simple.Poly.C13_unused_slots",
    "Simple.Poly.C13_poly_macro"
   ],
   "note": ""
  },
  {
   "property": "C14",
   "status": "partial",
   "theorems": [
    "Simple.Progress.C14_counts",
    "Simple.Progress.C14_monotone",
    "Simple.Progress.C14_printed_le",
    "Simple.Progress.C14_bar_width",
    "Simple.Progress.C14_sequential_partial",
    "Simple.Progress.C14_violated_lag",
    "Simple.Progress.C14_violated_overlap_exceeds_100"
   ],
   "note": "Counter exactness, monotonicity and bar width proved for every interleaving. The '2 points' bound is false (C14_violated_lag: 4 steps end at 75) and overlapping ticks can exceed 100 (C14_violated_overlap_exceeds_100); without overlap <= 100 is proved (C14_sequential_partial)."
  },
  {
   "property": "C15",
   "status": "proved",
   "theorems": [
    "Simple.State.C15_stable",
    "Simple.State.C15_unique",
    "Simple.State.C15_values",
    "Simple.State.C15_rejected",
    "Simple.State.C15_violated_push_after_take"
   ],
   "note": "Additionally C15_violated_push_after_take shows that a push rejected because the values were taken still appends its element to the header (earlier positions and contents are unaffected, as claimed)."
  },
  {
   "property": "C16",
   "status": "proved",
   "theorems": [
    "Simple.State.C16_one_class",
    "Simple.State.C16_layout",
    "Simple.State.C16_counters",
    "Simple.State.C16_section_copies"
   ],
   "note": ""
  },
  {
   "property": "C17",
   "status": "proved",
   "theorems": [
    "Simple.Building.C17_lookup",
    "Simple.Building.C17_order",
    "Simple.Building.C17_stable"
   ],
   "note": ""
  },
  {
   "property": "C18",
   "status": "partial",
   "theorems": [
    "Simple.Building.C18_add_surface",
    "Simple.Building.C18_add_object",
    "Simple.Building.C18_lists_partial",
    "Simple.Building.C18_violated_fenestration",
    "Simple.Building.C18_violated_hvac"
   ],
   "note": "Proved for add_surface and add_object. False for add_fenestration, add_hvac and add_luminaire, which register the state element before the checks that may fail (C18_violated_fenestration, C18_violated_hvac); for these the object lists are proved unchanged."
  },
  {
   "property": "C19",
   "status": "partial",
   "theorems": [
    "Simple.Scan.C19_scan",
    "Simple.Scan.C19_kinds",
    "Simple.Scan.C19_additions",
    "Simple.Scan.C19_dependencies",
    "Simple.Scan.C19_terminates_partial",
    "Simple.Scan.C19_violated_termination",
    "Simple.Scan.C19_violated_string"
   ],
   "note": "Proved for every well-formed file. Termination is false: a source that ends after a name never comes back (C19_violated_termination); proved for every other text (C19_terminates_partial). Brackets within strings are counted (C19_violated_string)."
  },
  {
   "property": "C20",
   "status": "proved",
   "theorems": [
    "Simple.Building.C20_setpoints"
   ],
   "note": ""
  },
  {
   "property": "C21",
   "status": "partial",
   "theorems": [
    "Simple.Building.C21_sectors",
    "Simple.Building.C21_no_panic_partial",
    "Simple.Building.C21_horizontal_partial",
    "Simple.Building.C21_opposite",
    "Simple.Building.C21_outside_inside",
    "Simple.Building.C21_violated_panic",
    "Simple.Building.C21_violated_horizontal"
   ],
   "note": "Proved for unit normals. A short vertical normal panics in normalize (C21_violated_panic) and a long non-unit normal may be classified as horizontal (C21_violated_horizontal)."
  },
  {
   "property": "C22",
   "status": "partial",
   "theorems": [
    "Simple.Csv.C22_rows_match_header",
    "Simple.Csv.C22_requested_partial",
    "Simple.Csv.C22_all_elements",
    "Simple.Csv.C22_violated_some_unknown",
    "Simple.Csv.C22_violated_all_unknown",
    "Simple.Csv.C22_violated_comma"
   ],
   "note": "Rows match the header when every requested output exists and names have no commas. False otherwise: C22_violated_some_unknown, C22_violated_all_unknown, C22_violated_comma."
  },
  {
   "property": "C23",
   "status": "proved",
   "theorems": [
    "Simple.Control.C23_control",
    "Simple.Control.C23_no_error",
    "Simple.Control.C23_capacity"
   ],
   "note": ""
  },
  {
   "property": "C24",
   "status": "proved",
   "theorems": [
    "Simple.Heat.C24_combine_total",
    "Simple.Heat.C24_balance_exists",
    "Simple.Heat.C24_combine_spec",
    "Simple.Heat.C24_alphas_spec",
    "Simple.Heat.C24_conservation",
    "Simple.Heat.C24_assoc",
    "Simple.Heat.C24_grouping",
    "Simple.Heat.C24_from_construction"
   ],
   "note": ""
  },
  {
   "property": "C25",
   "status": "partial",
   "theorems": [
    "Simple.Heat.C25_build",
    "Simple.Heat.C25_nodes",
    "Simple.Heat.C25_mass",
    "Simple.Heat.C25_resistance_partial",
    "Simple.Heat.C25_violated_cavity"
   ],
   "note": "Nodes, mass and resistance are proved for every construction without cavities (any number of layers and elements); with a cavity r_value panics (todo!), see C25_violated_cavity."
  },
  {
   "property": "C26",
   "status": "proved",
   "theorems": [
    "Simple.Heat.C26_chunks",
    "Simple.Heat.C26_partition"
   ],
   "note": ""
  },
  {
   "property": "C27",
   "status": "partial",
   "theorems": [
    "Simple.Heat.C27_building",
    "Simple.Heat.C27_minimum",
    "Simple.Heat.C27_violated_minimum",
    "Simple.Heat.C27_discretization_partial",
    "Simple.Heat.C27_stable",
    "Simple.Heat.C27_violated_missing_density",
    "Simple.Heat.C27_new"
   ],
   "note": "Proved for every construction whose layers have all their properties, and for whole buildings, whose walls all march with the step of the one that needs the shortest (C27_building, C27_minimum). A missing density panics instead of returning an error (C27_violated_missing_density); with steps of one minute the step of a building is at most half of the minimum (C27_violated_minimum)."
  },
  {
   "property": "C28",
   "status": "proved",
   "theorems": [
    "Simple.Heat.C28_matrix",
    "Simple.Heat.C28_conduction",
    "Simple.Heat.C28_heat_balance",
    "Simple.Heat.C28_rest"
   ],
   "note": ""
  },
  {
   "property": "C29",
   "status": "partial",
   "theorems": [
    "Simple.Heat.C29_surface_partial",
    "Simple.Heat.C29_rk4",
    "Simple.Heat.C29_equilibrium",
    "Simple.Heat.C29_affine",
    "Simple.Heat.C29_violated_single_node",
    "Simple.Heat.C29_rearrange",
    "Simple.Heat.C29_march_partial",
    "Simple.Heat.C29_march_rest",
    "Simple.Heat.C29_energy",
    "Simple.Heat.C29_fourth_order"
   ],
   "note": "Proved for every chunk of two nodes or more, and for surfaces of several chunks that are not next to each other; a chunk of one massive node panics (C29_violated_single_node)."
  },
  {
   "property": "C30",
   "status": "proved",
   "theorems": [
    "Simple.Heat.C30_balance",
    "Simple.Heat.C30_exact",
    "Simple.Heat.C30_solution",
    "Simple.Heat.C30_mean",
    "Simple.Heat.C30_between",
    "Simple.Heat.C30_flow",
    "Simple.Heat.C30_step",
    "Simple.Heat.C30_isolated_heater"
   ],
   "note": ""
  },
  {
   "property": "C31",
   "status": "partial",
   "theorems": [
    "Simple.Heat.C31_natural",
    "Simple.Heat.C31_tarp",
    "Simple.Heat.C31_forced_partial",
    "Simple.Heat.C31_violated_documented",
    "Simple.Heat.C31_violated_very_smooth",
    "Simple.Heat.C31_violated_very_rough"
   ],
   "note": "Natural coefficient total and >= 0.1; exterior one total for roughness indices 0-5. The two branches are swapped with respect to the documented correlation; documented index 6 panics and 1 gives the second class (violations proved)."
  },
  {
   "property": "C32",
   "status": "partial",
   "theorems": [
    "Simple.Heat.C32_noble",
    "Simple.Heat.C32_air",
    "Simple.Heat.C32_heavier",
    "Simple.Heat.C32_molar_volume",
    "Simple.Heat.C32_nusselt_partial",
    "Simple.Heat.C32_between",
    "Simple.Heat.C32_violated_rayleigh_50000",
    "Simple.Heat.C32_violated_heated_from_above",
    "Simple.Heat.C32_gases",
    "Simple.Heat.C32_u_value_partial"
   ],
   "note": "Defined and >= 1 for every positive Rayleigh number except exactly 50000 (panics, proved) and every tilt in [0, 180]; at exactly 180 degrees the tilt wraps to 0 (violation proved)."
  },
  {
   "property": "C33",
   "status": "proved",
   "theorems": [
    "Simple.Air.C33_formulas",
    "Simple.Air.C33_flow",
    "Simple.Air.C33_wind",
    "Simple.Air.C33_coefficients",
    "Simple.Air.C33_step",
    "Simple.Air.C33_refused",
    "Simple.Air.C33_storeys",
    "Simple.Air.C33_exposed"
   ],
   "note": ""
  },
  {
   "property": "C34",
   "status": "partial",
   "theorems": [
    "Simple.Weather.C34_interpolate",
    "Simple.Weather.C34_at_record",
    "Simple.Weather.C34_between_partial",
    "Simple.Weather.C34_before_first_partial",
    "Simple.Weather.C34_after_last",
    "Simple.Weather.C34_no_data",
    "Simple.Weather.C34_violated_after_last",
    "Simple.Weather.C34_sort"
   ],
   "note": "Proved: interpolation is a convex combination of every magnitude (C34_interpolate), a request at a record gives the record (C34_at_record), between two records and before the first one the result is the time-weighted combination. Violated after the last record: C34_violated_after_last."
  },
  {
   "property": "C35",
   "status": "partial",
   "theorems": [
    "Simple.Weather.Epw.C35_element",
    "Simple.Weather.Epw.C35_data_period_partial",
    "Simple.Weather.Epw.C35_location",
    "Simple.Weather.Epw.C35_ground",
    "Simple.Weather.Epw.C35_file_partial",
    "Simple.Weather.Epw.C35_violated_wind_direction",
    "Simple.Weather.Epw.C35_violated_empty_first_line",
    "Simple.Weather.Epw.C35_record"
   ],
   "note": "Proved: elements are maximal runs and the line counter counts newlines (C35_element); location, ground temperatures (C35_ground) and data lines land in their fields; a whole file is read, fields between quotation marks included (C35_file_partial). Violated: wind direction (C35_violated_wind_direction), empty first line panics (C35_violated_empty_first_line)."
  },
  {
   "property": "C36",
   "status": "proved",
   "theorems": [
    "Simple.Weather.Reinhart.C36_count",
    "Simple.Weather.Reinhart.C36_row",
    "Simple.Weather.Reinhart.C36_direction",
    "Simple.Weather.Reinhart.C36_in_range",
    "Simple.Weather.Reinhart.C36_round_trip"
   ],
   "note": ""
  },
  {
   "property": "C37",
   "status": "proved",
   "theorems": [
    "Simple.Weather.Reinhart.C37_solid_angles"
   ],
   "note": ""
  },
  {
   "property": "C38",
   "status": "partial",
   "theorems": [
    "Simple.Weather.Perez.C38_clearness",
    "Simple.Weather.Perez.C38_bins",
    "Simple.Weather.Perez.C38_coefficients",
    "Simple.Weather.Perez.C38_direct_partial",
    "Simple.Weather.Perez.C38_direct_ratio",
    "Simple.Weather.Perez.C38_violated_lookup"
   ],
   "note": "Categories, bins and coefficient clamps are proved; the look-up of the direct coefficients is shown to confuse two cells (C38_violated_lookup)."
  },
  {
   "property": "C39",
   "status": "partial",
   "theorems": [
    "Simple.Weather.Perez.C39_any_sky",
    "Simple.Weather.Perez.C39_suns",
    "Simple.Weather.Perez.C39_ground",
    "Simple.Weather.Perez.C39_sky_partial",
    "Simple.Weather.Perez.C39_update",
    "Simple.Weather.Perez.C39_night",
    "Simple.Weather.Perez.C39_violated_twice"
   ],
   "note": "Suns, ground, night and additivity proved. Computing the vector twice in place doubles it (C39_violated_twice). The diffuse part is exact on the 145 bins when relative radiances are not negative (C39_sky_partial), and never more than what is given for any relative radiance (C39_any_sky)."
  },
  {
   "property": "C40",
   "status": "partial",
   "theorems": [
    "Simple.Geometry.Transform.C40_primitive",
    "Simple.Geometry.Transform.C40_composition",
    "Simple.Geometry.Transform.C40_pair_partial",
    "Simple.Geometry.Transform.C40_history_partial",
    "Simple.Geometry.Transform.C40_violated_composition"
   ],
   "note": "Every primitive transform cancels with its inverse; a composition cancels exactly when the parts commute, and this fails in general because *= multiplies the inverses in the same order as the matrices."
  },
  {
   "property": "C41",
   "status": "partial",
   "theorems": [
    "Simple.Geometry.Transform.C41_normal_partial",
    "Simple.Geometry.Transform.C41_violated_composition",
    "Simple.Geometry.Transform.C41_hands",
    "Simple.Geometry.Transform.C41_bbox"
   ],
   "note": "Normals: for every transform that cancels with its inverse; refuted for compositions. Boxes: for every composition, and the box is the least one."
  },
  {
   "property": "C42",
   "status": "proved",
   "theorems": [
    "Simple.Geometry.BBox.C42_point_inside",
    "Simple.Geometry.BBox.C42_new",
    "Simple.Geometry.BBox.C42_union_point",
    "Simple.Geometry.BBox.C42_union",
    "Simple.Geometry.BBox.C42_intersection",
    "Simple.Geometry.BBox.C42_overlaps",
    "Simple.Geometry.BBox.C42_faces",
    "Simple.Geometry.BBox.C42_surface_area",
    "Simple.Geometry.BBox.C42_max_extent"
   ],
   "note": ""
  },
  {
   "property": "C43",
   "status": "partial",
   "theorems": [
    "Simple.Geometry.BBox.C43_hit_partial",
    "Simple.Geometry.BBox.C43_violated_on_face",
    "Simple.Geometry.BBox.C43_no_false_hit"
   ],
   "note": "Over the extended rationals: a box crossed in its interior or from inside is never missed, and a hit is never false; a ray along a face is missed because 0 times infinity is NaN."
  },
  {
   "property": "C44",
   "status": "partial",
   "theorems": [
    "Simple.Geometry.Triangle.C44_geometry_partial",
    "Simple.Geometry.Triangle.C44_geometry_complete",
    "Simple.Geometry.Triangle.C44_rendering",
    "Simple.Geometry.Triangle.C44_rendering_complete",
    "Simple.Geometry.Triangle.C44_violated_outside",
    "Simple.Geometry.Triangle.C44_violated_small"
   ],
   "note": "Both ray-triangle tests: a hit lies on the ray ahead of the origin and at the reported barycentric coordinates; every proper hit beyond the tolerances is found. In geometry's test u and v are bounded by 1 but u+v is not (C44_violated_outside). The renderer's test bounds u+v, but its absolute tolerance makes a 3 mm triangle invisible to every ray (C44_violated_small)."
  },
  {
   "property": "C45",
   "status": "proved",
   "theorems": [
    "Simple.Geometry.Triangle.C45_class",
    "Simple.Geometry.Triangle.C45_disjoint",
    "Simple.Geometry.Triangle.C45_places",
    "Simple.Geometry.Triangle.C45_bounds"
   ],
   "note": "Classification by barycentric coordinates with the code's tolerance, for every triangle that is not degenerate and every point; the bounds are the smallest box."
  },
  {
   "property": "C46",
   "status": "partial",
   "theorems": [
    "Simple.Geometry.Segment.C46_point_partial",
    "Simple.Geometry.Segment.C46_symmetric",
    "Simple.Geometry.Segment.C46_parallel",
    "Simple.Geometry.Segment.C46_complete",
    "Simple.Geometry.Segment.C46_touches",
    "Simple.Geometry.Segment.C46_intersect",
    "Simple.Geometry.Segment.C46_violated_apart",
    "Simple.Geometry.Segment.C46_violated_short",
    "Simple.Geometry.Segment.C46_contains"
   ],
   "note": "Coplanar segments that are not nearly parallel: the parameters are those of the common point, and touches/intersect are decided exactly within the code's margins. The unrestricted claim fails: absolute tolerances (C46_violated_apart, C46_violated_short)."
  },
  {
   "property": "C47",
   "status": "proved",
   "theorems": [
    "Simple.Geometry.Loop.C47_start",
    "Simple.Geometry.Loop.C47_translation",
    "Simple.Geometry.Loop.C47_direction",
    "Simple.Geometry.Loop.C47_ear",
    "Simple.Geometry.Loop.C47_bridge",
    "Simple.Geometry.Loop.C47_area",
    "Simple.Geometry.Loop.C47_invariant",
    "Simple.Geometry.Loop.C47_flat"
   ],
   "note": "Exact arithmetic. The vector area is specified by a fan of triangles from the first vertex, independently of the sum over the sides in the code; the area is its component along the normal, and its length for a flat loop with a unit normal. C47_ear gives additivity when a corner is cut."
  },
  {
   "property": "C48",
   "status": "partial",
   "theorems": [
    "Simple.Geometry.Loop.C48_push_closed",
    "Simple.Geometry.Loop.C48_push",
    "Simple.Geometry.Loop.C48_measures",
    "Simple.Geometry.Loop.C48_close",
    "Simple.Geometry.Loop.C48_close_failed_partial",
    "Simple.Geometry.Loop.C48_history_partial",
    "Simple.Geometry.Loop.C48_violated_close"
   ],
   "note": "Adding points: refused when closed, atomic on failure. Measures are available exactly when closed. A successful close gives a sound polygon, and so does any history in which no close fails. A failed close is not atomic: it can leave a closed loop with one vertex and area -1 (C48_violated_close). Not modelled: mut_vertices, which lets the caller bypass the protocol."
  },
  {
   "property": "C49",
   "status": "partial",
   "theorems": [
    "Simple.Geometry.Polygon.C49_cut",
    "Simple.Geometry.Polygon.C49_area",
    "Simple.Geometry.Polygon.C49_walk_partial",
    "Simple.Geometry.Polygon.C49_violated_walk",
    "Simple.Geometry.Polygon.C49_nearest",
    "Simple.Geometry.Polygon.C49_bridged_partial",
    "Simple.Geometry.Polygon.C49_bridged_area",
    "Simple.Geometry.Polygon.C49_same_area_partial",
    "Simple.Geometry.Polygon.C49_violated_overlap",
    "Simple.Geometry.Polygon.C49_violated_triangle"
   ],
   "note": "Area invariant and failed cuts: for all histories. The single loop: proved to be the outer loop with every hole bridged in, each once, when the hole's vertices are apart, it is not turned like the outer loop or its number of vertices divides 2^64; C49_violated_walk shows that for every other number of vertices the walk never returns to the bridge, and C49_violated_triangle gives a concrete square with a triangular hole where the single loop has another area. C49_violated_overlap: crossing holes are accepted and the area becomes negative. Exact arithmetic; concrete polygons are evaluated by a rational evaluator proved equal to the model (Exact, ExactPolygon)."
  },
  {
   "property": "C50",
   "status": "proved",
   "theorems": [
    "Simple.Geometry.Mesh.C50_triangulation",
    "Simple.Geometry.Mesh.C50_area_partial",
    "Simple.Geometry.Mesh.C50_violated_many",
    "Simple.Geometry.Mesh.C50_ear"
   ],
   "note": "For every polygon whose triangulation succeeds: number of triangles, corners, vector area equal to that of the bridged loop, validity and counter; it terminates because it is a total function with the code's own limit of 220 passes. C50_area_partial: the areas add up to the area of the polygon under the separation hypotheses of C49. C50_violated_many: a loop of more than 221 vertices is never triangulated (a limitation found, not part of the claim)."
  },
  {
   "property": "C51",
   "status": "partial",
   "theorems": [
    "Simple.Geometry.Mesh.C51_flip_diagonal",
    "Simple.Geometry.Mesh.C51_split_edge",
    "Simple.Geometry.Mesh.C51_split_edge_on",
    "Simple.Geometry.Mesh.C51_split_triangle",
    "Simple.Geometry.Mesh.C51_push",
    "Simple.Geometry.Mesh.C51_add_point",
    "Simple.Geometry.Mesh.C51_restore_delaunay",
    "Simple.Geometry.Mesh.C51_flip_succeeds",
    "Simple.Geometry.Mesh.C51_split_edge_succeeds",
    "Simple.Geometry.Mesh.C51_split_triangle_succeeds",
    "Simple.Geometry.Mesh.C51_counter",
    "Simple.Geometry.Mesh.C51_history",
    "Simple.Geometry.Mesh.C51_longest",
    "Simple.Geometry.Mesh.C51_flip_candidates",
    "Simple.Geometry.Mesh.C51_flip_best",
    "Simple.Geometry.Mesh.C51_start_partial",
    "Simple.Geometry.Mesh.C51_push_counter",
    "Simple.Geometry.Mesh.C51_invalidate_counter",
    "Simple.Geometry.Mesh.C51_violated_lost",
    "Simple.Geometry.Mesh.C51_violated_counter",
    "Simple.Geometry.Mesh.C51_refine_sound_partial"
   ],
   "note": "Every edit that succeeds keeps a sound mesh sound (valid, counted, non-degenerate, symmetric neighbours) and conserves the vector area, over any history of flips, splits, pushes, points and Delaunay restorations; the edits succeed under stated conditions; start is sound for polygons without coinciding vertices; refining keeps a mesh sound unless a circumcenter was refused on the way in a mesh that was not left as it was. Missing: start with holes (bridges repeat vertices), and refine after such a refusal. Violated: a point refused within a millimetre of a corner has already lost its triangle; invalidating twice counts twice."
  },
  {
   "property": "C52",
   "status": "proved",
   "theorems": [
    "Simple.Render.Bvh.C52_bucket",
    "Simple.Render.Bvh.C52_build",
    "Simple.Render.Bvh.C52_tree"
   ],
   "note": "never fails, triangles permuted with their normals and materials, leaves tile the array, boxes contain their triangles; for every sorting that the standard library may do"
  },
  {
   "property": "C53",
   "status": "partial",
   "theorems": [
    "Simple.Render.Bvh.C53_violated_crack",
    "Simple.Render.Bvh.C53_violated_stack",
    "Simple.Render.Bvh.C53_violated_shadow",
    "Simple.Render.Bvh.C53_violated_crowd",
    "Simple.Render.Bvh.C53_intersect",
    "Simple.Render.Bvh.C53_small",
    "Simple.Render.Bvh.C53_reference",
    "Simple.Render.Bvh.C53_cast_ray",
    "Simple.Render.Bvh.C53_unobstructed_partial",
    "Simple.Render.Bvh.C53_box_test_partial"
   ],
   "note": "closest hit is that of brute force whenever the box test is conservative, the numbers fit their types and the tree fits the stack (always with at most stack+1 triangles); conservative for rays off the vertex coordinates; any-hit test correct when nothing is hit within a millimetre; missing: see the four violations"
  },
  {
   "property": "C54",
   "status": "partial",
   "theorems": [
    "Simple.Render.Image.C54_decode",
    "Simple.Render.Image.C54_black",
    "Simple.Render.Image.C54_stable_partial",
    "Simple.Render.Image.C54_violated_threshold",
    "Simple.Render.Image.C54_violated_bright"
   ],
   "note": "Decoding error bound for all colours with non-negative channels below 2^127, and black below 1e-19; stability of decoded pixels except next to the threshold. Two witnesses show where the code fails: colours just above 1e-19 become black when saved again, and colours of 2^127 and more panic (or become black without assertions). Real arithmetic."
  },
  {
   "property": "C55",
   "status": "proved",
   "theorems": [
    "Simple.Render.Image.C55_round_trip",
    "Simple.Render.Image.C55_places",
    "Simple.Render.Image.C55_complete",
    "Simple.Render.Image.C55_sizes",
    "Simple.Render.Image.C55_violated_truncated"
   ],
   "note": "Saving and reading back any image (channels non-negative and below 2^127, see C54) gives the same size, number of pixels and order, each pixel within the error of C54; places in a complete image never panic and are independent. UTF-8 decoding is a predicate that accepts ASCII. A witness shows that files that were cut short are accepted and panic later."
  },
  {
   "property": "C56",
   "status": "partial",
   "theorems": [
    "Simple.Render.Colourmap.C56_map_linear_partial",
    "Simple.Render.Colourmap.C56_no_range",
    "Simple.Render.Colourmap.C56_violated_rounding"
   ],
   "note": "Proved for exact arithmetic for all values, limits and colour maps of two or more entries; with double-precision rounding a witness reaches unreachable!()."
  },
  {
   "property": "C57",
   "status": "proved",
   "theorems": [
    "Simple.Render.Sampler.C57_triangle",
    "Simple.Render.Sampler.C57_triangle_even",
    "Simple.Render.Sampler.C57_disc",
    "Simple.Render.Sampler.C57_disc_even",
    "Simple.Render.Sampler.C57_tilted_disc",
    "Simple.Render.Sampler.C57_hemisphere",
    "Simple.Render.Sampler.C57_cosine",
    "Simple.Render.Sampler.C57_tilted_hemisphere",
    "Simple.Render.Sampler.C57_tilted_cosine",
    "Simple.Render.Sampler.C57_sphere",
    "Simple.Render.Sampler.C57_directions",
    "Simple.Render.Sampler.C57_pick",
    "Simple.Render.Sampler.C57_pick_even",
    "Simple.Render.Sampler.C57_surface_point"
   ],
   "note": "For all random numbers in [0,1): samples of triangles are strictly inside, of discs in the disc and its plane, of hemispheres unit vectors on the right side, of spheres on the sphere; the distributions are also shown to be even (volumes of the sets of random numbers). Choosing a triangle never panics under any monotone, idempotent rounding. Real arithmetic otherwise."
  },
  {
   "property": "C58",
   "status": "partial",
   "theorems": [
    "Simple.Light.C58_view_factors_partial",
    "Simple.Light.C58_rays",
    "Simple.Light.C58_violated_direction",
    "Simple.Light.C58_violated_no_points",
    "Simple.Light.C58_infrared",
    "Simple.Light.C58_violated_obstructed",
    "Simple.Light.C58_solar",
    "Simple.Light.C58_no_sun",
    "Simple.Light.C58_fenestration_partial",
    "Simple.Light.C58_violated_fenestration",
    "Simple.Light.C58_violated_average"
   ],
   "note": "View factors are in [0,1] and add up to the unobstructed part of the rays; infrared and (for surfaces) solar irradiance are never negative. Witnesses show that the normal is cast instead of the sampled directions, that obstructions radiate nothing, that fenestrations can store negative irradiance if the product with the sky is negative, that the stored value is not the average of the period, and that no points give NaN."
  },
  {
   "property": "C59",
   "status": "partial",
   "theorems": [
    "Simple.Geometry.Quadratic.C59_roots_partial",
    "Simple.Geometry.Quadratic.C59_violated_double_zero",
    "Simple.Geometry.Quadratic.C59_violated_always"
   ],
   "note": "All coefficients except b = c = 0, where the second root is 0/0 (C59_violated_double_zero) and, with a = 0 too, no root is returned though every number is one (C59_violated_always). Exact arithmetic; rounding is not modelled."
  },
  {
   "property": "C60",
   "status": "proved",
   "theorems": [
    "Simple.Building.C60_floor_areas",
    "Simple.Building.C60_no_panic",
    "Simple.Building.C60_add_surface",
    "Simple.Building.C60_history"
   ],
   "note": ""
  },
  {
   "property": "C61",
   "status": "proved",
   "theorems": [
    "Simple.Building.C61_wired",
    "Simple.Building.C61_no_sharing"
   ],
   "note": ""
  },
  {
   "property": "C62",
   "status": "proved",
   "theorems": [
    "Simple.Building.C62_parent"
   ],
   "note": ""
  },
  {
   "property": "C63",
   "status": "partial",
   "theorems": [
    "Simple.Heat.Wind.C63_windward_partial",
    "Simple.Heat.Wind.C63_violated_twice",
    "Simple.Heat.Wind.C63_violated_south"
   ],
   "note": "The wall test is right for a direction in radians; the march converts the direction twice, so the full claim is refuted."
  },
  {
   "property": "C64",
   "status": "partial",
   "theorems": [
    "Simple.Geometry.V3.C64_cross",
    "Simple.Geometry.V3.C64_normalize",
    "Simple.Geometry.V3.C64_perpendicular",
    "Simple.Geometry.V3.C64_distance_to_line",
    "Simple.Geometry.V3.C64_projection",
    "Simple.Geometry.V3.C64_parallel_partial",
    "Simple.Geometry.V3.C64_violated_parallel",
    "Simple.Geometry.V3.C64_collinear_partial",
    "Simple.Geometry.V3.C64_violated_collinear"
   ],
   "note": "Normalise, perpendicular, distances and projections are exact; is_parallel and is_collinear use absolute tolerances and are refuted as exact tests, with what they do decide proved."
  },
  {
   "property": "C65",
   "status": "proved",
   "theorems": [
    "Simple.Weather.Perez.C65_fraction"
   ],
   "note": ""
  },
  {
   "property": "C66",
   "status": "proved",
   "theorems": [
    "Simple.Weather.Sun.C66_seasons",
    "Simple.Weather.Sun.C66_equation_of_time",
    "Simple.Weather.Sun.C66_unit",
    "Simple.Weather.Sun.C66_declination",
    "Simple.Weather.Sun.C66_sun_position",
    "Simple.Weather.Sun.C66_length",
    "Simple.Weather.Sun.C66_east_west",
    "Simple.Weather.Sun.C66_sunrise",
    "Simple.Weather.Sun.C66_times"
   ],
   "note": ""
  },
  {
   "property": "C67",
   "status": "proved",
   "theorems": [
    "Simple.Geometry.Triangle.C67_area",
    "Simple.Geometry.Triangle.C67_circumcenter",
    "Simple.Geometry.Triangle.C67_centroid",
    "Simple.Geometry.Triangle.C67_aspect_ratio",
    "Simple.Geometry.Triangle.C67_accepted",
    "Simple.Geometry.Triangle.C67_new"
   ],
   "note": "Exact arithmetic over the reals; the aspect ratio for triangles with a side below the initial value 1e19 of the search for the shortest one."
  },
  {
   "property": "C68",
   "status": "partial",
   "theorems": [
    "Simple.Geometry.Loop.C68_any_ray",
    "Simple.Geometry.Loop.C68_parity_partial",
    "Simple.Geometry.Loop.C68_way_partial",
    "Simple.Geometry.Loop.C68_inside_partial",
    "Simple.Geometry.Loop.C68_outside_partial",
    "Simple.Geometry.Loop.C68_even_odd_partial",
    "Simple.Geometry.Loop.C68_refused",
    "Simple.Geometry.Loop.C68_edge_partial",
    "Simple.Geometry.Loop.C68_violated_near"
   ],
   "note": "Open loops are refused, points off the plane are outside, points on a side are inside. For convex loops, points to the left of all sides are inside unless they are so close to the middle of the first side that the ray (1000 times as long as the distance to that middle) does not leave the loop, where it fails (C68_violated_near), or the ray meets a side at an angle taken to be parallel; points to the right of some side are outside. For all loops, also those that are not convex, the answer is the parity of the number of sides met by the ray; this parity is that of the sides crossed by any other ray (C68_any_ray, C68_parity_partial), and two points have the same answer exactly if the way between them crosses an even number of sides (C68_way_partial). Not proved: points whose ray passes by a vertex or meets a side at an angle taken to be parallel, for loops that are not convex."
  },
  {
   "property": "C69",
   "status": "partial",
   "theorems": [
    "Simple.Geometry.C69_next_up",
    "Simple.Geometry.C69_next_down",
    "Simple.Geometry.C69_from",
    "Simple.Geometry.C69_add",
    "Simple.Geometry.C69_sub_partial",
    "Simple.Geometry.C69_neg_partial",
    "Simple.Geometry.C69_sqrt",
    "Simple.Geometry.C69_mul",
    "Simple.Geometry.C69_scale_partial",
    "Simple.Geometry.C69_div_partial",
    "Simple.Geometry.C69_mul_assign_partial",
    "Simple.Geometry.C69_div_assign_partial",
    "Simple.Geometry.C69_violated_neg",
    "Simple.Geometry.C69_violated_sub",
    "Simple.Geometry.C69_violated_scale",
    "Simple.Geometry.C69_violated_div",
    "Simple.Geometry.C69_violated_mul_assign",
    "Simple.Geometry.C69_violated_error",
    "Simple.Geometry.C69_violated_quadratic"
   ],
   "note": "Sum, product, square root and the intervals of exact numbers contain the results for all finite intervals, bit by bit with overflow and subnormal numbers. The difference and the opposite hold for single numbers only, the product with a number for non-negative factors, the quotient when zero is not among the divisors, *= and /= when nothing underflows; the violations show that the restrictions are needed."
  },
  {
   "property": "C70",
   "status": "partial",
   "theorems": [
    "Simple.Geometry.Sphere.C70_sphere_partial",
    "Simple.Geometry.Sphere.C70_zone",
    "Simple.Geometry.Sphere.C70_world",
    "Simple.Geometry.Sphere.C70_violated_pole",
    "Simple.Geometry.Sphere.C70_violated_pole_panic",
    "Simple.Geometry.Sphere.C70_normal",
    "Simple.Geometry.Sphere.C70_bounds"
   ],
   "note": "Whole and partial spheres, in exact arithmetic. Missing: rays through points near the axis (violated), rays starting on the sphere and tangent; parts by angle after a transformation."
  },
  {
   "property": "C71",
   "status": "partial",
   "theorems": [
    "Simple.Geometry.Cylinder.C71_cylinder",
    "Simple.Geometry.Cylinder.C71_bounds",
    "Simple.Geometry.Cylinder.C71_normal",
    "Simple.Geometry.Cylinder.C71_violated_side",
    "Simple.Geometry.Cylinder.C71_violated_end",
    "Simple.Geometry.Cylinder.C71_world_partial",
    "Simple.Geometry.Cylinder.C71_violated_hit"
   ],
   "note": "The geometry in the coordinates of the cylinder is proved in full; in the world only for vertical cylinders, the others being violated; the side is violated."
  },
  {
   "property": "C72",
   "status": "partial",
   "theorems": [
    "Simple.Geometry.Plane.C72_plane",
    "Simple.Geometry.Disk.C72_disk_partial",
    "Simple.Geometry.Disk.C72_violated_leaving"
   ],
   "note": "Planes in full; disks for rays that do not start in their plane (violated for those) and are not parallel to it."
  },
  {
   "property": "C73",
   "status": "partial",
   "theorems": [
    "Simple.Render.Lights.C73_source",
    "Simple.Render.Lights.C73_violated_omega",
    "Simple.Render.Lights.C73_sphere_partial",
    "Simple.Render.Lights.C73_violated_inside",
    "Simple.Render.Lights.C73_violated_triangle",
    "Simple.Render.Lights.C73_violated_moved",
    "Simple.Render.Lights.C73_area",
    "Simple.Render.Lights.C73_densities",
    "Simple.Render.Lights.C73_aim_sphere",
    "Simple.Render.Lights.C73_aim_triangle",
    "Simple.Render.Lights.C73_aim_source"
   ],
   "note": "Distant sources and spheres seen from outside in full, directions sampled towards all lights; densities of triangles and spheres from inside are violated."
  },
  {
   "property": "C74",
   "status": "partial",
   "theorems": [
    "Simple.Render.Materials.C74_refraction",
    "Simple.Render.Materials.C74_fresnel",
    "Simple.Render.Materials.C74_mirror",
    "Simple.Render.Materials.C74_dielectric_partial",
    "Simple.Render.Materials.C74_violated_medium",
    "Simple.Render.Materials.C74_violated_inside",
    "Simple.Render.Materials.C74_violated_radiance",
    "Simple.Render.Materials.C74_glass",
    "Simple.Render.Materials.C74_glass_clear",
    "Simple.Render.Materials.C74_glass_sample"
   ],
   "note": "Proved: law of refraction with the exact condition for total reflection, reflectance in [0,1) and the same both ways, mirror, dielectric (never fails away from the critical angle exactly; weights), energy balance and sampling of glass. Violated by the code: the medium of the ray changes also when it is reflected, and the radiance factor is a square root instead of a square."
  },
  {
   "property": "C75",
   "status": "partial",
   "theorems": [
    "Simple.Render.Materials.C75_diffuse",
    "Simple.Render.Materials.C75_diffuse_sample",
    "Simple.Render.Materials.C75_glossy_sample_partial",
    "Simple.Render.Materials.C75_violated_spread",
    "Simple.Render.Materials.C75_violated_endless",
    "Simple.Render.Materials.C75_violated_value",
    "Simple.Render.Materials.C75_colour",
    "Simple.Render.Materials.C75_matte",
    "Simple.Render.Materials.C75_violated_density",
    "Simple.Render.Materials.C75_violated_reciprocal",
    "Simple.Render.Materials.C75_violated_energy"
   ],
   "note": "Proved: the diffuse material (reciprocity, energy, densities, samples), directions and weights of the samples of plastic and metal. Violated by the code: glossy samples stay in the plane of incidence, sampling never ends for tiny specularities, values of samples are divided by the cosine once too often, no reciprocity, metals send away up to four times what arrives."
  },
  {
   "property": "C76",
   "status": "partial",
   "theorems": [
    "Simple.Render.Tracer.C76_path",
    "Simple.Render.Tracer.C76_straight",
    "Simple.Render.Tracer.C76_weights",
    "Simple.Render.Tracer.C76_choice",
    "Simple.Render.Tracer.C76_roulette",
    "Simple.Render.Tracer.C76_furnace",
    "Simple.Render.Tracer.C76_furnace_mean",
    "Simple.Render.Tracer.C76_nonnegative",
    "Simple.Render.Tracer.C76_depth",
    "Simple.Render.Tracer.C76_no_bounces",
    "Simple.Render.Tracer.C76_direct_partial",
    "Simple.Render.Tracer.C76_no_light",
    "Simple.Render.Tracer.C76_violated_endless",
    "Simple.Render.Tracer.C76_violated_edge_on",
    "Simple.Render.Tracer.C76_single",
    "Simple.Render.Tracer.C76_violated_many",
    "Simple.Render.Tracer.C76_violated_area",
    "Simple.Render.Tracer.C76_violated_density"
   ],
   "note": "weights, choice of lights, roulette, furnace, sign and depth for every scene; direct light of one sample; endless shadow rays, lost area light, inconsistent weights of several distant lights and the exchanged density as counterexamples"
  },
  {
   "property": "C77",
   "status": "proved",
   "theorems": [
    "Simple.Render.Daylight.C77_entries",
    "Simple.Render.Daylight.C77_unobstructed",
    "Simple.Render.Daylight.C77_bounded",
    "Simple.Render.Daylight.C77_mean",
    "Simple.Render.Daylight.C77_luminance",
    "Simple.Render.Daylight.C77_no_sensors",
    "Simple.Render.Daylight.C77_path"
   ],
   "note": "entries, unobstructed rows, bound and mean; the scene is abstracted as the course of each sampled ray"
  },
  {
   "property": "C78",
   "status": "partial",
   "theorems": [
    "Simple.Render.Camera.C78_camera",
    "Simple.Render.Camera.C78_made",
    "Simple.Render.Camera.C78_ray",
    "Simple.Render.Camera.C78_distinct",
    "Simple.Render.Camera.C78_inverse_partial",
    "Simple.Render.Camera.C78_violated_landscape",
    "Simple.Render.Camera.C78_violated_portrait",
    "Simple.Render.Camera.C78_index",
    "Simple.Render.Camera.C78_pixels"
   ],
   "note": "camera, rays, pixels and image for all sizes; the inverse holds for films that are square or one row higher than wide and is refuted for all others (up to fifty times as high as wide)"
  },
  {
   "property": "C79",
   "status": "partial",
   "theorems": [
    "Simple.Render.MatrixFile.C79_roundtrip",
    "Simple.Render.MatrixFile.C79_other_kind",
    "Simple.Render.MatrixFile.C79_violated_cut",
    "Simple.Render.MatrixFile.C79_read",
    "Simple.Render.MatrixFile.C79_decimals_partial",
    "Simple.Render.MatrixFile.C79_violated_small"
   ],
   "note": "round trip, refusal of the other kind and inversion for any file; cut files and small coefficients as counterexamples; printing of plain numbers is a hypothesis"
  },
  {
   "property": "C80",
   "status": "partial",
   "theorems": [
    "Simple.Render.Meshing.C80_sphere_partial",
    "Simple.Render.Meshing.C80_triangle",
    "Simple.Render.Meshing.C80_violated_scaled"
   ],
   "note": "Proved for every sphere without a scaling transformation and radius at least 1e-9 (C80_sphere_partial) and every triangle (C80_triangle), in exact arithmetic. C80_violated_scaled: a sphere with a scaling is meshed with the radius it has before scaling."
  },
  {
   "property": "C81",
   "status": "partial",
   "theorems": [
    "Simple.Render.Stage.C81_history",
    "Simple.Render.Stage.C81_material",
    "Simple.Render.Stage.C81_taken",
    "Simple.Render.Stage.C81_refused",
    "Simple.Render.Stage.C81_violated_cylinder",
    "Simple.Render.Stage.C81_obj_partial",
    "Simple.Render.Stage.C81_violated_large",
    "Simple.Render.Stage.C81_quad"
   ],
   "note": "Histories of materials and objects (C81_history, C81_material, C81_taken, C81_refused) in full; OBJ files for faces of three or four vertices that exist (C81_obj_partial, C81_quad). C81_violated_large: larger faces are left out without an error; C81_violated_cylinder: a cylinder that emits is a light that no ray meets. The text of the OBJ file is read by an external library and is not modelled."
  },
  {
   "property": "C82",
   "status": "partial",
   "theorems": [
    "Simple.Render.Radiance.C82_terminates",
    "Simple.Render.Radiance.C82_read_partial",
    "Simple.Render.Radiance.C82_spacing",
    "Simple.Render.Radiance.C82_violated_comment",
    "Simple.Render.Radiance.C82_materials",
    "Simple.Render.Radiance.C82_violated_redefined"
   ],
   "note": "Termination (C82_terminates), the exact set of files that are read and the scene they give (C82_read_partial, C82_materials), and independence of spacing (C82_spacing) for all files. C82_violated_comment: files with comments, which Radiance allows, are refused; C82_violated_redefined: a modifier is the first material of that name, not the last one before the object."
  },
  {
   "property": "C83",
   "status": "partial",
   "theorems": [
    "Simple.Render.FromModel.C83_scene",
    "Simple.Render.FromModel.C83_built",
    "Simple.Render.FromModel.C83_glass_partial",
    "Simple.Render.FromModel.C83_opaque",
    "Simple.Render.FromModel.C83_gas",
    "Simple.Render.FromModel.C83_violated_faint",
    "Simple.Render.FromModel.C83_violated_clear",
    "Simple.Render.FromModel.C83_violated_back",
    "Simple.Render.FromModel.C83_violated_again",
    "Simple.Render.FromModel.C83_violated_visible"
   ],
   "note": "Triangles, map, faces and the exact condition for success are proved for all buildings. Violated: substances are added again for each surface, the back uses the absorptance of the front, glass over 0.92 gives out more light than it gets, glass of 0.0001 or less becomes opaque, and visible light panics. The transmittance is proved to five decimals from 0.01 to 1; between 0.0001 and 0.01 nothing is claimed."
  },
  {
   "property": "C84",
   "status": "proved",
   "theorems": [
    "Simple.Render.Materials.C84_coordinates",
    "Simple.Render.Materials.C84_frame",
    "Simple.Render.Materials.C84_grazing"
   ],
   "note": "Rounding is not modelled. Seen from the back the axes are left-handed, which the theorem states; C84_grazing shows that for a ray in the plane of the triangle the program stops."
  },
  {
   "property": "C85",
   "status": "partial",
   "theorems": [
    "Simple.Heat.C85_turn",
    "Simple.Heat.C85_remains",
    "Simple.Heat.C85_balance",
    "Simple.Heat.C85_settles_partial",
    "Simple.Heat.C85_violated_overshoots"
   ],
   "note": "C85_remains and C85_turn hold for all walls, C85_settles_partial where conductances do not depend on temperature and radiation is mild (at most 5/4 of convection for two nodes). Missing: convergence with cavities whose conductance depends on temperature. C85_violated_overshoots: with radiation above three times convection a layer ends farther from the balance than it began."
  },
  {
   "property": "C86",
   "status": "partial",
   "theorems": [
    "Simple.Heat.C86_front_partial",
    "Simple.Heat.C86_back_partial",
    "Simple.Heat.C86_adiabatic",
    "Simple.Heat.C86_ground",
    "Simple.Heat.C86_temperatures",
    "Simple.Heat.C86_radiation",
    "Simple.Heat.C86_violated_front",
    "Simple.Heat.C86_violated_back_ambient",
    "Simple.Heat.C86_violated_back_wind"
   ],
   "note": "Temperatures, radiation and adiabatic sides hold; coefficients hold for vertical sides, given coefficients and outdoor fronts. The coefficient of tilted fronts towards rooms, of backs next to air at a given temperature and of backs in the wind are proved wrong."
  },
  {
   "property": "C87",
   "status": "partial",
   "theorems": [
    "Simple.Heat.C87_rest",
    "Simple.Heat.C87_allocated",
    "Simple.Heat.C87_building",
    "Simple.Heat.C87_flows",
    "Simple.Heat.C87_front_sun_partial",
    "Simple.Heat.C87_violated_back_sun",
    "Simple.Heat.C87_violated_radiation_lost"
   ],
   "note": "Rest is proved for whole buildings and any number of steps, the flows and the front sun for every surface. Negative sun on the back is not clamped and radiation from walls to rooms is lost: proved negations."
  },
  {
   "property": "C88",
   "status": "partial",
   "theorems": [
    "Simple.Heat.C88_nodes",
    "Simple.Heat.C88_nonneg",
    "Simple.Heat.C88_front_faces",
    "Simple.Heat.C88_back_faces_partial",
    "Simple.Heat.C88_violated_back_face"
   ],
   "note": "Nodes, shares and totals are proved for both sides. The panes seen from behind are right only if layers absorb the same on both sides; otherwise the front absorptances are used: proved negation."
  },
  {
   "property": "C89",
   "status": "partial",
   "theorems": [
    "Simple.Sim.C89_refused",
    "Simple.Sim.C89_rows_partial",
    "Simple.Sim.C89_violated_ends",
    "Simple.Sim.C89_violated_single",
    "Simple.Sim.C89_modules",
    "Simple.Sim.C89_parts",
    "Simple.Sim.C89_weather_dates"
   ],
   "note": "Controller and physics are arbitrary functions; the last record is at least a tenth of an hour after midnight; exact times; the first and last hourly records have no row (C89_violated_ends), a single record gives a year (C89_violated_single)."
  },
  {
   "property": "C90",
   "status": "proved",
   "theorems": [
    "Simple.Wiring.C90_wired",
    "Simple.Wiring.C90_set",
    "Simple.Wiring.C90_absent",
    "Simple.Wiring.C90_once"
   ],
   "note": "Construction failures other than those of the state, and what an error leaves behind, are not modelled. The open fraction of fenestrations and the elements of equipment are in C61."
  },
  {
   "property": "C91",
   "status": "partial",
   "theorems": [
    "Simple.Names.C91_first_partial",
    "Simple.Names.C91_unambiguous_partial",
    "Simple.Names.C91_requested_partial",
    "Simple.Names.C91_violated_hyphen",
    "Simple.Names.C91_violated_quote",
    "Simple.Names.C91_violated_unreachable"
   ],
   "note": "Proved for distinct names without quotation marks, backslashes or control characters, and without hyphens for the air between spaces; violated for the others, with witnesses and, for unreachable names, in general. How serde_json writes strings is modelled from its documented behaviour."
  },
  {
   "property": "C92",
   "status": "partial",
   "theorems": [
    "Simple.Script.C92_by_name",
    "Simple.Script.C92_by_index_partial",
    "Simple.Script.C92_violated_empty",
    "Simple.Script.C92_properties",
    "Simple.Script.C92_names",
    "Simple.Script.C92_set",
    "Simple.Script.C92_integers",
    "Simple.Script.C92_frame",
    "Simple.Script.C92_violated_research"
   ],
   "note": "The rhai language is not modelled: a script is any terminating tree of API calls. Missing: lookups by number in an empty list panic in builds with overflow checks, and research mode is ignored (both proved as violations)."
  },
  {
   "property": "C93",
   "status": "partial",
   "theorems": [
    "Simple.Save.C93_text_contents",
    "Simple.Save.C93_json_contents",
    "Simple.Save.C93_json",
    "Simple.Save.C93_text_partial",
    "Simple.Save.C93_valid",
    "Simple.Save.C93_violated_text",
    "Simple.Save.C93_violated_unknown",
    "Simple.Save.C93_unknown_json",
    "Simple.Save.C93_violated_unchecked",
    "Simple.Save.C93_violated_order",
    "Simple.Geometry.C93_loop_partial",
    "Simple.Geometry.C93_polygon_partial",
    "Simple.Geometry.C93_violated_panic",
    "Simple.Geometry.C93_violated_loop"
   ],
   "note": "JSON in full for whole buildings, given what writing and reading each polygon gives; the text without name and solar options, which it does not contain; loops of which closing drops no vertex; polygons with holes under the conditions of C49. The JSON of single objects (derived serde) is assumed to round-trip."
  },
  {
   "property": "C94",
   "status": "partial",
   "theorems": [
    "Simple.Geometry.C94_equal",
    "Simple.Geometry.C94_equal_self",
    "Simple.Geometry.C94_equal_same_partial",
    "Simple.Geometry.C94_equal_reverse",
    "Simple.Geometry.C94_snap",
    "Simple.Geometry.C94_snap_apart_partial",
    "Simple.Geometry.C94_violated_snap",
    "Simple.Geometry.C94_project",
    "Simple.Geometry.C94_project_again",
    "Simple.Geometry.C94_violated_project",
    "Simple.Geometry.C94_distance",
    "Simple.Geometry.C94_contains_vertex",
    "Simple.Geometry.C94_containing_segment",
    "Simple.Geometry.C94_polygon_snap",
    "Simple.Geometry.C94_polygon_project",
    "Simple.Geometry.C94_violated_polygon",
    "Simple.Geometry.C94_violated_equal",
    "Simple.Geometry.C94_violated_snap_area"
   ],
   "note": "equality, snapping and projecting are proved; the areas and normals after snapping and projecting are not updated (negated), equality fails for loops that visit a point twice (negated), snapping a chain of points goes further than the tolerance (negated)"
  },
  {
   "property": "C95",
   "status": "partial",
   "theorems": [
    "Simple.Geometry.Cut.C95_chord",
    "Simple.Geometry.Cut.C95_thin",
    "Simple.Geometry.Loop.C95_split",
    "Simple.Geometry.Loop.C95_area_partial",
    "Simple.Geometry.Loop.C95_along",
    "Simple.Geometry.Loop.C95_refused",
    "Simple.Geometry.Loop.C95_slice",
    "Simple.Geometry.Loop.C95_square",
    "Simple.Geometry.Loop.C95_violated_outside",
    "Simple.Geometry.Loop.C95_violated_ends"
   ],
   "note": "proved: the pieces are the sides of one chord along the segment, area vectors add up, refusals, no panics, many segments; areas only when the pieces keep the normal and leave out only points between their neighbours. Violated: the first two crossed edges in index order are taken, so a segment over a notch gives pieces outside the loop with areas adding up to more; a segment that ends on the boundary does not split"
  },
  {
   "property": "C96",
   "status": "partial",
   "theorems": [
    "Simple.Geometry.Loop.C96_points_partial",
    "Simple.Geometry.Loop.C96_bite",
    "Simple.Geometry.Loop.C96_refused",
    "Simple.Geometry.Loop.C96_apart",
    "Simple.Geometry.Loop.C96_corner",
    "Simple.Geometry.Loop.C96_violated_cross",
    "Simple.Geometry.Loop.C96_violated_parts",
    "Simple.Geometry.Loop.C96_violated_last_side",
    "Simple.Geometry.Loop.C96_violated_covered"
   ],
   "note": "proved: the result is a closed polygon with vertices that are in the other loop or near both boundaries, what cutting keeps, refusals, no panics, nothing in common when no vertex is in the other. Violated: crossing bars have nothing in common; only one of several common parts is found; a cut on the side that leads back to the first vertex is ignored; a covered loop stays as it is"
  },
  {
   "property": "C97",
   "status": "partial",
   "theorems": [
    "Simple.Geometry.C97_point_partial",
    "Simple.Geometry.C97_vector",
    "Simple.Geometry.C97_violated_point",
    "Simple.Geometry.C97_violated_translation",
    "Simple.Geometry.C97_violated_ray_translation",
    "Simple.Geometry.C97_violated_ray",
    "Simple.Geometry.C97_ray_partial"
   ],
   "note": "Vectors are within the reported error (up to 2^-49 of it). Points are within 4/3 of it, and within it when each row of the matrix has a zero; for others the error is too small (C97_violated_point). Errors that come in get the distance of the translation added (C97_violated_translation, _ray_translation). The origin of a ray clears the error in exact arithmetic, not after rounding (C97_violated_ray)."
  },
  {
   "property": "C98",
   "status": "partial",
   "theorems": [
    "Simple.Weather.Radiation.C98_inverse_square",
    "Simple.Weather.Radiation.C98_disc_joined",
    "Simple.Weather.Radiation.C98_global_bound",
    "Simple.Weather.Radiation.C98_cloudier",
    "Simple.Weather.Radiation.C98_extraterrestrial",
    "Simple.Weather.Radiation.C98_clear_sky",
    "Simple.Weather.Radiation.C98_disc",
    "Simple.Weather.Radiation.C98_global",
    "Simple.Weather.Radiation.C98_from_clouds_partial",
    "Simple.Weather.Radiation.C98_violated_nan",
    "Simple.Weather.Radiation.C98_violated_night",
    "Simple.Weather.Radiation.C98_violated_beam",
    "Simple.Weather.Radiation.C98_fill_partial"
   ],
   "note": "C98_from_clouds_partial and C98_fill_partial cover every weather but for direct radiation that is NaN (C98_violated_nan), a beam above the global radiation (C98_violated_beam), and radiation under the horizon when the functions are called directly (C98_violated_night)."
  },
  {
   "property": "C99",
   "status": "partial",
   "theorems": [
    "Simple.Weather.Radiation.C99_infrared_partial",
    "Simple.Weather.Radiation.C99_violated_units",
    "Simple.Weather.Radiation.C99_violated_missing"
   ],
   "note": "Positive, monotone and less than a black body; the units of the cover are wrong (C99_violated_units) and missing values of files are used (C99_violated_missing)."
  },
  {
   "property": "C100",
   "status": "partial",
   "theorems": [
    "Simple.Weather.Perez.C100_never_more",
    "Simple.Weather.Perez.C100_indices",
    "Simple.Weather.Perez.C100_diffuse_ratio",
    "Simple.Weather.Perez.C100_overcast_positive_partial",
    "Simple.Weather.Perez.C100_overcast",
    "Simple.Weather.Perez.C100_violated_negative"
   ],
   "note": "Indices and efficacy for all skies; radiance positive and normalised for overcast skies of brightness up to 0.5; negative around the sun for others (C100_violated_negative). For every sky the 145 bins give at most the diffuse radiation (C100_never_more)."
  },
  {
   "property": "C101",
   "status": "partial",
   "theorems": [
    "Simple.Render.Image.C101_linear",
    "Simple.Render.Image.C101_log_partial",
    "Simple.Render.Image.C101_size",
    "Simple.Render.Image.C101_violated_size",
    "Simple.Render.Image.C101_violated_dim",
    "Simple.Render.Image.C101_violated_brightest",
    "Simple.Render.Image.C101_violated_negative"
   ],
   "note": "proved with exact numbers for the linear scale, and for the logarithmic one when the maximum is asked for or the image is bright enough; fails for dim images, negative luminances and sides above 65535 pixels"
  },
  {
   "property": "C102",
   "status": "partial",
   "theorems": [
    "Simple.Render.Stage.C102_sun_partial",
    "Simple.Render.Stage.C102_violated_night",
    "Simple.Render.Stage.C102_violated_zenith"
   ],
   "note": "proved by day when the sun is more than three degrees from the vertical; at night the program panics, and nearer the vertical the sun is too dim"
  },
  {
   "property": "C103",
   "status": "partial",
   "theorems": [
    "Simple.Light.March.C103_day_partial",
    "Simple.Light.March.C103_night",
    "Simple.Light.March.C103_saved",
    "Simple.Light.March.C103_subdivision",
    "Simple.Light.March.C103_violated_fine",
    "Simple.Light.March.C103_violated_no_surfaces",
    "Simple.Light.March.C103_refused",
    "Simple.Light.March.C103_violated_other",
    "Simple.Light.March.C103_violated_grown"
   ],
   "note": "a step is proved for every building and state when the optical data fit the building; data of another building are used without notice (C103_violated_other) and make it panic (C103_violated_grown); subdivisions above 8 are refused after the calculation (C103_violated_fine), and windows without surfaces make it panic (C103_violated_no_surfaces)"
  },
  {
   "property": "C104",
   "status": "partial",
   "theorems": [
    "Simple.Heat.Whole.C104_room_unplaced",
    "Simple.Heat.Whole.C104_wall_unplaced",
    "Simple.Heat.Whole.C104_radiation_unplaced",
    "Simple.Heat.Whole.C104_step_partial",
    "Simple.Heat.Whole.C104_surface",
    "Simple.Heat.Whole.C104_march",
    "Simple.Heat.Whole.C104_allocated",
    "Simple.Heat.Whole.C104_rest",
    "Simple.Heat.Whole.C104_violated_nodes",
    "Simple.Heat.Whole.C104_wired"
   ],
   "note": "C104_step_partial, C104_surface, C104_march, C104_rest and C104_wired show the statement for every building whose models were built, apart from its last sentence: C104_violated_nodes shows that a temperature set in the state for a node inside a surface is ignored and overwritten, since steps go by the temperatures in the memory."
  },
  {
   "property": "C105",
   "status": "proved",
   "theorems": [
    "Simple.Physics.C105_step",
    "Simple.Physics.C105_control",
    "Simple.Physics.C105_rest"
   ],
   "note": "Over the reals; the weather of each step and the sky vector are given; optical data and the construction of the thermal walls are parameters (C103, C104)."
  },
  {
   "property": "C106",
   "status": "partial",
   "theorems": [
    "Simple.Calendar.C106_unambiguous",
    "Simple.Calendar.C106_label_partial",
    "Simple.Calendar.C106_order",
    "Simple.Calendar.C106_distinct",
    "Simple.Calendar.C106_rows_partial",
    "Simple.Calendar.C106_violated_midnight",
    "Simple.Calendar.C106_violated_run"
   ],
   "note": "Reading, uniqueness, order and distinctness proved for all valid dates and all rows of a period. Full statement fails in the last half minute of a day, which is written 24:00 of that day; C106_violated_run shows, bit by bit, that it happens at midnight in a simulation with three steps per hour."
  },
  {
   "property": "C107",
   "status": "partial",
   "theorems": [
    "Simple.Calendar.C107_from",
    "Simple.Calendar.C107_round_trip_partial",
    "Simple.Calendar.C107_violated_seconds"
   ],
   "note": "From a date-time: exact. The round trip is the identity exactly for zero seconds and for the last second of an hour (C107_round_trip_partial is an equivalence); otherwise the code computes the seconds as those that are missing (C107_violated_seconds)."
  },
  {
   "property": "C108",
   "status": "partial",
   "theorems": [
    "Simple.Command.C108_whole_partial",
    "Simple.Command.C108_crash",
    "Simple.Command.C108_nothing_else",
    "Simple.Command.C108_lines",
    "Simple.Command.C108_violated_short_writes"
   ],
   "note": "Proved for destinations that take all they are given or fail. Fails for destinations that take a part, as the Write trait allows, because run uses write and ignores its result (C108_violated_short_writes holds for every simulation)."
  },
  {
   "property": "C109",
   "status": "partial",
   "theorems": [
    "Simple.Command.C109_bad_input",
    "Simple.Command.C109_translate",
    "Simple.Command.C109_check",
    "Simple.Command.C109_simulates_partial",
    "Simple.Command.C109_violated_results_lost"
   ],
   "note": "All but the last sentence is proved. The output is created before anything is checked, so a simulation that cannot start destroys earlier results (C109_violated_results_lost, for every such command)."
  },
  {
   "property": "C110",
   "status": "partial",
   "theorems": [
    "Simple.Light.Optical.C110_data_partial",
    "Simple.Light.Optical.C110_energy",
    "Simple.Light.Optical.C110_fits",
    "Simple.Light.Optical.C110_violated_no_points",
    "Simple.Light.Optical.C110_violated_no_subdivision"
   ],
   "note": "Options that ask for no points on surfaces, or no subdivision of the sky, make the calculation panic (C110_violated_no_points, C110_violated_no_subdivision); proved for all other buildings and options. Coefficients are over the reals; what rays meet is an argument."
  },
  {
   "property": "C111",
   "status": "partial",
   "theorems": [
    "Simple.Render.Tools.C111_triplet",
    "Simple.Render.Tools.C111_violated_spaces",
    "Simple.Render.Tools.C111_compare_partial",
    "Simple.Render.Tools.C111_same",
    "Simple.Render.Tools.C111_compare_colours",
    "Simple.Render.Tools.C111_refused",
    "Simple.Render.Tools.C111_violated_truncated",
    "Simple.Render.Tools.C111_elsewhere",
    "Simple.Render.Tools.C111_colours",
    "Simple.Render.Tools.C111_picture",
    "Simple.Render.Tools.C111_format",
    "Simple.Render.Tools.C111_violated_sensors"
   ],
   "note": "Two spaces between the numbers of a triplet are refused, comparing an image that was cut short panics, and sfluxmtx always uses six sensors at one place whatever is given."
  },
  {
   "property": "C112",
   "status": "partial",
   "theorems": [
    "Simple.Render.Life.C112_kept",
    "Simple.Render.Life.C112_seen_partial",
    "Simple.Render.Life.C112_before",
    "Simple.Render.Life.C112_violated_later"
   ],
   "note": "Rays see everything when the acceleration structure was built last; objects added after that are not seen, and neither push_object nor cast_ray notices (C112_violated_later)."
  },
  {
   "property": "C113",
   "status": "partial",
   "theorems": [
    "Simple.Geometry.C113_sphere",
    "Simple.Geometry.C113_cylinder",
    "Simple.Geometry.C113_triangle_partial",
    "Simple.Geometry.C113_violated_triangle",
    "Simple.Geometry.C113_disk_partial",
    "Simple.Geometry.C113_violated_disk"
   ],
   "note": "Proved in full for spheres and cylinders. For triangles all but the second coordinate, which the code fills with the first one (C113_violated_triangle). For disks the coordinates and the normal; the tangents are not the velocities of the point (C113_violated_disk)."
  },
  {
   "property": "C114",
   "status": "partial",
   "theorems": [
    "Simple.Weather.C114_history",
    "Simple.Weather.C114_sorted_partial",
    "Simple.Weather.C114_order",
    "Simple.Weather.C114_violated_unsorted",
    "Simple.Weather.C114_wind_partial",
    "Simple.Weather.C114_violated_wind",
    "Simple.Weather.C114_schedules"
   ],
   "note": "Records, order and schedules for all histories; moments for histories that end with sorting (violated otherwise, C114_violated_unsorted); directions of the wind at most half a turn apart as numbers (violated at both sides of north, C114_violated_wind). Outside of the range of the records see C34."
  },
  {
   "property": "C115",
   "status": "partial",
   "theorems": [
    "Simple.Geometry.Quick.C115_inverse_root_partial",
    "Simple.Geometry.Quick.C115_normalize_partial",
    "Simple.Geometry.Quick.C115_perpendicular_partial",
    "Simple.Geometry.Quick.C115_violated_long"
   ],
   "note": "For vectors with length between 1.5e-10 and 3e18: within seven millionths in each component, with the rounding of f32 and f64. Longer vectors give infinite and NaN components (C115_violated_long). Numbers under 2^-126, for which f32 keeps fewer bits, are not modelled."
  },
  {
   "property": "C116",
   "status": "partial",
   "theorems": [
    "Simple.Heat.C116_building_partial",
    "Simple.Heat.C116_order_partial",
    "Simple.Heat.C116_between_partial",
    "Simple.Heat.C116_history_partial",
    "Simple.Heat.C116_condition",
    "Simple.Heat.C116_violated_cladding",
    "Simple.Heat.C116_nomass_partial",
    "Simple.Heat.C116_surface_partial",
    "Simple.Heat.C116_surface_history_partial"
   ],
   "note": "Proved for chunks of at least two nodes with mass whose exchange in one interval is gentle, and that the discretisation makes them so when the elements without mass conduct at most 20 W/m2K; in a building, with the time step that the program chooses, for every wall of layers with elements (C116_building_partial); for whole surfaces through any history, with nodes without mass inside and cavities whose conductance depends on the temperatures (C116_surface_history_partial); violated beside layers without mass that conduct well (C116_violated_cladding) and for faces without mass that radiate (C85_violated_overshoots)."
  },
  {
   "property": "C117",
   "status": "partial",
   "theorems": [
    "Simple.Render.Materials.C117_directional",
    "Simple.Render.Materials.C117_range",
    "Simple.Render.Materials.C117_diffuse",
    "Simple.Render.Materials.C117_mirror",
    "Simple.Render.Materials.C117_no_samples",
    "Simple.Render.Materials.C117_hemispherical",
    "Simple.Render.Materials.C117_expected",
    "Simple.Render.Materials.C117_hemisphere",
    "Simple.Render.Materials.C117_violated_glass"
   ],
   "note": "Real arithmetic. The estimate is the mean of the samples (C117_directional, C117_hemispherical), exactly the colour for diffuse materials and mirrors (C117_diffuse, C117_mirror), and for the hemispherical one the expected value is the colour whatever the number of samples (C117_hemisphere). Violated for glass: transmitted light counts as reflected, every clear pane has reflectance one (C117_violated_glass). Dielectrics, plastics and metals only through the general mean; see C74 and C75 for their samples."
  },
  {
   "property": "C118",
   "status": "partial",
   "theorems": [
    "Simple.Render.Shading.C118_rotated_partial",
    "Simple.Render.Shading.C118_unit_partial",
    "Simple.Render.Shading.C118_faces_partial",
    "Simple.Render.Shading.C118_flat_partial",
    "Simple.Render.Shading.C118_total_partial",
    "Simple.Render.Shading.C118_violated_vertex",
    "Simple.Render.Shading.C118_violated_blend",
    "Simple.Render.Shading.C118_violated_axes"
   ],
   "note": "Proved: unit length, facing the ray when the vertex normals are on one side, unchanged flat triangles, no panic for normals within a right angle, and the right blend if the normals were listed from the second vertex. Violated: at each vertex the hit gets the normal of another vertex (C118_violated_vertex, C118_violated_blend), and the axes are not updated with the normal (C118_violated_axes). Feature textures only."
  },
  {
   "property": "C119",
   "status": "partial",
   "theorems": [
    "Simple.Heat.C119_building_partial",
    "Simple.Heat.C119_violated_pane"
   ],
   "note": "Proved for surfaces whose chunks of nodes with mass have at least two nodes and exchange heat gently in one interval, and whose nodes without mass do not radiate; violated by a sheet of glass without mass between two rooms with little convection (C119_violated_pane) and by walls beside layers that conduct well (C116_violated_cladding)."
  },
  {
   "property": "C120",
   "status": "partial",
   "theorems": [
    "Simple.Heat.C120_heater_partial",
    "Simple.Heat.C120_energy",
    "Simple.Heat.C120_violated_isolated"
   ],
   "note": "Order of the two temperatures for every state, locality and the bound on energy; that more watts make a room warmer is false when its air exchanges no heat (C120_violated_isolated)."
  },
  {
   "property": "C121",
   "status": "partial",
   "theorems": [
    "Simple.Geometry.C121_there_and_back",
    "Simple.Geometry.C121_products",
    "Simple.Geometry.C121_unit_partial",
    "Simple.Geometry.C121_violated_scale"
   ],
   "note": "There and back, products and side for every transform that its inverse cancels; the length of the normal for moves and turns; a scaled shape has normals of another length (C121_violated_scale)."
  },
  {
   "property": "C122",
   "status": "partial",
   "theorems": [
    "Simple.Geometry.Triangle.C122_compare_partial",
    "Simple.Geometry.Triangle.C122_order",
    "Simple.Geometry.Triangle.C122_violated_narrow"
   ],
   "note": "Exact, and symmetric, for triangles whose vertices are more than two millimetres apart; a narrower one is said to be the same as one with an edge of five metres (C122_violated_narrow)."
  },
  {
   "property": "C123",
   "status": "partial",
   "theorems": [
    "Simple.Geometry.Mesh.C123_refine_partial",
    "Simple.Geometry.Mesh.C123_mesh_polygon_partial",
    "Simple.Geometry.Mesh.C123_violated_area"
   ],
   "note": "Proved: when refining ends, every triangle is valid, and unless it is tiny its aspect ratio is within the limit and its area too, except when its circumcenter is taken to be a corner of some triangle of the mesh; the same for mesh_polygon. Violated: such a triangle is left too large and refining ends well (C123_violated_area). Not proved: that refining ends."
  }
 ]
}