# Axioms of the theorems named in MANIFEST.json

Printed by Lean (`collectAxioms`) for every theorem.  No other axiom occurs.

## no axioms (4 theorems)

* `Simple.Matrix.C07_concat_rows_mismatch`
* `Simple.Matrix.C08_scale_mismatch`
* `Simple.Matrix.C10_column_prod_mismatch`
* `Simple.Sim.C89_modules`

## `propext` (13 theorems)

* `Simple.Matrix.C07_copy_from`
* `Simple.Matrix.C08_violated_zero_dimension`
* `Simple.Matrix.C08_add_sub_mismatch`
* `Simple.Matrix.C10_violated_new_witness`
* `Simple.Matrix.C10_violated_tall`
* `Simple.State.C16_one_class`
* `Simple.Building.C18_add_object`
* `Simple.Control.C23_capacity`
* `Simple.Weather.Perez.C38_violated_lookup`
* `Simple.Wiring.C90_absent`
* `Simple.Save.C93_unknown_json`
* `Simple.Calendar.C106_unambiguous`
* `Simple.Command.C108_lines`

## `Quot.sound`, `propext` (44 theorems)

* `Simple.Calendar.C05_new_rejects`
* `Simple.Matrix.C07_total_map`
* `Simple.Matrix.C07_from_data`
* `Simple.Matrix.C07_new`
* `Simple.Matrix.C07_eye`
* `Simple.Matrix.C07_write`
* `Simple.Matrix.C07_out_of_range`
* `Simple.Matrix.C07_concat_rows`
* `Simple.Matrix.C08_add_sub`
* `Simple.Matrix.C08_violated_add_into_destination`
* `Simple.Matrix.C10_write_rejected`
* `Simple.Matrix.C10_read_outside`
* `Simple.Matrix.C12_mismatch`
* `Simple.Poly.C13_unused_slots`
* `Simple.State.C15_violated_push_after_take`
* `Simple.State.C16_layout`
* `Simple.Building.C17_lookup`
* `Simple.Building.C17_order`
* `Simple.Building.C17_stable`
* `Simple.Building.C18_add_surface`
* `Simple.Building.C18_lists_partial`
* `Simple.Control.C23_control`
* `Simple.Control.C23_no_error`
* `Simple.Weather.Perez.C38_coefficients`
* `Simple.Geometry.Transform.C41_normal_partial`
* `Simple.Geometry.BBox.C42_point_inside`
* `Simple.Geometry.BBox.C42_new`
* `Simple.Geometry.BBox.C42_union_point`
* `Simple.Geometry.BBox.C42_union`
* `Simple.Geometry.BBox.C42_intersection`
* `Simple.Geometry.BBox.C42_overlaps`
* `Simple.Geometry.BBox.C42_faces`
* `Simple.Geometry.Polygon.C49_violated_walk`
* `Simple.Building.C60_no_panic`
* `Simple.Building.C60_add_surface`
* `Simple.Building.C60_history`
* `Simple.Building.C61_wired`
* `Simple.Building.C61_no_sharing`
* `Simple.Building.C62_parent`
* `Simple.Script.C92_by_name`
* `Simple.Script.C92_violated_empty`
* `Simple.Save.C93_json_contents`
* `Simple.Save.C93_valid`
* `Simple.Weather.C114_history`

## `Classical.choice`, `Quot.sound`, `propext` (761 theorems)

* `Simple.Calendar.C01_dayOfYear`
* `Simple.Calendar.C01_roundtrip_date`
* `Simple.Calendar.C01_roundtrip_day`
* `Simple.Calendar.C01_rejects`
* `Simple.Calendar.C02_order`
* `Simple.Calendar.C02_total_order`
* `Simple.Calendar.C02_sub`
* `Simple.Calendar.C02_is_earlier`
* `Simple.Calendar.C03_addDays_exact_iff`
* `Simple.Calendar.C03_addDays_wrong`
* `Simple.Calendar.C03_violated`
* `Simple.Calendar.C03_addHours_partial`
* `Simple.Calendar.C03_addSeconds_partial`
* `Simple.Calendar.C03_negative`
* `Simple.Calendar.C03_violated_negative`
* `Simple.Calendar.C04_nth_call_partial`
* `Simple.Calendar.C04_terminates_partial`
* `Simple.Calendar.C04_violated_never_ends`
* `Simple.Calendar.C05_contains`
* `Simple.Calendar.C06_interpolate`
* `Simple.Calendar.C06_endpoints`
* `Simple.Calendar.C06_monotone`
* `Simple.Matrix.C07_diag`
* `Simple.Matrix.C07_history`
* `Simple.Matrix.C07_compare`
* `Simple.Matrix.C08_prod_into_partial`
* `Simple.Matrix.C08_prod_into_mismatch`
* `Simple.Matrix.C08_mul`
* `Simple.Matrix.C08_mul_mismatch`
* `Simple.Matrix.C08_eye_neutral`
* `Simple.Matrix.C08_assoc`
* `Simple.Matrix.C08_add_sub_into_partial`
* `Simple.Matrix.C08_scale`
* `Simple.Matrix.C09_band_product`
* `Simple.Matrix.C09_same_as_full`
* `Simple.Matrix.C09_tri_diag`
* `Simple.Matrix.C10_write`
* `Simple.Matrix.C10_total_map`
* `Simple.Matrix.C10_scale`
* `Simple.Matrix.C10_violated_new`
* `Simple.Matrix.C10_column_prod_partial`
* `Simple.Matrix.C10_violated_narrow`
* `Simple.Matrix.C11_chain_succeeds`
* `Simple.Matrix.C11_solves`
* `Simple.Matrix.C11_solves_copy`
* `Simple.Matrix.C11_no_panic`
* `Simple.Matrix.C11_singular_fails`
* `Simple.Matrix.C11_dominant_succeeds`
* `Simple.Matrix.C11_compact`
* `Simple.Matrix.C12_converges`
* `Simple.Matrix.C12_error`
* `Simple.Matrix.C12_sweep`
* `Simple.Matrix.C12_result_partial`
* `Simple.Matrix.C12_residual`
* `Simple.Matrix.C12_fixed_point`
* `Simple.Matrix.C12_exact_accepted`
* `Simple.Matrix.C12_violated_nan`
* `Simple.Poly.C13_push_eval`
* `Simple.Poly.C13_push_overflow`
* `Simple.Poly.C13_poly_macro`
* `Simple.Progress.C14_counts`
* `Simple.Progress.C14_monotone`
* `Simple.Progress.C14_printed_le`
* `Simple.Progress.C14_bar_width`
* `Simple.Progress.C14_sequential_partial`
* `Simple.Progress.C14_violated_lag`
* `Simple.Progress.C14_violated_overlap_exceeds_100`
* `Simple.State.C15_stable`
* `Simple.State.C15_unique`
* `Simple.State.C15_values`
* `Simple.State.C15_rejected`
* `Simple.State.C16_counters`
* `Simple.State.C16_section_copies`
* `Simple.Building.C18_violated_fenestration`
* `Simple.Building.C18_violated_hvac`
* `Simple.Scan.C19_scan`
* `Simple.Scan.C19_kinds`
* `Simple.Scan.C19_additions`
* `Simple.Scan.C19_dependencies`
* `Simple.Scan.C19_terminates_partial`
* `Simple.Scan.C19_violated_termination`
* `Simple.Scan.C19_violated_string`
* `Simple.Building.C20_setpoints`
* `Simple.Building.C21_sectors`
* `Simple.Building.C21_no_panic_partial`
* `Simple.Building.C21_horizontal_partial`
* `Simple.Building.C21_opposite`
* `Simple.Building.C21_outside_inside`
* `Simple.Building.C21_violated_panic`
* `Simple.Building.C21_violated_horizontal`
* `Simple.Csv.C22_rows_match_header`
* `Simple.Csv.C22_requested_partial`
* `Simple.Csv.C22_all_elements`
* `Simple.Csv.C22_violated_some_unknown`
* `Simple.Csv.C22_violated_all_unknown`
* `Simple.Csv.C22_violated_comma`
* `Simple.Heat.C24_combine_total`
* `Simple.Heat.C24_balance_exists`
* `Simple.Heat.C24_combine_spec`
* `Simple.Heat.C24_alphas_spec`
* `Simple.Heat.C24_conservation`
* `Simple.Heat.C24_assoc`
* `Simple.Heat.C24_grouping`
* `Simple.Heat.C24_from_construction`
* `Simple.Heat.C25_build`
* `Simple.Heat.C25_nodes`
* `Simple.Heat.C25_mass`
* `Simple.Heat.C25_resistance_partial`
* `Simple.Heat.C25_violated_cavity`
* `Simple.Heat.C26_chunks`
* `Simple.Heat.C26_partition`
* `Simple.Heat.C27_building`
* `Simple.Heat.C27_minimum`
* `Simple.Heat.C27_violated_minimum`
* `Simple.Heat.C27_discretization_partial`
* `Simple.Heat.C27_stable`
* `Simple.Heat.C27_violated_missing_density`
* `Simple.Heat.C27_new`
* `Simple.Heat.C28_matrix`
* `Simple.Heat.C28_conduction`
* `Simple.Heat.C28_heat_balance`
* `Simple.Heat.C28_rest`
* `Simple.Heat.C29_surface_partial`
* `Simple.Heat.C29_rk4`
* `Simple.Heat.C29_equilibrium`
* `Simple.Heat.C29_affine`
* `Simple.Heat.C29_violated_single_node`
* `Simple.Heat.C29_rearrange`
* `Simple.Heat.C29_march_partial`
* `Simple.Heat.C29_march_rest`
* `Simple.Heat.C29_energy`
* `Simple.Heat.C29_fourth_order`
* `Simple.Heat.C30_balance`
* `Simple.Heat.C30_exact`
* `Simple.Heat.C30_solution`
* `Simple.Heat.C30_mean`
* `Simple.Heat.C30_between`
* `Simple.Heat.C30_flow`
* `Simple.Heat.C30_step`
* `Simple.Heat.C30_isolated_heater`
* `Simple.Heat.C31_natural`
* `Simple.Heat.C31_tarp`
* `Simple.Heat.C31_forced_partial`
* `Simple.Heat.C31_violated_documented`
* `Simple.Heat.C31_violated_very_smooth`
* `Simple.Heat.C31_violated_very_rough`
* `Simple.Heat.C32_noble`
* `Simple.Heat.C32_air`
* `Simple.Heat.C32_heavier`
* `Simple.Heat.C32_molar_volume`
* `Simple.Heat.C32_nusselt_partial`
* `Simple.Heat.C32_between`
* `Simple.Heat.C32_violated_rayleigh_50000`
* `Simple.Heat.C32_violated_heated_from_above`
* `Simple.Heat.C32_gases`
* `Simple.Heat.C32_u_value_partial`
* `Simple.Air.C33_formulas`
* `Simple.Air.C33_flow`
* `Simple.Air.C33_wind`
* `Simple.Air.C33_coefficients`
* `Simple.Air.C33_step`
* `Simple.Air.C33_refused`
* `Simple.Air.C33_storeys`
* `Simple.Air.C33_exposed`
* `Simple.Weather.C34_interpolate`
* `Simple.Weather.C34_at_record`
* `Simple.Weather.C34_between_partial`
* `Simple.Weather.C34_before_first_partial`
* `Simple.Weather.C34_after_last`
* `Simple.Weather.C34_no_data`
* `Simple.Weather.C34_violated_after_last`
* `Simple.Weather.C34_sort`
* `Simple.Weather.Epw.C35_element`
* `Simple.Weather.Epw.C35_data_period_partial`
* `Simple.Weather.Epw.C35_location`
* `Simple.Weather.Epw.C35_ground`
* `Simple.Weather.Epw.C35_file_partial`
* `Simple.Weather.Epw.C35_violated_wind_direction`
* `Simple.Weather.Epw.C35_violated_empty_first_line`
* `Simple.Weather.Epw.C35_record`
* `Simple.Weather.Reinhart.C36_count`
* `Simple.Weather.Reinhart.C36_row`
* `Simple.Weather.Reinhart.C36_direction`
* `Simple.Weather.Reinhart.C36_in_range`
* `Simple.Weather.Reinhart.C36_round_trip`
* `Simple.Weather.Reinhart.C37_solid_angles`
* `Simple.Weather.Perez.C38_clearness`
* `Simple.Weather.Perez.C38_bins`
* `Simple.Weather.Perez.C38_direct_partial`
* `Simple.Weather.Perez.C38_direct_ratio`
* `Simple.Weather.Perez.C39_any_sky`
* `Simple.Weather.Perez.C39_suns`
* `Simple.Weather.Perez.C39_ground`
* `Simple.Weather.Perez.C39_sky_partial`
* `Simple.Weather.Perez.C39_update`
* `Simple.Weather.Perez.C39_night`
* `Simple.Weather.Perez.C39_violated_twice`
* `Simple.Geometry.Transform.C40_primitive`
* `Simple.Geometry.Transform.C40_composition`
* `Simple.Geometry.Transform.C40_pair_partial`
* `Simple.Geometry.Transform.C40_history_partial`
* `Simple.Geometry.Transform.C40_violated_composition`
* `Simple.Geometry.Transform.C41_violated_composition`
* `Simple.Geometry.Transform.C41_hands`
* `Simple.Geometry.Transform.C41_bbox`
* `Simple.Geometry.BBox.C42_surface_area`
* `Simple.Geometry.BBox.C42_max_extent`
* `Simple.Geometry.BBox.C43_hit_partial`
* `Simple.Geometry.BBox.C43_violated_on_face`
* `Simple.Geometry.BBox.C43_no_false_hit`
* `Simple.Geometry.Triangle.C44_geometry_partial`
* `Simple.Geometry.Triangle.C44_geometry_complete`
* `Simple.Geometry.Triangle.C44_rendering`
* `Simple.Geometry.Triangle.C44_rendering_complete`
* `Simple.Geometry.Triangle.C44_violated_outside`
* `Simple.Geometry.Triangle.C44_violated_small`
* `Simple.Geometry.Triangle.C45_class`
* `Simple.Geometry.Triangle.C45_disjoint`
* `Simple.Geometry.Triangle.C45_places`
* `Simple.Geometry.Triangle.C45_bounds`
* `Simple.Geometry.Segment.C46_point_partial`
* `Simple.Geometry.Segment.C46_symmetric`
* `Simple.Geometry.Segment.C46_parallel`
* `Simple.Geometry.Segment.C46_complete`
* `Simple.Geometry.Segment.C46_touches`
* `Simple.Geometry.Segment.C46_intersect`
* `Simple.Geometry.Segment.C46_violated_apart`
* `Simple.Geometry.Segment.C46_violated_short`
* `Simple.Geometry.Segment.C46_contains`
* `Simple.Geometry.Loop.C47_start`
* `Simple.Geometry.Loop.C47_translation`
* `Simple.Geometry.Loop.C47_direction`
* `Simple.Geometry.Loop.C47_ear`
* `Simple.Geometry.Loop.C47_bridge`
* `Simple.Geometry.Loop.C47_area`
* `Simple.Geometry.Loop.C47_invariant`
* `Simple.Geometry.Loop.C47_flat`
* `Simple.Geometry.Loop.C48_push_closed`
* `Simple.Geometry.Loop.C48_push`
* `Simple.Geometry.Loop.C48_measures`
* `Simple.Geometry.Loop.C48_close`
* `Simple.Geometry.Loop.C48_close_failed_partial`
* `Simple.Geometry.Loop.C48_history_partial`
* `Simple.Geometry.Loop.C48_violated_close`
* `Simple.Geometry.Polygon.C49_cut`
* `Simple.Geometry.Polygon.C49_area`
* `Simple.Geometry.Polygon.C49_walk_partial`
* `Simple.Geometry.Polygon.C49_nearest`
* `Simple.Geometry.Polygon.C49_bridged_partial`
* `Simple.Geometry.Polygon.C49_bridged_area`
* `Simple.Geometry.Polygon.C49_same_area_partial`
* `Simple.Geometry.Polygon.C49_violated_overlap`
* `Simple.Geometry.Polygon.C49_violated_triangle`
* `Simple.Geometry.Mesh.C50_triangulation`
* `Simple.Geometry.Mesh.C50_area_partial`
* `Simple.Geometry.Mesh.C50_violated_many`
* `Simple.Geometry.Mesh.C50_ear`
* `Simple.Geometry.Mesh.C51_flip_diagonal`
* `Simple.Geometry.Mesh.C51_split_edge`
* `Simple.Geometry.Mesh.C51_split_edge_on`
* `Simple.Geometry.Mesh.C51_split_triangle`
* `Simple.Geometry.Mesh.C51_push`
* `Simple.Geometry.Mesh.C51_add_point`
* `Simple.Geometry.Mesh.C51_restore_delaunay`
* `Simple.Geometry.Mesh.C51_flip_succeeds`
* `Simple.Geometry.Mesh.C51_split_edge_succeeds`
* `Simple.Geometry.Mesh.C51_split_triangle_succeeds`
* `Simple.Geometry.Mesh.C51_counter`
* `Simple.Geometry.Mesh.C51_history`
* `Simple.Geometry.Mesh.C51_longest`
* `Simple.Geometry.Mesh.C51_flip_candidates`
* `Simple.Geometry.Mesh.C51_flip_best`
* `Simple.Geometry.Mesh.C51_start_partial`
* `Simple.Geometry.Mesh.C51_push_counter`
* `Simple.Geometry.Mesh.C51_invalidate_counter`
* `Simple.Geometry.Mesh.C51_violated_lost`
* `Simple.Geometry.Mesh.C51_violated_counter`
* `Simple.Geometry.Mesh.C51_refine_sound_partial`
* `Simple.Render.Bvh.C52_bucket`
* `Simple.Render.Bvh.C52_build`
* `Simple.Render.Bvh.C52_tree`
* `Simple.Render.Bvh.C53_violated_crack`
* `Simple.Render.Bvh.C53_violated_stack`
* `Simple.Render.Bvh.C53_violated_shadow`
* `Simple.Render.Bvh.C53_violated_crowd`
* `Simple.Render.Bvh.C53_intersect`
* `Simple.Render.Bvh.C53_small`
* `Simple.Render.Bvh.C53_reference`
* `Simple.Render.Bvh.C53_cast_ray`
* `Simple.Render.Bvh.C53_unobstructed_partial`
* `Simple.Render.Bvh.C53_box_test_partial`
* `Simple.Render.Image.C54_decode`
* `Simple.Render.Image.C54_black`
* `Simple.Render.Image.C54_stable_partial`
* `Simple.Render.Image.C54_violated_threshold`
* `Simple.Render.Image.C54_violated_bright`
* `Simple.Render.Image.C55_round_trip`
* `Simple.Render.Image.C55_places`
* `Simple.Render.Image.C55_complete`
* `Simple.Render.Image.C55_sizes`
* `Simple.Render.Image.C55_violated_truncated`
* `Simple.Render.Colourmap.C56_map_linear_partial`
* `Simple.Render.Colourmap.C56_no_range`
* `Simple.Render.Colourmap.C56_violated_rounding`
* `Simple.Render.Sampler.C57_triangle`
* `Simple.Render.Sampler.C57_triangle_even`
* `Simple.Render.Sampler.C57_disc`
* `Simple.Render.Sampler.C57_disc_even`
* `Simple.Render.Sampler.C57_tilted_disc`
* `Simple.Render.Sampler.C57_hemisphere`
* `Simple.Render.Sampler.C57_cosine`
* `Simple.Render.Sampler.C57_tilted_hemisphere`
* `Simple.Render.Sampler.C57_tilted_cosine`
* `Simple.Render.Sampler.C57_sphere`
* `Simple.Render.Sampler.C57_directions`
* `Simple.Render.Sampler.C57_pick`
* `Simple.Render.Sampler.C57_pick_even`
* `Simple.Render.Sampler.C57_surface_point`
* `Simple.Light.C58_view_factors_partial`
* `Simple.Light.C58_rays`
* `Simple.Light.C58_violated_direction`
* `Simple.Light.C58_violated_no_points`
* `Simple.Light.C58_infrared`
* `Simple.Light.C58_violated_obstructed`
* `Simple.Light.C58_solar`
* `Simple.Light.C58_no_sun`
* `Simple.Light.C58_fenestration_partial`
* `Simple.Light.C58_violated_fenestration`
* `Simple.Light.C58_violated_average`
* `Simple.Geometry.Quadratic.C59_roots_partial`
* `Simple.Geometry.Quadratic.C59_violated_double_zero`
* `Simple.Geometry.Quadratic.C59_violated_always`
* `Simple.Building.C60_floor_areas`
* `Simple.Heat.Wind.C63_windward_partial`
* `Simple.Heat.Wind.C63_violated_twice`
* `Simple.Heat.Wind.C63_violated_south`
* `Simple.Geometry.V3.C64_cross`
* `Simple.Geometry.V3.C64_normalize`
* `Simple.Geometry.V3.C64_perpendicular`
* `Simple.Geometry.V3.C64_distance_to_line`
* `Simple.Geometry.V3.C64_projection`
* `Simple.Geometry.V3.C64_parallel_partial`
* `Simple.Geometry.V3.C64_violated_parallel`
* `Simple.Geometry.V3.C64_collinear_partial`
* `Simple.Geometry.V3.C64_violated_collinear`
* `Simple.Weather.Perez.C65_fraction`
* `Simple.Weather.Sun.C66_seasons`
* `Simple.Weather.Sun.C66_equation_of_time`
* `Simple.Weather.Sun.C66_unit`
* `Simple.Weather.Sun.C66_declination`
* `Simple.Weather.Sun.C66_sun_position`
* `Simple.Weather.Sun.C66_length`
* `Simple.Weather.Sun.C66_east_west`
* `Simple.Weather.Sun.C66_sunrise`
* `Simple.Weather.Sun.C66_times`
* `Simple.Geometry.Triangle.C67_area`
* `Simple.Geometry.Triangle.C67_circumcenter`
* `Simple.Geometry.Triangle.C67_centroid`
* `Simple.Geometry.Triangle.C67_aspect_ratio`
* `Simple.Geometry.Triangle.C67_accepted`
* `Simple.Geometry.Triangle.C67_new`
* `Simple.Geometry.Loop.C68_any_ray`
* `Simple.Geometry.Loop.C68_parity_partial`
* `Simple.Geometry.Loop.C68_way_partial`
* `Simple.Geometry.Loop.C68_inside_partial`
* `Simple.Geometry.Loop.C68_outside_partial`
* `Simple.Geometry.Loop.C68_even_odd_partial`
* `Simple.Geometry.Loop.C68_refused`
* `Simple.Geometry.Loop.C68_edge_partial`
* `Simple.Geometry.Loop.C68_violated_near`
* `Simple.Geometry.C69_next_up`
* `Simple.Geometry.C69_next_down`
* `Simple.Geometry.C69_from`
* `Simple.Geometry.C69_add`
* `Simple.Geometry.C69_sub_partial`
* `Simple.Geometry.C69_neg_partial`
* `Simple.Geometry.C69_sqrt`
* `Simple.Geometry.C69_mul`
* `Simple.Geometry.C69_scale_partial`
* `Simple.Geometry.C69_div_partial`
* `Simple.Geometry.C69_mul_assign_partial`
* `Simple.Geometry.C69_div_assign_partial`
* `Simple.Geometry.C69_violated_neg`
* `Simple.Geometry.C69_violated_sub`
* `Simple.Geometry.C69_violated_scale`
* `Simple.Geometry.C69_violated_div`
* `Simple.Geometry.C69_violated_mul_assign`
* `Simple.Geometry.C69_violated_error`
* `Simple.Geometry.C69_violated_quadratic`
* `Simple.Geometry.Sphere.C70_sphere_partial`
* `Simple.Geometry.Sphere.C70_zone`
* `Simple.Geometry.Sphere.C70_world`
* `Simple.Geometry.Sphere.C70_violated_pole`
* `Simple.Geometry.Sphere.C70_violated_pole_panic`
* `Simple.Geometry.Sphere.C70_normal`
* `Simple.Geometry.Sphere.C70_bounds`
* `Simple.Geometry.Cylinder.C71_cylinder`
* `Simple.Geometry.Cylinder.C71_bounds`
* `Simple.Geometry.Cylinder.C71_normal`
* `Simple.Geometry.Cylinder.C71_violated_side`
* `Simple.Geometry.Cylinder.C71_violated_end`
* `Simple.Geometry.Cylinder.C71_world_partial`
* `Simple.Geometry.Cylinder.C71_violated_hit`
* `Simple.Geometry.Plane.C72_plane`
* `Simple.Geometry.Disk.C72_disk_partial`
* `Simple.Geometry.Disk.C72_violated_leaving`
* `Simple.Render.Lights.C73_source`
* `Simple.Render.Lights.C73_violated_omega`
* `Simple.Render.Lights.C73_sphere_partial`
* `Simple.Render.Lights.C73_violated_inside`
* `Simple.Render.Lights.C73_violated_triangle`
* `Simple.Render.Lights.C73_violated_moved`
* `Simple.Render.Lights.C73_area`
* `Simple.Render.Lights.C73_densities`
* `Simple.Render.Lights.C73_aim_sphere`
* `Simple.Render.Lights.C73_aim_triangle`
* `Simple.Render.Lights.C73_aim_source`
* `Simple.Render.Materials.C74_refraction`
* `Simple.Render.Materials.C74_fresnel`
* `Simple.Render.Materials.C74_mirror`
* `Simple.Render.Materials.C74_dielectric_partial`
* `Simple.Render.Materials.C74_violated_medium`
* `Simple.Render.Materials.C74_violated_inside`
* `Simple.Render.Materials.C74_violated_radiance`
* `Simple.Render.Materials.C74_glass`
* `Simple.Render.Materials.C74_glass_clear`
* `Simple.Render.Materials.C74_glass_sample`
* `Simple.Render.Materials.C75_diffuse`
* `Simple.Render.Materials.C75_diffuse_sample`
* `Simple.Render.Materials.C75_glossy_sample_partial`
* `Simple.Render.Materials.C75_violated_spread`
* `Simple.Render.Materials.C75_violated_endless`
* `Simple.Render.Materials.C75_violated_value`
* `Simple.Render.Materials.C75_colour`
* `Simple.Render.Materials.C75_matte`
* `Simple.Render.Materials.C75_violated_density`
* `Simple.Render.Materials.C75_violated_reciprocal`
* `Simple.Render.Materials.C75_violated_energy`
* `Simple.Render.Tracer.C76_path`
* `Simple.Render.Tracer.C76_straight`
* `Simple.Render.Tracer.C76_weights`
* `Simple.Render.Tracer.C76_choice`
* `Simple.Render.Tracer.C76_roulette`
* `Simple.Render.Tracer.C76_furnace`
* `Simple.Render.Tracer.C76_furnace_mean`
* `Simple.Render.Tracer.C76_nonnegative`
* `Simple.Render.Tracer.C76_depth`
* `Simple.Render.Tracer.C76_no_bounces`
* `Simple.Render.Tracer.C76_direct_partial`
* `Simple.Render.Tracer.C76_no_light`
* `Simple.Render.Tracer.C76_violated_endless`
* `Simple.Render.Tracer.C76_violated_edge_on`
* `Simple.Render.Tracer.C76_single`
* `Simple.Render.Tracer.C76_violated_many`
* `Simple.Render.Tracer.C76_violated_area`
* `Simple.Render.Tracer.C76_violated_density`
* `Simple.Render.Daylight.C77_entries`
* `Simple.Render.Daylight.C77_unobstructed`
* `Simple.Render.Daylight.C77_bounded`
* `Simple.Render.Daylight.C77_mean`
* `Simple.Render.Daylight.C77_luminance`
* `Simple.Render.Daylight.C77_no_sensors`
* `Simple.Render.Daylight.C77_path`
* `Simple.Render.Camera.C78_camera`
* `Simple.Render.Camera.C78_made`
* `Simple.Render.Camera.C78_ray`
* `Simple.Render.Camera.C78_distinct`
* `Simple.Render.Camera.C78_inverse_partial`
* `Simple.Render.Camera.C78_violated_landscape`
* `Simple.Render.Camera.C78_violated_portrait`
* `Simple.Render.Camera.C78_index`
* `Simple.Render.Camera.C78_pixels`
* `Simple.Render.MatrixFile.C79_roundtrip`
* `Simple.Render.MatrixFile.C79_other_kind`
* `Simple.Render.MatrixFile.C79_violated_cut`
* `Simple.Render.MatrixFile.C79_read`
* `Simple.Render.MatrixFile.C79_decimals_partial`
* `Simple.Render.MatrixFile.C79_violated_small`
* `Simple.Render.Meshing.C80_sphere_partial`
* `Simple.Render.Meshing.C80_triangle`
* `Simple.Render.Meshing.C80_violated_scaled`
* `Simple.Render.Stage.C81_history`
* `Simple.Render.Stage.C81_material`
* `Simple.Render.Stage.C81_taken`
* `Simple.Render.Stage.C81_refused`
* `Simple.Render.Stage.C81_violated_cylinder`
* `Simple.Render.Stage.C81_obj_partial`
* `Simple.Render.Stage.C81_violated_large`
* `Simple.Render.Stage.C81_quad`
* `Simple.Render.Radiance.C82_terminates`
* `Simple.Render.Radiance.C82_read_partial`
* `Simple.Render.Radiance.C82_spacing`
* `Simple.Render.Radiance.C82_violated_comment`
* `Simple.Render.Radiance.C82_materials`
* `Simple.Render.Radiance.C82_violated_redefined`
* `Simple.Render.FromModel.C83_scene`
* `Simple.Render.FromModel.C83_built`
* `Simple.Render.FromModel.C83_glass_partial`
* `Simple.Render.FromModel.C83_opaque`
* `Simple.Render.FromModel.C83_gas`
* `Simple.Render.FromModel.C83_violated_faint`
* `Simple.Render.FromModel.C83_violated_clear`
* `Simple.Render.FromModel.C83_violated_back`
* `Simple.Render.FromModel.C83_violated_again`
* `Simple.Render.FromModel.C83_violated_visible`
* `Simple.Render.Materials.C84_coordinates`
* `Simple.Render.Materials.C84_frame`
* `Simple.Render.Materials.C84_grazing`
* `Simple.Heat.C85_turn`
* `Simple.Heat.C85_remains`
* `Simple.Heat.C85_balance`
* `Simple.Heat.C85_settles_partial`
* `Simple.Heat.C85_violated_overshoots`
* `Simple.Heat.C86_front_partial`
* `Simple.Heat.C86_back_partial`
* `Simple.Heat.C86_adiabatic`
* `Simple.Heat.C86_ground`
* `Simple.Heat.C86_temperatures`
* `Simple.Heat.C86_radiation`
* `Simple.Heat.C86_violated_front`
* `Simple.Heat.C86_violated_back_ambient`
* `Simple.Heat.C86_violated_back_wind`
* `Simple.Heat.C87_rest`
* `Simple.Heat.C87_allocated`
* `Simple.Heat.C87_building`
* `Simple.Heat.C87_flows`
* `Simple.Heat.C87_front_sun_partial`
* `Simple.Heat.C87_violated_back_sun`
* `Simple.Heat.C87_violated_radiation_lost`
* `Simple.Heat.C88_nodes`
* `Simple.Heat.C88_nonneg`
* `Simple.Heat.C88_front_faces`
* `Simple.Heat.C88_back_faces_partial`
* `Simple.Heat.C88_violated_back_face`
* `Simple.Sim.C89_refused`
* `Simple.Sim.C89_rows_partial`
* `Simple.Sim.C89_violated_ends`
* `Simple.Sim.C89_violated_single`
* `Simple.Sim.C89_parts`
* `Simple.Sim.C89_weather_dates`
* `Simple.Wiring.C90_wired`
* `Simple.Wiring.C90_set`
* `Simple.Wiring.C90_once`
* `Simple.Names.C91_first_partial`
* `Simple.Names.C91_unambiguous_partial`
* `Simple.Names.C91_requested_partial`
* `Simple.Names.C91_violated_hyphen`
* `Simple.Names.C91_violated_quote`
* `Simple.Names.C91_violated_unreachable`
* `Simple.Script.C92_by_index_partial`
* `Simple.Script.C92_properties`
* `Simple.Script.C92_names`
* `Simple.Script.C92_set`
* `Simple.Script.C92_integers`
* `Simple.Script.C92_frame`
* `Simple.Script.C92_violated_research`
* `Simple.Save.C93_text_contents`
* `Simple.Save.C93_json`
* `Simple.Save.C93_text_partial`
* `Simple.Save.C93_violated_text`
* `Simple.Save.C93_violated_unknown`
* `Simple.Save.C93_violated_unchecked`
* `Simple.Save.C93_violated_order`
* `Simple.Geometry.C93_loop_partial`
* `Simple.Geometry.C93_polygon_partial`
* `Simple.Geometry.C93_violated_panic`
* `Simple.Geometry.C93_violated_loop`
* `Simple.Geometry.C94_equal`
* `Simple.Geometry.C94_equal_self`
* `Simple.Geometry.C94_equal_same_partial`
* `Simple.Geometry.C94_equal_reverse`
* `Simple.Geometry.C94_snap`
* `Simple.Geometry.C94_snap_apart_partial`
* `Simple.Geometry.C94_violated_snap`
* `Simple.Geometry.C94_project`
* `Simple.Geometry.C94_project_again`
* `Simple.Geometry.C94_violated_project`
* `Simple.Geometry.C94_distance`
* `Simple.Geometry.C94_contains_vertex`
* `Simple.Geometry.C94_containing_segment`
* `Simple.Geometry.C94_polygon_snap`
* `Simple.Geometry.C94_polygon_project`
* `Simple.Geometry.C94_violated_polygon`
* `Simple.Geometry.C94_violated_equal`
* `Simple.Geometry.C94_violated_snap_area`
* `Simple.Geometry.Cut.C95_chord`
* `Simple.Geometry.Cut.C95_thin`
* `Simple.Geometry.Loop.C95_split`
* `Simple.Geometry.Loop.C95_area_partial`
* `Simple.Geometry.Loop.C95_along`
* `Simple.Geometry.Loop.C95_refused`
* `Simple.Geometry.Loop.C95_slice`
* `Simple.Geometry.Loop.C95_square`
* `Simple.Geometry.Loop.C95_violated_outside`
* `Simple.Geometry.Loop.C95_violated_ends`
* `Simple.Geometry.Loop.C96_points_partial`
* `Simple.Geometry.Loop.C96_bite`
* `Simple.Geometry.Loop.C96_refused`
* `Simple.Geometry.Loop.C96_apart`
* `Simple.Geometry.Loop.C96_corner`
* `Simple.Geometry.Loop.C96_violated_cross`
* `Simple.Geometry.Loop.C96_violated_parts`
* `Simple.Geometry.Loop.C96_violated_last_side`
* `Simple.Geometry.Loop.C96_violated_covered`
* `Simple.Geometry.C97_point_partial`
* `Simple.Geometry.C97_vector`
* `Simple.Geometry.C97_violated_point`
* `Simple.Geometry.C97_violated_translation`
* `Simple.Geometry.C97_violated_ray_translation`
* `Simple.Geometry.C97_violated_ray`
* `Simple.Geometry.C97_ray_partial`
* `Simple.Weather.Radiation.C98_inverse_square`
* `Simple.Weather.Radiation.C98_disc_joined`
* `Simple.Weather.Radiation.C98_global_bound`
* `Simple.Weather.Radiation.C98_cloudier`
* `Simple.Weather.Radiation.C98_extraterrestrial`
* `Simple.Weather.Radiation.C98_clear_sky`
* `Simple.Weather.Radiation.C98_disc`
* `Simple.Weather.Radiation.C98_global`
* `Simple.Weather.Radiation.C98_from_clouds_partial`
* `Simple.Weather.Radiation.C98_violated_nan`
* `Simple.Weather.Radiation.C98_violated_night`
* `Simple.Weather.Radiation.C98_violated_beam`
* `Simple.Weather.Radiation.C98_fill_partial`
* `Simple.Weather.Radiation.C99_infrared_partial`
* `Simple.Weather.Radiation.C99_violated_units`
* `Simple.Weather.Radiation.C99_violated_missing`
* `Simple.Weather.Perez.C100_never_more`
* `Simple.Weather.Perez.C100_indices`
* `Simple.Weather.Perez.C100_diffuse_ratio`
* `Simple.Weather.Perez.C100_overcast_positive_partial`
* `Simple.Weather.Perez.C100_overcast`
* `Simple.Weather.Perez.C100_violated_negative`
* `Simple.Render.Image.C101_linear`
* `Simple.Render.Image.C101_log_partial`
* `Simple.Render.Image.C101_size`
* `Simple.Render.Image.C101_violated_size`
* `Simple.Render.Image.C101_violated_dim`
* `Simple.Render.Image.C101_violated_brightest`
* `Simple.Render.Image.C101_violated_negative`
* `Simple.Render.Stage.C102_sun_partial`
* `Simple.Render.Stage.C102_violated_night`
* `Simple.Render.Stage.C102_violated_zenith`
* `Simple.Light.March.C103_day_partial`
* `Simple.Light.March.C103_night`
* `Simple.Light.March.C103_saved`
* `Simple.Light.March.C103_subdivision`
* `Simple.Light.March.C103_violated_fine`
* `Simple.Light.March.C103_violated_no_surfaces`
* `Simple.Light.March.C103_refused`
* `Simple.Light.March.C103_violated_other`
* `Simple.Light.March.C103_violated_grown`
* `Simple.Heat.Whole.C104_room_unplaced`
* `Simple.Heat.Whole.C104_wall_unplaced`
* `Simple.Heat.Whole.C104_radiation_unplaced`
* `Simple.Heat.Whole.C104_step_partial`
* `Simple.Heat.Whole.C104_surface`
* `Simple.Heat.Whole.C104_march`
* `Simple.Heat.Whole.C104_allocated`
* `Simple.Heat.Whole.C104_rest`
* `Simple.Heat.Whole.C104_violated_nodes`
* `Simple.Heat.Whole.C104_wired`
* `Simple.Physics.C105_step`
* `Simple.Physics.C105_control`
* `Simple.Physics.C105_rest`
* `Simple.Calendar.C106_label_partial`
* `Simple.Calendar.C106_order`
* `Simple.Calendar.C106_distinct`
* `Simple.Calendar.C106_rows_partial`
* `Simple.Calendar.C106_violated_midnight`
* `Simple.Calendar.C106_violated_run`
* `Simple.Calendar.C107_from`
* `Simple.Calendar.C107_round_trip_partial`
* `Simple.Calendar.C107_violated_seconds`
* `Simple.Command.C108_whole_partial`
* `Simple.Command.C108_crash`
* `Simple.Command.C108_nothing_else`
* `Simple.Command.C108_violated_short_writes`
* `Simple.Command.C109_bad_input`
* `Simple.Command.C109_translate`
* `Simple.Command.C109_check`
* `Simple.Command.C109_simulates_partial`
* `Simple.Command.C109_violated_results_lost`
* `Simple.Light.Optical.C110_data_partial`
* `Simple.Light.Optical.C110_energy`
* `Simple.Light.Optical.C110_fits`
* `Simple.Light.Optical.C110_violated_no_points`
* `Simple.Light.Optical.C110_violated_no_subdivision`
* `Simple.Render.Tools.C111_triplet`
* `Simple.Render.Tools.C111_violated_spaces`
* `Simple.Render.Tools.C111_compare_partial`
* `Simple.Render.Tools.C111_same`
* `Simple.Render.Tools.C111_compare_colours`
* `Simple.Render.Tools.C111_refused`
* `Simple.Render.Tools.C111_violated_truncated`
* `Simple.Render.Tools.C111_elsewhere`
* `Simple.Render.Tools.C111_colours`
* `Simple.Render.Tools.C111_picture`
* `Simple.Render.Tools.C111_format`
* `Simple.Render.Tools.C111_violated_sensors`
* `Simple.Render.Life.C112_kept`
* `Simple.Render.Life.C112_seen_partial`
* `Simple.Render.Life.C112_before`
* `Simple.Render.Life.C112_violated_later`
* `Simple.Geometry.C113_sphere`
* `Simple.Geometry.C113_cylinder`
* `Simple.Geometry.C113_triangle_partial`
* `Simple.Geometry.C113_violated_triangle`
* `Simple.Geometry.C113_disk_partial`
* `Simple.Geometry.C113_violated_disk`
* `Simple.Weather.C114_sorted_partial`
* `Simple.Weather.C114_order`
* `Simple.Weather.C114_violated_unsorted`
* `Simple.Weather.C114_wind_partial`
* `Simple.Weather.C114_violated_wind`
* `Simple.Weather.C114_schedules`
* `Simple.Geometry.Quick.C115_inverse_root_partial`
* `Simple.Geometry.Quick.C115_normalize_partial`
* `Simple.Geometry.Quick.C115_perpendicular_partial`
* `Simple.Geometry.Quick.C115_violated_long`
* `Simple.Heat.C116_building_partial`
* `Simple.Heat.C116_order_partial`
* `Simple.Heat.C116_between_partial`
* `Simple.Heat.C116_history_partial`
* `Simple.Heat.C116_condition`
* `Simple.Heat.C116_violated_cladding`
* `Simple.Heat.C116_nomass_partial`
* `Simple.Heat.C116_surface_partial`
* `Simple.Heat.C116_surface_history_partial`
* `Simple.Render.Materials.C117_directional`
* `Simple.Render.Materials.C117_range`
* `Simple.Render.Materials.C117_diffuse`
* `Simple.Render.Materials.C117_mirror`
* `Simple.Render.Materials.C117_no_samples`
* `Simple.Render.Materials.C117_hemispherical`
* `Simple.Render.Materials.C117_expected`
* `Simple.Render.Materials.C117_hemisphere`
* `Simple.Render.Materials.C117_violated_glass`
* `Simple.Render.Shading.C118_rotated_partial`
* `Simple.Render.Shading.C118_unit_partial`
* `Simple.Render.Shading.C118_faces_partial`
* `Simple.Render.Shading.C118_flat_partial`
* `Simple.Render.Shading.C118_total_partial`
* `Simple.Render.Shading.C118_violated_vertex`
* `Simple.Render.Shading.C118_violated_blend`
* `Simple.Render.Shading.C118_violated_axes`
* `Simple.Heat.C119_building_partial`
* `Simple.Heat.C119_violated_pane`
* `Simple.Heat.C120_heater_partial`
* `Simple.Heat.C120_energy`
* `Simple.Heat.C120_violated_isolated`
* `Simple.Geometry.C121_there_and_back`
* `Simple.Geometry.C121_products`
* `Simple.Geometry.C121_unit_partial`
* `Simple.Geometry.C121_violated_scale`
* `Simple.Geometry.Triangle.C122_compare_partial`
* `Simple.Geometry.Triangle.C122_order`
* `Simple.Geometry.Triangle.C122_violated_narrow`
* `Simple.Geometry.Mesh.C123_refine_partial`
* `Simple.Geometry.Mesh.C123_mesh_polygon_partial`
* `Simple.Geometry.Mesh.C123_violated_area`
