{
 "claims": [
  {
   "property": "C01",
   "status": "proved",
   "theorems": [
    "Rendering.C01_cast_ray_nearest"
   ],
   "note": "For scenes below 2^30 triangles without 32768 coincident box centres (see C08). Triangles only met within the 2^-52 edge tolerance may or may not be reported."
  },
  {
   "property": "C02",
   "status": "proved",
   "theorems": [
    "Rendering.C02_cast_ray_misses_nothing",
    "Rendering.C02_cast_ray_iff"
   ],
   "note": "Same limits as C01; the exact equivalence is C02_cast_ray_iff."
  },
  {
   "property": "C03",
   "status": "proved",
   "theorems": [
    "Rendering.C03_unobstructed",
    "Rendering.C03_unobstructed_iff"
   ],
   "note": "Same limits as C01; the exact equivalence is C03_unobstructed_iff."
  },
  {
   "property": "C04",
   "status": "proved",
   "theorems": [
    "Rendering.C04_build_succeeds"
   ],
   "note": "No size limit."
  },
  {
   "property": "C05",
   "status": "proved",
   "theorems": [
    "Rendering.C05_build_permutes",
    "Rendering.C05_rows_stay_together",
    "Rendering.C05_history_permutes"
   ],
   "note": "Per build and over whole histories."
  },
  {
   "property": "C06",
   "status": "proved",
   "theorems": [
    "Rendering.C06_scratch_irrelevant"
   ],
   "note": ""
  },
  {
   "property": "C07",
   "status": "proved",
   "theorems": [
    "Rendering.C07_answers_independent_of_tree"
   ],
   "note": "For rays clear of the 2^-52 edge tolerance bands."
  },
  {
   "property": "C08",
   "status": "partial",
   "theorems": [
    "Rendering.C08_coincident_partial",
    "Rendering.C08_violation",
    "Rendering.C08_casts_wrap"
   ],
   "note": "False of the code for >= 32768 coincident triangles (n_prims wraps to a negative i16): C08_violation."
  },
  {
   "property": "C09",
   "status": "partial",
   "theorems": [
    "Rendering.C09_queries_are_stale",
    "Rendering.C09_all_pushed_seen_partial",
    "Rendering.C09_violation",
    "Rendering.SceneExamples.C09_violation_witness"
   ],
   "note": "False of the code for triangles pushed after the last (re)build: C09_violation; C09_queries_are_stale says exactly what happens instead."
  },
  {
   "property": "C10",
   "status": "proved",
   "theorems": [
    "Rendering.C10_aligned_and_valid",
    "Rendering.C10_terminates"
   ],
   "note": ""
  },
  {
   "property": "C11",
   "status": "proved",
   "theorems": [
    "Rendering.C11_material_handles_stable",
    "Rendering.C11_materials_are_those_pushed"
   ],
   "note": ""
  },
  {
   "property": "C12",
   "status": "proved",
   "theorems": [
    "Rendering.C12_light_registry"
   ],
   "note": ""
  },
  {
   "property": "C13",
   "status": "proved",
   "theorems": [
    "Rendering.C13_push_object_panics_iff",
    "Rendering.C13_push_object_effect"
   ],
   "note": ""
  },
  {
   "property": "C14",
   "status": "proved",
   "theorems": [
    "Rendering.C14_build_life_cycle",
    "Rendering.C14_accelerator_iff_built",
    "Rendering.C14_query_without_accelerator"
   ],
   "note": ""
  },
  {
   "property": "C15",
   "status": "proved",
   "theorems": [
    "Rendering.C15_hit_is_geometric",
    "Rendering.C15_frame_orthonormal",
    "Rendering.C15_recorded_point"
   ],
   "note": ""
  },
  {
   "property": "C16",
   "status": "proved",
   "theorems": [
    "Rendering.C16_hit_is_complete",
    "Rendering.C16_info_is_complete"
   ],
   "note": ""
  },
  {
   "property": "C17",
   "status": "partial",
   "theorems": [
    "Rendering.C17_hittable_partial",
    "Rendering.C17_violation_small_triangles_invisible"
   ],
   "note": "False of the code: triangles of side below about 1e-4.5 fail the absolute tolerance on the determinant whatever the ray, C17_violation_small_triangles_invisible; C17_hittable_partial gives the size from which it holds."
  },
  {
   "property": "C18",
   "status": "proved",
   "theorems": [
    "Rendering.C18_area_is_half_cross",
    "Rendering.C18_area_laws"
   ],
   "note": ""
  },
  {
   "property": "C19",
   "status": "proved",
   "theorems": [
    "Rendering.C19_bounds_tight"
   ],
   "note": ""
  },
  {
   "property": "C20",
   "status": "proved",
   "theorems": [
    "Rendering.C20_mesh_count",
    "Rendering.C20_vertices_on_sphere",
    "Rendering.C20_wound_outwards",
    "Rendering.C20_normals_radial",
    "Rendering.C20_scene_env"
   ],
   "note": "Over the reals, for every centre and positive radius."
  },
  {
   "property": "C21",
   "status": "partial",
   "theorems": [
    "Rendering.C21_interpolated_normal_partial",
    "Rendering.C21_violation"
   ],
   "note": "False of the code (barycentric weights are rotated): C21_violation; true when the three normals agree, C21_interpolated_normal_partial."
  },
  {
   "property": "C22",
   "status": "partial",
   "theorems": [
    "Rendering.C22_pdf_translation_partial",
    "Rendering.C22_density_partial",
    "Rendering.C22_violation"
   ],
   "note": "False of the code (pdf uses the ray's origin as a direction): C22_violation."
  },
  {
   "property": "C23",
   "status": "proved",
   "theorems": [
    "Rendering.C23_rgbe_error_bounded",
    "Rendering.C23_dark_is_black",
    "Rendering.C23_range_needed"
   ],
   "note": "Over exact arithmetic; C110 is the statement with every operation rounded to double precision."
  },
  {
   "property": "C24",
   "status": "proved",
   "theorems": [
    "Rendering.C24_hdr_roundtrip",
    "Rendering.C24_hdr_pixels",
    "Rendering.C24_reading_terminates"
   ],
   "note": ""
  },
  {
   "property": "C25",
   "status": "partial",
   "theorems": [
    "Rendering.C25_resave_identity_partial",
    "Rendering.C25_resave_dark_partial",
    "Rendering.C25_violation",
    "Rendering.C25_violation_doubles",
    "Rendering.C25_violation_doubles_image"
   ],
   "note": "False of the code for pixels whose largest channel is in [1e-19, 237*2^-71): the decoded pixel falls under the darkness threshold and re-encodes to black, C25_violation; true otherwise in exact arithmetic. In double precision it is false far more widely: with any library accurate to 0.55 ulp the pixel of radiance 5 (bytes 160,160,160,131) is re-saved as 159, C25_violation_doubles; how far it can move is bounded by C110."
  },
  {
   "property": "C26",
   "status": "partial",
   "theorems": [
    "Rendering.C26_consistent_partial",
    "Rendering.C26_violation"
   ],
   "note": "False of the code: from_file does not compare the number of pixels with the size line, C26_violation; for files with 4*w*h pixel bytes it holds."
  },
  {
   "property": "C27",
   "status": "proved",
   "theorems": [
    "Rendering.C27_read_write",
    "Rendering.C27_history",
    "Rendering.C27_row_major",
    "Rendering.C27_panics_iff",
    "Rendering.C27_new",
    "Rendering.C27_column_overflow"
   ],
   "note": ""
  },
  {
   "property": "C28",
   "status": "proved",
   "theorems": [
    "Rendering.C28_succeeds_iff",
    "Rendering.C28_pixelwise",
    "Rendering.C28_symmetric"
   ],
   "note": ""
  },
  {
   "property": "C29",
   "status": "partial",
   "theorems": [
    "Rendering.C29_clamped_partial",
    "Rendering.C29_interpolates_partial",
    "Rendering.C29_total_partial",
    "Rendering.C29_monotone_partial",
    "Rendering.C29_violation"
   ],
   "note": "Proved in exact arithmetic (C29_*_partial). In f64 the last bucket's upper end can be rounded below a value smaller than max and the loop falls through to unreachable!(): C29_violation."
  },
  {
   "property": "C30",
   "status": "partial",
   "theorems": [
    "Rendering.C30_tables",
    "Rendering.C30_linear_succeeds_partial",
    "Rendering.C30_linear_bytes",
    "Rendering.C30_linear_auto",
    "Rendering.C30_linear_colours",
    "Rendering.C30_log_succeeds_partial",
    "Rendering.C30_log_bytes",
    "Rendering.C30_log_auto_bounds",
    "Rendering.C30_log_colours_partial",
    "Rendering.C30_violation_log_auto",
    "Rendering.C30_violation_log_negative",
    "Rendering.C30_violation_log_limit",
    "Rendering.C30_violation_truncated",
    "Rendering.C30_violation_wide",
    "Rendering.C30_violation_cropped"
   ],
   "note": "Well-formedness and linear limits proved; automatic log limits are wrong (max starts at 0.001 but is compared with logarithms), C30_violation_log_auto, and negative luminances panic, C30_violation_log_negative, as does a negative upper limit, C30_violation_log_limit. Incomplete images and sides that are multiples of 65536 make the encoder fail, and so panic (C30_violation_truncated, C30_violation_wide); wider images are silently cut (C30_violation_cropped)."
  },
  {
   "property": "C31",
   "status": "proved",
   "theorems": [
    "Rendering.C31_matrix_roundtrip"
   ],
   "note": ""
  },
  {
   "property": "C32",
   "status": "proved",
   "theorems": [
    "Rendering.C32_colour_matrix_roundtrip",
    "Rendering.C32_precision"
   ],
   "note": ""
  },
  {
   "property": "C33",
   "status": "proved",
   "theorems": [
    "Rendering.C33_kinds_not_confused"
   ],
   "note": ""
  },
  {
   "property": "C34",
   "status": "partial",
   "theorems": [
    "Rendering.C34_accepted_colour_partial",
    "Rendering.C34_accepted_scalar_partial",
    "Rendering.C34_bad_header_is_error_partial",
    "Rendering.C34_bad_row_is_error_partial",
    "Rendering.C34_violation"
   ],
   "note": "False of the code: missing rows are accepted and zero-filled, surplus rows panic, C34_violation. Proved: what accepted files contain; bad headers and (up to NROWS lines) bad rows are errors."
  },
  {
   "property": "C35",
   "status": "proved",
   "theorems": [
    "Rendering.C35_conversions",
    "Rendering.C35_average",
    "Rendering.C35_radiance_between",
    "Rendering.C35_gray"
   ],
   "note": ""
  },
  {
   "property": "C36",
   "status": "partial",
   "theorems": [
    "Rendering.C36_roundtrip_square_partial",
    "Rendering.C36_violation_landscape",
    "Rendering.C36_violation_portrait"
   ],
   "note": "True on square films only; on films wider than high every row comes back shifted, on portrait films rows are reported out of view (C36_violation_*)."
  },
  {
   "property": "C37",
   "status": "proved",
   "theorems": [
    "Rendering.C37_rays_well_formed",
    "Rendering.C37_rays_distinct",
    "Rendering.C37_central_symmetry"
   ],
   "note": ""
  },
  {
   "property": "C38",
   "status": "proved",
   "theorems": [
    "Rendering.C38_random_sample",
    "Rendering.C38_every_pixel_drawn",
    "Rendering.C38_pixel_index_bijective"
   ],
   "note": ""
  },
  {
   "property": "C39",
   "status": "proved",
   "theorems": [
    "Rendering.C39_pixel_value",
    "Rendering.C39_written_once",
    "Rendering.C39_some_schedule_finishes",
    "Rendering.C39_schedule_independent"
   ],
   "note": ""
  },
  {
   "property": "C40",
   "status": "proved",
   "theorems": [
    "Rendering.C40_row_exact",
    "Rendering.C40_coords_exact",
    "Rendering.C40_bound_needed"
   ],
   "note": ""
  },
  {
   "property": "C41",
   "status": "proved",
   "theorems": [
    "Rendering.C41_dc_progress",
    "Rendering.C41_render_progress",
    "Rendering.C41_render_display",
    "Rendering.C41_bound_needed"
   ],
   "note": ""
  },
  {
   "property": "C42",
   "status": "proved",
   "theorems": [
    "Rendering.C42_dc_no_deadlock",
    "Rendering.C42_render_no_deadlock",
    "Rendering.C42_render_terminates"
   ],
   "note": ""
  },
  {
   "property": "C43",
   "status": "proved",
   "theorems": [
    "Rendering.C43_mirror_direction",
    "Rendering.C43_same_side"
   ],
   "note": ""
  },
  {
   "property": "C44",
   "status": "proved",
   "theorems": [
    "Rendering.C44_snell"
   ],
   "note": ""
  },
  {
   "property": "C45",
   "status": "proved",
   "theorems": [
    "Rendering.C45_refraction",
    "Rendering.C45_transmitted_path"
   ],
   "note": ""
  },
  {
   "property": "C46",
   "status": "proved",
   "theorems": [
    "Rendering.C46_bounds",
    "Rendering.C46_reversible",
    "Rendering.C46_classical_values",
    "Rendering.C46_grazing"
   ],
   "note": ""
  },
  {
   "property": "C47",
   "status": "proved",
   "theorems": [
    "Rendering.C47_dielectric_energy"
   ],
   "note": ""
  },
  {
   "property": "C48",
   "status": "proved",
   "theorems": [
    "Rendering.C48_glass_energy"
   ],
   "note": ""
  },
  {
   "property": "C49",
   "status": "partial",
   "theorems": [
    "Rendering.C49_white_mirror_partial",
    "Rendering.C49_violation"
   ],
   "note": "False of the code: the mirror's path has weight one whatever its colour, C49_violation; so it holds exactly for white mirrors, C49_white_mirror_partial."
  },
  {
   "property": "C50",
   "status": "partial",
   "theorems": [
    "Rendering.C50_reflection_partial",
    "Rendering.C50_violation",
    "Rendering.C50_opaque_straight_partial"
   ],
   "note": "False of the code: C50_violation; the reflected direction is consistent, C50_reflection_partial."
  },
  {
   "property": "C51",
   "status": "proved",
   "theorems": [
    "Rendering.C51_nonneg",
    "Rendering.C51_materials_nonneg",
    "Rendering.C51_roughness_floor",
    "Rendering.C51_reciprocity",
    "Rendering.C51_diffuse",
    "Rendering.C51_mirror_peak"
   ],
   "note": "Over the reals; the specular term is evaluated only where both cosines are positive."
  },
  {
   "property": "C52",
   "status": "proved",
   "theorems": [
    "Rendering.C52_slab"
   ],
   "note": ""
  },
  {
   "property": "C53",
   "status": "proved",
   "theorems": [
    "Rendering.C53_in_triangle",
    "Rendering.C53_interior",
    "Rendering.C53_direction"
   ],
   "note": ""
  },
  {
   "property": "C54",
   "status": "proved",
   "theorems": [
    "Rendering.C54_isometry"
   ],
   "note": ""
  },
  {
   "property": "C55",
   "status": "proved",
   "theorems": [
    "Rendering.C55_cosine_hemisphere",
    "Rendering.C55_uniform_hemisphere",
    "Rendering.C55_uniform_sphere"
   ],
   "note": "For every pair of draws in [0,1) over the reals and any orthonormal frame."
  },
  {
   "property": "C56",
   "status": "proved",
   "theorems": [
    "Rendering.C56_disc",
    "Rendering.C56_sphere_surface",
    "Rendering.C56_source_direction"
   ],
   "note": ""
  },
  {
   "property": "C57",
   "status": "partial",
   "theorems": [
    "Rendering.C57_scratch_suffices_partial",
    "Rendering.C57_depth_bounded_partial",
    "Rendering.C57_violation_mirrors",
    "Rendering.C57_violation_max_depth_15"
   ],
   "note": "False of the code: with max_depth >= 15 the fixed 15-slot scratch arrays are indexed out of bounds (C57_violation_max_depth_15), and facing mirrors recurse without end whatever max_depth (C57_violation_mirrors). Proved: depth never exceeds max_depth+1 and the scratch suffices when max_depth < 15."
  },
  {
   "property": "C58",
   "status": "proved",
   "theorems": [
    "Rendering.C58_rows",
    "Rendering.C58_rows_independent",
    "Rendering.C58_schedule_independent"
   ],
   "note": ""
  },
  {
   "property": "C59",
   "status": "proved",
   "theorems": [
    "Rendering.C59_open_sensor_collects_pi",
    "Rendering.C59_empty_scene"
   ],
   "note": ""
  },
  {
   "property": "C60",
   "status": "partial",
   "theorems": [
    "Rendering.C60_ends_partial",
    "Rendering.C60_violation_never_ends"
   ],
   "note": "False of the code: under a sky the ambient loop of an open scene does not count missed samples and never ends, C60_violation_never_ends. Proved with an explicit bound where no sample can meet a light or none is taken, C60_ends_partial."
  },
  {
   "property": "C61",
   "status": "partial",
   "theorems": [
    "Rendering.C61_single_or_white_partial",
    "Rendering.C61_violation_samples_fade"
   ],
   "note": "The property is false of the code: the colour carried by the ray is folded into every further ambient sample; the theorem gives the exact value that is added up. The sums and counts themselves are C64. Where it holds: C61_single_or_white_partial."
  },
  {
   "property": "C62",
   "status": "proved",
   "theorems": [
    "Rendering.C62_lights_seen_directly",
    "Rendering.C62_sky_seen_directly"
   ],
   "note": ""
  },
  {
   "property": "C63",
   "status": "proved",
   "theorems": [
    "Rendering.C63_intersect_light",
    "Rendering.C63_direct_light_is_mean",
    "Rendering.C63_in_shadow",
    "Rendering.C63_samples_end"
   ],
   "note": ""
  },
  {
   "property": "C64",
   "status": "partial",
   "theorems": [
    "Rendering.C64_counts",
    "Rendering.C64_survives_iff",
    "Rendering.C64_survival_probability",
    "Rendering.C64_violation_biased"
   ],
   "note": "Counts and the survival probability are as stated; the survivor is not re-weighted, C64_violation_biased."
  },
  {
   "property": "C65",
   "status": "proved",
   "theorems": [
    "Rendering.C65_terminates",
    "Rendering.C65_scanner",
    "Rendering.C65_text_is_utf8",
    "Rendering.C65_counts_are_decimal"
   ],
   "note": ""
  },
  {
   "property": "C66",
   "status": "proved",
   "theorems": [
    "Rendering.C66_reads_what_is_described",
    "Rendering.C66_describes_unique",
    "Rendering.C66_unknown_modifier",
    "Rendering.C66_objects_get_their_material"
   ],
   "note": "The scanner, numbers and modifiers of the Radiance reader; reading is the same as the declarative description of the token list."
  },
  {
   "property": "C67",
   "status": "proved",
   "theorems": [
    "Rendering.C67_layout_does_not_matter"
   ],
   "note": ""
  },
  {
   "property": "C68",
   "status": "proved",
   "theorems": [
    "Rendering.C68_faces",
    "Rendering.C68_corners_come_from_the_face",
    "Rendering.C68_scene",
    "Rendering.C68_rejected",
    "Rendering.C68_quads_covered"
   ],
   "note": ""
  },
  {
   "property": "C69",
   "status": "proved",
   "theorems": [
    "Rendering.C69_accepts",
    "Rendering.C69_materials",
    "Rendering.C69_nothing_else"
   ],
   "note": "For solar scenes (Visible panics, see C82)."
  },
  {
   "property": "C70",
   "status": "proved",
   "theorems": [
    "Rendering.C70_algebra",
    "Rendering.C70_scalars_are_gray",
    "Rendering.C70_assignments",
    "Rendering.C70_division",
    "Rendering.C70_powers",
    "Rendering.C70_radiance_linear",
    "Rendering.C70_normalize",
    "Rendering.C70_is_black",
    "Rendering.C70_max"
   ],
   "note": ""
  },
  {
   "property": "C71",
   "status": "partial",
   "theorems": [
    "Rendering.C71_zenith_partial",
    "Rendering.C71_violation"
   ],
   "note": "False of the code: a sun within 3 degrees of the zenith gets the angle arccos(3 degrees in radians), about 87 degrees, C71_violation; C71_zenith_partial covers every lower sun."
  },
  {
   "property": "C72",
   "status": "partial",
   "theorems": [
    "Rendering.C72_field_of_view_partial",
    "Rendering.C72_violation_slanted_up"
   ],
   "note": "For unit, perpendicular direction and up. Pinhole::new does not orthonormalise: C72_violation_slanted_up."
  },
  {
   "property": "C73",
   "status": "partial",
   "theorems": [
    "Rendering.C73_clear_or_opaque_partial",
    "Rendering.C73_violation_tint_squared"
   ],
   "note": "The property is false of the code: the tint is applied twice on the transmitted path; the theorem gives the exact value. Where it holds: C73_clear_or_opaque_partial."
  },
  {
   "property": "C74",
   "status": "partial",
   "theorems": [
    "Rendering.C74_almost_never_panics_partial",
    "Rendering.C74_violation_panic_probability",
    "Rendering.C74_violation_into_surface_probability",
    "Rendering.C74_diffuse_branch_partial",
    "Rendering.C74_violation_into_surface",
    "Rendering.C74_violation_panic"
   ],
   "note": "Proved for the diffuse branch; off the normal the specular branch panics with probability zero and never loops (C74_almost_never_panics_partial). False otherwise: head-on it panics with probability exp(-1/roughness^2), never below 1e-9 (C74_violation_panic_probability); from every direction most specular samples of smooth materials go into the surface (C74_violation_into_surface_probability)."
  },
  {
   "property": "C75",
   "status": "proved",
   "theorems": [
    "Rendering.C75_is_reference_tracer",
    "Rendering.C75_scratch_irrelevant",
    "Rendering.C75_outer_slots_kept"
   ],
   "note": ""
  },
  {
   "property": "C76",
   "status": "partial",
   "theorems": [
    "Rendering.C76_same_index_partial",
    "Rendering.C76_violation_inverted",
    "Rendering.C76_violation_glass"
   ],
   "note": "The property is false of the code: the radiance factor of the transmitted path is inverted; the theorems give the exact weights for one interface and for a pane. Where it holds: C76_same_index_partial."
  },
  {
   "property": "C77",
   "status": "partial",
   "theorems": [
    "Rendering.C77_violation_sky_lights_nothing",
    "Rendering.C77_violation_floor_is_black"
   ],
   "note": "False of the code: a sky lights no diffuse surface, C77_violation_sky_lights_nothing."
  },
  {
   "property": "C78",
   "status": "proved",
   "theorems": [
    "Rendering.C78_cosine_hemisphere",
    "Rendering.C78_uniform_hemisphere",
    "Rendering.C78_disc",
    "Rendering.C78_disc_uniform",
    "Rendering.C78_disc_in_space",
    "Rendering.C78_triangle_uniform",
    "Rendering.C78_cosine_density",
    "Rendering.C78_cosine_mean",
    "Rendering.C78_hemisphere_uniform",
    "Rendering.C78_sphere_uniform"
   ],
   "note": ""
  },
  {
   "property": "C79",
   "status": "partial",
   "theorems": [
    "Rendering.C79_violation_source",
    "Rendering.C79_source_nearly_uniform_partial",
    "Rendering.C79_sphere_cap_partial",
    "Rendering.C79_violation_sphere",
    "Rendering.C79_violation_triangle"
   ],
   "note": "False for distant sources (the reported density is constant, the sampler is not; how far off is C79_source_nearly_uniform_partial), for spheres seen from near (C79_violation_sphere) and for triangles (C79_violation_triangle: a density of zero is reported for directions that are drawn). For spheres the probability of every cap around the axis is computed exactly (C79_sphere_cap_partial). Missing: caps about other axes."
  },
  {
   "property": "C80",
   "status": "partial",
   "theorems": [
    "Rendering.C80_violation_reflected_row",
    "Rendering.C80_violation_white_row",
    "Rendering.C80_direct_rows_partial"
   ],
   "note": "False with bounces (the theorems give the exact sums); without bounces it holds: C80_direct_rows_partial."
  },
  {
   "property": "C81",
   "status": "partial",
   "theorems": [
    "Rendering.C81_violation",
    "Rendering.C81_same_material_partial"
   ],
   "note": "False of the code: the list of names is never written, so every use adds a material, C81_violation; equal substances do get equal materials."
  },
  {
   "property": "C82",
   "status": "partial",
   "theorems": [
    "Rendering.C82_violation_programs",
    "Rendering.C82_violation",
    "Rendering.C82_violation_visible_inverted",
    "Rendering.C82_solar_partial"
   ],
   "note": "False of the code: Visible is unimplemented!() and ends the program for every model, C82_violation; Solar works on every acceptable model. The visible branch behind it would take the reflectance for the absorbed fraction: C82_violation_visible_inverted."
  },
  {
   "property": "C83",
   "status": "proved",
   "theorems": [
    "Rendering.C83_transmittance_round_trip"
   ],
   "note": "Error at most 2e-8/tau, from the ten printed digits of the constants. Real arithmetic."
  },
  {
   "property": "C84",
   "status": "partial",
   "theorems": [
    "Rendering.C84_energy_partial",
    "Rendering.C84_violation"
   ],
   "note": "False of the code for transmittances above about 0.918: the conversion returns a transmissivity above 1, C84_violation; true below (C84_energy_partial)."
  },
  {
   "property": "C85",
   "status": "proved",
   "theorems": [
    "Rendering.C85_sun"
   ],
   "note": ""
  },
  {
   "property": "C86",
   "status": "partial",
   "theorems": [
    "Rendering.C86_light_scales_same_sides",
    "Rendering.C86_light_scales_radiance",
    "Rendering.C86_light_scales_partial",
    "Rendering.C86_violation_dark_side",
    "Rendering.C86_violation_switched_off",
    "Rendering.C86_scene_with_brighter_lights"
   ],
   "note": "For scenes whose registered lights are lights on both sides; for a light with another material on its back it is false of the code (C86_violation_dark_side, C86_violation_switched_off)."
  },
  {
   "property": "C87",
   "status": "partial",
   "theorems": [
    "Rendering.C87_no_light_no_image_radiance",
    "Rendering.C87_no_light_no_image_partial",
    "Rendering.C87_violation_uplight"
   ],
   "note": "For scenes whose registered lights are lights on both sides; false for a light with another material on its back (C87_violation_uplight: the underside of a switched-off uplight still lights the floor)."
  },
  {
   "property": "C88",
   "status": "proved",
   "theorems": [
    "Rendering.C88_white_space",
    "Rendering.C88_triplet_iff",
    "Rendering.C88_round_trip",
    "Rendering.C88_rejects_wide_gaps"
   ],
   "note": ""
  },
  {
   "property": "C89",
   "status": "partial",
   "theorems": [
    "Rendering.C89_line_iff",
    "Rendering.C89_lines",
    "Rendering.C89_one_ray_per_line_partial",
    "Rendering.C89_violation_bad_line"
   ],
   "note": "For input that is text. For input that is not UTF-8 it is false of the code (C89_violation_bad_line): the line and all after it are silently dropped."
  },
  {
   "property": "C90",
   "status": "partial",
   "theorems": [
    "Rendering.C90_writes_difference_partial",
    "Rendering.C90_same_is_black",
    "Rendering.C90_symmetric",
    "Rendering.C90_unreadable",
    "Rendering.C90_violation_truncated"
   ],
   "note": "For readable files; a file cut off after its header is accepted as an image without pixels and crashes the comparison (C90_violation_truncated). Stored values are those of the RGBE format (C23)."
  },
  {
   "property": "C91",
   "status": "proved",
   "theorems": [
    "Rendering.C91_file_holds_traced_pixels",
    "Rendering.C91_lights_in_picture",
    "Rendering.C91_sky_in_picture",
    "Rendering.C91_no_light_black_picture",
    "Rendering.C91_no_light_black_picture_radiance",
    "Rendering.C91_picture_scales",
    "Rendering.C91_schedule_irrelevant"
   ],
   "note": ""
  },
  {
   "property": "C92",
   "status": "partial",
   "theorems": [
    "Rendering.C92_violation_glossy",
    "Rendering.C92_never_panics_partial",
    "Rendering.C92_direct_light_never_panics",
    "Rendering.C92_history_never_panics_partial",
    "Rendering.C92_history_direct_light_never_panics",
    "Rendering.C92_no_pixel_panics_partial"
   ],
   "note": "For all scenes without cylinder lights, and either without glossy materials or with settings for direct light only. With glossy materials and ambient samples it is false (C92_violation_glossy). Tracing may still fail to end (C60)."
  },
  {
   "property": "C93",
   "status": "partial",
   "theorems": [
    "Rendering.C93_violation_glossy",
    "Rendering.C93_never_negative_partial",
    "Rendering.C93_history_never_negative_partial",
    "Rendering.C93_no_pixel_negative_partial",
    "Rendering.C93_violation_tilted_normal"
   ],
   "note": "For flat-shaded scenes (triangles and distant sources) without glossy materials. False on spheres, whose shading normals are not perpendicular to the facets (C93_violation_tilted_normal), and on glossy materials, with positive probability for every oblique ray (C93_violation_glossy)."
  },
  {
   "property": "C94",
   "status": "partial",
   "theorems": [
    "Rendering.C94_violation_glossy",
    "Rendering.C94_never_panics_partial",
    "Rendering.C94_never_negative_partial",
    "Rendering.C94_sfluxmtx_never_panics_partial"
   ],
   "note": "Missing: glossy materials, for which it is false (C94_violation_glossy), and, for non-negativity, spheres (as C93_violation_tilted_normal). For sfluxmtx, lines whose direction is 0 0 0 are excluded (what geometry3d then does is not modelled)."
  },
  {
   "property": "C95",
   "status": "proved",
   "theorems": [
    "Rendering.C95_row_per_line",
    "Rendering.C95_bad_line",
    "Rendering.C95_empty_scene"
   ],
   "note": "Proved: the rows, the failure on bad lines and the empty scene. The absence of crashes is part of C94."
  },
  {
   "property": "C96",
   "status": "partial",
   "theorems": [
    "Rendering.C96_violation_mirrors",
    "Rendering.C96_dc_returns_partial",
    "Rendering.C96_sfluxmtx_succeeds_partial"
   ],
   "note": "For scenes without glossy materials in which every specular bounce counts or there are no specular surfaces; otherwise false: a sensor between facing mirrors never gets its coefficients (C96_violation_mirrors)."
  },
  {
   "property": "C97",
   "status": "partial",
   "theorems": [
    "Rendering.C97_matt_unbiased",
    "Rendering.C97_glossy_mean_partial",
    "Rendering.C97_violation_glossy"
   ],
   "note": "Proved for matt surfaces. For glossy surfaces the mean is computed exactly (C97_glossy_mean_partial), and it is less than the reflected light: C97_violation_glossy."
  },
  {
   "property": "C98",
   "status": "proved",
   "theorems": [
    "Rendering.C98_sky_view",
    "Rendering.C98_open_sky"
   ],
   "note": "Up to the tracer's tolerance at the edges of triangles and its blindness to triangles seen edge-on: bounds on both sides, which coincide for unobstructed sensors (C98_open_sky)."
  },
  {
   "property": "C99",
   "status": "partial",
   "theorems": [
    "Rendering.C99_elsewhere_nothing",
    "Rendering.C99_dielectric_paths_partial",
    "Rendering.C99_violation_dielectric_colour"
   ],
   "note": "Nothing elsewhere is proved in full. In the directions of the paths, the value evaluated has the colour of the dielectric once more than the weight (C99_dielectric_paths_partial), so it is false for coloured dielectrics (C99_violation_dielectric_colour), and for coloured mirrors (C49_violation)."
  },
  {
   "property": "C100",
   "status": "proved",
   "theorems": [
    "Rendering.C100_sunlight",
    "Rendering.C100_error",
    "Rendering.C100_open_sunlight",
    "Rendering.C100_traced"
   ],
   "note": "One sun and no other lights; the traced form has no ambient samples. What is hidden is known up to the tracer's tolerance at the edges of objects (bounds on both sides), and equality holds in the open (C100_open_sunlight) with the factor 4c/(1+c)^2 that comes from the source's density not being the drawn one (C79)."
  },
  {
   "property": "C101",
   "status": "partial",
   "theorems": [
    "Rendering.C101_tree_partial",
    "Rendering.C101_small_leaves",
    "Rendering.TreeExamples.C101_violation_boxes"
   ],
   "note": "The program takes the boxes of the centres of the triangles instead of the boxes of the triangles: with those, everything is proved (C101_tree_partial, C101_small_leaves); with the boxes of the triangles it is false (C101_violation_boxes: twelve overlapping triangles are divided although that costs twice as much)."
  },
  {
   "property": "C102",
   "status": "partial",
   "theorems": [
    "Rendering.C102_linear",
    "Rendering.C102_log_partial",
    "Rendering.C102_always_writes",
    "Rendering.C102_violation_truncated",
    "Rendering.C102_compare_linear",
    "Rendering.C102_compare_log_partial",
    "Rendering.C102_same_is_first_colour"
   ],
   "note": "Exact arithmetic; on the logarithmic scale with no maximum asked for, only images with a pixel brighter than 10^0.001 (else C30_violation_log_auto). Only for complete images whose sides are not multiples of 65536; a file cut short is read and then makes sfalsecolor panic (C102_violation_truncated)."
  },
  {
   "property": "C103",
   "status": "proved",
   "theorems": [
    "Rendering.C103_loads_what_is_described",
    "Rendering.C103_rays_meet_the_described",
    "Rendering.C103_lights_in_picture"
   ],
   "note": "For files that load (only .rad files do, C82). External parts of loading (number syntax, polygon triangulation, sphere meshes) are parameters."
  },
  {
   "property": "C104",
   "status": "partial",
   "theorems": [
    "Rendering.C104_ends_almost_surely_partial",
    "Rendering.C104_violation_panes",
    "Rendering.C104_violation_threshold"
   ],
   "note": "Proved for mirrors with any positive probability and for all specular materials with a probability of at least one half, when no ambient sample is taken. One half is sharp: for every smaller one enough parallel panes of glass make tracing endless with positive probability (C104_violation_threshold), and at the default 0.3 four panes do so with probability at least 19/49 (C104_violation_panes)."
  },
  {
   "property": "C105",
   "status": "proved",
   "theorems": [
    "Rendering.C105_noise",
    "Rendering.C105_open_sky"
   ],
   "note": "What the sensor sees is known up to the tracer's tolerance at the edges of triangles: C105_noise has one-sided bounds, each exp(-2 n e^2/pi^2), against the two sets; where nothing is in the way they coincide (C105_open_sky, two-sided)."
  },
  {
   "property": "C106",
   "status": "proved",
   "theorems": [
    "Rendering.C106_noise",
    "Rendering.C106_traced"
   ],
   "note": "As for C100: one sun, bounds on both sides against the directions in which the sun is certainly and possibly seen; each has probability at most exp(-2 n e^2). The traced form has no ambient samples and flat-shaded surfaces."
  },
  {
   "property": "C107",
   "status": "proved",
   "theorems": [
    "Rendering.C107_triangle",
    "Rendering.C107_sphere",
    "Rendering.C107_source",
    "Rendering.C107_sphere_samples",
    "Rendering.C107_cylinder"
   ],
   "note": ""
  },
  {
   "property": "C108",
   "status": "partial",
   "theorems": [
    "Rendering.C108_queries_moved",
    "Rendering.C108_moved_partial",
    "Rendering.C108_direct_moved_partial",
    "Rendering.C108_sphere_mesh",
    "Rendering.C108_picture_partial",
    "Rendering.C108_violation_lamp"
   ],
   "note": "Over exact arithmetic, and for external functions that treat all places alike (SceneEnv.Uniform, GeoExt.Uniform; met by the reference environment with the code's own sphere meshes). Queries: all scenes. Tracing and pictures: scenes lit by suns and sky (no lamps). Direct lighting: also with lamps that are not triangles. With triangular lamps it is false (C108_violation_lamp): the probability of a shadow ray uses the coordinates of the point instead of the direction."
  },
  {
   "property": "C109",
   "status": "proved",
   "theorems": [
    "Rendering.C109_numbering_is_irrelevant",
    "Rendering.C109_same_picture",
    "Rendering.C109_unused_material"
   ],
   "note": ""
  },
  {
   "property": "C110",
   "status": "proved",
   "theorems": [
    "Rendering.C110_rgbe_error",
    "Rendering.C110_dark_is_black"
   ],
   "note": "Doubles are modelled as rationals with 53 significant bits (no overflow or subnormals: the range 1e-18..2^126 keeps every intermediate value away from them). The library functions log2 and exp2 are external: any functions within 0.55 ulp (glibc documents 0.547 and 0.507)."
  },
  {
   "property": "C111",
   "status": "partial",
   "theorems": [
    "Rendering.C111_hits_are_found",
    "Rendering.C111_hits_are_near",
    "Rendering.C111_violation_leak"
   ],
   "note": "False along the edges: a ray to the middle of a 0.8 m x 2.5 m floor hits neither of its two triangles (C111_violation_leak; the tolerance Float::EPSILON is smaller than the rounding errors). Proved: outside a strip of relative width M^2/(2^40 |a|) along the edges (M the size of the coordinates, a the determinant) every hit is found, and every reported hit is within that margin of a true one. Doubles are rationals with 53 significant bits (no underflow)."
  },
  {
   "property": "C112",
   "status": "proved",
   "theorems": [
    "Rendering.C112_matt_surfaces_do_not_glow",
    "Rendering.C112_matt_limit",
    "Rendering.C112_nothing_outshines_the_sky",
    "Rendering.C112_no_pixel_outshines_the_sky"
   ],
   "note": "Proved for each ray and each pixel, with all random numbers, for scenes of matt, mirror and glass surfaces lit by suns and a sky. Dielectrics are outside the claim (radiance inside a medium of index n is n^2 times that outside, C47), lamps too (light next to a lamp is unbounded for any estimator that divides by the squared distance), and glossy materials violate C93/C94 already."
  },
  {
   "property": "C113",
   "status": "partial",
   "theorems": [
    "Rendering.C113_weight_partial",
    "Rendering.C113_violation_backwards",
    "Rendering.C113_violation_off_picture"
   ],
   "note": "False: a ray that leaves the camera backwards is reported with weight one (C113_violation_backwards), and on films wider than high rays are reported at rows the picture does not have (C113_violation_off_picture). Proved: weight is zero (with pixel (0,0)) or one, zero for rays parallel to the film, and weight one means that the line of the ray meets the film square."
  },
  {
   "property": "C114",
   "status": "partial",
   "theorems": [
    "Rendering.C114_light_adds_up_partial",
    "Rendering.C114_groups_of_lamps",
    "Rendering.C114_pictures_add_up_partial",
    "Rendering.C114_violation_dark_side"
   ],
   "note": "For scenes whose registered lights are lights on both sides; for a light with another material on its back it is false (C114_violation_dark_side, as C86). Exact, not on average: the three executions use the same random numbers."
  },
  {
   "property": "C115",
   "status": "proved",
   "theorems": [
    "Rendering.C115_no_farther",
    "Rendering.C115_still_in_view",
    "Rendering.C115_direct_light",
    "Rendering.C115_daylight"
   ],
   "note": "Rays within 2^-52 of an edge of a triangle already there are excluded (the tolerance in the barycentric test); with interreflections the claim is physically false (a white wall brightens), so direct light and zero-depth coefficients are what is claimed."
  },
  {
   "property": "C116",
   "status": "proved",
   "theorems": [
    "Rendering.C116_queries_agree"
   ],
   "note": "Rays within 2^-52 of an edge are excluded. Points between a surface and Blocking distance behind it (1e-6 in the squared distance; 1e-4 in its difference) may be reported in view: that is the tolerance of the query."
  },
  {
   "property": "C117",
   "status": "partial",
   "theorems": [
    "Rendering.C117_mutual_view_partial",
    "Rendering.C117_violation_near_end"
   ],
   "note": "Proved when whatever is between the ends is at least a centimetre from both. False otherwise: a pane half a millimetre from one end is seen through from that end only (the thresholds on the squared distance are not symmetric)."
  },
  {
   "property": "C118",
   "status": "partial",
   "theorems": [
    "Rendering.C118_rays_stop_partial",
    "Rendering.C118_no_daylight_partial",
    "Rendering.C118_sky_unseen",
    "Rendering.C118_violation_near_wall"
   ],
   "note": "Proved for points at least a centimetre from the sides of a box-shaped room (sides of 0.5 to 50 m); coefficients without bounces. False nearer: five micrometres from a wall the ray towards it gets out, so points of the walls themselves, from which bounces start, can leak."
  },
  {
   "property": "C119",
   "status": "proved",
   "theorems": [
    "Rendering.C119_mean_picture",
    "Rendering.C119_mean_light",
    "Rendering.C119_sample_counts",
    "Rendering.C119_more_reflections",
    "Rendering.C119_roulette",
    "Rendering.C119_energy"
   ],
   "note": "Matt plastics and metals (no specularity) with flat shading normals, suns only, no sky (ambient samples that reach a sky or lamp are redrawn uncounted, see C120), a lawful BVH and measurable box test. Sunlight at a surface is itself the mean of one shadow ray (C97 computes it for an unobstructed surface)."
  },
  {
   "property": "C120",
   "status": "partial",
   "theorems": [
    "Rendering.C120_direct_light_partial",
    "Rendering.C120_violation_black_sky"
   ],
   "note": "Partial: proved for every scene, material, ray and random stream where no ambient sample is taken (max_depth or n_ambient_samples is 0). False otherwise: ambient samples that reach a sky are redrawn without being counted whatever its brightness, so a black sky over a single matt triangle makes tracing never end (C120_violation_black_sky)."
  },
  {
   "property": "C121",
   "status": "partial",
   "theorems": [
    "Rendering.C121_ends",
    "Rendering.C121_mean_under_sky",
    "Rendering.C121_error_partial",
    "Rendering.C121_violation_windows"
   ],
   "note": "Partial. Proved for every matt sunlit scene and every sky: tracing almost surely ends if something is seen from every point a path reaches (C121_ends), and the exact mean is the rendering equation with every reflection divided by the share of the hemisphere not open to the sky (C121_mean_under_sky), so the factor is at most 1/(1-q) per reflection if at most a share q is open where paths are reflected, and the property holds if q is zero (C121_error_partial). False otherwise: ambient samples that reach a sky are redrawn without being counted, so any sky, even a black one, makes surfaces near an opening brighter (C121_violation_windows; a sunlit floor under a canopy is the case)."
  },
  {
   "property": "C122",
   "status": "proved",
   "theorems": [
    "Rendering.C122_limit",
    "Rendering.C122_error"
   ],
   "note": "Scenes as in C119 (matt, flat shading normals, suns only, no sky). SolvesRenderingEquation is stated for radiances of points and directions of view (Spec/ExactLight.lean). Russian roulette (limit_weight > 0) only lowers the mean; the bound from below is for limit_weight 0, because the code does not raise the weight of the paths it keeps (C64)."
  },
  {
   "property": "C123",
   "status": "proved",
   "theorems": [
    "Rendering.C123_mean_light",
    "Rendering.C123_every_bounce_counts",
    "Rendering.C123_sample_counts",
    "Rendering.C123_few_in_a_row"
   ],
   "note": "Scenes as in C119 but with mirrors, glass and dielectrics. The offered paths and their weights are those of the materials (what they are is the subject of C43-C49). The hypothesis that every path ends is needed: two facing mirrors with count_specular_bounce 0 make tracing endless (C57_violation_mirrors); it holds whenever count_specular_bounce is at least 1 (C123_every_bounce_counts) or a ray meets at most b specular surfaces in a row (C123_few_in_a_row, used with the default settings in Props/GlazedExample.lean)."
  },
  {
   "property": "C124",
   "status": "partial",
   "theorems": [
    "Rendering.C124_shade",
    "Rendering.C124_all_in_shade",
    "Rendering.C124_glass_is_a_wall",
    "Rendering.C124_violation_glass_roof"
   ],
   "note": "False of the code: shadow rays take panes of glass for walls (C124_glass_is_a_wall: the direct light does not depend on the materials of the other surfaces), and no other path looks for the sun, so a floor under a roof of the clearest glass is black for all settings and random numbers (C124_violation_glass_roof). C124_all_in_shade is the general statement: if something, be it glass, is in front of the suns everywhere, nothing but black comes back, whatever the materials."
  },
  {
   "property": "C125",
   "status": "proved",
   "theorems": [
    "Rendering.C125_pixels_uncorrelated",
    "Rendering.C125_pixel_law",
    "Rendering.C125_average"
   ],
   "note": "Scenes as in C119 (matt, flat shading normals, suns only, no sky). Generators are sequences of independent uniform numbers, one per chunk of 128 pixels; C125_pixel_law needs only that each is uniform, C125_pixels_uncorrelated that they are pairwise independent. Uncorrelated, not independent: how many numbers a pixel uses may depend on their values."
  },
  {
   "property": "C126",
   "status": "proved",
   "theorems": [
    "Rendering.C126_converges_to_exact_light",
    "Rendering.C126_picture_noise",
    "Rendering.C126_noise_law",
    "Rendering.C126_converges"
   ],
   "note": "Scenes as in C119. noiseOf (Spec/Noise.lean) is the mean squared distance from the mean. Real arithmetic. The convergence is to the light with at most max_depth reflections and with the roulette of limit_weight as it is (C64); C126_converges_to_exact_light removes both."
  },
  {
   "property": "C127",
   "status": "partial",
   "theorems": [
    "Rendering.C127_violation_samples_add",
    "Rendering.C127_patches_bounded",
    "Rendering.C127_sensor_bounded",
    "Rendering.C127_triangle_reflects",
    "Rendering.C127_violation_more_samples",
    "Rendering.C127_row_bounded_partial",
    "Rendering.C127_one_sample_partial",
    "Rendering.C127_sky_is_sum_of_patches",
    "Rendering.C127_any_sky_partial"
   ],
   "note": "Proved for n_ambient_samples = 1, max_depth from 1 to 14 and limit_weight from 0 to 1: the mean coefficient is exactly the irradiance of the patch by at most max_depth + 1 reflections, and the row adds up to at most pi. False for more samples (C127_violation_more_samples): the n samples of a surface share one ray whose colour is multiplied again and again, and each is divided by n only once although the primary rays are divided by n as well, so one matt triangle of colour c counts as c + c^2 + ... + c^n (C127_violation_samples_add) instead of c (C127_triangle_reflects). For max_depth = 0 see C98."
  },
  {
   "property": "C128",
   "status": "proved",
   "theorems": [
    "Rendering.C128_coefficients_ignore_lights"
   ],
   "note": "For all histories related by SameButLighting; sky, suns and lamps' colours are arbitrary on both sides."
  },
  {
   "property": "C129",
   "status": "proved",
   "theorems": [
    "Rendering.C129_moved"
   ],
   "note": "Unlike C108, holds with lamps, because the coefficient tracer never samples lamps."
  },
  {
   "property": "C130",
   "status": "proved",
   "theorems": [
    "Rendering.C130_mean_light",
    "Rendering.C130_limit",
    "Rendering.C130_error",
    "Rendering.C130_picture",
    "Rendering.C130_weight"
   ],
   "note": "The specification (Spec/GeometricLight.lean) mentions triangles, colours, suns and integrals only. Ways of seeing are related to the triangles up to the tolerances of VisibleHit, InRange and Blocking, as in C01-C03; of two triangles at the same distance either may be seen. Surfaces are lit a thousandth above themselves by suns and 1e-5 above themselves by surfaces, as in the program. limit_weight > 0 only removes light (C119_roulette, C130_error)."
  },
  {
   "property": "C131",
   "status": "proved",
   "theorems": [
    "Rendering.C131_coefficients",
    "Rendering.C131_any_sky"
   ],
   "note": "Spec/GeometricDaylight.lean mentions triangles, colours and integrals only. More than one sample with reflections is wrong in the program (C127, C61, C80); max_depth 0 with any number of samples is C98."
  },
  {
   "property": "C132",
   "status": "proved",
   "theorems": [
    "Rendering.C132_build_succeeds",
    "Rendering.C132_as_testing_every_triangle",
    "Rendering.C132_nearest_up_to_rounding",
    "Rendering.C132_obstacles_up_to_rounding"
   ],
   "note": "The doubles are those of Model/F64.lean: round-to-nearest-even with 53 bits, no overflow, no NaN, no subnormals. BBox3D::intersect, max_extent, surface_area, and the sort and selection of the standard library are external and quantified over (Lawful64, BoxTestConservative64: the box test is required not to miss a box that the exact ray passes through). Lists of which 32768 triangles share a centre to 1.1e-8 are excluded from the queries (C05_violation), not from building."
  },
  {
   "property": "C133",
   "status": "proved",
   "theorems": [
    "Rendering.C133_brighter_paint",
    "Rendering.C133_brighter_picture",
    "Rendering.C133_how_much_brighter",
    "Rendering.C133_at_least",
    "Rendering.C133_brighter_daylight"
   ],
   "note": "Both sides of every sun must be lights before and after (SunsShine: pushing the sun with a matt back would make its back paint). Repainting is restricted to matt materials (specularity 0). The daylight part needs n_ambient_samples = 1 because of C127."
  },
  {
   "property": "C134",
   "status": "partial",
   "theorems": [
    "Rendering.C134_matrix_partial",
    "Rendering.C134_colour_matrix_partial",
    "Rendering.C134_violation_rows",
    "Rendering.C134_violation_value",
    "Rendering.C134_violation_columns",
    "Rendering.C134_picture_partial",
    "Rendering.C134_violation_picture"
   ],
   "note": "Proved: what is left never makes the readers panic; a matrix cut up to the number of columns and a picture cut in its header are errors; and exactly what is returned otherwise. Missing because the code violates it: the readers do not notice that data are missing (C134_violation_rows, C134_violation_value, C134_violation_columns, C134_violation_picture). Files are written front to back in pieces, so a crash is modelled as any prefix of the bytes."
  },
  {
   "property": "C135",
   "status": "partial",
   "theorems": [
    "Rendering.C135_brighter",
    "Rendering.C135_close",
    "Rendering.C135_sfalsecolor",
    "Rendering.C135_sfalsecolor_log",
    "Rendering.C135_ends",
    "Rendering.C135_violation_radiance"
   ],
   "note": "Brightness is that of ITU-R BT.709 on the stored channel values. Proved for inferno, magma, plasma and viridis in exact arithmetic (double precision may panic at the last stop, C29_violation); the scale of Radiance violates it (C135_violation_radiance). Continuity and the end colours are proved for all five."
  },
  {
   "property": "C136",
   "status": "partial",
   "theorems": [
    "Rendering.C136_radiance",
    "Rendering.C136_luminance",
    "Rendering.C136_written",
    "Rendering.C136_colours",
    "Rendering.C136_written_limits_partial",
    "Rendering.C136_violation"
   ],
   "note": "In the double precision model (53 significant bits, ties to even; no overflow, underflow or NaN). The picture is always written if no positive lower limit is asked for (C136_written), and its colours are right to a millionth (C136_colours, for lower ends up to 1000 times the length of the scale). Missing because the code violates it: with a positive lower limit the loop over the bins may end below the upper limit and a luminance in between panics (C136_violation); C136_written_limits_partial is what holds."
  },
  {
   "property": "C137",
   "status": "partial",
   "theorems": [
    "Rendering.C137_read",
    "Rendering.C137_fails",
    "Rendering.C137_writes",
    "Rendering.C137_colours",
    "Rendering.C137_compare_partial",
    "Rendering.C137_compare_writes",
    "Rendering.C137_same",
    "Rendering.C137_violation_noise"
   ],
   "note": "In the double precision model (53 significant bits, ties to even; no overflow, underflow or NaN). Partial because the code violates the general claim: where the radiances of two pictures agree the computed difference may be a rounding error, and with no maximum given that error is the whole scale (C137_violation_noise). C137_compare_partial holds when no luminance is more than 500 times the length of the scale."
  },
  {
   "property": "C138",
   "status": "proved",
   "theorems": [
    "Rendering.C138_energy",
    "Rendering.C138_mean_picture",
    "Rendering.C138_pixel_law",
    "Rendering.C138_pixels_uncorrelated",
    "Rendering.C138_picture_energy",
    "Rendering.C138_average"
   ],
   "note": "Same model and same idealisations as C119, C123 and C125 (real arithmetic, endless uniform generators per chunk, pairwise independent for the noise). EndsWithin n says that the light is back after at most n passages whether they count or not; C123_few_in_a_row gives it when at most b mirrors or panes follow each other. The factor (top/eta)^2 is the code's (C76): radiance times squared index is what glass keeps."
  },
  {
   "property": "C139",
   "status": "proved",
   "theorems": [
    "Rendering.C139_limit",
    "Rendering.C139_error",
    "Rendering.C139_picture"
   ],
   "note": "Same model and idealisations as C119, C123 and C127 (real arithmetic, endless uniform generators). SolvesGlazedEquation (Spec/ExactGlazed.lean) states the equation from what the first hit offers, without trace_ray. C139_limit needs only that for every max_depth the ray is back after some number of passages (C123_few_in_a_row gives it when at most b mirrors or panes follow each other). The factor (top/eta)^2 is the code's: radiance times squared index ratio at a dielectric (C76)."
  },
  {
   "property": "C140",
   "status": "proved",
   "theorems": [
    "Rendering.C140_sfalsecolor",
    "Rendering.C140_scompare",
    "Rendering.C140_ends"
   ],
   "note": "Composition of C137 (double precision, to one or two millionths per channel) with C135 (order and steps of the published scales). The scale of Radiance is left out of the first two statements because its own brightness is not monotone (C135_violation_radiance). The limits on the scale are those of C137."
  },
  {
   "property": "C141",
   "status": "proved",
   "theorems": [
    "Rendering.C141_pane",
    "Rendering.C141_clearer",
    "Rendering.C141_clearer_picture"
   ],
   "note": "Same model and idealisations as C123 and C138. A pane has to let 1e-15 of some channel through before (below that the code uses another formula for the thickness), no more than everything afterwards, and its index is at least 1; mirrors ignore their colour (C49). The light has to be back after n passages in both scenes (EndsWithin), because a clearer pane may offer paths that the darker one does not."
  },
  {
   "property": "C142",
   "status": "proved",
   "theorems": [
    "Rendering.C142_at_least",
    "Rendering.C142_at_most",
    "Rendering.C142_picture"
   ],
   "note": "Same model and idealisations as C123 and C138. EndsWithin is needed for the first scene only; C142_at_least proves it for the repainted one. The upper bound needs limit_weight 0 because with Russian roulette brighter paint also makes paths longer."
  },
  {
   "property": "C143",
   "status": "proved",
   "theorems": [
    "Rendering.C143_finer",
    "Rendering.C143_finer_picture"
   ],
   "note": "Same model and idealisations as C123 and C138. EndsWithin is a hypothesis for the finer settings only; the coarser ones inherit it. The comparison is of means: with one and the same seed a single picture may well get darker."
  },
  {
   "property": "C144",
   "status": "proved",
   "theorems": [
    "Rendering.C144_mean_light",
    "Rendering.C144_limit",
    "Rendering.C144_error",
    "Rendering.C144_picture"
   ],
   "note": "The specification (Spec/Mirrors.lean) names no function of the tracer. Same idealisations as C130 and C123. A mirror reflects everything because the code ignores its colour (C49). C144_limit and C144_error assume that the paths end, as C123 does; C144_mean_light and C144_picture need no such assumption since every bounce counts there."
  },
  {
   "property": "C145",
   "status": "proved",
   "theorems": [
    "Rendering.C145_mean_light",
    "Rendering.C145_limit",
    "Rendering.C145_error",
    "Rendering.C145_picture"
   ],
   "note": "The specification (Spec/Panes.lean) names no function of the tracer or of the materials; what glass does is stated as infinite sums over the reflections between its faces. As in the code, panes block the direct light of suns (C124): a sun's disc counts where nothing at all is in the way. Same idealisations as C130 and C123. C145_limit and C145_error assume that the paths end; C145_mean_light and C145_picture do not need to, since every passage counts there. C146 adds dielectrics."
  },
  {
   "property": "C146",
   "status": "proved",
   "theorems": [
    "Rendering.C146_mean_light",
    "Rendering.C146_limit",
    "Rendering.C146_error",
    "Rendering.C146_picture"
   ],
   "note": "The specification (Spec/Media.lean) names no function of the tracer or of the materials. A ray that meets a dielectric of its own index (within 1e-7) leaves it into air, as in the code. Dielectrics block the direct light of suns, as panes do (C124). Exactly at the critical angle the code divides by zero; the real-number model makes that total reflection. Same idealisations as C130 and C123. C146_limit and C146_error assume that the paths end; C146_mean_light and C146_picture do not need to, since every passage counts there."
  }
 ]
}