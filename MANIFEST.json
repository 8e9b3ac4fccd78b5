{
 "claims": [
  {
   "property": "C01",
   "status": "proved",
   "theorems": [
    "Artist.Env.C01_distribution_complete",
    "Artist.Env.C01_flat_balanced",
    "Artist.Env.C01_nested_balanced",
    "Artist.Env.C01_degenerate"
   ],
   "note": "All world sizes and group counts; degenerate inputs (zero ranks, zero groups) covered by C01_degenerate."
  },
  {
   "property": "C02",
   "status": "proved",
   "theorems": [
    "Artist.Env.C02_inverse_table",
    "Artist.Env.C02_group_ranks",
    "Artist.Env.C02_group_ranks_bijective",
    "Artist.Env.C02_default",
    "Artist.Env.C02_setup_consistent"
   ],
   "note": "Table inversion, within-group ranks and defaults for every rank."
  },
  {
   "property": "C03",
   "status": "partial",
   "theorems": [
    "Artist.Env.C03_cleanup_partial",
    "Artist.Env.C03_cleanup_error_swallowed",
    "Artist.Env.C03_leak_iff",
    "Artist.Env.C03_leak_counterexample"
   ],
   "note": "False as stated: a failure between initialisation and the try block leaks the process group (C03_leak_counterexample, C03_leak_iff). Proved for set-ups that reach the yield."
  },
  {
   "property": "C04",
   "status": "partial",
   "theorems": [
    "Artist.Sampler.C04_disjoint",
    "Artist.Sampler.C04_cover_iff",
    "Artist.Sampler.C04_exactly_once_partial",
    "Artist.Sampler.C04_tracer_uniform",
    "Artist.Sampler.C04_lost_sample"
   ],
   "note": "False when the number of samples is not a multiple of the number of active heliostats (C04_lost_sample); C04_cover_iff gives the exact condition."
  },
  {
   "property": "C05",
   "status": "proved",
   "theorems": [
    "Artist.Sampler.C05_blocks_together",
    "Artist.Sampler.C05_owned_heliostats",
    "Artist.Sampler.C05_owner_unique"
   ],
   "note": "Blocks of one heliostat always land on one rank."
  },
  {
   "property": "C06",
   "status": "partial",
   "theorems": [
    "Artist.SoftMask.C06_blocking_depends_on_batch",
    "Artist.Trace.C06_rows_partial",
    "Artist.Trace.C06_batch_size_irrelevant_partial",
    "Artist.Trace.C06_zero_batch_size"
   ],
   "note": "Without blocking the result does not depend on the batch size or batch order (proved). With blocking it does: C06_blocking_depends_on_batch gives a concrete scene in which a ray is unblocked alone and more than half blocked when traced with another heliostat."
  },
  {
   "property": "C07",
   "status": "proved",
   "theorems": [
    "Artist.Trace.C07_per_target",
    "Artist.Trace.C07_conservation"
   ],
   "note": "Over any commutative additive monoid of bitmaps."
  },
  {
   "property": "C08",
   "status": "proved",
   "theorems": [
    "Artist.Splat.C08_pixel",
    "Artist.Splat.C08_energy",
    "Artist.Splat.C08_outside",
    "Artist.Splat.C08_nonneg",
    "Artist.Splat.C08_additive",
    "Artist.Splat.C08_order",
    "Artist.Splat.C08_centroid",
    "Artist.Splat.C08_last_column_dropped",
    "Artist.Splat.C08_negative_coordinate"
   ],
   "note": "Any ordered field with floor, any resolution, any number of rays; pixel formula, energy, centroid, additivity. The grid is half open (C08_last_column_dropped); negative coordinates, which the intersection code never delivers, would be mishandled (C08_negative_coordinate)."
  },
  {
   "property": "C09",
   "status": "partial",
   "theorems": [
    "Artist.LBVH.C09_no_false_blockers",
    "Artist.LBVH.C09_reported_iff_partial",
    "Artist.LBVH.C09_exact_upto_five_partial",
    "Artist.LBVH.C09_exact_pow2_partial",
    "Artist.LBVH.C09_exact_iff_all_reachable",
    "Artist.LBVH.C09_filter_drops_blockers",
    "Artist.LBVH.C09_reported_iff",
    "Artist.LBVH.C09_exact_iff",
    "Artist.LBVH.C09_exact_iff_groups",
    "Artist.LBVH.C09_field_exact_iff_groups",
    "Artist.LBVH.C09_loses_blockers_at_every_size"
   ],
   "note": "False as stated: the split search of the tree builder can step over the split position, so whole subtrees become unreachable; C09_filter_drops_blockers shows a 2 x 3 field that loses a blocker. Proved for every field: no false blockers; whenever the filter ends it reports exactly the blockers whose leaf is reachable (C09_reported_iff); it ends and equals brute force for all rays iff no three centres share a grid cell and every group of sorted codes divides at a sum of halves of its size (C09_exact_iff; in particular for up to five primitives, and when half of every group size is a power of two); fields of every size from six on lose blockers."
  },
  {
   "property": "C10",
   "status": "partial",
   "theorems": [
    "Artist.LBVH.C10_terminates_partial",
    "Artist.LBVH.C10_depth_partial",
    "Artist.LBVH.C10_hangs_coinciding",
    "Artist.LBVH.C10_empty_field",
    "Artist.LBVH.C10_hangs_cluster",
    "Artist.LBVH.C10_ends_iff_no_loop",
    "Artist.LBVH.C10_crowded_cell",
    "Artist.LBVH.C10_crowded_but_ends"
   ],
   "note": "False as stated: three primitives in one grid cell can make the depth computation run for ever (C10_hangs_coinciding, C10_hangs_cluster); an empty field raises IndexError. Proved for every field: it ends, without an error, iff the tree has no loop below its root (C10_ends_iff_no_loop), in particular with at most two centres in every cell; three centres in a cell mean a loop or a heliostat that is never reported (C10_crowded_cell), and both occur."
  },
  {
   "property": "C11",
   "status": "proved",
   "theorems": [
    "Artist.LBVH.C11_leaf_box_is_bounding",
    "Artist.LBVH.C11_one_leaf_each",
    "Artist.LBVH.C11_leaf_boxes",
    "Artist.LBVH.C11_inner_boxes",
    "Artist.LBVH.C11_hit_ancestors"
   ],
   "note": "Leaf boxes and leaf assignment for all codes; inner boxes and ancestors if no three codes are equal, the fields for which the tree is a tree (see C10)."
  },
  {
   "property": "C12",
   "status": "proved",
   "theorems": [
    "Artist.Morton.C12_expand_rejects",
    "Artist.Morton.C12_expand_bits",
    "Artist.Morton.C12_quantised_range",
    "Artist.Morton.C12_codes_lossless",
    "Artist.Morton.C12_same_code_iff_same_cell",
    "Artist.Morton.C12_codes_monotone"
   ],
   "note": "All codes and all fields, over any ordered field; bit layout, losslessness, monotonicity."
  },
  {
   "property": "C13",
   "status": "proved",
   "theorems": [
    "Artist.Morton.C13_lcp_counts_leading_bits",
    "Artist.Morton.C13_lcp_outside",
    "Artist.Morton.C13_lcp_symm",
    "Artist.Morton.C13_lcp_ultrametric"
   ],
   "note": "All 30-bit codes; symmetric, ultrametric on sorted arrays."
  },
  {
   "property": "C14",
   "status": "proved",
   "theorems": [
    "Artist.LBVH.C14_slab_exact",
    "Artist.LBVH.C14_line_hits_iff",
    "Artist.LBVH.C14_hit_test",
    "Artist.LBVH.C14_enlarge"
   ],
   "note": "Any ordered field; also the complete hit test used by the filter."
  },
  {
   "property": "C15",
   "status": "proved",
   "theorems": [
    "Artist.SoftMask.C15_range",
    "Artist.SoftMask.C15_no_blockers",
    "Artist.SoftMask.C15_order",
    "Artist.SoftMask.C15_more_blockers",
    "Artist.SoftMask.C15_nan_iff",
    "Artist.SoftMask.C15_intensity",
    "Artist.SoftMask.C15_hit_blocks",
    "Artist.SoftMask.C15_miss_passes"
   ],
   "note": "Range, order independence, monotonicity, exact condition for a NaN (parallel spans), and quantitative hit/miss bounds for the soft mask over the reals."
  },
  {
   "property": "C16",
   "status": "proved",
   "theorems": [
    "Artist.Intersect.C16_isometry",
    "Artist.Intersect.C16_involution",
    "Artist.Intersect.C16_components",
    "Artist.Intersect.C16_direction",
    "Artist.Intersect.C16_unique"
   ],
   "note": "Any field, four-component vectors, unit normals; also uniqueness from the law of reflection."
  },
  {
   "property": "C17",
   "status": "partial",
   "theorems": [
    "Artist.Intersect.C17_hit_partial",
    "Artist.Intersect.C17_intensity",
    "Artist.Intersect.C17_coordinates_in_bitmap",
    "Artist.Intersect.C17_side_facing_target",
    "Artist.Intersect.C17_counts_ray_leaving_target"
   ],
   "note": "False as stated: there is no check that the intersection lies ahead of the ray (C17_counts_ray_leaving_target). Proved for rays that start in front of the target; which lines count, coordinates and intensities are characterised exactly. C17_side_facing_target: a target facing east or west records every hit in the middle column."
  },
  {
   "property": "C18",
   "status": "partial",
   "theorems": [
    "Artist.Intersect.C18_on_surface",
    "Artist.Intersect.C18_bounds",
    "Artist.Intersect.C18_intensity",
    "Artist.Intersect.C18_column_partial",
    "Artist.Intersect.C18_middle_iff_north",
    "Artist.Intersect.C18_south_facing_lost",
    "Artist.Intersect.C18_lost_quadrant"
   ],
   "note": "False as stated: the azimuth of the normal is subtracted in the world frame from an angle in the local frame, so only north-facing receivers are right (C18_middle_iff_north, C18_south_facing_lost), and the angle wraps so a quarter of a full cylinder is lost (C18_lost_quadrant). Proved for north-facing receivers up to a half circle; surface, bounds and first-hit proved in general."
  },
  {
   "property": "C19",
   "status": "proved",
   "theorems": [
    "Artist.C19_rotations_rigid",
    "Artist.C19_rigid_meaning",
    "Artist.C19_compose",
    "Artist.C19_distortion_order",
    "Artist.C19_translation",
    "Artist.C19_translate_shapes",
    "Artist.C19_scatter"
   ],
   "note": "Real arithmetic; rotations, distortions and translations, shape errors included."
  },
  {
   "property": "C20",
   "status": "proved",
   "theorems": [
    "Artist.C20_inverse",
    "Artist.C20_rigid",
    "Artist.C20_axes",
    "Artist.C20_parallel_collapses"
   ],
   "note": "Conditions: canting vectors longer than the normalisation epsilons; C20_parallel_collapses shows that a condition is needed."
  },
  {
   "property": "C21",
   "status": "proved",
   "theorems": [
    "Artist.Nurbs.C21_cox_de_boor",
    "Artist.Nurbs.C21_partition_of_unity",
    "Artist.Nurbs.C21_derivatives_sum",
    "Artist.Nurbs.C21_derivatives"
   ],
   "note": "The values are the Cox-de Boor basis functions of the textbook, the first derivatives their right derivatives; hence non-negative with sum one, derivatives with sum zero. Any degree and sorted knots."
  },
  {
   "property": "C22",
   "status": "proved",
   "theorems": [
    "Artist.Nurbs.C22_knots",
    "Artist.Nurbs.C22_span",
    "Artist.Nurbs.C22_unique",
    "Artist.Nurbs.C22_end"
   ],
   "note": "Degree at least one. At parameter 1 the span is one too large (C22_end)."
  },
  {
   "property": "C23",
   "status": "proved",
   "theorems": [
    "Artist.Nurbs.C23_surface",
    "Artist.Nurbs.C23_convex_hull",
    "Artist.Nurbs.C23_bounding_box",
    "Artist.Nurbs.C23_affine",
    "Artist.Nurbs.C23_flat",
    "Artist.Nurbs.C23_first_corner",
    "Artist.Nurbs.C23_last_corner",
    "Artist.Nurbs.C23_end_fails",
    "Artist.Nurbs.C23_grid",
    "Artist.Nurbs.C23_normal",
    "Artist.Nurbs.C23_planar"
   ],
   "note": "Degrees at least one, parameters in [0,1). Refinement to the textbook B-spline surface, convex hull, affine equivariance, flat nets, corners with linear rates, normals as cross products of partial derivatives, planar initial net. Parameter 1 raises an IndexError (C23_end_fails)."
  },
  {
   "property": "C24",
   "status": "proved",
   "theorems": [
    "Artist.C24_rigid",
    "Artist.C24_preserves",
    "Artist.C24_surface_normal",
    "Artist.C24_reference"
   ],
   "note": "For any actuators, deviations and positions."
  },
  {
   "property": "C25",
   "status": "proved",
   "theorems": [
    "Artist.C25_both_branches",
    "Artist.C25_angle_range",
    "Artist.C25_motors",
    "Artist.C25_ideal",
    "Artist.C25_reachable_iff",
    "Artist.C25_limits"
   ],
   "note": "Both branches, error bound 2e+e^2 on the squared distance, exact for epsilon 0; reachable normals characterised; limits and warning. Linear actuators need the angle round trip of C27."
  },
  {
   "property": "C26",
   "status": "partial",
   "theorems": [
    "Artist.C26_mismatch",
    "Artist.C26_result",
    "Artist.C26_converged_partial",
    "Artist.C26_fixed_origin",
    "Artist.C26_no_iterations"
   ],
   "note": "False with the default parameters (C26_mismatch, an explicit heliostat): if the iteration does not settle within four steps the stored motor positions are one step ahead of the returned orientation. Proved when it settles, and for heliostats whose mirror centre does not move with the joints; the result is characterised in general."
  },
  {
   "property": "C27",
   "status": "proved",
   "theorems": [
    "Artist.C27_parameters_positive",
    "Artist.C27_motor_round_trip",
    "Artist.C27_angle_round_trip",
    "Artist.C27_angle_bounded",
    "Artist.C27_monotone",
    "Artist.C27_strict",
    "Artist.C27_initial",
    "Artist.C27_ideal"
   ],
   "note": "Strokes inside the limits; softplus parametrisation included."
  },
  {
   "property": "C28",
   "status": "partial",
   "theorems": [
    "Artist.Group.C28_last_activation_partial",
    "Artist.Group.C28_fresh",
    "Artist.Group.C28_default_mask",
    "Artist.Group.C28_optimizable_partial",
    "Artist.Group.C28_optimizable_lost",
    "Artist.Group.C28_rejected_mask"
   ],
   "note": "False for the optimizable actuator parameters: one activation with a mask of zeros makes them empty for ever (C28_optimizable_lost). Proved for every other quantity after any history, and for the optimizable parameters when no mask is all zero. A rejected mask already changes the counters (C28_rejected_mask)."
  },
  {
   "property": "C29",
   "status": "proved",
   "theorems": [
    "Artist.Mapping.C29_faithful",
    "Artist.Mapping.C29_invalid_rejected",
    "Artist.Mapping.C29_other_groups_ignored",
    "Artist.Mapping.C29_default",
    "Artist.Mapping.C29_negative_index_accepted",
    "Artist.Mapping.C29_repeated_name_fails",
    "Artist.Mapping.C29_accepted_light",
    "Artist.Mapping.C29_light_iff",
    "Artist.Mapping.C29_single_light_iff"
   ],
   "note": "Groups with distinct names; C29_repeated_name_fails shows that this is needed. The default mapping accepts negative target indices (C29_negative_index_accepted), which is outside the claim about user mappings."
  },
  {
   "property": "C30",
   "status": "proved",
   "theorems": [
    "Artist.Tower.C30_index_maps",
    "Artist.Tower.C30_planar",
    "Artist.Tower.C30_cylindrical",
    "Artist.Tower.C30_out_of_range",
    "Artist.Tower.C30_negative_index"
   ],
   "note": "Any list of kinds with distinct names, and the planar/cylindrical tower with centers. Negative indices are not rejected (C30_negative_index)."
  },
  {
   "property": "C31",
   "status": "partial",
   "theorems": [
    "Artist.Training.C31_fires_iff",
    "Artist.Training.C31_never_early",
    "Artist.Training.C31_steady_absolute_partial",
    "Artist.Training.C31_steady_relative_partial",
    "Artist.Training.C31_window_one",
    "Artist.Training.C31_zero_patience",
    "Artist.Training.C31_zero_window"
   ],
   "note": "Exact characterisation and earliest step proved for window and patience at least one. The last clause is false for a window of one loss (C31_window_one); proved for steady decrease exceeding the threshold over the window. Window 0 raises, patience 0 fires as soon as the window is full."
  },
  {
   "property": "C32",
   "status": "partial",
   "theorems": [
    "Artist.Training.C32_uniform_partial",
    "Artist.Training.C32_unequal_counts",
    "Artist.Training.C32_sample_lost",
    "Artist.Training.C32_index_error",
    "Artist.Training.C32_nothing_active"
   ],
   "note": "False for unequal sample counts: wrong owner and no test sample (C32_unequal_counts), lost sample (C32_sample_lost), IndexError (C32_index_error). Proved for equal counts and fractions at most one."
  },
  {
   "property": "C33",
   "status": "partial",
   "theorems": [
    "Artist.Report.C33_owner_unique",
    "Artist.Report.C33_bookkeeping",
    "Artist.Report.C33_flat_partial",
    "Artist.Report.C33_synchronised",
    "Artist.Report.C33_idle_raises",
    "Artist.Report.C33_nested_raises",
    "Artist.Report.C33_alignment_other_processes"
   ],
   "note": "Proved: the bookkeeping for all numbers of processes and groups, provided every process computes one loss per own heliostat (C33_bookkeeping, C33_owner_unique), and the whole flux-driven path if no group is shared (C33_flat_partial). False otherwise: shared groups raise (C33_nested_raises), alignment-driven losses of other processes read infinity (C33_alignment_other_processes)."
  },
  {
   "property": "C34",
   "status": "partial",
   "theorems": [
    "Artist.Loop.C34_reconstruction_partial",
    "Artist.Loop.C34_aim_points_partial",
    "Artist.Loop.C34_fit_partial",
    "Artist.Loop.C34_epochs_determined",
    "Artist.Loop.C34_one_epoch_too_many",
    "Artist.Loop.C34_history_misses_last",
    "Artist.Loop.C34_fit_logged",
    "Artist.Loop.C34_aim_points_logged",
    "Artist.Loop.C34_zero_log_step",
    "Artist.Loop.C34_validated_epochs",
    "Artist.Loop.C34_last_epoch_not_validated"
   ],
   "note": "Proved for all loss sequences with the limit max_epoch + 1: the loops end after the first epoch within tolerance or with early stopping. False as stated: max_epoch + 1 epochs are run (C34_one_epoch_too_many), the history of reconstructions misses the epoch at which early stopping fires (C34_history_misses_last), max_epoch = log_step = 0 raises ZeroDivisionError."
  },
  {
   "property": "C35",
   "status": "partial",
   "theorems": [
    "Artist.Aim.C35_within_limits_iff",
    "Artist.Aim.C35_within_limits_partial",
    "Artist.Aim.C35_near_limit",
    "Artist.Aim.C35_never_within"
   ],
   "note": "Holds if and only if the start is at least one motor unit inside both limits (C35_within_limits_iff). Closer starts can leave the range (C35_near_limit), starts beyond a limit never return (C35_never_within)."
  },
  {
   "property": "C36",
   "status": "partial",
   "theorems": [
    "Artist.Aim.C36_multipliers_nonneg",
    "Artist.Aim.C36_penalties_nonneg",
    "Artist.Aim.C36_satisfied_not_penalised",
    "Artist.Aim.C36_multipliers_decrease",
    "Artist.Aim.C36_multiplier_is_slope",
    "Artist.Aim.C36_intercept_mean",
    "Artist.Aim.C36_decrease_reached",
    "Artist.Aim.C36_surface",
    "Artist.Aim.C36_surface_satisfied"
   ],
   "note": "Non-negative multipliers and terms, no penalty when satisfied: proved for all histories. Multipliers of the aim point optimisation decrease (C36_multipliers_decrease, C36_decrease_reached), because unclamped violations are added; those of the surface reconstruction never do (C36_surface)."
  },
  {
   "property": "C37",
   "status": "proved",
   "theorems": [
    "Artist.Losses.C37_vector",
    "Artist.Losses.C37_pixel",
    "Artist.Losses.C37_kl_nonneg",
    "Artist.Losses.C37_kl_zero_iff",
    "Artist.Losses.C37_kl_scale",
    "Artist.Losses.C37_kl_dark_negative",
    "Artist.Losses.C37_angle",
    "Artist.Losses.C37_angle_cos",
    "Artist.Losses.C37_cosine"
   ],
   "note": "Vector, pixel, KL, angle and cosine losses. Admissible means: positive ground truth intensity for pixel and KL losses, non-negative images for KL, vectors longer than epsilon for angle and cosine. For a dark ground truth the KL loss is negative (C37_kl_dark_negative)."
  },
  {
   "property": "C38",
   "status": "partial",
   "theorems": [
    "Artist.Losses.C38_scales",
    "Artist.Losses.C38_never_invariant",
    "Artist.Losses.C38_perfect_partial"
   ],
   "note": "False: the loss is proportional to the common factor (C38_scales), so it changes for every imperfect prediction and every factor other than one (C38_never_invariant)."
  },
  {
   "property": "C39",
   "status": "partial",
   "theorems": [
    "Artist.Bitmap.C39_inside",
    "Artist.Bitmap.C39_empty",
    "Artist.Bitmap.C39_mean",
    "Artist.Bitmap.C39_scaling",
    "Artist.Bitmap.C39_roundtrip_partial",
    "Artist.Bitmap.C39_tilted_displaced",
    "Artist.Bitmap.C39_focal_spot",
    "Artist.Bitmap.C39_cylinder_partial"
   ],
   "note": "Centers of mass, upright north/south-facing planes and north-facing cylinders, and the whole way from rays to the reported focal spot (C39_focal_spot). On tilted planes the converted point leaves the plane (C39_tilted_displaced)."
  },
  {
   "property": "C40",
   "status": "proved",
   "theorems": [
    "Artist.Regularizers.C40_nonneg",
    "Artist.Regularizers.C40_smoothness_zero_iff",
    "Artist.Regularizers.C40_ideal_zero_iff",
    "Artist.Regularizers.C40_shift_invariant",
    "Artist.Regularizers.C40_quadratic"
   ],
   "note": ""
  },
  {
   "property": "C41",
   "status": "proved",
   "theorems": [
    "Artist.Lock.C41_locked",
    "Artist.Lock.C41_free",
    "Artist.Lock.C41_moves",
    "Artist.Lock.C41_outline"
   ],
   "note": "Adam (with momentum cycling) over exact reals; a coordinate whose gradient is masked from the first step on never moves."
  },
  {
   "property": "C42",
   "status": "partial",
   "theorems": [
    "Artist.Paint.C42_paired_partial",
    "Artist.Paint.C42_from_directory",
    "Artist.Paint.C42_duplicates",
    "Artist.Paint.C42_zero_is_unlimited",
    "Artist.Paint.C42_negative_raises"
   ],
   "note": "Proved for mappings that list each heliostat once with equally many property and image files and for absent or positive limits. Two entries for one heliostat read all property files but only the images of the last entry (C42_duplicates), limit 0 means unlimited (C42_zero_is_unlimited), negative limits raise (C42_negative_raises). C42_from_directory: the mapping created from a directory meets the hypotheses."
  },
  {
   "property": "C43",
   "status": "partial",
   "theorems": [
    "Artist.Paint.C43_pairs",
    "Artist.Paint.C43_count_partial",
    "Artist.Paint.C43_present",
    "Artist.Paint.C43_zero_is_unlimited"
   ],
   "note": "Pairing, presence and completeness for all inputs; the bound for positive numbers. Zero or a negative number returns everything (C43_zero_is_unlimited)."
  },
  {
   "property": "C44",
   "status": "partial",
   "theorems": [
    "Artist.Field.C44_count_partial",
    "Artist.Field.C44_at_most_two",
    "Artist.Field.C44_mixed_raises",
    "Artist.Field.C44_empty_list",
    "Artist.Field.C44_same_name"
   ],
   "note": "Proved whenever a generated scenario loads, for unambiguous names and keys and non-empty individual actuator lists. An empty individual list or a repeated name makes stored and loaded numbers differ (C44_empty_list, C44_same_name); mixed actuator types cannot be loaded (C44_mixed_raises)."
  },
  {
   "property": "C45",
   "status": "proved",
   "theorems": [
    "Artist.Flatten.C45_entries",
    "Artist.Flatten.C45_lookup",
    "Artist.Flatten.C45_recover",
    "Artist.Flatten.C45_conditions_needed"
   ],
   "note": "C45_conditions_needed shows that each condition of the property is needed."
  },
  {
   "property": "C46",
   "status": "partial",
   "theorems": [
    "Artist.Field.C46_same_partial",
    "Artist.Field.C46_contents",
    "Artist.Field.C46_degrees_shared",
    "Artist.Field.C46_degrees_wrong",
    "Artist.Field.C46_degrees_partial",
    "Artist.Field.C46_first_raises",
    "Artist.Field.C46_needs_other"
   ],
   "note": "Contents are independent of other heliostats (C46_same_partial, C46_contents). NURBS degrees of all groups come from one heliostat (C46_degrees_shared, C46_degrees_wrong), and individual actuators with prototype kinematics raise UnboundLocalError unless an earlier heliostat has individual kinematics (C46_first_raises, C46_needs_other)."
  },
  {
   "property": "C47",
   "status": "proved",
   "theorems": [
    "Artist.Geo.C47_length",
    "Artist.Geo.C47_zenith",
    "Artist.Geo.C47_compass",
    "Artist.Geo.C47_direction",
    "Artist.Geo.C47_periodic",
    "Artist.Geo.C47_units",
    "Artist.Geo.C47_incident"
   ],
   "note": ""
  },
  {
   "property": "C48",
   "status": "proved",
   "theorems": [
    "Artist.Geo.C48_origin",
    "Artist.Geo.C48_signs",
    "Artist.Geo.C48_monotone",
    "Artist.Geo.C48_scale",
    "Artist.Geo.C48_ellipsoid"
   ],
   "note": ""
  },
  {
   "property": "C49",
   "status": "proved",
   "theorems": [
    "Artist.Bitmap.C49_normalize",
    "Artist.Bitmap.C49_grid"
   ],
   "note": "Columns of normalised points and the evaluation grid."
  },
  {
   "property": "C50",
   "status": "proved",
   "theorems": [
    "Artist.Bitmap.C50_range",
    "Artist.Bitmap.C50_symmetric",
    "Artist.Bitmap.C50_unimodal",
    "Artist.Bitmap.C50_plateau",
    "Artist.Bitmap.C50_zero",
    "Artist.Bitmap.C50_slope",
    "Artist.Bitmap.C50_rectangle"
   ],
   "note": "With widths of different parity the plateau has one entry more than its width, as the middle then lies on (or between) an entry (see the example)."
  },
  {
   "property": "C51",
   "status": "partial",
   "theorems": [
    "Artist.Trace.C51_owner_first_group_partial",
    "Artist.Trace.C51_wrong_owner_second_group",
    "Artist.Trace.C51_never_own_primitive",
    "Artist.Trace.C51_repeated_activation_fails",
    "Artist.Trace.C51_surfaces"
   ],
   "note": "Owner index is right for the first group only (C51_wrong_owner_second_group). Blocking surfaces are right when every heliostat is active at most once (C51_surfaces) and fail otherwise (C51_repeated_activation_fails)."
  },
  {
   "property": "C52",
   "status": "partial",
   "theorems": [
    "Artist.Report.C52_own_measurements_partial",
    "Artist.Report.C52_nested_wrong",
    "Artist.Report.C52_nested_raises"
   ],
   "note": "Proved for processes alone in their group. False for shared groups with two active heliostats: RuntimeError, or all predictions compared with one measurement (C52_nested_wrong, C52_nested_raises)."
  },
  {
   "property": "C53",
   "status": "partial",
   "theorems": [
    "Artist.Paint.C53_single_kind",
    "Artist.Paint.C53_mixed_partial",
    "Artist.Paint.C53_duplicate_ids",
    "Artist.Paint.C53_one_kind_raises"
   ],
   "note": "Lists of one kind load correctly without mixing; mixed lists keep every heliostat once with the right surface (C53_mixed_partial), but ids repeat in every mixed load (C53_duplicate_ids) and lists of only one kind raise UnboundLocalError (C53_one_kind_raises)."
  },
  {
   "property": "C54",
   "status": "proved",
   "theorems": [
    "Artist.SoftMask.C54_corner_indices",
    "Artist.SoftMask.C54_rectangle",
    "Artist.SoftMask.C54_normal",
    "Artist.SoftMask.C54_rectangular_grid_fails",
    "Artist.SoftMask.C54_bounding_rectangle"
   ],
   "note": "Index arithmetic for all square grids, outermost corners, spans and normals; also the bounding-rectangle variant. C54_rectangular_grid_fails shows the limit: facets with unequal numbers of points along width and height get wrong corners."
  },
  {
   "property": "C55",
   "status": "partial",
   "theorems": [
    "Artist.C55_east_up",
    "Artist.C55_north_partial",
    "Artist.C55_north_is_clockwise"
   ],
   "note": "False for the north axis: rotate_n turns clockwise (C55_north_is_clockwise). Proved for east and up; the actual direction of north proved."
  },
  {
   "property": "C56",
   "status": "proved",
   "theorems": [
    "Artist.C56_loss_bounds_error",
    "Artist.C56_reflects_to_aim"
   ],
   "note": "Fixed mirror centre: error at most 4 sqrt(2e-8); in general at most 16 times the final loss."
  },
  {
   "property": "C57",
   "status": "partial",
   "theorems": [
    "Artist.Nurbs.C57_single_facet_partial",
    "Artist.Nurbs.C57_facets_fail",
    "Artist.Nurbs.C57_wrong_shape",
    "Artist.Nurbs.C57_end_span",
    "Artist.Nurbs.C57_close_to_end"
   ],
   "note": "False: fails with a RuntimeError for more than one facet (C57_facets_fail), wrong shape for one point (C57_wrong_shape), wrong span close to the end (C57_close_to_end). Proved for a single facet away from the end."
  },
  {
   "property": "C58",
   "status": "partial",
   "theorems": [
    "Artist.Collective.C58_mixed",
    "Artist.Collective.C58_single_group_partial",
    "Artist.Collective.C58_other_groups_interfere",
    "Artist.Collective.C58_blocks_mixed",
    "Artist.Collective.C58_hang",
    "Artist.Collective.C58_reconstruction",
    "Artist.Collective.C58_reconstruction_alone"
   ],
   "note": "Proved for one heliostat group. With several groups gradients of different groups are averaged (C58_mixed, C58_other_groups_interfere, C58_blocks_mixed) or the processes wait for each other forever (C58_hang)."
  },
  {
   "property": "C59",
   "status": "partial",
   "theorems": [
    "Artist.Aim.C59_other_losses_raise",
    "Artist.Aim.C59_kl_partial"
   ],
   "note": "Proved for KL-divergence losses; every other loss raises RuntimeError in the first epoch (C59_other_losses_raise)."
  },
  {
   "property": "C60",
   "status": "partial",
   "theorems": [
    "Artist.Collective.C60_synchronised",
    "Artist.Collective.C60_alignment_disagrees"
   ],
   "note": "Proved for flux-driven reconstructions and aim points, all process and group counts. Alignment-driven reconstruction never synchronises (C60_alignment_disagrees)."
  },
  {
   "property": "C61",
   "status": "partial",
   "theorems": [
    "Artist.Field.C61_sorted",
    "Artist.Field.C61_order_partial",
    "Artist.Field.C61_swapped"
   ],
   "note": "Proved for keys listed in alphabetical order; actuators listed in descending key order are always exchanged (C61_swapped)."
  },
  {
   "property": "C62",
   "status": "partial",
   "theorems": [
    "Artist.Surfaces.C62_flat_partial",
    "Artist.Surfaces.C62_curved",
    "Artist.Surfaces.C62_fitted_moves",
    "Artist.Surfaces.C62_from_points",
    "Artist.Surfaces.C62_fitted_twice",
    "Artist.Surfaces.C62_not_kept",
    "Artist.Surfaces.C62_non_square"
   ],
   "note": "True for flat surfaces sampled on square grids. False for curved surfaces: facets are canted and moved a second time (C62_curved, C62_fitted_moves, C62_fitted_twice, C62_not_kept); false for non-square sampling grids, where the number of points changes (C62_non_square)."
  },
  {
   "property": "C63",
   "status": "partial",
   "theorems": [
    "Artist.Surfaces.C63_forgets",
    "Artist.Surfaces.C63_ideal_partial",
    "Artist.Surfaces.C63_not_kept",
    "Artist.Surfaces.C63_ideal_points_move"
   ],
   "note": "Ideal facets stay in the same plane and rectangle with the same normals. False otherwise: a fitted shape is lost as soon as surfaces are recomputed (C63_forgets, C63_not_kept), and sampling points move within the plane (C63_ideal_points_move)."
  },
  {
   "property": "C64",
   "status": "proved",
   "theorems": [
    "Artist.Crop.C64_window",
    "Artist.Crop.C64_metres",
    "Artist.Crop.C64_bounds",
    "Artist.Crop.C64_center_inside",
    "Artist.Crop.C64_identity",
    "Artist.Crop.C64_size"
   ],
   "note": ""
  },
  {
   "property": "C65",
   "status": "proved",
   "theorems": [
    "Artist.C65_target",
    "Artist.C65_planar_total",
    "Artist.C65_bound",
    "Artist.C65_proportional",
    "Artist.C65_blocking"
   ],
   "note": ""
  },
  {
   "property": "C66",
   "status": "partial",
   "theorems": [
    "Artist.C66_fractions_partial",
    "Artist.C66_ranges",
    "Artist.C66_blocking_invisible",
    "Artist.C66_documented_order",
    "Artist.C66_no_gradient",
    "Artist.Rounded.C66_float_dark",
    "Artist.Rounded.C66_float_counted"
   ],
   "note": "What the three numbers are is proved. False as documented: the code returns the hitting and not completely blocked rays first, then those hitting neglecting blocking, then those not blocked (C66_documented_order); in exact arithmetic blocking has no influence on the first (C66_blocking_invisible), in float32 a ray is dropped from it once a soft mask reaches 0.18 and still counted up to 0.16 (C66_float_dark, C66_float_counted); as counts they have no gradient (C66_no_gradient)."
  },
  {
   "property": "C67",
   "status": "partial",
   "theorems": [
    "Artist.C67_outline_partial",
    "Artist.C67_right_iff",
    "Artist.C67_too_much"
   ],
   "note": "Proved that all heliostats get irradiance times the outline of 2 x 2 facets with 2 cm gaps built from the first facet of the first heliostat; right exactly for heliostats whose mirror area equals this outline (C67_right_iff), too much for the usual layouts (C67_too_much)."
  },
  {
   "property": "C68",
   "status": "partial",
   "theorems": [
    "Artist.AimFlux.C68_flat_partial",
    "Artist.AimFlux.C68_single",
    "Artist.AimFlux.C68_same_flux_partial",
    "Artist.AimFlux.C68_nested_raises",
    "Artist.AimFlux.C68_stale_blocking"
   ],
   "note": "Proved for at most as many processes as groups, in the first epoch or if groups do not block each other. False otherwise: processes see heliostats of other groups where they started (C68_stale_blocking); fractions of heliostats of other processes read zero (part of C68_flat_partial); more processes than groups raise IndexError (C68_nested_raises)."
  },
  {
   "property": "C69",
   "status": "partial",
   "theorems": [
    "Artist.AlignmentLoss.C69_measured_reflects",
    "Artist.AlignmentLoss.C69_zero_iff",
    "Artist.AlignmentLoss.C69_group",
    "Artist.AlignmentLoss.C69_mean_zero",
    "Artist.AlignmentLoss.C69_exact_iff",
    "Artist.AlignmentLoss.C69_exact_partial",
    "Artist.AlignmentLoss.C69_exact_wrong"
   ],
   "note": "Proved that every training sample is compared with the normal reflecting the sun from the heliostat position onto its focal spot (C69_measured_reflects, C69_group) and that the loss is zero exactly for such mirrors (C69_zero_iff, C69_mean_zero). For exact parameters the loss is zero exactly if the focal spot lies in the same direction from the position as from the mirror centre (C69_exact_iff), e.g. without translation deviations (C69_exact_partial); false otherwise (C69_exact_wrong)."
  },
  {
   "property": "C70",
   "status": "partial",
   "theorems": [
    "Artist.Rotations.C70_axis_angle",
    "Artist.Rotations.C70_axis_angle_exact",
    "Artist.Rotations.C70_axis_angle_parallel",
    "Artist.Rotations.C70_vector_partial",
    "Artist.Rotations.C70_vector_same",
    "Artist.Rotations.C70_vector_opposite",
    "Artist.Rotations.C70_compensation"
   ],
   "note": "Proved for rotation_angle_and_axis on all non-zero vectors (exact away from the tolerance and for exactly parallel or opposite vectors, within sqrt(2)e-6 otherwise) and for the compensation of the initial angle. decompose_rotations is proved correct unless the vectors are opposite (C70_vector_partial, C70_vector_same); for opposite vectors it returns no rotation (C70_vector_opposite)."
  },
  {
   "property": "C71",
   "status": "partial",
   "theorems": [
    "Artist.KinConfig.C71_deviations",
    "Artist.KinConfig.C71_linear",
    "Artist.KinConfig.C71_linear_chain",
    "Artist.KinConfig.C71_ideal_chain",
    "Artist.KinConfig.C71_orientation_iff",
    "Artist.KinConfig.C71_orientation_ignored",
    "Artist.KinConfig.C71_lengths"
   ],
   "note": "Proved end to end for all subsets of optional values (C71_deviations, C71_linear, C71_linear_chain, C71_ideal_chain), with the exact error of the positive lengths (C71_lengths). False for the initial orientation: it is stored but never used, so the mirror faces south whatever is configured (C71_orientation_iff, C71_orientation_ignored)."
  },
  {
   "property": "C72",
   "status": "partial",
   "theorems": [
    "Artist.FocalSpotLoss.C72_nonneg",
    "Artist.FocalSpotLoss.C72_symmetric",
    "Artist.FocalSpotLoss.C72_planar",
    "Artist.FocalSpotLoss.C72_planar_zero_iff",
    "Artist.FocalSpotLoss.C72_cylinder_zero_iff",
    "Artist.FocalSpotLoss.C72_rays",
    "Artist.FocalSpotLoss.C72_distance_partial",
    "Artist.FocalSpotLoss.C72_resolution"
   ],
   "note": "Proved for bitmaps of one resolution: it is the distance (C72_distance_partial, C72_planar), non-negative, symmetric, zero exactly for equal centres on planes and on cylinders (C72_planar_zero_iff, C72_cylinder_zero_iff), and the distance of mean hit points up to a pixel (C72_rays). False when the resolutions differ: the resolution of the prediction is used for both (C72_resolution)."
  },
  {
   "property": "C73",
   "status": "partial",
   "theorems": [
    "Artist.LightSources.C73_roundtrip_partial",
    "Artist.LightSources.C73_left_out",
    "Artist.LightSources.C73_loadable_iff",
    "Artist.LightSources.C73_misleading",
    "Artist.LightSources.C73_set_rays"
   ],
   "note": "Proved for complete configurations (C73_roundtrip_partial), which are exactly the loadable ones (C73_loadable_iff). False otherwise: leaving out mean or covariance makes writing raise TypeError (C73_left_out), a covariance of zero cannot be loaded, and a file without covariance is rejected as if suns were not supported (C73_misleading)."
  },
  {
   "property": "C74",
   "status": "partial",
   "theorems": [
    "Artist.LightSources.C74_values",
    "Artist.LightSources.C74_reproducible",
    "Artist.LightSources.C74_groups_share",
    "Artist.LightSources.C74_ranks",
    "Artist.LightSources.C74_user_seed_lost"
   ],
   "note": "Reproducibility and the values of the distortions are proved (C74_reproducible, C74_values). False: groups of equal size traced with the same seed share all distortions (C74_groups_share), the rank of a process changes the distortions of a heliostat (C74_ranks), and creating a ray tracer overwrites the seed of the user (C74_user_seed_lost)."
  },
  {
   "property": "C75",
   "status": "partial",
   "theorems": [
    "Artist.PixelLimit.C75_dimensions",
    "Artist.PixelLimit.C75_zero_iff",
    "Artist.PixelLimit.C75_average",
    "Artist.PixelLimit.C75_uniform",
    "Artist.PixelLimit.C75_uniform_threshold",
    "Artist.PixelLimit.C75_uniform_partial",
    "Artist.PixelLimit.C75_too_strict"
   ],
   "note": "Proved: the penalty is zero iff no pixel exceeds its limit (C75_zero_iff), the limit belongs to the target (C75_dimensions) and bounds the mean density (C75_average). For uniform irradiation the claim holds below (W-1)(H-1)/(WH) of the maximum and above the maximum (C75_uniform_partial); in between it is false, since the limit divides the area by W*H while bitmap pixels are (W-1)(H-1) cells apart (C75_uniform_threshold, C75_too_strict)."
  },
  {
   "property": "C76",
   "status": "partial",
   "theorems": [
    "Artist.TowerFile.C76_roundtrip_partial",
    "Artist.TowerFile.C76_planar_center",
    "Artist.TowerFile.C76_cylinder_center",
    "Artist.TowerFile.C76_empty",
    "Artist.TowerFile.C76_three_coordinates"
   ],
   "note": "Proved for towers with at least one area of each kind (C76_roundtrip_partial, C76_planar_center, C76_cylinder_center). False otherwise: a scenario without cylindrical (or without planar) areas is written but loading raises KeyError (C76_empty); centers without homogeneous coordinate are written but cannot be loaded (C76_three_coordinates)."
  },
  {
   "property": "C77",
   "status": "partial",
   "theorems": [
    "Artist.PaintTower.C77_cylinder_from_corners",
    "Artist.PaintTower.C77_cylinder_partial",
    "Artist.PaintTower.C77_wide_cylinder",
    "Artist.PaintTower.C77_plane_size",
    "Artist.PaintTower.C77_plane_area",
    "Artist.PaintTower.C77_plane_partial",
    "Artist.PaintTower.C77_turned_and_tilted",
    "Artist.PaintTower.C77_areas",
    "Artist.PaintTower.C77_order_matters",
    "Artist.PaintTower.C77_planar_read",
    "Artist.PaintTower.C77_cylinder_read"
   ],
   "note": "Proved for cylinders opening at most half a turn (C77_cylinder_partial) and planar areas that are not both turned and tilted (C77_plane_partial). False otherwise: for wider openings the center is off the axis by up to the diameter (C77_wide_cylinder); corners of turned and tilted planes are cut off (C77_turned_and_tilted); a file whose first entry is not the power plant raises KeyError (C77_order_matters)."
  },
  {
   "property": "C78",
   "status": "partial",
   "theorems": [
    "Artist.Stral.C78_roundtrip",
    "Artist.Stral.C78_cut_off",
    "Artist.Stral.C78_undefined_points"
   ],
   "note": "Proved for complete files (C78_roundtrip), and characterised which cut-off files are rejected (C78_cut_off). False for files cut off between two points of the last facet: they are accepted and the missing points and normals are uninitialised memory (C78_undefined_points)."
  },
  {
   "property": "C79",
   "status": "partial",
   "theorems": [
    "Artist.Deflectometry.C79_pairs_partial",
    "Artist.Deflectometry.C79_undefined_normals",
    "Artist.Deflectometry.C79_more_normals",
    "Artist.Deflectometry.C79_end_not_used"
   ],
   "note": "Proved if every point has a normal (C79_pairs_partial); facets with more normals than points are rejected (C79_more_normals). False otherwise: missing normals are accepted and undefined numbers are fitted (C79_undefined_normals); of larger facets only the first points, as many as the smallest facet has, are used (C79_end_not_used)."
  },
  {
   "property": "C80",
   "status": "partial",
   "theorems": [
    "Artist.Fit.C80_no_scheduler_partial",
    "Artist.Fit.C80_later_facets",
    "Artist.Fit.C80_reduced_despite_progress",
    "Artist.Fit.C80_epochs",
    "Artist.Fit.C80_order_matters"
   ],
   "note": "Proved without a scheduler (C80_no_scheduler_partial) and for the influence of later facets (C80_later_facets). False with a scheduler that reduces on plateaus, as in the tutorials: it keeps the best loss of earlier facets and reduces the learning rate although the loss of the current facet improves (C80_reduced_despite_progress), so the result depends on the order (C80_order_matters)."
  },
  {
   "property": "C81",
   "status": "partial",
   "theorems": [
    "Artist.PaintHeliostat.C81_facets",
    "Artist.PaintHeliostat.C81_linear",
    "Artist.PaintHeliostat.C81_ideal",
    "Artist.PaintHeliostat.C81_accepted_partial",
    "Artist.PaintHeliostat.C81_surplus",
    "Artist.PaintHeliostat.C81_missing_facets",
    "Artist.PaintHeliostat.C81_mixed_actuators",
    "Artist.PaintHeliostat.C81_list",
    "Artist.PaintHeliostat.C81_all_or_nothing"
   ],
   "note": "Proved end to end for files that describe a heliostat (C81_linear, C81_ideal, C81_facets, C81_list), and characterised which files are accepted (C81_accepted_partial, C81_all_or_nothing). False for contradictory files: facets beyond the stated number are dropped (C81_surplus), and vectors with one component are broadcast."
  },
  {
   "property": "C82",
   "status": "partial",
   "theorems": [
    "Artist.Field.C82_check_iff",
    "Artist.Field.C82_sorted",
    "Artist.Field.C82_order_partial",
    "Artist.Field.C82_generated_iff",
    "Artist.Field.C82_ten",
    "Artist.Field.C82_duplicate"
   ],
   "note": "Proved for ascending keys (C82_order_partial) and for generated surfaces with at most nine facets; the check is characterised (C82_check_iff). False for ten or more generated facets (C82_generated_iff, C82_ten), and facets with equal keys are lost although the check passed (C82_duplicate)."
  },
  {
   "property": "C83",
   "status": "partial",
   "theorems": [
    "Artist.TraceShapes.C83_each_once_partial",
    "Artist.TraceShapes.C83_power",
    "Artist.TraceShapes.C83_runs_iff",
    "Artist.TraceShapes.C83_points_changed",
    "Artist.TraceShapes.C83_rays_changed",
    "Artist.TraceShapes.C83_more_rays"
   ],
   "note": "Proved for unchanged numbers; characterised when tracing runs; refuted: another number of surface points raises in the middle of tracing, a tracer created for one ray silently multiplies the power."
  },
  {
   "property": "C84",
   "status": "partial",
   "theorems": [
    "Artist.Balance.C84_value",
    "Artist.Balance.C84_order_partial",
    "Artist.Balance.C84_original",
    "Artist.Balance.C84_any_roughness",
    "Artist.Balance.C84_slope",
    "Artist.Balance.C84_roughening"
   ],
   "note": "Order of surfaces with equal flux loss and absence of a penalty for the original surface are proved; refuted: the balancing factor is differentiated too, so the penalty saturates at weight times flux loss and the pull of a regulariser is reduced by the factor epsilon / (regulariser + epsilon)."
  },
  {
   "property": "C85",
   "status": "partial",
   "theorems": [
    "Artist.Result.C85_aim_points",
    "Artist.Result.C85_reconstruction_partial",
    "Artist.Result.C85_test_loss_stopped",
    "Artist.Result.C85_reported_iff",
    "Artist.Result.C85_tolerance_lost"
   ],
   "note": "Proved for the aim point optimisation. For the reconstructions it is characterised exactly (loss of the parameters before the last update, test loss of the last validated epoch) and refuted: ending within the tolerance does not leave parameters within the tolerance."
  },
  {
   "property": "C86",
   "status": "partial",
   "theorems": [
    "Artist.AlignSurface.C86_aligned",
    "Artist.AlignSurface.C86_accepted_iff",
    "Artist.AlignSurface.C86_aligned_incident",
    "Artist.AlignSurface.C86_other_mask",
    "Artist.AlignSurface.C86_last_partial",
    "Artist.AlignSurface.C86_compounds",
    "Artist.AlignSurface.C86_displaced"
   ],
   "note": "Proved for alignments preceded by an activation, and the rejection of other masks; refuted without the activation in between: orientations are applied one after the other, the centre of the mirror is displaced by its distance from the origin."
  },
  {
   "property": "C87",
   "status": "partial",
   "theorems": [
    "Artist.Blockers.C87_created",
    "Artist.Blockers.C87_aligned_partial",
    "Artist.Blockers.C87_stale",
    "Artist.Blockers.C87_not_aligned",
    "Artist.Blockers.C87_one_by_one",
    "Artist.Blockers.C87_points"
   ],
   "note": "Proved for the order \"align all groups, create the tracer, trace\"; refuted in general: the blocking surfaces are a copy made when the tracer is created, so a re-used tracer blocks with the old surfaces, an active but not yet aligned heliostat blocks at the origin of the field, groups aligned later block lying, and groups with different numbers of surface points cannot be traced with blocking at all."
  },
  {
   "property": "C88",
   "status": "partial",
   "theorems": [
    "Artist.Lockstep.C88_flat_partial",
    "Artist.Lockstep.C88_nested_iff",
    "Artist.Lockstep.C88_nested_partial",
    "Artist.Lockstep.C88_nested_hangs",
    "Artist.Lockstep.C88_aim_iff",
    "Artist.Lockstep.C88_aim_partial",
    "Artist.Lockstep.C88_aim_uneven_hangs",
    "Artist.Lockstep.C88_aim_hangs"
   ],
   "note": "Proved for reconstructions with at most as many processes as groups, and characterised exactly otherwise: processes sharing a group (reconstructions), or all processes (aim points), must leave their loops after the same number of epochs. Every process decides from its own losses, so this fails and the processes wait forever. (With several active heliostats, flux-driven reconstructions with shared groups already raise before, see C52; the result holds for the loops once that is repaired.)"
  },
  {
   "property": "C89",
   "status": "partial",
   "theorems": [
    "Artist.Validation.C89_reconstruction_partial",
    "Artist.Validation.C89_independent_partial",
    "Artist.Validation.C89_zero_mask_interferes"
   ],
   "note": "Proved for all histories in which the group was never activated with zeros only; an all-zero mask empties the optimizable parameters for ever (C28), and C89_zero_mask_interferes shows that a later reconstruction then computes its losses without them."
  },
  {
   "property": "C90",
   "status": "partial",
   "theorems": [
    "Artist.Schedule.C90_exponential",
    "Artist.Schedule.C90_cyclic_partial",
    "Artist.Schedule.C90_cyclic_ignores_initial",
    "Artist.Schedule.C90_plateau",
    "Artist.Schedule.C90_plateau_steady",
    "Artist.Schedule.C90_plateau_reduces",
    "Artist.Schedule.C90_plateau_distance",
    "Artist.Schedule.C90_fit_exponential"
   ],
   "note": "Proved for exponential and plateau schedules as called by the optimisations. False for cyclic schedules, which replace the initial learning rate by lr_min (C90_cyclic_ignores_initial), and for surface fits with an exponential scheduler, which takes the loss for the number of epochs (C90_fit_exponential)."
  },
  {
   "property": "C91",
   "status": "partial",
   "theorems": [
    "Artist.Shared.C91_common_partial",
    "Artist.Shared.C91_diverge"
   ],
   "note": "Proved for schedules that do not look at losses, and for equal losses. With reduce_on_plateau every process follows its own loss, so learning rates and then parameters diverge (C91_diverge)."
  },
  {
   "property": "C92",
   "status": "proved",
   "theorems": [
    "Artist.Aiming.C92_focal_spot_near_aim",
    "Artist.Aiming.C92_flat_mirror",
    "Artist.Aiming.C92_aligned"
   ],
   "note": "East and up components (the north component of a reported focal spot on a tilted plane is wrong, see C39). C92_aligned composes C56, C65, C08 and C39; C92_focal_spot_near_aim is for any surface, sun and blocking."
  },
  {
   "property": "C93",
   "status": "partial",
   "theorems": [
    "Artist.SoftMask.C93_candidates_grow_partial",
    "Artist.SoftMask.C93_blocking_grows_partial",
    "Artist.SoftMask.C93_darker_partial",
    "Artist.SoftMask.C93_further_heliostat_unblocks"
   ],
   "note": "False: a sixth heliostat away from the ray can remove another one from the result of the filter (C93_further_heliostat_unblocks). Proved for filter, mask and bitmap whenever the larger field meets the exact condition of C09_field_exact_iff_groups, with no condition on the smaller one."
  },
  {
   "property": "C94",
   "status": "proved",
   "theorems": [
    "Artist.Moved.C94_filter",
    "Artist.Moved.C94_blocking",
    "Artist.Moved.C94_bitmap",
    "Artist.Moved.C94_alignment",
    "Artist.Moved.C94_surface",
    "Artist.Moved.C94_scene",
    "Artist.Moved.C94_focal_spot"
   ],
   "note": "Over exact numbers: in float32 a large offset costs digits. Corners, mask, bitmap, alignment and focal spot on planar targets; C94_scene composes alignment and tracing. The filter statement covers fields for which it does not end."
  },
  {
   "property": "C95",
   "status": "partial",
   "theorems": [
    "Artist.SaveScenario.C95_name",
    "Artist.SaveScenario.C95_names_collide",
    "Artist.SaveScenario.C95_names_distinct_partial",
    "Artist.SaveScenario.C95_succeeds_iff",
    "Artist.SaveScenario.C95_complete",
    "Artist.SaveScenario.C95_failure_destroys",
    "Artist.SaveScenario.C95_second_version_replaces_first"
   ],
   "note": "Contents: proved (C95_complete, C95_succeeds_iff). False otherwise: names that differ after their last dot only, such as plant_1.5 and plant_1.7, are one file (C95_names_collide, C95_second_version_replaces_first); a failed generation destroys the earlier scenario and leaves an incomplete one (C95_failure_destroys)."
  },
  {
   "property": "C96",
   "status": "partial",
   "theorems": [
    "Artist.Mirrored.C96_image_partial",
    "Artist.Mirrored.C96_scene_partial",
    "Artist.Mirrored.C96_edges_differ",
    "Artist.Mirrored.C96_cylinder_partial",
    "Artist.Mirrored.C96_wide_cylinder",
    "Artist.Mirrored.C96_blocking",
    "Artist.Mirrored.C96_blocked_scene_partial"
   ],
   "note": "False for rays that meet the left or the right edge of the target exactly: one edge is recorded, the other is not (C96_edges_differ), and for cylinders with a wide opening (C96_wide_cylinder). Proved for all other rays on planar targets (C96_image_partial, C96_scene_partial), on cylinders that open to the front (C96_cylinder_partial), for the soft blocking mask (C96_blocking) and for whole scenes with blocking (C96_blocked_scene_partial), where that the filter keeps the mirrored blockers is a hypothesis."
  },
  {
   "property": "C97",
   "status": "proved",
   "theorems": [
    "Artist.NurbsBatch.C97_alone",
    "Artist.NurbsBatch.C97_fails_iff",
    "Artist.NurbsBatch.C97_choose",
    "Artist.NurbsBatch.C97_own_control_points",
    "Artist.NurbsBatch.C97_refused",
    "Artist.NurbsBatch.C97_shared_points"
   ],
   "note": "Uniform knots, parameters that are not negative. Sizes are part of the model, so refusals are covered (C97_fails_iff, C97_refused)."
  },
  {
   "property": "C98",
   "status": "partial",
   "theorems": [
    "Artist.Logging.C98_copies",
    "Artist.Logging.C98_once_partial",
    "Artist.Logging.C98_repeated",
    "Artist.Logging.C98_runtime",
    "Artist.Logging.C98_runtime_file_ignored",
    "Artist.Logging.C98_level_ignored"
   ],
   "note": "Exact count of copies for every history (C98_copies, C98_runtime). False: repeated set-up multiplies messages (C98_repeated), the file requested for run times is never used because importing the package has already chosen ./runtime_log.txt (C98_runtime_file_ignored), and run times appear among the general messages whatever level is configured (C98_level_ignored)."
  },
  {
   "property": "C99",
   "status": "partial",
   "theorems": [
    "Artist.Logging.C99_duration",
    "Artist.Logging.C99_contains",
    "Artist.Logging.C99_balanced_iff",
    "Artist.Logging.C99_caught_exception"
   ],
   "note": "Proved for calls that do not raise, exactly those (C99_balanced_iff); a raising call has no final line even if the exception is caught (C99_caught_exception)."
  },
  {
   "property": "C100",
   "status": "partial",
   "theorems": [
    "Artist.GroupFlux.C100_balance_partial",
    "Artist.GroupFlux.C100_caught_partial",
    "Artist.GroupFlux.C100_more_than_caught"
   ],
   "note": "False for the sunlight that the mirrors catch (C100_more_than_caught: rays carry the same power whatever the angle of incidence on the mirror is). Proved with irradiance times the outline area of a heliostat in its place (C100_balance_partial, composed from the models of sampler, batches, single samples and target sums), and with the caught sunlight divided by the smallest cosine (C100_caught_partial)."
  },
  {
   "property": "C101",
   "status": "partial",
   "theorems": [
    "Artist.Requests.C101_requests_partial",
    "Artist.Requests.C101_sum_partial",
    "Artist.Requests.C101_order_partial",
    "Artist.Requests.C101_complete_iff",
    "Artist.Requests.C101_other_groups",
    "Artist.Requests.C101_shared_raises",
    "Artist.Requests.C101_shared_alone_partial"
   ],
   "note": "On one process true iff the number of requested heliostats of the group divides the number of requests for it (C101_requests_partial, C101_complete_iff); otherwise the last samples are never traced and their uninitialised rows are added to target bitmaps. Requests of other groups have no effect (C101_other_groups); the order of requests and heliostats and the batch size do not matter (C101_order_partial). On processes sharing a group the sum raises (C101_shared_raises) unless there is nothing to share: a single process, or one requested heliostat, gets what the one-process code gets (C101_shared_alone_partial)."
  },
  {
   "property": "C102",
   "status": "partial",
   "theorems": [
    "Artist.AimGradient.C102_intercept_ineffective",
    "Artist.AimGradient.C102_intercept_same",
    "Artist.AimGradient.C102_integral_acts",
    "Artist.AimGradient.C102_local_acts",
    "Artist.AimGradient.C102_integral_matters"
   ],
   "note": "False for the intercept (spillage) constraint: intercept factors are counts of a comparison and have no gradient; whatever the weight is, the same motor positions are tried in the same order (C102_intercept_ineffective, C102_intercept_same). True for flux integral and local flux, with the exact force (C102_integral_acts, C102_local_acts); the weight of the flux integral really changes the result (C102_integral_matters). Kinks (ties of the brightest pixels, violation exactly zero) are left out of the two derivative theorems."
  },
  {
   "property": "C103",
   "status": "proved",
   "theorems": [
    "Artist.Rounded.C103_float32",
    "Artist.Rounded.C103_pixel",
    "Artist.Rounded.C103_total",
    "Artist.Rounded.C103_sum",
    "Artist.Rounded.C103_blocked",
    "Artist.Rounded.C103_intensity",
    "Artist.Rounded.C103_stagnates"
   ],
   "note": "Two-sided bound per pixel (C103_pixel), for the whole image (C103_total) and for sums in any order (C103_sum); mask and intensity stay in range (C103_blocked, C103_intensity). C103_float32 shows that float32 (round to nearest even, subnormal numbers, no overflow) is an instance. The bound cannot be improved to one that does not depend on the number of rays: C103_stagnates."
  },
  {
   "property": "C104",
   "status": "proved",
   "theorems": [
    "Artist.RoundedFilter.C104_codes",
    "Artist.RoundedFilter.C104_tree",
    "Artist.RoundedFilter.C104_no_false_blockers",
    "Artist.RoundedFilter.C104_clear_hit",
    "Artist.RoundedFilter.C104_near_hit",
    "Artist.RoundedFilter.C104_upto_five",
    "Artist.RoundedFilter.C104_float32",
    "Artist.RoundedFilter.C104_edge_missed"
   ],
   "note": "Generic in the rounding (`Arithmetic`), instantiated by float32. The tree theorem covers all codes without a loop; which leaves hang on the tree is the subject of C09, and for up to five heliostats the end-to-end statement is proved. The mean of the four corners is an argument (any rounding of the centres). Overflow and a direction component that cancels 1e-12 exactly are not modelled."
  },
  {
   "property": "C105",
   "status": "proved",
   "theorems": [
    "Artist.Splat.C105_shift",
    "Artist.Splat.C105_same_entries",
    "Artist.Splat.C105_border",
    "Artist.Splat.C105_outside",
    "Artist.Splat.C105_total_flux",
    "Artist.Splat.C105_gradient",
    "Artist.Splat.C105_partial_derivatives",
    "Artist.Splat.C105_on_line",
    "Artist.Splat.C105_line_kink"
   ],
   "note": "Bound on the change of the bitmap over any ordered field; derivatives over the reals, for arbitrary upstream gradients and arbitrary differentiable paths. C105_border, C105_outside, C105_total_flux and C105_line_kink say where the continuity and the two-sided derivative end: at the upper and eastern border the whole intensity of a ray vanishes at once, rays outside get no gradient, a loss on the total flux gives none for the hit points, and on a pixel line the gradient is only the derivative to one side."
  },
  {
   "property": "C106",
   "status": "partial",
   "theorems": [
    "Artist.NanGradient.C106_undefined_iff",
    "Artist.NanGradient.C106_defined",
    "Artist.NanGradient.C106_gradient_partial",
    "Artist.NanGradient.C106_silenced",
    "Artist.NanGradient.C106_no_influence_iff",
    "Artist.NanGradient.C106_other_heliostats",
    "Artist.NanGradient.C106_false",
    "Artist.NanGradient.C106_float32"
   ],
   "note": "False as stated: the gradients of the samples of one heliostat are added before undefined ones are replaced by zero, so one sample without a gradient silences all samples of its heliostat (C106_silenced, C106_false, C106_no_influence_iff). Samples without a gradient are not the severely misaligned ones of the comment in the code but the perfectly predicted ones (and exactly opposite ones) (C106_undefined_iff); in float32 everything within 0.24 mrad counts as perfect (C106_float32). True for heliostats without such a sample (C106_gradient_partial) and for other heliostats (C106_other_heliostats)."
  },
  {
   "property": "C107",
   "status": "proved",
   "theorems": [
    "Artist.RoundedSpan.C107_span",
    "Artist.RoundedSpan.C107_shares",
    "Artist.RoundedSpan.C107_surface",
    "Artist.RoundedSpan.C107_in_range",
    "Artist.RoundedSpan.C107_float32",
    "Artist.RoundedSpan.C107_next_span"
   ],
   "note": "Only the product in the span search is rounded; everything after it is exact, so that the effect of a wrong span is isolated. C107_next_span shows a float32 parameter (13981013/2^24, nine control points, degree three) for which the spans differ. For degree one the tangents of the neighbouring span differ by a finite amount (bound of C107_shares with exponent zero)."
  },
  {
   "property": "C108",
   "status": "proved",
   "theorems": [
    "Artist.MotorImage.C108_continuous",
    "Artist.MotorImage.C108_gradient",
    "Artist.MotorImage.C108_actuators",
    "Artist.MotorImage.C108_softplus",
    "Artist.MotorImage.C108_actuators_differentiable",
    "Artist.MotorImage.C108_mask",
    "Artist.MotorImage.C108_motor_position",
    "Artist.MotorImage.C108_motors",
    "Artist.MotorImage.C108_edge"
   ],
   "note": "Composes the models of actuators, kinematics, reflection, scattering, planar intersection and splatting; cylinders are not covered. The blocking mask enters as a continuous (differentiable) function of the ray; C108_mask gives its continuity for a list of rectangles that stays the same (the filter of blocking planes can change it). Actuator angles are continuous in the motor position everywhere (C108_motor_position) and in the raw parameters except at the threshold of softplus (C108_actuators), differentiable inside the limits (C108_actuators_differentiable). C108_edge is a concrete scene with a jump."
  },
  {
   "property": "C109",
   "status": "proved",
   "theorems": [
    "Artist.SurfaceImage.C109_affine",
    "Artist.SurfaceImage.C109_displacement",
    "Artist.SurfaceImage.C109_image",
    "Artist.SurfaceImage.C109_gradient",
    "Artist.SurfaceImage.C109_jump"
   ],
   "note": "Composes the models of NURBS evaluation, facet placement, kinematics, reflection, planar intersection and splatting. C109_jump is the exception on loading: any non-zero height of any control point switches off canting and translation of all facets of the heliostat (see also C62)."
  },
  {
   "property": "C110",
   "status": "proved",
   "theorems": [
    "Artist.Converge.C110_inverse_sharp",
    "Artist.Converge.C110_lever",
    "Artist.Converge.C110_step",
    "Artist.Converge.C110_direction",
    "Artist.Converge.C110_contraction",
    "Artist.Converge.C110_settles",
    "Artist.Converge.C110_two_iterations",
    "Artist.Converge.C110_loss",
    "Artist.Converge.C110_converges",
    "Artist.Converge.C110_start",
    "Artist.Converge.C110_focal_spot"
   ],
   "note": "C110_step: one iteration contracts; C110_converges: error left by the loop, whichever way it ends; C110_start: sufficient condition for its hypothesis on the first iteration; C110_two_iterations without contraction. Extends C26/C56/C92, which need a fixed mirror centre. Exact reals."
  },
  {
   "property": "C111",
   "status": "partial",
   "theorems": [
    "Artist.Tracking.C111_inverse",
    "Artist.Tracking.C111_iterations",
    "Artist.Tracking.C111_same_iteration",
    "Artist.Tracking.C111_align_partial",
    "Artist.Tracking.C111_image_partial",
    "Artist.Tracking.C111_linear",
    "Artist.Tracking.C111_ideal",
    "Artist.Tracking.C111_upwards",
    "Artist.Tracking.C111_half_turn",
    "Artist.Tracking.C111_limit"
   ],
   "note": "False as stated at three kinds of places, true elsewhere (C111_inverse, C111_align_partial, C111_image_partial). Exceptions: a joint angle of exactly half a turn for actuators that count turns (C111_half_turn; linear actuators do not, C111_linear, and mirrors that look upwards never get there with the first solution, C111_upwards); the first solution leaving the motor limits, where the motors jump to the other solution even if that is outside its limits, too (C111_limit); and ties at which the number of iterations changes."
  },
  {
   "property": "C112",
   "status": "partial",
   "theorems": [
    "Artist.CylinderImage.C112_continuous_partial",
    "Artist.CylinderImage.C112_gradient_partial",
    "Artist.CylinderImage.C112_outline",
    "Artist.CylinderImage.C112_seam"
   ],
   "note": "True wherever no ray touches the cylinder only, meets the edge of the target area or the line where the angle wraps (C112_continuous_partial, C112_gradient_partial). At the outline the recorded intensity is below a millionth of the magnitude, so the jump there is negligible (C112_outline). At the line where the angle wraps the image jumps even for a receiver around the whole circle, which has no edge there (C112_seam)."
  },
  {
   "property": "C113",
   "status": "proved",
   "theorems": [
    "Artist.Nurbs.C113_derivatives",
    "Artist.Nurbs.C113_unique",
    "Artist.Nurbs.C113_interior",
    "Artist.Nurbs.C113_orders",
    "Artist.Nurbs.C113_sum"
   ],
   "note": "All orders, all degrees, also orders above the degree; the values are identified with repeated right derivatives of the textbook basis functions and with iteratedDeriv between knots."
  },
  {
   "property": "C114",
   "status": "proved",
   "theorems": [
    "Artist.Downhill.C114_vector",
    "Artist.Downhill.C114_pixel",
    "Artist.Downhill.C114_kl",
    "Artist.Downhill.C114_cosine",
    "Artist.Downhill.C114_angle",
    "Artist.Downhill.C114_focal_spot",
    "Artist.Downhill.C114_focal_spot_cylinder",
    "Artist.Downhill.C114_around_rises"
   ],
   "note": "All six losses.  For receivers around more than half of the circle C114_around_rises shows that the focal spot loss rises at first."
  },
  {
   "property": "C115",
   "status": "proved",
   "theorems": [
    "Artist.Geodesy.C115_accuracy",
    "Artist.Geodesy.C115_height",
    "Artist.Geodesy.C115_place",
    "Artist.Geodesy.C115_equator"
   ],
   "note": "accuracy bound for every point up to 60 degrees latitude and 10 km distance, sign of the height error, exact error on the equator; real arithmetic"
  },
  {
   "property": "C116",
   "status": "proved",
   "theorems": [
    "Artist.Kinematics.C116_normals",
    "Artist.Kinematics.C116_unique",
    "Artist.Kinematics.C116_deviations",
    "Artist.Kinematics.C116_redundant",
    "Artist.Kinematics.C116_turned_over"
   ],
   "note": "exactly what four normals determine, the excluded second candidate, the redundant pair (second axis tilt east / initial angle of the first actuator)"
  },
  {
   "property": "C117",
   "status": "proved",
   "theorems": [
    "Artist.Sampling.C117_local",
    "Artist.Sampling.C117_acts",
    "Artist.Sampling.C117_determined",
    "Artist.Sampling.C117_mirror",
    "Artist.Sampling.C117_hidden"
   ],
   "note": "locality, positive influence, injectivity of sampling on fine grids for whole mirrors, and hidden deformations on coarse grids"
  },
  {
   "property": "C118",
   "status": "partial",
   "theorems": [
    "Artist.Grazing.C118_steady_partial",
    "Artist.Grazing.C118_five_partial",
    "Artist.Grazing.C118_jump"
   ],
   "note": "C118_steady_partial: as long as the filter returns the mirrors whose box is hit, the blocked part of every ray of a batch is a continuous function of whatever moves mirrors and rays, except where a ray only just meets a box, runs along a mirror, or a mirror has no area; any number of rays and mirrors. C118_five_partial: this for the filter of the library and up to five mirrors. False without the condition on grazing rays (C118_jump): the soft edge of the mask is cut off by the sharp edge of the filter; a mirror that moves sideways into a ray blocks nothing and then, at once, more than half of it."
  },
  {
   "property": "C119",
   "status": "proved",
   "theorems": [
    "Artist.Pointing.C119_mirror",
    "Artist.Pointing.C119_reflection",
    "Artist.Pointing.C119_rays",
    "Artist.Pointing.C119_target",
    "Artist.Pointing.C119_linear",
    "Artist.Pointing.C119_linear_everywhere",
    "Artist.Pointing.C119_doubled"
   ],
   "note": "C119_mirror: joint errors e1, e2 turn every direction of the mirror by at most e1 + e2 and move its points by at most these angles times their distance from the joints. C119_reflection: the error of a normal is at most doubled, that of the sun kept. C119_rays: ray by ray for a whole heliostat. C119_target: where the light arrives on a plane. C119_linear, C119_linear_everywhere: from motors to joints for linear actuators. C119_doubled: no smaller factor than two will do. Reals; lengths of differences of unit vectors, which are at most the angles."
  },
  {
   "property": "C120",
   "status": "proved",
   "theorems": [
    "Artist.Resolution.C120_spread",
    "Artist.Resolution.C120_measurement",
    "Artist.Resolution.C120_limit",
    "Artist.Resolution.C120_region"
   ],
   "note": "Planar target areas; exact reals; NaN of degenerate blocking rectangles not covered. C120_spread (the upper bound is attained in the example), C120_measurement, C120_limit, C120_region."
  },
  {
   "property": "C121",
   "status": "proved",
   "theorems": [
    "Artist.FineMirror.C121_smooth",
    "Artist.FineMirror.C121_image",
    "Artist.FineMirror.C121_crease"
   ],
   "note": "C121_smooth: continuity of points (degree one on) and normals (degree two on) across all knots, by induction over the recursion of the basis functions. C121_image: convergence of every pixel with the limit given as an integral over the parameters that the program samples (the border of 1e-7 is left out by the program). C121_crease: normals of degree one jump. Rays that meet the edge of the target are excluded; blocking is not considered."
  },
  {
   "property": "C122",
   "status": "partial",
   "theorems": [
    "Artist.Spread.C122_even_partial",
    "Artist.Spread.C122_border",
    "Artist.Spread.C122_middle",
    "Artist.Spread.C122_knots",
    "Artist.Spread.C122_default_refuted"
   ],
   "note": "The claim is false for the default settings (C122_default_refuted). C122_even_partial: where it holds. C122_border and C122_middle: exactly how far it fails at the border (limit) and in the middle (closed form), for all degrees and numbers of control points. C122_knots: the placement of control points for which it holds always. Between border and middle no closed form is given."
  },
  {
   "property": "C123",
   "status": "proved",
   "theorems": [
    "Artist.ManyRays.C123_image",
    "Artist.ManyRays.C123_unbiased",
    "Artist.ManyRays.C123_variance",
    "Artist.ManyRays.C123_probability",
    "Artist.ManyRays.C123_points",
    "Artist.ManyRays.C123_converges",
    "Artist.ManyRays.C123_blocking",
    "Artist.ManyRays.C123_same_rows",
    "Artist.ManyRays.C123_sun"
   ],
   "note": "Measurability of the whole chain from distortions to pixels (both kinds of targets and the soft mask) is proved; then the strong law of large numbers and the inequality of Chebyshev apply. That the numbers of torch are independent is an assumption; C123_sun shows a probability space that meets it."
  },
  {
   "property": "C124",
   "status": "proved",
   "theorems": [
    "Artist.Blur.C124_edge",
    "Artist.Blur.C124_vertical",
    "Artist.Blur.C124_expected",
    "Artist.Blur.C124_probability",
    "Artist.Blur.C124_sun"
   ],
   "note": "Rotations by the distortions are real analytic, so that each of the four lines of the edge is met on a null set of distortions; dominated convergence gives continuity of the average in the surface point; Riemann sums (C121) and the variance bound of C123 do the rest. Plane targets without blocking."
  },
  {
   "property": "C125",
   "status": "proved",
   "theorems": [
    "Artist.PointSun.C125_image",
    "Artist.PointSun.C125_expected",
    "Artist.PointSun.C125_probability",
    "Artist.PointSun.C125_sun",
    "Artist.PointSun.C125_edge"
   ],
   "note": "Continuity of what a ray brings at zero distortion (from C108, C112 and the soft mask), boundedness (C65), measurability (C123) and Chebyshev. C125_edge shows that rays at an edge must be excluded."
  },
  {
   "property": "C126",
   "status": "proved",
   "theorems": [
    "Artist.RoundedLanding.C126_lands",
    "Artist.RoundedLanding.C126_misses",
    "Artist.RoundedLanding.C126_behind",
    "Artist.RoundedLanding.C126_image",
    "Artist.RoundedLanding.C126_float32",
    "Artist.RoundedLanding.C126_edge"
   ],
   "note": "Rounded model of the intersection with plane targets: error bounds for column, row, distance and intensity, agreement of the decisions away from the edges, the image, numbers for float32, and a counterexample at the edge. Cylinders are not covered."
  },
  {
   "property": "C127",
   "status": "proved",
   "theorems": [
    "Artist.ManyRays.C127_pixel_loss",
    "Artist.ManyRays.C127_floor",
    "Artist.ManyRays.C127_ranking",
    "Artist.ManyRays.C127_spot",
    "Artist.ManyRays.C127_metres",
    "Artist.ManyRays.C127_spot_probability",
    "Artist.ManyRays.C127_converges",
    "Artist.ManyRays.C127_too_few"
   ],
   "note": "Bias of the pixel loss (exact formula), floor and ranking, a scene where few rays rank wrongly, stability of the focal spot in pixels and metres, probability bound and almost sure convergence of focal spot, pixel loss and Kullback-Leibler loss. The randomness of the generator is assumed (rows identically distributed and pairwise independent)."
  },
  {
   "property": "C128",
   "status": "proved",
   "theorems": [
    "Artist.Margin.C128_ray",
    "Artist.Margin.C128_power",
    "Artist.Margin.C128_dark",
    "Artist.Margin.C128_focal_spot",
    "Artist.Margin.C128_pointing",
    "Artist.Margin.C128_surface",
    "Artist.Margin.C128_edge"
   ],
   "note": "Ray by ray and for whole bitmaps: no light lost, power, dark targets, focal spot; for errors of joints, sun and surface; a counterexample at the edge. Plane targets without blocking."
  },
  {
   "property": "C129",
   "status": "proved",
   "theorems": [
    "Artist.RoundedRay.C129_sum",
    "Artist.RoundedRay.C129_reflect",
    "Artist.RoundedRay.C129_direction",
    "Artist.RoundedRay.C129_lands",
    "Artist.RoundedRay.C129_misses",
    "Artist.RoundedRay.C129_image",
    "Artist.RoundedRay.C129_float32"
   ],
   "note": "Sums of products in any order with or without fused operations; reflection, scattering, landing, missing and the whole image; numbers for float32. Cosine and sine are assumed right up to two units of rounding; TF32 and overflow are not modelled; plane targets."
  },
  {
   "property": "C130",
   "status": "proved",
   "theorems": [
    "Artist.RoundedKinematics.C130_orientation",
    "Artist.RoundedKinematics.C130_normal",
    "Artist.RoundedKinematics.C130_point",
    "Artist.RoundedKinematics.C130_motors",
    "Artist.RoundedKinematics.C130_ray",
    "Artist.RoundedKinematics.C130_float32"
   ],
   "note": "Orientations, normals, points, homogeneous components and ray directions; numbers for float32. The joint angles are taken as given: rounding inside the actuators is not modelled; cosine and sine are assumed right up to two units of rounding."
  },
  {
   "property": "C131",
   "status": "proved",
   "theorems": [
    "Artist.RoundedChain.C131_lands",
    "Artist.RoundedChain.C131_misses",
    "Artist.RoundedChain.C131_behind",
    "Artist.RoundedChain.C131_float32"
   ],
   "note": "Landing, missing and coming from behind, with numbers for float32; composition of C130, C129 and C126. Joint angles taken as given; plane targets; no blocking."
  },
  {
   "property": "C132",
   "status": "proved",
   "theorems": [
    "Artist.RoundedActuator.C132_absolute",
    "Artist.RoundedActuator.C132_absolute_anywhere",
    "Artist.RoundedActuator.C132_joint",
    "Artist.RoundedActuator.C132_orientation",
    "Artist.RoundedActuator.C132_float32"
   ],
   "note": "Softplus and arc cosine of the library are assumed to be right to a few units; overflow is not modelled."
  },
  {
   "property": "C133",
   "status": "proved",
   "theorems": [
    "Artist.RoundedChain.C133_image",
    "Artist.RoundedChain.C133_power",
    "Artist.RoundedChain.C133_float32"
   ],
   "note": "Rays that rounding could move across an edge of the target are excluded; overflow is not modelled; plane targets only."
  },
  {
   "property": "C134",
   "status": "proved",
   "theorems": [
    "Artist.Field.C134_loads",
    "Artist.Field.C134_facets_differ",
    "Artist.Field.C134_uniform",
    "Artist.Field.C134_generated",
    "Artist.Field.C134_cases",
    "Artist.Field.C134_unchecked"
   ],
   "note": "Shapes of positions, orientations, deviations and actuator parameters are taken to be equal within a group, as the parsers produce them."
  },
  {
   "property": "C135",
   "status": "proved",
   "theorems": [
    "Artist.AimHistory.C135_entries",
    "Artist.AimHistory.C135_terms",
    "Artist.AimHistory.C135_sign",
    "Artist.AimHistory.C135_first_entry"
   ],
   "note": "For the KL-divergence loss, the only one for which the optimisation runs (C59). Exact arithmetic; if the first epoch has no power on the target the entries are infinite or NaN."
  },
  {
   "property": "C136",
   "status": "proved",
   "theorems": [
    "Artist.RoundedMotors.C136_pose",
    "Artist.RoundedMotors.C136_lands",
    "Artist.RoundedMotors.C136_misses",
    "Artist.RoundedMotors.C136_float32"
   ],
   "note": "Linear actuators and plane targets. Rays that could move across an edge of the target are excluded; overflow is not modelled."
  },
  {
   "property": "C137",
   "status": "proved",
   "theorems": [
    "Artist.Device.C137_given",
    "Artist.Device.C137_default",
    "Artist.Device.C137_alone",
    "Artist.Device.C137_joined",
    "Artist.Device.C137_joined_other",
    "Artist.Device.C137_no_gpu",
    "Artist.Device.C137_consecutive",
    "Artist.Device.C137_in_turn",
    "Artist.Device.C137_omitted",
    "Artist.Device.C137_omitted_alone"
   ],
   "note": "What the operating system and PyTorch report is a parameter; exceptions after the group has been joined are treated in C03."
  },
  {
   "property": "C138",
   "status": "proved",
   "theorems": [
    "Artist.RoundedMotors.C138_behind",
    "Artist.RoundedMotors.C138_ray",
    "Artist.RoundedMotors.C138_power",
    "Artist.RoundedMotors.C138_float32"
   ],
   "note": "Linear actuators and plane targets. Rays that could move across an edge of the target or turn from front to back are excluded; overflow is not modelled."
  }
 ]
}