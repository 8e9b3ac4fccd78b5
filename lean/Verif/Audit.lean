import Verif.Props.Actuators
import Verif.Props.Aim
import Verif.Props.AimFlux
import Verif.Props.AimGradient
import Verif.Props.AimHistory
import Verif.Props.Aiming
import Verif.Props.AlignSurface
import Verif.Props.Alignment
import Verif.Props.AlignmentLoss
import Verif.Props.Balance
import Verif.Props.Bitmap
import Verif.Props.Blockers
import Verif.Props.Blur
import Verif.Props.Collective
import Verif.Props.Converge
import Verif.Props.Crop
import Verif.Props.CylinderImage
import Verif.Props.Deflectometry
import Verif.Props.Derivatives
import Verif.Props.Device
import Verif.Props.Downhill
import Verif.Props.Env
import Verif.Props.FacetOrder
import Verif.Props.Field
import Verif.Props.FieldShapes
import Verif.Props.FineMirror
import Verif.Props.Fit
import Verif.Props.Flatten
import Verif.Props.Flux
import Verif.Props.FocalSpotLoss
import Verif.Props.Geo
import Verif.Props.Geodesy
import Verif.Props.Grazing
import Verif.Props.Group
import Verif.Props.GroupFlux
import Verif.Props.Identify
import Verif.Props.Intersect
import Verif.Props.KinConfig
import Verif.Props.Kinematics
import Verif.Props.LBVH
import Verif.Props.LBVHAny
import Verif.Props.LBVHExact
import Verif.Props.LightSources
import Verif.Props.Lock
import Verif.Props.Lockstep
import Verif.Props.Logging
import Verif.Props.Loop
import Verif.Props.Losses
import Verif.Props.ManyRays
import Verif.Props.Mapping
import Verif.Props.Margin
import Verif.Props.Mirrored
import Verif.Props.MirroredMore
import Verif.Props.Morton
import Verif.Props.MotorImage
import Verif.Props.NanGradient
import Verif.Props.Neighbours
import Verif.Props.NoisyLoss
import Verif.Props.Nurbs
import Verif.Props.NurbsBatch
import Verif.Props.NurbsSpans
import Verif.Props.PaintData
import Verif.Props.PaintHeliostat
import Verif.Props.PaintTower
import Verif.Props.PixelLimit
import Verif.Props.PointSun
import Verif.Props.Pointing
import Verif.Props.Regularizers
import Verif.Props.Report
import Verif.Props.Requests
import Verif.Props.Resolution
import Verif.Props.Result
import Verif.Props.Rotations
import Verif.Props.Rounded
import Verif.Props.RoundedActuator
import Verif.Props.RoundedChain
import Verif.Props.RoundedFilter
import Verif.Props.RoundedImage
import Verif.Props.RoundedKinematics
import Verif.Props.RoundedLanding
import Verif.Props.RoundedMotors
import Verif.Props.RoundedMotorsImage
import Verif.Props.RoundedRay
import Verif.Props.RoundedSpan
import Verif.Props.Sampler
import Verif.Props.Sampling
import Verif.Props.SaveScenario
import Verif.Props.Schedule
import Verif.Props.Shared
import Verif.Props.SoftMask
import Verif.Props.Splat
import Verif.Props.SplatGradient
import Verif.Props.Spread
import Verif.Props.Stral
import Verif.Props.SurfaceImage
import Verif.Props.Surfaces
import Verif.Props.Tower
import Verif.Props.TowerFile
import Verif.Props.Trace
import Verif.Props.TraceShapes
import Verif.Props.Tracking
import Verif.Props.Training
import Verif.Props.Transforms
import Verif.Props.Translation
import Verif.Props.Validation
/-! Prints the axioms of every property theorem (generated list). -/
#print axioms Artist.Env.C01_distribution_complete
#print axioms Artist.Env.C01_flat_balanced
#print axioms Artist.Env.C01_nested_balanced
#print axioms Artist.Env.C01_degenerate
#print axioms Artist.Env.C02_inverse_table
#print axioms Artist.Env.C02_group_ranks
#print axioms Artist.Env.C02_group_ranks_bijective
#print axioms Artist.Env.C02_default
#print axioms Artist.Env.C02_setup_consistent
#print axioms Artist.Env.C03_cleanup_partial
#print axioms Artist.Env.C03_cleanup_error_swallowed
#print axioms Artist.Env.C03_leak_iff
#print axioms Artist.Env.C03_leak_counterexample
#print axioms Artist.Sampler.C04_disjoint
#print axioms Artist.Sampler.C04_cover_iff
#print axioms Artist.Sampler.C04_exactly_once_partial
#print axioms Artist.Sampler.C04_tracer_uniform
#print axioms Artist.Sampler.C04_lost_sample
#print axioms Artist.Sampler.C05_blocks_together
#print axioms Artist.Sampler.C05_owned_heliostats
#print axioms Artist.Sampler.C05_owner_unique
#print axioms Artist.SoftMask.C06_blocking_depends_on_batch
#print axioms Artist.Trace.C06_rows_partial
#print axioms Artist.Trace.C06_batch_size_irrelevant_partial
#print axioms Artist.Trace.C06_zero_batch_size
#print axioms Artist.Trace.C07_per_target
#print axioms Artist.Trace.C07_conservation
#print axioms Artist.Splat.C08_pixel
#print axioms Artist.Splat.C08_energy
#print axioms Artist.Splat.C08_outside
#print axioms Artist.Splat.C08_nonneg
#print axioms Artist.Splat.C08_additive
#print axioms Artist.Splat.C08_order
#print axioms Artist.Splat.C08_centroid
#print axioms Artist.Splat.C08_last_column_dropped
#print axioms Artist.Splat.C08_negative_coordinate
#print axioms Artist.LBVH.C09_no_false_blockers
#print axioms Artist.LBVH.C09_reported_iff_partial
#print axioms Artist.LBVH.C09_exact_upto_five_partial
#print axioms Artist.LBVH.C09_exact_pow2_partial
#print axioms Artist.LBVH.C09_exact_iff_all_reachable
#print axioms Artist.LBVH.C09_filter_drops_blockers
#print axioms Artist.LBVH.C09_reported_iff
#print axioms Artist.LBVH.C09_exact_iff
#print axioms Artist.LBVH.C09_exact_iff_groups
#print axioms Artist.LBVH.C09_field_exact_iff_groups
#print axioms Artist.LBVH.C09_loses_blockers_at_every_size
#print axioms Artist.LBVH.C10_terminates_partial
#print axioms Artist.LBVH.C10_depth_partial
#print axioms Artist.LBVH.C10_hangs_coinciding
#print axioms Artist.LBVH.C10_empty_field
#print axioms Artist.LBVH.C10_hangs_cluster
#print axioms Artist.LBVH.C10_ends_iff_no_loop
#print axioms Artist.LBVH.C10_crowded_cell
#print axioms Artist.LBVH.C10_crowded_but_ends
#print axioms Artist.GroupFlux.C100_balance_partial
#print axioms Artist.GroupFlux.C100_caught_partial
#print axioms Artist.GroupFlux.C100_more_than_caught
#print axioms Artist.Requests.C101_requests_partial
#print axioms Artist.Requests.C101_sum_partial
#print axioms Artist.Requests.C101_order_partial
#print axioms Artist.Requests.C101_complete_iff
#print axioms Artist.Requests.C101_other_groups
#print axioms Artist.Requests.C101_shared_raises
#print axioms Artist.Requests.C101_shared_alone_partial
#print axioms Artist.AimGradient.C102_intercept_ineffective
#print axioms Artist.AimGradient.C102_intercept_same
#print axioms Artist.AimGradient.C102_integral_acts
#print axioms Artist.AimGradient.C102_local_acts
#print axioms Artist.AimGradient.C102_integral_matters
#print axioms Artist.Rounded.C103_float32
#print axioms Artist.Rounded.C103_pixel
#print axioms Artist.Rounded.C103_total
#print axioms Artist.Rounded.C103_sum
#print axioms Artist.Rounded.C103_blocked
#print axioms Artist.Rounded.C103_intensity
#print axioms Artist.Rounded.C103_stagnates
#print axioms Artist.RoundedFilter.C104_codes
#print axioms Artist.RoundedFilter.C104_tree
#print axioms Artist.RoundedFilter.C104_no_false_blockers
#print axioms Artist.RoundedFilter.C104_clear_hit
#print axioms Artist.RoundedFilter.C104_near_hit
#print axioms Artist.RoundedFilter.C104_upto_five
#print axioms Artist.RoundedFilter.C104_float32
#print axioms Artist.RoundedFilter.C104_edge_missed
#print axioms Artist.Splat.C105_shift
#print axioms Artist.Splat.C105_same_entries
#print axioms Artist.Splat.C105_border
#print axioms Artist.Splat.C105_outside
#print axioms Artist.Splat.C105_total_flux
#print axioms Artist.Splat.C105_gradient
#print axioms Artist.Splat.C105_partial_derivatives
#print axioms Artist.Splat.C105_on_line
#print axioms Artist.Splat.C105_line_kink
#print axioms Artist.NanGradient.C106_undefined_iff
#print axioms Artist.NanGradient.C106_defined
#print axioms Artist.NanGradient.C106_gradient_partial
#print axioms Artist.NanGradient.C106_silenced
#print axioms Artist.NanGradient.C106_no_influence_iff
#print axioms Artist.NanGradient.C106_other_heliostats
#print axioms Artist.NanGradient.C106_false
#print axioms Artist.NanGradient.C106_float32
#print axioms Artist.RoundedSpan.C107_span
#print axioms Artist.RoundedSpan.C107_shares
#print axioms Artist.RoundedSpan.C107_surface
#print axioms Artist.RoundedSpan.C107_in_range
#print axioms Artist.RoundedSpan.C107_float32
#print axioms Artist.RoundedSpan.C107_next_span
#print axioms Artist.MotorImage.C108_continuous
#print axioms Artist.MotorImage.C108_gradient
#print axioms Artist.MotorImage.C108_actuators
#print axioms Artist.MotorImage.C108_softplus
#print axioms Artist.MotorImage.C108_actuators_differentiable
#print axioms Artist.MotorImage.C108_mask
#print axioms Artist.MotorImage.C108_motor_position
#print axioms Artist.MotorImage.C108_motors
#print axioms Artist.MotorImage.C108_edge
#print axioms Artist.SurfaceImage.C109_affine
#print axioms Artist.SurfaceImage.C109_displacement
#print axioms Artist.SurfaceImage.C109_image
#print axioms Artist.SurfaceImage.C109_gradient
#print axioms Artist.SurfaceImage.C109_jump
#print axioms Artist.LBVH.C11_leaf_box_is_bounding
#print axioms Artist.LBVH.C11_one_leaf_each
#print axioms Artist.LBVH.C11_leaf_boxes
#print axioms Artist.LBVH.C11_inner_boxes
#print axioms Artist.LBVH.C11_hit_ancestors
#print axioms Artist.Converge.C110_inverse_sharp
#print axioms Artist.Converge.C110_lever
#print axioms Artist.Converge.C110_step
#print axioms Artist.Converge.C110_direction
#print axioms Artist.Converge.C110_contraction
#print axioms Artist.Converge.C110_settles
#print axioms Artist.Converge.C110_two_iterations
#print axioms Artist.Converge.C110_loss
#print axioms Artist.Converge.C110_converges
#print axioms Artist.Converge.C110_start
#print axioms Artist.Converge.C110_focal_spot
#print axioms Artist.Tracking.C111_inverse
#print axioms Artist.Tracking.C111_iterations
#print axioms Artist.Tracking.C111_same_iteration
#print axioms Artist.Tracking.C111_align_partial
#print axioms Artist.Tracking.C111_image_partial
#print axioms Artist.Tracking.C111_linear
#print axioms Artist.Tracking.C111_ideal
#print axioms Artist.Tracking.C111_upwards
#print axioms Artist.Tracking.C111_half_turn
#print axioms Artist.Tracking.C111_limit
#print axioms Artist.CylinderImage.C112_continuous_partial
#print axioms Artist.CylinderImage.C112_gradient_partial
#print axioms Artist.CylinderImage.C112_outline
#print axioms Artist.CylinderImage.C112_seam
#print axioms Artist.Nurbs.C113_derivatives
#print axioms Artist.Nurbs.C113_unique
#print axioms Artist.Nurbs.C113_interior
#print axioms Artist.Nurbs.C113_orders
#print axioms Artist.Nurbs.C113_sum
#print axioms Artist.Downhill.C114_vector
#print axioms Artist.Downhill.C114_pixel
#print axioms Artist.Downhill.C114_kl
#print axioms Artist.Downhill.C114_cosine
#print axioms Artist.Downhill.C114_angle
#print axioms Artist.Downhill.C114_focal_spot
#print axioms Artist.Downhill.C114_focal_spot_cylinder
#print axioms Artist.Downhill.C114_around_rises
#print axioms Artist.Geodesy.C115_accuracy
#print axioms Artist.Geodesy.C115_height
#print axioms Artist.Geodesy.C115_place
#print axioms Artist.Geodesy.C115_equator
#print axioms Artist.Kinematics.C116_normals
#print axioms Artist.Kinematics.C116_unique
#print axioms Artist.Kinematics.C116_deviations
#print axioms Artist.Kinematics.C116_redundant
#print axioms Artist.Kinematics.C116_turned_over
#print axioms Artist.Sampling.C117_local
#print axioms Artist.Sampling.C117_acts
#print axioms Artist.Sampling.C117_determined
#print axioms Artist.Sampling.C117_mirror
#print axioms Artist.Sampling.C117_hidden
#print axioms Artist.Grazing.C118_steady_partial
#print axioms Artist.Grazing.C118_five_partial
#print axioms Artist.Grazing.C118_jump
#print axioms Artist.Pointing.C119_mirror
#print axioms Artist.Pointing.C119_reflection
#print axioms Artist.Pointing.C119_rays
#print axioms Artist.Pointing.C119_target
#print axioms Artist.Pointing.C119_linear
#print axioms Artist.Pointing.C119_linear_everywhere
#print axioms Artist.Pointing.C119_doubled
#print axioms Artist.Morton.C12_expand_rejects
#print axioms Artist.Morton.C12_expand_bits
#print axioms Artist.Morton.C12_quantised_range
#print axioms Artist.Morton.C12_codes_lossless
#print axioms Artist.Morton.C12_same_code_iff_same_cell
#print axioms Artist.Morton.C12_codes_monotone
#print axioms Artist.Resolution.C120_spread
#print axioms Artist.Resolution.C120_measurement
#print axioms Artist.Resolution.C120_limit
#print axioms Artist.Resolution.C120_region
#print axioms Artist.FineMirror.C121_smooth
#print axioms Artist.FineMirror.C121_image
#print axioms Artist.FineMirror.C121_crease
#print axioms Artist.Spread.C122_even_partial
#print axioms Artist.Spread.C122_border
#print axioms Artist.Spread.C122_middle
#print axioms Artist.Spread.C122_knots
#print axioms Artist.Spread.C122_default_refuted
#print axioms Artist.ManyRays.C123_image
#print axioms Artist.ManyRays.C123_unbiased
#print axioms Artist.ManyRays.C123_variance
#print axioms Artist.ManyRays.C123_probability
#print axioms Artist.ManyRays.C123_points
#print axioms Artist.ManyRays.C123_converges
#print axioms Artist.ManyRays.C123_blocking
#print axioms Artist.ManyRays.C123_same_rows
#print axioms Artist.ManyRays.C123_sun
#print axioms Artist.Blur.C124_edge
#print axioms Artist.Blur.C124_vertical
#print axioms Artist.Blur.C124_expected
#print axioms Artist.Blur.C124_probability
#print axioms Artist.Blur.C124_sun
#print axioms Artist.PointSun.C125_image
#print axioms Artist.PointSun.C125_expected
#print axioms Artist.PointSun.C125_probability
#print axioms Artist.PointSun.C125_sun
#print axioms Artist.PointSun.C125_edge
#print axioms Artist.RoundedLanding.C126_lands
#print axioms Artist.RoundedLanding.C126_misses
#print axioms Artist.RoundedLanding.C126_behind
#print axioms Artist.RoundedLanding.C126_image
#print axioms Artist.RoundedLanding.C126_float32
#print axioms Artist.RoundedLanding.C126_edge
#print axioms Artist.ManyRays.C127_pixel_loss
#print axioms Artist.ManyRays.C127_floor
#print axioms Artist.ManyRays.C127_ranking
#print axioms Artist.ManyRays.C127_spot
#print axioms Artist.ManyRays.C127_metres
#print axioms Artist.ManyRays.C127_spot_probability
#print axioms Artist.ManyRays.C127_converges
#print axioms Artist.ManyRays.C127_too_few
#print axioms Artist.Margin.C128_ray
#print axioms Artist.Margin.C128_power
#print axioms Artist.Margin.C128_dark
#print axioms Artist.Margin.C128_focal_spot
#print axioms Artist.Margin.C128_pointing
#print axioms Artist.Margin.C128_surface
#print axioms Artist.Margin.C128_edge
#print axioms Artist.RoundedRay.C129_sum
#print axioms Artist.RoundedRay.C129_reflect
#print axioms Artist.RoundedRay.C129_direction
#print axioms Artist.RoundedRay.C129_lands
#print axioms Artist.RoundedRay.C129_misses
#print axioms Artist.RoundedRay.C129_image
#print axioms Artist.RoundedRay.C129_float32
#print axioms Artist.Morton.C13_lcp_counts_leading_bits
#print axioms Artist.Morton.C13_lcp_outside
#print axioms Artist.Morton.C13_lcp_symm
#print axioms Artist.Morton.C13_lcp_ultrametric
#print axioms Artist.RoundedKinematics.C130_orientation
#print axioms Artist.RoundedKinematics.C130_normal
#print axioms Artist.RoundedKinematics.C130_point
#print axioms Artist.RoundedKinematics.C130_motors
#print axioms Artist.RoundedKinematics.C130_ray
#print axioms Artist.RoundedKinematics.C130_float32
#print axioms Artist.RoundedChain.C131_lands
#print axioms Artist.RoundedChain.C131_misses
#print axioms Artist.RoundedChain.C131_behind
#print axioms Artist.RoundedChain.C131_float32
#print axioms Artist.RoundedActuator.C132_absolute
#print axioms Artist.RoundedActuator.C132_absolute_anywhere
#print axioms Artist.RoundedActuator.C132_joint
#print axioms Artist.RoundedActuator.C132_orientation
#print axioms Artist.RoundedActuator.C132_float32
#print axioms Artist.RoundedChain.C133_image
#print axioms Artist.RoundedChain.C133_power
#print axioms Artist.RoundedChain.C133_float32
#print axioms Artist.Field.C134_loads
#print axioms Artist.Field.C134_facets_differ
#print axioms Artist.Field.C134_uniform
#print axioms Artist.Field.C134_generated
#print axioms Artist.Field.C134_cases
#print axioms Artist.Field.C134_unchecked
#print axioms Artist.AimHistory.C135_entries
#print axioms Artist.AimHistory.C135_terms
#print axioms Artist.AimHistory.C135_sign
#print axioms Artist.AimHistory.C135_first_entry
#print axioms Artist.RoundedMotors.C136_pose
#print axioms Artist.RoundedMotors.C136_lands
#print axioms Artist.RoundedMotors.C136_misses
#print axioms Artist.RoundedMotors.C136_float32
#print axioms Artist.Device.C137_given
#print axioms Artist.Device.C137_default
#print axioms Artist.Device.C137_alone
#print axioms Artist.Device.C137_joined
#print axioms Artist.Device.C137_joined_other
#print axioms Artist.Device.C137_no_gpu
#print axioms Artist.Device.C137_consecutive
#print axioms Artist.Device.C137_in_turn
#print axioms Artist.Device.C137_omitted
#print axioms Artist.Device.C137_omitted_alone
#print axioms Artist.RoundedMotors.C138_behind
#print axioms Artist.RoundedMotors.C138_ray
#print axioms Artist.RoundedMotors.C138_power
#print axioms Artist.RoundedMotors.C138_float32
#print axioms Artist.LBVH.C14_slab_exact
#print axioms Artist.LBVH.C14_line_hits_iff
#print axioms Artist.LBVH.C14_hit_test
#print axioms Artist.LBVH.C14_enlarge
#print axioms Artist.SoftMask.C15_range
#print axioms Artist.SoftMask.C15_no_blockers
#print axioms Artist.SoftMask.C15_order
#print axioms Artist.SoftMask.C15_more_blockers
#print axioms Artist.SoftMask.C15_nan_iff
#print axioms Artist.SoftMask.C15_intensity
#print axioms Artist.SoftMask.C15_hit_blocks
#print axioms Artist.SoftMask.C15_miss_passes
#print axioms Artist.Intersect.C16_isometry
#print axioms Artist.Intersect.C16_involution
#print axioms Artist.Intersect.C16_components
#print axioms Artist.Intersect.C16_direction
#print axioms Artist.Intersect.C16_unique
#print axioms Artist.Intersect.C17_hit_partial
#print axioms Artist.Intersect.C17_intensity
#print axioms Artist.Intersect.C17_coordinates_in_bitmap
#print axioms Artist.Intersect.C17_side_facing_target
#print axioms Artist.Intersect.C17_counts_ray_leaving_target
#print axioms Artist.Intersect.C18_on_surface
#print axioms Artist.Intersect.C18_bounds
#print axioms Artist.Intersect.C18_intensity
#print axioms Artist.Intersect.C18_column_partial
#print axioms Artist.Intersect.C18_middle_iff_north
#print axioms Artist.Intersect.C18_south_facing_lost
#print axioms Artist.Intersect.C18_lost_quadrant
#print axioms Artist.C19_rotations_rigid
#print axioms Artist.C19_rigid_meaning
#print axioms Artist.C19_compose
#print axioms Artist.C19_distortion_order
#print axioms Artist.C19_translation
#print axioms Artist.C19_translate_shapes
#print axioms Artist.C19_scatter
#print axioms Artist.C20_inverse
#print axioms Artist.C20_rigid
#print axioms Artist.C20_axes
#print axioms Artist.C20_parallel_collapses
#print axioms Artist.Nurbs.C21_cox_de_boor
#print axioms Artist.Nurbs.C21_partition_of_unity
#print axioms Artist.Nurbs.C21_derivatives_sum
#print axioms Artist.Nurbs.C21_derivatives
#print axioms Artist.Nurbs.C22_knots
#print axioms Artist.Nurbs.C22_span
#print axioms Artist.Nurbs.C22_unique
#print axioms Artist.Nurbs.C22_end
#print axioms Artist.Nurbs.C23_surface
#print axioms Artist.Nurbs.C23_convex_hull
#print axioms Artist.Nurbs.C23_bounding_box
#print axioms Artist.Nurbs.C23_affine
#print axioms Artist.Nurbs.C23_flat
#print axioms Artist.Nurbs.C23_first_corner
#print axioms Artist.Nurbs.C23_last_corner
#print axioms Artist.Nurbs.C23_end_fails
#print axioms Artist.Nurbs.C23_grid
#print axioms Artist.Nurbs.C23_normal
#print axioms Artist.Nurbs.C23_planar
#print axioms Artist.C24_rigid
#print axioms Artist.C24_preserves
#print axioms Artist.C24_surface_normal
#print axioms Artist.C24_reference
#print axioms Artist.C25_both_branches
#print axioms Artist.C25_angle_range
#print axioms Artist.C25_motors
#print axioms Artist.C25_ideal
#print axioms Artist.C25_reachable_iff
#print axioms Artist.C25_limits
#print axioms Artist.C26_mismatch
#print axioms Artist.C26_result
#print axioms Artist.C26_converged_partial
#print axioms Artist.C26_fixed_origin
#print axioms Artist.C26_no_iterations
#print axioms Artist.C27_parameters_positive
#print axioms Artist.C27_motor_round_trip
#print axioms Artist.C27_angle_round_trip
#print axioms Artist.C27_angle_bounded
#print axioms Artist.C27_monotone
#print axioms Artist.C27_strict
#print axioms Artist.C27_initial
#print axioms Artist.C27_ideal
#print axioms Artist.Group.C28_last_activation_partial
#print axioms Artist.Group.C28_fresh
#print axioms Artist.Group.C28_default_mask
#print axioms Artist.Group.C28_optimizable_partial
#print axioms Artist.Group.C28_optimizable_lost
#print axioms Artist.Group.C28_rejected_mask
#print axioms Artist.Mapping.C29_faithful
#print axioms Artist.Mapping.C29_invalid_rejected
#print axioms Artist.Mapping.C29_other_groups_ignored
#print axioms Artist.Mapping.C29_default
#print axioms Artist.Mapping.C29_negative_index_accepted
#print axioms Artist.Mapping.C29_repeated_name_fails
#print axioms Artist.Mapping.C29_accepted_light
#print axioms Artist.Mapping.C29_light_iff
#print axioms Artist.Mapping.C29_single_light_iff
#print axioms Artist.Tower.C30_index_maps
#print axioms Artist.Tower.C30_planar
#print axioms Artist.Tower.C30_cylindrical
#print axioms Artist.Tower.C30_out_of_range
#print axioms Artist.Tower.C30_negative_index
#print axioms Artist.Training.C31_fires_iff
#print axioms Artist.Training.C31_never_early
#print axioms Artist.Training.C31_steady_absolute_partial
#print axioms Artist.Training.C31_steady_relative_partial
#print axioms Artist.Training.C31_window_one
#print axioms Artist.Training.C31_zero_patience
#print axioms Artist.Training.C31_zero_window
#print axioms Artist.Training.C32_uniform_partial
#print axioms Artist.Training.C32_unequal_counts
#print axioms Artist.Training.C32_sample_lost
#print axioms Artist.Training.C32_index_error
#print axioms Artist.Training.C32_nothing_active
#print axioms Artist.Report.C33_owner_unique
#print axioms Artist.Report.C33_bookkeeping
#print axioms Artist.Report.C33_flat_partial
#print axioms Artist.Report.C33_synchronised
#print axioms Artist.Report.C33_idle_raises
#print axioms Artist.Report.C33_nested_raises
#print axioms Artist.Report.C33_alignment_other_processes
#print axioms Artist.Loop.C34_reconstruction_partial
#print axioms Artist.Loop.C34_aim_points_partial
#print axioms Artist.Loop.C34_fit_partial
#print axioms Artist.Loop.C34_epochs_determined
#print axioms Artist.Loop.C34_one_epoch_too_many
#print axioms Artist.Loop.C34_history_misses_last
#print axioms Artist.Loop.C34_fit_logged
#print axioms Artist.Loop.C34_aim_points_logged
#print axioms Artist.Loop.C34_zero_log_step
#print axioms Artist.Loop.C34_validated_epochs
#print axioms Artist.Loop.C34_last_epoch_not_validated
#print axioms Artist.Aim.C35_within_limits_iff
#print axioms Artist.Aim.C35_within_limits_partial
#print axioms Artist.Aim.C35_near_limit
#print axioms Artist.Aim.C35_never_within
#print axioms Artist.Aim.C36_multipliers_nonneg
#print axioms Artist.Aim.C36_penalties_nonneg
#print axioms Artist.Aim.C36_satisfied_not_penalised
#print axioms Artist.Aim.C36_multipliers_decrease
#print axioms Artist.Aim.C36_multiplier_is_slope
#print axioms Artist.Aim.C36_intercept_mean
#print axioms Artist.Aim.C36_decrease_reached
#print axioms Artist.Aim.C36_surface
#print axioms Artist.Aim.C36_surface_satisfied
#print axioms Artist.Losses.C37_vector
#print axioms Artist.Losses.C37_pixel
#print axioms Artist.Losses.C37_kl_nonneg
#print axioms Artist.Losses.C37_kl_zero_iff
#print axioms Artist.Losses.C37_kl_scale
#print axioms Artist.Losses.C37_kl_dark_negative
#print axioms Artist.Losses.C37_angle
#print axioms Artist.Losses.C37_angle_cos
#print axioms Artist.Losses.C37_cosine
#print axioms Artist.Losses.C38_scales
#print axioms Artist.Losses.C38_never_invariant
#print axioms Artist.Losses.C38_perfect_partial
#print axioms Artist.Bitmap.C39_inside
#print axioms Artist.Bitmap.C39_empty
#print axioms Artist.Bitmap.C39_mean
#print axioms Artist.Bitmap.C39_scaling
#print axioms Artist.Bitmap.C39_roundtrip_partial
#print axioms Artist.Bitmap.C39_tilted_displaced
#print axioms Artist.Bitmap.C39_focal_spot
#print axioms Artist.Bitmap.C39_cylinder_partial
#print axioms Artist.Regularizers.C40_nonneg
#print axioms Artist.Regularizers.C40_smoothness_zero_iff
#print axioms Artist.Regularizers.C40_ideal_zero_iff
#print axioms Artist.Regularizers.C40_shift_invariant
#print axioms Artist.Regularizers.C40_quadratic
#print axioms Artist.Lock.C41_locked
#print axioms Artist.Lock.C41_free
#print axioms Artist.Lock.C41_moves
#print axioms Artist.Lock.C41_outline
#print axioms Artist.Paint.C42_paired_partial
#print axioms Artist.Paint.C42_from_directory
#print axioms Artist.Paint.C42_duplicates
#print axioms Artist.Paint.C42_zero_is_unlimited
#print axioms Artist.Paint.C42_negative_raises
#print axioms Artist.Paint.C43_pairs
#print axioms Artist.Paint.C43_count_partial
#print axioms Artist.Paint.C43_present
#print axioms Artist.Paint.C43_zero_is_unlimited
#print axioms Artist.Field.C44_count_partial
#print axioms Artist.Field.C44_at_most_two
#print axioms Artist.Field.C44_mixed_raises
#print axioms Artist.Field.C44_empty_list
#print axioms Artist.Field.C44_same_name
#print axioms Artist.Flatten.C45_entries
#print axioms Artist.Flatten.C45_lookup
#print axioms Artist.Flatten.C45_recover
#print axioms Artist.Flatten.C45_conditions_needed
#print axioms Artist.Field.C46_same_partial
#print axioms Artist.Field.C46_contents
#print axioms Artist.Field.C46_degrees_shared
#print axioms Artist.Field.C46_degrees_wrong
#print axioms Artist.Field.C46_degrees_partial
#print axioms Artist.Field.C46_first_raises
#print axioms Artist.Field.C46_needs_other
#print axioms Artist.Geo.C47_length
#print axioms Artist.Geo.C47_zenith
#print axioms Artist.Geo.C47_compass
#print axioms Artist.Geo.C47_direction
#print axioms Artist.Geo.C47_periodic
#print axioms Artist.Geo.C47_units
#print axioms Artist.Geo.C47_incident
#print axioms Artist.Geo.C48_origin
#print axioms Artist.Geo.C48_signs
#print axioms Artist.Geo.C48_monotone
#print axioms Artist.Geo.C48_scale
#print axioms Artist.Geo.C48_ellipsoid
#print axioms Artist.Bitmap.C49_normalize
#print axioms Artist.Bitmap.C49_grid
#print axioms Artist.Bitmap.C50_range
#print axioms Artist.Bitmap.C50_symmetric
#print axioms Artist.Bitmap.C50_unimodal
#print axioms Artist.Bitmap.C50_plateau
#print axioms Artist.Bitmap.C50_zero
#print axioms Artist.Bitmap.C50_slope
#print axioms Artist.Bitmap.C50_rectangle
#print axioms Artist.Trace.C51_owner_first_group_partial
#print axioms Artist.Trace.C51_wrong_owner_second_group
#print axioms Artist.Trace.C51_never_own_primitive
#print axioms Artist.Trace.C51_repeated_activation_fails
#print axioms Artist.Trace.C51_surfaces
#print axioms Artist.Report.C52_own_measurements_partial
#print axioms Artist.Report.C52_nested_wrong
#print axioms Artist.Report.C52_nested_raises
#print axioms Artist.Paint.C53_single_kind
#print axioms Artist.Paint.C53_mixed_partial
#print axioms Artist.Paint.C53_duplicate_ids
#print axioms Artist.Paint.C53_one_kind_raises
#print axioms Artist.SoftMask.C54_corner_indices
#print axioms Artist.SoftMask.C54_rectangle
#print axioms Artist.SoftMask.C54_normal
#print axioms Artist.SoftMask.C54_rectangular_grid_fails
#print axioms Artist.SoftMask.C54_bounding_rectangle
#print axioms Artist.C55_east_up
#print axioms Artist.C55_north_partial
#print axioms Artist.C55_north_is_clockwise
#print axioms Artist.C56_loss_bounds_error
#print axioms Artist.C56_reflects_to_aim
#print axioms Artist.Nurbs.C57_single_facet_partial
#print axioms Artist.Nurbs.C57_facets_fail
#print axioms Artist.Nurbs.C57_wrong_shape
#print axioms Artist.Nurbs.C57_end_span
#print axioms Artist.Nurbs.C57_close_to_end
#print axioms Artist.Collective.C58_mixed
#print axioms Artist.Collective.C58_single_group_partial
#print axioms Artist.Collective.C58_other_groups_interfere
#print axioms Artist.Collective.C58_blocks_mixed
#print axioms Artist.Collective.C58_hang
#print axioms Artist.Collective.C58_reconstruction
#print axioms Artist.Collective.C58_reconstruction_alone
#print axioms Artist.Aim.C59_other_losses_raise
#print axioms Artist.Aim.C59_kl_partial
#print axioms Artist.Collective.C60_synchronised
#print axioms Artist.Collective.C60_alignment_disagrees
#print axioms Artist.Field.C61_sorted
#print axioms Artist.Field.C61_order_partial
#print axioms Artist.Field.C61_swapped
#print axioms Artist.Surfaces.C62_flat_partial
#print axioms Artist.Surfaces.C62_curved
#print axioms Artist.Surfaces.C62_fitted_moves
#print axioms Artist.Surfaces.C62_from_points
#print axioms Artist.Surfaces.C62_fitted_twice
#print axioms Artist.Surfaces.C62_not_kept
#print axioms Artist.Surfaces.C62_non_square
#print axioms Artist.Surfaces.C63_forgets
#print axioms Artist.Surfaces.C63_ideal_partial
#print axioms Artist.Surfaces.C63_not_kept
#print axioms Artist.Surfaces.C63_ideal_points_move
#print axioms Artist.Crop.C64_window
#print axioms Artist.Crop.C64_metres
#print axioms Artist.Crop.C64_bounds
#print axioms Artist.Crop.C64_center_inside
#print axioms Artist.Crop.C64_identity
#print axioms Artist.Crop.C64_size
#print axioms Artist.C65_target
#print axioms Artist.C65_planar_total
#print axioms Artist.C65_bound
#print axioms Artist.C65_proportional
#print axioms Artist.C65_blocking
#print axioms Artist.C66_fractions_partial
#print axioms Artist.C66_ranges
#print axioms Artist.C66_blocking_invisible
#print axioms Artist.C66_documented_order
#print axioms Artist.C66_no_gradient
#print axioms Artist.Rounded.C66_float_dark
#print axioms Artist.Rounded.C66_float_counted
#print axioms Artist.C67_outline_partial
#print axioms Artist.C67_right_iff
#print axioms Artist.C67_too_much
#print axioms Artist.AimFlux.C68_flat_partial
#print axioms Artist.AimFlux.C68_single
#print axioms Artist.AimFlux.C68_same_flux_partial
#print axioms Artist.AimFlux.C68_nested_raises
#print axioms Artist.AimFlux.C68_stale_blocking
#print axioms Artist.AlignmentLoss.C69_measured_reflects
#print axioms Artist.AlignmentLoss.C69_zero_iff
#print axioms Artist.AlignmentLoss.C69_group
#print axioms Artist.AlignmentLoss.C69_mean_zero
#print axioms Artist.AlignmentLoss.C69_exact_iff
#print axioms Artist.AlignmentLoss.C69_exact_partial
#print axioms Artist.AlignmentLoss.C69_exact_wrong
#print axioms Artist.Rotations.C70_axis_angle
#print axioms Artist.Rotations.C70_axis_angle_exact
#print axioms Artist.Rotations.C70_axis_angle_parallel
#print axioms Artist.Rotations.C70_vector_partial
#print axioms Artist.Rotations.C70_vector_same
#print axioms Artist.Rotations.C70_vector_opposite
#print axioms Artist.Rotations.C70_compensation
#print axioms Artist.KinConfig.C71_deviations
#print axioms Artist.KinConfig.C71_linear
#print axioms Artist.KinConfig.C71_linear_chain
#print axioms Artist.KinConfig.C71_ideal_chain
#print axioms Artist.KinConfig.C71_orientation_iff
#print axioms Artist.KinConfig.C71_orientation_ignored
#print axioms Artist.KinConfig.C71_lengths
#print axioms Artist.FocalSpotLoss.C72_nonneg
#print axioms Artist.FocalSpotLoss.C72_symmetric
#print axioms Artist.FocalSpotLoss.C72_planar
#print axioms Artist.FocalSpotLoss.C72_planar_zero_iff
#print axioms Artist.FocalSpotLoss.C72_cylinder_zero_iff
#print axioms Artist.FocalSpotLoss.C72_rays
#print axioms Artist.FocalSpotLoss.C72_distance_partial
#print axioms Artist.FocalSpotLoss.C72_resolution
#print axioms Artist.LightSources.C73_roundtrip_partial
#print axioms Artist.LightSources.C73_left_out
#print axioms Artist.LightSources.C73_loadable_iff
#print axioms Artist.LightSources.C73_misleading
#print axioms Artist.LightSources.C73_set_rays
#print axioms Artist.LightSources.C74_values
#print axioms Artist.LightSources.C74_reproducible
#print axioms Artist.LightSources.C74_groups_share
#print axioms Artist.LightSources.C74_ranks
#print axioms Artist.LightSources.C74_user_seed_lost
#print axioms Artist.PixelLimit.C75_dimensions
#print axioms Artist.PixelLimit.C75_zero_iff
#print axioms Artist.PixelLimit.C75_average
#print axioms Artist.PixelLimit.C75_uniform
#print axioms Artist.PixelLimit.C75_uniform_threshold
#print axioms Artist.PixelLimit.C75_uniform_partial
#print axioms Artist.PixelLimit.C75_too_strict
#print axioms Artist.TowerFile.C76_roundtrip_partial
#print axioms Artist.TowerFile.C76_planar_center
#print axioms Artist.TowerFile.C76_cylinder_center
#print axioms Artist.TowerFile.C76_empty
#print axioms Artist.TowerFile.C76_three_coordinates
#print axioms Artist.PaintTower.C77_cylinder_from_corners
#print axioms Artist.PaintTower.C77_cylinder_partial
#print axioms Artist.PaintTower.C77_wide_cylinder
#print axioms Artist.PaintTower.C77_plane_size
#print axioms Artist.PaintTower.C77_plane_area
#print axioms Artist.PaintTower.C77_plane_partial
#print axioms Artist.PaintTower.C77_turned_and_tilted
#print axioms Artist.PaintTower.C77_areas
#print axioms Artist.PaintTower.C77_order_matters
#print axioms Artist.PaintTower.C77_planar_read
#print axioms Artist.PaintTower.C77_cylinder_read
#print axioms Artist.Stral.C78_roundtrip
#print axioms Artist.Stral.C78_cut_off
#print axioms Artist.Stral.C78_undefined_points
#print axioms Artist.Deflectometry.C79_pairs_partial
#print axioms Artist.Deflectometry.C79_undefined_normals
#print axioms Artist.Deflectometry.C79_more_normals
#print axioms Artist.Deflectometry.C79_end_not_used
#print axioms Artist.Fit.C80_no_scheduler_partial
#print axioms Artist.Fit.C80_later_facets
#print axioms Artist.Fit.C80_reduced_despite_progress
#print axioms Artist.Fit.C80_epochs
#print axioms Artist.Fit.C80_order_matters
#print axioms Artist.PaintHeliostat.C81_facets
#print axioms Artist.PaintHeliostat.C81_linear
#print axioms Artist.PaintHeliostat.C81_ideal
#print axioms Artist.PaintHeliostat.C81_accepted_partial
#print axioms Artist.PaintHeliostat.C81_surplus
#print axioms Artist.PaintHeliostat.C81_missing_facets
#print axioms Artist.PaintHeliostat.C81_mixed_actuators
#print axioms Artist.PaintHeliostat.C81_list
#print axioms Artist.PaintHeliostat.C81_all_or_nothing
#print axioms Artist.Field.C82_check_iff
#print axioms Artist.Field.C82_sorted
#print axioms Artist.Field.C82_order_partial
#print axioms Artist.Field.C82_generated_iff
#print axioms Artist.Field.C82_ten
#print axioms Artist.Field.C82_duplicate
#print axioms Artist.TraceShapes.C83_each_once_partial
#print axioms Artist.TraceShapes.C83_power
#print axioms Artist.TraceShapes.C83_runs_iff
#print axioms Artist.TraceShapes.C83_points_changed
#print axioms Artist.TraceShapes.C83_rays_changed
#print axioms Artist.TraceShapes.C83_more_rays
#print axioms Artist.Balance.C84_value
#print axioms Artist.Balance.C84_order_partial
#print axioms Artist.Balance.C84_original
#print axioms Artist.Balance.C84_any_roughness
#print axioms Artist.Balance.C84_slope
#print axioms Artist.Balance.C84_roughening
#print axioms Artist.Result.C85_aim_points
#print axioms Artist.Result.C85_reconstruction_partial
#print axioms Artist.Result.C85_test_loss_stopped
#print axioms Artist.Result.C85_reported_iff
#print axioms Artist.Result.C85_tolerance_lost
#print axioms Artist.AlignSurface.C86_aligned
#print axioms Artist.AlignSurface.C86_accepted_iff
#print axioms Artist.AlignSurface.C86_aligned_incident
#print axioms Artist.AlignSurface.C86_other_mask
#print axioms Artist.AlignSurface.C86_last_partial
#print axioms Artist.AlignSurface.C86_compounds
#print axioms Artist.AlignSurface.C86_displaced
#print axioms Artist.Blockers.C87_created
#print axioms Artist.Blockers.C87_aligned_partial
#print axioms Artist.Blockers.C87_stale
#print axioms Artist.Blockers.C87_not_aligned
#print axioms Artist.Blockers.C87_one_by_one
#print axioms Artist.Blockers.C87_points
#print axioms Artist.Lockstep.C88_flat_partial
#print axioms Artist.Lockstep.C88_nested_iff
#print axioms Artist.Lockstep.C88_nested_partial
#print axioms Artist.Lockstep.C88_nested_hangs
#print axioms Artist.Lockstep.C88_aim_iff
#print axioms Artist.Lockstep.C88_aim_partial
#print axioms Artist.Lockstep.C88_aim_uneven_hangs
#print axioms Artist.Lockstep.C88_aim_hangs
#print axioms Artist.Validation.C89_reconstruction_partial
#print axioms Artist.Validation.C89_independent_partial
#print axioms Artist.Validation.C89_zero_mask_interferes
#print axioms Artist.Schedule.C90_exponential
#print axioms Artist.Schedule.C90_cyclic_partial
#print axioms Artist.Schedule.C90_cyclic_ignores_initial
#print axioms Artist.Schedule.C90_plateau
#print axioms Artist.Schedule.C90_plateau_steady
#print axioms Artist.Schedule.C90_plateau_reduces
#print axioms Artist.Schedule.C90_plateau_distance
#print axioms Artist.Schedule.C90_fit_exponential
#print axioms Artist.Shared.C91_common_partial
#print axioms Artist.Shared.C91_diverge
#print axioms Artist.Aiming.C92_focal_spot_near_aim
#print axioms Artist.Aiming.C92_flat_mirror
#print axioms Artist.Aiming.C92_aligned
#print axioms Artist.SoftMask.C93_candidates_grow_partial
#print axioms Artist.SoftMask.C93_blocking_grows_partial
#print axioms Artist.SoftMask.C93_darker_partial
#print axioms Artist.SoftMask.C93_further_heliostat_unblocks
#print axioms Artist.Moved.C94_filter
#print axioms Artist.Moved.C94_blocking
#print axioms Artist.Moved.C94_bitmap
#print axioms Artist.Moved.C94_alignment
#print axioms Artist.Moved.C94_surface
#print axioms Artist.Moved.C94_scene
#print axioms Artist.Moved.C94_focal_spot
#print axioms Artist.SaveScenario.C95_name
#print axioms Artist.SaveScenario.C95_names_collide
#print axioms Artist.SaveScenario.C95_names_distinct_partial
#print axioms Artist.SaveScenario.C95_succeeds_iff
#print axioms Artist.SaveScenario.C95_complete
#print axioms Artist.SaveScenario.C95_failure_destroys
#print axioms Artist.SaveScenario.C95_second_version_replaces_first
#print axioms Artist.Mirrored.C96_image_partial
#print axioms Artist.Mirrored.C96_scene_partial
#print axioms Artist.Mirrored.C96_edges_differ
#print axioms Artist.Mirrored.C96_cylinder_partial
#print axioms Artist.Mirrored.C96_wide_cylinder
#print axioms Artist.Mirrored.C96_blocking
#print axioms Artist.Mirrored.C96_blocked_scene_partial
#print axioms Artist.NurbsBatch.C97_alone
#print axioms Artist.NurbsBatch.C97_fails_iff
#print axioms Artist.NurbsBatch.C97_choose
#print axioms Artist.NurbsBatch.C97_own_control_points
#print axioms Artist.NurbsBatch.C97_refused
#print axioms Artist.NurbsBatch.C97_shared_points
#print axioms Artist.Logging.C98_copies
#print axioms Artist.Logging.C98_once_partial
#print axioms Artist.Logging.C98_repeated
#print axioms Artist.Logging.C98_runtime
#print axioms Artist.Logging.C98_runtime_file_ignored
#print axioms Artist.Logging.C98_level_ignored
#print axioms Artist.Logging.C99_duration
#print axioms Artist.Logging.C99_contains
#print axioms Artist.Logging.C99_balanced_iff
#print axioms Artist.Logging.C99_caught_exception
