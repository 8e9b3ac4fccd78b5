{"id": "C01", "title": "Every heliostat group is worked on, and the load is balanced", "statement": "Distributing G>=1 heliostat groups over W>=1 ranks assigns every group to at least one rank and never invents a group. With W<=G each group is given to exactly one rank (so no heliostat is optimised twice), no rank is idle, and rank loads differ by at most one. With W>G every rank works on exactly one group and the number of ranks per group differs by at most one. The nested flag is set exactly when W>G.", "quantifier": "all world sizes and all numbers of heliostat groups", "why_tests_cant": "Tests use a handful of (world size, group count) pairs; the claim is about all of them and depends on wrap-around arithmetic of two cyclic iterators.", "anchors": ["artist/util/env.py:distribute_groups_among_ranks"]}
{"id": "C02", "title": "Ranks sharing a group get consistent, gap-free numbers", "statement": "For any assignment of groups to ranks in which every rank holds at most one group, the ranks that share a group obtain group-ranks 0..size-1 without repetition, all of them see the same group world size which equals the number of ranks holding the group, and a rank without a group gets the documented defaults (rank 0, size 1, no subgroup). The group-to-ranks table each process derives is the exact inverse of the rank-to-groups table.", "quantifier": "all rank-to-group tables, all ranks", "why_tests_cant": "Each process computes its own numbers; a unit test observes one process at a time and cannot compare all of them for all tables.", "anchors": ["artist/util/env.py:create_subgroups_for_nested_ddp", "artist/util/env.py:setup_distributed_environment"]}
{"id": "C03", "title": "The distributed environment is always torn down", "statement": "Whatever happens inside the `with setup_distributed_environment(...)` block (normal end or any exception) and wherever set-up itself fails, the process group that was initialised is no longer initialised afterwards, and the user's own exception is the one that reaches the caller.", "quantifier": "all crash points: every step of set-up, the body, and the clean-up", "why_tests_cant": "Tests exercise the successful path; failures at arbitrary points of multi-process set-up cannot be enumerated in a unit test.", "anchors": ["artist/util/env.py:setup_distributed_environment", "artist/util/env.py:initialize_ddp_environment"]}
{"id": "C04", "title": "Every ray-tracing sample is traced by exactly one rank", "statement": "For every number of samples, active heliostats and world size, the index lists handed to the ranks are pairwise disjoint, free of duplicates, within range, and together contain every sample.", "quantifier": "all sample counts, heliostat counts, world sizes and ranks", "why_tests_cant": "Tests look at single combinations where the counts divide evenly; the claim ranges over all combinations, including activation masks with different multiplicities.", "anchors": ["artist/raytracing/sampling.py:RestrictedDistributedSampler", "artist/raytracing/heliostat_ray_tracer.py:HeliostatRayTracer.__init__"]}
{"id": "C05", "title": "All samples of one heliostat stay together and in order on one rank", "statement": "The index list of a rank is strictly increasing, consists of complete consecutive blocks, one block per heliostat it owns, and ranks beyond the number of active heliostats receive nothing. Consequently taking every k-th entry and dividing by k (k = samples per heliostat) enumerates exactly the heliostats the rank owns.", "quantifier": "all sample counts, heliostat counts, world sizes and ranks", "why_tests_cant": "The per-heliostat loss bookkeeping silently mixes heliostats if this fails for any size; tests check fixed small sizes.", "anchors": ["artist/raytracing/sampling.py:RestrictedDistributedSampler", "artist/optim/surface_reconstructor.py:SurfaceReconstructor._predict_flux", "artist/optim/kinematics_reconstructor.py:KinematicsReconstructor"]}
{"id": "C06", "title": "Batched ray tracing writes each result to the row of its own sample", "statement": "Running the tracer in batches of any size gives, for every sample owned by the rank, exactly the result computed from that sample's own ray direction, surface, target and distortions; rows of samples not owned by the rank are never written; the result does not depend on the batch size.", "quantifier": "all batch sizes, sampler index lists and per-sample computations", "why_tests_cant": "Row alignment between a boolean-mask gather/scatter and a data-loader batch has to hold for all batch sizes and index lists; a test fixes one.", "anchors": ["artist/raytracing/heliostat_ray_tracer.py:HeliostatRayTracer.trace_rays"]}
{"id": "C07", "title": "Summing bitmaps per target conserves flux", "statement": "When every target index is valid, the per-target bitmaps add up pixel by pixel to the sum of the per-heliostat bitmaps, the bitmap of a target contains exactly the flux of the heliostats aimed at it, and targets nobody aims at stay black. A bitmap with an out-of-range target index contributes to no target.", "quantifier": "all numbers of heliostats and targets, all bitmaps, all index assignments", "why_tests_cant": "Conservation has to hold for all assignments of heliostats to targets.", "anchors": ["artist/raytracing/heliostat_ray_tracer.py:HeliostatRayTracer.get_bitmaps_per_target"]}
{"id": "C08", "title": "Bilinear splatting neither creates nor destroys ray energy inside the bitmap", "statement": "For rays with non-negative bitmap coordinates, the sum of all pixels of the flux image equals the sum of intensities of the rays whose coordinates lie inside the pixel grid, every pixel is non-negative for non-negative intensities, rays outside contribute nothing, the image is additive in the set of rays, and the intensity-weighted mean pixel position equals the intensity-weighted mean of the ray coordinates (rows flipped).", "quantifier": "all resolutions, all numbers of rays, all coordinates and intensities (exact arithmetic)", "why_tests_cant": "Energy conservation and the centroid law quantify over continuous positions and any number of rays; tests compare a few stored images.", "anchors": ["artist/raytracing/heliostat_ray_tracer.py:HeliostatRayTracer.bilinear_splatting"]}
{"id": "C09", "title": "The bounding-volume filter never drops a blocker", "statement": "The blocking filter returns exactly the heliostats whose bounding box is hit (before the target) by some ray that they do not own themselves, i.e. it agrees with testing every ray against every heliostat.", "quantifier": "all numbers and positions of heliostats, all rays", "why_tests_cant": "A wrongly built tree loses blockers silently; whether it happens depends on the bit patterns of the positions, which tests sample only for tiny fields.", "anchors": ["artist/raytracing/blocking.py:build_linear_bounding_volume_hierarchies", "artist/raytracing/blocking.py:lbvh_filter_blocking_planes"]}
{"id": "C10", "title": "The blocking filter terminates and never overflows its stack", "statement": "For every heliostat field the tree construction, the depth computation and the traversal terminate, the traversal stack sized by the computed depth is never exceeded (the RuntimeError is unreachable), and the depth equals the longest root-to-leaf path.", "quantifier": "all numbers and positions of heliostats, all rays", "why_tests_cant": "Termination and the absence of an overflow are statements about all inputs; one hanging input is enough to stall an optimisation run.", "anchors": ["artist/raytracing/blocking.py:build_linear_bounding_volume_hierarchies", "artist/raytracing/blocking.py:compute_lbvh_max_depth", "artist/raytracing/blocking.py:lbvh_filter_blocking_planes"]}
{"id": "C11", "title": "Tree boxes enclose everything beneath them", "statement": "In the built hierarchy every leaf box is the bounding box of its primitive's corner points, every inner box is the union of its children's boxes, each primitive sits in exactly one leaf, and a ray that hits a leaf box hits the boxes of all its ancestors.", "quantifier": "all fields for which the tree is built correctly, all rays", "why_tests_cant": "Tests compare stored boxes for small fields only.", "anchors": ["artist/raytracing/blocking.py:build_linear_bounding_volume_hierarchies", "artist/raytracing/blocking.py:ray_aabb_intersect"]}
{"id": "C12", "title": "Morton codes interleave coordinate bits without loss", "statement": "Expanding a 10-bit number places bit k at position 3k and nothing elsewhere (inputs outside 0..1023 are rejected); a Morton code is a 30-bit number from which the three quantised coordinates can be recovered, so two heliostats share a code exactly if they fall into the same grid cell; quantised coordinates are always within 0..1023, and codes respect the coordinate order (larger in every coordinate implies a larger code).", "quantifier": "all 10-bit inputs, all sets of points", "why_tests_cant": "Bit-spreading masks are easy to get subtly wrong; the claim covers all inputs and all positive scales of the field.", "anchors": ["artist/raytracing/blocking.py:expand_bits", "artist/raytracing/blocking.py:morton_codes"]}
{"id": "C13", "title": "The common-prefix length is the number of leading equal bits", "statement": "For 30-bit codes the branch-free 32-bit computation returns the number of leading bits (out of 30) on which two codes agree, 30 for equal codes and -1 for an index outside the array; on a sorted array the value for (i,k) is the minimum of the values for (i,j) and (j,k) whenever i<=j<=k.", "quantifier": "all pairs of 30-bit codes, all sorted code arrays, all index triples", "why_tests_cant": "There are 2^60 code pairs and arithmetic shifts on signed integers to get right.", "anchors": ["artist/raytracing/blocking.py:longest_common_prefix"]}
{"id": "C14", "title": "The slab test is exact", "statement": "With non-zero direction components, the entry/exit distances of the ray-box test satisfy entry<=exit with exit>=t>=entry exactly for those t at which the point origin+t*direction is inside the box; enlarging the box never loses a hit.", "quantifier": "all rays with non-zero components and all boxes (exact arithmetic)", "why_tests_cant": "Continuous claim over all rays and boxes.", "anchors": ["artist/raytracing/blocking.py:ray_aabb_intersect"]}
{"id": "C15", "title": "The soft blocking mask is a monotone probability-like value", "statement": "The soft mask is always at least 0 and below 1, is 0 when there are no blockers, does not depend on the order of the blockers, and never decreases when a further blocker is added; hence blocking can only reduce a ray's intensity and never makes it negative.", "quantifier": "all rays, all lists of blocking rectangles, all softness values and non-negative density factors", "why_tests_cant": "Quantifies over all scenes and over adding arbitrary blockers.", "anchors": ["artist/raytracing/blocking.py:soft_ray_blocking_mask", "artist/raytracing/heliostat_ray_tracer.py:HeliostatRayTracer.trace_rays"]}
{"id": "C16", "title": "Mirror reflection is a reflection", "statement": "For unit normals, reflecting preserves the length of the ray and its angle to any other reflected ray, reflecting twice gives the original ray, the component along the normal is negated while the tangential component is kept, and a direction (4th component 0) stays a direction.", "quantifier": "all incident directions and all unit normals (exact arithmetic)", "why_tests_cant": "Universal geometric identity.", "anchors": ["artist/raytracing/geometry.py:reflect"]}
{"id": "C17", "title": "Rays counted on a planar target really hit it", "statement": "Every ray given a positive intensity by the planar intersection meets the target plane at a positive distance in front of the heliostat, inside the target rectangle and from the front; the returned pixel coordinates are the mirrored, linearly scaled position of that point and stay within the bitmap; rays that miss get intensity 0; intensity equals magnitude times the cosine of the incidence angle.", "quantifier": "all rays, target planes, resolutions (exact arithmetic)", "why_tests_cant": "Includes configurations such as heliostats behind the receiver plane that tests do not contain.", "anchors": ["artist/raytracing/geometry.py:line_plane_intersections"]}
{"id": "C18", "title": "Rays counted on a cylindrical target land where the receiver is", "statement": "For a cylindrical receiver with unit axis and normal, a ray hitting the outer surface on the line the receiver normal points to is recorded in the middle column of the bitmap, for any horizontal orientation of the receiver; recorded coordinates stay within the bitmap, intensities are non-negative and equal magnitude times the cosine of incidence, and the hit point lies on the cylinder.", "quantifier": "all cylinder orientations, radii, heights, opening angles and rays (exact arithmetic)", "why_tests_cant": "Tests use one orientation of the receiver.", "anchors": ["artist/raytracing/geometry.py:line_cylinder_intersections"]}
{"id": "C19", "title": "Rotation and translation matrices are rigid motions", "statement": "The matrices produced for rotations about east, north and up and for ray distortions are orthogonal with determinant one, keep the homogeneous component, compose additively for the same axis, and scattering therefore never changes the length of a ray; translation matrices compose additively and do not move directions; mismatching shapes are rejected.", "quantifier": "all angles and offsets (exact arithmetic)", "why_tests_cant": "Universal over continuous angles.", "anchors": ["artist/geometry/transforms.py:rotate_e", "artist/geometry/transforms.py:rotate_n", "artist/geometry/transforms.py:rotate_u", "artist/geometry/transforms.py:translate_enu", "artist/geometry/transforms.py:rotate_distortions", "artist/raytracing/heliostat_ray_tracer.py:HeliostatRayTracer.scatter_rays"]}
{"id": "C20", "title": "Canting and its inverse cancel", "statement": "For canting vectors that span a plane (longer than the normalisation epsilon), canting followed by inverse canting (and vice versa) returns every point and direction unchanged, canting maps the east and up axes to the normalised east canting vector and the normalised cross product (and north to the normalised north canting vector if the two are orthogonal), and preserves lengths.", "quantifier": "all facets, canting vectors and points (exact arithmetic)", "why_tests_cant": "Universal over continuous canting vectors.", "anchors": ["artist/geometry/transforms.py:perform_canting"]}
{"id": "C21", "title": "NURBS basis functions form a partition of unity", "statement": "For any degree, any non-decreasing knot vector and any parameter inside a non-degenerate span, the basis functions computed are non-negative and sum to one, and their first derivatives sum to zero, so surface points are convex combinations of control points.", "quantifier": "all degrees, knot vectors, spans and parameters (exact arithmetic)", "why_tests_cant": "Inductive claim over the degree; tests use degree 3 and a few parameters.", "anchors": ["artist/nurbs/surfaces.py:NURBSSurfaces.basis_functions_and_derivatives"]}
{"id": "C22", "title": "NURBS span search returns the interval containing the parameter", "statement": "With uniform clamped knots, for every degree, every number of control points larger than the degree and every parameter in [0,1), the span found lies between degree and number of control points minus one and its knot interval contains the parameter; hence every control point index used for evaluation exists.", "quantifier": "all degrees, control point counts and parameters", "why_tests_cant": "Off-by-one errors at knot values can only be excluded by a universal argument.", "anchors": ["artist/nurbs/surfaces.py:NURBSSurfaces.find_spans", "artist/nurbs/surfaces.py:NURBSSurfaces.calculate_uniform_knot_vectors"]}
{"id": "C23", "title": "Surface evaluation reproduces planes and stays within the control points", "statement": "Evaluated surface points lie in the bounding box of the control points, are affinely equivariant (moving all control points moves the surface), a flat control net gives a flat surface, and with clamped knots the surface starts and ends in the corner control points.", "quantifier": "all degrees, control nets and parameters (exact arithmetic)", "why_tests_cant": "Convex-hull and equivariance statements range over all nets.", "anchors": ["artist/nurbs/surfaces.py:NURBSSurfaces.calculate_surface_points_and_normals", "artist/nurbs/utils.py:create_planar_nurbs_control_points"]}
{"id": "C24", "title": "Heliostat orientations are rigid motions", "statement": "For any motor positions, deviations and offsets, the orientation matrix produced by the kinematics moves points rigidly: distances and angles are preserved, points stay points and directions stay directions.", "quantifier": "all motor positions, kinematic deviations, positions (exact arithmetic)", "why_tests_cant": "Universal over all parameter values reachable during optimisation.", "anchors": ["artist/field/kinematics_rigid_body.py:RigidBody._compute_orientations_from_motor_positions"]}
{"id": "C25", "title": "Inverse kinematics aims the heliostat at the requested normal", "statement": "Whenever the requested unit normal is reachable, driving the joints to the angles the inverse kinematics computes makes the heliostat's surface normal equal to the requested normal, up to the stated epsilons, for each of the two solution branches.", "quantifier": "all deviations and requested normals (exact arithmetic)", "why_tests_cant": "Requires trigonometric identities for all angles and tilts; tests check a few stored poses.", "anchors": ["artist/field/kinematics_rigid_body.py:RigidBody._compute_motor_positions_from_normal"]}
{"id": "C26", "title": "Alignment returns orientations that match the motor positions it stores", "statement": "After aligning a heliostat with a sun direction, feeding the stored motor positions back through the kinematics yields the orientation that was returned.", "quantifier": "all iteration histories of the alignment loop", "why_tests_cant": "Depends on where the iteration stops; tests use cases that converge.", "anchors": ["artist/field/kinematics_rigid_body.py:RigidBody.incident_ray_directions_to_orientations"]}
{"id": "C27", "title": "Linear actuators: angle to motor position and back is the identity", "statement": "As long as the stroke stays inside the mechanical limits, converting motor positions to joint angles and back returns the motor positions (and the other way round), for clockwise and counter-clockwise actuators; joint angles stay finite for every motor position and the angle is monotone in the stroke; ideal actuators are the identity.", "quantifier": "all actuator geometries and motor positions (exact arithmetic)", "why_tests_cant": "Universal over geometries; tests check stored numbers.", "anchors": ["artist/field/actuators_linear.py:LinearActuators", "artist/field/actuators_ideal.py:IdealActuators"]}
{"id": "C28", "title": "What is active depends only on the last activation", "statement": "After any sequence of activations, every active per-heliostat quantity is the corresponding full quantity with row i repeated mask[i] times, for the last mask, independent of earlier activations; the number of active heliostats is the sum of the mask.", "quantifier": "all histories of activation masks", "why_tests_cant": "History-dependent: tests activate once or twice with non-empty masks.", "anchors": ["artist/field/heliostat_group.py:HeliostatGroup.activate_heliostats"]}
{"id": "C29", "title": "Heliostat-target-light mapping is translated faithfully", "statement": "For any user mapping, every entry naming a heliostat of the group appears exactly once among the outputs, with its own target index and incident direction, at a position owned by that heliostat when rows are repeated by the returned mask, and entries of one heliostat keep their order; entries of other groups are ignored; invalid entries raise an error.", "quantifier": "all mappings, orders, repetitions and groups with unique names", "why_tests_cant": "Universal over list contents and orders.", "anchors": ["artist/scenario/scenario.py:Scenario.index_mapping", "artist/field/heliostat_group.py:HeliostatGroup.activate_heliostats"]}
{"id": "C30", "title": "Target area names and indices refer to the same target", "statement": "If target names are unique, the global index of a name, the per-type location of that index and the reported center all belong to the same target; planar indices precede cylindrical indices; the reported center of a cylinder is the surface point its normal points to.", "quantifier": "all tower configurations with any number of planar and cylindrical targets", "why_tests_cant": "Universal over configurations; includes empty types.", "anchors": ["artist/field/solar_tower.py:SolarTower", "artist/field/solar_tower.py:SolarTower.get_centers_of_target_areas"]}
{"id": "C31", "title": "Early stopping stops exactly when the loss has stagnated", "statement": "The stopper never fires before window_size+patience-1 losses were seen; it fires at a step exactly if at each of the last `patience` steps the window was full and the (relative) improvement over the window did not exceed the threshold; a steadily improving loss never triggers it.", "quantifier": "all loss histories, window sizes, patience values, thresholds", "why_tests_cant": "A claim about all histories of a stateful monitor.", "anchors": ["artist/optim/training.py:EarlyStopping"]}
{"id": "C32", "title": "Train/test split partitions the samples of every heliostat", "statement": "Every sample lands in exactly one of train and test, samples stay attributed to their own heliostat in both halves (the row of the split tensors owned by a heliostat under the split mask is one of its own samples), and every heliostat with data gets at least one test sample.", "quantifier": "all sample-count masks and fractions", "why_tests_cant": "Misattribution occurs only for unequal per-heliostat counts, which tests do not contain.", "anchors": ["artist/optim/training.py:train_test_split"]}
{"id": "C33", "title": "Final losses are reported for the right heliostat, exactly once", "statement": "After reconstruction over any number of groups and ranks, each active heliostat's entry of the returned vector is the loss computed for it by the one rank that owns it, and inactive heliostats read infinity, regardless of how groups and heliostats are distributed.", "quantifier": "all group sizes, activation masks with equal sample counts, world sizes", "why_tests_cant": "Requires several processes and all distributions.", "anchors": ["artist/optim/surface_reconstructor.py:SurfaceReconstructor.reconstruct_surfaces", "artist/optim/kinematics_reconstructor.py:KinematicsReconstructor", "artist/optim/loss.py:reduce_loss_per_sample"]}
{"id": "C34", "title": "Optimisation loops respect the epoch limit and the tolerance", "statement": "The optimisation loop runs at most max_epoch epochs, stops after the first epoch whose loss is within tolerance or at which early stopping fires, and the recorded loss history has one entry per completed epoch.", "quantifier": "all loss sequences, tolerances, epoch limits", "why_tests_cant": "Loop-bound claims need induction over the loss sequence.", "anchors": ["artist/optim/surface_reconstructor.py:SurfaceReconstructor.reconstruct_surfaces", "artist/optim/kinematics_reconstructor.py:KinematicsReconstructor", "artist/optim/aim_point_optimizer.py:AimPointOptimizer.optimize", "artist/scenario/surface_generator.py:SurfaceGenerator.fit_nurbs"]}
{"id": "C35", "title": "Aim-point optimisation keeps motors within their limits", "statement": "Whatever values the optimisation parameters take, the motor positions applied stay between the minimum and maximum motor positions of the actuator.", "quantifier": "all optimisation parameters, all initial positions and limits", "why_tests_cant": "Optimiser trajectories are unbounded; tests see a few steps.", "anchors": ["artist/optim/aim_point_optimizer.py:AimPointOptimizer"]}
{"id": "C36", "title": "Augmented-Lagrangian multipliers stay non-negative and penalties never reward violations", "statement": "Over any optimisation history the multipliers stay non-negative and never decrease, each constraint term is non-negative and zero when the constraint holds with zero multiplier, so the total loss is never below the flux loss.", "quantifier": "all histories of constraint violations, all non-negative penalty weights", "why_tests_cant": "Invariant over arbitrarily long histories.", "anchors": ["artist/optim/aim_point_optimizer.py:AimPointOptimizer", "artist/optim/surface_reconstructor.py:SurfaceReconstructor._compute_flux_integral_constraint"]}
{"id": "C37", "title": "Loss functions are non-negative and vanish exactly on perfect predictions", "statement": "Vector, pixel, KL, angle and cosine losses are never negative for admissible inputs and are zero when the prediction equals the ground truth (angle and cosine losses: when parallel); the KL loss does not depend on the overall scale of either image.", "quantifier": "all predictions and ground truths (exact arithmetic)", "why_tests_cant": "Non-negativity of KL is Gibbs' inequality over all distributions.", "anchors": ["artist/optim/loss.py"]}
{"id": "C38", "title": "The pixel loss does not depend on overall magnitude", "statement": "As its documentation says, scaling prediction and ground truth by the same positive factor leaves the pixel loss unchanged.", "quantifier": "all images and positive scale factors", "why_tests_cant": "Universal scaling law.", "anchors": ["artist/optim/loss.py:PixelLoss"]}
{"id": "C39", "title": "Focal spots computed from bitmaps are geometrically consistent", "statement": "The center of mass of a non-negative image lies inside the image, is unaffected by scaling up to the stated epsilon, and converting the pixel position of a ray hit back to target coordinates returns the hit point up to half a pixel in each direction.", "quantifier": "all bitmaps, resolutions and hit points (exact arithmetic)", "why_tests_cant": "Universal over images; round trip between two separately written formulas.", "anchors": ["artist/flux/bitmap.py:get_center_of_mass", "artist/geometry/coordinates.py:bitmap_coordinates_to_target_coordinates", "artist/raytracing/geometry.py:line_plane_intersections"]}
{"id": "C40", "title": "Surface regularisers only penalise deformation", "statement": "Both regularisers are non-negative and zero for an unchanged surface; the smoothness regulariser is also zero for a rigid shift of all control points of a facet; the ideal-surface regulariser is zero only for an unchanged surface.", "quantifier": "all control nets (exact arithmetic)", "why_tests_cant": "Universal over control nets.", "anchors": ["artist/optim/regularizers.py"]}
{"id": "C41", "title": "Reconstruction keeps facets rectangular", "statement": "During surface reconstruction the in-plane coordinates of control points on the facet border keep their initial value through any number of optimiser steps, whatever the gradients are, while interior control points and all heights remain free.", "quantifier": "all gradient histories, all net sizes, all learning-rate schedules", "why_tests_cant": "Invariant over arbitrarily long optimisation histories.", "anchors": ["artist/optim/surface_reconstructor.py:SurfaceReconstructor.lock_control_points_on_outer_edges", "artist/optim/surface_reconstructor.py:SurfaceReconstructor._synchronize_and_lock_gradients"]}
{"id": "C42", "title": "Measured flux images and calibration properties stay paired", "statement": "The k-th measured flux, focal spot, motor position and target index returned by the parser all come from the same measurement, and belong to the heliostat that owns row k under the returned mask; the sample limit bounds the number of measurements per heliostat.", "quantifier": "all mappings from heliostats to files, all limits", "why_tests_cant": "Pairing is established by two independent traversals; tests use one heliostat entry each.", "anchors": ["artist/io/paint_calibration_parser.py:PaintCalibrationDataParser", "artist/io/calibration_parser.py:CalibrationDataParser.load_flux_from_png"]}
{"id": "C43", "title": "The PAINT data mapping pairs property files with their own images", "statement": "Each heliostat's list has equally many property and image files, the k-th image carries the identifier of the k-th property file and exists on disk, at most the requested number is returned, every property file with an image is used until the limit is reached, and heliostats without data do not appear.", "quantifier": "all directory contents, requested counts, shuffles", "why_tests_cant": "Universal over directory contents.", "anchors": ["artist/io/paint_scenario_parser.py:build_heliostat_data_mapping"]}
{"id": "C44", "title": "The advertised number of heliostat groups is the number loaded", "statement": "The group count stored when a scenario is generated equals the number of groups created when that scenario is loaded, each heliostat ends up in exactly one group, and heliostats within a group share the kinematics and actuator type.", "quantifier": "all heliostat lists (individual and prototype kinematics/actuators)", "why_tests_cant": "Universal over configurations.", "anchors": ["artist/scenario/h5_scenario_generator.py:H5ScenarioGenerator._get_number_of_heliostat_groups", "artist/field/heliostat_field.py:HeliostatField.from_hdf5"]}
{"id": "C45", "title": "Flattening a scenario dictionary loses nothing", "statement": "Every leaf value of the nested scenario dictionary is stored under the path formed by its keys and no other entries appear, so the nested dictionary can be recovered, as long as keys are non-empty and free of the separator and no sub-dictionary is empty.", "quantifier": "all nested dictionaries", "why_tests_cant": "Structural induction over arbitrarily nested input.", "anchors": ["artist/scenario/h5_scenario_generator.py:H5ScenarioGenerator._flatten_dict"]}
{"id": "C46", "title": "Loading a field treats each heliostat independently", "statement": "What is loaded for one heliostat (actuators, NURBS degrees) depends only on its own entry and the prototypes, never on the other heliostats or their order.", "quantifier": "all heliostat lists mixing individual and prototype components", "why_tests_cant": "Order dependence shows only for particular mixtures.", "anchors": ["artist/field/heliostat_field.py:HeliostatField.from_hdf5"]}
{"id": "C47", "title": "Sun positions are unit vectors with the documented orientation", "statement": "For unit slant range the returned vector has length one (in general: the slant range), elevation 90 degrees points up, azimuth 0 at the horizon points south, azimuth is periodic, and incident ray directions derived from it are unit directions pointing away from the sun.", "quantifier": "all azimuths and elevations (exact arithmetic)", "why_tests_cant": "Universal trigonometric identity.", "anchors": ["artist/geometry/coordinates.py:azimuth_elevation_to_enu", "artist/io/paint_calibration_parser.py:PaintCalibrationDataParser._parse_calibration_data"]}
{"id": "C48", "title": "WGS84 conversion is centred and orientation preserving", "statement": "The reference point maps to the origin; points further north/east/up have positive north/east/up offsets (away from the poles), and the offsets grow monotonically with longitude and altitude.", "quantifier": "all coordinates with latitude strictly between the poles (exact arithmetic)", "why_tests_cant": "Universal over coordinates.", "anchors": ["artist/geometry/coordinates.py:convert_wgs84_coordinates_to_local_enu"]}
{"id": "C49", "title": "Normalised points stay strictly inside the NURBS domain", "statement": "Normalising any non-empty set of points maps every coordinate strictly between 0 and 1 and keeps the order of points; the evaluation grid lies strictly inside (0,1), so a span always exists.", "quantifier": "all finite point sets, all grid sizes (exact arithmetic)", "why_tests_cant": "Universal over point sets.", "anchors": ["artist/geometry/coordinates.py:normalize_points", "artist/nurbs/utils.py:create_nurbs_evaluation_grid"]}
{"id": "C50", "title": "Trapezoid target distributions are symmetric plateaus", "statement": "The distribution has the requested length, values in [0,1], is mirror symmetric, equals one on the plateau, never increases away from the center, and vanishes beyond plateau and slope; with zero slope it is a 0/1 rectangle.", "quantifier": "all total, slope and plateau widths", "why_tests_cant": "Universal over integer widths.", "anchors": ["artist/flux/bitmap.py:trapezoid_distribution"]}
{"id": "C51", "title": "A heliostat is excluded as its own blocker, and only itself", "statement": "In scenarios with any number of heliostat groups, the blocking filter disregards a ray's own heliostat and no other heliostat.", "quantifier": "all group sizes and active heliostats", "why_tests_cant": "Needs several groups; index offsets between groups are invisible with one group.", "anchors": ["artist/raytracing/heliostat_ray_tracer.py:HeliostatRayTracer.trace_rays", "artist/raytracing/blocking.py:lbvh_filter_blocking_planes"]}
{"id": "C52", "title": "In nested mode predictions are compared with their own measurements", "statement": "When several ranks share a heliostat group, the per-sample loss each rank computes pairs every predicted flux image with the measured image of the same sample.", "quantifier": "all world sizes and sample counts", "why_tests_cant": "Needs several processes per group.", "anchors": ["artist/optim/surface_reconstructor.py:SurfaceReconstructor.reconstruct_surfaces", "artist/optim/kinematics_reconstructor.py:KinematicsReconstructor", "artist/raytracing/heliostat_ray_tracer.py:HeliostatRayTracer.trace_rays"]}
{"id": "C53", "title": "Mixed-surface loading keeps every heliostat once, with its own id", "statement": "Loading heliostats where some have deflectometry data and others do not returns every heliostat exactly once, uses a fitted surface exactly where a deflectometry file is given, gives all heliostats distinct ids, and works when only one kind is present.", "quantifier": "all lists of heliostat files", "why_tests_cant": "Depends on the mixture of inputs.", "anchors": ["artist/io/paint_scenario_parser.py:extract_paint_heliostats_mixed_surface", "artist/io/paint_scenario_parser.py:_process_heliostats_from_paths"]}
{"id": "C54", "title": "Blocking rectangles are spanned by real corner points", "statement": "The rectangle that represents a four-facet heliostat uses surface points that are the outermost corners of the four facets, spans equal differences of these corners, and its normal is orthogonal to both spans with unit length when the spans are independent.", "quantifier": "all square facet grids (exact arithmetic)", "why_tests_cant": "Index arithmetic with square roots must be right for all grid sizes.", "anchors": ["artist/raytracing/blocking.py:create_blocking_primitives_rectangles_by_index"]}
{"id": "C55", "title": "Positive angles rotate counter-clockwise about each axis", "statement": "As documented, the rotation matrices about east, north and up rotate by the given angle counter-clockwise about the axis in the right-handed east-north-up system.", "quantifier": "all angles and vectors", "why_tests_cant": "Tests compare with stored matrices; the sign convention has to hold for every angle and vector.", "anchors": ["artist/geometry/transforms.py:rotate_e", "artist/geometry/transforms.py:rotate_n", "artist/geometry/transforms.py:rotate_u"]}
{"id": "C56", "title": "An aligned heliostat reflects the sun onto its aim point", "statement": "After alignment, reflecting the incident direction at the heliostat's surface normal gives the direction from the mirror centre to the aim point, up to the epsilons of the inverse kinematics, whenever the mirror centre does not move with the joints; in general the error is bounded by the loss of the final iteration.", "quantifier": "all positions, tilts, aim points, sun directions and batches (exact arithmetic)", "why_tests_cant": "Continuum of sun and aim positions; the guarantee links kinematics, actuators and the ray tracer.", "anchors": ["artist/field/kinematics_rigid_body.py:RigidBody.incident_ray_directions_to_orientations", "artist/raytracing/geometry.py:reflect"]}
{"id": "C57", "title": "Span search works for arbitrary knot vectors", "statement": "With the uniform flag switched off, for every number of surfaces, facets and points and every knot vector, each parameter inside the domain is assigned a span that contains it.", "quantifier": "all shapes, knot vectors, degrees and parameters", "why_tests_cant": "Broadcasting mistakes only show for particular combinations of sizes.", "anchors": ["artist/nurbs/surfaces.py:NURBSSurfaces.find_spans"]}
{"id": "C58", "title": "Distributed aim-point optimisation averages gradients of the same heliostats", "statement": "In distributed aim-point optimisation the synchronised gradient of a heliostat group's motor parameters is the average of the gradients that the processes working on that group computed; gradients of other groups have no influence, and the synchronisation completes.", "quantifier": "all numbers of processes and groups, all gradients", "why_tests_cant": "Needs several processes and several heliostat groups with distinguishable gradients; tests run one process or one group.", "anchors": ["artist/optim/aim_point_optimizer.py:AimPointOptimizer._synchronize_distributed_gradients"]}
{"id": "C59", "title": "Aim-point optimisation works with every loss definition", "statement": "The documented argument is any loss; for every loss the optimisation runs and the recorded total loss of an epoch is the loss computed in that epoch.", "quantifier": "all losses, limits and loss sequences", "why_tests_cant": "Tests only use the KL-divergence loss.", "anchors": ["artist/optim/aim_point_optimizer.py:AimPointOptimizer.optimize"]}
{"id": "C60", "title": "After a distributed optimisation every process holds the result of every group", "statement": "When an optimisation or reconstruction returns, all processes hold the same parameters for every heliostat group, namely those obtained by a process that worked on that group.", "quantifier": "all numbers of processes and groups, all parameter values", "why_tests_cant": "Needs several processes and groups; the tests run one process.", "anchors": ["artist/optim/surface_reconstructor.py:SurfaceReconstructor._synchronize_reconstruction_across_ranks", "artist/optim/kinematics_reconstructor.py:KinematicsReconstructor", "artist/optim/aim_point_optimizer.py:AimPointOptimizer._broadcast_motor_positions"]}
{"id": "C61", "title": "Actuators keep the order in which they are configured", "statement": "The first and second actuator of a heliostat, after generating a scenario and loading it, are the first and second actuator of the configured list.", "quantifier": "all actuator keys and parameters", "why_tests_cant": "Tests and tutorials use keys whose alphabetical order is the listed order.", "anchors": ["artist/util/config.py:ActuatorListConfig.create_actuator_list_dict", "artist/io/h5_scenario_parser.py:linear_actuators", "artist/io/h5_scenario_parser.py:ideal_actuators"]}
{"id": "C62", "title": "Recomputing the surfaces of a loaded scenario changes nothing", "statement": "Calling update_surfaces on a freshly loaded scenario reproduces the surface points and normals that loading computed.", "quantifier": "all fields of heliostats, facets, control points and sampling grids", "why_tests_cant": "Tests update surfaces after changing control points and compare with stored tensors; none compares an update without a change with the loaded surface.", "anchors": ["artist/field/heliostat_field.py:from_hdf5", "artist/field/heliostat_field.py:update_surfaces", "artist/field/surface.py:get_surface_points_and_normals"]}
{"id": "C63", "title": "Changing the number of control points on loading does not change the mirror", "statement": "Loading a scenario with a different number of NURBS control points keeps the mirror: same plane, outline, normals and, for fitted surfaces, shape, both in the loaded samples and after recomputing surfaces.", "quantifier": "all facets, all control point counts", "why_tests_cant": "Tests load with the default or one other number and compare shapes of tensors.", "anchors": ["artist/field/heliostat_field.py:from_hdf5", "artist/field/surface.py:get_surface_points_and_normals"]}
{"id": "C64", "title": "Cropping shows the requested window around the centre of brightness", "statement": "Every pixel of a cropped flux image is the bilinear interpolation of the original at the point which lies at the same relative position in a window of the requested physical width and height around the centre of brightness, with zero outside; a window of the full size around the image centre returns the original image.", "quantifier": "all images, target dimensions and requested sizes", "why_tests_cant": "Tests compare a few crops with stored images or check the peak position.", "anchors": ["artist/flux/bitmap.py:crop_flux_distributions_around_center"]}
{"id": "C65", "title": "A bitmap holds the power of the rays that reach the target", "statement": "The sum of the pixels of a heliostat bitmap is the sum, over the rays that reach the target, of ray power times cosine of incidence times unblocked share times what extinction leaves times reflectivity; it never exceeds the power sent out, is proportional to power and reflectivity, and more blocking never brightens a pixel.", "quantifier": "all ray sets, targets, blocking masks, extinction and reflectivity values", "why_tests_cant": "Tests compare bitmaps with stored ones for a handful of scenes; the energy balance over arbitrary ray sets is not checked.", "anchors": ["artist/raytracing/heliostat_ray_tracer.py:trace_rays", "artist/raytracing/heliostat_ray_tracer.py:scatter_rays", "artist/raytracing/heliostat_ray_tracer.py:bilinear_splatting"]}
{"id": "C66", "title": "Tracing returns the documented fractions", "statement": "Along with the bitmaps, trace_rays returns for each heliostat the fraction of rays that hit the target neglecting blocking, the fraction of rays that are not blocked and the fraction that actually hits, in this order, and optimisers can use them as constraints.", "quantifier": "all ray sets, targets and blocking masks", "why_tests_cant": "Tests unpack and ignore the fractions or compare them for one scene.", "anchors": ["artist/raytracing/heliostat_ray_tracer.py:trace_rays", "artist/optim/aim_point_optimizer.py:AimPointOptimizer"]}
{"id": "C67", "title": "With a direct normal irradiance the rays carry irradiance times mirror area", "statement": "If a direct normal irradiance is given, the rays of every heliostat together carry irradiance times the mirror area of that heliostat.", "quantifier": "all heliostats, facet layouts and ray counts", "why_tests_cant": "Tests use heliostats of one type with 2 x 2 equal facets.", "anchors": ["artist/raytracing/heliostat_ray_tracer.py:HeliostatRayTracer.__init__"]}
{"id": "C68", "title": "Aim point optimisation evaluates the same flux with any number of processes", "statement": "In every epoch of the aim point optimisation the flux that is compared with the goal, and the intercept, on-target and blocking fractions per heliostat, do not depend on the number of processes.", "quantifier": "all numbers of processes, groups and heliostats, all positions of the heliostats", "why_tests_cant": "Tests run with one process, or compare the result of a distributed run with itself.", "anchors": ["artist/optim/aim_point_optimizer.py:_trace_and_accumulate_flux", "artist/optim/aim_point_optimizer.py:_align_all_groups"]}
{"id": "C69", "title": "Alignment-driven kinematics reconstruction is consistent", "statement": "The alignment-driven kinematics reconstruction compares, for every training sample, the normal that the kinematics of the heliostat predicts from the recorded motor positions with the normal that reflects the sun onto the measured focal spot. A heliostat whose parameters are exact, so that it reflects the sun from its mirror centre onto the measured focal spot, has loss zero, and only then.", "quantifier": "all heliostats with their deviations and actuators, all motor positions, sun directions and focal spots, all numbers of heliostats and samples", "why_tests_cant": "Tests compare losses with stored numbers; a systematic bias of the measured normals is part of the stored numbers.", "anchors": ["artist/optim/kinematics_reconstructor.py:_compute_measured_normals", "artist/optim/kinematics_reconstructor.py:_compute_alignment_loss", "artist/optim/loss.py:AngleLoss"]}
{"id": "C70", "title": "Rotations between two directions take one to the other", "statement": "The angle and axis returned for two orientations describe a rotation (unit axis, angle between 0 and pi) that takes the direction of the first to that of the second, for every pair of vectors that are not zero, including parallel and opposite ones. The rotation vector returned for an initial and a target vector does the same. The shift added to the initial angle of the first linear actuator on loading cancels the offset the kinematics apply, so a heliostat without deviations turns the upward surface by exactly the configured angle.", "quantifier": "all pairs of non-zero vectors; all heliostats without deviations and all angles", "why_tests_cant": "Tests check a handful of axis-aligned pairs against stored numbers; the degenerate branches split the continuum of directions at a tolerance.", "anchors": ["artist/geometry/rotations.py:rotation_angle_and_axis", "artist/geometry/rotations.py:decompose_rotations", "artist/io/h5_scenario_parser.py:linear_actuators"]}
{"id": "C71", "title": "Configured kinematics and actuators mean what their names say", "statement": "After a scenario with given kinematics deviations and actuator parameters is written and loaded, every value acts at the place its name says: the orientation for any motor positions is the documented chain of position, first-joint tilts and translation, rotation about east, second-joint tilts and translation, rotation about up, concentrator translation, with exactly the configured values (0 where left out), motor limits and directions included. The configured initial orientation is the orientation of the mirror at motor positions zero.", "quantifier": "all configurations with any subset of the thirteen deviations and five actuator parameters, all actuator keys, all motor positions", "why_tests_cant": "Tests load one scenario file and compare with stored tensors; swapped names or indices are only visible for values that differ, and there are 2^18 subsets of optional values.", "anchors": ["artist/util/config.py:KinematicsDeviations.create_kinematics_deviations_dict", "artist/util/config.py:ActuatorParameters.create_actuator_parameters_dict", "artist/io/h5_scenario_parser.py:rigid_body_deviations", "artist/io/h5_scenario_parser.py:linear_actuators", "artist/io/h5_scenario_parser.py:ideal_actuators", "artist/field/kinematics_rigid_body.py"]}
{"id": "C72", "title": "The focal spot loss is a distance on the target", "statement": "For each sample the focal spot loss is the distance in metres, on the target area, between the centres of brightness of the predicted and the measured bitmap: never negative, the same when the two are exchanged, and zero exactly when both centres lie at the same place. For bitmaps traced from rays it is the distance of the mean hit points up to one pixel. Each bitmap is read at its own resolution.", "quantifier": "all pairs of bitmaps of all resolutions, planar and cylindrical target areas of all sizes, all collections of rays", "why_tests_cant": "Tests compare stored loss values for a few bitmaps of one resolution; whether the value is a distance for every bitmap, and what happens at another resolution, is not visible from samples.", "anchors": ["artist/optim/loss.py:FocalSpotLoss", "artist/flux/bitmap.py:get_center_of_mass", "artist/geometry/coordinates.py:bitmap_coordinates_to_target_coordinates"]}
{"id": "C73", "title": "Light sources are loaded as configured", "statement": "Every light source configuration that is accepted can be written to a scenario file and loaded again; the loaded scenario has one light source per configuration, in the order of the names, each with the configured number of rays, mean and covariance, and values left out take their defaults. Changing the number of rays changes the light source that is traced and nothing else. Errors name what is missing.", "quantifier": "all lists of light source configurations with distinct keys, all subsets of the optional values, all files", "why_tests_cant": "Tests use one complete sun; leaving out an optional value, a sun without spread, several suns and their order, and the error reported for an incomplete file are not exercised.", "anchors": ["artist/util/config.py:LightSourceConfig", "artist/util/config.py:LightSourceListConfig", "artist/scenario/h5_scenario_generator.py:generate_scenario", "artist/scene/light_source_array.py:LightSourceArray.from_hdf5", "artist/scene/sun.py:Sun.from_hdf5", "artist/scenario/scenario.py:Scenario.set_number_of_rays"]}
{"id": "C74", "title": "Distortions of the sun are reproducible and do not disturb other random numbers", "statement": "Creating a ray tracer with a given sun, seed and sizes gives the same distortions whatever the program did before; each distortion is the mean plus the root of the covariance times a standard normal number. Heliostats of different groups have distortions of their own, and the random numbers of the user are not affected by tracing.", "quantifier": "all programs that seed, draw and trace in any order, all suns, seeds and sizes, all random number generators", "why_tests_cant": "Tests fix the seed and compare stored values; relations between several calls and the effect on the global generator are not observed.", "anchors": ["artist/scene/sun.py:Sun.get_distortions", "artist/raytracing/sampling.py:DistortionsDataset", "artist/raytracing/heliostat_ray_tracer.py:HeliostatRayTracer.__init__"]}
{"id": "C75", "title": "The limit of the local flux is the configured flux density", "statement": "In the aim point optimisation the penalty on the local flux is zero exactly if no pixel exceeds its limit, the limit belongs to the target area that is optimised, and a flux respects the limit exactly if its density is at most the configured maximum: a uniform irradiation of the target is penalised if and only if its density exceeds the maximum.", "quantifier": "all towers, target area indices, bitmaps, resolutions, densities, weights, and uniform irradiations of any fineness", "why_tests_cant": "Tests only check that the optimisation lowers the loss; the relation between limit, resolution and density is never looked at and differs by less than a percent at the usual resolution.", "anchors": ["artist/optim/aim_point_optimizer.py:305-348", "artist/optim/aim_point_optimizer.py:619-646", "artist/optim/aim_point_optimizer.py:808-821"]}
{"id": "C76", "title": "The target areas of a loaded scenario are those configured", "statement": "A scenario generated from configurations of planar and cylindrical target areas can be loaded, and the loaded tower has exactly these target areas, each with its configured center, normal, size, axis, radius and opening angle; aiming at a target area by its name means its configured center.", "quantifier": "all lists of configurations of both kinds (any number, any order, also repeated names), all values", "why_tests_cant": "Tests load files that contain both kinds of target areas with given names; the case of no target area of one kind, repeated names and the order of names are not covered.", "anchors": ["artist/util/config.py:52-289", "artist/scenario/h5_scenario_generator.py:165-270", "artist/field/tower_target_areas_planar.py:76-143", "artist/field/tower_target_areas_cylindrical.py:104-193", "artist/field/solar_tower.py:92-127"]}
{"id": "C77", "title": "Measured towers become the target areas that were measured", "statement": "Extracting a tower measurement file gives for every target area the plane or cylinder whose corners were measured: a ray is counted on a planar target exactly if it meets the measured rectangle, and a cylinder is recovered from its corners with its center, height, axis, radius and opening. The order of the entries in the file does not matter.", "quantifier": "all files, all rectangles and cylinder segments in space, all rays", "why_tests_cant": "Tests compare with the values extracted from the one tower of the project, whose planar targets face north and whose receiver opens 60 degrees.", "anchors": ["artist/io/paint_scenario_parser.py:39-248", "artist/io/paint_scenario_parser.py:1015-1054", "artist/raytracing/geometry.py:44-204"]}
{"id": "C78", "title": "STRAL files are read as they were written", "statement": "Reading a STRAL file returns for every facet, in the order of the file, the position, the canting vectors and for every point its position and normal exactly as written. A file that is not complete is rejected.", "quantifier": "all surfaces (any number of facets and points, any bit patterns of the numbers), all lengths at which the file is cut off", "why_tests_cant": "The one test file is complete and has four facets; the binary layout for other contents and incomplete files are not covered.", "anchors": ["artist/io/stral_scenario_parser.py:15-132", "artist/util/indices.py:63-96"]}
{"id": "C79", "title": "Fitted surfaces use measured points together with their own normals", "statement": "The surface of a facet is fitted to points and normals of the deflectometry file that belong to this facet, every point together with the normal measured at it; the selection is spread over the whole facet. Files in which points or normals are missing are rejected.", "quantifier": "all files (any numbers of facets, points and normals), all step sizes", "why_tests_cant": "Tests use one file with complete data; different numbers of points per facet and missing normals are not covered.", "anchors": ["artist/io/paint_scenario_parser.py:474-542", "artist/io/paint_scenario_parser.py:643-665", "artist/scenario/surface_generator.py:291-353"]}
{"id": "C80", "title": "The fit of a facet depends only on its own measurements", "statement": "When the surface of a heliostat with several facets is fitted, every facet gets the control points it would get if it were fitted alone, in any order of the facets.", "quantifier": "all lists of facets, all optimizers, all schedulers that reduce the learning rate on plateaus, all losses", "why_tests_cant": "Tests fit all facets together once and compare with stored values; the influence of one facet on another is not visible.", "anchors": ["artist/scenario/surface_generator.py:186-223", "artist/scenario/surface_generator.py:337-372"]}
{"id": "C81", "title": "Heliostats from PAINT files are the heliostats that were measured", "statement": "A heliostat extracted from a PAINT properties file, written to a scenario and loaded stands at the measured position relative to the power plant, has the measured joint translations without tilts, its two actuators with the measured parameters and limits, and the measured facets in order. Several files give several heliostats in order, the prototype is the last one. Files in which something is missing or contradictory are rejected.", "quantifier": "all heliostats (any number of facets, any values), all files, all lists of files, all positions of the power plant", "why_tests_cant": "Tests compare a few numbers from one or two well-formed files; incomplete files, contradictory numbers of facets and the whole path through file and loader are not covered.", "anchors": ["artist/io/paint_scenario_parser.py:251-471", "artist/io/paint_scenario_parser.py:545-593", "artist/io/paint_scenario_parser.py:668-844", "artist/scenario/surface_generator.py:378-430"]}
{"id": "C82", "title": "Facets keep their number and their order", "statement": "The facets of a loaded heliostat are the configured facets (its own or those of the prototype), all of them and in the configured order; a scenario in which heliostats differ in their numbers of facets is rejected.", "quantifier": "all prototypes, all lists of heliostats, all facets with any keys and any number of facets", "why_tests_cant": "Tests have heliostats with one or four facets; the alphabetical order of the file only shows with ten or more facets or with keys chosen by the user.", "anchors": ["artist/util/config.py:520-532", "artist/io/h5_scenario_parser.py:36-76", "artist/scenario/h5_scenario_generator.py:143-163", "artist/scenario/surface_generator.py:361", "artist/scenario/surface_generator.py:424"]}
{"id": "C83", "title": "Every ray of every surface point is traced once", "statement": "Tracing combines each generated ray with each surface point exactly once and gives every ray its share of the power, so all rays together carry the power received; numbers of rays or points that do not fit are rejected.", "quantifier": "all numbers of rays, of surface points loaded and of surface points active, all powers", "why_tests_cant": "Tests trace with the numbers the tracer was created for; changing the number of rays later or reconstructing with another evaluation grid is not tried.", "anchors": ["artist/raytracing/heliostat_ray_tracer.py:118-198", "artist/raytracing/heliostat_ray_tracer.py:316-420", "artist/raytracing/heliostat_ray_tracer.py:520-585", "artist/raytracing/sampling.py:20-85", "artist/scenario/scenario.py:421-430", "artist/optim/surface_reconstructor.py:382-427"]}
{"id": "C84", "title": "Regularisers hold the reconstructed surface back in proportion to their weights", "statement": "In the surface reconstruction the smoothness and ideal surface regularisers keep the surface smooth and close to the original: the original surface is not penalised, a surface that deviates more costs more, and the pull towards smooth surfaces is the configured weight relative to the flux loss.", "quantifier": "all numbers of heliostats, all control points, all flux losses and constraints, all weights, all differentiable changes of the surfaces", "why_tests_cant": "Tests compare the final control points of short runs with stored values; the effect of the balancing factors on the slope of the loss is not observable there.", "anchors": ["artist/optim/surface_reconstructor.py:656-747", "artist/optim/surface_reconstructor.py:1025-1054", "artist/optim/regularizers.py:80-186"]}
{"id": "C85", "title": "The result of an optimisation is the one whose losses are reported", "statement": "When an optimisation ends, the parameters (motor positions, surfaces, kinematics) it leaves in the scenario are those for which the returned loss and test losses were computed; in particular an optimisation that ends because its loss is within the tolerance leaves parameters within the tolerance.", "quantifier": "all losses, updates and initial parameters, all epoch limits, tolerances, log steps and early stopping settings", "why_tests_cant": "Tests compare final losses and parameters with stored values of short runs; that a loss belongs to other parameters than those returned does not show in either value.", "anchors": ["artist/optim/surface_reconstructor.py:960-1155", "artist/optim/kinematics_reconstructor.py:799-880", "artist/optim/kinematics_reconstructor.py:969-1045", "artist/optim/aim_point_optimizer.py:350-408", "artist/optim/aim_point_optimizer.py:832-970"]}
{"id": "C86", "title": "Aligning puts the mirrors where the last alignment says", "statement": "Aligning active heliostats, with motor positions or with incident ray directions, moves every surface point and normal of each of them by the rigid motion of its own orientation; the result depends only on the last alignment; heliostats that were not activated are rejected.", "quantifier": "all groups, masks, motor positions, incident directions, aim points, all histories of activations and alignments", "why_tests_cant": "Tests align once after one activation; a second alignment of the same active heliostats is not tried.", "anchors": ["artist/field/heliostat_group_rigid_body.py:169-270", "artist/field/heliostat_group.py:225-315", "artist/field/kinematics_rigid_body.py:510-634"]}
{"id": "C87", "title": "Rays are blocked by the mirrors where they stand", "statement": "When rays are traced with blocking, every heliostat blocks with the mirror surface as it is oriented at that moment: aligned heliostats with the surface their own rays start from, all others with their mirrors lying at their positions; for any order of activating, aligning, creating tracers and tracing.", "quantifier": "all fields, groups, masks, alignments, and orders of activation, alignment, tracer creation and tracing", "why_tests_cant": "Tests create a new tracer after aligning one group once; re-using a tracer after another alignment, or creating it before other groups are aligned, is not compared against the surfaces that should block.", "anchors": ["artist/raytracing/heliostat_ray_tracer.py:157-183", "artist/raytracing/heliostat_ray_tracer.py:292-301", "artist/field/heliostat_group.py:225-272", "artist/field/heliostat_group_rigid_body.py:169-270"]}
{"id": "C88", "title": "Distributed optimisations come to an end", "statement": "Surface and kinematics reconstruction and aim point optimisation with several processes end on all processes, for any number of processes and heliostat groups and for any losses: no process waits for another one that has already left its optimisation loop.", "quantifier": "all numbers of processes and groups, all losses of all processes, all orders in which the processes advance", "why_tests_cant": "Tests run in one process; whether processes that decide for themselves when to stop still meet in every exchange depends on all losses and on all schedules.", "anchors": ["artist/optim/surface_reconstructor.py:766-838", "artist/optim/surface_reconstructor.py:967-1124", "artist/optim/kinematics_reconstructor.py:637-705", "artist/optim/kinematics_reconstructor.py:976-1056", "artist/optim/aim_point_optimizer.py:515-519", "artist/optim/aim_point_optimizer.py:694-720", "artist/optim/aim_point_optimizer.py:839-964"]}
{"id": "C89", "title": "Validation and earlier use of a group do not influence a reconstruction", "statement": "The parameters, losses, number of epochs and reason to stop of a surface or kinematics reconstruction do not depend on how often it validates (log_step) nor on which heliostats were activated, aligned or traced on the group before, although all of this uses the same group object. The training losses are computed from the training samples and the test losses from the test samples, with the parameters at that time.", "quantifier": "all masks of the two splits, all earlier sequences of activations and updates, all log steps, all losses, updates and numbers of epochs", "why_tests_cant": "Training and validation overwrite the same active tensors alternately; a leak would show only for particular interleavings of epochs, log steps and earlier calls.", "anchors": ["artist/optim/surface_reconstructor.py:157-303", "artist/optim/surface_reconstructor.py:509-554", "artist/optim/surface_reconstructor.py:967-1124", "artist/optim/kinematics_reconstructor.py:184-295", "artist/optim/kinematics_reconstructor.py:506-577", "artist/field/heliostat_group.py:211-315"]}
{"id": "C90", "title": "Learning rates follow the configured schedule", "statement": "The learning rate of the first epoch is the configured initial learning rate, and afterwards it follows the configured schedule: exponential decay with the number of epochs; a triangle between lr_min and lr_max; or reductions on plateaus, which never go below lr_min, never raise the rate, happen only after patience epochs without relative improvement and not during the cooldown.", "quantifier": "all parameters of the schedulers, all sequences of losses, all epochs", "why_tests_cant": "The schedule depends on the whole sequence of losses; tests run few epochs and check only the final result.", "anchors": ["artist/optim/training.py:13-90", "artist/optim/surface_reconstructor.py:451-464", "artist/optim/surface_reconstructor.py:1068-1074", "artist/optim/kinematics_reconstructor.py:393-410", "artist/optim/aim_point_optimizer.py:281-293", "artist/optim/aim_point_optimizer.py:910-914", "artist/scenario/surface_generator.py:215-216"]}
{"id": "C91", "title": "Processes sharing a heliostat group train one common set of parameters", "statement": "When several processes share a heliostat group in a reconstruction, all of them hold the same parameters after every epoch, namely those a single process would get with the mean of their gradients.", "quantifier": "all numbers of processes and epochs, all losses, gradients and optimizers", "why_tests_cant": "Needs several processes per group and schedules in which their losses behave differently; tests run in one process.", "anchors": ["artist/optim/surface_reconstructor.py:766-790", "artist/optim/surface_reconstructor.py:1052-1074", "artist/optim/kinematics_reconstructor.py:637-660", "artist/optim/kinematics_reconstructor.py:978-1001", "artist/optim/training.py:64-90"]}
{"id": "C92", "title": "The focal spot of an aligned heliostat lies at its aim point", "statement": "A heliostat that was aligned with an aim point on a planar target area and is then traced produces a bitmap whose focal spot is the aim point. For an ideal flat mirror and a sun without distortions the difference in east and in up direction is at most half a pixel, plus the share of the epsilon of the centre of mass, plus the error of the alignment times the distance over the cosine at the target. For any surface and any sun the focal spot is off by no more than the radius of the mirror plus distance times the largest deviation of a ray, over that cosine, whichever rays are partly blocked or miss the target.", "quantifier": "all orientations, aim points, sun directions, surfaces, distortions, planar targets, blocking masks, resolutions, ray and point counts", "why_tests_cant": "Joins alignment, ray tracing, splatting and focal spots; tests compare stored bitmaps for one field and do not bound the error.", "anchors": ["artist/field/kinematics_rigid_body.py:RigidBody.incident_ray_directions_to_orientations", "artist/raytracing/heliostat_ray_tracer.py:276-508", "artist/raytracing/geometry.py:11-204", "artist/flux/bitmap.py:45-71", "artist/geometry/coordinates.py:182-218"]}
{"id": "C93", "title": "A further heliostat never makes another one brighter", "statement": "With blocking switched on, heliostats appended to a field only take light away: every heliostat that the blocking filter returned for a batch of rays it still returns, no ray of the batch is blocked less, and no pixel of any image gets brighter.", "quantifier": "all fields, all appended heliostats, all batches of rays, all targets, surfaces and resolutions", "why_tests_cant": "A comparison of two runs; the effect depends on how the tree of all heliostats is built, which changes globally when one is added.", "anchors": ["artist/raytracing/blocking.py:513-995", "artist/raytracing/heliostat_ray_tracer.py:435-494"]}
{"id": "C94", "title": "Moving the whole scene changes nothing", "statement": "If all heliostat positions, aim points, target areas and hence all surface points are moved by the same vector, alignment gives the same motor positions and orientations followed by the move, the blocking filter ends or not as before with the same heliostats, every ray is blocked to the same degree, and every bitmap and factor is the same; focal spots move with the target.", "quantifier": "all vectors, all fields and rays, all heliostats, sun directions, iteration limits, surfaces, distortions, planar and cylindrical targets, resolutions", "why_tests_cant": "A relation between two runs for every offset; the filter quantises positions on a grid, builds a tree and may fail or not end, and tests use one scenario at one place.", "anchors": ["artist/raytracing/blocking.py:12-995", "artist/raytracing/heliostat_ray_tracer.py:220-562", "artist/raytracing/geometry.py:44-330", "artist/field/kinematics_rigid_body.py:194-634"]}
{"id": "C95", "title": "A scenario is saved completely and under its own name, or not at all", "statement": "Generating a scenario writes every configured value to the file of the requested name (with the ending .h5) and touches no other file; scenarios with different names are saved to different files; if generation fails, a scenario saved earlier under that name is still there.", "quantifier": "all configurations, all file names, all contents of the folder", "why_tests_cant": "The names and the place at which a generation fails are unbounded; the test generates a few complete scenarios into an empty folder.", "anchors": ["artist/scenario/h5_scenario_generator.py:165-301", "artist/util/config.py:292-421"]}
{"id": "C96", "title": "Mirroring a scene mirrors the image", "statement": "If the sun, the heliostat surface, the sun shape and a planar target are mirrored at the north-up plane, the bitmap is the mirrored bitmap, and the reported factors are the same.", "quantifier": "all planar targets, surfaces, sun directions, distortions, resolutions from two pixels on", "why_tests_cant": "The scenes are a continuum; the tests compare single bitmaps with stored ones, which a swapped sign in one of the two conventions (axis of the bitmap, sense of a rotation) would change in all of them alike.", "anchors": ["artist/raytracing/heliostat_ray_tracer.py:220-562", "artist/raytracing/geometry.py:11-206", "artist/geometry/transforms.py:7-85"]}
{"id": "C97", "title": "Evaluating many facets at once gives what each gives alone", "statement": "Points and normals computed for a batch of surfaces with several facets are, facet by facet, those computed for the facet alone with its own control points, canting, translation and evaluation points; leaving out, repeating or reordering surfaces does the same to the result. A batch fails only if one of its facets fails alone or the numbers of surfaces and facets do not agree.", "quantifier": "all numbers of surfaces, facets, points and control points, all degrees, all parameters from zero on", "why_tests_cant": "A swapped batch dimension or a wrong broadcast changes nothing as long as the facets in the test are alike or there is one of them; the tests use one or two surfaces with equal knots.", "anchors": ["artist/nurbs/surfaces.py:98-155", "artist/nurbs/surfaces.py:194-207", "artist/nurbs/surfaces.py:419-727", "artist/geometry/transforms.py:276-347"]}
{"id": "C98", "title": "Log messages go once to every configured destination", "statement": "After setting up the logger, a message of the configured level or above is written exactly once to each configured destination, others are not written; run times are written to the requested runtime log.", "quantifier": "all sequences of calls of the set-up functions, all levels", "why_tests_cant": "Where a message goes depends on the whole history of set-up calls in the process; nothing in the test-suite configures the loggers.", "anchors": ["artist/util/__init__.py:80-174", "artist/util/__init__.py:210"]}
{"id": "C99", "title": "The runtime log accounts for every tracked call", "statement": "Every tracked call writes a line when it starts and one with its run time when it ends, properly nested; the run time of a function contains those of the tracked functions it calls.", "quantifier": "all trees of calls, all durations, all patterns of exceptions", "why_tests_cant": "Call trees are unbounded and exceptions can occur anywhere in them.", "anchors": ["artist/util/__init__.py:177-207"]}
{"id": "C100", "title": "The power on all target areas together never exceeds the sunlight caught by the mirrors", "statement": "When a ray tracer is created with a direct normal irradiance and a group is traced, the pixels of the bitmaps of all target areas together sum to at most the sunlight that the active mirrors catch (irradiance times mirror area times the cosine of the angle under which the light falls on the mirror), reduced by extinction and reflectivity; all pixels are non-negative, and a single target area gets at most the share of the heliostats aiming at it.", "quantifier": "All groups, activation masks with equal counts, batch sizes, target areas (planar and cylindrical), distortions, blocking masks, irradiances, extinction and reflectivity factors.", "why_tests_cant": "A test compares a bitmap with a stored one and cannot tell whether the stored one respects the power balance; it sees one geometry, one batch size and one sun position.", "anchors": ["artist/raytracing/heliostat_ray_tracer.py:184-206", "artist/raytracing/heliostat_ray_tracer.py:276-508", "artist/raytracing/heliostat_ray_tracer.py:563-608"]}
{"id": "C101", "title": "Every request (heliostat, target area, light direction) contributes exactly its own image to its own target area", "statement": "When a list of requests (heliostat, target area, light direction) is turned into indices, traced and summed per target area, the bitmap of every target area is the sum of the images of exactly those requests of the group that name it, whatever the order of the list, whatever other heliostats it names and on however many processes it runs.", "quantifier": "All groups with distinct names, request lists (any order, repetitions, foreign heliostats), target areas, batch sizes, numbers of processes.", "why_tests_cant": "Tests request every heliostat equally often on one process and compare with stored bitmaps; neither the order of the list, nor unequal repetitions, nor shared groups are tried, and uninitialised rows can look like zeros.", "anchors": ["artist/scenario/scenario.py:261-419", "artist/field/heliostat_group.py:225-315", "artist/raytracing/heliostat_ray_tracer.py:276-508", "artist/raytracing/heliostat_ray_tracer.py:563-608", "artist/raytracing/sampling.py:107-147"]}
{"id": "C102", "title": "Every constraint of the aim point optimisation acts on the motor positions", "statement": "An aim point optimisation is configured with weights for three constraints (flux integral, spillage, local flux). A larger weight changes the motor positions that are tried whenever the constraint is violated: the flux integral is pushed up while it is below its initial value, the brightest pixel is pushed down while it is above the limit, and heliostats whose rays miss the target more often than at the start are pushed back.", "quantifier": "All plants (dependence of flux and intercept factors on the parameters), weights, multipliers, optimisers, learning rate schedules that do not follow the loss, stopping rules, numbers of epochs.", "why_tests_cant": "A test runs a few epochs with one set of weights and compares the final loss with a stored value; a constraint without any effect on the gradient still changes the reported loss.", "anchors": ["artist/optim/aim_point_optimizer.py:606-679", "artist/optim/aim_point_optimizer.py:839-951", "artist/raytracing/heliostat_ray_tracer.py:496-506"]}
{"id": "C103", "title": "Rounding does not change an image beyond the rounding errors of adding up", "statement": "Ray tracing computes in single precision. Every pixel of a bitmap (and every pixel of the sums per target area) is, up to one relative rounding error per ray that reaches the pixel and four more, the exact sum of the parts of the ray intensities that belong to it, whatever the order in which a GPU adds them. No pixel becomes negative, no index error arises, the blocking mask stays between 0 and 1, and blocking, attenuation and reflectivity never make a ray brighter.", "quantifier": "All rays (coordinates and intensities that are numbers of the format and not negative), bitmap resolutions up to the largest exact whole number, orders of addition, floating point formats with rounding to nearest; float32 is shown to be one of them.", "why_tests_cant": "A test compares an image with a stored one within a tolerance chosen by experience; it cannot bound the error for other rays, other numbers of rays or another order of atomic additions.", "anchors": ["artist/raytracing/heliostat_ray_tracer.py:482-494", "artist/raytracing/heliostat_ray_tracer.py:570-608", "artist/raytracing/heliostat_ray_tracer.py:610-778", "artist/raytracing/blocking.py:338-354"]}
{"id": "C104", "title": "Rounding does not make the filter for blocking planes lose a blocker", "statement": "The filter works in single precision. The Morton codes of any heliostat positions are computed without an error, and along each axis rounding never reverses the order of two positions. Whatever the rounding of the codes, searching the tree reports exactly the heliostats on the tree whose own box passes the rounded test: an inner box is never missed when a box inside it is hit. A ray that passes a box by more than eight relative rounding errors (half a millimetre at one kilometre) passes the rounded test, and a ray that passes the rounded test passes the box up to that margin; at the very edge of a box the rounded test can disagree with the exact one.", "quantifier": "All positions, boxes and rays given by finite numbers of the format (directions of length about one, no component within 1e-12 of -1e-12), all trees without loops, all floating point formats with relative error up to 2^-12; float32 is shown to be one of them.", "why_tests_cant": "Tests use a handful of rays far from edges; whether some rounding makes an inner box of the tree smaller than its content cannot be found by sampling.", "anchors": ["artist/raytracing/blocking.py:392-443", "artist/raytracing/blocking.py:752-791", "artist/raytracing/blocking.py:831-995"]}
{"id": "C105", "title": "The bitmap follows small movements of the rays, and the gradients are its derivatives", "statement": "When the points at which rays hit the target move inside the bitmap, the bitmap changes continuously: all pixels together change by at most twice the distance in pixels (east plus up), weighted with the intensities of the rays. For any loss on the bitmap, the gradients that backpropagation delivers for the hit points and intensities are the derivatives of that loss, for any differentiable movement of all rays at once, as long as no hit lies exactly on a pixel line; there they are the derivatives for movements to the east and upwards. Rays outside the grid of pixel centres get no gradient.", "quantifier": "all bitmap sizes, all numbers of rays, all hit points and intensities, all gradients of a loss with respect to the pixels, all differentiable paths of the rays", "why_tests_cant": "A test compares gradients with finite differences at a few points; that the derivative is right everywhere off the pixel lines, that the bound holds for every movement, and what happens on the lines and at the border are statements about all points and all movements.", "anchors": ["artist/raytracing/heliostat_ray_tracer.py:610-778"]}
{"id": "C106", "title": "Samples without a gradient are left out of an epoch, all others count", "statement": "In the alignment-driven kinematics reconstruction a calibration sample whose gradient is undefined (NaN or infinite) has no influence on the training epoch; the parameters of every heliostat are updated with the derivative of the loss of all its other samples.", "quantifier": "all numbers of heliostats and samples, all predicted and measured normals, all dependencies of the normals on the parameters", "why_tests_cant": "A test runs a reconstruction on a few measurements and looks at the final loss; which samples have no gradient, and that such a sample changes what is learned from the others, is a statement about all combinations of samples.", "anchors": ["artist/optim/kinematics_reconstructor.py:506-533", "artist/optim/kinematics_reconstructor.py:820-828", "artist/optim/loss.py:457-459"]}
{"id": "C107", "title": "Rounding in the search for knot spans does no harm", "statement": "A facet with uniform knots can be evaluated at every float32 parameter in the half-open unit square, although the knot span of the parameter is found from a rounded product: the search never leaves the control points, it finds the span of the parameter or, just below a knot, the next one, and the evaluated point is the one of the textbook surface up to an error of the order of the rounding error to the power of the degree.", "quantifier": "all degrees, numbers of control points (up to 2^24 spans), control points, float32 parameters; the bound for every rounding that is monotone and exact for whole numbers", "why_tests_cant": "Parameters that fall into the wrong span are rare (a few float32 numbers just below some knots for some numbers of control points), and a sample cannot bound the error for all degrees and sizes.", "anchors": ["artist/nurbs/surfaces.py:198-207", "artist/nurbs/surfaces.py:325-342", "artist/nurbs/surfaces.py:524-657"]}
{"id": "C108", "title": "The image follows the motors", "statement": "On a planar target, every pixel of the flux image is a continuous function of the motor positions, the kinematic parameters, the direction of the sun and the mirror surface, except where a ray meets the edge of the target; there the image jumps. Rays that graze the target or pass it by cause no jump. Where in addition no ray meets a pixel line and none is parallel to the target, every loss of the image has a derivative, and it is the one that backpropagation through rays and bitmap gives.", "quantifier": "all heliostats, numbers of surface points and rays, scatterings, planar targets, resolutions, and all continuous or differentiable dependences on a parameter", "why_tests_cant": "A test can move the motors in a few finite steps; it cannot tell a jump from a steep slope, and the exceptional positions have measure zero, so that samples miss them.", "anchors": ["artist/field/kinematics_rigid_body.py:194-324", "artist/field/actuators_linear.py:180-291", "artist/raytracing/heliostat_ray_tracer.py:253-508", "artist/raytracing/geometry.py:11-204", "artist/raytracing/blocking.py:212-354"]}
{"id": "C109", "title": "The image follows the control points", "statement": "Moving the NURBS control points of a mirror by at most some distance moves no point of its surface by more, and the movement of a point is linear in that of the control points. As evaluated during a surface reconstruction, every pixel of the image on a planar target is continuous in the control points of all facets, unless a ray meets the edge of the target, and every loss of the image has a derivative where no ray meets a pixel line and no tangents of the mirror are parallel. The loading of a scenario is not continuous: if the facets are flat and one control point of one facet is lifted by any amount, all facets lose their position and canting.", "quantifier": "all numbers of facets, control points and evaluation points, degrees, control points and directions of change, scenes and resolutions", "why_tests_cant": "Tests use a few surfaces; continuity and derivatives are statements about all nearby surfaces, and the jump on loading needs a control point that differs from zero by a rounding error in a file.", "anchors": ["artist/nurbs/surfaces.py:475-689", "artist/optim/surface_reconstructor.py:509-575", "artist/field/surface.py:61-121", "artist/raytracing/heliostat_ray_tracer.py:253-508"]}
{"id": "C110", "title": "Alignment converges for heliostats whose mirror moves with the joints", "statement": "For a heliostat whose mirror centre is carried around by its joints, every alignment iteration brings the mirror centre closer to where it settles by a factor of about arm length over distance to the aim point; aligned with at least two iterations it reflects the sun to the aim point up to twice the arm length over the distance plus 4e-8 over a cosine, and with more iterations up to the movement left after n - 2 contractions or the movement belonging to a loss change of the tolerance, for the returned orientations and for the stored motor positions alike; the focal spot of its flux image is at the aim point up to that error and the resolution of the bitmap.", "quantifier": "for all heliostats (positions, tilts, translations, actuators), sun directions, aim points, neighbours in the batch, numbers of iterations and tolerances, provided that the aim point stays away, the light does not come from behind, the wanted normal stays away from the first axis, the actuators can realise the angles and the same one of the two solutions is chosen throughout", "why_tests_cant": "tests align a few heliostats and compare with stored matrices; they say nothing about how the error depends on arm length, distance, iterations and tolerance, or about any other heliostat", "anchors": ["artist/field/kinematics_rigid_body.py:194-634"]}
{"id": "C111", "title": "The motors follow the sun without jumps", "statement": "When the direction of the sunlight and the aim points change continuously, the motor positions and orientations that alignment computes change continuously, and so does the brightness of every pixel of the image on a planar target.", "quantifier": "for all groups of heliostats with linear or ideal actuators (positions, tilts, translations, limits), all continuous paths of sun and aim points, all numbers of iterations and tolerances, mirrors and bitmaps", "why_tests_cant": "tests align for a few fixed suns and compare with stored values; continuity is a statement about all neighbouring suns, and the exceptions (half turns, limits) are of measure zero", "anchors": ["artist/field/kinematics_rigid_body.py:326-634", "artist/field/actuators_linear.py:293-370", "artist/field/actuators_ideal.py:66-111"]}
{"id": "C112", "title": "The image follows the motors on cylindrical targets", "statement": "When motors, kinematic parameters, sun and mirror change continuously, so does the brightness of every pixel of the image on a cylindrical target; when they are differentiable, losses of the image have the gradients that the backward pass and the chain rule give.", "quantifier": "for all scenes that depend on a parameter, all framed cylinders with positive radius, height and opening angle, all bitmaps with at least two rows and columns, all blocking masks that are continuous in the parameter", "why_tests_cant": "tests trace a few fixed rays onto one cylinder; continuity and derivatives are limits, and the places where the image jumps (edge, the line where the angle wraps, outline) are of measure zero", "anchors": ["artist/raytracing/geometry.py:207-445", "artist/raytracing/heliostat_ray_tracer.py:391-700"]}
{"id": "C113", "title": "Basis function derivatives are right to every order", "statement": "Asked for any number of derivatives, also more than the degree, the NURBS module returns for each of the basis functions that do not vanish at the evaluation point exactly its derivatives of all orders up to that number: the repeated right derivatives of the Cox-de Boor basis functions, which between two knots are the ordinary derivatives.  Orders above the degree give zero, derivatives of order at least one sum to zero over the basis functions, and how many orders are requested does not change the values of the others.", "quantifier": "For all sorted knot vectors (also with repeated knots), all degrees, all numbers of derivatives, all orders up to it and all evaluation points in a span that is not empty.", "why_tests_cant": "Tests evaluate one surface with first derivatives; the work rows of the algorithm are reused from one basis function to the next and swapped between the orders, so that higher orders read entries written for other functions if a bound is off by one, which no first-order test can reveal.", "anchors": ["artist/nurbs/surfaces.py:247-417"]}
{"id": "C114", "title": "Moving a prediction towards the measurement lowers every loss", "statement": "For each loss function (squared error of vectors, pixel loss, Kullback-Leibler divergence, angle, cosine similarity, focal spot): if a prediction is changed evenly towards the measurement, the loss falls strictly all the way to zero, and its slope at the beginning is not zero.  So no prediction that differs from the measurement is a local minimum or a point with vanishing gradient, and gradient descent cannot get stuck in the loss function itself.  For the Kullback-Leibler divergence the measurement is taken with the brightness of the prediction; for angle and cosine the way must not pass through zero (which it does only for opposite directions); for the focal spot on a cylindrical target the target must not go around more than half of the circle.  On a receiver around the whole tower the focal spot loss rises at first.", "quantifier": "For all predictions and measurements of any size (non-negative images for the Kullback-Leibler divergence and the focal spot, not dark where the loss is undefined for dark images), all target areas within the stated limits.", "why_tests_cant": "Whether a loss has further stationary points is a statement about all images; a test evaluates the loss at a few of them and never looks at the landscape between.", "anchors": ["artist/optim/loss.py:80-121", "artist/optim/loss.py:152-248", "artist/optim/loss.py:272-319", "artist/optim/loss.py:339-410", "artist/optim/loss.py:432-459", "artist/optim/loss.py:481-506", "artist/geometry/coordinates.py:182-249"]}
{"id": "C115", "title": "Converted WGS84 positions are the true positions up to the curvature of the earth", "statement": "When latitudes, longitudes and altitudes are converted to local east-north-up coordinates, the result agrees with the true position of the point on or above the WGS84 ellipsoid, measured along east, north and up at the reference point. For latitudes up to 60 degrees and points converted to within a horizontal distance d of at most 10 km, each coordinate is off by at most (|altitude| + d) * d / 6200 km (18 cm at a distance of 1 km and 100 m above the ellipsoid). The converted height never understates the true height above the tangent plane for points at or above the ellipsoid. The conversion is not exact: on the equator the height error and the east error are given exactly.", "quantifier": "all points with |latitude| <= 60 degrees and converted distance <= 10 km, all reference points; for the sign of the height error all latitudes and distances", "why_tests_cant": "tests compare a handful of points with reference values to a tolerance; the error bound holds for a continuum of points and needs the mean value theorem on the meridian ellipse", "anchors": ["artist/geometry/coordinates.py:315-390"]}
{"id": "C116", "title": "Measured normals determine the kinematics up to one redundant parameter", "statement": "The mirror normals that two candidates for the kinematic parameters of a heliostat predict at four suitable motor positions (three of the first motor, two of the second) agree only if the tilts of the first axis, the tilt of the second axis about north, the angles of the second joint and the sum of the angle of the first joint and the tilt of the second axis about east agree, or if one mirror is the other one turned by half a turn about its normal with both joints on the other side. The tilt of the second axis about east and the initial angle of the first actuator are not determined separately by any measurement: changing one and setting back the other changes no orientation. For known actuators the four normals determine all four rotation deviations, the parameters that a kinematics reconstruction optimises.", "quantifier": "all pairs of parameter sets with tilts below 90 degrees, all actuators, all motor positions with different joint angles", "why_tests_cant": "tests run a reconstruction from one starting point and compare one result; uniqueness is a statement about all pairs of parameter sets", "anchors": ["artist/field/kinematics_rigid_body.py:194-324", "artist/field/kinematics_rigid_body.py:510-538", "artist/field/actuators_linear.py:235-291", "artist/optim/kinematics_reconstructor.py:380-410"]}
{"id": "C117", "title": "The sampled mirror determines its control points, and each control point acts where it belongs", "statement": "For a facet with clamped uniform knots, moving one control point changes points and normals only between the knots of that control point; everywhere strictly between them the surface point moves in the direction of the control point by a positive fraction of its way. If the evaluation grid is fine enough (degree + 1 grid steps fit between two knots), two heliostats with the same mounting whose sampled surface points agree have the same control points on every facet, with or without canting; so no deformation is invisible in the samples. With more than twice as many control points as grid points in one direction there are deformations that change neither a sampled point nor a sampled normal.", "quantifier": "for all degrees, numbers of control points and grid points, control nets, numbers of facets, mountings with canting vectors that are not parallel, and parameters", "why_tests_cant": "Tests deform a few control points and look at a few samples; that no combination of control points cancels out in all samples is a statement of linear independence over a continuum of nets.", "anchors": ["artist/nurbs/surfaces.py:475-689", "artist/nurbs/utils.py:7-49", "artist/field/heliostat_field.py:437-503"]}
{"id": "C118", "title": "Blocking sets in gradually when a mirror moves into a beam", "statement": "When a mirror is moved, or a ray turns, the blocked part of every ray follows without a jump, so that blocking can be differentiated and optimised.", "quantifier": "all batches of rays, all fields, all ways in which mirrors and rays depend on a parameter", "why_tests_cant": "A test compares the blocked part for a few fixed scenes. Whether it jumps somewhere between two scenes is a statement about all scenes in between, and the jump found here happens within a fraction of a nanometre.", "anchors": ["artist/raytracing/blocking.py:212-354", "artist/raytracing/blocking.py:860-960", "artist/raytracing/heliostat_ray_tracer.py:435-487"]}
{"id": "C119", "title": "Pointing errors reach the beam at most doubled", "statement": "If the joint angles of a heliostat are off by small angles and the sun by another, every reflected ray is off by at most the error of the sun plus twice the errors of the joints, and on a target it arrives within the distance times that (plus the small movement of the mirror itself) of where it should, divided by the cosine at which it meets the target. An error of a motor reaches the joint at most multiplied by a constant of the actuator.", "quantifier": "all heliostats with all deviations, all motor positions, all mirrors, all scattering, all planes, all errors (not only small ones)", "why_tests_cant": "A test compares a few perturbed alignments. A bound on the effect of every error of every motor position cannot be tested, nor that the factor two is the right one.", "anchors": ["artist/field/kinematics_rigid_body.py:194-324", "artist/raytracing/geometry.py:11-41", "artist/field/actuators_linear.py:180-291", "artist/raytracing/heliostat_ray_tracer.py:276-352"]}
{"id": "C120", "title": "An image says what the light does, to within one pixel", "statement": "Whatever rays are traced onto a planar target area, with any blocking and any resolution of at least two by two pixels, the image can stand for the light: a quantity summed over the pixels, each taken at the target coordinates the program computes for it, differs from the same quantity summed over the points where rays land by at most its change over one pixel per unit of power; the spread of the image along columns and along rows is that of the light and at most a quarter of a squared pixel larger, and the products of column and row are exactly right; as the resolution grows every quantity that is continuous where rays land tends to its value for the light, and so does the power in every region whose edge no ray hits.", "quantifier": "all rays, blocking values up to one, target areas, magnitudes, extinctions, reflectivities, resolutions, quantities with a bound on their change per metre, regions", "why_tests_cant": "Tests compare single images with stored ones at one resolution; no set of images establishes a bound for every quantity and every distribution of light, or a limit of ever finer images.", "anchors": ["artist/raytracing/heliostat_ray_tracer.py:610-778", "artist/raytracing/geometry.py:44-204", "artist/geometry/coordinates.py:bitmap_coordinates_to_target_coordinates", "artist/raytracing/heliostat_ray_tracer.py:482-508"]}
{"id": "C121", "title": "Finer sampling of the mirrors converges", "statement": "Sampled mirrors come from surfaces without gaps, and from degree two on without creases: points and normals of a facet depend continuously on the evaluation parameters, across all knots. Hence sampling a mirror with more and more points per facet converges: if the power of the heliostat is shared by all rays and every point sends the same bundle of scattered rays, the brightness of every pixel tends to the mean over the surface of the mirror of what a ray from there brings to the pixel, whatever the numbers of points in the two directions are, provided no ray meets the edge of the target. With degree one the points are still continuous, but normals jump.", "quantifier": "all facets, control points, cantings, translations, degrees (at least two for the normals and the image), orientations, light directions, bundles of scattered rays, planar targets, resolutions, pixels and all sequences of grids that become finer in both directions", "why_tests_cant": "A test renders a few numbers of surface points and looks whether the images look alike; it cannot show that there is a limit, what it is, and that no sequence of grids and no pixel escapes.", "anchors": ["artist/nurbs/surfaces.py:157-300", "artist/nurbs/surfaces.py:475-689", "artist/nurbs/utils.py:9-50", "artist/field/heliostat_field.py:437-503", "artist/raytracing/heliostat_ray_tracer.py:185-203", "artist/raytracing/heliostat_ray_tracer.py:541-553"]}
{"id": "C122", "title": "Every surface point stands for the same share of the mirror", "statement": "All rays of a heliostat carry the same power, so the surface points of a facet should be spread evenly over it: the point at the evaluation parameters x and y of a flat facet should have the share x of the width on its west side and the share y of the height on its south side. This holds exactly for degree one and for one control point more than the degree. In general the points are too sparse at the border (by the factor p(n-p)/(n-1) for degree p and n control points per direction, which is 7/3 for the default settings, so that a corner gets less than a fifth of its rays) and too dense in the middle (by the factor (n-1)/(n-p)). Control points at the means of the inner knots instead of at equal distances would spread the points evenly for all degrees and numbers.", "quantifier": "all degrees, numbers of control points, sizes of facets and evaluation parameters", "why_tests_cant": "A test compares surface points with stored ones or checks that they are in the facet; how they are spread in the limit and for all degrees and numbers of control points is a statement about infinitely many of them.", "anchors": ["artist/nurbs/utils.py:7-49", "artist/nurbs/utils.py:52-121", "artist/nurbs/surfaces.py:98-155", "artist/nurbs/surfaces.py:475-689", "artist/scenario/surface_generator.py:41-42", "artist/scenario/surface_generator.py:400-430", "artist/raytracing/heliostat_ray_tracer.py:185-203"]}
{"id": "C123", "title": "More rays give a better image: unbiased, with known noise, and convergent", "statement": "The scattering of the rays is random. If the rows of distortions (one row gives every surface point one ray) are drawn independently from one distribution, then for every regular scene, any planar or cylindrical target, with or without blocking: the expected bitmap does not depend on number_of_rays; the variance of a pixel is that for one ray per point divided by number_of_rays; the probability that a pixel is off by eps or more is at most power^2 / (4 * number_of_rays * eps^2), and if the surface points are independent too, at most power^2 / (4 * points * number_of_rays * eps^2); and almost surely the bitmap converges to the expected bitmap as number_of_rays grows. Using the same numbers again (equal seeds) does not help: the image is that of one row.", "quantifier": "all scenes with unit normals and positive target dimensions, all distributions of the distortions, all numbers of rays and points, all pixels", "why_tests_cant": "A test runs with one seed and a few rays; it sees one random image and cannot tell noise from bias, nor make a statement about all distributions or about the limit.", "anchors": ["artist/raytracing/heliostat_ray_tracer.py:184", "artist/raytracing/heliostat_ray_tracer.py:276", "artist/raytracing/heliostat_ray_tracer.py:510", "artist/scene/sun.py:199", "artist/raytracing/blocking.py:212"]}
{"id": "C124", "title": "Because the sun has no sharp edges, finer sampling of the mirrors converges whatever the rays meet", "statement": "Rendered with the normally distributed sun of the package, the image of a smooth mirror on a plane target converges when the mirror is sampled on finer and finer grids: the expected brightness of every pixel converges to the mean, over the facets and over the surface, of what a ray brings on average over the sun, and with independent rays the image itself converges in probability, even with one ray per surface point. Nothing is assumed about the rays at the edge of the target. The reason is that scattered rays meet the edge of the target with probability zero. Vertical rays are the exception: they are not scattered to the east or west at all.", "quantifier": "for all smooth mirrors (any facets, canting, control points, degrees of at least two) outside of the plane of the target that nowhere reflect light vertically, all orientations, plane targets, resolutions, distributions of the distortions with a density, numbers of rays, and all sequences of finer grids", "why_tests_cant": "A test draws finitely many rays for finitely many grids; it cannot tell whether the limit exists, and the case of rays that meet the edge of the target has probability zero.", "anchors": ["artist/scene/sun.py:get_distortions", "artist/raytracing/heliostat_ray_tracer.py:scatter_rays", "artist/raytracing/heliostat_ray_tracer.py:bilinear_splatting", "artist/field/surface.py:get_surface_points_and_normals"]}
{"id": "C125", "title": "The narrower the sun, the sharper the image, down to that of a point sun", "statement": "When the standard deviation (and the mean) of the distortions tends to zero, the rendered image of a heliostat tends to the image rendered without any distortions: the mean deviation of every pixel tends to zero, hence its expected value converges and large deviations become improbable. This holds with any numbers of rays, with blocking, and for plane and cylindrical targets, provided no undistorted ray meets an edge of the target; at an edge it fails.", "quantifier": "for all regular scenes (mirrors, targets of both kinds, resolutions, blocking masks that do not jump), all sequences of distributions of distortions that concentrate at zero (in particular normal distributions with mean and variance tending to zero), independent or not, and all numbers of rays", "why_tests_cant": "It is a statement about limits of probability distributions and about all scenes; a test sees one random image for one covariance.", "anchors": ["artist/scene/sun.py:get_distortions", "artist/raytracing/heliostat_ray_tracer.py:scatter_rays", "artist/raytracing/heliostat_ray_tracer.py:trace_rays"]}
{"id": "C126", "title": "Rounding moves a ray on the target by a small fraction of a pixel", "statement": "Tracing in float32 places every ray that truly lands on a plane target, not too close to its edges, at the true column and row up to 100 \u03b5 (R / \u03ba) pixels per length of a pixel, where \u03b5 is the relative rounding error, R the size of the scene and \u03ba the cosine of the angle of incidence; for a field of 200 m and a target of 8 m with 256 pixels this is at most 2 / 25 of a pixel.  The travelled distance and the intensity are right up to similarly small errors.  Rays that truly pass beside the target (not too close) or come from behind carry nothing in float32 either.  So every pixel of the float32 image is that of exact arithmetic up to these shifts and one relative rounding per ray that is added.  Rays closer to the edge can be decided wrongly.", "quantifier": "For every floating point format with the usual laws (float32 among them), every order of the additions, every plane target, every resolution of at least two by two, every list of rays", "why_tests_cant": "Tests compare float32 results with float32 results; how far float32 is from the true geometry for all scenes of a size cannot be sampled", "anchors": ["artist/raytracing/geometry.py:44-204", "artist/raytracing/heliostat_ray_tracer.py:610-778"]}
{"id": "C127", "title": "What ray noise does to losses and focal spots", "statement": "The pixel loss of a traced image is, on average over the drawn rays, the loss of the noise-free image plus the summed variances of the pixels, divided by the number of rays and by the measured flux.  So a perfect model does not have loss zero, and a truly better model has the smaller average loss once there are enough rays (an explicit number), but not with fewer.  The focal spot moves by at most twice the relative change of the image times the size of the bitmap (in metres: of the target), is off by more than a given amount only with a probability that falls with one over the number of rays, and almost surely converges with ever more rays, as do the pixel loss and the Kullback-Leibler loss.", "quantifier": "For every scene with plane or cylindrical target, with or without blocking, every distribution of independent rows of distortions, every number of rays, every measured image", "why_tests_cant": "An average over all draws and almost sure convergence are not observable in finitely many runs; a test with one seed sees one draw", "anchors": ["artist/optim/loss.py:250-321", "artist/optim/loss.py:152-248", "artist/flux/bitmap.py:12-71", "artist/raytracing/heliostat_ray_tracer.py:324-352"]}
{"id": "C128", "title": "Small errors lose no light and hardly move the focal spot", "statement": "If the light of a heliostat should land on a plane target further from its edges than the errors can carry it, then errors of the joint angles, of the sun position and of the mirror surface lose no light: every ray still lands, and the power in the bitmap changes by at most the angular error per ray.  The focal spot moves by at most that distance, plus the width of the target times the angular error (the rays change their weights), plus what the resolution of the two bitmaps does.  A target that the light passes at such a distance stays dark.  Errors of mirror normals and joint angles count twice, that of the sun once.  At the edge it is different: arbitrarily small errors may lose everything.", "quantifier": "For every plane target, every list of rays (any mirror, any number of rays and any scattering), every heliostat, all motor positions, all deformations of the mirror, every resolution", "why_tests_cant": "A bound on the effect of all errors of a given size is not observable in finitely many runs; each test sees one error", "anchors": ["artist/raytracing/geometry.py:11-204", "artist/raytracing/heliostat_ray_tracer.py:276-508", "artist/field/kinematics_rigid_body.py:194-324", "artist/flux/bitmap.py:12-71"]}
{"id": "C129", "title": "Rounding from the mirror to the image", "statement": "Float32 arithmetic does not bend rays noticeably. When a ray is reflected at a normal, scattered by the sampled angles, intersected with a plane target and added to the bitmap with every operation rounded, whatever the order of the additions and whether or not multiplications and additions are fused, its direction is right up to 78 units of rounding in every component; if it lands (or misses, or comes from behind) in exact arithmetic by more than an explicit margin, it does so in float32, at most four times the shift of C126 away (less than a third of a pixel, 1 cm, for a field of 200 m and 256 pixels on 8 m) and with the same intensity up to a hundred-thousandth; every pixel of the image is that of exact arithmetic up to an explicit bound", "quantifier": "For every surface point, every incident direction and normal of length at most 1.005, all scattering angles, every plane target in a field of any size, every order of additions with or without fused operations, every resolution and number of rays, and every rounding with the properties of IEEE rounding to nearest", "why_tests_cant": "Rounding errors depend on all bits of the inputs and on the hardware and library version; a test runs one order of additions on some inputs and has nothing exact to compare with", "anchors": ["artist/raytracing/geometry.py:11-204", "artist/geometry/transforms.py:13-83", "artist/raytracing/heliostat_ray_tracer.py:510-561", "artist/raytracing/heliostat_ray_tracer.py:285-335"]}
{"id": "C130", "title": "Rounding from the joint angles to the mirror", "statement": "Float32 arithmetic hardly tilts or moves mirrors. When the orientation of a heliostat is computed from its joint angles as thirteen products of 4x4 matrices, and its surface points and normals are placed with it, with every operation rounded, whatever the order of the additions and whether or not multiplications and additions are fused, then directions are turned by at most 450 units of rounding, normals are right up to 486 units (less than 0.03 mrad in float32), points up to 90 units per metre of distance from the origin, 822 per metre of lever arm, 465 per metre of distance from the centre and 269 in all (less than 1.4 mm for a field of 200 m), the homogeneous coordinates stay exactly 0 and 1, and rays leave such a mirror within 2200 units of rounding (0.14 mrad) of their exact directions", "quantifier": "For every position, all translation and rotation deviations, all joint angles, all surface points and unit normals, every order of additions with or without fused operations, and every rounding with the properties of IEEE rounding to nearest; cosine and sine are right up to two units of rounding, and unit of rounding times size of the field is small", "why_tests_cant": "Rounding errors depend on all bits of the inputs and on the hardware and library version; a test runs one order of additions on some inputs and compares with values that were themselves computed in float32", "anchors": ["artist/field/kinematics_rigid_body.py:181-190", "artist/field/kinematics_rigid_body.py:194-324", "artist/field/kinematics_rigid_body.py:510-538", "artist/field/heliostat_group_rigid_body.py:217-222", "artist/field/heliostat_group_rigid_body.py:265-270", "artist/geometry/transforms.py:86-273"]}
{"id": "C131", "title": "Rounding from the joint angles to the target", "statement": "A whole simulation in float32 puts rays where exact arithmetic does. When the orientation of a heliostat is computed from its joint angles, a surface point and a normal are placed with it, a ray is reflected and scattered there and intersected with a plane target, with every one of these operations rounded and sums added up in any order, then a ray that lands on the target by more than an explicit distance lands there in float32 too, no further than that distance away and with the right intensity; a ray that passes beside the target by more than that distance, or reaches it from behind, carries nothing. The distance is linear in the unit of rounding, in the sizes of the field, the lever arms and the mirror and in the inverse cosine of the angle of incidence (15 cm in float32 for 200 m and 60 degrees, in the worst case)", "quantifier": "For every heliostat position, all deviations and joint angles, all surface points and unit normals, all incident directions and scattering angles, every plane target in front, every resolution, every order of additions with or without fused operations, and every rounding with the properties of IEEE rounding to nearest", "why_tests_cant": "Rounding errors of more than a hundred operations accumulate in a way that depends on all bits of the inputs and on the hardware; tests compare float32 results with stored float32 results", "anchors": ["artist/field/kinematics_rigid_body.py:194-324", "artist/field/kinematics_rigid_body.py:510-538", "artist/field/heliostat_group_rigid_body.py:265-270", "artist/raytracing/heliostat_ray_tracer.py:285-335", "artist/raytracing/geometry.py:11-204"]}
{"id": "C132", "title": "Rounding in the linear actuators changes the joint angles only slightly", "statement": "In floating point arithmetic, the joint angle of a linear actuator for given motor positions differs from the exact one by at most 312 units of rounding, magnified by L\u00b2/(2\u00b7offset\u00b7pivot radius) for an actuator with lengths of at most L and by 1/sin of the angle between offset and pivot radius, plus 18 units and three per radian of initial angle. This includes the rounding of the strictly positive parameters, of the stroke, its limits and the law of cosines. Where the actuator is in line with its pivot radius only half of the digits remain, never less. Together with the rounding of the kinematics, directions and mirror centre that are computed from motor positions stay within the sum of both errors. In float32, an actuator with lengths of 32 to 40 cm that keeps thirty degrees away from the singular position has joint angles that are right up to 0.04 mrad.", "quantifier": "for all linear actuators whose lengths are large against the unit of rounding, all motor positions, all roundings with relative error u and absolute error \u03b7, all library functions that are right to a few units, and all orders of summation in the kinematics", "why_tests_cant": "Tests compare a few motor positions with tolerances that were chosen to pass, and in the same arithmetic.", "anchors": ["artist/field/actuators_linear.py:138-173", "artist/field/actuators_linear.py:180-291", "artist/field/kinematics_rigid_body.py:510-538"]}
{"id": "C133", "title": "The image and the power on the target, computed in float32 from the joint angles, are right up to explicit bounds", "statement": "If heliostats are placed from their joint angles and rays are reflected, scattered, intersected with a plane target and added to the pixels in floating point arithmetic, in whatever order sums are added up, every pixel differs from that of exact arithmetic by an explicit bound that grows with the number of rays, the size of the field and the number of pixels per metre. The power on the target, the sum of all pixels, does not depend on where in the image rays land: it changes by at most 3860 units of rounding for every ray, besides the relative error of adding up. For a thousand rays in a field of 200 m and 256 by 256 pixels in float32 the power is right up to 0.03 percent of what the rays could carry.", "quantifier": "for all heliostats, joint angles, mirrors, suns and lists of rays that are further from the edges of the target than rounding can move them, all roundings, all orders of summation and all sizes of the bitmap", "why_tests_cant": "Tests render a few images in float32 and compare them with images that were rendered in float32.", "anchors": ["artist/field/kinematics_rigid_body.py:510-538", "artist/field/heliostat_group_rigid_body.py:265-270", "artist/raytracing/heliostat_ray_tracer.py:285-335", "artist/raytracing/geometry.py:104-204"]}
{"id": "C134", "title": "Which heliostats can be in a scenario together", "statement": "Loading a scenario succeeds exactly when every heliostat has the same number of control points on all of its facets and heliostats with the same types of kinematics and actuators have equally many facets and, unless the number of control points is changed on loading, equally many control points per facet, provided nothing else is wrong with the scenario. Heliostats with different types of actuators do not constrain each other. What is loaded does not depend on these shapes. The check of facet numbers by the scenario generator guarantees the requirement on facets if facets have different keys; that on control points is not checked.", "quantifier": "for all lists of heliostats with individual or prototype components, all numbers of facets and control points, with and without changing the number of control points", "why_tests_cant": "Tests load scenarios in which all heliostats are of one make.", "anchors": ["artist/field/heliostat_field.py:258-377", "artist/field/surface.py:47-54", "artist/scenario/scenario.py:166-259", "artist/scenario/h5_scenario_generator.py:143-163"]}
{"id": "C135", "title": "The returned history of an aim point optimisation describes every epoch", "statement": "The six histories returned by the aim point optimisation have one entry for every epoch executed. In every epoch the total loss is the flux loss plus the three constraint terms, and the entry of the flux integral is the change of the power on the target since the first epoch in percent (up to 1e-6 divided by the power). It is below its first entry exactly in the epochs in which the constraint on the flux integral is penalised, which are those in which power was lost.", "quantifier": "for all sequences of fluxes, intercept factors and flux losses, all weights, tolerances, numbers of epochs and early stopping settings", "why_tests_cant": "Tests run a few epochs and compare the final parameters with stored ones.", "anchors": ["artist/optim/aim_point_optimizer.py:606-679", "artist/optim/aim_point_optimizer.py:811-960"]}
{"id": "C136", "title": "Float32 moves a ray only a little on its whole way from the motor positions to the target", "statement": "A ray that is followed from the motor positions of its heliostat to the bitmap of a plane target, with every step computed in floating point arithmetic (actuator geometry, kinematics, surface, reflection, scattering, intersection), lands where the same motor positions send it in exact arithmetic, up to an explicit number of pixels that grows with the size of the scene and with the loss of accuracy in the actuators; its intensity is right up to an explicit error; a ray that passes beside the target by more than that carries nothing. In float32, for a field of 200 m, actuators with sides of 32 to 40 cm that stay 30 degrees away from being stretched, and a target of 8 m with 256 pixels met at 60 degrees or less, the ray moves by less than 12 pixels (38 cm).", "quantifier": "for all heliostats, linear actuators, motor positions, surface points, rays, targets and orders of summation of the stated sizes, and every arithmetic with relative error u and underflow error eta", "why_tests_cant": "Tests compare float32 results with stored float32 results; no test has the exact values to compare with.", "anchors": ["artist/field/actuators_linear.py:138-291", "artist/field/kinematics_rigid_body.py:194-324", "artist/field/kinematics_rigid_body.py:534-538", "artist/field/heliostat_group_rigid_body.py:217-270", "artist/raytracing/heliostat_ray_tracer.py:541-553", "artist/raytracing/geometry.py:104-204"]}
{"id": "C137", "title": "On which device a process computes", "statement": "A device that is given to the device selection is returned unchanged; without one the selection is a GPU exactly on Linux and Windows with CUDA and the CPU otherwise. After the distributed environment has been set up, a process that has joined its group computes on the GPU with its rank modulo the number of GPUs, whichever GPU was given; processes with consecutive ranks, no more than GPUs, get different GPUs; if ranks are dealt to computers in turn they do exactly if the numbers of computers and of GPUs per computer are coprime. Functions that are later called without a device use the same GPU as the environment, unless the process runs alone with a given GPU other than the first. A process that cannot join runs alone with rank 0 and world size 1 on the device it was given.", "quantifier": "for all operating systems, numbers of GPUs, given devices, ranks, world sizes and placements of ranks", "why_tests_cant": "Tests mock the operating system and CUDA for a few combinations; multi-GPU and multi-node runs need hardware that the test environment lacks.", "anchors": ["artist/util/env.py:33-93", "artist/util/env.py:269-312"]}
{"id": "C138", "title": "Float32 changes the power on the target only a little, computed from the motor positions on", "statement": "The sum of all pixels of the image of a plane target, computed in floating point arithmetic from the motor positions of the heliostats to the pixels (actuators, kinematics, reflection, scattering, intersection, splatting), is that of exact arithmetic for the same motor positions, up to 3860 units for every ray, which include the errors of the joint angles, and the factors of adding up. In float32, for a thousand rays in a field of 200 m with actuators that stay 30 degrees away from being stretched, the power is right up to 0.07 percent of what the rays could carry. Rays that arrive from behind carry nothing.", "quantifier": "for all lists of rays with heliostats, actuators, motor positions, targets and orders of summation of the stated sizes", "why_tests_cant": "Tests compare float32 images with stored float32 images; no test has the exact values to compare with.", "anchors": ["artist/field/actuators_linear.py:138-291", "artist/field/kinematics_rigid_body.py:194-324", "artist/field/kinematics_rigid_body.py:534-538", "artist/raytracing/geometry.py:104-204", "artist/raytracing/heliostat_ray_tracer.py:541-553"]}
