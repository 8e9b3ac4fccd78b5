# Formal model of ARTIST: design

## What this is

A Lean 4 model of the logic of ARTIST (`/repo`, python), with theorems about it.
The code was read, not run.  The only tie between theorem and code is the
faithfulness of the model, so every definition cites the file and lines it models.

Layout (`/verif/lean/Verif`):

* `Model/*`: definitions that mirror the code, function by function, with citations.
* `Spec/*`: small independent specifications used in theorem statements.
* `Proofs/*`: helper lemmas, no claims.
* `Props/*`: the property theorems, each with a non-vacuity `example` beside it.

## Trusted base

* Lean 4.33.0's kernel and Mathlib as installed.
* Axioms: at most `propext`, `Classical.choice`, `Quot.sound` for every theorem
  (`Verif/Audit.lean` prints them).  No own axioms, no `sorry`, no `native_decide`, no `bv_decide`.
* Python/torch semantics as written down in the models: lists and dictionaries in insertion
  order, `repeat_interleave`, boolean masks in ascending order, `scatter_add`, floor division,
  `//`, `%`, `.long()` truncation toward zero, arithmetic shift of int32.

## Known gaps between model and code

* **Floating point.**  float32 tensors are modelled by exact reals (or rationals).  Rounding, NaN and
  infinities are not modelled unless stated (rounding of splatting, blocking mask and intensities: C103, C66; of the blocking filter: C104).  Integer tensors are modelled by `Int`/`Nat`
  (`BitVec 32` where 32-bit shifts matter).
* **Autograd** is not modelled; optimisers are modelled as arbitrary (or Adam) update rules fed by
  arbitrary gradients.
* **Processes.**  Collective operations (`all_reduce`, `broadcast`, `new_group`) are modelled by their
  mathematical effect on the family of per-rank values.  Deadlocks, timeouts and network failures are not modelled unless a property says so (waiting at collectives: C58, C88).
* **Files** (HDF5, JSON, PNG, CSV) are modelled as already-decoded values; the codecs are trusted.
* **Random numbers** (distortions, shuffles) are arbitrary parameters of the model.

## Properties: what is modelled and how it is proved

| id | model | proof |
|----|-------|-------|
| C01 | `distribute_groups_among_ranks` as a fold of appends over a table | induction on the dealt list; counting residues |
| C02 | inversion of the rank table, `create_subgroups_for_nested_ddp` per rank | characterise the inverted table, position in a duplicate-free list |
| C03 | `setup_distributed_environment` as a program over outcomes of each step, with an initialised flag | case analysis over all crash points; false when set-up fails between initialisation and `try`: counterexample + `_partial` |
| C04 | `RestrictedDistributedSampler.__init__` | div/mod argument; false if samples are not a multiple of heliostats: counterexample + `_partial` |
| C05 | same | list induction |
| C06 | batch loop of `trace_rays` with abstract per-sample computation | induction on batches |
| C07 | `get_bitmaps_per_target` over an additive commutative monoid | finite sums |
| C08 | `bilinear_splatting` over ℝ | finite sums; boundary cases spelled out |
| C09 | full LBVH build + traversal over `Int` codes and abstract boxes | induction on ranges; false for the code (split search skips positions): counterexample + `_partial` |
| C10 | depth computation, traversal with explicit stack | well-founded measure on the tree; false for duplicate codes: counterexample + `_partial` |
| C11 | bottom-up box rounds | invariant |
| C12 | `expand_bits`, `morton_codes` | bit-level; finite table for 1024 inputs lifted by lemma |
| C13 | `longest_common_prefix` on `BitVec 32` | binary search invariant; ultrametric law |
| C14 | `ray_aabb_intersect` over ℝ | order reasoning |
| C15 | `soft_ray_blocking_mask` over ℝ | list sums, `exp` bounds |
| C16 | `reflect` over ℝ⁴ | ring |
| C17 | `line_plane_intersections` over ℝ | order reasoning; false for planes behind the ray: counterexample + `_partial` |
| C18 | `line_cylinder_intersections` over ℝ | quadratic; false unless the normal points north: counterexample + `_partial` |
| C19 | 4×4 matrices over ℝ | matrix identities |
| C20 | `perform_canting` | matrix identities |
| C21 | A2.3 loop nest | induction on degree |
| C22 | knot vectors, `find_spans` | order reasoning |
| C23 | tensor-product evaluation | from C21 |
| C24 | chain of 4×4 matrices | from C19 |
| C25 | inverse kinematics formulas | trigonometry |
| C26 | the alignment loop over abstract kinematics | induction over iterations; false without the break: counterexample + `_partial` |
| C27 | `LinearActuators`, `IdealActuators` | law of cosines |
| C28 | `activate_heliostats` as state machine | induction over histories; false after an all-zero mask: counterexample + `_partial` |
| C29 | `index_mapping` | list induction |
| C30 | `SolarTower` index maps | list lemmas |
| C31 | `EarlyStopping` state machine | invariant over histories |
| C32 | `train_test_split` | list lemmas; false for unequal counts: counterexample + `_partial` |
| C33 | bookkeeping + min-reduce | from C04/C05 |
| C34 | loop skeleton | induction; false by one epoch: counterexample + `_partial` |
| C35 | tanh reparameterisation | order; false when the start is close to a limit: counterexample + `_partial` |
| C36 | multiplier updates | invariant |
| C37 | losses over ℝ | Gibbs' inequality etc. |
| C38 | `PixelLoss` | false: counterexample |
| C39 | `get_center_of_mass`, `bitmap_coordinates_to_target_coordinates` | weighted means; affine arithmetic |
| C40 | regularisers over ℝ | sums of squares |
| C41 | gradient locking + Adam | invariant |
| C42 | parser traversals | list lemmas; false for duplicates / limit zero: counterexample + `_partial` |
| C43 | `build_heliostat_data_mapping` | list induction; limit zero: counterexample |
| C44 | generator and loader group keys | set of keys |
| C45 | `_flatten_dict` | structural induction |
| C46, C61 | `from_hdf5` loop state, key order | counterexample + `_partial` |
| C47 | `azimuth_elevation_to_enu` | trigonometry |
| C48 | WGS84 conversion | trigonometry |
| C49 | `normalize_points`, evaluation grid | order |
| C50 | `trapezoid_distribution` | order |
| C51 | owner indices | counterexample + `_partial` |
| C52 | nested-mode loss pairing | counterexample + `_partial` |
| C53 | mixed-surface loader | counterexample + `_partial` |
| C54 | corner indices, rectangle primitives | arithmetic |
| C55 | same matrices as C19 | trigonometry; false for the north axis: counterexample + `_partial` |
| C56 | alignment loop followed by `reflect` | from C25, C26 |
| C57 | non-uniform branch of `find_spans` with tensor shapes | list search; false for several facets: counterexample + `_partial` |
| C58 | per-process gradients, collectives matched in order | evaluation for all W, G; false with several groups |
| C59 | first epoch of the aim point loop | false for losses other than KL |
| C60 | per-process parameters, broadcast from first process | all W, G; alignment-driven: negation |
| C62, C63 | surface part of `from_hdf5`, `update_surfaces`, facet configurations | list lemmas; false for curved surfaces and non-square grids: counterexample + `_partial` |
| C64 | `crop_flux_distributions_around_center` over an ordered field | algebra, order |
| C65, C66, C67 | `trace_rays` for one sample (reflection, distortion, intersection, intensity, blocking factor, splatting, fractions) and the power per ray, over ℝ | sums over lists, inequalities, derivative; false claims: counterexample + `_partial` |
| C68 | `_align_all_groups`, `_trace_and_accumulate_flux` on all processes, on top of the models of C01, C02, C04, C06, C07 | induction over groups, sums; false claims: counterexample built on C65 and C15 + `_partial` |
| C69 | `_compute_measured_normals`, `_compute_alignment_loss` on top of the models of C24, C32, C33, C37 | vector algebra over ℝ, list lemmas; false for heliostats with translations: counterexample + `_partial` |
| C70 | `rotation_angle_and_axis`, `decompose_rotations`, the shift of the first initial angle in `linear_actuators` | vector algebra over ℝ (Rodrigues, Lagrange identity); false for opposite directions in `decompose_rotations`: general counterexample + `_partial` |
| C71 | `create_kinematics_deviations_dict`, `create_actuator_*_dict`, flattening, `rigid_body_deviations`, `linear_actuators`, `ideal_actuators`, the kinematics of C24 | dictionary lemmas (on top of C45) for all subsets of optional values; false for the initial orientation: exact condition + counterexample |
| C72 | `FocalSpotLoss.__call__` on top of C39 (centre of brightness, bitmap to target coordinates) | closed form for planes, injectivity of the cylinder map for the zero case, C39 lifted through the triangle inequality for traced bitmaps; false for different resolutions: lower bound of the error |
| C73 | `LightSourceConfig`, `LightSourceListConfig`, flattening and storing, `LightSourceArray.from_hdf5`, `Sun.from_hdf5`, `Sun.__init__`, `set_number_of_rays` | dictionary lemmas on top of C45; exact condition for surviving the round trip, each way of failing |
| C74 | `Sun.get_distortions`, `DistortionsDataset.__init__`, the global random number generator as an arbitrary state machine | direct; negations for groups, ranks and the seed of the user |
| C75 | `_get_target_plane_dimensions`, `max_flux_density_per_pixel`, the penalty of `Model/Aim`, bitmaps of `Model/Splat` | direct for the penalty; sums of tents over a regular grid of rays of any fineness; negation between threshold and maximum |
| C76 | target area configurations, flattening, `TowerTargetAreasPlanar/Cylindrical.from_hdf5`, `SolarTower.from_hdf5` | refinement of the flattened file to the configured areas, with C45 and C30; negation for empty lists |
| C77 | `extract_paint_tower_measurements`, `corner_points_to_plane`; the conversion to ENU of `Model/Geo`, intersections of `Model/Intersect` | algebraic: corners of a segment back to the cylinder; counted rays are those meeting the rectangle; negations for wide openings, turned and tilted planes, order of the file |
| C78 | `extract_stral_deflectometry_data` on bytes (little-endian 32-bit patterns) | refinement: reader after a separately specified writer; characterisation of rejected prefixes; negation for cuts between points |
| C79 | `extract_paint_deflectometry_data`, `_fitted_surface_generator`, the selection of data in `generate_fitted_surface_config` | loop invariants of the row assignments, characterisation of the selected indices; negations for missing normals and larger facets |
| C80 | `fit_nurbs` and the loop over facets with one shared optimizer and scheduler (`ReduceLROnPlateau.step` from its documentation); the loss and the optimizer step of a facet are arbitrary | induction over facets and epochs; negation by a general theorem on learning rates and a concrete pair of facets |
| C81 | extraction of PAINT heliostat properties, ideal surfaces, list of heliostats and prototype, composed with writing and loading of kinematics and actuators (C71); keys of position, facets, deviations are fields | branch by branch; composition with C71; acceptance as an equivalence |
| C82 | check of facet numbers, generated facet keys, dictionary by key, alphabetical reading (`Field.storedList`) | sorted permutations; equivalence for generated keys |
| C83 | shapes of rays, ray directions and surface points in the tracer, broadcasting of dimensions, ray magnitude | equivalence for the shapes that run; sum over all rays |
| C84 | balancing factors and total loss of the surface reconstruction, composed with the regularisers of C40 | value, bounds and derivative of the total loss |
| C85 | loops of C34 with the state they change, arbitrary loss and update | refinement of the loops of C34; iterates of the update |
| C86 | both alignments of the surfaces of a rigid body group, with the kinematics of C24 to C26 and the mask of the last activation | composition with C24 and C26; two alignments in a row |
| C87 | blocking surfaces collected when a tracer is created, groups with active rows, activation and alignment as operations on the field | run of operations, rows of the concatenation; induction over the groups |
| C88 | lists of collective calls of all processes; a collective takes place when all members of its process group have reached it; numbers of epochs from the loops of C34 | calls are parts of one common list if and only if the processes finish; invariant of steps |
| C89 | training epochs and validations as calls on the group of C28, computations from the active tensors arbitrary; loop of C34 | refinement of the loops of C85 under an invariant of the group |
| C90 | the three schedulers of `training.py` (torch classes from their documentation), creation and one step per epoch | closed forms by induction; invariant of the counters of the plateau scheduler |
| C91 | all processes of a shared group with their own parameters, optimizer and scheduler; averaging of C58, schedulers of C90 | induction over epochs; counterexample with two heliostats |
| C92 | alignment of C56, tracing of C65, splatting of C08, centre of mass and conversion of C39, composed | landing map of parallel rays is affine; oblique projections bounded by cross products; weighted means |
| C93 | LBVH and soft mask of C09, C15; bitmaps of C65 | no false blockers for the smaller field, exactness for the larger; sums over sublists; witness by unreachable leaf |
| C94 | filter of C09, mask of C15, tracing of C65, alignment of C26 | codes, reachability and loops depend on differences only, so the characterisations of C09 and C10 transfer; alignment by induction over the iterations |
| C95 | `SaveScenario`: name of the file, sequence of assignments into a file opened for writing | paths of distinct leaves never lead through each other; induction over the assignments |
| C96 | `Flux`, `Intersect`, `Transforms` | coordinate of the mirrored hit is `W - 1 - e`, the tent is even, factors by counting |
| C97 | `NurbsBatch` on top of `Nurbs` and `Surfaces`: sizes, broadcasting, gathering, reshaping | distinct columns of equal knot vectors are distinct knots; every entry of the batch equals the model of a single facet |
| C98 | `Logging`: handlers and levels of the two loggers | induction over the set-up calls |
| C99 | `Logging`: tree of tracked calls, lines and clock | mutual induction over the tree; counting starts and finishes |
| C100 | `GroupFlux`: whole group on one process, composed of `Sampler`, `Trace`, `Flux` | C04, C06, C07, C65, C67 put together; counterexample |
| C101 | `Requests`: index mapping, activation, tracing and target sums on one process and on processes sharing a group | C03, C04, C06, C07 put together; exact condition; counterexample |
| C102 | `AimGradient`: epochs of the aim point optimisation with gradients, on top of `Aim` | losses differ by a constant, induction over epochs; derivatives of the other two terms |
| C103 | `Rounded`: splatting, mask and intensity with every operation rounded | laws of rounding (`Arithmetic`), proved for `p` binary digits; induction over the additions |
| C104 | The blocking filter with float32 rounding | monotone rounding keeps parent boxes hit; relative error analysis of the slab test; explicit float32 edge case |
| C105 | Gradients of splatting | `Splat.backward` models what autograd makes of lines 674-778 (indices and mask are constants) |
| C106 | NaN gradients of the alignment-driven reconstruction | `NanGradient` models `AngleLoss` backward with IEEE infinities and NaN |
| C107 | Rounded search for knot spans | `RoundedSpan` rounds the product in the uniform branch of `find_spans`; polynomials of neighbouring spans compared by an exact formula |
| C108 | Image as a function of motors | no new model: `Moving` lets the inputs of the models of kinematics, rays and bitmap depend on a parameter |
| C109 | Image as a function of control points | no new model: `Bends` lets the control points depend on a parameter |
| C110 | Alignment converges although the mirror moves with the joints | contraction and error bound (alignment loop + inverse kinematics) |
| C111 | The motors follow the sun without jumps | continuity of inverse kinematics, alignment loop and image, with the jumps characterised |
| C112 | The image follows the motors on cylindrical targets | one proof for continuity and differentiability over the class of functions closed under the operations of the intersection; counterexample at the seam |
| C113 | derivatives of the basis functions of every order (`Spec/Derivatives.lean`: repeated right derivatives) | loop invariant for the rows of coefficients, compared with the textbook formula for the derivatives |
| C114 | losses fall on the way to a perfect prediction (`Spec/Downhill.lean`: straight ways of vectors and images) | slopes along the way in closed form: a square, a quotient, a Gram determinant, a sum of squares over probabilities |
| C115 | accuracy of the WGS84 conversion | derivatives of the meridian ellipse, mean value theorem |
| C116 | what measured normals say about the kinematics | spherical geometry in closed form |
| C117 | NURBS sampling: locality of control points, injectivity of sampling | linear independence of B-splines on a span by induction on the degree, polynomial identity from degree + 1 points per span |
| C118 | Blocking that sets in gradually | the filter is locally constant away from grazing rays (strict inequalities of the box test), then C108_mask; the jump by the exact hit test on a field of two heliostats |
| C119 | Pointing errors | chord of a rotation at most its angle (as in C110), Gram determinant of incident ray, sum and difference of the normals for the reflection, plane geometry for the hit; linear actuators by sin on [0, pi] and the Lipschitz clamps |
| C120 | Images stand for the light | every sum over pixels is a sum over rays of a mixture of four neighbours (tent weights of C08); mean distance to the neighbours at most half a pixel, plus the half pixel of the conversion found in C39 |
| C121 | Finer mirrors converge | basis functions continuous at every parameter because inner knots are simple (induction over the recursion); a sample of `linspace` lies in its cell of equal width, so means over grids are Riemann sums; continuity of what one ray brings to a pixel from C108 |
| C122 | Even spread of surface points | weighted sums of basis functions by induction over the recursion (one: partition of unity; inner knots: degree times parameter); values and slopes of the basis at the end from the p + 1 equal knots |
| C123 | More rays give a better image | probability: measurability of every step, strong law, Chebyshev |
| C124 | A sun without sharp edges: finer sampling of mirrors converges whatever the rays meet | null sets, dominated convergence, Riemann sums, Chebyshev |
| C125 | The narrower the sun, the sharper the image | convergence in mean from continuity at zero distortion |
| C126 | Rounding of where rays land | every operation of the plane intersection followed by a rounding; forward error analysis with linear bounds, image by C103 |
| C127 | Ray noise in losses and focal spots | bias and variance of the pixel loss from C123; weighted means; strong law |
| C128 | Errors followed to the bitmap and the focal spot | C119 and the geometry of C126, weighted means of C92 |
| C129 | Reflection and scattering in floating point arithmetic | induction over evaluation plans (any order, fused or not), C126 for the rest of the way |
| C130 | Kinematics in floating point arithmetic | error of rigid motions (direction part, origin part) under rounded products, composed along the thirteen products of the code |
| C131 | The whole way of a ray in floating point arithmetic | perturbation of the intersection by start and direction (C130), then C126 |
| C132 | Rounding in the linear actuators | step by step error bounds through parameters, stroke, law of cosines and arc cosine; joined with C130 by the effect of joint angles on the pose |
| C133 | Whole image in floating point arithmetic | C131 for every ray, with C126 for the pixels and C103 for the sums |
| C134 | Shapes of tensors when a field is loaded | refinement of the model of C44 and C46 by the two places that stack tensors |
| C135 | History of the aim point optimisation | the loop with histories runs in lockstep with that of C34; invariant: histories are those of the first n epochs |
| C136 | Float32 from motor positions to target | errors of C132 in the joint angles are converted into units of rounding, turned through rigid motions and the reflection, and added to those of C131 before the ray is followed to the plane |
| C137 | `get_device`, `initialize_ddp_environment` with the answers of system and PyTorch as parameters | case analysis; congruences |
| C138 | Power in float32 from motor positions | C136 for every ray, C08 and C103 for the sums |

## Disagreements between the code and the stated properties

Each is a theorem about the model (a negation with a concrete witness or a universally quantified failure), next to the
strongest positive statement found (`_partial` where the property is weaker than stated).

* **C03** the process group stays initialised if the set-up fails between initialisation and `try`.
* **C04** samples are only kept together by heliostat if their number is a multiple of the number of heliostats.
* **C06** blocking is computed per batch, so with blocking active the result depends on the batch size; the soft mask has no
  check against the target distance.
* **C08** the last column and negative coordinates lose intensity when splatting.
* **C09, C10** the split search halves with rounding down and can miss the split; three equal Morton codes break the topology
  (two do not).  `C09_exact_iff` says exactly which fields are handled correctly: no three centres in a cell, and every group of
  `m` codes with a common prefix divides at a sum of some of `m/2`, `m/4`, … (rounded down), counted from one end.  A division
  of six into three and three is not such a sum, and for every size from six on there are fields that contain one
  (`C09_loses_blockers_at_every_size`).  With three centres in a cell the middle one's node points back to the first one's, and
  the first one's leaf can only be reached through this loop: so either the filter never ends or this heliostat is never
  reported (`C10_crowded_cell`; both happen).
  `torch.sort` leaves the order of equal codes open; the model keeps their input order.  Exactness and termination
  do not depend on it; which of several primitives with equal codes sits in which leaf does.
* **C17** planes behind the ray count as hit; a target facing east or west collapses to the middle column.
* **C18** cylindrical targets are only unrolled correctly when facing north.
* **C20** parallel canting vectors collapse the facet (the epsilon in the normalisation is used as a divisor).
* **C22, C23** at the parameter 1 the span is one too large and evaluation raises an `IndexError`; the evaluation grid
  avoids this value.
* **C26** without convergence the stored motor positions are one step ahead of the returned orientation;
  `max_num_iterations = 0` raises `UnboundLocalError`.
* **C28** after one activation with a mask of zeros the optimizable parameters of linear actuators stay empty in every later
  activation, because `activate_heliostats` looks at the previously active tensor. A rejected mask has already replaced
  `number_of_active_heliostats` and the stored mask when the exception is raised.
* **C29, C30** negative target area indices are not rejected and mean the last planar area when centers are looked up.
* **C31** a window of one loss compares the loss with itself, so the stopper fires after `patience` steps however fast the loss
  falls; window size 0 raises `IndexError`; patience 0 fires as soon as the window is full.
* **C32** with unequal sample counts `train_test_split` hands samples to the wrong heliostat, loses samples, leaves a heliostat
  without test sample or raises `IndexError`, because it cuts blocks of the average length.
* **C33/C52** the predictions of a process in a shared group have one row per training sample of the whole group, the
  measurements one row per own sample. With two active heliostats the loss raises `RuntimeError`, or, if the process owns a
  single sample, all predictions are compared with that measurement and the bookkeeping raises afterwards. A process without
  any sample raises `IndexError`, because `torch.tensor([])` is a float tensor and no valid index. Alignment-driven
  losses are never synchronised, so heliostats of other processes' groups read infinity.
* **C34** all loops run up to `max_epoch + 1` epochs; the histories of reconstructions lack the epoch at which early stopping
  fires; the "last epoch" that is always validated is epoch `max_epoch - 1`, so the last executed epoch may not be validated;
  `max_epoch = 0` with `log_step = 0` raises `ZeroDivisionError`.
* **C35** the scale of the reparameterisation is clamped from below by one motor unit, so starts closer than that to a limit
  can leave the range, and starts beyond a limit can never be brought back.
* **C36** the aim point optimisation adds the unclamped violation to its multipliers, so they decrease whenever a constraint
  holds strictly. The surface reconstruction adds the clamped one.
* **C37** for a completely dark ground truth image the KL loss of every prediction with light is negative.
* **C38** the pixel loss is divided by the ground truth sum only once while the errors are squared, so it grows linearly with the
  magnitude of the images.
* **C39** converted bitmap positions keep the north coordinate of the target center, so on tilted planes the focal spot is
  displaced from the target by the height offset times the tilt.
* **C50** if plateau width and total width differ in parity the plateau has one entry more than its width.
* **C58** gradients are reduced over the global process group for those parameters that have a gradient on the process. With
  several groups the n-th reduction of different processes belongs to different groups: unrelated gradients are averaged, or
  the processes wait forever. (Trusted: collectives are matched in calling order, as `torch.distributed` documents.)
* **C59** `loss` is only assigned for `KLDivergenceLoss`; otherwise `backward` is called on the initial constant.
* **C60** alignment-driven kinematics reconstruction ends without any synchronisation of parameters, losses and histories.
* **C51** owner indices refer to the wrong heliostats with several groups.
* **C54** corner indices assume square facet grids.
* **C55** `rotate_n` turns clockwise.
* **C57** with `uniform = False` and more than one facet the end-of-domain comparison broadcasts over the wrong
  dimensions: `RuntimeError`, or spans of the wrong shape for one point per facet.
* **C42** two entries for the same heliostat read the property files of both entries but only the images of the last one, so
  fluxes and calibration data do not correspond; sample limit 0 means unlimited; a negative limit raises `RuntimeError`.
* **C43** a requested number of 0 or less returns every measurement.
* **C53** ids are numbered separately for fitted and ideal surfaces, so every mixed load contains the id 0 twice; lists of only
  one kind raise `UnboundLocalError`.
* **C44** an empty individual actuator list counts for no group but is not stored, so the heliostat is loaded with the
  prototype's actuators; heliostats of the same name are all counted but only the last is stored; mixed actuator types are
  counted but cannot be loaded.
* **C46** the NURBS degrees of all groups are those of the last facet of the heliostat loaded last; `number_of_actuators` is
  assigned only for individual kinematics, so individual actuators with prototype kinematics raise `UnboundLocalError` unless
  an earlier heliostat (in alphabetical order) has individual kinematics.
* **C61** HDF5 groups are iterated alphabetically, so actuators with keys such as "elevation", "azimuth" are exchanged.
* **C62** `Surface` cants and translates facets only if all control point heights are zero, `update_surfaces` (and the surface
  reconstructor) always do, so fitted facets are canted and translated a second time. `update_surfaces` and the reconstructor
  use `int(sqrt(points / facets))` samples in both directions, so a 50 × 40 grid becomes 44 × 44.
* **C63** a changed number of control points replaces the control points kept for optimisation by planar ones, while the loaded
  samples still come from the stored ones: the fitted shape disappears on the first recomputation.
* **C66** the documentation of `trace_rays` lists (hitting neglecting blocking, not blocked, actually hitting); the code returns
  (hitting with positive remaining intensity, hitting neglecting blocking, not blocked). In exact arithmetic the soft mask stays below
  1, so the first and the second number agree; with 32-bit floats strongly blocked rays have a mask of exactly 1. The numbers are
  counts, so the intercept constraint of the aim point optimisation has zero gradient.
* **C67** the power per ray is computed from the first facet of the first heliostat of a group, for all heliostats of the group,
  as if each had 2 x 2 facets with gaps of 2 cm.
* **C68** in an epoch a process aligns only its own groups, but traces with blocking by the heliostats of all groups; heliostats
  of other groups block from where they stood at the start. The fractions are not reduced over the processes, so each process
  returns zeros for heliostats of other groups and the intercept constraint differs between processes. With more processes
  than groups the masks of `get_bitmaps_per_target` do not fit and `IndexError` is raised.
* **C69** the measured normal bisects the directions from the heliostat's *position*; the aligned mirror reflects from its centre,
  which translation deviations displace. So exact parameters have a positive loss, and the optimum is biased (by about half the
  displacement across the beam divided by the distance to the tower).
* **C70** `decompose_rotations` returns the zero rotation vector for opposite directions, where half a turn is needed; the code only calls
  it for up → south, where it is right. `rotation_angle_and_axis` treats that case properly.
* **C71** the configured `initial_orientation` is written, loaded, stored and copied to the active heliostats, but the kinematics never read it;
  mirrors face south at joint angles zero. Actuator lengths left out count as 0 and act as 6.9 mm (softplus).
* **C72** `FocalSpotLoss` converts both centres of brightness with the resolution of the *prediction*. If the measured bitmap has another resolution,
  equal spots get a loss of at least (distance from the edge) × (relative difference of the resolutions) (`C72_resolution`). The doc string gives the
  ground truth the shape `[number_of_samples, 4]`, but bitmaps are needed.
* **C73** `LightSourceConfig` allows mean and covariance to be left out, but then enters `None` into the dictionary, which `h5py` cannot store: `TypeError`
  after half of the file has been written (`C73_left_out`). A covariance of 0 (a sun without spread) is written but cannot be loaded (`ValueError` from the
  distribution, `C73_loadable_iff`). `LightSourceArray.from_hdf5` turns every `KeyError` inside `Sun.from_hdf5` into "light source: sun is not
  supported" (`C73_misleading`); the defaults of `Sun.__init__` are never used for loaded scenarios.
* **C74** `get_distortions` seeds the global generator: heliostats at the same place in two groups of equal size share all distortions (`C74_groups_share`),
  the seed set by the user has no effect after the first ray tracer (`C74_user_seed_lost`), and since the optimisers use the rank as seed, results depend on how
  heliostats are spread over processes (`C74_ranks`).
* **C75** The limit per pixel is `area / (W * H) * density`, but the bitmap spreads the target over `(W - 1) (H - 1)` cells between pixel centres, so an inner
  pixel collects `area / ((W - 1) (H - 1)) * density`: a uniform irradiation at the allowed density is penalised (`C75_too_strict`), and edge and corner pixels
  may receive two and four times the density before they are penalised (`C75_uniform`).
* **C76** Flattening drops empty dictionaries, so a scenario without cylindrical (or without planar) target areas has no group for them and `from_hdf5` raises
  `KeyError` (`C76_empty`). Centers and normals with three components pass the configuration and are written, but raise `RuntimeError` when loaded.
* **C77** The center of a cylinder is always placed behind the chord of its corners, `sqrt(r^2 - (chord/2)^2)` along the negative normal; for openings above
  180 degrees it lies in front of the chord, so the computed center is displaced by `2 r |cos(opening/2)|` (`C77_wide_cylinder`). Width and height of planar
  areas are extents along east and up, which is what the intersection code expects, but for areas both turned and tilted the corners are cut off
  (`C77_turned_and_tilted`) and for turned or tilted areas their product is smaller than the area (`C77_plane_area`). `list(tower_dict.keys())[1:]` relies on
  the power plant being the first entry (`C77_order_matters`); areas of unknown type are skipped silently.
* **C78** A STRAL file that ends between two points of the last facet is accepted: `iter_unpack` yields fewer records than announced and the remaining rows of
  `torch.empty` are returned uninitialised (`C78_undefined_points`). All other incomplete files raise `struct.error` (`C78_cut_off`).
* **C79** If a facet of a deflectometry file has fewer normals than points, the missing rows of `torch.empty` are used uninitialised
  (`C79_undefined_normals`). All facets are cut to the number of points of the smallest one before every `step`-th point is taken, so the end of larger facets
  is never used (`C79_end_not_used`).
* **C80** The scheduler object is shared by all facets (and all heliostats) and is never reset, only the parameter group is replaced. Its best loss is that of
  the best facet so far, so a later facet is slowed down by the factor after `patience + 1` epochs even if its loss improves in every epoch
  (`C80_reduced_despite_progress`, `C80_order_matters`).
* **C81** A file that lists more facets than it states is accepted and the surplus facets are dropped; a translation or canting vector with a single component
  is broadcast to three equal components. Two actuators of different types are extracted and written without complaint, and only loading the scenario raises.
  All nine entries of an actuator are required even for ideal actuators.
* **C82** Facets are stored under their keys and read alphabetically. The keys made by the surface generator are `facet_1`, `facet_2`, ...: from ten facets on
  `facet_10` comes before `facet_2`, so control points, translations and cantings of all facets are permuted together (consistently within a heliostat, but
  every per-facet result refers to another facet). Equal keys pass the check on the number of facets and are merged into one facet.
* **C83** Rays are drawn once when the tracer is created. A later change of the number of rays or a surface reconstruction with another evaluation grid than
  the loaded one ends in a RuntimeError inside tracing; a tracer created for a single ray broadcasts it and silently multiplies the power by the new number of
  rays.
* **C84** The balancing factors `alpha` and `beta` are not detached from the graph. `mean(alpha * s)` is `w * f * s / (s + eps)`: it saturates at `w * f`, so
  no surface costs more than `(1 + weights)` times its flux loss, and the gradient of a regulariser reaches the control points scaled by `eps / (s + eps)`
  (with the default `eps = 1e-12` a factor of 1e-6 for second differences of a millimetre), while the flux gradient is scaled by `1 + w`. In practice the
  weights do not regularise.
* **C85** The reconstructions update the parameters after computing the loss and end without computing it again, so the returned loss belongs to the
  parameters before the last update: a run that ends within the tolerance may leave parameters outside it. The test losses belong to the parameters after the
  last validated epoch, which is the last epoch only after early stopping or by coincidence. The aim point optimisation keeps the motor positions of the last
  evaluated epoch, there loss and result agree (the last update is dropped).
* **C86** Aligning changes the active surfaces in place and does not start again from the stored ones: a second alignment without a new activation applies the
  second orientation to the already moved mirror, whose centre then is off by its distance from the origin of the field. The documented ValueError for
  heliostats that were not activated is an `assert` (AssertionError, and nothing at all under `python -O`).
* **C87** The blocking surfaces are copied when the tracer is created. A tracer that is used again after a new alignment (tutorial 01 does this with blocking
  on) blocks with the old surfaces; a heliostat that is active but not yet aligned blocks at the origin of the field; if groups are aligned and traced one
  after the other (examples/field_optimizations/generate_results.py), later groups block lying. Groups with different numbers of surface points make the
  creation raise RuntimeError.
* **C88** Each process decides from its own losses when to leave the loop (tolerance and early stopping), but takes part in an exchange of gradients in every
  epoch. With more processes than groups, processes sharing a heliostat group see the losses of different heliostats: as soon as one of them leaves its loop
  earlier, the others wait forever (until a timeout). The same happens in the aim point optimisation with the KL divergence, whose penalty for lost intercept
  is computed from the heliostats of the own process. (In the code as it stands, flux-driven reconstructions that share a group of several active heliostats
  raise already before, see C52, and aim point optimisations that share a group raise as well, see C68. Then one process ends with an exception while others
  may still wait; the theorems on shared groups describe the loops once that is repaired. The aim point theorems do not need shared groups.)
* **C89** Validation uses the group that is being trained, but every epoch activates the training samples anew, so nothing leaks, with one exception: a group
  that was activated with zeros only has lost its active optimizable parameters for ever (see C28), and a later reconstruction silently computes losses and
  gradients without them. Random numbers of the ray tracers are not part of this model (see C74).
* **C90** A cyclic schedule sets the learning rate to lr_min when it is created, so the configured initial learning rate is silently ignored. `fit_nurbs`
  calls `scheduler.step(loss)` for every scheduler; `ExponentialLR` takes the number for the epoch, so the rate is base times gamma to the power of the loss:
  it does not decay and even grows while the loss falls. `reduce_on_plateau` uses the default threshold mode of torch, which is relative.
* **C91** The gradients are averaged over the processes that share a group but the losses are not, and `reduce_on_plateau` follows the loss of the own
  process. As soon as one process sees a plateau and another does not, their learning rates and then their parameters differ; from then on the averaged
  gradient is a mean of gradients at different points. At the end the parameters of the first process are taken (C60). (As for C88, flux-driven
  reconstructions with several active heliostats per shared group raise before, see C52.)
* **C92** No disagreement. With the epsilon of 1e-8 in the inverse kinematics the proved alignment error is 5.7e-4, about 3 cm at 50 m; half a pixel of a 10 m
  target with 256 pixels is 2 cm.
* **C93** Disagreement. Five heliostats, heliostat 4 shades heliostat 1. After a sixth is added, away from the ray, the tree divides six codes into three and
  three, the search misses the place (see C09), and heliostat 4 is no longer found: heliostat 1 gets *brighter*.
* **C94** Holds for exact numbers, also where the filter is wrong or does not end. The small numbers added to divisors in the filter and the mask are added to
  directions and products of directions, not to positions, so they do not break it.
* **C95** Disagreement. `with_suffix` treats whatever follows the last dot as an ending: `plant_1.5` and `plant_1.7` are both saved as `plant_1.h5` (with a
  warning), and the second replaces the first. The file is opened with mode `w` before the dictionaries are made and checked: a light source without a mean
  (its default, `None`) raises a `TypeError` half way, after an earlier scenario of that name was emptied; what is left has no prototypes and no heliostats.
  Model of `pathlib` up to Python 3.13 (3.14 treats a trailing dot differently).
* **C96** Disagreement at the rim only: a pixel coordinate of exactly `0` is recorded and one of exactly `W - 1` is dropped, so a ray on one of the two
  vertical edges of the target counts and its mirror image does not. The sense of the distortion about the up axis has to be reversed, that about the east
  axis does not. Second disagreement: a cylinder whose opening reaches behind the east-west line through its axis loses rays on one side only (see C18), so
  its image is not mirrored (`C96_wide_cylinder`). The soft blocking mask is mirrored exactly for parallelograms whose corners are numbered the same way round
  when seen from outside, and for a corner by corner mirror if the ray is not exactly parallel to the blocker (the sign of a zero denominator is fixed to plus).
  The filter in front of it adds `1e-12` to each direction component before it divides, which is not symmetric, so that it keeps the mirrored blockers is a
  hypothesis of `C96_blocked_scene_partial`.
* **C97** Holds. Evaluation points for one surface or one facet are broadcast to all; translations are only checked for their number. The model of a single
  facet distinguishes now the two errors for parameters outside the domain: `RuntimeError` when a knot is missing, `IndexError` when only a control point is.
* **C98** Disagreement. `set_logger_config` adds handlers without looking at those present. `set_runtime_logger` does look, but importing `artist.util`
  already calls it with `./runtime_log.txt`, so the file of every later call is ignored and a file in the working directory is always created. The runtime
  logger passes its messages on to the logger of the package, whose level is not consulted.
* **C99** Disagreement for calls that raise: `wrapper` has no `finally`, so the log stops at the start of the call.
* **C100** Disagreement. The power of a ray is irradiance times area divided by the number of rays, without the cosine between the light and the mirror normal
  (on the target side the cosine is applied). Mirrors met at a flat angle therefore bring more power to the target than they catch.
* **C101** Disagreement. With unequal numbers of requests per heliostat (heliostat A twice, B once) the last samples are never traced and the bitmaps of their
  target areas contain uninitialised memory. On processes sharing a group, the flow of the second tutorial raises `IndexError` on every process
  (C101_shared_raises).
* **C102** Disagreement. The intercept constraint, meant "to ensure that spillage is reduced", has no gradient: intercept factors are counts of rays with
  positive intensity. Its weight `rho_intercept` and its multiplier change the reported loss (and so stopping and `reduce_on_plateau`), never the direction in
  which motors are moved.
* **C103** Holds. All summands are non-negative, so errors stay relative. The number of additions matters: in float32 a pixel that 2^24 equal rays have hit
  does not grow any more (`C103_stagnates`). Rounding decides what the intercept factor of C66 counts: the mask is rounded to exactly 1, and the ray dropped,
  if the soft masks of its blockers reach about 0.17. Assumed about the library: `exp` of a negative number lies between 0 and 1 (and, for C66, is accurate to
  20 binary digits).
* **C104** `inverse_directions = 1 / (direction + 1e-12)`: in float32 the `1e-12` disappears for components above about 1e-5, and the `1e-6` added
  to the extent of the field disappears for fields larger than about 16 m, so cell 1023 is used (exact arithmetic never does, see C12) but never 1024. At the
  edge of a box the rounded test can say no where the exact one says yes (`C104_edge_missed`); the margin is eight relative rounding errors.
* **C105** The comment "To ensure differentiability of the ray tracing process" (`heliostat_ray_tracer.py` 656) holds inside the grid of pixel centres:
  continuity with an explicit bound (`C105_shift`) and derivatives (`C105_gradient`, `C105_partial_derivatives`). Findings, none of them a crash: (a)
  `C105_border`: at the eastern and upper border the whole intensity of a ray vanishes at once, so a loss jumps there and the gradient does not show it; (b)
  `C105_outside`, `C105_total_flux`: no loss on the bitmap gives a gradient that pulls a ray back that misses the grid, and the total flux has the gradient
  zero in all hit points; (c) `C105_line_kink`: exactly on a pixel line (for example a ray through the centre of a pixel) the gradient is only the one-sided
  derivative to the east and upwards, and can have the wrong sign for the other direction.
* **C106** `kinematics_reconstructor.py` 822-826 says "Severely misaligned heliostat samples produce nan gradients. These are set to zero and the sample has
  no influence on the training epoch." Two disagreements. (a) With `AngleLoss`, the loss used in the tutorial and the tests, it is the *perfectly* predicted
  samples that have no gradient (`acos` has an infinite slope at 1, `C106_undefined_iff`), and in float32 that is everything within about 0.24 mrad
  (`C106_float32`), an accuracy that the reconstruction is meant to reach. (b) `nan_to_num_` works on the gradient of the parameters, in which the samples of
  a heliostat are already added up: NaN plus anything is NaN, so all samples of the heliostat are left out of the epoch (`C106_silenced`, `C106_false`).
  Learning of a heliostat stops (apart from the momentum of Adam) as soon as one of its samples is good. Simplified: the chain from parameters to normal is
  one finite matrix of derivatives; PyTorch rules for `acos`, `clamp`, `normalize` as documented in the comments of the model; only the rounding of the cosine
  is considered in `C106_float32`.
* **C107** No disagreement: the float32 search can return the span after the right one (`C107_next_span`), never one outside the control points
  (`C107_in_range`), and the polynomials of neighbouring spans agree at the common knot to the order of the degree, so the evaluated point is right
  (`C107_surface`). Simplified: only the product of the search is rounded; knots, basis functions and sums are exact.
* **C108** No disagreement for the interior of the target. At the edge the image jumps (`C108_edge`), so a loss of the image is not continuous in the motor
  positions; the softplus of the actuator parameters has a tiny jump at a raw value of 1/5 (the threshold of `torch.nn.functional.softplus`). Not covered:
  cylindrical targets, and changes of the list of rectangles kept by the filter for blocking planes.
* **C109** Continuous and differentiable in the evaluation used for surface reconstruction, which always cants and translates. On loading (`surface.py`
  99-120) canting and translation are applied only if the heights of all control points are exactly zero, so lifting one control point by a nanometre moves
  all facets of the heliostat to its centre (`C109_jump`). Files whose flat surfaces carry rounding errors load wrongly.
* **C110** the hypotheses (`Regular`) are those under which the iteration is a contraction: aim point at distance, no light from behind, wanted normals away
  from the first axis by a margin `s`, actuators that invert, always the same branch. The first stop of the loop compares the loss at motors zero with that of
  the first iteration; if these happen to be equal within the tolerance the alignment ends after one inverse kinematics, which `C110_two_iterations` still
  covers, but `C110_converges` excludes by `hfirst`. `C110_inverse_sharp` replaces the square root of epsilon of C25 by epsilon over a cosine.
* **C111** one iteration of the alignment is a continuous function of sun and aim point because `normalize` divides by the maximum of the length and a
  constant; the inverse kinematics is continuous except at half turns and at the limits of the motors. Finding: `_compute_motor_positions_from_normal` falls
  back to the second solution whenever the first one is outside the limits, without asking whether the second one is inside, so at the edge of its range a
  heliostat swings by half a turn instead of stopping there (`C111_limit`, with the warning logged).
* **C112** the intersection with the cylinder is a composition of sums, products, quotients, a square root and an angle, each smooth where its argument is
  away from a boundary; the proof is written once for any class of functions that is closed under these operations. The constant that the code adds under the
  root keeps the root away from zero, so the outline costs a jump of less than a millionth and no infinite gradient (`C112_outline`). Finding: because angles
  are not wrapped back into the opening, a receiver around the whole circle has a seam at which the image jumps (`C112_seam`); compare `C18_lost_quadrant`.
* **C113** the invariant of the loop over the orders says that the current row holds the textbook coefficients for those entries only that belong to basis
  functions which do not vanish; all other entries hold left-overs of earlier basis functions, and the bounds of the inner loop are just such that these are
  never read. No disagreement found: the algorithm is right for all orders, although the package only ever asks for the first. While proving it the model of
  one step was made faithful for orders above the degree, where an index of the code becomes negative but is not used.
* **C114** the slope of the Kullback-Leibler divergence along the way turns out to be minus a sum of squares, that of the cosine minus a Gram determinant, and
  the centre of brightness of a blend of two images moves on the straight line between the two centres. Finding: the focal spot loss on cylindrical targets
  measures the distance straight through the cylinder, so for a receiver around the whole tower a prediction that is three quarters of the circle away gets a
  larger loss when it moves in the direction that leads to the measurement along the bitmap (`C114_around_rises`); up to half a circle this cannot happen.
* **C115** `convert_wgs84_coordinates_to_local_enu` is an approximation: it ignores the curvature of the earth (heights are plain differences of
  altitudes, so a point 1 km away is reported up to 8 cm too high) and the altitude of the field (east and north offsets are measured on the ellipsoid, short
  by altitude/6378 km: 16 cm per km at 1000 m). `C115_accuracy` bounds the error of every coordinate, `C115_equator` shows that it is real. The docstring does
  not mention it.
* **C116** the orientation depends on the second joint's tilt about east and the initial angle of the first actuator through their sum only (`C116_redundant`): both rotations are about the same axis and nothing lies between them. The reconstruction optimises the rotation deviations only, and these four are determined by four normals if the actuators are known (`C116_deviations`); a wrong initial angle of the first actuator is therefore absorbed by the tilt without a trace, and configurations that differ in this way cannot be told apart. Optimising the initial angles as well (the broadcast of `optimizable_parameters` suggests that it was intended) would make the two values arbitrary.
  the orientation depends on their sum only (`C116_redundant`): both rotations are about the same axis and nothing lies between them. Reconstructed values of
  the two are arbitrary (they depend on the start and the learning rates), only their sum is measured. All other rotation deviations are determined by four
  normals (`C116_normals`, `C116_unique`).
* **C117** the samples of `calculate_surface_points_and_normals` on the grid of `create_nurbs_evaluation_grid` determine the control points as soon as
  degree + 1 grid steps fit between two knots (50 by 50 samples suffice for 10 by 10 cubic control points). The converse, `C117_hidden`, shows that this needs
  a condition: with 2·ne < nu there are deformations no sampled point or normal shows. Nothing in the code compares the two numbers. Knots are the clamped
  uniform ones of the code; arithmetic is exact.
* **C118** the blocking mask is built from sigmoids so that it can be differentiated, but it is only applied to the mirrors that the box filter returns. A
  mirror beside the ray whose box is just missed is dropped, although the mask would still give it almost the full weight. So the blocked part of a ray jumps
  from 0 to more than 1/2 when a mirror is moved by an arbitrarily small distance (`C118_jump`), and the gradient on either side says nothing about it.
  Whether a mirror outside the box contributes also depends on the other rays of the batch (C06). Away from grazing rays the blocked part is continuous
  (`C118_steady_partial`).
* **C119** global bounds for errors of joints, sun and motors, valid for all errors and not only to first order. The clamps in the linear actuators (1e-6 in
  the cosine) make the angle globally Lipschitz in the motor position, with a constant 1000 times that of a right-angled triangle. The factor two of the
  reflection is exact (`C119_doubled`).
* **C120** the conversion of pixels to target coordinates shrinks everything towards the centre by the factor (N-1)/N in each direction (pixel centres of the
  splatting span the whole target, those of the conversion do not, see C39). The bound of one pixel in `C120_measurement` contains that half pixel; the spread
  in `C120_spread` is therefore stated in pixels.
* **C121** the limit is the mean over the parameters of a facet, not over its area: a facet whose control points are crowded is sampled more densely there,
  and all rays carry the same power. This happens even for flat facets, see C122. The parameters nearer than 1e-7 to
  the border are never sampled.
* **C122** **finding:** the flat facets made by `create_planar_nurbs_control_points` have equally spaced control points, but clamped knots. With the default
  settings (10 x 10 control points, degree 3) the surface points are 7/3 times too sparse at the borders, in each direction, and 9/7 times too dense in the
  middle (`C122_default_refuted`, `C122_border`, `C122_middle`). Every ray carries the same power, so the border of an ideal mirror is under-represented in
  the flux. Control points at the means of the inner knots would be even (`C122_knots`).
* **C123** the random generator of torch is not modelled here: the theorem speaks about any independent, identically distributed rows of distortions on any
  probability space, and `C123_sun` gives one with the normal distribution of the sun. The program draws a fixed number of rows; "as the number of rays grows"
  compares runs with more and more rows of one infinite sequence. C74 says when two groups get the same rows, for which independence fails between the groups
  (not within one).
* **C124** C121 needed that no ray meets the edge of the target; with a sun that has a density this is almost surely true and the hypothesis goes away.
  Finding: scattering turns rays about the east axis and then about the up axis only, so that a vertical reflected ray is not spread in the east direction at
  all (`C124_vertical`), and rays near the vertical only a little. The code comment speaks of scattering around the preferred direction; for towers this
  matters for heliostats below the receiver only.
* **C125** `C125_edge` gives a scene with a ray exactly at the eastern edge: with a point sun it is counted, with arbitrarily small distortions to the east it
  is not, so the exclusion of edges is needed.
* **C126** The constant 100 is not sharp; it covers every order of the three additions of a dot product. Near the edges the decision whether a ray counts can
  differ from the truth (`C126_edge`: a ray 1.2e-7 m beside the target counts fully in float32). At the west edge (column 0, flipped to `W - 1`) such rays are
  dropped by the splatting anyway.
* **C127** Finding: minimising the pixel loss of traced images minimises the error of the noise-free image plus its noise. With few rays a wrong model with
  less scatter has the smaller average loss (`C127_too_few`). The floor of the loss is at most the squared power of the mirror over the number of rays and the
  measured flux. The probability bound for the focal spot uses a union over all pixels and is not sharp.
* **C128** Bounds are for plane targets and without blocking (a blocked ray may become free and the reverse, see C118). The distance from the edges that is
  needed is explicit: start error plus distance times angular error, times one plus one over the cosine at the target.
* **C129** Cosine and sine of PyTorch are assumed to be right up to two units of rounding; the reduced precision mode TF32 of matrix products, off by default
  and not switched on in /repo, is not modelled. Surface points and normals are taken as they are: rounding in the kinematics and the NURBS evaluation is
  outside.
* **C130** Joint angles are taken as the actuators return them, so rounding of the arccos in the actuators is outside; the angles of the fixed turn from lying
  flat to facing south are assumed right up to two units. The bound for points grows with the distance of the heliostat from the origin of the scenario, not
  with that from the tower: a scenario whose origin is far away loses that much precision.
* **C131** The worst case, 15 cm at 200 m, is dominated by the thirteen products of matrices of the kinematics, whose errors are amplified by the distance to
  the target; it is an upper bound for every order of additions, not what typically happens.
* **C132** The arc cosine is what costs accuracy. Thirty degrees away from the singular position a float32 joint angle is certainly right to 0.04 mrad;
  in line with the pivot radius the guarantee falls to the square root of that (milliradians), although the code clamps the cosine by 1e-6 in order to stay
  away from it: the clamp keeps the derivative finite, not the angle accurate.
* **C133** Single pixels of a float32 image may differ a lot from exact ones (rays may move by pixels, C131), the power on the target may not: 0.03
  percent for a thousand rays. Losses that compare pixels are exposed to the rounding of the kinematics, those that compare totals are not.
* **C134** The generator checks that all heliostats have as many facets as the prototype, by counting the configured list: facets with a repeated key pass the
  check, are written once (C45, C82), and loading raises RuntimeError. It does not check numbers of control points, so heliostats of one type with different
  numbers of control points can be written but not loaded, unless the number is changed on loading (which does not help if facets of one heliostat differ).
  For heliostats with different types of actuators the check is stricter than loading requires.
* **C135** The 1e-8 that is meant to protect the percentage against division by zero is added to the numerator, not to the denominator: if no light reaches
  the target in the first epoch the entries are infinite or NaN, and otherwise the first entry is 1e-6 divided by the power instead of zero. Harmless for the
  optimisation, as the entry is only reported.
* **C136** Most of the bound comes from the law of cosines in the actuators: 0.08 mrad in the joints are about 1300 units of rounding, and the bound is more
  than twice the one for given joint angles (12 pixels instead of 5). A worst case bound; no claim is made that it is attained.
* **C137** The GPU is chosen by the global rank, not by the rank on the computer. If a launcher deals ranks to computers in turn, processes of one computer
  share GPUs while others are idle, unless the numbers are coprime (`C137_in_turn`; two computers with four GPUs: ranks 2 and 6 share GPU 2). In a run that is
  not distributed `set_device` is not called, so that with `cuda:1` as given device every call without a device works on `cuda:0` (`C137_omitted_alone`). If
  joining the group fails every process carries on alone as rank 0 (`C137_alone`), with an info message only.
* **C138** The errors of the actuators more than double the bound of C133 (0.07 instead of 0.03 percent). Although single rays may move by up to twelve pixels
  (C136) the power is that accurate, as long as no ray is near an edge.
