import Verif.Model.Trace
/-!
# Model of the surfaces a ray tracer uses for blocking

`artist/raytracing/heliostat_ray_tracer.py` 157-183 and 292-301, with `artist/field/heliostat_group.py` 225-272 and `artist/field/heliostat_group_rigid_body.py` 217-222, 265-270 as far as
surface points are concerned.  A point is an element of a type with addition (the first three components; the fourth is not used for blocking).
-/
namespace Artist.Blockers
open Artist

/-- The surfaces of a heliostat group: per heliostat the points of the lying mirror around the origin and the position, the mask of the last activation and the active rows.  Source: `heliostat_group.py` 78-159. -/
structure Group (P : Type) where
  surfaces : List (List P)
  positions : List P
  mask : List Nat
  active : List (List P)
  deriving DecidableEq, Repr

/-- What a user does with the groups of a field.  Source: `heliostat_group.py` 225-272 (activation), `heliostat_group_rigid_body.py` 169-270 (alignment), `heliostat_ray_tracer.py` 157-183 (new ray tracer). -/
inductive Op (P : Type) where
  /-- `activate_heliostats` on group `k`. -/
  | activate (k : Nat) (mask : List Nat)
  /-- One of the two `align_surfaces_...` on group `k`: active row `r` is moved by `motion r`. -/
  | align (k : Nat) (motion : Nat → P → P)

/-- `activate_heliostats` (`heliostat_group.py` 249-260).  Masks of another length than the group are rejected by the code (`Verif.Model.Group`); not modelled here. -/
def Group.activate {P : Type} (g : Group P) (mask : List Nat) : Group P :=
  { g with mask := mask, active := repeatInterleave g.surfaces mask }

/-- `align_surfaces_with_incident_ray_directions`, `align_surfaces_with_motor_positions` (`heliostat_group_rigid_body.py` 217-222, 265-270): the active rows are moved; which motion it is
is modelled in `Verif.Model.AlignSurface`. -/
def Group.align {P : Type} (g : Group P) (motion : Nat → P → P) : Group P :=
  { g with active := g.active.mapIdx fun r row => row.map (motion r) }

/-- One operation on a field.  Source: as listed for `Op`. -/
def step {P : Type} (field : List (Group P)) : Op P → List (Group P)
  | .activate k mask => field.modify k (·.activate mask)
  | .align k motion => field.modify k (·.align motion)

/-- A history.  No counterpart in the code: the program that calls the functions listed for `Op`. -/
def run {P : Type} (field : List (Group P)) (ops : List (Op P)) : List (Group P) := ops.foldl step field

/-- Number of surface points per heliostat of a group (all heliostats of a group have the same).  Source: `heliostat_group.py` 78-159 (one tensor per group). -/
def pointCount {P : Type} (g : Group P) : Nat := (g.surfaces.headD []).length

/-- The surfaces of one group (`heliostat_ray_tracer.py` 171-180): the lying mirrors at their positions, the active ones replaced by the active rows.  Active rows with another number of
points are rejected by torch (simplified: also a single point, which torch broadcasts). -/
def groupBlockers {P : Type} [Add P] (g : Group P) : Except PyErr (List (List P)) :=
  if g.mask.any (fun c => decide (c ≠ 0)) ∧ g.active.any (fun row => decide (row.length ≠ pointCount g)) then .error .runtimeError
  else Trace.blockingSurfaces (List.zipWith (fun s p => s.map (· + p)) g.surfaces g.positions) g.mask g.active

/-- A ray tracer, as far as blocking is concerned: `blocking_heliostat_surfaces_active`.  Source: `heliostat_ray_tracer.py` 157-183. -/
structure Tracer (P : Type) where
  blockers : List (List P)
  deriving DecidableEq, Repr

/-- `HeliostatRayTracer.__init__` with blocking (`heliostat_ray_tracer.py` 159-183).  `torch.cat` of the surfaces of all groups (line 160) raises if the numbers of points differ, or
without groups. -/
def create {P : Type} [Add P] (field : List (Group P)) : Except PyErr (Tracer P) :=
  match field with
  | [] => .error .runtimeError
  | g :: _ =>
    if field.all (fun h => decide (pointCount h = pointCount g)) then
      match field.mapM groupBlockers with
      | .error e => .error e
      | .ok rows => .ok ⟨rows.flatten⟩
    else .error .runtimeError

/-- `trace_rays` on group `k` of a field (`heliostat_ray_tracer.py` 292-301 and 453, 465): the surfaces the rays start from, and the surfaces that block them. -/
def trace {P : Type} (t : Tracer P) (field : List (Group P)) (k : Nat) : Except PyErr (List (List P) × List (List P)) :=
  match field[k]? with
  | none => .error .indexError
  | some g => .ok (g.active, t.blockers)

/-- The order used in `tutorials/05_motor_positions_optimizer_tutorial.py` 45-78: all groups are activated and aligned before a tracer is created. -/
def alignAll {P : Type} (tasks : List (List Nat × (Nat → P → P))) : List (Op P) :=
  tasks.zipIdx.flatMap fun t => [.activate t.2 t.1.1, .align t.2 t.1.2]

/-- The order used in `examples/field_optimizations/generate_results.py` 250-305 (there without blocking): for each group activate, align, create a tracer and trace.
The result has what `trace` gives for each group. -/
def oneByOne {P : Type} [Add P] : List (List Nat × (Nat → P → P)) → Nat → List (Group P) → Except PyErr (List (List (List P) × List (List P)))
  | [], _, _ => .ok []
  | (mask, motion) :: tasks, k, field =>
    let field := run field [.activate k mask, .align k motion]
    match create field with
    | .error e => .error e
    | .ok t =>
      match trace t field k with
      | .error e => .error e
      | .ok r =>
        match oneByOne tasks (k + 1) field with
        | .error e => .error e
        | .ok rs => .ok (r :: rs)

end Artist.Blockers
