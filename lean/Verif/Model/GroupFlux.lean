import Verif.Model.Flux
import Verif.Model.AimFlux
/-!
# Model of tracing a whole group on one process and adding up the bitmaps of every target area

`artist/raytracing/heliostat_ray_tracer.py` 276-508 (`trace_rays`) and 563-608 (`get_bitmaps_per_target`), put together from the models of
the sampler (`Sampler`), of the batches (`Trace`) and of one sample (`Flux`).
-/
namespace Artist.GroupFlux
open Artist Intersect Flux

noncomputable section

/-- What `trace_rays` uses of one active heliostat (lines 287-345): the direction of the incident light, the aligned surface points with
their normals, the number of its target area, and the value of the blocking mask for its rays (lines 435-480; zero without blocking). -/
structure Sample where
  incident : Fin 4 → ℝ
  surface : List (V3 ℝ × (Fin 4 → ℝ))
  target : Nat
  blocked : V3 ℝ × V3 ℝ → ℝ

/-- Settings of the tracer and arguments of `trace_rays` (lines 81-91, 184-206, 226-227): bitmap resolution, power of a ray, extinction,
reflectivity and the target areas of the scenario. -/
structure Tracer where
  W : Nat
  H : Nat
  magnitude : ℝ
  extinction : ℝ
  reflectivity : ℝ
  planes : List (Plane ℝ)
  cylinders : List Cylinder

/-- What is computed for one sample (lines 327-506), given its distortions. -/
def traceOne (tr : Tracer) (distortions : List (List (ℝ × ℝ))) (s : Sample) : Except PyErr (List (List ℝ) × ℝ × ℝ × ℝ) :=
  match target tr.planes tr.cylinders s.target with
  | .error e => .error e
  | .ok t => traceSample tr.W tr.H tr.magnitude tr.extinction tr.reflectivity t s.blocked (raysOf s.incident s.surface distortions)

/-- An exception in any of the rows ends the call; rows never written stay uninitialised (`none`).  Lines 316-508. -/
def finish {α : Type} : List (Option (Except PyErr α)) → Except PyErr (List (Option α))
  | [] => .ok []
  | none :: rows =>
    match finish rows with
    | .error e => .error e
    | .ok l => .ok (none :: l)
  | some (.error e) :: _ => .error e
  | some (.ok a) :: rows =>
    match finish rows with
    | .error e => .error e
    | .ok l => .ok (some a :: l)

/-- `trace_rays` of a group that one process has for itself (lines 276-508): `mask` is the activation mask, `samples` the active heliostats,
`dist i` the distortions of sample `i`. -/
def traceGroup (tr : Tracer) (dist : Nat → List (List (ℝ × ℝ))) (mask : List Nat) (samples : List Sample) (batchSize : Nat) :
    Except PyErr (List (Option (List (List ℝ) × ℝ × ℝ × ℝ))) :=
  match Trace.traceRays (traceOne tr) dist samples (Sampler.tracerRankIndices mask 1 0) batchSize with
  | .error e => .error e
  | .ok rows => finish rows

/-- `get_bitmaps_per_target` for the rows of `trace_rays` (lines 563-608).  A bitmap is given by its pixels; there is one for every target
area of the scenario. -/
def perTarget (tr : Tracer) (rows : List (Option (List (List ℝ) × ℝ × ℝ × ℝ))) (targets : List Nat) : List (Option (Nat → Nat → ℝ)) :=
  Trace.bitmapsPerTarget (some 0) AimFlux.addOption (tr.planes.length + tr.cylinders.length)
    (rows.map fun row => row.map fun result r c => (result.1.getD r []).getD c 0) (targets.map fun (t : Nat) => (t : Int))

end
end Artist.GroupFlux
