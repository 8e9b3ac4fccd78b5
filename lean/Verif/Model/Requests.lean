import Verif.Model.Mapping
import Verif.Model.AimFlux
/-!
# Model of the way from a user's list of heliostats, target areas and light directions to the bitmaps of the target areas

The sequence every tutorial follows, for one group on one process: `Scenario.index_mapping` (`artist/scenario/scenario.py` 261-419),
`HeliostatGroup.activate_heliostats` (`artist/field/heliostat_group.py` 225-315), alignment and `HeliostatRayTracer.trace_rays`
(`artist/raytracing/heliostat_ray_tracer.py` 276-508), `get_bitmaps_per_target` (563-608).  Put together from the models of the parts; what is
computed for one active heliostat (alignment, rays, bitmap) is an abstract function of its row in the group, its light direction, the number
of its target area and the distortions of its sample.
-/
namespace Artist.Requests
open Artist Mapping

/-- One sample of the tracer; rows that `index_mapping` would have left uninitialised (see C29: there are none) give an uninitialised bitmap.
Lines 316-508 of `heliostat_ray_tracer.py`. -/
def sample {X A D B : Type} (image : X → A → D → Int → B) (distortions : X) : A × Option D × Option Int → Option B
  | (a, some light, some target) => some (image distortions a light target)
  | _ => none

/-- The whole sequence (see above for the lines).  `names` and `heliostats` are the names and the rows of the group; `dist i` are the distortions of
sample `i`; the result has one bitmap per target area, `none` marks uninitialised memory. -/
def run {N X A D B : Type} [DecidableEq N] [Add B] [Zero B] (image : X → A → D → Int → B) (dist : Nat → X) (lightOk : D → Bool)
    (names : List N) (heliostats : List A) (targetIndex : List (N × Nat)) (numberOfTargets : Nat) (mapping : List (Entry N D)) (batchSize : Nat) :
    Except PyErr (List (Option B)) :=
  match indexMapping lightOk names targetIndex mapping with
  | .error e => .error e
  | .ok r =>
    let samples := (repeatInterleave heliostats r.mask).zip (r.lights.zip r.targets)
    match Trace.traceRays (sample image) dist samples (Sampler.tracerRankIndices r.mask 1 0) batchSize with
    | .error e => .error e
    | .ok rows => .ok (Trace.bitmapsPerTarget (some 0) AimFlux.addOption numberOfTargets (rows.map Option.join) (r.targets.map (·.getD (-1))))

/-- The same on a process that shares the group with others, as the tutorial for distributed ray tracing does it
(`tutorials/02_heliostat_raytracing_distributed_tutorial.py` 133-177, also `aim_point_optimizer.py` 466-505): the target areas are those of the
samples of this process, the rows are those of all samples.  A boolean mask of another length than the rows raises `IndexError`. -/
def runShared {N X A D B : Type} [DecidableEq N] [Add B] [Zero B] (image : X → A → D → Int → B) (dist : Nat → X) (lightOk : D → Bool)
    (names : List N) (heliostats : List A) (targetIndex : List (N × Nat)) (numberOfTargets : Nat) (mapping : List (Entry N D)) (batchSize : Nat)
    (worldSize rank : Nat) : Except PyErr (List (Option B)) :=
  match indexMapping lightOk names targetIndex mapping with
  | .error e => .error e
  | .ok r =>
    let samples := (repeatInterleave heliostats r.mask).zip (r.lights.zip r.targets)
    let own := Sampler.tracerRankIndices r.mask worldSize rank
    match Trace.traceRays (sample image) dist samples own batchSize with
    | .error e => .error e
    | .ok rows =>
      match Report.gatherOwn (r.targets.map (·.getD (-1))) own with
      | .error e => .error e
      | .ok targets =>
        if rows.length ≠ targets.length ∧ (List.range numberOfTargets).any (fun (i : Nat) => targets.any (fun t => decide (t = (i : Int)))) then
          .error .indexError
        else .ok (Trace.bitmapsPerTarget (some 0) AimFlux.addOption numberOfTargets (rows.map Option.join) targets)

end Artist.Requests
