import Verif.Model.Py
/-!
# Model of `artist/raytracing/sampling.py`
-/
namespace Artist.Sampler

/-- `RestrictedDistributedSampler.__init__` (`artist/raytracing/sampling.py` 107-147), returning
`rank_indices`.  Counts are natural numbers; the rank is non-negative.  The division by
`number_of_active_heliostats` is only reached when `rank < min(heliostats, world_size)`, so the divisor is positive
there. -/
def rankIndices (numberOfSamples numberOfActiveHeliostats worldSize rank : Nat) : List Nat :=
  let numberOfActiveRanks := min numberOfActiveHeliostats worldSize
  if rank < numberOfActiveRanks then
    let perHeliostat := numberOfSamples / numberOfActiveHeliostats
    (List.range numberOfActiveHeliostats).flatMap (fun index =>
      if index % numberOfActiveRanks = rank then
        List.range' (index * perHeliostat) perHeliostat
      else [])
  else []

/-- How the ray tracer parameterises the sampler (`artist/raytracing/heliostat_ray_tracer.py` 140-155):
the number of samples is the length of the dataset, i.e. the sum of the activation mask, and the number
of active heliostats counts the mask's positive entries. -/
def tracerRankIndices (mask : List Nat) (worldSize rank : Nat) : List Nat :=
  rankIndices mask.sum (mask.countP (fun c => decide (c > 0))) worldSize rank

end Artist.Sampler
