import Verif.Model.Sampler
/-!
# Model of the batching, ownership and per-target logic of
`artist/raytracing/heliostat_ray_tracer.py`

The physical computation of one sample is an abstract function; only the row bookkeeping is modelled.
-/
namespace Artist.Trace
open Artist

/-- Batches a `DataLoader` with a sampler, `batch_size = bs` and no shuffling yields: consecutive groups
of `bs` sampler indices, the last one possibly shorter (`heliostat_ray_tracer.py` 150-155).  The first
argument bounds the recursion; `loader` passes the list length. -/
def chunks {α : Type} (bs : Nat) : Nat → List α → List (List α)
  | 0, _ => []
  | _ + 1, [] => []
  | fuel + 1, l@(_ :: _) => l.take bs :: chunks bs fuel (l.drop bs)

/-- Batches of sampler indices produced by the loader.  Source: `heliostat_ray_tracer.py` 146-156 and 316. -/
def loader (bs : Nat) (samplerIndices : List Nat) : List (List Nat) :=
  chunks bs samplerIndices.length samplerIndices

/-- `mask = zeros(n, bool); mask[idxs] = True` (lines 321-326); an index `≥ n` raises `IndexError`. -/
def batchMask (n : Nat) (idxs : List Nat) : Except PyErr (List Bool) :=
  if ∃ i ∈ idxs, n ≤ i then .error .indexError
  else .ok ((List.range n).map (fun i => decide (i ∈ idxs)))

/-- `tensor[mask]` for a boolean mask: the selected rows in ascending order (e.g. line 331). -/
def select {α : Type} : List α → List Bool → List α
  | x :: xs, b :: bs => if b then x :: select xs bs else select xs bs
  | _, _ => []

/-- `tensor[mask] = values` (line 496): the selected rows, in ascending order, receive the values. -/
def assign {α : Type} : List α → List Bool → List α → List α
  | r :: rows, true :: mask, v :: vals => v :: assign rows mask vals
  | r :: rows, true :: mask, [] => r :: assign rows mask []
  | r :: rows, false :: mask, vals => r :: assign rows mask vals
  | rows, _, _ => rows

/-- One iteration of the batch loop (lines 316-506).  `dist i` is the distortion item of dataset index `i`,
`data` the per-sample rows (ray directions, surface points, target index).  Shape mismatches between the
loader's batch and the selected rows raise `RuntimeError`.  `compute` stands for scattering, intersection
and splatting of one sample. Blocking, which looks at the whole batch, is treated in `blockedBatch`. -/
def batchStep {D S B : Type} (compute : D → S → B) (dist : Nat → D) (data : List S)
    (samplerIndices : List Nat) (bs : Nat) (rows : List (Option B)) (batchIndex : Nat)
    (batch : List Nat) : Except PyErr (List (Option B)) :=
  let batchMaskIndices := (samplerIndices.drop (batchIndex * bs)).take ((batchIndex + 1) * bs - batchIndex * bs)
  match batchMask data.length batchMaskIndices with
  | .error e => .error e
  | .ok mask =>
    let selected := select data mask
    if batch.length ≠ selected.length then .error .runtimeError
    else .ok (assign rows mask (List.zipWith (fun i s => some (compute (dist i) s)) batch selected))

/-- The batch loop `for batch_index, batch in enumerate(loader)` starting at `batchIndex`.  Source: `heliostat_ray_tracer.py` 316-508. -/
def batchLoop {D S B : Type} (compute : D → S → B) (dist : Nat → D) (data : List S)
    (samplerIndices : List Nat) (bs : Nat) : List (Option B) → Nat → List (List Nat) →
    Except PyErr (List (Option B))
  | rows, _, [] => .ok rows
  | rows, batchIndex, batch :: batches =>
    match batchStep compute dist data samplerIndices bs rows batchIndex batch with
    | .error e => .error e
    | .ok rows' => batchLoop compute dist data samplerIndices bs rows' (batchIndex + 1) batches

/-- `HeliostatRayTracer.trace_rays` (lines 303-508) as far as rows are concerned.  `none` marks a row of
`torch.empty` that was never written.  `DataLoader` rejects a non-positive batch size with
`ValueError`. -/
def traceRays {D S B : Type} (compute : D → S → B) (dist : Nat → D) (data : List S)
    (samplerIndices : List Nat) (bs : Nat) : Except PyErr (List (Option B)) :=
  if bs = 0 then .error .valueError
  else batchLoop compute dist data samplerIndices bs (List.replicate data.length none) 0
    (loader bs samplerIndices)

/-! ## Blocking inside a batch -/

/-- Blocked value of one ray of a batch (lines 445-480): the primitives relevant for *any* ray of the batch
(`hits ray primitive`, the LBVH filter, lines 452-461) are used for *every* ray of the batch (lines
463-480).  `soft` is the soft mask for a ray and a list of primitives; when no primitive is relevant the value is 0,
which `soft` also gives for the empty list. -/
def blockedBatch {R P B : Type} (hits : R → P → Bool) (soft : R → List P → B) (primitives : List P)
    (batchRays : List R) (ray : R) : B :=
  soft ray (primitives.filter (fun p => batchRays.any (fun r => hits r p)))

/-- `torch.nonzero(mask)[0]` (line 315). -/
def nonzero (mask : List Nat) : List Nat :=
  (List.range mask.length).filter (fun i => decide (mask.getD i 0 ≠ 0))

/-- Owner attributed to the rays of sample `s` (lines 446-449):
`global_active_indices[batch_mask_indices]`, an index into the heliostats of *this group*. -/
def ownerIndex (mask : List Nat) (s : Nat) : Except PyErr Nat :=
  match (nonzero mask)[s]? with
  | some i => .ok i
  | none => .error .indexError

/-- Index of heliostat `local` of group `group` among the blocking primitives: the primitives are
concatenated over all groups (lines 160-183). -/
def primitiveIndex (groupSizes : List Nat) (group localIndex : Nat) : Nat :=
  (groupSizes.take group).sum + localIndex

/-- Heliostat (row of the group) that owns sample `s` under an activation mask: row `i` owns `mask[i]`
consecutive samples (`repeat_interleave` in `HeliostatGroup.activate_heliostats`).  Lines 225-272. -/
def trueOwner (mask : List Nat) : List Nat := repeatInterleave (List.range mask.length) mask

/-- `surfaces[mask.bool()] = active_surface_points` for one group (lines 170-180).  `surfaces` are the
group's unaligned surfaces, `active` its aligned ones (one per sample).  Torch broadcasts a single row;
any other disagreement of the row counts raises `RuntimeError`. A group without active heliostats keeps its
unaligned surfaces. -/
def blockingSurfaces {α : Type} (surfaces : List α) (mask : List Nat) (active : List α) :
    Except PyErr (List α) :=
  let bmask := mask.map (fun c => decide (c ≠ 0))
  let m := bmask.countP (fun b => b)
  if bmask.any id then
    if active.length = m then .ok (assign surfaces bmask active)
    else
      match active with
      | [a] => .ok (assign surfaces bmask (List.replicate m a))
      | _ => .error .runtimeError
  else .ok surfaces

/-! ## Bitmaps per target -/

/-- `get_bitmaps_per_target` (lines 563-608).  A bitmap is an element of an additive structure;
`zero`/`add` are the tensor zero and addition.  Row `index` of the result is the sum of the bitmaps whose
target index equals `index`, and zero if there is none.  Target indices are integers. -/
def bitmapsPerTarget {B : Type} (zero : B) (add : B → B → B) (numberOfTargets : Nat)
    (bitmaps : List B) (targets : List Int) : List B :=
  (List.range numberOfTargets).map (fun (index : Nat) =>
    let mask := targets.map (fun t => decide (t = (index : Int)))
    if mask.any id then (select bitmaps mask).foldl add zero else zero)

end Artist.Trace
