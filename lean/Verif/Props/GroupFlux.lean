import Verif.Spec.GroupFlux
import Verif.Proofs.AimFlux
import Verif.Props.Flux
import Verif.Props.Aiming
/-!
# C100: power on the target areas and sunlight on the mirrors
-/
namespace Artist.GroupFlux
open Artist Intersect Flux Finset Transforms

/-! ## Helper lemmas -/

theorem finish_ok {α : Type} (l : List α) : finish (l.map fun a => some (Except.ok a)) = .ok (l.map some) := by
  induction l with
  | nil => rfl
  | cons a l ih => simp [finish, ih]

theorem length_raysOf (incident : Fin 4 → ℝ) (surface : List (V3 ℝ × (Fin 4 → ℝ))) (d : List (List (ℝ × ℝ)))
    (h : ∀ row ∈ d, row.length = surface.length) : (raysOf incident surface d).length = surface.length * d.length := by
  unfold raysOf
  induction d with
  | nil => simp
  | cons row d ih =>
    rw [List.flatMap_cons, List.length_append, ih (fun r hr => h r (by simp [hr])), List.length_zipWith, h row (by simp), List.length_cons]
    rw [Nat.min_self]; ring

theorem total_add (W H : Nat) (f g : Nat → Nat → ℝ) : total W H (f + g) = total W H f + total W H g := by
  unfold total; simp only [Pi.add_apply, sum_add_distrib]

theorem total_sum (W H : Nat) (l : List (Nat → Nat → ℝ)) : total W H l.sum = (l.map (total W H)).sum := by
  induction l with
  | nil => simp [total]
  | cons f l ih => rw [List.sum_cons, total_add, ih, List.map_cons, List.sum_cons]

theorem sum_le_count {α : Type} (l : List α) (f : α → ℝ) (c : ℝ) (h : ∀ x ∈ l, f x ≤ c) : (l.map f).sum ≤ l.length * c := by
  induction l with
  | nil => simp
  | cons x l ih =>
    rw [List.map_cons, List.sum_cons, List.length_cons]
    push_cast
    linarith [h x (by simp), ih (fun y hy => h y (by simp [hy]))]

theorem rows_alone (tr : Tracer) (dist : Nat → List (List (ℝ × ℝ))) (mask : List Nat) (k : Nat) (hu : ∀ c ∈ mask, c = 0 ∨ c = k)
    (samples : List Sample) (hn : samples.length = mask.sum) (bs : Nat) (hbs : 0 < bs)
    (f : Nat → Sample → List (List ℝ) × ℝ × ℝ × ℝ)
    (hf : ∀ i s, samples[i]? = some s → traceOne tr (dist i) s = .ok (f i s)) :
    traceGroup tr dist mask samples bs = .ok ((samples.mapIdx f).map some) := by
  obtain ⟨rows, h1, h2, h3⟩ := Trace.C06_rows_partial (traceOne tr) dist samples (mask.countP fun c => decide (c > 0)) 1 0 bs hbs
  have e : rows = (samples.mapIdx f).map fun a => some (Except.ok a) := by
    apply List.ext_getElem?
    intro i
    rw [List.getElem?_map, List.getElem?_mapIdx]
    by_cases hi : i < samples.length
    · have hs := List.getElem?_eq_getElem hi
      rw [h3 i _ hs, hs]
      have hm : i ∈ Sampler.rankIndices samples.length (mask.countP fun c => decide (c > 0)) 1 0 := by
        obtain ⟨r, ⟨hr, hr'⟩, -⟩ := Sampler.C04_tracer_uniform mask k 1 Nat.one_pos hu i (hn ▸ hi)
        have : r = 0 := by omega
        subst this
        rw [hn]; exact hr'
      rw [if_pos hm, hf i _ hs]; rfl
    · rw [List.getElem?_eq_none (by omega), List.getElem?_eq_none (by omega)]; rfl
  unfold traceGroup Sampler.tracerRankIndices
  rw [← hn, h1, e]
  exact finish_ok _

/-! ## Theorems -/

/-- What one sample of a regular scene brings. -/
theorem sample_bound (tr : Tracer) (htr : tr.Regular) (hm : 0 ≤ tr.magnitude) (s : Sample) (hs : s.Regular)
    (ht : s.target < tr.planes.length + tr.cylinders.length) (d : List (List (ℝ × ℝ))) :
    ∃ result, traceOne tr d s = .ok result ∧ (∀ r c, r < tr.H → c < tr.W → 0 ≤ Splat.pixel result.1 r c) ∧
      total tr.W tr.H (Splat.pixel result.1) ≤
        tr.magnitude * (1 - tr.extinction) * tr.reflectivity * (raysOf s.incident s.surface d).length := by
  have key : ∃ t, target tr.planes tr.cylinders s.target = .ok t ∧ Target.Valid t := by
    by_cases h : s.target < tr.planes.length
    · have hp := List.getElem?_eq_getElem h
      exact ⟨_, (C65_target tr.planes tr.cylinders).1 _ _ hp, htr.planes _ (List.mem_of_getElem? hp)⟩
    · have h' : s.target - tr.planes.length < tr.cylinders.length := by omega
      have hp := List.getElem?_eq_getElem h'
      have := (C65_target tr.planes tr.cylinders).2.1 _ _ hp
      rw [show tr.planes.length + (s.target - tr.planes.length) = s.target by omega] at this
      exact ⟨_, this, htr.cylinders _ (List.mem_of_getElem? hp)⟩
  obtain ⟨t, ht1, ht2⟩ := key
  obtain ⟨b, x, y, z, h1, h2, -, h4⟩ := C65_bound tr.W tr.H htr.width htr.height tr.magnitude tr.extinction tr.reflectivity hm htr.extinction
    htr.reflectivity t ht2 s.blocked hs.blocked s.incident hs.incident_direction hs.incident_length s.surface hs.normals d
  refine ⟨(b, x, y, z), ?_, h2, h4⟩
  unfold traceOne
  rw [ht1]
  exact h1

/-- C100, what holds: one process traces a group; every heliostat has a first facet of half width `a` and half height `b`, `points` surface points
and `rays` rays per point.  Whatever the batch size, the distortions and the blocking are, the call succeeds and
returns non-negative bitmaps for all target areas; the power on a target area is at most the
irradiance times the outline of a heliostat, reduced by extinction and reflectivity, for each heliostat aiming at it, and the power on all target areas at most that for
all active heliostats.  (The full claim has the sunlight caught by the mirrors in place of irradiance times area; it is false, see below.) -/
theorem C100_balance_partial (tr : Tracer) (htr : tr.Regular) (dni a b : ℝ) (hdni : 0 ≤ dni) (ha : 0 ≤ a) (hb : 0 ≤ b) (points rays : Nat)
    (hpoints : 0 < points) (hrays : 0 < rays) (hmag : tr.magnitude = rayMagnitude (some dni) ![a, 0, 0, 0] ![0, b, 0, 0] points rays)
    (dist : Nat → List (List (ℝ × ℝ))) (mask : List Nat) (k : Nat) (hu : ∀ c ∈ mask, c = 0 ∨ c = k)
    (samples : List Sample) (hn : samples.length = mask.sum) (hreg : ∀ s ∈ samples, s.Regular)
    (htarget : ∀ s ∈ samples, s.target < tr.planes.length + tr.cylinders.length)
    (hsurface : ∀ s ∈ samples, s.surface.length = points)
    (hdist : ∀ i, i < samples.length → (dist i).length = rays ∧ ∀ row ∈ dist i, row.length = points)
    (batchSize : Nat) (hbs : 0 < batchSize) :
    ∃ (rows : _) (bitmaps : List (Nat → Nat → ℝ)), traceGroup tr dist mask samples batchSize = .ok rows ∧
      perTarget tr rows (samples.map Sample.target) = bitmaps.map some ∧
      bitmaps.length = tr.planes.length + tr.cylinders.length ∧
      (∀ t bitmap, bitmaps[t]? = some bitmap →
        (∀ r c, r < tr.H → c < tr.W → 0 ≤ bitmap r c) ∧
        total tr.W tr.H bitmap ≤ (samples.countP fun s => decide (s.target = t) : Nat) *
          (dni * ((4 * a + 2 / 100) * (4 * b + 2 / 100)) * (1 - tr.extinction) * tr.reflectivity)) ∧
      (bitmaps.map (total tr.W tr.H)).sum ≤
        samples.length * (dni * ((4 * a + 2 / 100) * (4 * b + 2 / 100)) * (1 - tr.extinction) * tr.reflectivity) := by
  have hout := (C67_outline_partial dni a b ha hb points rays hpoints hrays).1
  rw [← hmag] at hout
  have hm : 0 ≤ tr.magnitude := by
    rw [hmag]; unfold rayMagnitude
    positivity
  set bound := dni * ((4 * a + 2 / 100) * (4 * b + 2 / 100)) * (1 - tr.extinction) * tr.reflectivity with hbound
  -- one result per sample
  have hone : ∀ i s, ∃ result, samples[i]? = some s → traceOne tr (dist i) s = .ok result ∧
      (∀ r c, r < tr.H → c < tr.W → 0 ≤ Splat.pixel result.1 r c) ∧ total tr.W tr.H (Splat.pixel result.1) ≤ bound := by
    intro i s
    by_cases h : samples[i]? = some s
    · have hmem := List.mem_of_getElem? h
      have hi := (List.getElem?_eq_some_iff.1 h).1
      obtain ⟨result, h1, h2, h3⟩ := sample_bound tr htr hm s (hreg s hmem) (htarget s hmem) (dist i)
      refine ⟨result, fun _ => ⟨h1, h2, h3.trans (le_of_eq ?_)⟩⟩
      rw [length_raysOf _ _ _ (fun row hr => by rw [(hdist i hi).2 row hr, hsurface s hmem]), hsurface s hmem, (hdist i hi).1, hbound, ← hout]
      push_cast; ring
    · exact ⟨([], 0, 0, 0), fun h' => absurd h' h⟩
  choose f hf using hone
  have hrows := rows_alone tr dist mask k hu samples hn batchSize hbs f (fun i s h => (hf i s h).1)
  set l : List (Nat → Nat → ℝ) := (samples.mapIdx f).map (fun result => Splat.pixel result.1) with hl
  have hlen : l.length = samples.length := by rw [hl, List.length_map, List.length_mapIdx]
  have hper : perTarget tr ((samples.mapIdx f).map some) (samples.map Sample.target) =
      (Trace.bitmapsPerTarget 0 (· + ·) (tr.planes.length + tr.cylinders.length) l ((samples.map Sample.target).map fun (t : Nat) => (t : Int))).map some := by
    rw [← AimFlux.bitmapsPerTarget_some]
    unfold perTarget
    rw [hl]
    simp only [List.map_map]
    rfl
  have hl_mem : ∀ g ∈ l, (∀ r c, r < tr.H → c < tr.W → 0 ≤ g r c) ∧ total tr.W tr.H g ≤ bound := by
    intro g hg
    rw [hl, List.mem_map] at hg
    obtain ⟨result, hr, rfl⟩ := hg
    rw [List.mem_mapIdx] at hr
    obtain ⟨i, hi, rfl⟩ := hr
    exact (hf i _ (List.getElem?_eq_getElem hi)).2
  have hpt := Trace.C07_per_target (tr.planes.length + tr.cylinders.length) l ((samples.map Sample.target).map fun (t : Nat) => (t : Int))
  refine ⟨_, _, hrows, hper, hpt.1, ?_, ?_⟩
  · intro t bitmap ht
    have htn : t < tr.planes.length + tr.cylinders.length := by
      have := (List.getElem?_eq_some_iff.1 ht).1
      rwa [hpt.1] at this
    rw [hpt.2 t htn, Option.some.injEq] at ht
    subst ht
    constructor
    · intro r c hr hc
      have : ∀ q : List (Nat → Nat → ℝ), (∀ g ∈ q, 0 ≤ g r c) → 0 ≤ q.sum r c := by
        intro q
        induction q with
        | nil => intro _; simp
        | cons g q ih =>
          intro h
          rw [List.sum_cons]
          exact add_nonneg (h g (by simp)) (ih fun g hg => h g (by simp [hg]))
      apply this
      intro g hg
      rw [List.mem_map] at hg
      obtain ⟨p, hp, rfl⟩ := hg
      exact (hl_mem p.1 (List.of_mem_zip (List.mem_filter.1 hp).1).1).1 r c hr hc
    · rw [total_sum, List.map_map]
      refine (sum_le_count _ _ bound ?_).trans (le_of_eq ?_)
      · intro p hp
        exact (hl_mem p.1 (List.of_mem_zip (List.mem_filter.1 hp).1).1).2
      · congr 2
        rw [← List.countP_eq_length_filter]
        have : ∀ (q : List (Nat → Nat → ℝ)) (ss : List Sample), q.length = ss.length →
            (q.zip ((ss.map Sample.target).map fun (t : Nat) => (t : Int))).countP (fun p => decide (p.2 = (t : Int))) =
              ss.countP fun s => decide (s.target = t) := by
          intro q
          induction q with
          | nil => intro ss h; cases ss with
            | nil => rfl
            | cons => simp at h
          | cons g q ih =>
            intro ss h
            cases ss with
            | nil => simp at h
            | cons s ss =>
              rw [List.map_cons, List.map_cons, List.zip_cons_cons, List.countP_cons, List.countP_cons, ih ss (by simpa using h)]
              simp only [Nat.cast_inj]
        exact this l samples hlen
  · have hcons := Trace.C07_conservation (tr.planes.length + tr.cylinders.length) l ((samples.map Sample.target).map fun (t : Nat) => (t : Int))
      (by rw [hlen, List.length_map, List.length_map]) (by
        intro t ht
        simp only [List.mem_map] at ht
        obtain ⟨n, ⟨s, hs, rfl⟩, rfl⟩ := ht
        exact ⟨Int.natCast_nonneg _, by exact_mod_cast htarget s hs⟩)
    rw [← total_sum, hcons, total_sum, ← hlen]
    exact sum_le_count l _ bound fun g hg => (hl_mem g hg).2

/-- C100 with the sunlight that the mirrors catch: if the light meets all mirror points at angles whose cosine is at least `c`, the power on all target areas
is at most the caught sunlight divided by `c`, reduced by extinction and reflectivity; with mirrors facing the sun (`c = 1`) the full claim holds. -/
theorem C100_caught_partial (tr : Tracer) (htr : tr.Regular) (dni a b : ℝ) (hdni : 0 ≤ dni) (ha : 0 ≤ a) (hb : 0 ≤ b) (points rays : Nat)
    (hpoints : 0 < points) (hrays : 0 < rays) (hmag : tr.magnitude = rayMagnitude (some dni) ![a, 0, 0, 0] ![0, b, 0, 0] points rays)
    (dist : Nat → List (List (ℝ × ℝ))) (mask : List Nat) (k : Nat) (hu : ∀ c ∈ mask, c = 0 ∨ c = k)
    (samples : List Sample) (hn : samples.length = mask.sum) (hreg : ∀ s ∈ samples, s.Regular)
    (htarget : ∀ s ∈ samples, s.target < tr.planes.length + tr.cylinders.length)
    (hsurface : ∀ s ∈ samples, s.surface.length = points)
    (hdist : ∀ i, i < samples.length → (dist i).length = rays ∧ ∀ row ∈ dist i, row.length = points)
    (batchSize : Nat) (hbs : 0 < batchSize) (c : ℝ) (hc : 0 < c) (hcos : ∀ s ∈ samples, ∀ p ∈ s.surface, c ≤ -(s.incident ⬝ᵥ p.2)) :
    ∃ (rows : _) (bitmaps : List (Nat → Nat → ℝ)), traceGroup tr dist mask samples batchSize = .ok rows ∧
      perTarget tr rows (samples.map Sample.target) = bitmaps.map some ∧
      (bitmaps.map (total tr.W tr.H)).sum ≤
        (samples.map (caught dni ((4 * a + 2 / 100) * (4 * b + 2 / 100)))).sum / c * ((1 - tr.extinction) * tr.reflectivity) := by
  obtain ⟨rows, bitmaps, h1, h2, -, -, h5⟩ := C100_balance_partial tr htr dni a b hdni ha hb points rays hpoints hrays hmag dist mask k hu samples hn
    hreg htarget hsurface hdist batchSize hbs
  refine ⟨rows, bitmaps, h1, h2, h5.trans ?_⟩
  have hk : 0 ≤ (1 - tr.extinction) * tr.reflectivity := mul_nonneg (by linarith [htr.extinction]) htr.reflectivity
  have hA : 0 ≤ dni * ((4 * a + 2 / 100) * (4 * b + 2 / 100)) := by positivity
  have key : (samples.length : ℝ) * (dni * ((4 * a + 2 / 100) * (4 * b + 2 / 100)) * c) ≤
      (samples.map (caught dni ((4 * a + 2 / 100) * (4 * b + 2 / 100)))).sum := by
    clear h5 h2 h1 hdist htarget hreg hn
    induction samples with
    | nil => simp
    | cons s samples ih =>
      rw [List.map_cons, List.sum_cons, List.length_cons]
      have := ih (fun x hx => hsurface x (by simp [hx])) (fun x hx => hcos x (by simp [hx]))
      have hs : dni * ((4 * a + 2 / 100) * (4 * b + 2 / 100)) * c ≤ caught dni ((4 * a + 2 / 100) * (4 * b + 2 / 100)) s := by
        unfold caught
        apply mul_le_mul_of_nonneg_left _ hA
        have hl : (0 : ℝ) < s.surface.length := by rw [hsurface s (by simp)]; exact_mod_cast hpoints
        rw [le_div_iff₀ hl]
        have hx := hcos s (by simp)
        generalize s.surface = l at hx
        clear hl
        induction l with
        | nil => simp
        | cons p l ih =>
          rw [List.map_cons, List.sum_cons, List.length_cons]
          push_cast
          have h1 := ih (fun q hq => hx q (by simp [hq]))
          have h2 := hx p (by simp)
          have h3 := le_max_right (0 : ℝ) (-(s.incident ⬝ᵥ p.2))
          linarith
      push_cast
      linarith
  have := mul_le_mul_of_nonneg_right key hk
  rw [div_mul_eq_mul_div, le_div_iff₀ hc]
  nlinarith

/-- a mirror with one surface point, on which the light falls at an angle of 53 degrees -/
noncomputable def oblique : Sample where
  incident := ![-1, 0, 0, 0]
  surface := [(⟨0, 0, 0⟩, ![3 / 5, 4 / 5, 0, 0])]
  target := 0
  blocked := fun _ => 0

/-- one target area facing the reflected ray; each heliostat has four facets of 0.995 by 0.995 metres and one ray, the irradiance is 1000 -/
noncomputable def facing : Tracer where
  W := 2
  H := 2
  magnitude := rayMagnitude (some 1000) ![995 / 2000, 0, 0, 0] ![0, 995 / 2000, 0, 0] 1 1
  extinction := 0
  reflectivity := 935 / 1000
  planes := [⟨⟨-7, 24, 0⟩, ⟨7 / 25, -24 / 25, 0⟩, 2, 2⟩]
  cylinders := []

theorem oblique_regular : oblique.Regular := by
  constructor
  · simp [oblique]
  · simp [oblique, dotProduct, Fin.sum_univ_four]
  · intro p hp
    simp only [oblique, List.mem_singleton] at hp
    subst hp
    simp [dotProduct, Fin.sum_univ_four]; norm_num
  · intro ray; simp [oblique]

theorem facing_regular : facing.Regular := by
  constructor
  · simp [facing]
  · simp [facing]
  · simp [facing]
  · simp only [facing]; norm_num
  · intro p hp
    simp only [facing, List.mem_singleton] at hp
    subst hp
    norm_num [V3.normSq, V3.dot]
  · simp [facing]

/-- C100 is false for the sunlight caught by the mirrors: a ray has the same power whatever the angle is under which the light falls on the mirror, so a mirror
that is met at an angle of 53 degrees brings 935 W per square metre of mirror to the target, while it catches only 600 W of the sunlight. -/
theorem C100_more_than_caught : ∃ (tr : Tracer) (s : Sample) (area : ℝ), tr.Regular ∧ s.Regular ∧
    tr.magnitude = rayMagnitude (some 1000) ![995 / 2000, 0, 0, 0] ![0, 995 / 2000, 0, 0] 1 1 ∧
    area = (4 * (995 / 2000) + 2 / 100) * (4 * (995 / 2000) + 2 / 100) ∧
    caught 1000 area s = 600 * area ∧
    ∃ bitmap factors, traceGroup tr (fun _ => [[(0, 0)]]) [1] [s] 1 = .ok [some (bitmap, factors)] ∧
      total tr.W tr.H (Splat.pixel bitmap) = 935 * area := by
  refine ⟨facing, oblique, _, facing_regular, oblique_regular, rfl, rfl, ?_, ?_⟩
  · unfold caught oblique
    simp [dotProduct, Fin.sum_univ_four]
    norm_num
  · obtain ⟨bitmap, factors, h1, h2⟩ := C65_planar_total 2 2 (le_refl _) (le_refl _) facing.magnitude facing.extinction facing.reflectivity
      ⟨⟨-7, 24, 0⟩, ⟨7 / 25, -24 / 25, 0⟩, 2, 2⟩ (by norm_num) (by norm_num) oblique.blocked (raysOf oblique.incident oblique.surface [[(0, 0)]])
    refine ⟨bitmap, factors, ?_, ?_⟩
    · have := rows_alone facing (fun _ => [[(0, 0)]]) [1] 1 (by simp) [oblique] (by simp) 1 Nat.one_pos (fun _ _ => (bitmap, factors)) (by
        intro i s h
        have hi : i = 0 := by
          have := (List.getElem?_eq_some_iff.1 h).1
          simpa using this
        subst hi
        simp only [List.getElem?_cons_zero, Option.some.injEq] at h
        subst h
        exact h1)
      simpa using this
    · have hray : raysOf oblique.incident oblique.surface [[(0, 0)]] = [(⟨0, 0, 0⟩, ⟨-7 / 25, 24 / 25, 0⟩)] := by
        simp only [raysOf, oblique, List.flatMap_cons, List.flatMap_nil, List.append_nil, List.zipWith_cons_cons, List.zipWith_nil_left, direction,
          Aiming.rotDist_zero, Matrix.one_mulVec]
        simp [reflect, dotProduct, Fin.sum_univ_four]
        norm_num
      rw [hray] at h2
      have hlands : Lands ⟨⟨-7, 24, 0⟩, ⟨7 / 25, -24 / 25, 0⟩, 2, 2⟩ (⟨0, 0, 0⟩, ⟨-7 / 25, 24 / 25, 0⟩) := by
        refine ⟨by norm_num [V3.dot], 25, ?_⟩
        norm_num [V3.dot]
      simp only [List.map_cons, List.map_nil, List.sum_cons, List.sum_nil, add_zero, if_pos hlands] at h2
      have hm := (C67_outline_partial 1000 (995 / 2000) (995 / 2000) (by norm_num) (by norm_num) 1 1 Nat.one_pos Nat.one_pos).1
      have hm' : facing.magnitude = 1000 * ((4 * (995 / 2000) + 2 / 100) * (4 * (995 / 2000) + 2 / 100)) := by
        rw [← hm]; simp [facing]
      have : total facing.W facing.H (Splat.pixel bitmap) = power 2 2 bitmap := rfl
      rw [this, h2, hm']
      simp only [V3.dot, oblique, facing]
      norm_num

/-- C100: the scene above meets the hypotheses of the bounds, with two active heliostats that are traced one after the other. -/
example : facing.Regular ∧ (∀ s ∈ [oblique, oblique], s.Regular ∧ s.target < facing.planes.length + facing.cylinders.length ∧ s.surface.length = 1) ∧
    (∀ s ∈ [oblique, oblique], ∀ p ∈ s.surface, (3 / 5 : ℝ) ≤ -(s.incident ⬝ᵥ p.2)) ∧ [oblique, oblique].length = [1, 0, 1].sum := by
  refine ⟨facing_regular, ?_, ?_, rfl⟩
  · intro s hs
    simp only [List.mem_cons, List.not_mem_nil, or_false, or_self] at hs
    subst hs
    exact ⟨oblique_regular, by simp [oblique, facing], rfl⟩
  · intro s hs p hp
    simp only [List.mem_cons, List.not_mem_nil, or_false, or_self] at hs
    subst hs
    simp only [oblique, List.mem_singleton] at hp
    subst hp
    simp [oblique, dotProduct, Fin.sum_univ_four]

end Artist.GroupFlux
