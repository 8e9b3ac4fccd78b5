import Verif.Proofs.Blur
import Verif.Props.ManyRays
import Verif.Props.SurfaceImage
/-! C124: the sun has no sharp edges, so finer sampling of the mirrors converges whatever the rays meet. -/
namespace Artist.Blur
open Artist Intersect Flux Splat Nurbs Surfaces Transforms FineMirror ManyRays Moved MotorImage MeasureTheory ProbabilityTheory Filter Topology

/-- C124: scattered rays hardly ever meet the edge of a target: for a surface point outside of the plane of the target whose reflected ray is not vertical, and distortions with a
density, the probability is zero. -/
theorem C124_edge (t : Plane ℝ) (hw : 0 < t.width) (hh : 0 < t.height) (origin : V3 ℝ) (incident normal : Fin 4 → ℝ) (away : V3.dot (t.center - origin) t.normal ≠ 0)
    (slanted : reflect incident normal 0 ≠ 0 ∨ reflect incident normal 1 ≠ 0) (P : Measure (ℝ × ℝ)) (density : P ≪ volume) :
    P {d | HitsEdge t (origin, direction incident normal d.1 d.2)} = 0 :=
  density (edge_null t hw hh origin incident normal away slanted)

/-- C124: a vertical ray is not scattered to the east or west at all, so that vertical rays must be excluded: the first component of the direction is zero for all distortions. -/
theorem C124_vertical (incident normal : Fin 4 → ℝ) (vertical : reflect incident normal 0 = 0 ∧ reflect incident normal 1 = 0) (e u : ℝ) :
    (direction incident normal e u).e = 0 := by
  simp [direction, rotDist, Matrix.mulVec, dotProduct, Fin.sum_univ_four, vertical.1, vertical.2]

/-- C124, expected image: let a smooth mirror be sampled on finer and finer grids, with any number of rays per point.  If the distortions of every ray have the distribution `P`, and `P` has a
density, then the expected brightness of every pixel converges. Nothing is assumed about the rays at the edge of the target. -/
theorem C124_expected (b : Setting) (hb : b.Regular) (p q : Nat) (facets : List Facet) (orientation : Mat) (hm : SmoothMirror p q facets b.incident orientation b.target)
    (P : Measure (ℝ × ℝ)) [IsProbabilityMeasure P] (density : P ≪ volume)
    {Ω : Type} [MeasurableSpace Ω] (μ : Measure Ω) [IsProbabilityMeasure μ]
    (ne nn : ℕ → ℕ) (hne : Tendsto ne atTop atTop) (hnn : Tendsto nn atTop atTop) :
    ∃ mirror : ℕ → List Sample, (∀ k, sampleAll p q true (evaluationGrid (ne k) (nn k) gridEps) facets = .ok (mirror k)) ∧
      (∀ k, (mirror k).length = facets.length * (ne k * nn k)) ∧
      (∀ k, ∀ s ∈ placed orientation (mirror k), s.2 3 = 0 ∧ s.2 ⬝ᵥ s.2 = 1) ∧
      ∀ (D : (k : ℕ) → ℕ → Ω → Fin (b.scene (placed orientation (mirror k))).points → ℝ × ℝ)
        (_ : ∀ k i j, AEMeasurable (fun ω => D k i ω j) μ ∧ μ.map (fun ω => D k i ω j) = P) (N : ℕ → ℕ) (_ : ∀ k, 0 < N k) (r c : Nat), r < b.H → c < b.W →
        Tendsto (fun k => ∫ ω, (b.scene (placed orientation (mirror k))).image r c (N k) (fun i => D k i ω) ∂μ) atTop (𝓝 (ideal b p q facets orientation P r c)) := by
  have dp := hm.degrees
  obtain ⟨e0, e1⟩ := gridEps_pos
  have hall := fun k => sample_all p q (by omega) (by omega) facets hm.controls (ne k) (nn k)
  have hu : ∀ k, ∀ s ∈ placed orientation (facets.flatMap fun f => (evaluationGrid (ne k) (nn k) gridEps).map fun z => mirrorAt p q f z.1 z.2), s.2 3 = 0 ∧ s.2 ⬝ᵥ s.2 = 1 := by
    intro k s hs
    obtain ⟨a, ha, rfl⟩ := List.mem_map.1 hs
    obtain ⟨f, hf, ha⟩ := List.mem_flatMap.1 ha
    obtain ⟨z, hz, rfl⟩ := List.mem_map.1 ha
    obtain ⟨hx, hy⟩ := grid_mem e1 hz
    exact hm.normals f hf z.1 hx z.2 hy
  refine ⟨_, hall, ?_, hu, ?_⟩
  · intro k
    rw [List.length_flatMap]
    simp only [List.length_map, grid_length, List.map_const', List.sum_replicate, smul_eq_mul]
  intro D hD N hN r c hr hc
  have value := fun k => expected_grid hb p q facets orientation _ _ rfl (hu k) P μ (D k) (hD k) (N k) (hN k) hr hc
  simp only [value, grid_length]
  refine Tendsto.div_const ?_ _
  refine tendsto_list_sum' _ _ facets fun f hf => ?_
  have := mean_square e1 _ (continuousOn_const (c := b.light) |>.mul (average_continuous hb hm P density hr hc f hf)) ne nn hne hnn
  unfold mean
  simp only [brings_mul b.W b.H b.light, integral_const_mul]
  push_cast
  exact this

/-- C124, in probability: if the distortions of different rays are independent, then the image itself converges in probability, even with one ray per surface point. -/
theorem C124_probability (b : Setting) (hb : b.Regular) (p q : Nat) (facets : List Facet) (orientation : Mat) (hm : SmoothMirror p q facets b.incident orientation b.target)
    (P : Measure (ℝ × ℝ)) [IsProbabilityMeasure P] (density : P ≪ volume)
    {Ω : Type} [MeasurableSpace Ω] (μ : Measure Ω) [IsProbabilityMeasure μ]
    (ne nn : ℕ → ℕ) (hne : Tendsto ne atTop atTop) (hnn : Tendsto nn atTop atTop) :
    ∃ mirror : ℕ → List Sample, (∀ k, sampleAll p q true (evaluationGrid (ne k) (nn k) gridEps) facets = .ok (mirror k)) ∧
      ∀ (D : (k : ℕ) → ℕ → Ω → Fin (b.scene (placed orientation (mirror k))).points → ℝ × ℝ)
        (_ : ∀ k i j, AEMeasurable (fun ω => D k i ω j) μ ∧ μ.map (fun ω => D k i ω j) = P)
        (_ : ∀ k, Pairwise fun x y : Nat × Fin (b.scene (placed orientation (mirror k))).points => IndepFun (fun ω => D k x.1 ω x.2) (fun ω => D k y.1 ω y.2) μ)
        (N : ℕ → ℕ) (_ : ∀ k, 0 < N k) (r c : Nat), r < b.H → c < b.W → ∀ ε : ℝ, 0 < ε →
        Tendsto (fun k => μ {ω | ε ≤ |(b.scene (placed orientation (mirror k))).image r c (N k) (fun i => D k i ω) - ideal b p q facets orientation P r c|}) atTop (𝓝 0) := by
  obtain ⟨mirror, h1, h2, h3, h4⟩ := C124_expected b hb p q facets orientation hm P density μ ne nn hne hnn
  refine ⟨mirror, h1, fun D hD hi N hN r c hr hc ε hε => ?_⟩
  have lim := h4 D hD N hN r c hr hc
  have hF : 0 < facets.length := List.length_pos_iff.2 hm.nonempty
  have near := (Metric.tendsto_nhds.1 lim) (ε / 2) (by linarith)
  have pos := ((hne.eventually (eventually_gt_atTop 0)).and (hnn.eventually (eventually_gt_atTop 0)))
  have bound : ∀ᶠ k in atTop, μ {ω | ε ≤ |(b.scene (placed orientation (mirror k))).image r c (N k) (fun i => D k i ω) - ideal b p q facets orientation P r c|} ≤
      ENNReal.ofReal ((b.scene []).power ^ 2 / (ε ^ 2 * ne k)) := by
    filter_upwards [near, pos] with k hk hp
    have len : (placed orientation (mirror k)).length = facets.length * (ne k * nn k) := by
      rw [← h2 k]; exact List.length_map _
    have l0 : ne k ≤ facets.length * (ne k * nn k) := by
      calc ne k = 1 * (ne k * 1) := by ring
        _ ≤ facets.length * (ne k * nn k) := Nat.mul_le_mul hF (Nat.mul_le_mul_left _ hp.2)
    have hs : (b.scene (placed orientation (mirror k))).Regular :=
      { width := hb.width, height := hb.height, dni := hb.dni, extinction := hb.extinction, reflectivity := hb.reflectivity, target := hb.target,
        blocked := fun _ => ⟨le_rfl, zero_le_one⟩, mask := measurable_const, incident := hb.incident, normals := h3 k,
        surface := List.length_pos_iff.1 (by show 0 < (placed orientation (mirror k)).length; rw [len]; exact lt_of_lt_of_le hp.1 l0) }
    have dev := deviation (b.scene (placed orientation (mirror k))) hs (D k) (fun i j => (hD k i j).1) (hi k) (N k) (hN k) r c hr hc (ε / 2) (by linarith)
    refine le_trans (measure_mono ?_) (dev.trans (ENNReal.ofReal_le_ofReal ?_))
    · intro ω hω
      simp only [Set.mem_setOf_eq] at hω ⊢
      rw [Real.dist_eq] at hk
      have := abs_sub_le ((b.scene (placed orientation (mirror k))).image r c (N k) fun i => D k i ω)
        (∫ ω, (b.scene (placed orientation (mirror k))).image r c (N k) (fun i => D k i ω) ∂μ) (ideal b p q facets orientation P r c)
      linarith
    · have pk : (0 : ℝ) < ne k := by exact_mod_cast hp.1
      have Nk : (1 : ℝ) ≤ N k := by exact_mod_cast hN k
      have lk : (ne k : ℝ) ≤ ((b.scene (placed orientation (mirror k))).points : ℝ) := by
        show (ne k : ℝ) ≤ ((placed orientation (mirror k)).length : ℝ)
        rw [len]; exact_mod_cast l0
      refine div_le_div_of_nonneg_left (sq_nonneg _) (by positivity) ?_
      have : (ne k : ℝ) * 1 ≤ ((b.scene (placed orientation (mirror k))).points : ℝ) * N k := mul_le_mul lk Nk zero_le_one (pk.le.trans lk)
      have e2 : 0 ≤ ε ^ 2 := sq_nonneg _
      nlinarith
  have z : Tendsto (fun k => ENNReal.ofReal ((b.scene []).power ^ 2 / (ε ^ 2 * ne k))) atTop (𝓝 0) := by
    rw [← ENNReal.ofReal_zero]
    refine ENNReal.tendsto_ofReal (tendsto_const_nhds.div_atTop ?_)
    exact (tendsto_natCast_atTop_atTop.comp hne).const_mul_atTop (by positivity)
  exact tendsto_of_tendsto_of_tendsto_of_le_of_le' tendsto_const_nhds z (Eventually.of_forall fun _ => bot_le) bound

/-- C124, the hypotheses are met by what the program asks for: normally distributed distortions with a positive variance have a density, and can be drawn independently for all rays. -/
theorem C124_sun (mean : ℝ) (var : NNReal) (hv : var ≠ 0) :
    (gaussianReal mean var).prod (gaussianReal mean var) ≪ volume ∧
    ∀ points : ℕ → ℕ, ∃ (μ : Measure (Nat × Nat → ℝ × ℝ)) (_ : IsProbabilityMeasure μ) (D : (k : ℕ) → ℕ → (Nat × Nat → ℝ × ℝ) → Fin (points k) → ℝ × ℝ),
      (∀ k i j, AEMeasurable (fun ω => D k i ω j) μ ∧ μ.map (fun ω => D k i ω j) = (gaussianReal mean var).prod (gaussianReal mean var)) ∧
      ∀ k, Pairwise fun x y : Nat × Fin (points k) => IndepFun (fun ω => D k x.1 ω x.2) (fun ω => D k y.1 ω y.2) μ := by
  refine ⟨?_, fun points => ?_⟩
  · rw [Measure.volume_eq_prod]
    exact (gaussianReal_absolutelyContinuous mean hv).prod (gaussianReal_absolutelyContinuous mean hv)
  · refine ⟨Measure.infinitePi fun _ => (gaussianReal mean var).prod (gaussianReal mean var), inferInstance, fun k i ω j => ω (i, j), ?_, ?_⟩
    · intro k i j
      exact ⟨(measurable_pi_apply _).aemeasurable, Measure.infinitePi_map_eval _ _⟩
    · intro k x y hxy
      refine (iIndepFun_infinitePi (P := fun _ : Nat × Nat => (gaussianReal mean var).prod (gaussianReal mean var)) (X := fun _ ω => ω) fun _ => measurable_id).indepFun ?_
      intro h
      refine hxy ?_
      simp only [Prod.mk.injEq] at h
      exact Prod.ext h.1 (Fin.ext h.2)

/-! ## Concrete cases -/

/-- horizontal light onto a target to the south -/
noncomputable def evening : Setting := ⟨2, 2, 1000, ![1 / 4, 0, 0, 0], ![0, 1 / 4, 0, 0], 0, 1, square, ![0, 1, 0, 0]⟩

/-- a flat facet of one square metre is a smooth mirror, and the sun of the program has a density: one ray per surface point is enough -/
example : ∃ (μ : Measure (Nat × Nat → ℝ × ℝ)) (_ : IsProbabilityMeasure μ) (mirror : ℕ → List Sample)
    (D : (k : ℕ) → ℕ → (Nat × Nat → ℝ × ℝ) → Fin (evening.scene (placed (rotE (Real.pi / 2)) (mirror k))).points → ℝ × ℝ),
    (∀ k, sampleAll 3 3 true (evaluationGrid k k gridEps) [SurfaceImage.bending 0] = .ok (mirror k)) ∧
    ∀ ε : ℝ, 0 < ε → Tendsto (fun k => μ {ω | ε ≤ |(evening.scene (placed (rotE (Real.pi / 2)) (mirror k))).image 1 0 1 (fun i => D k i ω) -
      ideal evening 3 3 [SurfaceImage.bending 0] (rotE (Real.pi / 2)) ((gaussianReal 0 (43681 / 10 ^ 10)).prod (gaussianReal 0 (43681 / 10 ^ 10))) 1 0|})
      atTop (𝓝 0) := by
  have hb : evening.Regular := by
    refine ⟨le_rfl, le_rfl, ?_, ?_, ?_, ?_, ?_⟩ <;> simp [evening, Target.Valid, square, dotProduct, Fin.sum_univ_four, V3.normSq, V3.dot]
  have value : ∀ x ∈ Set.Icc gridEps (1 - gridEps), ∀ y ∈ Set.Icc gridEps (1 - gridEps),
      ∃ pt : Fin 4 → ℝ, pt 2 = 0 ∧ mirrorAt 3 3 (SurfaceImage.bending 0) x y = (pt, ![0, 0, 1, 0]) := by
    intro x hx y hy
    obtain ⟨g0, g1⟩ := gridEps_pos
    obtain ⟨pt, cr, e1, e2, e3, e4, e5, e6, -⟩ := SurfaceImage.bending_evaluate (xy := (x, y)) ⟨by norm_num, by norm_num,
      by norm_num [SurfaceImage.bending, SurfaceImage.lift, idealFacet, planarNet], by norm_num [SurfaceImage.bending, SurfaceImage.lift, idealFacet, planarNet],
      by show (0 : ℝ) ≤ x; linarith [hx.1], by show x < 1; linarith [hx.2], by show (0 : ℝ) ≤ y; linarith [hy.1], by show y < 1; linarith [hy.2]⟩
    refine ⟨pt, e4, ?_⟩
    unfold mirrorAt sampleAt
    simp only at e1
    simp only [e1, if_true]
    rw [SurfaceImage.bending_zero]
    simp only [place, idealFacet, canting_axes (show (1 : ℝ) / 10 ^ 8 ≤ 1 / 2 by norm_num) (show (1 : ℝ) / 10 ^ 8 ≤ 1 / 2 by norm_num), add_zero, e6]
  have hm : SmoothMirror 3 3 [SurfaceImage.bending 0] evening.incident (rotE (Real.pi / 2)) evening.target := by
    refine ⟨by norm_num, by simp, ?_, ?_, ?_, ?_⟩
    · intro f hf
      simp only [List.mem_singleton] at hf
      subst hf
      exact ⟨by norm_num [SurfaceImage.bending, SurfaceImage.lift, idealFacet, planarNet], by norm_num [SurfaceImage.bending, SurfaceImage.lift, idealFacet, planarNet]⟩
    all_goals
      intro f hf x hx y hy
      simp only [List.mem_singleton] at hf
      subst hf
      obtain ⟨pt, z, m⟩ := value x hx y hy
      rw [m]
      simp [rotE, Matrix.mulVec, dotProduct, Fin.sum_univ_four, reflect, z, evening, square, V3.dot]
      try norm_num
  obtain ⟨dens, draw⟩ := C124_sun 0 (43681 / 10 ^ 10) (by positivity)
  have key := fun (μ : Measure (Nat × Nat → ℝ × ℝ)) (_ : IsProbabilityMeasure μ) => C124_probability evening hb 3 3 [SurfaceImage.bending 0] (rotE (Real.pi / 2)) hm _ dens μ (fun k => k) (fun k => k) tendsto_id tendsto_id
  obtain ⟨mirror, hs⟩ : ∃ mirror : ℕ → List Sample, ∀ k, sampleAll 3 3 true (evaluationGrid k k gridEps) [SurfaceImage.bending 0] = .ok (mirror k) := by
    obtain ⟨mirror, h, -⟩ := key (Measure.dirac fun _ => 0) inferInstance
    exact ⟨mirror, h⟩
  obtain ⟨μ, hμ, D, d1, d2⟩ := draw fun k => (evening.scene (placed (rotE (Real.pi / 2)) (mirror k))).points
  obtain ⟨mirror', h', H⟩ := key μ hμ
  have same : mirror' = mirror := by
    funext k
    have := (h' k).symm.trans (hs k)
    injection this
  subst same
  exact ⟨μ, hμ, mirror', D, hs, fun ε hε => H D d1 d2 (fun _ => 1) (fun _ => one_pos) 1 0 (by simp [evening]) (by simp [evening]) ε hε⟩

end Artist.Blur

