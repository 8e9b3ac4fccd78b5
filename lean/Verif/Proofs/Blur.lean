import Verif.Spec.Blur
import Verif.Proofs.ManyRays
import Mathlib.MeasureTheory.Measure.Prod
import Mathlib.MeasureTheory.Measure.Lebesgue.Basic
import Mathlib.Analysis.SpecialFunctions.Trigonometric.Complex
/-!
# Helper lemmas for C124: scattered rays hardly ever meet the edge of a target
-/
namespace Artist.Blur
open Artist Intersect Flux Splat Transforms MeasureTheory ManyRays MotorImage

theorem trig_null (A B C : ℝ) (h : B ≠ 0 ∨ C ≠ 0) : volume {e : ℝ | A + B * Real.cos e + C * Real.sin e = 0} = 0 := by
  refine Set.Countable.measure_zero ?_ _
  have hz : (⟨B, C⟩ : ℂ) ≠ 0 := by
    intro h0
    rw [Complex.ext_iff] at h0
    rcases h with h | h
    · exact h h0.1
    · exact h h0.2
  set R := ‖(⟨B, C⟩ : ℂ)‖ with hR
  set φ := Complex.arg ⟨B, C⟩ with hφ
  have hR0 : R ≠ 0 := norm_ne_zero_iff.2 hz
  have hB : R * Real.cos φ = B := Complex.norm_mul_cos_arg _
  have hC : R * Real.sin φ = C := Complex.norm_mul_sin_arg _
  have e1 : ∀ e, B * Real.cos e + C * Real.sin e = R * Real.cos (e - φ) := by
    intro e; rw [Real.cos_sub, ← hB, ← hC]; ring
  rcases Set.eq_empty_or_nonempty {e : ℝ | A + B * Real.cos e + C * Real.sin e = 0} with h0 | ⟨e0, h0⟩
  · rw [h0]; exact Set.countable_empty
  · refine Set.Countable.mono ?_ ((Set.countable_range fun k : ℤ => 2 * k * Real.pi + (e0 - φ) + φ).union (Set.countable_range fun k : ℤ => 2 * k * Real.pi - (e0 - φ) + φ))
    intro e he
    simp only [Set.mem_setOf_eq, add_assoc, e1] at he h0
    have : Real.cos (e0 - φ) = Real.cos (e - φ) := mul_left_cancel₀ hR0 (by linarith)
    rw [Real.cos_eq_cos_iff] at this
    obtain ⟨k, hk | hk⟩ := this
    · left; exact ⟨k, by simp only; linarith⟩
    · right; exact ⟨k, by simp only; linarith⟩

theorem scattered_dot (L : V3 ℝ) (incident normal : Fin 4 → ℝ) (e u : ℝ) :
    V3.dot L (direction incident normal e u) =
      (reflect incident normal 2 * (L.u * Real.cos e - L.n * Real.sin e)) +
      (L.e * reflect incident normal 0 + (L.n * Real.cos e + L.u * Real.sin e) * reflect incident normal 1) * Real.cos u +
      ((L.n * Real.cos e + L.u * Real.sin e) * reflect incident normal 0 - L.e * reflect incident normal 1) * Real.sin u := by
  simp [direction, rotDist, V3.dot, Matrix.mulVec, dotProduct, Fin.sum_univ_four]
  ring

theorem linear_null (L : V3 ℝ) (hL : L ≠ 0) (incident normal : Fin 4 → ℝ) (hv : reflect incident normal 0 ≠ 0 ∨ reflect incident normal 1 ≠ 0) :
    volume {d : ℝ × ℝ | V3.dot L (direction incident normal d.1 d.2) = 0} = 0 := by
  have hm : MeasurableSet {d : ℝ × ℝ | V3.dot L (direction incident normal d.1 d.2) = 0} :=
    measurableSet_eq_fun ((MV.const L).dot (direction_measurable incident normal)) measurable_const
  rw [Measure.volume_eq_prod, Measure.measure_prod_null hm]
  have hg : ∀ᵐ e : ℝ, L.e ≠ 0 ∨ L.n * Real.cos e + L.u * Real.sin e ≠ 0 := by
    by_cases h0 : L.e = 0
    · have h : L.n ≠ 0 ∨ L.u ≠ 0 := by
        by_contra hc
        push Not at hc
        exact hL (V3.ext h0 hc.1 hc.2)
      have := trig_null 0 L.n L.u h
      rw [← compl_mem_ae_iff] at this
      filter_upwards [this] with e he
      right
      simpa using he
    · exact Filter.Eventually.of_forall fun _ => Or.inl h0
  filter_upwards [hg] with e he
  have : Prod.mk e ⁻¹' {d : ℝ × ℝ | V3.dot L (direction incident normal d.1 d.2) = 0} =
      {u : ℝ | (reflect incident normal 2 * (L.u * Real.cos e - L.n * Real.sin e)) +
        (L.e * reflect incident normal 0 + (L.n * Real.cos e + L.u * Real.sin e) * reflect incident normal 1) * Real.cos u +
        ((L.n * Real.cos e + L.u * Real.sin e) * reflect incident normal 0 - L.e * reflect incident normal 1) * Real.sin u = 0} := by
    ext u
    simp only [Set.mem_preimage, Set.mem_setOf_eq, scattered_dot]
  rw [this]
  refine trig_null _ _ _ ?_
  generalize L.n * Real.cos e + L.u * Real.sin e = g at he
  generalize L.e = l at he
  generalize reflect incident normal 0 = a at hv
  generalize reflect incident normal 1 = b at hv
  by_contra hc
  push Not at hc
  have k : (l ^ 2 + g ^ 2) * (a ^ 2 + b ^ 2) = 0 := by
    have : (l ^ 2 + g ^ 2) * (a ^ 2 + b ^ 2) = (l * a + g * b) ^ 2 + (g * a - l * b) ^ 2 := by ring
    rw [this, hc.1, hc.2]; norm_num
  have k1 : 0 < l ^ 2 + g ^ 2 := by rcases he with h | h <;> positivity
  have k2 : 0 < a ^ 2 + b ^ 2 := by rcases hv with h | h <;> positivity
  exact absurd k (mul_pos k1 k2).ne'

/-- the rays from one point that meet the edge -/
theorem edge_null (t : Plane ℝ) (hw : 0 < t.width) (hh : 0 < t.height) (o : V3 ℝ) (incident normal : Fin 4 → ℝ) (ho : V3.dot (t.center - o) t.normal ≠ 0)
    (hv : reflect incident normal 0 ≠ 0 ∨ reflect incident normal 1 ≠ 0) :
    volume {d : ℝ × ℝ | HitsEdge t (o, direction incident normal d.1 d.2)} = 0 := by
  let Le : ℝ → V3 ℝ := fun a => (o.e - a) • t.normal + V3.dot (t.center - o) t.normal • ⟨1, 0, 0⟩
  let Lu : ℝ → V3 ℝ := fun a => (o.u - a) • t.normal + V3.dot (t.center - o) t.normal • ⟨0, 0, 1⟩
  have he : ∀ a, a ≠ t.center.e → Le a ≠ 0 := by
    intro a ha h0
    have h1 : V3.dot (Le a) (t.center - o) = V3.dot (t.center - o) t.normal * (t.center.e - a) := by
      simp only [Le, V3.dot, V3.add_e, V3.add_n, V3.add_u, V3.smul_e, V3.smul_n, V3.smul_u, V3.sub_e, V3.sub_n, V3.sub_u]; ring
    rw [h0] at h1
    simp only [V3.dot, V3.zero_e, V3.zero_n, V3.zero_u, zero_mul, add_zero] at h1
    rcases mul_eq_zero.1 h1.symm with h | h
    · exact ho h
    · exact ha (by linarith)
  have hu : ∀ a, a ≠ t.center.u → Lu a ≠ 0 := by
    intro a ha h0
    have h1 : V3.dot (Lu a) (t.center - o) = V3.dot (t.center - o) t.normal * (t.center.u - a) := by
      simp only [Lu, V3.dot, V3.add_e, V3.add_n, V3.add_u, V3.smul_e, V3.smul_n, V3.smul_u, V3.sub_e, V3.sub_n, V3.sub_u]; ring
    rw [h0] at h1
    simp only [V3.dot, V3.zero_e, V3.zero_n, V3.zero_u, zero_mul, add_zero] at h1
    rcases mul_eq_zero.1 h1.symm with h | h
    · exact ho h
    · exact ha (by linarith)
  have n1 := linear_null (Le (t.center.e + t.width / 2)) (he _ (by linarith)) incident normal hv
  have n2 := linear_null (Le (t.center.e - t.width / 2)) (he _ (by linarith)) incident normal hv
  have n3 := linear_null (Lu (t.center.u + t.height / 2)) (hu _ (by linarith)) incident normal hv
  have n4 := linear_null (Lu (t.center.u - t.height / 2)) (hu _ (by linarith)) incident normal hv
  refine measure_mono_null ?_ (measure_union_null (measure_union_null n1 n2) (measure_union_null n3 n4))
  rintro d ⟨-, s, h1, -, -, h2⟩
  simp only [V3.dot, V3.add_e, V3.add_n, V3.add_u, V3.sub_e, V3.sub_n, V3.sub_u, V3.smul_e, V3.smul_n, V3.smul_u] at h1 h2
  have je : ∀ a, o.e + s * (direction incident normal d.1 d.2).e = a → V3.dot (Le a) (direction incident normal d.1 d.2) = 0 := by
    intro a ha
    simp only [Le, V3.dot, V3.add_e, V3.add_n, V3.add_u, V3.smul_e, V3.smul_n, V3.smul_u, V3.sub_e, V3.sub_n, V3.sub_u]
    generalize direction incident normal d.1 d.2 = v at h1 ha
    subst ha
    linear_combination -v.e * h1
  have ju : ∀ a, o.u + s * (direction incident normal d.1 d.2).u = a → V3.dot (Lu a) (direction incident normal d.1 d.2) = 0 := by
    intro a ha
    simp only [Lu, V3.dot, V3.add_e, V3.add_n, V3.add_u, V3.smul_e, V3.smul_n, V3.smul_u, V3.sub_e, V3.sub_n, V3.sub_u]
    generalize direction incident normal d.1 d.2 = v at h1 ha
    subst ha
    linear_combination -v.u * h1
  rcases h2 with h2 | h2
  · left
    rcases (abs_eq (by linarith)).1 h2 with h | h
    · left; exact je _ (by linarith)
    · right; exact je _ (by linarith)
  · right
    rcases (abs_eq (by linarith)).1 h2 with h | h
    · left; exact ju _ (by linarith)
    · right; exact ju _ (by linarith)

/-! ## What rays bring on average -/
open FineMirror Surfaces Moved Filter Topology

theorem brings_mul (W H : Nat) (m ext refl : ℝ) (t : Plane ℝ) (r c : Nat) (ray : V3 ℝ × V3 ℝ) :
    brings W H m ext refl t r c ray = m * brings W H 1 ext refl t r c ray := by
  unfold brings Resolution.arriving
  split_ifs <;> ring

variable {b : Setting}

theorem single_regular (hb : b.Regular) (o : V3 ℝ) (n : Fin 4 → ℝ) (hn : n 3 = 0 ∧ n ⬝ᵥ n = 1) : (b.scene [(o, n)]).Regular where
  width := hb.width
  height := hb.height
  dni := hb.dni
  extinction := hb.extinction
  reflectivity := hb.reflectivity
  target := hb.target
  blocked := fun _ => ⟨le_rfl, zero_le_one⟩
  mask := measurable_const
  incident := hb.incident
  normals := by
    intro p hp
    have : p = (o, n) := by simpa [Setting.scene] using hp
    subst this
    exact hn
  surface := by simp [Setting.scene]

theorem unit_brings (hb : b.Regular) (surface : List (V3 ℝ × (Fin 4 → ℝ))) {r c : Nat} (hr : r < b.H) (hc : c < b.W) (ray : V3 ℝ × V3 ℝ) :
    unit (b.scene surface) r c ray = brings b.W b.H 1 b.extinction b.reflectivity b.target r c ray :=
  brings_eq hb.width hb.height 1 b.extinction b.reflectivity b.target hb.target.1 hb.target.2.1 hr hc ray

theorem brings_bounds (hb : b.Regular) {r c : Nat} (hr : r < b.H) (hc : c < b.W) (o : V3 ℝ) (n : Fin 4 → ℝ) (hn : n 3 = 0 ∧ n ⬝ᵥ n = 1) (d : ℝ × ℝ) :
    0 ≤ brings b.W b.H 1 b.extinction b.reflectivity b.target r c (o, direction b.incident n d.1 d.2) ∧
      brings b.W b.H 1 b.extinction b.reflectivity b.target r c (o, direction b.incident n d.1 d.2) ≤ (1 - b.extinction) * b.reflectivity := by
  have := unit_bounds (b.scene [(o, n)]) (single_regular hb o n hn) r c hr hc ⟨0, Nat.one_pos⟩ d
  rw [unit_brings hb _ hr hc] at this
  exact this

theorem brings_measurable (hb : b.Regular) {r c : Nat} (hr : r < b.H) (hc : c < b.W) (o : V3 ℝ) (n : Fin 4 → ℝ) :
    Measurable fun d : ℝ × ℝ => brings b.W b.H 1 b.extinction b.reflectivity b.target r c (o, direction b.incident n d.1 d.2) := by
  have := hit_measurable (α := ℝ × ℝ) b.W b.H 1 b.extinction b.reflectivity (.planar b.target) (blocked := fun _ => 0) measurable_const (b.H - 1 - r) c
    (MV.const o) (direction_measurable b.incident n)
  simp only [brings_eq hb.width hb.height 1 b.extinction b.reflectivity b.target hb.target.1 hb.target.2.1 hr hc] at this
  exact this

/-- The average over the sun of what a point of a mirror brings depends continuously on the point. -/
theorem average_continuous (hb : b.Regular) {p q : Nat} {facets : List Facet} {M : Mat} (hm : SmoothMirror p q facets b.incident M b.target) (P : Measure (ℝ × ℝ)) [IsProbabilityMeasure P]
    (hP : P ≪ volume) {r c : Nat} (hr : r < b.H) (hc : c < b.W) (f : Facet) (hf : f ∈ facets) :
    ContinuousOn (fun z : ℝ × ℝ => ∫ d, brings b.W b.H 1 b.extinction b.reflectivity b.target r c (rayFrom b.incident M d (mirrorAt p q f z.1 z.2)) ∂P)
      (Set.Icc gridEps (1 - gridEps) ×ˢ Set.Icc gridEps (1 - gridEps)) := by
  rintro z hz
  obtain ⟨e0, e1⟩ := gridEps_pos
  refine continuousWithinAt_of_dominated (bound := fun _ => (1 - b.extinction) * b.reflectivity) ?_ ?_ (integrable_const _) ?_
  · exact Eventually.of_forall fun w => (brings_measurable hb hr hc _ _).aestronglyMeasurable
  · filter_upwards [self_mem_nhdsWithin] with w hw
    refine Eventually.of_forall fun d => ?_
    obtain ⟨h1, h2⟩ := brings_bounds hb hr hc ⟨M.mulVec (mirrorAt p q f w.1 w.2).1 0, M.mulVec (mirrorAt p q f w.1 w.2).1 1, M.mulVec (mirrorAt p q f w.1 w.2).1 2⟩ _
      (hm.normals f hf w.1 hw.1 w.2 hw.2) d
    exact (abs_of_nonneg h1).trans_le h2
  · have hn := edge_null b.target hb.target.1 hb.target.2.1 _ b.incident (M.mulVec (mirrorAt p q f z.1 z.2).2) (hm.away f hf z.1 hz.1 z.2 hz.2) (hm.slanted f hf z.1 hz.1 z.2 hz.2)
    have hn' := hP hn
    rw [← compl_mem_ae_iff] at hn'
    filter_upwards [hn'] with d hd
    refine ContinuousAt.continuousWithinAt ?_
    have hx := hz.1
    have hy := hz.2
    have inn : 0 < z.1 ∧ z.1 < 1 ∧ 0 < z.2 ∧ z.2 < 1 := ⟨by linarith [hx.1], by linarith [hx.2], by linarith [hy.1], by linarith [hy.2]⟩
    have dp := hm.degrees
    obtain ⟨m1, m2⟩ := mirror_continuous f p q (by omega) (by omega) (hm.controls f hf).1 (hm.controls f hf).2 z inn.1 inn.2.1 inn.2.2.1 inn.2.2.2
    obtain ⟨⟨c1, c2, c3⟩, c4, c5, c6⟩ := ray_from_continuous b.incident M d (fun z : ℝ × ℝ => mirrorAt p q f z.1 z.2) z m1 (m2 dp.1 dp.2)
    have := ray_continuous 1 b.extinction b.reflectivity b.target hb.target.1 hb.target.2.1 (by have := hb.width; omega : 1 < b.W) (by have := hb.height; omega : 1 < b.H)
      (fun _ _ => 0) (b.H - 1 - r) c hc
      (fun z : ℝ × ℝ => rayFrom b.incident M d (mirrorAt p q f z.1 z.2)) z hd continuousAt_const c1 c2 c3 c4 c5 c6
    simp only [brings_eq hb.width hb.height 1 b.extinction b.reflectivity b.target hb.target.1 hb.target.2.1 hr hc] at this
    exact this

theorem sum_get {β : Type} (h : β → ℝ) : ∀ l : List β, ∑ j : Fin l.length, h (l.get j) = (l.map h).sum
  | [] => by simp
  | b :: l => by
    rw [List.map_cons, List.sum_cons, ← sum_get h l]
    exact Fin.sum_univ_succ (n := l.length) (fun j => h ((b :: l).get j))

/-- The expected image of a list of surface points. -/
theorem expected (hb : b.Regular) (surface : List (V3 ℝ × (Fin 4 → ℝ))) (hs : ∀ s ∈ surface, s.2 3 = 0 ∧ s.2 ⬝ᵥ s.2 = 1) (P : Measure (ℝ × ℝ)) [IsProbabilityMeasure P]
    {Ω : Type} [MeasurableSpace Ω] (μ : Measure Ω) [IsProbabilityMeasure μ] (D : Nat → Ω → Fin (b.scene surface).points → ℝ × ℝ)
    (hD : ∀ i j, AEMeasurable (fun ω => D i ω j) μ ∧ μ.map (fun ω => D i ω j) = P) (N : Nat) (hN : 0 < N) {r c : Nat} (hr : r < b.H) (hc : c < b.W) :
    ∫ ω, (b.scene surface).image r c N (fun i => D i ω) ∂μ =
      (surface.map fun s => b.light * ∫ d, brings b.W b.H 1 b.extinction b.reflectivity b.target r c (s.1, direction b.incident s.2 d.1 d.2) ∂P).sum / surface.length := by
  have hv : ∀ i j, Integrable (fun ω => unit (b.scene surface) r c (ray (b.scene surface) j (D i ω j))) μ ∧
      ∫ ω, unit (b.scene surface) r c (ray (b.scene surface) j (D i ω j)) ∂μ =
        ∫ d, brings b.W b.H 1 b.extinction b.reflectivity b.target r c ((surface.get j).1, direction b.incident (surface.get j).2 d.1 d.2) ∂P := by
    intro i j
    simp only [unit_brings hb surface hr hc]
    have hmeas := brings_measurable hb hr hc (surface.get j).1 (surface.get j).2
    constructor
    · exact (bounded_memLp (hmeas.comp_aemeasurable (hD i j).1) (fun ω => brings_bounds hb hr hc _ _ (hs _ (List.get_mem _ _)) _) 1).integrable le_rfl
    · rw [← (hD i j).2]
      exact (integral_map (hD i j).1 hmeas.aestronglyMeasurable).symm
  have hW : 0 < (b.scene surface).W := by have := hb.width; show 0 < b.W; omega
  have hH : 0 < (b.scene surface).H := by have := hb.height; show 0 < b.H; omega
  simp only [image_sum (b.scene surface) hW hH r c hr hc]
  rw [integral_const_mul, integral_finset_sum _ fun i _ => integrable_finset_sum _ fun j _ => (hv i j).1]
  have : ∀ i, ∫ ω, ∑ j, unit (b.scene surface) r c (ray (b.scene surface) j (D i ω j)) ∂μ =
      (surface.map fun s => ∫ d, brings b.W b.H 1 b.extinction b.reflectivity b.target r c (s.1, direction b.incident s.2 d.1 d.2) ∂P).sum := by
    intro i
    rw [integral_finset_sum _ fun j _ => (hv i j).1, Finset.sum_congr rfl fun j _ => (hv i j).2]
    exact sum_get (fun s : V3 ℝ × (Fin 4 → ℝ) => ∫ d, brings b.W b.H 1 b.extinction b.reflectivity b.target r c (s.1, direction b.incident s.2 d.1 d.2) ∂P) surface
  rw [Finset.sum_congr rfl fun i _ => this i, Finset.sum_const, Finset.card_range, nsmul_eq_mul]
  have hN' : (N : ℝ) ≠ 0 := by exact_mod_cast hN.ne'
  have ms : ∀ (h : V3 ℝ × (Fin 4 → ℝ) → ℝ) (l : List (V3 ℝ × (Fin 4 → ℝ))), (l.map fun s => b.light * h s).sum = b.light * (l.map h).sum := by
    intro h l
    induction l with
    | nil => simp
    | cons a l ih => simp only [List.map_cons, List.sum_cons, ih, mul_add]
  rw [ms]
  show b.dni * _ / ((surface.length * N : Nat) : ℝ) * _ = _
  generalize (surface.map fun s => ∫ d, brings b.W b.H 1 b.extinction b.reflectivity b.target r c (s.1, direction b.incident s.2 d.1 d.2) ∂P).sum = S
  rw [Nat.cast_mul]
  show b.light / (surface.length * N) * (N * S) = b.light * S / surface.length
  rw [← mul_assoc, div_mul_eq_mul_div, div_mul_eq_mul_div, mul_right_comm, mul_div_mul_right _ _ hN']

theorem expected_grid (hb : b.Regular) (p q : Nat) (facets : List Facet) (orientation : Mat) (grid : List (ℝ × ℝ)) (mirror : List Sample)
    (hmir : mirror = facets.flatMap fun f => grid.map fun z => mirrorAt p q f z.1 z.2)
    (hu : ∀ s ∈ placed orientation mirror, s.2 3 = 0 ∧ s.2 ⬝ᵥ s.2 = 1)
    (P : Measure (ℝ × ℝ)) [IsProbabilityMeasure P] {Ω : Type} [MeasurableSpace Ω] (μ : Measure Ω) [IsProbabilityMeasure μ]
    (D : Nat → Ω → Fin (b.scene (placed orientation mirror)).points → ℝ × ℝ)
    (hD : ∀ i j, AEMeasurable (fun ω => D i ω j) μ ∧ μ.map (fun ω => D i ω j) = P) (N : Nat) (hN : 0 < N) {r c : Nat} (hr : r < b.H) (hc : c < b.W) :
    ∫ ω, (b.scene (placed orientation mirror)).image r c N (fun i => D i ω) ∂μ =
      (facets.map fun f => (grid.map fun z => b.light * ∫ d, brings b.W b.H 1 b.extinction b.reflectivity b.target r c
        (rayFrom b.incident orientation d (mirrorAt p q f z.1 z.2)) ∂P).sum / (grid.length : ℝ)).sum / facets.length := by
  rw [expected hb _ hu P μ D hD N hN hr hc]
  subst hmir
  unfold placed
  rw [List.map_map, sum_flat, sum_div_list, div_div]
  congr 1
  · congr 1
    refine List.map_congr_left fun f _ => ?_
    rw [List.map_map]
    rfl
  · rw [List.length_map, List.length_flatMap]
    simp only [List.length_map, List.map_const', List.sum_replicate, smul_eq_mul]
    push_cast
    ring

end Artist.Blur
