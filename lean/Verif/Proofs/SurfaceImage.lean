import Verif.Spec.SurfaceImage
import Verif.Proofs.MotorImage
import Verif.Proofs.Surfaces
import Verif.Props.Surfaces
import Mathlib.Analysis.SpecialFunctions.Sqrt
/-! Helper lemmas for C109. -/
namespace Artist.SurfaceImage
open Artist Nurbs Surfaces BSpline Transforms MotorImage Filter Topology

variable {X : Type}

theorem _root_.Artist.MotorImage.Closed.sum {P : (X → ℝ) → Prop} (C : Closed P) {ι : Type} (s : Finset ι) (f : ι → X → ℝ) (h : ∀ i ∈ s, P (f i)) :
    P fun x => ∑ i ∈ s, f i x := by
  classical
  induction s using Finset.induction_on with
  | empty => simpa using C.const 0
  | insert a s ha ih =>
    simp only [Finset.sum_insert ha]
    exact C.add _ _ (h a (Finset.mem_insert_self _ _)) (ih fun i hi => h i (Finset.mem_insert_of_mem hi))

/-- one sample of a facet, zero if the evaluation raises -/
noncomputable def sampleValue (p q : Nat) (f : Facet) (xy : ℝ × ℝ) : Sample :=
  match sampleAt p q true f xy with
  | .ok s => s
  | .error _ => (0, 0)

theorem evaluate_closed {P : (X → ℝ) → Prop} (C : Closed P) (f : X → Facet) (x₀ : X) (hf : Bends P f) (p q : Nat) (xy : ℝ × ℝ) (hv : Valid (f x₀).net p q xy.1 xy.2) :
    ∃ (pt : X → H ℝ) (cr : X → Fin 3 → ℝ), (∀ x, evaluate (f x).net p q xy.1 xy.2 = .ok (pt x, cr x)) ∧ (∀ i, P fun x => pt x i) ∧ ∀ i, P fun x => cr x i := by
  have valid : ∀ x, Valid (f x).net p q xy.1 xy.2 := fun x =>
    ⟨hv.p_pos, hv.q_pos, by rw [hf.nu x x₀]; exact hv.nu, by rw [hf.nv x x₀]; exact hv.nv, hv.x0, hv.x1, hv.y0, hv.y1⟩
  choose d hd h1 h2 h3 h4 using fun x => evaluate_spec (valid x)
  simp only [hf.nu _ x₀, hf.nv _ x₀] at h1 h3 h4
  have s1 : ∀ c : Fin 3, P fun x => pointOf (d x) c.castSucc := by
    intro c
    simp only [h1]
    unfold surface
    exact C.sum _ _ fun i _ => C.sum _ _ fun j _ => C.mul _ _ (C.const _) (hf.points i j c)
  have s3 : ∀ c : Fin 3, P fun x => d x 1 0 c.castSucc := by
    intro c
    simp only [h3]
    exact C.sum _ _ fun i _ => C.sum _ _ fun j _ => C.mul _ _ (C.const _) (hf.points i j c)
  have s4 : ∀ c : Fin 3, P fun x => d x 0 1 c.castSucc := by
    intro c
    simp only [h4]
    exact C.sum _ _ fun i _ => C.sum _ _ fun j _ => C.mul _ _ (C.const _) (hf.points i j c)
  refine ⟨fun x => pointOf (d x), fun x => crossOf (d x), hd, ?_, ?_⟩
  · intro i
    fin_cases i
    · exact s1 0
    · exact s1 1
    · exact s1 2
    · show P fun x => pointOf (d x) 3
      simp only [h2]
      exact C.const 1
  · have cr : ∀ a b c e : Fin 3, P fun x => d x 1 0 a.castSucc * d x 0 1 b.castSucc - d x 1 0 c.castSucc * d x 0 1 e.castSucc := fun a b c e =>
      C.sub _ _ (C.mul _ _ (s3 a) (s4 b)) (C.mul _ _ (s3 c) (s4 e))
    intro i
    fin_cases i
    · exact cr 1 2 2 1
    · exact cr 2 0 0 2
    · exact cr 0 1 1 0

theorem canting_closed {P : (X → ℝ) → Prop} (C : Closed P) (ce cn : Fin 4 → ℝ) (v : X → Fin 4 → ℝ) (hv : ∀ i, P fun x => v x i) (i : Fin 4) :
    P fun x => performCanting ce cn (v x) false i := by
  unfold performCanting
  simp only [Bool.false_eq_true, if_false, Matrix.vecMul, dotProduct]
  exact C.sum _ _ fun j _ => C.mul _ _ (hv j) (C.const _)

theorem sample_closed {P : (X → ℝ) → Prop} (C : Closed P) (f : X → Facet) (x₀ : X) (hf : Bends P f) (p q : Nat) (xy : ℝ × ℝ) (hv : Valid (f x₀).net p q xy.1 xy.2)
    (hu : ∀ cr : X → Fin 3 → ℝ, (∀ x, ∃ pt, evaluate (f x).net p q xy.1 xy.2 = .ok (pt, cr x)) → (∀ i, P fun x => cr x i) → ∀ i, P fun x => unitNormal (cr x) i) :
    (∀ x, sampleAt p q true (f x) xy = .ok (sampleValue p q (f x) xy)) ∧
    ∀ i, (P fun x => (sampleValue p q (f x) xy).1 i) ∧ P fun x => (sampleValue p q (f x) xy).2 i := by
  obtain ⟨pt, cr, he, h1, h2⟩ := evaluate_closed C f x₀ hf p q xy hv
  have e : ∀ x, sampleAt p q true (f x) xy = .ok (place (f x) (pt x, unitNormal (cr x))) := by
    intro x
    unfold sampleAt
    rw [he x]
    simp
  have e' : ∀ x, sampleValue p q (f x) xy = place (f x₀) (pt x, unitNormal (cr x)) := by
    intro x
    unfold sampleValue
    rw [e x]
    simp only [place, hf.cantE x x₀, hf.cantN x x₀, hf.translation x x₀]
  refine ⟨fun x => ?_, fun i => ?_⟩
  · rw [e x, e' x]
    simp only [place, hf.cantE x x₀, hf.cantN x x₀, hf.translation x x₀]
  · simp only [e']
    unfold place
    constructor
    · show P fun x => performCanting _ _ (pt x) false i + (f x₀).translation i
      exact C.add _ _ (canting_closed C _ _ _ h1 i) (C.const _)
    · exact canting_closed C _ _ _ (hu cr (fun x => ⟨_, he x⟩) h2) i

theorem unitNormal_continuous [TopologicalSpace X] (x₀ : X) (cr : X → Fin 3 → ℝ) (h : ∀ i, ContinuousAt (fun x => cr x i) x₀) (i : Fin 4) :
    ContinuousAt (fun x => unitNormal (cr x) i) x₀ := by
  have hl : ContinuousAt (fun x => max (Real.sqrt (cr x 0 ^ 2 + cr x 1 ^ 2 + cr x 2 ^ 2)) (1 / 10 ^ 12)) x₀ := by
    refine Filter.Tendsto.max ?_ continuousAt_const
    exact Real.continuous_sqrt.continuousAt.comp_of_eq (((h 0).pow 2).add ((h 1).pow 2) |>.add ((h 2).pow 2)) rfl
  have h0 : max (Real.sqrt (cr x₀ 0 ^ 2 + cr x₀ 1 ^ 2 + cr x₀ 2 ^ 2)) (1 / 10 ^ 12) ≠ 0 := (lt_of_lt_of_le (by norm_num) (le_max_right _ _)).ne'
  have d : ∀ j, ContinuousAt (fun x => cr x j / max (Real.sqrt (cr x 0 ^ 2 + cr x 1 ^ 2 + cr x 2 ^ 2)) (1 / 10 ^ 12)) x₀ := fun j => (h j).div hl h0
  fin_cases i
  · exact d 0
  · exact d 1
  · exact d 2
  · exact continuousAt_const

theorem unitNormal_differentiable (x₀ : ℝ) (cr : ℝ → Fin 3 → ℝ) (h : ∀ i, DifferentiableAt ℝ (fun x => cr x i) x₀)
    (hp : 1 / 10 ^ 12 < Real.sqrt (cr x₀ 0 ^ 2 + cr x₀ 1 ^ 2 + cr x₀ 2 ^ 2)) (i : Fin 4) :
    DifferentiableAt ℝ (fun x => unitNormal (cr x) i) x₀ := by
  have hs : DifferentiableAt ℝ (fun x => cr x 0 ^ 2 + cr x 1 ^ 2 + cr x 2 ^ 2) x₀ := (((h 0).pow 2).add ((h 1).pow 2)).add ((h 2).pow 2)
  have hpos : 0 < Real.sqrt (cr x₀ 0 ^ 2 + cr x₀ 1 ^ 2 + cr x₀ 2 ^ 2) := lt_trans (by norm_num) hp
  have hl : DifferentiableAt ℝ (fun x => Real.sqrt (cr x 0 ^ 2 + cr x 1 ^ 2 + cr x 2 ^ 2)) x₀ := hs.sqrt (Real.sqrt_pos.1 hpos).ne'
  have hev : ∀ᶠ x in 𝓝 x₀, max (Real.sqrt (cr x 0 ^ 2 + cr x 1 ^ 2 + cr x 2 ^ 2)) (1 / 10 ^ 12) = Real.sqrt (cr x 0 ^ 2 + cr x 1 ^ 2 + cr x 2 ^ 2) := by
    filter_upwards [continuousAt_const.eventually_lt hl.continuousAt hp] with x hx
    exact max_eq_left hx.le
  have d : ∀ j, DifferentiableAt ℝ (fun x => cr x j / max (Real.sqrt (cr x 0 ^ 2 + cr x 1 ^ 2 + cr x 2 ^ 2)) (1 / 10 ^ 12)) x₀ := fun j =>
    ((h j).fun_div hl hpos.ne').congr_of_eventuallyEq (by filter_upwards [hev] with x hx; rw [hx])
  fin_cases i
  · exact d 0
  · exact d 1
  · exact d 2
  · exact differentiableAt_const _

theorem mapM_ok {α β : Type} {g : α → Except PyErr β} {h : α → β} : ∀ l : List α, (∀ a ∈ l, g a = .ok (h a)) → l.mapM g = .ok (l.map h)
  | [], _ => rfl
  | a :: l, hl => by
    rw [List.mapM_cons, hl a List.mem_cons_self, mapM_ok l fun b hb => hl b (List.mem_cons_of_mem _ hb)]
    rfl

/-- the samples of a mirror whose control points vary -/
noncomputable def mirrorOf (p q : Nat) (grid : List (ℝ × ℝ)) (facets : List (X → Facet)) : List ((X → Fin 4 → ℝ) × (X → Fin 4 → ℝ)) :=
  (facets.flatMap fun f => grid.map fun xy => (f, xy)).map fun a => (fun x => (sampleValue p q (a.1 x) a.2).1, fun x => (sampleValue p q (a.1 x) a.2).2)

theorem mirror_closed {P : (X → ℝ) → Prop} (C : Closed P) (p q : Nat) (grid : List (ℝ × ℝ)) (facets : List (X → Facet)) (x₀ : X) (hf : ∀ f ∈ facets, Bends P f)
    (hv : ∀ f ∈ facets, ∀ xy ∈ grid, Valid (f x₀).net p q xy.1 xy.2)
    (hu : ∀ f ∈ facets, ∀ xy ∈ grid, ∀ cr : X → Fin 3 → ℝ, (∀ x, ∃ pt, evaluate (f x).net p q xy.1 xy.2 = .ok (pt, cr x)) → (∀ i, P fun x => cr x i) →
      ∀ i, P fun x => unitNormal (cr x) i) :
    (∀ x, sampleAll p q true grid (facets.map fun f => f x) = .ok ((mirrorOf p q grid facets).map fun s => (s.1 x, s.2 x))) ∧
    ∀ s ∈ mirrorOf p q grid facets, ∀ i, (P fun x => s.1 x i) ∧ P fun x => s.2 x i := by
  have key : ∀ a ∈ (facets.flatMap fun f => grid.map fun xy => (f, xy)), (∀ x, sampleAt p q true (a.1 x) a.2 = .ok (sampleValue p q (a.1 x) a.2)) ∧
      ∀ i, (P fun x => (sampleValue p q (a.1 x) a.2).1 i) ∧ P fun x => (sampleValue p q (a.1 x) a.2).2 i := fun a ha => by
    obtain ⟨f, hf', ha⟩ := List.mem_flatMap.1 ha
    obtain ⟨xy, hxy, rfl⟩ := List.mem_map.1 ha
    exact sample_closed C f x₀ (hf f hf') p q xy (hv f hf' xy hxy) (hu f hf' xy hxy)
  constructor
  · intro x
    unfold sampleAll mirrorOf
    have e : ((facets.map fun f => f x).flatMap fun f => grid.map fun xy => (f, xy)) =
        (facets.flatMap fun f => grid.map fun xy => (f, xy)).map fun a => (a.1 x, a.2) := by
      rw [List.map_flatMap, List.flatMap_map]
      congr 1
      funext f
      rw [List.map_map]
      rfl
    rw [e]
    generalize (facets.flatMap fun f => grid.map fun xy => (f, xy)) = l at key
    clear e
    induction l with
    | nil => rfl
    | cons a l ih =>
      rw [List.map_cons, List.mapM_cons, (key a List.mem_cons_self).1 x, ih fun b hb => key b (List.mem_cons_of_mem _ hb)]
      simp only [List.map_cons]
      rfl
  · intro s hs
    obtain ⟨a, ha, rfl⟩ := List.mem_map.1 hs
    exact (key a ha).2

end Artist.SurfaceImage
