import Verif.Proofs.Regularizers
/-!
# C40: surface regularisers only penalise deformation

`facets`, `h`, `w`: number of facets and of control points in the two directions.
-/
namespace Artist.Regularizers
open Artist Finset
variable {K : Type} [Field K] [LinearOrder K] [IsStrictOrderedRing K]

/-- Both regularisers are non-negative. -/
theorem C40_nonneg (facets h w : Nat) (current original : Nat → Nat → Nat → V3 K) :
    0 ≤ smoothness facets h w current original ∧ 0 ≤ ideal facets h w current original :=
  ⟨sum_nonneg (fun _ _ => meanSquare_nonneg _ _ _), sum_nonneg (fun _ _ => meanSquare_nonneg _ _ _)⟩

/-- The smoothness regulariser vanishes exactly for rigid shifts: every facet is moved as a whole. -/
theorem C40_smoothness_zero_iff (facets h w : Nat) (hh : 0 < h) (hw : 0 < w) (current original : Nat → Nat → Nat → V3 K) :
    smoothness facets h w current original = 0 ↔
      ∀ f < facets, ∃ shift : V3 K, ∀ i < h, ∀ j < w, current f i j = original f i j + shift := by
  unfold smoothness
  rw [sum_eq_zero_iff_of_nonneg (fun _ _ => meanSquare_nonneg _ _ _)]
  constructor
  · intro H f hf
    have z := (meanSquare_zero h w hh hw _).1 (H f (mem_range.2 hf))
    have z' : ∀ i < h, ∀ j < w, _ := fun i hi j hj => laplace_comp h w (fun i j => current f i j - original f i j) i j hi hj
    have e := harmonic_constant h w (fun i j => (current f i j - original f i j).e)
      (fun i hi j hj => by rw [← (z' i hi j hj).1, z i hi j hj]; rfl)
    have n := harmonic_constant h w (fun i j => (current f i j - original f i j).n)
      (fun i hi j hj => by rw [← (z' i hi j hj).2.1, z i hi j hj]; rfl)
    have u := harmonic_constant h w (fun i j => (current f i j - original f i j).u)
      (fun i hi j hj => by rw [← (z' i hi j hj).2.2, z i hi j hj]; rfl)
    refine ⟨current f 0 0 - original f 0 0, fun i hi j hj => ?_⟩
    have e := e i hi j hj
    have n := n i hi j hj
    have u := u i hi j hj
    simp only [V3.sub_e, V3.sub_n, V3.sub_u] at e n u
    ext <;> simp only [V3.add_e, V3.add_n, V3.add_u, V3.sub_e, V3.sub_n, V3.sub_u] <;> linarith
  · intro H f hf
    obtain ⟨s, hs⟩ := H f (mem_range.1 hf)
    rw [meanSquare_zero h w hh hw]
    intro i hi j hj
    have g : ∀ i < h, ∀ j < w, current f i j - original f i j = s := by
      intro i hi j hj
      rw [hs i hi j hj]
      ext <;> simp
    have b1 : ∀ a, padIndex h a < h := fun a => by unfold padIndex; omega
    have b2 : ∀ a, padIndex w a < w := fun a => by unfold padIndex; omega
    unfold laplace padded
    simp only [g _ hi _ hj, g _ (b1 _) _ (b2 _)]
    ext <;> simp <;> ring

/-- The ideal-surface regulariser vanishes exactly for the unchanged surface. -/
theorem C40_ideal_zero_iff (facets h w : Nat) (hh : 0 < h) (hw : 0 < w) (current original : Nat → Nat → Nat → V3 K) :
    ideal facets h w current original = 0 ↔ ∀ f < facets, ∀ i < h, ∀ j < w, current f i j = original f i j := by
  unfold ideal
  rw [sum_eq_zero_iff_of_nonneg (fun _ _ => meanSquare_nonneg _ _ _)]
  have e : ∀ a b : V3 K, a - b = 0 ↔ a = b := by
    intro a b
    constructor
    · intro H
      have h1 := congrArg V3.e H
      have h2 := congrArg V3.n H
      have h3 := congrArg V3.u H
      simp only [V3.sub_e, V3.sub_n, V3.sub_u, V3.zero_e, V3.zero_n, V3.zero_u, sub_eq_zero] at h1 h2 h3
      exact V3.ext h1 h2 h3
    · rintro rfl; ext <;> simp
  constructor
  · intro H f hf i hi j hj
    exact (e _ _).1 ((meanSquare_zero h w hh hw _).1 (H f (mem_range.2 hf)) i hi j hj)
  · intro H f hf
    rw [meanSquare_zero h w hh hw]
    intro i hi j hj
    exact (e _ _).2 (H f (mem_range.1 hf) i hi j hj)

/-- Shifting facets rigidly never changes the smoothness term, whatever the deformation. -/
theorem C40_shift_invariant (facets h w : Nat) (current original : Nat → Nat → Nat → V3 K) (shift : Nat → V3 K) :
    smoothness facets h w (fun f i j => current f i j + shift f) original = smoothness facets h w current original := by
  unfold smoothness
  apply sum_congr rfl
  intro f _
  congr 1
  funext i j
  unfold laplace padded
  ext <;> simp <;> ring

/-- A deformation `c` times as large is penalised `c²` times as much by both terms. -/
theorem C40_quadratic (facets h w : Nat) (original deformation : Nat → Nat → Nat → V3 K) (c : K) :
    smoothness facets h w (fun f i j => original f i j + c • deformation f i j) original =
      c ^ 2 * smoothness facets h w (fun f i j => original f i j + deformation f i j) original ∧
    ideal facets h w (fun f i j => original f i j + c • deformation f i j) original =
      c ^ 2 * ideal facets h w (fun f i j => original f i j + deformation f i j) original := by
  have key : ∀ x y : Nat → Nat → V3 K, (∀ i j, y i j = c • x i j) → meanSquare h w y = c ^ 2 * meanSquare h w x := by
    intro x y hy
    unfold meanSquare
    rw [← mul_div_assoc, mul_sum]
    congr 1
    apply sum_congr rfl; intro i _
    rw [mul_sum]
    apply sum_congr rfl; intro j _
    rw [hy]; simp only [V3.smul_e, V3.smul_n, V3.smul_u]; ring
  constructor
  · unfold smoothness
    rw [mul_sum]
    apply sum_congr rfl; intro f _
    apply key
    intro i j
    unfold laplace padded
    ext <;> simp <;> ring
  · unfold ideal
    rw [mul_sum]
    apply sum_congr rfl; intro f _
    apply key
    intro i j
    ext <;> simp

/-- A facet with a single raised control point (2 × 3 net): the neighbours' Laplacians count too. -/
def bump : Nat → Nat → Nat → V3 ℚ := fun _ i j => if i = 0 ∧ j = 1 then ⟨0, 0, 1⟩ else 0

example : smoothness 1 2 3 bump (fun _ _ _ => 0) = 12 / 18 ∧ ideal 1 2 3 bump (fun _ _ _ => 0) = 1 / 18 := by decide +kernel
/-- A tilt of the facet is penalised by the smoothness term (at the replicated border). -/
example : smoothness 1 2 3 (fun _ i _ => (⟨0, 0, i⟩ : V3 ℚ)) (fun _ _ _ => 0) = 1 / 3 := by decide +kernel
/-- A rigid shift is not. -/
example : smoothness 2 2 3 (fun f _ _ => (⟨f, 1, 2⟩ : V3 ℚ)) (fun _ _ _ => 0) = 0 ∧
    ideal 2 2 3 (fun f _ _ => (⟨f, 1, 2⟩ : V3 ℚ)) (fun _ _ _ => 0) ≠ 0 := by decide +kernel

end Artist.Regularizers
