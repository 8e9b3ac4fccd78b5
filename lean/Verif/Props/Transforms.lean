import Verif.Proofs.Canting
import Mathlib.Tactic.NormNum
import Mathlib.Tactic.Positivity
import Mathlib.Tactic.FieldSimp
/-!
# C19, C20, C55: rotations, translations, scattering and canting
-/
namespace Artist
open Matrix Real Transforms

/-- C19: every rotation matrix is a proper rigid motion. -/
theorem C19_rotations_rigid (a b : ℝ) :
    Rigid (rotE a) ∧ Rigid (rotN a) ∧ Rigid (rotU a) ∧ Rigid (rotDist a b) :=
  ⟨rigid_rotE a, rigid_rotN a, rigid_rotU a, rigid_rotDist a b⟩

/-- C19: what being rigid means for the vectors: the homogeneous component is kept, lengths and inner products of directions and
distances of points are kept. -/
theorem C19_rigid_meaning {M : Matrix (Fin 4) (Fin 4) ℝ} (h : Rigid M) :
    (∀ v, (M *ᵥ v) 3 = v 3) ∧
    (∀ v w, v 3 = 0 → w 3 = 0 → inner3 (M *ᵥ v) (M *ᵥ w) = inner3 v w) ∧
    (∀ p q, p 3 = 1 → q 3 = 1 → length3 (M *ᵥ p - M *ᵥ q) = length3 (p - q)) :=
  ⟨h.homogeneous, h.inner_dir, fun p q hp hq => h.distance p q (hp.trans hq.symm)⟩

example : length3 (rotE 1 *ᵥ ![0, 3, 4, 0]) = 5 := by
  rw [(rigid_rotE 1).length_dir _ (by simp)]
  simp only [length3]
  have : (![0, 3, 4, 0] : Fin 4 → ℝ) 0 ^ 2 + (![0, 3, 4, 0] : Fin 4 → ℝ) 1 ^ 2 + (![0, 3, 4, 0] : Fin 4 → ℝ) 2 ^ 2 = 5 ^ 2 := by
    simp; norm_num
  rw [this]; exact Real.sqrt_sq (by norm_num)

/-- C19: rotations about the same axis add up, and angle zero does nothing. -/
theorem C19_compose (a b : ℝ) :
    rotE a * rotE b = rotE (a + b) ∧ rotN a * rotN b = rotN (a + b) ∧ rotU a * rotU b = rotU (a + b) ∧
    rotE 0 = 1 ∧ rotN 0 = 1 ∧ rotU 0 = 1 := by
  refine ⟨?_, ?_, ?_, ?_, ?_, ?_⟩ <;>
    (ext i j; fin_cases i <;> fin_cases j <;>
      simp [rotE, rotN, rotU, mul_apply, Fin.sum_univ_four, cos_add, sin_add, one_apply] <;> ring)

/-- C19: the matrix for distortions first rotates about up, then about east. -/
theorem C19_distortion_order (e u : ℝ) (v : Fin 4 → ℝ) : rotDist e u *ᵥ v = rotE e *ᵥ (rotU u *ᵥ v) := by
  rw [rotDist_eq, mulVec_mulVec]

/-- C19: translations add up, commute, move points by the given amounts and leave directions alone. -/
theorem C19_translation (e n u e' n' u' : ℝ) :
    transl e n u * transl e' n' u' = transl (e + e') (n + n') (u + u') ∧
    transl 0 0 0 = 1 ∧
    (∀ p : Fin 4 → ℝ, p 3 = 1 → transl e n u *ᵥ p = ![p 0 + e, p 1 + n, p 2 + u, 1]) ∧
    (∀ d : Fin 4 → ℝ, d 3 = 0 → transl e n u *ᵥ d = d) := by
  refine ⟨?_, ?_, ?_, ?_⟩
  · ext i j; fin_cases i <;> fin_cases j <;>
      simp [transl, mul_apply, Fin.sum_univ_four] <;> ring
  · ext i j; fin_cases i <;> fin_cases j <;> simp [transl, one_apply]
  · intro p hp; ext i; fin_cases i <;> simp [transl, mulVec, dotProduct, Fin.sum_univ_four, hp]
  · intro p hp; ext i; fin_cases i <;> simp [transl, mulVec, dotProduct, Fin.sum_univ_four, hp]

/-- C19: `translate_enu` yields a matrix per heliostat exactly when the three inputs have the same length. -/
theorem C19_translate_shapes (e n u : List ℝ) :
    (e.length = n.length ∧ n.length = u.length →
      ∃ ms, translateEnu e n u = .ok ms ∧ ms.length = e.length ∧
        ∀ (i : Nat) (x y z : ℝ), e[i]? = some x → n[i]? = some y → u[i]? = some z →
          ms[i]? = some (transl x y z)) ∧
    (¬ (e.length = n.length ∧ n.length = u.length) → translateEnu e n u = .error .valueError) := by
  constructor
  · rintro ⟨h1, h2⟩
    refine ⟨_, by rw [translateEnu, if_pos ⟨by omega, by omega⟩], by simp; omega, ?_⟩
    intro i x y z hx hy hz
    simp [List.getElem?_map, List.getElem?_zip_eq_some, hx, hy, hz]
  · intro h
    rw [translateEnu, if_neg]
    rintro ⟨h1, h2⟩; exact h ⟨by omega, by omega⟩

example : translateEnu [1, 2] [3, 4] [5, 6] = .ok [transl 1 3 5, transl 2 4 6] := by
  simp [translateEnu]
example : translateEnu [1, 2] [3] [5, 6] = .error .valueError := by
  simp [translateEnu]

/-- C19: scattering never changes the length of a ray nor makes it a point, gives every ray the tracer's magnitude, keeps the
shape of the distortions, and rejects distortions of different shapes. -/
theorem C19_scatter (distU distE : Tensor3 ℝ) (dir : Nat → Nat → Fin 4 → ℝ) (mag : ℝ) :
    (distU.shape = distE.shape → ∃ rays, scatterRays distU distE dir mag = .ok rays ∧
      rays.directions.shape = distU.shape ∧ rays.magnitudes.shape = distU.shape ∧
      ∀ h r p, rays.magnitudes.get h r p = mag ∧
        rays.directions.get h r p = rotE (distE.get h r p) *ᵥ (rotU (distU.get h r p) *ᵥ dir h p) ∧
        (dir h p 3 = 0 → rays.directions.get h r p 3 = 0 ∧
          length3 (rays.directions.get h r p) = length3 (dir h p))) ∧
    (distU.shape ≠ distE.shape → scatterRays distU distE dir mag = .error .valueError) := by
  constructor
  · intro hs
    have : rotateDistortions distE distU =
        .ok ⟨distE.shape, fun i j k => rotDist (distE.get i j k) (distU.get i j k)⟩ := by
      simp [rotateDistortions, hs]
    refine ⟨_, by rw [scatterRays, this], hs.symm, hs.symm, ?_⟩
    intro h r p
    refine ⟨rfl, C19_distortion_order _ _ _, fun h0 => ⟨?_, ?_⟩⟩
    · exact ((rigid_rotDist _ _).homogeneous _).trans h0
    · exact (rigid_rotDist _ _).length_dir _ h0
  · intro hs
    have : rotateDistortions distE distU = .error .valueError := by
      simp [rotateDistortions, Ne.symm hs]
    rw [scatterRays, this]

example : ∃ rays, scatterRays ⟨(1, 2, 1), fun _ r _ => r⟩ ⟨(1, 2, 1), fun _ _ _ => 1⟩ (fun _ _ => ![0, 1, 0, 0]) 1 = .ok rays ∧
    length3 (rays.directions.get 0 1 0) = 1 := by
  obtain ⟨rays, h, _, _, h'⟩ := (C19_scatter ⟨(1, 2, 1), fun _ r _ => r⟩ ⟨(1, 2, 1), fun _ _ _ => 1⟩
    (fun _ _ => ![0, 1, 0, 0]) 1).1 rfl
  refine ⟨rays, h, ?_⟩
  rw [((h' 0 1 0).2.2 (by simp)).2]; simp [length3]

/-- East, north, up components of a homogeneous vector. -/
def enu (v : Fin 4 → ℝ) : Fin 3 → ℝ := ![v 0, v 1, v 2]

/-- C55: positive angles rotate counter-clockwise about the east and the up axis. -/
theorem C55_east_up (a : ℝ) (v : Fin 4 → ℝ) :
    enu (rotE a *ᵥ v) = rotateAbout ![1, 0, 0] a (enu v) ∧
    enu (rotU a *ᵥ v) = rotateAbout ![0, 0, 1] a (enu v) := by
  constructor <;>
    (ext i; fin_cases i <;>
      simp [enu, rotateAbout, rotE, rotU, mulVec, dotProduct, Fin.sum_univ_four, Fin.sum_univ_three, cross_apply] <;> ring)

/-- C55 (partial): the rotation about the north axis turns clockwise, i.e. by the negated angle; the documentation says
counter-clockwise.  Missing: the documented direction, which does not hold (`C55_north_is_clockwise`). -/
theorem C55_north_partial (a : ℝ) (v : Fin 4 → ℝ) :
    enu (rotN a *ᵥ v) = rotateAbout ![0, 1, 0] (-a) (enu v) := by
  ext i; fin_cases i <;>
    simp [enu, rotateAbout, rotN, mulVec, dotProduct, Fin.sum_univ_four, Fin.sum_univ_three, cross_apply] <;> ring

/-- C55, refuted for north: a quarter turn about north takes east to up, while counter-clockwise it goes to down. -/
theorem C55_north_is_clockwise :
    enu (rotN (π / 2) *ᵥ ![1, 0, 0, 0]) = ![0, 0, 1] ∧
    rotateAbout ![0, 1, 0] (π / 2) (enu ![1, 0, 0, 0]) = ![0, 0, -1] ∧
    ¬ ∀ a v, enu (rotN a *ᵥ v) = rotateAbout ![0, 1, 0] a (enu v) := by
  have h1 : enu (rotN (π / 2) *ᵥ ![1, 0, 0, 0]) = ![0, 0, 1] := by
    ext i; fin_cases i <;> simp [enu, rotN, mulVec, dotProduct, Fin.sum_univ_four]
  have h2 : rotateAbout ![0, 1, 0] (π / 2) (enu ![1, 0, 0, 0]) = ![0, 0, -1] := by
    ext i; fin_cases i <;> simp [enu, rotateAbout, cross_apply]
  refine ⟨h1, h2, fun h => ?_⟩
  have := h (π / 2) ![1, 0, 0, 0]
  rw [h1, h2] at this
  have : (1 : ℝ) = -1 := congrFun this 2
  norm_num at this

/-! ### Canting -/

/-- The part of a canting vector that matters. -/
def vec3 (v : Fin 4 → ℝ) : Fin 3 → ℝ := ![v 0, v 1, v 2]

/-- C20: canting and its inverse cancel, in both orders, for every data row, as soon as the canting vectors span a plane (longer
than the normalisation epsilons 1e-12 and 1e-8). -/
theorem C20_inverse (ce cn data : Fin 4 → ℝ) (he : 1 / 10 ^ 12 ≤ norm3 (vec3 ce))
    (hn : 1 / 10 ^ 8 * norm3 (vec3 ce) ≤ norm3 (crossProduct (vec3 ce) (vec3 cn))) :
    performCanting ce cn (performCanting ce cn data) true = data ∧
    performCanting ce cn (performCanting ce cn data true) = data := by
  have h := (canting_rigid ce cn he hn).2
  have h' := mul_eq_one_comm.1 h
  simp only [performCanting, if_true, Bool.false_eq_true, if_false, vecMul_vecMul, h, h', vecMul_one, and_self]

/-- C20: canting is a proper rigid motion that keeps homogeneous components, lengths and inner products. -/
theorem C20_rigid (ce cn data data' : Fin 4 → ℝ) (he : 1 / 10 ^ 12 ≤ norm3 (vec3 ce))
    (hn : 1 / 10 ^ 8 * norm3 (vec3 ce) ≤ norm3 (crossProduct (vec3 ce) (vec3 cn))) :
    (performCanting ce cn data) 3 = data 3 ∧
    length3 (performCanting ce cn data) = length3 data ∧
    inner3 (performCanting ce cn data) (performCanting ce cn data') = inner3 data data' := by
  obtain ⟨hr, ho⟩ := canting_rigid ce cn he hn
  have key : ∀ v w : Fin 4 → ℝ, inner3 (performCanting ce cn v) (performCanting ce cn w) = inner3 v w := by
    intro v w
    have h1 : performCanting ce cn v ⬝ᵥ performCanting ce cn w = v ⬝ᵥ w := by
      simp only [performCanting, Bool.false_eq_true, if_false]
      rw [vecMul_transpose _ w, dotProduct_mulVec, vecMul_vecMul, ho, vecMul_one]
    have h2 : (performCanting ce cn v) 3 = v 3 := by
      simp only [performCanting, Bool.false_eq_true, if_false, vecMul_transpose]; exact hr.homogeneous v
    have h3 : (performCanting ce cn w) 3 = w 3 := by
      simp only [performCanting, Bool.false_eq_true, if_false, vecMul_transpose]; exact hr.homogeneous w
    simp only [dotProduct, Fin.sum_univ_four, h2, h3] at h1
    simp only [inner3]; linarith
  refine ⟨?_, ?_, key _ _⟩
  · simp only [performCanting, Bool.false_eq_true, if_false, vecMul_transpose]; exact hr.homogeneous data
  · rw [length3_eq, length3_eq, key]

/-- C20: canting takes the unit axes to the normalised canting vectors: east to the east canting vector, and, if the canting
vectors are orthogonal, north to the north canting vector and up to their cross product. -/
theorem C20_axes (ce cn : Fin 4 → ℝ) (he : 1 / 10 ^ 12 ≤ norm3 (vec3 ce))
    (hn : 1 / 10 ^ 8 * norm3 (vec3 ce) ≤ norm3 (crossProduct (vec3 ce) (vec3 cn))) :
    vec3 (performCanting ce cn ![1, 0, 0, 0]) = (norm3 (vec3 ce))⁻¹ • vec3 ce ∧
    (vec3 ce ⬝ᵥ vec3 cn = 0 → vec3 (performCanting ce cn ![0, 1, 0, 0]) = (norm3 (vec3 cn))⁻¹ • vec3 cn) ∧
    vec3 (performCanting ce cn ![0, 0, 1, 0]) =
      (norm3 (crossProduct (vec3 ce) (vec3 cn)))⁻¹ • crossProduct (vec3 ce) (vec3 cn) := by
  obtain ⟨e, u, h1, h2, h3, h4, h5, h6⟩ := canting_eq ce cn he hn
  simp only [performCanting, Bool.false_eq_true, if_false, vecMul_transpose, h6]
  refine ⟨?_, ?_, ?_⟩
  · refine Eq.trans ?_ h1
    ext i; fin_cases i <;> simp [vec3, mulVec, dotProduct, Fin.sum_univ_four]
  · intro ho
    have hce : 0 < norm3 (vec3 ce) := lt_of_lt_of_le (by norm_num) he
    have hw : norm3 (crossProduct (vec3 ce) (vec3 cn)) = norm3 (vec3 ce) * norm3 (vec3 cn) := by
      rw [norm3, cross_dot_cross, ho, dotProduct_comm (vec3 cn) (vec3 ce), ho, zero_mul, sub_zero,
        Real.sqrt_mul (by rw [← norm3_sq]; positivity)]
      rfl
    have hwp : 0 < norm3 (crossProduct (vec3 ce) (vec3 cn)) := lt_of_lt_of_le (by positivity) hn
    have hcn : 0 < norm3 (vec3 cn) := by
      rcases (norm3_nonneg (vec3 cn)).lt_or_eq with h | h
      · exact h
      · rw [hw, ← h, mul_zero] at hwp; exact absurd hwp (lt_irrefl _)
    have hx : crossProduct u e = (norm3 (vec3 cn))⁻¹ • vec3 cn := by
      have hc2 := norm3_sq (vec3 ce)
      change u = (norm3 (crossProduct (vec3 ce) (vec3 cn)))⁻¹ • crossProduct (vec3 ce) (vec3 cn) at h2
      change e = (norm3 (vec3 ce))⁻¹ • vec3 ce at h1
      rw [h2, h1, hw]
      have : crossProduct (crossProduct (vec3 ce) (vec3 cn)) (vec3 ce) = (norm3 (vec3 ce)) ^ 2 • vec3 cn := by
        rw [hc2]
        simp only [dotProduct, Fin.sum_univ_three] at ho
        simp only [dotProduct, Fin.sum_univ_three]
        ext i; fin_cases i <;> simp [cross_apply] 
        · linear_combination (-vec3 ce 0) * ho
        · linear_combination (-vec3 ce 1) * ho
        · linear_combination (-vec3 ce 2) * ho
      simp only [map_smul, LinearMap.smul_apply, this, smul_smul]
      congr 1; field_simp
    rw [← hx]
    ext i; fin_cases i <;> simp [vec3, mulVec, dotProduct, Fin.sum_univ_four, -cross_apply]
  · refine Eq.trans ?_ h2
    ext i; fin_cases i <;> simp [vec3, mulVec, dotProduct, Fin.sum_univ_four]

/-- The hypotheses of the C20 theorems hold for instance for canting vectors (3, 0, 4) and (0, 2, 0). -/
theorem canting_example : 1 / 10 ^ 12 ≤ norm3 (vec3 ![3, 0, 4, 0]) ∧
    1 / 10 ^ 8 * norm3 (vec3 ![3, 0, 4, 0]) ≤ norm3 (crossProduct (vec3 ![3, 0, 4, 0]) (vec3 ![0, 2, 0, 0])) := by
  have h1 : norm3 (vec3 ![3, 0, 4, 0]) = 5 := by
    simp only [norm3, vec3]
    rw [show ((![(![3, 0, 4, 0] : Fin 4 → ℝ) 0, (![3, 0, 4, 0] : Fin 4 → ℝ) 1, (![3, 0, 4, 0] : Fin 4 → ℝ) 2] : Fin 3 → ℝ) ⬝ᵥ
      ![(![3, 0, 4, 0] : Fin 4 → ℝ) 0, (![3, 0, 4, 0] : Fin 4 → ℝ) 1, (![3, 0, 4, 0] : Fin 4 → ℝ) 2]) = 5 ^ 2 by
        simp [dotProduct, Fin.sum_univ_three]; norm_num]
    exact Real.sqrt_sq (by norm_num)
  have h2 : norm3 (crossProduct (vec3 ![3, 0, 4, 0]) (vec3 ![0, 2, 0, 0])) = 10 := by
    have : crossProduct (vec3 ![3, 0, 4, 0]) (vec3 ![0, 2, 0, 0]) = ![-8, 0, 6] := by
      simp [cross_apply, vec3]; norm_num
    rw [this, norm3, show ((![-8, 0, 6] : Fin 3 → ℝ) ⬝ᵥ ![-8, 0, 6]) = 10 ^ 2 by
        simp [dotProduct, Fin.sum_univ_three]; norm_num]
    exact Real.sqrt_sq (by norm_num)
  rw [h1, h2]; norm_num

example (data : Fin 4 → ℝ) : performCanting ![3, 0, 4, 0] ![0, 2, 0, 0] (performCanting ![3, 0, 4, 0] ![0, 2, 0, 0] data) true = data :=
  (C20_inverse _ _ data canting_example.1 canting_example.2).1

/-- C20: the condition is needed: with parallel canting vectors canting maps north to the zero vector, so nothing can undo it. -/
theorem C20_parallel_collapses (ce : Fin 4 → ℝ) (c : ℝ) :
    performCanting ce (c • ce) ![0, 1, 0, 0] = 0 := by
  have h : crossProduct (normalizeEps (1 / 10 ^ 12) ![ce 0, ce 1, ce 2]) ![(c • ce) 0, (c • ce) 1, (c • ce) 2] = 0 := by
    have : (![(c • ce) 0, (c • ce) 1, (c • ce) 2] : Fin 3 → ℝ) = c • ![ce 0, ce 1, ce 2] := by
      ext i; fin_cases i <;> simp
    rw [this, normalizeEps, map_smul, map_smul, LinearMap.smul_apply, cross_self, smul_zero, smul_zero]
  simp only [performCanting, Bool.false_eq_true, if_false, vecMul_transpose, cantingMatrix, h]
  ext i; fin_cases i <;> simp [normalizeEps, mulVec, dotProduct, Fin.sum_univ_four]

end Artist
