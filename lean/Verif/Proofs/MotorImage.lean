import Verif.Spec.MotorImage
import Verif.Proofs.SplatGradient
import Mathlib.Analysis.SpecialFunctions.Trigonometric.Deriv
import Mathlib.Analysis.Calculus.Deriv.Inv
import Mathlib.Topology.Algebra.Monoid
import Mathlib.Tactic.FinCases
/-! Helper lemmas for C108. -/
namespace Artist.MotorImage
open Artist Intersect Flux Splat Kinematics Moved Transforms Filter Topology

variable {X : Type}

/-- properties of functions that are kept by the operations of the kinematics -/
structure Closed (P : (X → ℝ) → Prop) : Prop where
  const : ∀ a : ℝ, P fun _ => a
  add : ∀ f g, P f → P g → P fun x => f x + g x
  mul : ∀ f g, P f → P g → P fun x => f x * g x
  cos : ∀ f, P f → P fun x => Real.cos (f x)
  sin : ∀ f, P f → P fun x => Real.sin (f x)

theorem closed_continuous [TopologicalSpace X] (x : X) : Closed fun f : X → ℝ => ContinuousAt f x where
  const _ := continuousAt_const
  add _ _ h1 h2 := h1.add h2
  mul _ _ h1 h2 := h1.mul h2
  cos _ h := Real.continuous_cos.continuousAt.comp h
  sin _ h := Real.continuous_sin.continuousAt.comp h

theorem closed_differentiable (x : ℝ) : Closed fun f : ℝ → ℝ => DifferentiableAt ℝ f x where
  const _ := differentiableAt_const _
  add _ _ h1 h2 := h1.add h2
  mul _ _ h1 h2 := h1.mul h2
  cos _ h := h.cos
  sin _ h := h.sin

section
variable {P : (X → ℝ) → Prop} (C : Closed P)
include C

theorem Closed.neg (f) (h : P f) : P fun x => -f x := by
  have := C.mul _ _ (C.const (-1)) h
  simpa using this

theorem Closed.sub (f g) (hf : P f) (hg : P g) : P fun x => f x - g x := by
  have := C.add _ _ hf (C.neg _ hg)
  simpa [sub_eq_add_neg] using this

theorem Closed.matMul (A B : X → Mat) (hA : ∀ i j, P fun x => A x i j) (hB : ∀ i j, P fun x => B x i j) (i j : Fin 4) : P fun x => (A x * B x) i j := by
  have : (fun x => (A x * B x) i j) = fun x => A x i 0 * B x 0 j + A x i 1 * B x 1 j + A x i 2 * B x 2 j + A x i 3 * B x 3 j := by
    funext x; rw [Matrix.mul_apply, Fin.sum_univ_four]
  rw [this]
  exact C.add _ _ (C.add _ _ (C.add _ _ (C.mul _ _ (hA _ _) (hB _ _)) (C.mul _ _ (hA _ _) (hB _ _))) (C.mul _ _ (hA _ _) (hB _ _))) (C.mul _ _ (hA _ _) (hB _ _))

theorem Closed.mulVec (A : X → Mat) (v : X → Fin 4 → ℝ) (hA : ∀ i j, P fun x => A x i j) (hv : ∀ i, P fun x => v x i) (i : Fin 4) : P fun x => (A x).mulVec (v x) i := by
  have : (fun x => (A x).mulVec (v x) i) = fun x => A x i 0 * v x 0 + A x i 1 * v x 1 + A x i 2 * v x 2 + A x i 3 * v x 3 := by
    funext x; rw [Matrix.mulVec, dotProduct, Fin.sum_univ_four]
  rw [this]
  exact C.add _ _ (C.add _ _ (C.add _ _ (C.mul _ _ (hA _ _) (hv _)) (C.mul _ _ (hA _ _) (hv _))) (C.mul _ _ (hA _ _) (hv _))) (C.mul _ _ (hA _ _) (hv _))

theorem Closed.rotE (f : X → ℝ) (h : P f) (i j : Fin 4) : P fun x => rotE (f x) i j := by
  have c := C.cos _ h
  have s := C.sin _ h
  have n := C.neg _ s
  have k := C.const
  fin_cases i <;> fin_cases j <;> simp [Transforms.rotE, k, c, s, n]

theorem Closed.rotN (f : X → ℝ) (h : P f) (i j : Fin 4) : P fun x => rotN (f x) i j := by
  have c := C.cos _ h
  have s := C.sin _ h
  have n := C.neg _ s
  have k := C.const
  fin_cases i <;> fin_cases j <;> simp [Transforms.rotN, k, c, s, n]

theorem Closed.rotU (f : X → ℝ) (h : P f) (i j : Fin 4) : P fun x => rotU (f x) i j := by
  have c := C.cos _ h
  have s := C.sin _ h
  have n := C.neg _ s
  have k := C.const
  fin_cases i <;> fin_cases j <;> simp [Transforms.rotU, k, c, s, n]

theorem Closed.transl (f g h : X → ℝ) (hf : P f) (hg : P g) (hh : P h) (i j : Fin 4) : P fun x => transl (f x) (g x) (h x) i j := by
  have k := C.const
  fin_cases i <;> fin_cases j <;> simp [Transforms.transl, k, hf, hg, hh]

theorem Closed.orientation (s : Moving X) (h : s.Varies P) (i j : Fin 4) : P fun x => (s.heliostat x).motorToOrientation (s.motors x) i j := by
  unfold Heliostat.motorToOrientation Heliostat.forward Heliostat.anglesToOrientation
  simp only [one_mul]
  refine C.matMul _ (fun _ => orientationOffset) ?_ (fun _ _ => C.const _) i j
  refine C.matMul _ _ ?_ (C.transl _ _ _ (h.translation 6) (h.translation 7) (h.translation 8))
  refine C.matMul _ _ ?_ ?_
  · refine C.matMul _ _ (C.transl _ _ _ (h.position 0) (h.position 1) (h.position 2)) ?_
    refine C.matMul _ _ ?_ (C.rotE _ h.angle1)
    refine C.matMul _ _ ?_ (C.transl _ _ _ (h.translation 0) (h.translation 1) (h.translation 2))
    exact C.matMul _ _ (C.rotN _ (h.rotation 0)) (C.rotU _ (h.rotation 1))
  · refine C.matMul _ _ ?_ (C.rotU _ h.angle2)
    refine C.matMul _ _ ?_ (C.transl _ _ _ (h.translation 3) (h.translation 4) (h.translation 5))
    exact C.matMul _ _ (C.rotE _ (h.rotation 2)) (C.rotN _ (h.rotation 3))
end

/-- one point of the mirror and the distortion of one ray -/
abbrev Source (X : Type) := ((X → Fin 4 → ℝ) × (X → Fin 4 → ℝ)) × (ℝ × ℝ)

/-- one ray -/
noncomputable def rayAt (s : Moving X) (q : Source X) (x : X) : V3 ℝ × V3 ℝ :=
  let o := (s.heliostat x).motorToOrientation (s.motors x)
  (⟨o.mulVec (q.1.1 x) 0, o.mulVec (q.1.1 x) 1, o.mulVec (q.1.1 x) 2⟩, direction (s.incident x) (o.mulVec (q.1.2 x)) q.2.1 q.2.2)

def sources (s : Moving X) (distortions : List (List (ℝ × ℝ))) : List (Source X) := distortions.flatMap fun row => s.mirror.zip row

theorem rays_eq (s : Moving X) (distortions : List (List (ℝ × ℝ))) (x : X) : s.rays distortions x = (sources s distortions).map fun q => rayAt s q x := by
  unfold Moving.rays raysOf sources placed
  rw [List.map_flatMap]
  congr 1
  funext row
  rw [List.map_map, List.zip, List.map_zipWith, List.zipWith_map_left]
  rfl

theorem mem_sources {s : Moving X} {distortions : List (List (ℝ × ℝ))} {q : Source X} (h : q ∈ sources s distortions) : q.1 ∈ s.mirror := by
  unfold sources at h
  obtain ⟨row, _, h⟩ := List.mem_flatMap.1 h
  exact (List.of_mem_zip (a := q.1) (b := q.2) h).1

theorem Closed.ray {P : (X → ℝ) → Prop} (C : Closed P) (s : Moving X) (h : s.Varies P) (q : Source X) (hq : q.1 ∈ s.mirror) :
    ((P fun x => (rayAt s q x).1.e) ∧ (P fun x => (rayAt s q x).1.n) ∧ P fun x => (rayAt s q x).1.u) ∧
    ((P fun x => (rayAt s q x).2.e) ∧ (P fun x => (rayAt s q x).2.n) ∧ P fun x => (rayAt s q x).2.u) := by
  have o := C.orientation s h
  have hp := C.mulVec _ _ o (fun i => (h.mirror _ hq i).1)
  have hn := C.mulVec _ _ o (fun i => (h.mirror _ hq i).2)
  have hd : ∀ i, P fun x => (reflect (s.incident x) (((s.heliostat x).motorToOrientation (s.motors x)).mulVec (q.1.2 x))) i := by
    intro i
    unfold reflect
    simp only [Pi.sub_apply, Pi.smul_apply, smul_eq_mul, dotProduct, Fin.sum_univ_four]
    refine C.sub _ _ (h.incident i) (C.mul _ _ (C.mul _ _ (C.const 2) ?_) (hn i))
    exact C.add _ _ (C.add _ _ (C.add _ _ (C.mul _ _ (h.incident _) (hn _)) (C.mul _ _ (h.incident _) (hn _))) (C.mul _ _ (h.incident _) (hn _))) (C.mul _ _ (h.incident _) (hn _))
  have hv := C.mulVec (fun _ => rotDist q.2.1 q.2.2) _ (fun _ _ => C.const _) hd
  exact ⟨⟨hp 0, hp 1, hp 2⟩, ⟨hv 0, hv 1, hv 2⟩⟩

/-! ### One ray on a planar target -/

section ray
variable (W H : Nat) (magnitude extinction reflectivity : ℝ) (p : Plane ℝ)

/-- coordinates on the bitmap, before masking, for rays that are not parallel to the target -/
noncomputable def bitE (ray : V3 ℝ × V3 ℝ) : ℝ :=
  (ray.1.e + V3.dot (p.center - ray.1) p.normal / V3.dot ray.2 p.normal * ray.2.e + p.width / 2 - p.center.e) / p.width * ((W : ℝ) - 1)

noncomputable def bitU (ray : V3 ℝ × V3 ℝ) : ℝ :=
  (ray.1.u + V3.dot (p.center - ray.1) p.normal / V3.dot ray.2 p.normal * ray.2.u + p.height / 2 - p.center.u) / p.height * ((H : ℝ) - 1)

theorem land_valid (ray : V3 ℝ × V3 ℝ) (ha : V3.dot ray.2 p.normal < 0) (h1 : 0 ≤ bitE W p ray) (h2 : bitE W p ray ≤ (W : ℝ) - 1)
    (h3 : 0 ≤ bitU H p ray) (h4 : bitU H p ray ≤ (H : ℝ) - 1) (blocked : V3 ℝ × V3 ℝ → ℝ) :
    hitOf W H magnitude extinction reflectivity (.planar p) blocked ray =
      ⟨(W : ℝ) - 1 - bitE W p ray, bitU H p ray, SoftMask.intensity (magnitude * -(V3.dot ray.2 p.normal)) (blocked ray) extinction reflectivity⟩ := by
  unfold bitE at h1 h2
  unfold bitU at h3 h4
  unfold hitOf land linePlane planePoint planeDistance planeAngle bitE bitU
  simp [ha, h1, h2, h3, h4]

theorem land_invalid (ray : V3 ℝ × V3 ℝ)
    (h : ¬ (V3.dot ray.2 p.normal < 0 ∧ (0 ≤ bitE W p ray ∧ bitE W p ray ≤ (W : ℝ) - 1) ∧ (0 ≤ bitU H p ray ∧ bitU H p ray ≤ (H : ℝ) - 1)))
    (blocked : V3 ℝ × V3 ℝ → ℝ) :
    hitOf W H magnitude extinction reflectivity (.planar p) blocked ray = ⟨(W : ℝ) - 1, 0, 0⟩ := by
  by_cases ha : V3.dot ray.2 p.normal < 0
  · have h' : ¬ ((0 ≤ bitE W p ray ∧ bitE W p ray ≤ (W : ℝ) - 1) ∧ (0 ≤ bitU H p ray ∧ bitU H p ray ≤ (H : ℝ) - 1)) := fun hh => h ⟨ha, hh⟩
    unfold bitE bitU at h'
    unfold hitOf land linePlane planePoint planeDistance planeAngle SoftMask.intensity
    simp only [ha, decide_true, if_true, Bool.and_true, V3.add_e, V3.add_u, V3.smul_e, V3.smul_u]
    rw [if_neg, if_neg, if_neg]
    · simp
    all_goals
      intro hc
      simp only [Bool.and_eq_true, decide_eq_true_eq] at hc
      exact h' ⟨⟨hc.1.1.1, hc.1.1.2⟩, hc.1.2, hc.2⟩
  · unfold hitOf land linePlane planeAngle SoftMask.intensity
    simp [ha]

/-- a ray that meets no edge is strictly inside, clearly outside, or not from the front -/
theorem classify (hw : 0 < p.width) (hh : 0 < p.height) (hW : 1 < W) (hH : 1 < H) (ray : V3 ℝ × V3 ℝ) (he : ¬ HitsEdge p ray) :
    (V3.dot ray.2 p.normal < 0 ∧ (0 < bitE W p ray ∧ bitE W p ray < (W : ℝ) - 1) ∧ (0 < bitU H p ray ∧ bitU H p ray < (H : ℝ) - 1)) ∨
    (V3.dot ray.2 p.normal < 0 ∧ (bitE W p ray < 0 ∨ (W : ℝ) - 1 < bitE W p ray ∨ bitU H p ray < 0 ∨ (H : ℝ) - 1 < bitU H p ray)) ∨
    0 ≤ V3.dot ray.2 p.normal := by
  rcases lt_or_ge (V3.dot ray.2 p.normal) 0 with ha | ha
  swap
  · exact Or.inr (Or.inr ha)
  have hW' : (0 : ℝ) < (W : ℝ) - 1 := by have : (1 : ℝ) < W := by exact_mod_cast hW
                                         linarith
  have hH' : (0 : ℝ) < (H : ℝ) - 1 := by have : (1 : ℝ) < H := by exact_mod_cast hH
                                         linarith
  set t := V3.dot (p.center - ray.1) p.normal / V3.dot ray.2 p.normal with ht
  have ht' : t * V3.dot ray.2 p.normal = V3.dot (p.center - ray.1) p.normal := by rw [ht, div_mul_cancel₀ _ ha.ne]
  have hp : V3.dot (ray.1 + t • ray.2 - p.center) p.normal = 0 := by
    simp only [V3.dot, V3.sub_e, V3.sub_n, V3.sub_u, V3.add_e, V3.add_n, V3.add_u, V3.smul_e, V3.smul_n, V3.smul_u] at ht' ⊢
    linarith
  have key : ∀ (a w n : ℝ), 0 < w → 0 < n → ((a + w / 2) / w * n < 0 ↔ a < -(w / 2)) ∧ (n < (a + w / 2) / w * n ↔ w / 2 < a) := by
    intro a w n hw hn
    have e : (a + w / 2) / w * n = a / w * n + n / 2 := by field_simp
    have e1 : a / w * n = a * (n / w) := by ring
    have hnw : 0 < n / w := by positivity
    have hww : w * (n / w) = n := by field_simp
    rw [e, e1]
    constructor
    · constructor
      · intro h; by_contra hc; push Not at hc; nlinarith
      · intro h; nlinarith
    · constructor
      · intro h; by_contra hc; push Not at hc; nlinarith
      · intro h; nlinarith
  have eE : bitE W p ray = (((ray.1 + t • ray.2).e - p.center.e) + p.width / 2) / p.width * ((W : ℝ) - 1) := by
    unfold bitE; rw [← ht, V3.add_e, V3.smul_e]; ring
  have eU : bitU H p ray = (((ray.1 + t • ray.2).u - p.center.u) + p.height / 2) / p.height * ((H : ℝ) - 1) := by
    unfold bitU; rw [← ht, V3.add_u, V3.smul_u]; ring
  obtain ⟨k1, k2⟩ := key ((ray.1 + t • ray.2).e - p.center.e) p.width _ hw hW'
  obtain ⟨k3, k4⟩ := key ((ray.1 + t • ray.2).u - p.center.u) p.height _ hh hH'
  rw [← eE] at k1 k2
  rw [← eU] at k3 k4
  by_cases hin : |(ray.1 + t • ray.2).e - p.center.e| ≤ p.width / 2 ∧ |(ray.1 + t • ray.2).u - p.center.u| ≤ p.height / 2
  · left
    have hne : ¬ (|(ray.1 + t • ray.2).e - p.center.e| = p.width / 2 ∨ |(ray.1 + t • ray.2).u - p.center.u| = p.height / 2) :=
      fun h => he ⟨ha, t, hp, hin.1, hin.2, h⟩
    push Not at hne
    have l1 := abs_lt.1 (lt_of_le_of_ne hin.1 hne.1)
    have l2 := abs_lt.1 (lt_of_le_of_ne hin.2 hne.2)
    have strict : ∀ (a w n : ℝ), 0 < w → 0 < n → -(w / 2) < a → a < w / 2 → 0 < (a + w / 2) / w * n ∧ (a + w / 2) / w * n < n := by
      intro a w n hw hn h1 h2
      constructor
      · exact mul_pos (div_pos (by linarith) hw) hn
      · have : (a + w / 2) / w < 1 := by rw [div_lt_one hw]; linarith
        nlinarith
    refine ⟨ha, ?_, ?_⟩
    · rw [eE]; exact strict _ _ _ hw hW' l1.1 l1.2
    · rw [eU]; exact strict _ _ _ hh hH' l2.1 l2.2
  · right; left
    refine ⟨ha, ?_⟩
    rw [k1, k2, k3, k4]
    rw [abs_le, abs_le] at hin
    by_contra hc
    push Not at hc
    exact hin ⟨⟨hc.1, hc.2.1⟩, hc.2.2.1, hc.2.2.2⟩

variable {W H} in
theorem contrib_planar (hW : 1 < W) (blocked : V3 ℝ × V3 ℝ → ℝ) (r c : Nat) (hc : c < W) (ray : V3 ℝ × V3 ℝ) :
    contrib W H r c (hitOf W H magnitude extinction reflectivity (.planar p) blocked ray) =
      if Inside W H (hitOf W H magnitude extinction reflectivity (.planar p) blocked ray) then
        (hitOf W H magnitude extinction reflectivity (.planar p) blocked ray).w *
          (tent ((hitOf W H magnitude extinction reflectivity (.planar p) blocked ray).e - (c : ℝ)) *
            tent ((hitOf W H magnitude extinction reflectivity (.planar p) blocked ray).u - (r : ℝ))) else 0 := by
  have hW' : (0 : ℝ) < (W : ℝ) - 1 := by have : (1 : ℝ) < W := by exact_mod_cast hW
                                         linarith
  apply contrib_eq W H r c hc
  · by_cases h : V3.dot ray.2 p.normal < 0 ∧ (0 ≤ bitE W p ray ∧ bitE W p ray ≤ (W : ℝ) - 1) ∧ (0 ≤ bitU H p ray ∧ bitU H p ray ≤ (H : ℝ) - 1)
    · rw [land_valid W H _ _ _ p ray h.1 h.2.1.1 h.2.1.2 h.2.2.1 h.2.2.2]
      show 0 ≤ (W : ℝ) - 1 - _
      linarith [h.2.1.2]
    · rw [land_invalid W H _ _ _ p ray h]; exact hW'.le
  · by_cases h : V3.dot ray.2 p.normal < 0 ∧ (0 ≤ bitE W p ray ∧ bitE W p ray ≤ (W : ℝ) - 1) ∧ (0 ≤ bitU H p ray ∧ bitU H p ray ≤ (H : ℝ) - 1)
    · rw [land_valid W H _ _ _ p ray h.1 h.2.1.1 h.2.1.2 h.2.2.1 h.2.2.2]
      exact h.2.2.1
    · rw [land_invalid W H _ _ _ p ray h]

theorem tent_le_one (z : ℝ) : tent z ≤ 1 := by
  unfold tent
  exact max_le zero_le_one (by linarith [abs_nonneg z])

theorem tent_continuous : Continuous (tent : ℝ → ℝ) := by
  unfold tent
  fun_prop

variable {W H} in
theorem ray_continuous [TopologicalSpace X] (hw : 0 < p.width) (hh : 0 < p.height) (hW : 1 < W) (hH : 1 < H) (blocked : X → V3 ℝ × V3 ℝ → ℝ) (r c : Nat) (hc : c < W)
    (ray : X → V3 ℝ × V3 ℝ) (x₀ : X) (he : ¬ HitsEdge p (ray x₀)) (hb : ContinuousAt (fun x => blocked x (ray x)) x₀)
    (h1 : ContinuousAt (fun x => (ray x).1.e) x₀) (h2 : ContinuousAt (fun x => (ray x).1.n) x₀) (h3 : ContinuousAt (fun x => (ray x).1.u) x₀)
    (h4 : ContinuousAt (fun x => (ray x).2.e) x₀) (h5 : ContinuousAt (fun x => (ray x).2.n) x₀) (h6 : ContinuousAt (fun x => (ray x).2.u) x₀) :
    ContinuousAt (fun x => contrib W H r c (hitOf W H magnitude extinction reflectivity (.planar p) (blocked x) (ray x))) x₀ := by
  have cA : ContinuousAt (fun x => V3.dot (ray x).2 p.normal) x₀ := by unfold V3.dot; fun_prop
  have cN : ContinuousAt (fun x => V3.dot (p.center - (ray x).1) p.normal) x₀ := by
    simp only [V3.dot, V3.sub_e, V3.sub_n, V3.sub_u]; fun_prop
  have cw : ContinuousAt (fun x => SoftMask.intensity (magnitude * -(V3.dot (ray x).2 p.normal)) (blocked x (ray x)) extinction reflectivity) x₀ := by
    unfold SoftMask.intensity
    exact (((continuousAt_const.mul cA.neg).mul (continuousAt_const.sub hb)).mul continuousAt_const).mul continuousAt_const
  have cE : V3.dot (ray x₀).2 p.normal ≠ 0 → ContinuousAt (fun x => bitE W p (ray x)) x₀ := by
    intro h0; unfold bitE
    have := cN.div cA h0
    fun_prop
  have cU : V3.dot (ray x₀).2 p.normal ≠ 0 → ContinuousAt (fun x => bitU H p (ray x)) x₀ := by
    intro h0; unfold bitU
    have := cN.div cA h0
    fun_prop
  have zero : (∀ᶠ x in 𝓝 x₀, ¬ (V3.dot (ray x).2 p.normal < 0 ∧ (0 ≤ bitE W p (ray x) ∧ bitE W p (ray x) ≤ (W : ℝ) - 1) ∧ (0 ≤ bitU H p (ray x) ∧ bitU H p (ray x) ≤ (H : ℝ) - 1))) →
      ContinuousAt (fun x => contrib W H r c (hitOf W H magnitude extinction reflectivity (.planar p) (blocked x) (ray x))) x₀ := by
    intro h
    refine ContinuousAt.congr (f := fun _ => (0 : ℝ)) continuousAt_const ?_
    filter_upwards [h] with x hx
    rw [contrib_planar _ _ _ p hW (blocked _) r c hc, land_invalid W H _ _ _ p _ hx]
    simp
  rcases classify W H p hw hh hW hH (ray x₀) he with ⟨ha, ⟨e1, e2⟩, u1, u2⟩ | ⟨ha, ho⟩ | ha
  · have cE := cE ha.ne
    have cU := cU ha.ne
    refine ContinuousAt.congr (f := fun x => SoftMask.intensity (magnitude * -(V3.dot (ray x).2 p.normal)) (blocked x (ray x)) extinction reflectivity *
      (tent ((W : ℝ) - 1 - bitE W p (ray x) - (c : ℝ)) * tent (bitU H p (ray x) - (r : ℝ)))) ?_ ?_
    · refine cw.mul (ContinuousAt.mul ?_ ?_)
      · exact tent_continuous.continuousAt.comp (f := fun x => (W : ℝ) - 1 - bitE W p (ray x) - (c : ℝ)) (by fun_prop)
      · exact tent_continuous.continuousAt.comp (f := fun x => bitU H p (ray x) - (r : ℝ)) (by fun_prop)
    · filter_upwards [cA.eventually_lt continuousAt_const ha, continuousAt_const.eventually_lt cE e1, cE.eventually_lt continuousAt_const e2,
        continuousAt_const.eventually_lt cU u1, cU.eventually_lt continuousAt_const u2] with x a1 a2 a3 a4 a5
      rw [contrib_planar _ _ _ p hW (blocked _) r c hc, land_valid W H _ _ _ p _ a1 a2.le a3.le a4.le a5.le, if_pos]
      exact ⟨⟨by show 0 ≤ (W : ℝ) - 1 - _; linarith, by show (W : ℝ) - 1 - _ < (W : ℝ) - 1; linarith⟩, a4.le, a5⟩
  · have cE := cE ha.ne
    have cU := cU ha.ne
    apply zero
    rcases ho with h | h | h | h
    · filter_upwards [cE.eventually_lt continuousAt_const h] with x hx hc; linarith [hc.2.1.1]
    · filter_upwards [continuousAt_const.eventually_lt cE h] with x hx hc; linarith [hc.2.1.2]
    · filter_upwards [cU.eventually_lt continuousAt_const h] with x hx hc; linarith [hc.2.2.1]
    · filter_upwards [continuousAt_const.eventually_lt cU h] with x hx hc; linarith [hc.2.2.2]
  · rcases eq_or_lt_of_le ha with h0 | h0
    · have v0 : contrib W H r c (hitOf W H magnitude extinction reflectivity (.planar p) (blocked x₀) (ray x₀)) = 0 := by
        rw [contrib_planar _ _ _ p hW (blocked _) r c hc, land_invalid W H _ _ _ p _ (fun hh => by linarith [hh.1])]
        simp
      unfold ContinuousAt
      simp only [v0]
      have lim : Tendsto (fun x => |SoftMask.intensity (magnitude * -(V3.dot (ray x).2 p.normal)) (blocked x (ray x)) extinction reflectivity|) (𝓝 x₀) (𝓝 0) := by
        have := cw.abs
        unfold ContinuousAt at this
        have z : |SoftMask.intensity (magnitude * -(V3.dot (ray x₀).2 p.normal)) (blocked x₀ (ray x₀)) extinction reflectivity| = 0 := by
          rw [← h0]; simp [SoftMask.intensity]
        simp only [z] at this
        exact this
      rw [tendsto_zero_iff_abs_tendsto_zero]
      refine squeeze_zero (fun _ => abs_nonneg _) (fun x => ?_) lim
      show |contrib W H r c _| ≤ _
      rw [contrib_planar _ _ _ p hW (blocked _) r c hc]
      split_ifs with hin
      · have hv : V3.dot (ray x).2 p.normal < 0 ∧ (0 ≤ bitE W p (ray x) ∧ bitE W p (ray x) ≤ (W : ℝ) - 1) ∧ (0 ≤ bitU H p (ray x) ∧ bitU H p (ray x) ≤ (H : ℝ) - 1) := by
          by_contra hv
          rw [land_invalid W H _ _ _ p _ hv] at hin
          exact lt_irrefl _ hin.1.2
        rw [land_valid W H _ _ _ p _ hv.1 hv.2.1.1 hv.2.1.2 hv.2.2.1 hv.2.2.2, abs_mul]
        have t1 := tent_nonneg ((W : ℝ) - 1 - bitE W p (ray x) - (c : ℝ))
        have t2 := tent_nonneg (bitU H p (ray x) - (r : ℝ))
        have t3 := tent_le_one ((W : ℝ) - 1 - bitE W p (ray x) - (c : ℝ))
        have t4 := tent_le_one (bitU H p (ray x) - (r : ℝ))
        refine mul_le_of_le_one_right (abs_nonneg _) ?_
        rw [abs_of_nonneg (mul_nonneg t1 t2)]
        exact mul_le_one₀ t3 t2 t4
      · rw [abs_zero]; exact abs_nonneg _
    · apply zero
      filter_upwards [continuousAt_const.eventually_lt cA h0] with x hx hc
      linarith [hc.1]

theorem ray_differentiable (hw : 0 < p.width) (hh : 0 < p.height) (hW : 1 < W) (hH : 1 < H) (blocked : ℝ → V3 ℝ × V3 ℝ → ℝ)
    (ray : ℝ → V3 ℝ × V3 ℝ) (x₀ : ℝ) (he : ¬ HitsEdge p (ray x₀)) (hg : V3.dot (ray x₀).2 p.normal ≠ 0)
    (hl : Inside W H (hitOf W H magnitude extinction reflectivity (.planar p) (blocked x₀) (ray x₀)) →
      OffLine (hitOf W H magnitude extinction reflectivity (.planar p) (blocked x₀) (ray x₀)).e ∧
      OffLine (hitOf W H magnitude extinction reflectivity (.planar p) (blocked x₀) (ray x₀)).u)
    (hb : DifferentiableAt ℝ (fun x => blocked x (ray x)) x₀)
    (h1 : DifferentiableAt ℝ (fun x => (ray x).1.e) x₀) (h2 : DifferentiableAt ℝ (fun x => (ray x).1.n) x₀) (h3 : DifferentiableAt ℝ (fun x => (ray x).1.u) x₀)
    (h4 : DifferentiableAt ℝ (fun x => (ray x).2.e) x₀) (h5 : DifferentiableAt ℝ (fun x => (ray x).2.n) x₀) (h6 : DifferentiableAt ℝ (fun x => (ray x).2.u) x₀) :
    (DifferentiableAt ℝ (fun x => (hitOf W H magnitude extinction reflectivity (.planar p) (blocked x) (ray x)).e) x₀ ∧
     DifferentiableAt ℝ (fun x => (hitOf W H magnitude extinction reflectivity (.planar p) (blocked x) (ray x)).u) x₀ ∧
     DifferentiableAt ℝ (fun x => (hitOf W H magnitude extinction reflectivity (.planar p) (blocked x) (ray x)).w) x₀) ∧
    (∀ᶠ x in 𝓝 x₀, long (hitOf W H magnitude extinction reflectivity (.planar p) (blocked x) (ray x)).e =
      long (hitOf W H magnitude extinction reflectivity (.planar p) (blocked x₀) (ray x₀)).e) ∧
    (∀ᶠ x in 𝓝 x₀, long (hitOf W H magnitude extinction reflectivity (.planar p) (blocked x) (ray x)).u =
      long (hitOf W H magnitude extinction reflectivity (.planar p) (blocked x₀) (ray x₀)).u) := by
  have dA : DifferentiableAt ℝ (fun x => V3.dot (ray x).2 p.normal) x₀ := by unfold V3.dot; fun_prop
  have dN : DifferentiableAt ℝ (fun x => V3.dot (p.center - (ray x).1) p.normal) x₀ := by
    simp only [V3.dot, V3.sub_e, V3.sub_n, V3.sub_u]; fun_prop
  have dw : DifferentiableAt ℝ (fun x => SoftMask.intensity (magnitude * -(V3.dot (ray x).2 p.normal)) (blocked x (ray x)) extinction reflectivity) x₀ := by
    unfold SoftMask.intensity
    exact (((dA.neg.const_mul _).mul ((differentiableAt_const _).sub hb)).mul_const _).mul_const _
  have dq : DifferentiableAt ℝ (fun x => V3.dot (p.center - (ray x).1) p.normal / V3.dot (ray x).2 p.normal) x₀ := dN.fun_div dA hg
  have dE : DifferentiableAt ℝ (fun x => bitE W p (ray x)) x₀ := by
    unfold bitE
    exact ((((h1.add (dq.mul h4)).add_const _).sub_const _).div_const _).mul_const _
  have dU : DifferentiableAt ℝ (fun x => bitU H p (ray x)) x₀ := by
    unfold bitU
    exact ((((h3.add (dq.mul h6)).add_const _).sub_const _).div_const _).mul_const _
  have cA := dA.continuousAt
  have cE := dE.continuousAt
  have cU := dU.continuousAt
  have inv : (∀ᶠ x in 𝓝 x₀, ¬ (V3.dot (ray x).2 p.normal < 0 ∧ (0 ≤ bitE W p (ray x) ∧ bitE W p (ray x) ≤ (W : ℝ) - 1) ∧ (0 ≤ bitU H p (ray x) ∧ bitU H p (ray x) ≤ (H : ℝ) - 1))) →
      ∀ᶠ x in 𝓝 x₀, hitOf W H magnitude extinction reflectivity (.planar p) (blocked x) (ray x) = ⟨(W : ℝ) - 1, 0, 0⟩ := by
    intro h
    filter_upwards [h] with x hx
    exact land_invalid W H _ _ _ p _ hx _
  have done : (∀ᶠ x in 𝓝 x₀, hitOf W H magnitude extinction reflectivity (.planar p) (blocked x) (ray x) = ⟨(W : ℝ) - 1, 0, 0⟩) →
      (DifferentiableAt ℝ (fun x => (hitOf W H magnitude extinction reflectivity (.planar p) (blocked x) (ray x)).e) x₀ ∧
       DifferentiableAt ℝ (fun x => (hitOf W H magnitude extinction reflectivity (.planar p) (blocked x) (ray x)).u) x₀ ∧
       DifferentiableAt ℝ (fun x => (hitOf W H magnitude extinction reflectivity (.planar p) (blocked x) (ray x)).w) x₀) ∧
      (∀ᶠ x in 𝓝 x₀, long (hitOf W H magnitude extinction reflectivity (.planar p) (blocked x) (ray x)).e =
        long (hitOf W H magnitude extinction reflectivity (.planar p) (blocked x₀) (ray x₀)).e) ∧
      (∀ᶠ x in 𝓝 x₀, long (hitOf W H magnitude extinction reflectivity (.planar p) (blocked x) (ray x)).u =
        long (hitOf W H magnitude extinction reflectivity (.planar p) (blocked x₀) (ray x₀)).u) := by
    intro h
    refine ⟨⟨?_, ?_, ?_⟩, ?_, ?_⟩
    · exact (differentiableAt_const ((W : ℝ) - 1)).congr_of_eventuallyEq (by filter_upwards [h] with x hx; rw [hx])
    · exact (differentiableAt_const (0 : ℝ)).congr_of_eventuallyEq (by filter_upwards [h] with x hx; rw [hx])
    · exact (differentiableAt_const (0 : ℝ)).congr_of_eventuallyEq (by filter_upwards [h] with x hx; rw [hx])
    · filter_upwards [h] with x hx; rw [hx, h.self_of_nhds]
    · filter_upwards [h] with x hx; rw [hx, h.self_of_nhds]
  rcases classify W H p hw hh hW hH (ray x₀) he with ⟨ha, ⟨e1, e2⟩, u1, u2⟩ | ⟨ha, ho⟩ | ha
  · have h : ∀ᶠ x in 𝓝 x₀, hitOf W H magnitude extinction reflectivity (.planar p) (blocked x) (ray x) =
        ⟨(W : ℝ) - 1 - bitE W p (ray x), bitU H p (ray x), SoftMask.intensity (magnitude * -(V3.dot (ray x).2 p.normal)) (blocked x (ray x)) extinction reflectivity⟩ := by
      filter_upwards [cA.eventually_lt continuousAt_const ha, continuousAt_const.eventually_lt cE e1, cE.eventually_lt continuousAt_const e2,
        continuousAt_const.eventually_lt cU u1, cU.eventually_lt continuousAt_const u2] with x a1 a2 a3 a4 a5
      exact land_valid W H _ _ _ p _ a1 a2.le a3.le a4.le a5.le _
    rw [h.self_of_nhds] at hl ⊢
    obtain ⟨l1, l2⟩ := hl ⟨⟨by show 0 ≤ (W : ℝ) - 1 - _; linarith, by show (W : ℝ) - 1 - _ < (W : ℝ) - 1; linarith⟩, u1.le, u2⟩
    refine ⟨⟨?_, ?_, ?_⟩, ?_, ?_⟩
    · exact (dE.const_sub ((W : ℝ) - 1)).congr_of_eventuallyEq (by filter_upwards [h] with x hx; rw [hx])
    · exact dU.congr_of_eventuallyEq (by filter_upwards [h] with x hx; rw [hx])
    · exact dw.congr_of_eventuallyEq (by filter_upwards [h] with x hx; rw [hx])
    · filter_upwards [h, (continuousAt_const.sub cE).eventually (long_eventually _ l1)] with x hx h'
      rw [hx]; exact h'
    · filter_upwards [h, cU.eventually (long_eventually _ l2)] with x hx h'
      rw [hx]; exact h'
  · apply done; apply inv
    rcases ho with h | h | h | h
    · filter_upwards [cE.eventually_lt continuousAt_const h] with x hx hc; linarith [hc.2.1.1]
    · filter_upwards [continuousAt_const.eventually_lt cE h] with x hx hc; linarith [hc.2.1.2]
    · filter_upwards [cU.eventually_lt continuousAt_const h] with x hx hc; linarith [hc.2.2.1]
    · filter_upwards [continuousAt_const.eventually_lt cU h] with x hx hc; linarith [hc.2.2.2]
  · apply done; apply inv
    filter_upwards [continuousAt_const.eventually_lt cA (lt_of_le_of_ne ha (Ne.symm hg))] with x hx hc
    linarith [hc.1]

end ray

theorem sum_continuous [TopologicalSpace X] {α : Type} (x₀ : X) (f : α → X → ℝ) : ∀ l : List α, (∀ a ∈ l, ContinuousAt (f a) x₀) →
    ContinuousAt (fun x => (l.map (fun a => f a x)).sum) x₀
  | [], _ => by simpa using continuousAt_const
  | a :: l, h => by
    simp only [List.map_cons, List.sum_cons]
    exact (h a List.mem_cons_self).add (sum_continuous x₀ f l fun b hb => h b (List.mem_cons_of_mem _ hb))

theorem rays_length (s : Moving X) (distortions : List (List (ℝ × ℝ))) (x : X) : (s.rays distortions x).length = (sources s distortions).length := by
  rw [rays_eq, List.length_map]

theorem ray_eq (s : Moving X) (distortions : List (List (ℝ × ℝ))) (i : Nat) (hi : i < (sources s distortions).length) :
    s.ray distortions i = rayAt s ((sources s distortions)[i]) := by
  funext x
  unfold Moving.ray
  rw [rays_eq]
  simp [List.getD, hi]

theorem rays_range (s : Moving X) (distortions : List (List (ℝ × ℝ))) (x : X) :
    s.rays distortions x = (List.range (sources s distortions).length).map fun i => s.ray distortions i x := by
  apply List.ext_getElem
  · simp [rays_length]
  · intro i h1 h2
    rw [List.getElem_map, List.getElem_range]
    unfold Moving.ray
    simp [List.getD, h1]

end Artist.MotorImage
