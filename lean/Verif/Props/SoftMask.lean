import Verif.Proofs.SoftMask
import Verif.Props.LBVH
import Mathlib.Analysis.Complex.ExponentialBounds
import Mathlib.Algebra.Order.Floor.Semiring
/-!
# C15, C54 and the batch dependence of blocking (C06)
-/
namespace Artist.SoftMask
open Artist

/-! ## C15: values of the soft mask -/

/-- C15: the mask is a number in `[0, 1)` for every non-negative density factor. -/
theorem C15_range (eps softness alpha offset : ℝ) (hα : 0 ≤ alpha) (origin dir : V3 ℝ) (rects : List Rect) (m : ℝ)
    (h : softMask eps softness alpha offset origin dir rects = some m) : 0 ≤ m ∧ m < 1 := by
  rw [softMask_eq] at h
  split_ifs at h with hd
  rw [Option.some.injEq] at h
  subst h
  have hs : 0 ≤ (rects.map (density eps softness offset origin dir)).sum := by
    apply List.sum_nonneg
    intro x hx
    rw [List.mem_map] at hx
    obtain ⟨r, _, rfl⟩ := hx
    exact (density_bounds ..).1.le
  constructor
  · have : Real.exp (-(alpha * (rects.map (density eps softness offset origin dir)).sum)) ≤ 1 := by
      rw [Real.exp_le_one_iff]; nlinarith [mul_nonneg hα hs]
    linarith
  · linarith [Real.exp_pos (-(alpha * (rects.map (density eps softness offset origin dir)).sum))]

/-- C15: no blockers, no blocking. -/
theorem C15_no_blockers (eps softness alpha offset : ℝ) (origin dir : V3 ℝ) :
    softMask eps softness alpha offset origin dir [] = some 0 := by
  rw [softMask_eq]; simp

/-- C15: the mask does not depend on the order of the rectangles. -/
theorem C15_order (eps softness alpha offset : ℝ) (origin dir : V3 ℝ) (r₁ r₂ : List Rect) (h : r₁.Perm r₂) :
    softMask eps softness alpha offset origin dir r₁ = softMask eps softness alpha offset origin dir r₂ := by
  rw [softMask_eq, softMask_eq, (h.map _).sum_eq]
  have : (∃ r ∈ r₁, safeDet eps (gram r) = 0) ↔ (∃ r ∈ r₂, safeDet eps (gram r) = 0) := by
    constructor <;> rintro ⟨r, hr, h0⟩
    · exact ⟨r, h.mem_iff.1 hr, h0⟩
    · exact ⟨r, h.mem_iff.2 hr, h0⟩
  simp only [this]

/-- C15: a further rectangle raises the mask strictly (for a positive density factor). -/
theorem C15_more_blockers (eps softness alpha offset : ℝ) (hα : 0 < alpha) (origin dir : V3 ℝ) (rects : List Rect) (r : Rect)
    (m m' : ℝ) (h : softMask eps softness alpha offset origin dir rects = some m)
    (h' : softMask eps softness alpha offset origin dir (r :: rects) = some m') : m < m' := by
  rw [softMask_eq] at h h'
  split_ifs at h with hd
  split_ifs at h' with hd'
  rw [Option.some.injEq] at h h'
  subst h; subst h'
  rw [List.map_cons, List.sum_cons]
  have hp := (density_bounds eps softness offset origin dir r).1
  have : Real.exp (-(alpha * (density eps softness offset origin dir r + (rects.map (density eps softness offset origin dir)).sum)))
      < Real.exp (-(alpha * (rects.map (density eps softness offset origin dir)).sum)) := by
    rw [Real.exp_lt_exp]
    nlinarith [mul_pos hα hp]
  linarith

/-- C15: the mask is a number unless some rectangle is degenerate, that is, its two spans are parallel. -/
theorem C15_nan_iff (eps softness alpha offset : ℝ) (heps : 0 < eps) (origin dir : V3 ℝ) (rects : List Rect) :
    softMask eps softness alpha offset origin dir rects = none ↔ ∃ r ∈ rects, V3.cross r.spanU r.spanV = ⟨0, 0, 0⟩ := by
  rw [softMask_eq]
  simp only [safeDet_zero_iff eps heps]
  split_ifs with h
  · exact ⟨fun _ => h, fun _ => rfl⟩
  · simp only [reduceCtorEq, false_iff]; exact h

/-- C15: blocking never makes an intensity negative and never raises it. -/
theorem C15_intensity (eps softness alpha offset : ℝ) (hα : 0 ≤ alpha) (origin dir : V3 ℝ) (rects : List Rect) (m : ℝ)
    (h : softMask eps softness alpha offset origin dir rects = some m)
    (angle extinction reflectivity : ℝ) (ha : 0 ≤ angle) (he : extinction ≤ 1) (hr : 0 ≤ reflectivity) :
    0 ≤ intensity angle m extinction reflectivity ∧
      intensity angle m extinction reflectivity ≤ intensity angle 0 extinction reflectivity := by
  obtain ⟨h0, h1⟩ := C15_range eps softness alpha offset hα origin dir rects m h
  have hk : 0 ≤ angle * (1 - extinction) * reflectivity := mul_nonneg (mul_nonneg ha (by linarith)) hr
  have e1 : ∀ b, intensity angle b extinction reflectivity = (1 - b) * (angle * (1 - extinction) * reflectivity) := by
    intro b; unfold intensity; ring
  rw [e1, e1]
  exact ⟨mul_nonneg (by linarith) hk, by nlinarith⟩

/-- C15, the geometry: if the ray `origin + t·dir` meets the rectangle's plane in the point `corner + u·spanU + v·spanV`, well
inside the rectangle and well behind the offset (margin `δ`), the ray is blocked at least to the stated degree. -/
theorem C15_hit_blocks (eps softness alpha offset δ : ℝ) (heps : 0 < eps) (hs : 0 ≤ softness) (hα : 0 ≤ alpha)
    (o d : V3 ℝ) (rects : List Rect) (r : Rect) (hr : r ∈ rects) (t u v : ℝ)
    (hU : V3.dot r.spanU r.normal = 0) (hV : V3.dot r.spanV r.normal = 0)
    (hden : eps ≤ |V3.dot d r.normal|) (hdet : eps ≤ gram r)
    (hp : o + t • d = r.corner + u • r.spanU + v • r.spanV)
    (hu : δ ≤ u ∧ u ≤ 1 - δ) (hv : δ ≤ v ∧ v ≤ 1 - δ) (ht : offset + δ ≤ t) (m : ℝ)
    (h : softMask eps softness alpha offset o d rects = some m) :
    1 - Real.exp (-(alpha * sigmoid (softness * δ) ^ 5)) ≤ m := by
  rw [softMask_eq] at h
  split_ifs at h with hd
  rw [Option.some.injEq] at h
  subst h
  obtain ⟨h1, h2⟩ := computed_intersection eps heps o d r t u v hU hV hden hdet hp
  have hpos := sigmoid_pos (softness * δ)
  have hdens : sigmoid (softness * δ) ^ 5 ≤ density eps softness offset o d r := by
    unfold density
    rw [h1, h2]
    have a := sigmoid_mono (mul_le_mul_of_nonneg_left hu.1 hs)
    have b := sigmoid_mono (mul_le_mul_of_nonneg_left (show δ ≤ 1 - u by linarith [hu.2]) hs)
    have c := sigmoid_mono (mul_le_mul_of_nonneg_left hv.1 hs)
    have e := sigmoid_mono (mul_le_mul_of_nonneg_left (show δ ≤ 1 - v by linarith [hv.2]) hs)
    have f := sigmoid_mono (mul_le_mul_of_nonneg_left (show δ ≤ t - offset by linarith) hs)
    have hab := mul_le_mul a b hpos.le (sigmoid_pos _).le
    have hce := mul_le_mul c e hpos.le (sigmoid_pos _).le
    have hh := mul_le_mul (mul_le_mul hab hce (by positivity) (mul_pos (sigmoid_pos _) (sigmoid_pos _)).le) f hpos.le
      (mul_pos (mul_pos (sigmoid_pos _) (sigmoid_pos _)) (mul_pos (sigmoid_pos _) (sigmoid_pos _))).le
    calc sigmoid (softness * δ) ^ 5 = sigmoid (softness * δ) * sigmoid (softness * δ) * (sigmoid (softness * δ) * sigmoid (softness * δ)) *
          sigmoid (softness * δ) := by ring
      _ ≤ _ := hh
  have hsum : density eps softness offset o d r ≤ (rects.map (density eps softness offset o d)).sum := by
    apply List.single_le_sum _ _ (List.mem_map_of_mem hr)
    intro x hx
    rw [List.mem_map] at hx
    obtain ⟨r', _, rfl⟩ := hx
    exact (density_bounds ..).1.le
  have : Real.exp (-(alpha * (rects.map (density eps softness offset o d)).sum)) ≤ Real.exp (-(alpha * sigmoid (softness * δ) ^ 5)) := by
    rw [Real.exp_le_exp]
    have := mul_le_mul_of_nonneg_left (le_trans hdens hsum) hα
    linarith
  linarith

/-- C15, the geometry: a ray that misses every rectangle by the margin `δ` (it meets the plane outside of the rectangle, or before the
offset) is blocked at most to the stated degree. -/
theorem C15_miss_passes (eps softness alpha offset δ : ℝ) (heps : 0 < eps) (hs : 0 ≤ softness) (hα : 0 ≤ alpha)
    (o d : V3 ℝ) (rects : List Rect)
    (hmiss : ∀ r ∈ rects, V3.dot r.spanU r.normal = 0 ∧ V3.dot r.spanV r.normal = 0 ∧ eps ≤ |V3.dot d r.normal| ∧ eps ≤ gram r ∧
      ∃ t u v, o + t • d = r.corner + u • r.spanU + v • r.spanV ∧
        (u ≤ -δ ∨ 1 + δ ≤ u ∨ v ≤ -δ ∨ 1 + δ ≤ v ∨ t ≤ offset - δ)) (m : ℝ)
    (h : softMask eps softness alpha offset o d rects = some m) :
    m ≤ 1 - Real.exp (-(alpha * (rects.length * sigmoid (-(softness * δ))))) := by
  rw [softMask_eq] at h
  split_ifs at h with hd
  rw [Option.some.injEq] at h
  subst h
  have hsum : (rects.map (density eps softness offset o d)).sum ≤ rects.length * sigmoid (-(softness * δ)) := by
    have key : ∀ x ∈ rects.map (density eps softness offset o d), x ≤ sigmoid (-(softness * δ)) := by
      intro x hx
      rw [List.mem_map] at hx
      obtain ⟨r, hr, rfl⟩ := hx
      obtain ⟨hU, hV, hden, hdet, t, u, v, hp, hcase⟩ := hmiss r hr
      obtain ⟨h1, h2⟩ := computed_intersection eps heps o d r t u v hU hV hden hdet hp
      have hb := (density_bounds eps softness offset o d r).2
      rw [h1, h2] at hb
      obtain ⟨b1, b2, b3, b4, b5⟩ := hb
      have mono : ∀ z : ℝ, z ≤ -δ → sigmoid (softness * z) ≤ sigmoid (-(softness * δ)) := by
        intro z hz; apply sigmoid_mono; nlinarith
      rcases hcase with hc | hc | hc | hc | hc
      · exact le_trans b1 (mono _ hc)
      · exact le_trans b2 (mono _ (by linarith))
      · exact le_trans b3 (mono _ hc)
      · exact le_trans b4 (mono _ (by linarith))
      · exact le_trans b5 (mono _ (by linarith))
    have := List.sum_le_card_nsmul _ _ key
    rwa [List.length_map, nsmul_eq_mul] at this
  have : Real.exp (-(alpha * (rects.length * sigmoid (-(softness * δ))))) ≤ Real.exp (-(alpha * (rects.map (density eps softness offset o d)).sum)) := by
    rw [Real.exp_le_exp]
    have := mul_le_mul_of_nonneg_left hsum hα
    linarith
  linarith

/-- A unit square facing the ray, and rays through its middle and past it. -/
noncomputable def square : Rect := ⟨⟨0, 10, 0⟩, ⟨0, 0, 1⟩, ⟨1, 0, 0⟩, ⟨0, 1, 0⟩⟩

/-- the hypotheses of `C15_hit_blocks` hold for a ray through the middle of the square: it is blocked by more than one half. -/
example (m : ℝ) (h : softMask (1 / 10 ^ 12) 1000 100 (5 / 100) ⟨1 / 2, 0, 1 / 2⟩ ⟨0, 1, 0⟩ [square] = some m) : 1 / 2 ≤ m := by
  have := C15_hit_blocks (1 / 10 ^ 12) 1000 100 (5 / 100) (1 / 2) (by norm_num) (by norm_num) (by norm_num) ⟨1 / 2, 0, 1 / 2⟩ ⟨0, 1, 0⟩
    [square] square (by simp) 10 (1 / 2) (1 / 2) (by simp [square, V3.dot]) (by simp [square, V3.dot])
    (by simp [square, V3.dot]; norm_num) (by simp [square, V3.dot, gram]; norm_num)
    (by ext <;> simp [square]) (by norm_num) (by norm_num) (by norm_num) m h
  refine le_trans ?_ this
  have h1 : (1 / 2 : ℝ) ≤ sigmoid (1000 * (1 / 2)) := sigmoid_zero.symm.le.trans (sigmoid_mono (by norm_num))
  have h2 : (1 / 2 : ℝ) ^ 5 ≤ sigmoid (1000 * (1 / 2)) ^ 5 := pow_le_pow_left₀ (by norm_num) h1 5
  have h3 : Real.exp (-(100 * sigmoid (1000 * (1 / 2)) ^ 5)) ≤ Real.exp (-1) := by
    rw [Real.exp_le_exp]; norm_num at h2 ⊢; linarith
  have h4 : Real.exp (-1) < 1 / 2 := by
    rw [Real.exp_neg, inv_lt_comm₀ (Real.exp_pos 1) (by norm_num)]
    have := Real.exp_one_gt_d9
    norm_num at this ⊢; linarith
  linarith

/-- the mask of that scene is a number -/
example : ∃ m, softMask (1 / 10 ^ 12) 1000 100 (5 / 100) ⟨1 / 2, 0, 1 / 2⟩ ⟨0, 1, 0⟩ [square] = some m := by
  cases h : softMask (1 / 10 ^ 12) 1000 100 (5 / 100) ⟨1 / 2, 0, 1 / 2⟩ ⟨0, 1, 0⟩ [square] with
  | some m => exact ⟨m, rfl⟩
  | none =>
    rw [C15_nan_iff _ _ _ _ (by norm_num)] at h
    obtain ⟨r, hr, hc⟩ := h
    simp only [List.mem_cons, List.not_mem_nil, or_false] at hr
    subst hr
    have := congrArg V3.n hc
    simp [square, V3.cross] at this

/-- the hypotheses of `C15_miss_passes` hold for a ray one unit beside the square. -/
example (m : ℝ) (h : softMask (1 / 10 ^ 12) 1000 100 (5 / 100) ⟨2, 0, 1 / 2⟩ ⟨0, 1, 0⟩ [square] = some m) :
    m ≤ 1 - Real.exp (-(100 * (([square].length : ℝ) * sigmoid (-(1000 * 1))))) := by
  refine C15_miss_passes (1 / 10 ^ 12) 1000 100 (5 / 100) 1 (by norm_num) (by norm_num) (by norm_num) ⟨2, 0, 1 / 2⟩ ⟨0, 1, 0⟩
    [square] ?_ m h
  intro r hr
  simp only [List.mem_cons, List.not_mem_nil, or_false] at hr
  subst hr
  refine ⟨by simp [square, V3.dot], by simp [square, V3.dot], by simp [square, V3.dot]; norm_num, by simp [square, V3.dot, gram]; norm_num,
    10, 1 / 2, 2, by ext <;> simp [square], ?_⟩
  right; right; right; left; norm_num

/-! ## C54: corner points -/

/-- The position of point `(i, j)` (column `i`, row `j`) of facet `f` in the combined list of surface points of a heliostat with
`m × m` points per facet: facet by facet, column by column. -/
def gridIndex (m f i j : Nat) : Nat := f * m ^ 2 + i * m + j

/-- Facets are ordered upper left, upper right, lower left, lower right: facets 0 and 2 form the left column, 2 and 3 the
lower row. -/
def facetColumn (f : Nat) : Nat := f % 2
/-- larger is further up -/
def facetRow (f : Nat) : Nat := 1 - f / 2

/-- C54: for four facets of `m × m` points the four indices are those of the lower left point of the lower left facet, the upper
left point of the upper left facet, the upper right point of the upper right facet, and the lower right point of the lower right
facet, for every `m`. -/
theorem C54_corner_indices (m : Nat) (hm : 0 < m) :
    cornerIndices (4 * m ^ 2) =
      (gridIndex m 2 0 0, gridIndex m 0 0 (m - 1), gridIndex m 1 (m - 1) (m - 1), gridIndex m 3 (m - 1) 0) := by
  have hsq : Real.sqrt ((4 * m ^ 2 : Nat) / 4 : ℝ) = m := by
    push_cast
    rw [show (4 * (m : ℝ) ^ 2 / 4) = (m : ℝ) ^ 2 by ring, Real.sqrt_sq (Nat.cast_nonneg m)]
  unfold cornerIndices gridIndex
  rw [hsq]
  obtain ⟨k, rfl⟩ : ∃ k, m = k + 1 := ⟨m - 1, by omega⟩
  have e1 : (((4 * (k + 1) ^ 2 : Nat) : ℝ) / 2) = ((2 * (k + 1) ^ 2 + 0 * (k + 1) + 0 : Nat) : ℝ) := by push_cast; ring
  have e2 : ((k + 1 : Nat) : ℝ) - 1 = ((0 * (k + 1) ^ 2 + 0 * (k + 1) + (k + 1 - 1) : Nat) : ℝ) := by push_cast [Nat.add_sub_cancel]; ring
  have e3 : (((4 * (k + 1) ^ 2 : Nat) : ℝ) / 2) - 1 = ((1 * (k + 1) ^ 2 + (k + 1 - 1) * (k + 1) + (k + 1 - 1) : Nat) : ℝ) := by
    push_cast [Nat.add_sub_cancel]; ring
  have e4 : (((4 * (k + 1) ^ 2 : Nat) : ℝ)) - ((k + 1 : Nat) : ℝ) = ((3 * (k + 1) ^ 2 + (k + 1 - 1) * (k + 1) + 0 : Nat) : ℝ) := by
    push_cast [Nat.add_sub_cancel]; ring
  rw [e1, e2, show ((2 * (k + 1) ^ 2 + 0 * (k + 1) + 0 : Nat) : ℝ) - 1 = ((1 * (k + 1) ^ 2 + (k + 1 - 1) * (k + 1) + (k + 1 - 1) : Nat) : ℝ) from by
    rw [← e1, e3], e4]
  simp only [Nat.floor_natCast]

/-- C54: a heliostat whose points get no smaller to the east with the column and no smaller to the north with the row gets a rectangle
spanned by its outermost points: corner 0 is the most south-western point, the first span leads to the most north-western point and
the second to the most south-eastern one. -/
theorem C54_rectangle (m : Nat) (hm : 0 < m) (p : Nat → Nat → Nat → V3 ℝ) (points : List (V3 ℝ))
    (hlen : points.length = 4 * m ^ 2)
    (hp : ∀ f i j : Nat, f < 4 → i < m → j < m → points[gridIndex m f i j]? = some (p f i j))
    (hE : ∀ f i j f' i' j' : Nat, f < 4 → f' < 4 → i < m → i' < m → j < m → j' < m →
      (facetColumn f < facetColumn f' ∨ facetColumn f = facetColumn f' ∧ i ≤ i') → (p f i j).e ≤ (p f' i' j').e)
    (hN : ∀ f i j f' i' j' : Nat, f < 4 → f' < 4 → i < m → i' < m → j < m → j' < m →
      (facetRow f < facetRow f' ∨ facetRow f = facetRow f' ∧ j ≤ j') → (p f i j).n ≤ (p f' i' j').n) :
    ∃ r c0 c1 c3, rectByIndex points = .ok r ∧ r.corner = c0 ∧ r.spanU = c1 - c0 ∧ r.spanV = c3 - c0 ∧
      c0 ∈ points ∧ c1 ∈ points ∧ c3 ∈ points ∧
      ∀ q f i j, f < 4 → i < m → j < m → q = p f i j →
        (c0.e ≤ q.e ∧ c0.n ≤ q.n) ∧ (c1.e ≤ q.e ∧ q.n ≤ c1.n) ∧ (q.e ≤ c3.e ∧ c3.n ≤ q.n) := by
  have h0 := hp 2 0 0 (by omega) hm hm
  have h1 := hp 0 0 (m - 1) (by omega) hm (by omega)
  have h2 := hp 1 (m - 1) (m - 1) (by omega) (by omega) (by omega)
  have h3 := hp 3 (m - 1) 0 (by omega) (by omega) hm
  refine ⟨rectOfCorners (p 2 0 0) (p 0 0 (m - 1)) (p 1 (m - 1) (m - 1)) (p 3 (m - 1) 0), p 2 0 0, p 0 0 (m - 1), p 3 (m - 1) 0, ?_, rfl, rfl, rfl,
    List.mem_of_getElem? h0, List.mem_of_getElem? h1, List.mem_of_getElem? h3, ?_⟩
  · unfold rectByIndex
    rw [hlen, C54_corner_indices m hm]
    simp only [h0, h1, h2, h3]
  · rintro q f i j hf hi hj rfl
    have hc : facetColumn f = 0 ∨ facetColumn f = 1 := by unfold facetColumn; omega
    have hr : facetRow f = 0 ∨ facetRow f = 1 := by unfold facetRow; omega
    have c2 : facetColumn 2 = 0 := rfl
    have c0 : facetColumn 0 = 0 := rfl
    have c3 : facetColumn 3 = 1 := rfl
    have r2 : facetRow 2 = 0 := rfl
    have r0 : facetRow 0 = 1 := rfl
    have r3 : facetRow 3 = 0 := rfl
    refine ⟨⟨hE _ _ _ _ _ _ ?_ ?_ ?_ ?_ ?_ ?_ ?_, hN _ _ _ _ _ _ ?_ ?_ ?_ ?_ ?_ ?_ ?_⟩,
      ⟨hE _ _ _ _ _ _ ?_ ?_ ?_ ?_ ?_ ?_ ?_, hN _ _ _ _ _ _ ?_ ?_ ?_ ?_ ?_ ?_ ?_⟩,
      ⟨hE _ _ _ _ _ _ ?_ ?_ ?_ ?_ ?_ ?_ ?_, hN _ _ _ _ _ _ ?_ ?_ ?_ ?_ ?_ ?_ ?_⟩⟩ <;> omega

/-- C54: the normal of a rectangle is orthogonal to both spans, and has length one if the spans' cross product is not tiny. -/
theorem C54_normal (c0 c1 c2 c3 : V3 ℝ) :
    let r := rectOfCorners c0 c1 c2 c3
    V3.dot r.spanU r.normal = 0 ∧ V3.dot r.spanV r.normal = 0 ∧
      (1 / 10 ^ 12 ≤ Real.sqrt (V3.normSq (V3.cross (c1 - c0) (c3 - c0))) → V3.normSq r.normal = 1) := by
  intro r
  refine ⟨?_, ?_, ?_⟩
  · simp only [r, rectOfCorners, normalize, V3.dot, V3.cross]; ring
  · simp only [r, rectOfCorners, normalize, V3.dot, V3.cross]; ring
  · intro h
    simp only [r, rectOfCorners, normalize]
    generalize hw : V3.cross (c1 - c0) (c3 - c0) = w at h ⊢
    have hn : V3.dot w w = V3.normSq w := rfl
    rw [hn, max_eq_left h]
    have hpos : 0 < Real.sqrt (V3.normSq w) := lt_of_lt_of_le (by norm_num) h
    have hs : Real.sqrt (V3.normSq w) ^ 2 = V3.normSq w := Real.sq_sqrt (le_of_lt (Real.sqrt_pos.1 hpos))
    have hne := hpos.ne'
    generalize Real.sqrt (V3.normSq w) = l at *
    simp only [V3.normSq, V3.dot] at *
    field_simp
    linarith

/-- C54, limit: the indices assume as many points along the width of a facet as along its height.  For four facets of `8 × 2`
points the "upper left" corner used is point `(1, 1)` of the facet (index 3 instead of 1), which is not its corner `(0, 1)`. -/
theorem C54_rectangular_grid_fails :
    (cornerIndices (4 * (8 * 2))).2.1 = 3 ∧ (0 * (8 * 2) + 1 * 2 + 1 = 3) ∧ (0 * (8 * 2) + 0 * 2 + (2 - 1) ≠ 3) := by
  refine ⟨?_, by norm_num, by norm_num⟩
  unfold cornerIndices
  simp only
  have : Real.sqrt (((4 * (8 * 2) : Nat) : ℝ) / 4) = 4 := by
    rw [show (((4 * (8 * 2) : Nat) : ℝ) / 4) = 4 ^ 2 by norm_num]
    exact Real.sqrt_sq (by norm_num)
  rw [this, show ((4 : ℝ) - 1) = ((3 : Nat) : ℝ) by norm_num, Nat.floor_natCast]

/-- a heliostat of four facets with `2 × 2` points each meets the hypotheses of `C54_rectangle` -/
def smallHeliostat (f i j : Nat) : V3 ℝ := ⟨(2 * facetColumn f + i : Nat), (2 * facetRow f + j : Nat), 0⟩

example : ∃ r, rectByIndex ((List.range 16).map (fun k => smallHeliostat (k / 4) (k % 4 / 2) (k % 2))) = .ok r := by
  obtain ⟨r, _, _, _, h, _⟩ :=
  C54_rectangle 2 (by norm_num) smallHeliostat ((List.range 16).map (fun k => smallHeliostat (k / 4) (k % 4 / 2) (k % 2))) (by simp)
    (by
      intro f i j hf hi hj
      have h : gridIndex 2 f i j = f * 4 + i * 2 + j := by unfold gridIndex; ring
      rw [h, List.getElem?_map, List.getElem?_range (by omega)]
      simp only [Option.map_some]
      rw [show (f * 4 + i * 2 + j) / 4 = f by omega, show (f * 4 + i * 2 + j) % 4 / 2 = i by omega, show (f * 4 + i * 2 + j) % 2 = j by omega])
    (by intro f i j f' i' j' _ _ _ _ _ _ h; simp only [smallHeliostat, Nat.cast_le]; omega)
    (by intro f i j f' i' j' _ _ _ _ _ _ h; simp only [smallHeliostat, Nat.cast_le]; omega)
  exact ⟨r, h⟩

/-- `argminAux` finds a smallest value. -/
theorem argminAux_spec (f : V3 ℝ → ℝ) (all : List (V3 ℝ)) : ∀ (l : List (V3 ℝ)) (i : Nat) (best : Nat × ℝ), all.drop i = l →
    (∃ p, all[best.1]? = some p ∧ f p = best.2) → (∀ k p, k < i → all[k]? = some p → best.2 ≤ f p) →
    ∃ p, all[argminAux f l i best]? = some p ∧ ∀ q ∈ all, f p ≤ f q := by
  intro l
  induction l with
  | nil =>
    intro i best hd ⟨p, h1, h2⟩ h3
    refine ⟨p, h1, ?_⟩
    intro q hq
    obtain ⟨k, hk⟩ := List.mem_iff_getElem?.1 hq
    have hi : all.length ≤ i := List.drop_eq_nil_iff.1 hd
    rw [h2]
    refine h3 k q ?_ hk
    have := (List.getElem?_eq_some_iff.1 hk).1
    omega
  | cons a l ih =>
    intro i best hd hbest hall
    have hget : all[i]? = some a := by
      have := congrArg (fun x => x[0]?) hd
      simpa using this
    have hd' : all.drop (i + 1) = l := by
      have := congrArg List.tail hd
      simpa using this
    unfold argminAux
    apply ih (i + 1) _ hd'
    · split_ifs
      · exact ⟨a, hget, rfl⟩
      · exact hbest
    · intro k p hk hkp
      by_cases hki : k = i
      · subst hki
        rw [hget, Option.some.injEq] at hkp
        subst hkp
        split_ifs with h
        · exact le_refl _
        · exact not_lt.1 h
      · have := hall k p (by omega) hkp
        split_ifs with h
        · exact le_trans h.le this
        · exact this

theorem foldl_min_spec (f : V3 ℝ → ℝ) : ∀ (l : List (V3 ℝ)) (a : ℝ),
    (∀ q ∈ l, l.foldl (fun a q => min a (f q)) a ≤ f q) ∧ l.foldl (fun a q => min a (f q)) a ≤ a ∧
      (l.foldl (fun a q => min a (f q)) a = a ∨ ∃ q ∈ l, f q = l.foldl (fun a q => min a (f q)) a) := by
  intro l
  induction l with
  | nil => intro a; simp
  | cons x l ih =>
    intro a
    obtain ⟨h1, h2, h3⟩ := ih (min a (f x))
    simp only [List.foldl_cons]
    refine ⟨?_, le_trans h2 (min_le_left _ _), ?_⟩
    · intro q hq
      rcases List.mem_cons.1 hq with rfl | hq
      · exact le_trans h2 (min_le_right _ _)
      · exact h1 q hq
    · rcases h3 with h3 | ⟨q, hq, h3⟩
      · rcases min_choice a (f x) with h | h
        · left; rw [h3, h]
        · right; exact ⟨x, List.mem_cons_self, by rw [h3, h]⟩
      · right; exact ⟨q, List.mem_cons_of_mem _ hq, h3⟩

theorem foldl_max_spec (f : V3 ℝ → ℝ) : ∀ (l : List (V3 ℝ)) (a : ℝ),
    (∀ q ∈ l, f q ≤ l.foldl (fun a q => max a (f q)) a) ∧ a ≤ l.foldl (fun a q => max a (f q)) a ∧
      (l.foldl (fun a q => max a (f q)) a = a ∨ ∃ q ∈ l, f q = l.foldl (fun a q => max a (f q)) a) := by
  intro l
  induction l with
  | nil => intro a; simp
  | cons x l ih =>
    intro a
    obtain ⟨h1, h2, h3⟩ := ih (max a (f x))
    simp only [List.foldl_cons]
    refine ⟨?_, le_trans (le_max_left _ _) h2, ?_⟩
    · intro q hq
      rcases List.mem_cons.1 hq with rfl | hq
      · exact le_trans (le_max_right _ _) h2
      · exact h1 q hq
    · rcases h3 with h3 | ⟨q, hq, h3⟩
      · rcases max_choice a (f x) with h | h
        · left; rw [h3, h]
        · right; exact ⟨x, List.mem_cons_self, by rw [h3, h]⟩
      · right; exact ⟨q, List.mem_cons_of_mem _ hq, h3⟩

theorem minOf_spec (f : V3 ℝ → ℝ) (l : List (V3 ℝ)) (hne : l ≠ []) : IsLeast {x | ∃ q ∈ l, f q = x} (minOf f l) := by
  obtain ⟨a, l, rfl⟩ := List.exists_cons_of_ne_nil hne
  obtain ⟨h1, h2, h3⟩ := foldl_min_spec f l (f a)
  refine ⟨?_, ?_⟩
  · rcases h3 with h3 | ⟨q, hq, h3⟩
    · exact ⟨a, List.mem_cons_self, h3.symm⟩
    · exact ⟨q, List.mem_cons_of_mem _ hq, h3⟩
  · rintro x ⟨q, hq, rfl⟩
    rcases List.mem_cons.1 hq with rfl | hq
    · exact h2
    · exact h1 q hq

theorem maxOf_spec (f : V3 ℝ → ℝ) (l : List (V3 ℝ)) (hne : l ≠ []) : IsGreatest {x | ∃ q ∈ l, f q = x} (maxOf f l) := by
  obtain ⟨a, l, rfl⟩ := List.exists_cons_of_ne_nil hne
  obtain ⟨h1, h2, h3⟩ := foldl_max_spec f l (f a)
  refine ⟨?_, ?_⟩
  · rcases h3 with h3 | ⟨q, hq, h3⟩
    · exact ⟨a, List.mem_cons_self, h3.symm⟩
    · exact ⟨q, List.mem_cons_of_mem _ hq, h3⟩
  · rintro x ⟨q, hq, rfl⟩
    rcases List.mem_cons.1 hq with rfl | hq
    · exact h2
    · exact h1 q hq

/-- `closestIndex` finds a closest point. -/
theorem closestIndex_spec (points : List (V3 ℝ)) (hne : points ≠ []) (e n : ℝ) :
    ∃ p, points[closestIndex points e n]? = some p ∧
      (∀ q ∈ points, (p.e - e) ^ 2 + (p.n - n) ^ 2 ≤ (q.e - e) ^ 2 + (q.n - n) ^ 2) ∧
      ((∃ q ∈ points, q.e = e ∧ q.n = n) → p.e = e ∧ p.n = n) := by
  obtain ⟨a, l, rfl⟩ := List.exists_cons_of_ne_nil hne
  obtain ⟨p, h1, h2⟩ := argminAux_spec (fun q : V3 ℝ => (q.e - e) ^ 2 + (q.n - n) ^ 2) (a :: l) l 1 (0, (a.e - e) ^ 2 + (a.n - n) ^ 2) rfl
    ⟨a, rfl, rfl⟩ (by
      intro k p hk hp
      have : k = 0 := by omega
      subst this
      simp at hp; subst hp; exact le_refl _)
  refine ⟨p, h1, h2, ?_⟩
  rintro ⟨q, hq, he, hn⟩
  have := h2 q hq
  simp only [he, hn, sub_self] at this
  have a1 := sq_nonneg (p.e - e)
  have a2 := sq_nonneg (p.n - n)
  have b1 : (p.e - e) ^ 2 = 0 := by nlinarith
  have b2 : (p.n - n) ^ 2 = 0 := by nlinarith
  exact ⟨by linarith [pow_eq_zero_iff (two_ne_zero) |>.1 b1], by linarith [pow_eq_zero_iff (two_ne_zero) |>.1 b2]⟩

/-- Is `i` the index of a point that is closest, in the east-north plane, to `(e, n)`, and at exactly this position if some point is? -/
def ClosestTo (points : List (V3 ℝ)) (e n : ℝ) (i : Nat) : Prop :=
  ∃ p, points[i]? = some p ∧ (∀ q ∈ points, (p.e - e) ^ 2 + (p.n - n) ^ 2 ≤ (q.e - e) ^ 2 + (q.n - n) ^ 2) ∧
    ((∃ q ∈ points, q.e = e ∧ q.n = n) → p.e = e ∧ p.n = n)

/-- C54, the variant that works with the bounding rectangle: for every non-empty surface the rectangle is spanned by three aligned
points whose unaligned counterparts are closest to the corners (west, south), (west, north) and (east, south) of the bounding
rectangle of the unaligned points. -/
theorem C54_bounding_rectangle (points active : List (V3 ℝ)) (hne : points ≠ []) (hlen : active.length = points.length) :
    ∃ r west east south north i0 i1 i3 c0 c1 c3, rectByBounds points active = .ok r ∧
      IsLeast {x | ∃ q ∈ points, q.e = x} west ∧ IsGreatest {x | ∃ q ∈ points, q.e = x} east ∧
      IsLeast {x | ∃ q ∈ points, q.n = x} south ∧ IsGreatest {x | ∃ q ∈ points, q.n = x} north ∧
      ClosestTo points west south i0 ∧ ClosestTo points west north i1 ∧ ClosestTo points east south i3 ∧
      active[i0]? = some c0 ∧ active[i1]? = some c1 ∧ active[i3]? = some c3 ∧
      r.corner = c0 ∧ r.spanU = c1 - c0 ∧ r.spanV = c3 - c0 := by
  have key : ∀ e n, ∃ c, active[closestIndex points e n]? = some c := by
    intro e n
    obtain ⟨p, hp, _⟩ := closestIndex_spec points hne e n
    have := (List.getElem?_eq_some_iff.1 hp).1
    exact ⟨_, List.getElem?_eq_getElem (by omega)⟩
  obtain ⟨c0, h0⟩ := key (minOf V3.e points) (minOf V3.n points)
  obtain ⟨c1, h1⟩ := key (minOf V3.e points) (maxOf V3.n points)
  obtain ⟨c2, h2⟩ := key (maxOf V3.e points) (maxOf V3.n points)
  obtain ⟨c3, h3⟩ := key (maxOf V3.e points) (minOf V3.n points)
  refine ⟨rectOfCorners c0 c1 c2 c3, _, _, _, _, _, _, _, c0, c1, c3, ?_, minOf_spec V3.e points hne, maxOf_spec V3.e points hne,
    minOf_spec V3.n points hne, maxOf_spec V3.n points hne, closestIndex_spec points hne _ _, closestIndex_spec points hne _ _,
    closestIndex_spec points hne _ _, h0, h1, h3, rfl, rfl, rfl⟩
  unfold rectByBounds boundingCorners
  rw [if_neg (by simpa using hne)]
  simp only [h0, h1, h2, h3]

/-! ## C06: blocking of a ray depends on the other rays of its batch -/

open LBVH in
/-- three heliostats: at the origin, 100 m north (tilted by 45°), and 100 m north-east -/
noncomputable def threeField : List (V3 ℝ × V3 ℝ × V3 ℝ × V3 ℝ) :=
  [(⟨-1, -1, -1⟩, ⟨-1, 1, 1⟩, ⟨1, 1, 1⟩, ⟨1, -1, -1⟩),
   (⟨-1, 99, -1⟩, ⟨-1, 101, 1⟩, ⟨1, 101, 1⟩, ⟨1, 99, -1⟩),
   (⟨99, 99, -1⟩, ⟨99, 101, 1⟩, ⟨101, 101, 1⟩, ⟨101, 99, -1⟩)]

/-- ray of heliostat 0 towards a target 50 m north: heliostat 1 lies behind the target -/
noncomputable def rayA : BRay := ⟨⟨0, 0, 0⟩, ⟨0, 1, 0⟩, 0, 50⟩
/-- ray of heliostat 2 towards the west, through heliostat 1 -/
noncomputable def rayB : BRay := ⟨⟨100, 100, 0⟩, ⟨-1, 0, 0⟩, 2, 500⟩

open LBVH in
theorem threeField_cells : (gridCells threeField).Nodup := by
  unfold gridCells threeField
  simp only [List.map_cons, List.map_nil, Morton.quantised, Morton.extent, centroid, Morton.minOf, Morton.maxOf, List.foldl_cons, List.foldl_nil,
    Morton.quantise]
  norm_num [Morton.truncToInt]

open LBVH in
theorem threeField_boxes : threeField.map cornerBox =
    [⟨⟨-1, -1, -1⟩, ⟨1, 1, 1⟩⟩, ⟨⟨-1, 99, -1⟩, ⟨1, 101, 1⟩⟩, ⟨⟨99, 99, -1⟩, ⟨101, 101, 1⟩⟩] := by
  unfold threeField cornerBox
  simp only [List.map_cons, List.map_nil, V3.map₂]
  norm_num

open LBVH in
theorem hit_iff (ray : BRay) (b : Box ℝ) (hb : b.Proper)
    (he : ray.dir.e + 1 / 10 ^ 12 ≠ 0) (hn : ray.dir.n + 1 / 10 ^ 12 ≠ 0) (hu : ray.dir.u + 1 / 10 ^ 12 ≠ 0) :
    hits ray b = true ↔ (∃ t, b.Contains ⟨ray.origin.e + t * (ray.dir.e + 1 / 10 ^ 12), ray.origin.n + t * (ray.dir.n + 1 / 10 ^ 12),
      ray.origin.u + t * (ray.dir.u + 1 / 10 ^ 12)⟩ ∧ 1 / 10 ^ 6 < t) ∧
    (∃ t, b.Contains ⟨ray.origin.e + t * (ray.dir.e + 1 / 10 ^ 12), ray.origin.n + t * (ray.dir.n + 1 / 10 ^ 12),
      ray.origin.u + t * (ray.dir.u + 1 / 10 ^ 12)⟩ ∧ t ≤ ray.targetDistance) := C14_hit_test ray b hb he hn hu

theorem rayA_owner : rayA.owner = 0 := rfl
theorem rayB_owner : rayB.owner = 2 := rfl

open LBVH in
theorem rayA_misses_1 : hits rayA ⟨⟨-1, 99, -1⟩, ⟨1, 101, 1⟩⟩ = false := by
  rw [Bool.eq_false_iff, ne_eq, hit_iff rayA _ (by unfold Box.Proper; norm_num) (by norm_num [rayA]) (by norm_num [rayA]) (by norm_num [rayA])]
  rintro ⟨-, t, ⟨-, ⟨h1, -⟩, -⟩, h2⟩
  simp only [rayA] at h1 h2
  norm_num at h1
  linarith

open LBVH in
theorem rayA_misses_2 : hits rayA ⟨⟨99, 99, -1⟩, ⟨101, 101, 1⟩⟩ = false := by
  rw [Bool.eq_false_iff, ne_eq, hit_iff rayA _ (by unfold Box.Proper; norm_num) (by norm_num [rayA]) (by norm_num [rayA]) (by norm_num [rayA])]
  rintro ⟨-, t, ⟨⟨h1, -⟩, -, -⟩, h2⟩
  simp only [rayA] at h1 h2
  norm_num at h1
  linarith

open LBVH in
theorem rayB_misses_0 : hits rayB ⟨⟨-1, -1, -1⟩, ⟨1, 1, 1⟩⟩ = false := by
  rw [Bool.eq_false_iff, ne_eq, hit_iff rayB _ (by unfold Box.Proper; norm_num) (by norm_num [rayB]) (by norm_num [rayB]) (by norm_num [rayB])]
  rintro ⟨⟨t, ⟨-, ⟨-, h1⟩, -⟩, h2⟩, -⟩
  simp only [rayB] at h1
  norm_num at h1 h2
  linarith

open LBVH in
theorem rayB_hits_1 : hits rayB ⟨⟨-1, 99, -1⟩, ⟨1, 101, 1⟩⟩ = true := by
  rw [hit_iff rayB _ (by unfold Box.Proper; norm_num) (by norm_num [rayB]) (by norm_num [rayB]) (by norm_num [rayB])]
  have h : Box.Contains (⟨⟨-1, 99, -1⟩, ⟨1, 101, 1⟩⟩ : Box ℝ) ⟨rayB.origin.e + 100 * (rayB.dir.e + 1 / 10 ^ 12), rayB.origin.n + 100 * (rayB.dir.n + 1 / 10 ^ 12),
      rayB.origin.u + 100 * (rayB.dir.u + 1 / 10 ^ 12)⟩ := by
    unfold Box.Contains rayB; norm_num
  exact ⟨⟨100, h, by norm_num⟩, ⟨100, h, by norm_num [rayB]⟩⟩

open LBVH in
theorem brute_alone : bruteForce (threeField.map cornerBox) [rayA] = [] := by
  rw [threeField_boxes]
  unfold bruteForce
  simp [List.range_succ, List.filter_cons, rayA_owner, rayA_misses_1, rayA_misses_2]

open LBVH in
theorem brute_both : bruteForce (threeField.map cornerBox) [rayA, rayB] = [1] := by
  rw [threeField_boxes]
  unfold bruteForce
  simp [List.range_succ, List.filter_cons, rayA_owner, rayB_owner, rayA_misses_1, rayA_misses_2, rayB_misses_0, rayB_hits_1]

/-- the rectangles of the three heliostats -/
noncomputable def threeRects : List Rect := threeField.map (fun c => rectOfCorners c.1 c.2.1 c.2.2.1 c.2.2.2)

open LBVH in
/-- C06 does not hold with blocking switched on: which part of a ray is blocked depends on the other rays traced in the same batch.
Ray A of heliostat 0 goes to a target 50 m away; heliostat 1 stands 50 m behind that target.  Traced alone, the filter finds no
blocking heliostat and ray A is not blocked.  If ray B of another heliostat is in the same batch, which passes through heliostat 1,
the filter returns heliostat 1, and the soft mask, which does not know the distance of the target, blocks more than half of
ray A. -/
theorem C06_blocking_depends_on_batch : ∃ filter : List BRay → List Nat,
    (∀ batch, ∃ F, ∀ fuel, F ≤ fuel → lbvhFilter threeField batch fuel = some (.ok (filter batch))) ∧
    blockedOfBatch filter threeRects [rayA] = [some 0] ∧
    ∃ a b, blockedOfBatch filter threeRects [rayA, rayB] = [some a, b] ∧ 1 / 2 ≤ a := by
  refine ⟨fun batch => bruteForce (threeField.map cornerBox) batch, ?_, ?_, ?_⟩
  · intro batch
    exact C09_exact_upto_five_partial threeField (by simp [threeField]) (noThree_of_nodup threeField_cells) (by simp [threeField]) batch
  · unfold blockedOfBatch
    simp only [brute_alone]
    simp
  · unfold blockedOfBatch
    simp only [brute_both]
    have hsel : [1].filterMap (fun i => threeRects[i]?) = [rectOfCorners ⟨-1, 99, -1⟩ ⟨-1, 101, 1⟩ ⟨1, 101, 1⟩ ⟨1, 99, -1⟩] := by
      simp [threeRects, threeField]
    rw [hsel]
    simp only [List.isEmpty_cons, Bool.false_eq_true, if_false, List.map_cons, List.map_nil]
    generalize hr : rectOfCorners (⟨-1, 99, -1⟩ : V3 ℝ) ⟨-1, 101, 1⟩ ⟨1, 101, 1⟩ ⟨1, 99, -1⟩ = r
    have hnormal : 1 / 10 ≤ |V3.dot rayA.dir r.normal| := by
      subst hr
      simp only [rectOfCorners, normalize, V3.dot, V3.cross, rayA, V3.sub_e, V3.sub_n, V3.sub_u]
      norm_num
      have h32 : Real.sqrt 32 ≤ 6 := by rw [Real.sqrt_le_left (by norm_num)]; norm_num
      have h32' : 1 ≤ Real.sqrt 32 := by rw [Real.one_le_sqrt]; norm_num
      have hm : max (Real.sqrt 32) (1 / 1000000000000) = Real.sqrt 32 := max_eq_left (by linarith)
      rw [hm, abs_of_nonneg (by positivity)]
      rw [le_div_iff₀ (by linarith)]; linarith
    have hperp := C54_normal (⟨-1, 99, -1⟩ : V3 ℝ) ⟨-1, 101, 1⟩ ⟨1, 101, 1⟩ ⟨1, 99, -1⟩
    simp only [hr] at hperp
    have hgram : gram r = 32 := by
      subst hr; simp only [gram, rectOfCorners, V3.dot, V3.sub_e, V3.sub_n, V3.sub_u]; norm_num
    cases hm : softMask (1 / 10 ^ 12) 1000 100 (5 / 100) rayA.origin rayA.dir [r] with
    | none =>
      exfalso
      rw [C15_nan_iff _ _ _ _ (by norm_num)] at hm
      obtain ⟨r', hr', hc⟩ := hm
      simp only [List.mem_cons, List.not_mem_nil, or_false] at hr'
      subst hr'
      rw [gram_eq_cross, hc] at hgram
      simp [V3.dot] at hgram
    | some a =>
      refine ⟨a, _, rfl, ?_⟩
      have := C15_hit_blocks (1 / 10 ^ 12) 1000 100 (5 / 100) (1 / 2) (by norm_num) (by norm_num) (by norm_num) rayA.origin rayA.dir
        [r] r (by simp) 100 (1 / 2) (1 / 2) hperp.1 hperp.2.1 (by norm_num at hnormal ⊢; linarith) (by rw [hgram]; norm_num)
        (by subst hr; ext <;> simp [rectOfCorners, rayA] <;> norm_num) (by norm_num) (by norm_num) (by norm_num) a hm
      refine le_trans ?_ this
      have h1 : (1 / 2 : ℝ) ≤ sigmoid (1000 * (1 / 2)) := sigmoid_zero.symm.le.trans (sigmoid_mono (by norm_num))
      have h2 : (1 / 2 : ℝ) ^ 5 ≤ sigmoid (1000 * (1 / 2)) ^ 5 := pow_le_pow_left₀ (by norm_num) h1 5
      have h3 : Real.exp (-(100 * sigmoid (1000 * (1 / 2)) ^ 5)) ≤ Real.exp (-1) := by
        rw [Real.exp_le_exp]; norm_num at h2 ⊢; linarith
      have h4 : Real.exp (-1) < 1 / 2 := by
        rw [Real.exp_neg, inv_lt_comm₀ (Real.exp_pos 1) (by norm_num)]
        have := Real.exp_one_gt_d9
        norm_num at this ⊢; linarith
      linarith

end Artist.SoftMask
