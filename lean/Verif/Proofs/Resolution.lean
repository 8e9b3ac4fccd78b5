import Verif.Spec.Resolution
import Verif.Props.Bitmap
import Mathlib.Topology.Algebra.Monoid
import Mathlib.Topology.MetricSpace.Basic
import Mathlib.Tactic.Linarith
import Mathlib.Tactic.Ring
import Mathlib.Tactic.FieldSimp
/-! Helper lemmas for C120. -/
namespace Artist.Resolution
open Artist Intersect Flux Splat Bitmap
noncomputable section

/-- The share of pixel values `F` (row from the top, column) that a ray at pixel coordinates `e`, `u` sees. -/
def share (W H : Nat) (e u : ℝ) (F : Nat → Nat → ℝ) : ℝ :=
  ∑ r ∈ Finset.range H, ∑ c ∈ Finset.range W, tent (e - (c : ℝ)) * tent (u - (r : ℝ)) * F (H - 1 - r) c

/-- One coordinate: the two neighbours. -/
theorem neighbours (W : Nat) (x : ℝ) (h0 : 0 ≤ x) (h1 : x < (W : ℝ) - 1) :
    ∃ (k : Nat) (f : ℝ), 0 ≤ f ∧ f < 1 ∧ x = k + f ∧ k + 1 < W ∧
      ∀ F : Nat → ℝ, ∑ c ∈ Finset.range W, tent (x - (c : ℝ)) * F c = (1 - f) * F k + f * F (k + 1) := by
  have hl : long x = ⌊x⌋ := by unfold long; rw [if_pos h0]
  have hf0 : 0 ≤ ⌊x⌋ := Int.floor_nonneg.2 h0
  have hf1 : ⌊x⌋ + 1 < (W : Int) := by
    rw [show (⌊x⌋ + 1 < (W : Int)) ↔ ⌊x⌋ < (W : Int) - 1 by omega, Int.floor_lt]; push_cast; exact h1
  obtain ⟨k, hk⟩ : ∃ k : Nat, ⌊x⌋ = (k : Int) := ⟨⌊x⌋.toNat, by omega⟩
  have hkr : ((⌊x⌋ : Int) : ℝ) = (k : ℝ) := by rw [hk]; simp
  refine ⟨k, high x, ?_, ?_, ?_, by omega, ?_⟩
  · unfold high; rw [hl]; linarith [Int.floor_le x]
  · unfold high; rw [hl]; linarith [Int.lt_floor_add_one x]
  · unfold high; rw [hl, hkr]; ring
  · intro F
    rw [tent_sum W x h0 h1 F, hl, hk]
    have : low x = 1 - high x := by linarith [low_add_high x]
    rw [this]; simp

/-- Both coordinates: the four neighbours.  The row is counted from the top. -/
theorem share_eq (W H : Nat) (e u : ℝ) (he : 0 ≤ e ∧ e < (W : ℝ) - 1) (hu : 0 ≤ u ∧ u < (H : ℝ) - 1) :
    ∃ (k i : Nat) (f h : ℝ), (0 ≤ f ∧ f ≤ 1) ∧ (0 ≤ h ∧ h ≤ 1) ∧ e = k + f ∧ (H : ℝ) - 1 - u = i + h ∧ k + 1 < W ∧ i + 1 < H ∧
      ∀ F : Nat → Nat → ℝ, share W H e u F =
        (1 - h) * ((1 - f) * F i k + f * F i (k + 1)) + h * ((1 - f) * F (i + 1) k + f * F (i + 1) (k + 1)) := by
  obtain ⟨k, f, hf0, hf1, hk, hkW, hF⟩ := neighbours W e he.1 he.2
  obtain ⟨j, g, hg0, hg1, hj, hjH, hG⟩ := neighbours H u hu.1 hu.2
  refine ⟨k, H - 2 - j, f, 1 - g, ⟨hf0, hf1.le⟩, ⟨by linarith, by linarith⟩, hk, ?_, hkW, by omega, ?_⟩
  · have : ((H - 2 - j : Nat) : ℝ) = (H : ℝ) - 2 - j := by
      rw [Nat.cast_sub (by omega), Nat.cast_sub (by omega)]; simp
    rw [this, hj]; ring
  · intro F
    unfold share
    have : ∀ r ∈ Finset.range H, ∑ c ∈ Finset.range W, tent (e - (c : ℝ)) * tent (u - (r : ℝ)) * F (H - 1 - r) c =
        tent (u - (r : ℝ)) * ((1 - f) * F (H - 1 - r) k + f * F (H - 1 - r) (k + 1)) := by
      intro r _
      rw [← hF (fun c => F (H - 1 - r) c), Finset.mul_sum]
      exact Finset.sum_congr rfl fun c _ => by ring
    rw [Finset.sum_congr rfl this, hG (fun r => (1 - f) * F (H - 1 - r) k + f * F (H - 1 - r) (k + 1))]
    rw [show H - 1 - j = H - 2 - j + 1 by omega, show H - 1 - (j + 1) = H - 2 - j by omega]
    ring

theorem meets_eq (p : Plane ℝ) (ray : V3 ℝ × V3 ℝ) (h : V3.dot ray.2 p.normal < 0) : meets p ray = planePoint ray.1 ray.2 p := by
  unfold meets planePoint
  simp only [planeDistance, planeAngle, h, decide_true, if_true]

/-- Where a landing ray is on the bitmap. -/
theorem landing (W H : Nat) (hW : 2 ≤ W) (hH : 2 ≤ H) (m ext refl : ℝ) (p : Plane ℝ) (hw : 0 < p.width) (hh : 0 < p.height)
    (blocked : V3 ℝ × V3 ℝ → ℝ) (ray : V3 ℝ × V3 ℝ) (hl : Lands p ray) :
    let x := hitOf W H m ext refl (.planar p) blocked ray
    Inside W H x ∧ x.w = arriving m ext refl p blocked ray ∧ x.e = column W p (meets p ray).e ∧ (H : ℝ) - 1 - x.u = row H p (meets p ray).u ∧
      |(meets p ray).e - p.center.e| ≤ p.width / 2 ∧ |(meets p ray).u - p.center.u| ≤ p.height / 2 := by
  intro x
  obtain ⟨h1, h2⟩ := inside_iff_lands W H hW hH m ext refl p hw hh blocked ray
  have hin := h1.2 hl
  refine ⟨hin, by rw [show x.w = _ from h2 hl]; unfold arriving; rw [if_pos hl], ?_⟩
  rw [meets_eq p ray hl.1]
  rcases linePlane_spec W H hW hH ray.1 ray.2 m p hw hh with ⟨hf, hon, heq⟩ | ⟨_, heq⟩
  · have hx : x = ⟨((W : ℝ) - 1) * (1 / 2 - ((planePoint ray.1 ray.2 p).e - p.center.e) / p.width),
        ((H : ℝ) - 1) * (1 / 2 + ((planePoint ray.1 ray.2 p).u - p.center.u) / p.height), x.w⟩ := by
      simp only [x, hitOf, land, heq]
    rw [hx]
    refine ⟨rfl, ?_, hon.2.1, hon.2.2⟩
    simp only [row]; ring
  · exfalso
    have : x.e = (W : ℝ) - 1 := by simp only [x, hitOf, land, heq]
    have h3 := hin.1.2
    rw [show (hitOf W H m ext refl (.planar p) blocked ray).e = _ from this] at h3
    exact lt_irrefl _ h3

/-- Sums over the image are sums over the rays. -/
theorem image_sum (W H : Nat) (hW : 2 ≤ W) (hH : 2 ≤ H) (m ext refl : ℝ) (p : Plane ℝ) (hw : 0 < p.width) (hh : 0 < p.height)
    (blocked : V3 ℝ × V3 ℝ → ℝ) (rays : List (V3 ℝ × V3 ℝ)) (bitmap : List (List ℝ)) (factors : ℝ × ℝ × ℝ)
    (htr : traceSample W H m ext refl (.planar p) blocked rays = .ok (bitmap, factors)) (F : Nat → Nat → ℝ) :
    ∑ r ∈ Finset.range H, ∑ c ∈ Finset.range W, pixel bitmap r c * F r c = (rays.map fun ray => arriving m ext refl p blocked ray *
      share W H (column W p (meets p ray).e) ((H : ℝ) - 1 - row H p (meets p ray).u) F).sum := by
  have hpos : ∀ h ∈ rays.map (hitOf W H m ext refl (.planar p) blocked), 0 ≤ h.e ∧ 0 ≤ h.u := by
    intro h hh'
    obtain ⟨ray, hr, rfl⟩ := List.mem_map.1 hh'
    have := C17_coordinates_in_bitmap W H hW hH ray.1 ray.2 m p hw hh
    exact ⟨this.1.1, this.2.1⟩
  obtain ⟨img, hb, -, -, hpix⟩ := C08_pixel W H (by omega) (by omega) _ hpos
  have himg : bitmap = img := by
    unfold traceSample at htr
    simp only [hb, Except.ok.injEq, Prod.mk.injEq] at htr
    exact htr.1.symm
  subst himg
  rw [← Finset.sum_range_reflect]
  have e1 : ∀ r ∈ Finset.range H, ∑ c ∈ Finset.range W, pixel bitmap (H - 1 - r) c * F (H - 1 - r) c =
      ∑ c ∈ Finset.range W, (rays.map fun ray => arriving m ext refl p blocked ray *
        (tent (column W p (meets p ray).e - (c : ℝ)) * tent ((H : ℝ) - 1 - row H p (meets p ray).u - (r : ℝ)) * F (H - 1 - r) c)).sum := by
    intro r hr
    apply Finset.sum_congr rfl; intro c hc
    rw [hpix r c (Finset.mem_range.1 hr) (Finset.mem_range.1 hc), List.map_map, ← List.sum_map_mul_right]
    congr 1
    apply List.map_congr_left
    intro ray _
    simp only [Function.comp]
    by_cases hl : Lands p ray
    · obtain ⟨a1, a2, a3, a4, -⟩ := landing W H hW hH m ext refl p hw hh blocked ray hl
      rw [if_pos a1, a2, a3, show (hitOf W H m ext refl (.planar p) blocked ray).u = (H : ℝ) - 1 - row H p (meets p ray).u by linarith]
      ring
    · rw [if_neg (fun h => hl ((inside_iff_lands W H hW hH m ext refl p hw hh blocked ray).1.1 h))]
      unfold arriving
      rw [if_neg hl]; ring
  rw [Finset.sum_congr rfl e1]
  clear e1 hpix hb htr hpos
  induction rays with
  | nil => simp
  | cons ray rays ih =>
    simp only [List.map_cons, List.sum_cons, Finset.sum_add_distrib]
    rw [ih]
    congr 1
    unfold share
    rw [Finset.mul_sum]
    apply Finset.sum_congr rfl; intro r _
    rw [Finset.mul_sum]

/-- Four neighbours of a landing ray. -/
theorem around (W H : Nat) (hW : 2 ≤ W) (hH : 2 ≤ H) (p : Plane ℝ) (hw : 0 < p.width) (hh : 0 < p.height)
    (ray : V3 ℝ × V3 ℝ) (hl : Lands p ray) :
    ∃ (k i : Nat) (f h : ℝ), (0 ≤ f ∧ f ≤ 1) ∧ (0 ≤ h ∧ h ≤ 1) ∧ column W p (meets p ray).e = k + f ∧ row H p (meets p ray).u = i + h ∧
      ∀ F : Nat → Nat → ℝ, share W H (column W p (meets p ray).e) ((H : ℝ) - 1 - row H p (meets p ray).u) F =
        (1 - h) * ((1 - f) * F i k + f * F i (k + 1)) + h * ((1 - f) * F (i + 1) k + f * F (i + 1) (k + 1)) := by
  obtain ⟨a1, -, a3, a4, -⟩ := landing W H hW hH 1 0 1 p hw hh (fun _ => 0) ray hl
  have a5 : (hitOf W H 1 0 1 (.planar p) (fun _ => 0) ray).u = (H : ℝ) - 1 - row H p (meets p ray).u := by linarith
  unfold Inside at a1
  rw [a3, a5] at a1
  obtain ⟨k, i, f, h, b1, b2, b3, b4, -, -, b7⟩ := share_eq W H _ _ a1.1 a1.2
  exact ⟨k, i, f, h, b1, b2, b3, by linarith, b7⟩

/-- How far the coordinates of the neighbours are from the point where the ray lands, one side of the target. -/
theorem near (N : Nat) (hN : 2 ≤ N) (w x : ℝ) (hw : 0 < w) (hx : |x| ≤ w / 2) (k : Nat) (f : ℝ) (hk : ((N : ℝ) - 1) * (1 / 2 - x / w) = k + f) (g : ℝ) :
    |(1 / 2 - ((k : ℝ) + g + 1 / 2) / (N : ℝ)) * w - x| ≤ w / (2 * (N : ℝ)) + w / (N : ℝ) * |f - g| := by
  have hN' : (0 : ℝ) < (N : ℝ) := by exact_mod_cast (by omega : 0 < N)
  have h1 := half_pixel N (by omega) x w hw hx
  rw [hk] at h1
  have e : (1 / 2 - ((k : ℝ) + g + 1 / 2) / (N : ℝ)) * w - x = ((1 / 2 - ((k : ℝ) + f + 1 / 2) / (N : ℝ)) * w - x) + w / (N : ℝ) * (f - g) := by
    field_simp; ring
  rw [e]
  refine (abs_add_le _ _).trans (add_le_add h1 ?_)
  rw [abs_mul, abs_of_pos (div_pos hw hN')]

/-- A mixture of four numbers. -/
theorem mixture (f h a b c d y e : ℝ) (hf : 0 ≤ f ∧ f ≤ 1) (hh : 0 ≤ h ∧ h ≤ 1) (ha : |a - y| < e) (hb : |b - y| < e) (hc : |c - y| < e) (hd : |d - y| < e) :
    |(1 - h) * ((1 - f) * a + f * b) + h * ((1 - f) * c + f * d) - y| < e := by
  have line : ∀ t u v : ℝ, 0 ≤ t → t ≤ 1 → |u - y| < e → |v - y| < e → |(1 - t) * u + t * v - y| < e := by
    intro t u v h0 h1 hu hv
    rw [abs_lt] at *
    constructor
    · rcases eq_or_lt_of_le h0 with rfl | ht
      · linarith
      · nlinarith [mul_lt_mul_of_pos_left hv.1 ht, mul_le_mul_of_nonneg_left hu.1.le (by linarith : 0 ≤ 1 - t)]
    · rcases eq_or_lt_of_le h0 with rfl | ht
      · linarith
      · nlinarith [mul_lt_mul_of_pos_left hv.2 ht, mul_le_mul_of_nonneg_left hu.2.le (by linarith : 0 ≤ 1 - t)]
  exact line h _ _ hh.1 hh.2 (line f a b hf.1 hf.2 ha hb) (line f c d hf.1 hf.2 hc hd)

/-- A mixture of four numbers, on average. -/
theorem mixture_le (f h a b c d y A B C D : ℝ) (hf : 0 ≤ f ∧ f ≤ 1) (hh : 0 ≤ h ∧ h ≤ 1) (ha : |a - y| ≤ A) (hb : |b - y| ≤ B) (hc : |c - y| ≤ C)
    (hd : |d - y| ≤ D) :
    |(1 - h) * ((1 - f) * a + f * b) + h * ((1 - f) * c + f * d) - y| ≤ (1 - h) * ((1 - f) * A + f * B) + h * ((1 - f) * C + f * D) := by
  have line : ∀ t u v U V : ℝ, 0 ≤ t → t ≤ 1 → |u - y| ≤ U → |v - y| ≤ V → |(1 - t) * u + t * v - y| ≤ (1 - t) * U + t * V := by
    intro t u v U V h0 h1 hu hv
    rw [abs_le] at *
    constructor
    · nlinarith [mul_le_mul_of_nonneg_left hv.1 h0, mul_le_mul_of_nonneg_left hu.1 (by linarith : 0 ≤ 1 - t)]
    · nlinarith [mul_le_mul_of_nonneg_left hv.2 h0, mul_le_mul_of_nonneg_left hu.2 (by linarith : 0 ≤ 1 - t)]
  exact line h _ _ _ _ hh.1 hh.2 (line f a b _ _ hf.1 hf.2 ha hb) (line f c d _ _ hf.1 hf.2 hc hd)

end
end Artist.Resolution
