import Verif.Proofs.PixelLimit
import Verif.Props.Bitmap
/-!
# C75: the limit of the local flux is the configured flux density
-/
namespace Artist.PixelLimit
open Artist Finset Splat

/-- C75, size of the target: the dimensions used for the limit are those of the target area with the given index. -/
theorem C75_dimensions (s : Sizes ℝ) :
    (∀ i w h, s.planar[i]? = some (w, h) → dimensions s i = .ok (w, h)) ∧
    (∀ i r o h, s.cylinders[i]? = some (r, o, h) → dimensions s (s.planar.length + i) = .ok (r * o, h)) ∧
    (∀ i, s.planar.length + s.cylinders.length ≤ i → dimensions s i = .error .indexError) := by
  refine ⟨?_, ?_, ?_⟩
  · intro i w h hi
    obtain ⟨hlt, -⟩ := List.getElem?_eq_some_iff.1 hi
    unfold dimensions
    rw [if_neg (by omega), if_pos hlt, hi]
  · intro i r o h hi
    obtain ⟨hlt, -⟩ := List.getElem?_eq_some_iff.1 hi
    unfold dimensions
    rw [if_neg (by omega), if_neg (by omega), Nat.add_sub_cancel_left, hi]
  · intro i hi
    unfold dimensions
    rw [if_pos hi]

/-- C75: the penalty on the local flux is zero exactly if no pixel exceeds its limit. -/
theorem C75_zero_iff (eps lim : ℝ) (heps : 0 < eps) (hl : 0 ≤ lim) (rho : Aim.Weights ℝ) (hr : 0 < rho.localFlux) (first : Bool) (s : Aim.State ℝ)
    (hs : 0 ≤ s.multipliers.localFlux) (e : Aim.Epoch ℝ) :
    (Aim.epoch eps lim rho first s e).1.localFlux = 0 ↔ ∀ p ∈ e.firstPixel :: e.pixels, p ≤ lim := by
  have hd : 0 < lim + eps := by linarith
  have hm : (Aim.references first s e).multipliers = s.multipliers := by unfold Aim.references; split <;> rfl
  have hterm : ∀ p, 0 ≤ Aim.penalty s.multipliers.localFlux rho.localFlux (Aim.clamp0 (Aim.pixelViolation eps lim p)) ∧
      (Aim.penalty s.multipliers.localFlux rho.localFlux (Aim.clamp0 (Aim.pixelViolation eps lim p)) = 0 ↔ p ≤ lim) := by
    intro p
    have hc : 0 ≤ Aim.clamp0 (Aim.pixelViolation eps lim p) := le_max_right _ _
    have hz : Aim.clamp0 (Aim.pixelViolation eps lim p) = 0 ↔ p ≤ lim := by
      unfold Aim.clamp0 Aim.pixelViolation
      rw [max_eq_right_iff, div_le_iff₀ hd, zero_mul, sub_nonpos]
    generalize Aim.clamp0 (Aim.pixelViolation eps lim p) = x at hc hz
    unfold Aim.penalty
    refine ⟨by positivity, ?_⟩
    rw [← hz]
    constructor
    · intro h
      have h1 : 0 ≤ s.multipliers.localFlux * x := mul_nonneg hs hc
      have h2 : 1 / 2 * rho.localFlux * x ^ 2 = 0 := le_antisymm (by linarith) (by positivity)
      have h3 : x ^ 2 = 0 := by
        rcases mul_eq_zero.1 h2 with h | h
        · exact absurd h (by positivity)
        · exact h
      exact pow_eq_zero_iff (by norm_num) |>.1 h3
    · intro h; rw [h]; ring
  unfold Aim.epoch
  simp only [hm]
  constructor
  · intro h p hp
    have hle : ∀ y ∈ Aim.penalty s.multipliers.localFlux rho.localFlux (Aim.clamp0 (Aim.pixelViolation eps lim e.firstPixel)) ::
        (e.pixels.map fun p => Aim.penalty s.multipliers.localFlux rho.localFlux (Aim.clamp0 (Aim.pixelViolation eps lim p))), y ≤ 0 := by
      intro y hy
      rw [← h]
      exact maxOf_mem_le _ _ y hy
    rw [← (hterm p).2]
    refine le_antisymm (hle _ ?_) (hterm p).1
    rcases List.mem_cons.1 hp with rfl | hp
    · exact List.mem_cons_self
    · exact List.mem_cons_of_mem _ (List.mem_map_of_mem hp)
  · intro h
    refine le_antisymm (Aim.maxOf_le _ _ 0 ?_ ?_) (le_trans (hterm e.firstPixel).1 (Aim.maxOf_ge _ _))
    · exact ((hterm _).2.2 (h _ (by simp))).le
    · intro y hy
      obtain ⟨p, hp, rfl⟩ := List.mem_map.1 hy
      exact ((hterm _).2.2 (h _ (List.mem_cons_of_mem _ hp))).le

/-- C75, on average: if no pixel exceeds its limit then the power on the target is at most the configured density times the area of the target. -/
theorem C75_average (d : ℝ × ℝ) (W H : Nat) (hW : 0 < W) (hH : 0 < H) (density : ℝ) (pixel : Nat → Nat → ℝ)
    (h : ∀ r c, r < H → c < W → pixel r c ≤ limit d W H density) :
    ∑ r ∈ range H, ∑ c ∈ range W, pixel r c ≤ density * (d.1 * d.2) := by
  have hW' : (W : ℝ) ≠ 0 := by exact_mod_cast hW.ne'
  have hH' : (H : ℝ) ≠ 0 := by exact_mod_cast hH.ne'
  refine le_trans (sum_le_sum fun r hr => sum_le_sum fun c hc => h r c (mem_range.1 hr) (mem_range.1 hc)) (le_of_eq ?_)
  simp only [sum_const, card_range, nsmul_eq_mul, limit]
  field_simp

/-- Rays of power `q` that hit a target facing north perpendicularly, in a regular grid of `k (W - 1)` by `k (H - 1)` points that covers the whole
target: with growing `k` a uniform irradiation. -/
noncomputable def uniform (W H k : Nat) (p : Intersect.Plane ℝ) (q : ℝ) (x : Nat × Nat) : Bitmap.Ray ℝ :=
  ⟨⟨p.center.e + ((x.1 + 1 / 2) / (k * ((W : ℝ) - 1)) - 1 / 2) * p.width, p.center.n + 1,
    p.center.u + ((x.2 + 1 / 2) / (k * ((H : ℝ) - 1)) - 1 / 2) * p.height⟩, ⟨0, -1, 0⟩, q⟩

/-- All places of the grid. -/
def places (W H k : Nat) : List (Nat × Nat) := (List.range ((W - 1) * k)).flatMap fun i => (List.range ((H - 1) * k)).map fun j => (i, j)

theorem uniform_hit (W H k : Nat) (hW : 2 ≤ W) (hH : 2 ≤ H) (hk : 0 < k) (p : Intersect.Plane ℝ) (hn : p.normal = ⟨0, 1, 0⟩) (hw : 0 < p.width) (hh : 0 < p.height)
    (q : ℝ) (x : Nat × Nat) (h1 : x.1 < (W - 1) * k) (h2 : x.2 < (H - 1) * k) :
    (uniform W H k p q x).hit W H p = ⟨((W : ℝ) - 1) - (x.1 + 1 / 2) / k, (x.2 + 1 / 2) / k, q⟩ := by
  have hk' : (0 : ℝ) < k := by exact_mod_cast hk
  have hW' : (0 : ℝ) < (W : ℝ) - 1 := by
    have : (2 : ℝ) ≤ W := by exact_mod_cast hW
    linarith
  have hH' : (0 : ℝ) < (H : ℝ) - 1 := by
    have : (2 : ℝ) ≤ H := by exact_mod_cast hH
    linarith
  have b1 : ((x.1 : ℝ) + 1 / 2) / k ≤ (W : ℝ) - 1 := by
    rw [div_le_iff₀ hk']
    have : ((x.1 + 1 : Nat) : ℝ) ≤ (((W - 1) * k : Nat) : ℝ) := by exact_mod_cast h1
    push_cast [Nat.cast_sub (show 1 ≤ W by omega)] at this
    linarith
  have b2 : ((x.2 : ℝ) + 1 / 2) / k ≤ (H : ℝ) - 1 := by
    rw [div_le_iff₀ hk']
    have : ((x.2 + 1 : Nat) : ℝ) ≤ (((H - 1) * k : Nat) : ℝ) := by exact_mod_cast h2
    push_cast [Nat.cast_sub (show 1 ≤ H by omega)] at this
    linarith
  have b3 : 0 ≤ ((x.1 : ℝ) + 1 / 2) / k := by positivity
  have b4 : 0 ≤ ((x.2 : ℝ) + 1 / 2) / k := by positivity
  have ang : Intersect.planeAngle (⟨0, -1, 0⟩ : V3 ℝ) p = -1 := by unfold Intersect.planeAngle V3.dot; rw [hn]; norm_num
  have pe : (Intersect.planePoint (uniform W H k p q x).origin ⟨0, -1, 0⟩ p).e = (uniform W H k p q x).origin.e := by
    unfold Intersect.planePoint; simp
  have pu : (Intersect.planePoint (uniform W H k p q x).origin ⟨0, -1, 0⟩ p).u = (uniform W H k p q x).origin.u := by
    unfold Intersect.planePoint; simp
  have be : ((uniform W H k p q x).origin.e + p.width / 2 - p.center.e) / p.width * ((W : ℝ) - 1) = (x.1 + 1 / 2) / k := by
    unfold uniform; dsimp only; field_simp; ring
  have bu : ((uniform W H k p q x).origin.u + p.height / 2 - p.center.u) / p.height * ((H : ℝ) - 1) = (x.2 + 1 / 2) / k := by
    unfold uniform; dsimp only; field_simp; ring
  unfold Bitmap.Ray.hit Intersect.linePlane
  have hdir : (uniform W H k p q x).direction = ⟨0, -1, 0⟩ := rfl
  have hmag : (uniform W H k p q x).magnitude = q := rfl
  simp only [hdir, hmag, pe, pu, be, bu, ang]
  have hv : (decide (0 ≤ ((x.1 : ℝ) + 1 / 2) / k) && decide (((x.1 : ℝ) + 1 / 2) / k ≤ (W : ℝ) - 1) && decide (0 ≤ ((x.2 : ℝ) + 1 / 2) / k) &&
      decide (((x.2 : ℝ) + 1 / 2) / k ≤ (H : ℝ) - 1) && decide ((-1 : ℝ) < 0)) = true := by
    simp only [Bool.and_eq_true, decide_eq_true_eq]
    exact ⟨⟨⟨⟨b3, b1⟩, b4⟩, b2⟩, by norm_num⟩
  simp only [hv, if_true]
  simp

/-- C75, uniform irradiation: an inner pixel receives the power of one cell of the grid of pixel centres, a pixel at an edge half of it, a pixel in a corner
a quarter. -/
theorem C75_uniform (W H k : Nat) (hW : 2 ≤ W) (hH : 2 ≤ H) (hk : 0 < k) (p : Intersect.Plane ℝ) (hn : p.normal = ⟨0, 1, 0⟩) (hw : 0 < p.width) (hh : 0 < p.height)
    (q : ℝ) :
    ∃ img, splat W H ((places W H k).map fun x => (uniform W H k p q x).hit W H p) = .ok img ∧ img.length = H ∧ (∀ row ∈ img, row.length = W) ∧
      ∀ r c, r < H → c < W → pixel img r c = q * (k : ℝ) ^ 2 * (if 0 < r ∧ r + 1 < H then 1 else 1 / 2) * (if 0 < c ∧ c + 1 < W then 1 else 1 / 2) := by
  have hk' : (0 : ℝ) < k := by exact_mod_cast hk
  have hmem : ∀ x ∈ places W H k, x.1 < (W - 1) * k ∧ x.2 < (H - 1) * k := by
    intro x hx
    unfold places at hx
    simp only [List.mem_flatMap, List.mem_map, List.mem_range] at hx
    obtain ⟨i, hi, j, hj, rfl⟩ := hx
    exact ⟨hi, hj⟩
  have hhit : (places W H k).map (fun x => (uniform W H k p q x).hit W H p) =
      (places W H k).map (fun x => (⟨((W : ℝ) - 1) - (x.1 + 1 / 2) / k, (x.2 + 1 / 2) / k, q⟩ : Hit ℝ)) :=
    List.map_congr_left fun x hx => uniform_hit W H k hW hH hk p hn hw hh q x (hmem x hx).1 (hmem x hx).2
  have hcast : ((W - 1 : Nat) : ℝ) = (W : ℝ) - 1 := by push_cast [Nat.cast_sub (show 1 ≤ W by omega)]; ring
  have hcast' : ((H - 1 : Nat) : ℝ) = (H : ℝ) - 1 := by push_cast [Nat.cast_sub (show 1 ≤ H by omega)]; ring
  have bound : ∀ x n : Nat, x < n * k → ((x : ℝ) + 1 / 2) / k < n ∧ 0 < ((x : ℝ) + 1 / 2) / k := by
    intro x n h
    refine ⟨?_, by positivity⟩
    rw [div_lt_iff₀ hk']
    have : ((x + 1 : Nat) : ℝ) ≤ ((n * k : Nat) : ℝ) := by exact_mod_cast h
    push_cast at this
    linarith
  rw [hhit]
  obtain ⟨img, h1, h2, h3, h4⟩ := C08_pixel W H (by omega) (by omega)
    ((places W H k).map (fun x => (⟨((W : ℝ) - 1) - (x.1 + 1 / 2) / k, (x.2 + 1 / 2) / k, q⟩ : Hit ℝ))) (by
      intro h hh
      obtain ⟨x, hx, rfl⟩ := List.mem_map.1 hh
      have a := bound x.1 (W - 1) (hmem x hx).1
      have b := bound x.2 (H - 1) (hmem x hx).2
      rw [hcast] at a
      exact ⟨by dsimp only; linarith, b.2.le⟩)
  refine ⟨img, h1, h2, h3, fun r c hr hc => ?_⟩
  have hr' : r = H - 1 - (H - 1 - r) := by omega
  rw [hr', h4 (H - 1 - r) c (by omega) hc, List.map_map]
  have hsum : ((places W H k).map ((fun h : Hit ℝ => if Inside W H h then h.w * (tent (h.e - (c : ℝ)) * tent (h.u - ((H - 1 - r : Nat) : ℝ))) else 0) ∘
      fun x => (⟨((W : ℝ) - 1) - (x.1 + 1 / 2) / k, (x.2 + 1 / 2) / k, q⟩ : Hit ℝ))).sum =
      ((places W H k).map (fun x => q * (tent (((x.1 : ℝ) + 1 / 2) / k - ((W - 1 - c : Nat) : ℝ)) * tent (((x.2 : ℝ) + 1 / 2) / k - ((H - 1 - r : Nat) : ℝ))))).sum := by
    congr 1
    refine List.map_congr_left fun x hx => ?_
    have a := bound x.1 (W - 1) (hmem x hx).1
    have b := bound x.2 (H - 1) (hmem x hx).2
    rw [hcast] at a
    rw [hcast'] at b
    simp only [Function.comp]
    have hin : Inside W H (⟨((W : ℝ) - 1) - (x.1 + 1 / 2) / k, (x.2 + 1 / 2) / k, q⟩ : Hit ℝ) :=
      ⟨⟨by dsimp only; linarith [a.1], by dsimp only; linarith [a.2]⟩, ⟨b.2.le, b.1⟩⟩
    rw [if_pos hin]
    have : ((W : ℝ) - 1) - ((x.1 : ℝ) + 1 / 2) / k - c = -(((x.1 : ℝ) + 1 / 2) / k - ((W - 1 - c : Nat) : ℝ)) := by
      have : ((W - 1 - c : Nat) : ℝ) = (W : ℝ) - 1 - c := by rw [Nat.cast_sub (by omega), hcast]
      rw [this]; ring
    rw [this, tent_neg]
  rw [hsum]
  unfold places
  rw [sum_flatMap_mul (List.range ((W - 1) * k)) (List.range ((H - 1) * k)) (fun i : Nat => tent (((i : ℝ) + 1 / 2) / k - ((W - 1 - c : Nat) : ℝ)))
    (fun j : Nat => tent (((j : ℝ) + 1 / 2) / k - ((H - 1 - r : Nat) : ℝ))) q]
  have hl : ∀ (n : Nat) (f : Nat → ℝ), ((List.range n).map f).sum = ∑ i ∈ range n, f i := by
    intro n f
    induction n with
    | zero => simp
    | succ n ih => rw [List.range_succ, List.map_append, List.sum_append, ih, sum_range_succ]; simp
  rw [hl, hl, row_sum k hk, row_sum k hk]
  have e1 : ((if W - 1 - c < W - 1 then (k : ℝ) / 2 else 0) + (if 0 < W - 1 - c ∧ W - 1 - c ≤ W - 1 then (k : ℝ) / 2 else 0)) =
      k * (if 0 < c ∧ c + 1 < W then 1 else 1 / 2) := by
    by_cases c0 : 0 < c
    · by_cases c1 : c + 1 < W
      · rw [if_pos (by omega), if_pos (by omega), if_pos ⟨c0, c1⟩]; ring
      · rw [if_pos (by omega), if_neg (by omega), if_neg (by omega)]; ring
    · rw [if_neg (by omega), if_pos (by omega), if_neg (by omega)]; ring
  have e2 : ((if H - 1 - r < H - 1 then (k : ℝ) / 2 else 0) + (if 0 < H - 1 - r ∧ H - 1 - r ≤ H - 1 then (k : ℝ) / 2 else 0)) =
      k * (if 0 < r ∧ r + 1 < H then 1 else 1 / 2) := by
    by_cases c0 : 0 < r
    · by_cases c1 : r + 1 < H
      · rw [if_pos (by omega), if_pos (by omega), if_pos ⟨c0, c1⟩]; ring
      · rw [if_pos (by omega), if_neg (by omega), if_neg (by omega)]; ring
    · rw [if_neg (by omega), if_pos (by omega), if_neg (by omega)]; ring
  rw [e1, e2, ← hr']
  ring

/-- The flux density of the uniform irradiation: power of all rays by area of the target. -/
noncomputable def uniformDensity (W H k : Nat) (p : Intersect.Plane ℝ) (q : ℝ) : ℝ := q * ((places W H k).length : ℝ) / (p.width * p.height)

/-- C75, full statement for uniform irradiation: it is penalised exactly if its density exceeds the configured maximum. -/
def PenalisedAbove (W H k : Nat) (p : Intersect.Plane ℝ) (q density : ℝ) : Prop :=
  ∀ img, splat W H ((places W H k).map fun x => (uniform W H k p q x).hit W H p) = .ok img →
    ((∃ r c, r < H ∧ c < W ∧ limit (p.width, p.height) W H density < pixel img r c) ↔ density < uniformDensity W H k p q)

theorem places_length (W H k : Nat) : (places W H k).length = (W - 1) * k * ((H - 1) * k) := by
  unfold places
  rw [List.length_flatMap]
  simp

/-- C75: uniform irradiation is penalised exactly if its density exceeds `(W - 1) (H - 1) / (W H)` of the configured maximum. -/
theorem C75_uniform_threshold (W H k : Nat) (hW : 3 ≤ W) (hH : 3 ≤ H) (hk : 0 < k) (p : Intersect.Plane ℝ) (hn : p.normal = ⟨0, 1, 0⟩) (hw : 0 < p.width)
    (hh : 0 < p.height) (q density : ℝ) (hq : 0 ≤ q) (img : List (List ℝ))
    (himg : splat W H ((places W H k).map fun x => (uniform W H k p q x).hit W H p) = .ok img) :
    (∃ r c, r < H ∧ c < W ∧ limit (p.width, p.height) W H density < pixel img r c) ↔
      density * ((((W : ℝ) - 1) * ((H : ℝ) - 1)) / (W * H)) < uniformDensity W H k p q := by
  obtain ⟨img', h1, -, -, h4⟩ := C75_uniform W H k (by omega) (by omega) hk p hn hw hh q
  rw [himg, Except.ok.injEq] at h1
  subst h1
  have hk' : (0 : ℝ) < k := by exact_mod_cast hk
  have hW' : (3 : ℝ) ≤ W := by exact_mod_cast hW
  have hH' : (3 : ℝ) ≤ H := by exact_mod_cast hH
  have hcast : ((W - 1 : Nat) : ℝ) = (W : ℝ) - 1 := by push_cast [Nat.cast_sub (show 1 ≤ W by omega)]; ring
  have hcast' : ((H - 1 : Nat) : ℝ) = (H : ℝ) - 1 := by push_cast [Nat.cast_sub (show 1 ≤ H by omega)]; ring
  have hW1 : (0 : ℝ) < (W : ℝ) - 1 := by linarith
  have hH1 : (0 : ℝ) < (H : ℝ) - 1 := by linarith
  have hA : 0 < p.width * p.height := mul_pos hw hh
  have hd : uniformDensity W H k p q = q * (k : ℝ) ^ 2 * (((W : ℝ) - 1) * ((H : ℝ) - 1)) / (p.width * p.height) := by
    unfold uniformDensity
    rw [places_length]; push_cast; rw [hcast, hcast']; ring
  have key : density * ((((W : ℝ) - 1) * ((H : ℝ) - 1)) / (W * H)) < uniformDensity W H k p q ↔
      limit (p.width, p.height) W H density < q * (k : ℝ) ^ 2 := by
    have hc : 0 < ((W : ℝ) - 1) * ((H : ℝ) - 1) / (p.width * p.height) := by positivity
    rw [hd, show q * (k : ℝ) ^ 2 * (((W : ℝ) - 1) * ((H : ℝ) - 1)) / (p.width * p.height) =
      q * (k : ℝ) ^ 2 * (((W : ℝ) - 1) * ((H : ℝ) - 1) / (p.width * p.height)) by ring]
    have : density * ((((W : ℝ) - 1) * ((H : ℝ) - 1)) / (W * H)) =
      limit (p.width, p.height) W H density * (((W : ℝ) - 1) * ((H : ℝ) - 1) / (p.width * p.height)) := by
      unfold limit; field_simp
    rw [this]
    exact mul_lt_mul_iff_left₀ hc
  rw [key]
  constructor
  · rintro ⟨r, c, hr, hc, hlt⟩
    rw [h4 r c hr hc] at hlt
    refine lt_of_lt_of_le hlt ?_
    have hq2 : 0 ≤ q * (k : ℝ) ^ 2 := by positivity
    split <;> split <;> nlinarith
  · intro h
    refine ⟨1, 1, by omega, by omega, ?_⟩
    rw [h4 1 1 (by omega) (by omega), if_pos (by omega), if_pos (by omega)]
    linarith

/-- C75, full statement for uniform irradiation below the threshold or above the maximum.  Missing: densities in between, where it is false
(`C75_too_strict`). -/
theorem C75_uniform_partial (W H k : Nat) (hW : 3 ≤ W) (hH : 3 ≤ H) (hk : 0 < k) (p : Intersect.Plane ℝ) (hn : p.normal = ⟨0, 1, 0⟩) (hw : 0 < p.width)
    (hh : 0 < p.height) (q density : ℝ) (hq : 0 ≤ q) (hd : 0 ≤ density)
    (h : uniformDensity W H k p q ≤ density * ((((W : ℝ) - 1) * ((H : ℝ) - 1)) / (W * H)) ∨ density < uniformDensity W H k p q) :
    PenalisedAbove W H k p q density := by
  intro img himg
  rw [C75_uniform_threshold W H k hW hH hk p hn hw hh q density hq img himg]
  have hW' : (3 : ℝ) ≤ W := by exact_mod_cast hW
  have hH' : (3 : ℝ) ≤ H := by exact_mod_cast hH
  have hle : (((W : ℝ) - 1) * ((H : ℝ) - 1)) / (W * H) ≤ 1 := by
    rw [div_le_one (by positivity)]; nlinarith
  have : density * ((((W : ℝ) - 1) * ((H : ℝ) - 1)) / (W * H)) ≤ density := by nlinarith
  rcases h with h | h
  · exact ⟨fun h' => absurd h' (not_lt.2 h), fun h' => absurd (lt_of_le_of_lt this h') (not_lt.2 h)⟩
  · exact ⟨fun _ => h, fun _ => lt_of_le_of_lt this h⟩

/-- C75, negation: a uniform irradiation at exactly the allowed density is penalised, whatever the (positive) density and size of the target. -/
theorem C75_too_strict (W H k : Nat) (hW : 3 ≤ W) (hH : 3 ≤ H) (hk : 0 < k) (p : Intersect.Plane ℝ) (hn : p.normal = ⟨0, 1, 0⟩) (hw : 0 < p.width)
    (hh : 0 < p.height) (density : ℝ) (hd : 0 < density) :
    ∃ q, 0 < q ∧ uniformDensity W H k p q = density ∧ ¬ PenalisedAbove W H k p q density := by
  have hk' : (0 : ℝ) < k := by exact_mod_cast hk
  have hW' : (3 : ℝ) ≤ W := by exact_mod_cast hW
  have hH' : (3 : ℝ) ≤ H := by exact_mod_cast hH
  have hA : 0 < p.width * p.height := mul_pos hw hh
  have hl : 0 < ((places W H k).length : ℝ) := by
    rw [places_length]
    exact_mod_cast Nat.mul_pos (Nat.mul_pos (by omega) hk) (Nat.mul_pos (by omega) hk)
  refine ⟨density * (p.width * p.height) / (places W H k).length, by positivity, ?_, ?_⟩
  · unfold uniformDensity; field_simp
  · intro hcon
    have hdens : uniformDensity W H k p (density * (p.width * p.height) / (places W H k).length) = density := by
      unfold uniformDensity; field_simp
    obtain ⟨img, himg, -⟩ := C75_uniform W H k (by omega) (by omega) hk p hn hw hh (density * (p.width * p.height) / (places W H k).length)
    have h := hcon img himg
    rw [C75_uniform_threshold W H k hW hH hk p hn hw hh _ density (by positivity) img himg, hdens] at h
    refine absurd (h.1 ?_) (lt_irrefl _)
    have hlt : (((W : ℝ) - 1) * ((H : ℝ) - 1)) / (W * H) < 1 := by
      rw [div_lt_one (by positivity)]; nlinarith
    nlinarith

/-- A target of 4 by 4 metres facing north and a tower with two planar targets and one cylinder meet the hypotheses. -/
example : ∃ p : Intersect.Plane ℝ, p.normal = ⟨0, 1, 0⟩ ∧ 0 < p.width ∧ 0 < p.height := ⟨⟨⟨0, 0, 50⟩, ⟨0, 1, 0⟩, 4, 4⟩, rfl, by norm_num, by norm_num⟩
example : dimensions (⟨[(4, 5), (6, 7)], [(2, 3, 8)]⟩ : Sizes ℝ) 2 = .ok (2 * 3, 8) ∧ dimensions (⟨[(4, 5), (6, 7)], [(2, 3, 8)]⟩ : Sizes ℝ) 1 = .ok (6, 7) :=
  ⟨(C75_dimensions _).2.1 0 2 3 8 rfl, (C75_dimensions _).1 1 6 7 rfl⟩
/-- For 256 by 256 pixels the limit is lower than configured by about 0.8 percent, for 3 by 3 pixels by more than half. -/
example : ((256 : ℝ) - 1) * (256 - 1) / (256 * 256) < 0.993 ∧ ((3 : ℝ) - 1) * (3 - 1) / (3 * 3) < 0.45 := by norm_num
/-- An epoch with one pixel above the limit. -/
example : (Aim.epoch (1 : ℝ) 1 ⟨1, 1, 1⟩ true Aim.initial ⟨0, 0, [3], [1]⟩).1.localFlux ≠ 0 := by
  rw [Ne, C75_zero_iff 1 1 (by norm_num) (by norm_num) ⟨1, 1, 1⟩ (by norm_num) true Aim.initial (by simp [Aim.initial])]
  intro h
  have := h 3 (by simp)
  norm_num at this

end Artist.PixelLimit
