import Verif.Proofs.Splat
import Mathlib.Algebra.BigOperators.Intervals
import Mathlib.Algebra.Order.BigOperators.Group.List
/-!
# C08: bilinear splatting
-/
namespace Artist.Splat
open Artist Finset
section
variable {K : Type} [Field K] [LinearOrder K] [IsStrictOrderedRing K] [FloorRing K]

/-- C08: splatting never fails on a bitmap with at least one row and column; the image has the requested shape; and every pixel is the
sum over the rays inside the grid of intensity times the tent weights of the horizontal and vertical distance.  Row 0 of the image
is the topmost: up coordinate `r` is row `H - 1 - r`. -/
theorem C08_pixel (W H : Nat) (hW : 0 < W) (hH : 0 < H) (rays : List (Hit K)) (hpos : ∀ h ∈ rays, 0 ≤ h.e ∧ 0 ≤ h.u) :
    ∃ img, splat W H rays = .ok img ∧ img.length = H ∧ (∀ row ∈ img, row.length = W) ∧
      ∀ r c, r < H → c < W → pixel img (H - 1 - r) c =
        (rays.map (fun h => if Inside W H h then h.w * (tent (h.e - (c : K)) * tent (h.u - (r : K))) else 0)).sum := by
  obtain ⟨img, h1, h2, h3, h4⟩ := splat_spec W H hW hH rays
  refine ⟨img, h1, h2, h3, ?_⟩
  intro r c hr hc
  rw [h4 r c hr hc]
  congr 1
  apply List.map_congr_left
  intro h hh
  exact contrib_eq W H r c hc h (hpos h hh).1 (hpos h hh).2

/-- C08: weighted sums over the image: for all weights `a` of the rows (counted from the bottom) and `b` of the columns. -/
theorem weighted (W H : Nat) (hW : 0 < W) (hH : 0 < H) (rays : List (Hit K)) (hpos : ∀ h ∈ rays, 0 ≤ h.e ∧ 0 ≤ h.u)
    (img : List (List K)) (himg : splat W H rays = .ok img) (a b : Nat → K) :
    ∑ r ∈ range H, ∑ c ∈ range W, pixel img (H - 1 - r) c * (a r * b c) =
      (rays.map (fun h => if Inside W H h then
        h.w * ((low h.e * b (long h.e).toNat + high h.e * b ((long h.e).toNat + 1)) *
          (low h.u * a (long h.u).toNat + high h.u * a ((long h.u).toNat + 1))) else 0)).sum := by
  obtain ⟨img', h1, _, _, h4⟩ := C08_pixel W H hW hH rays hpos
  rw [himg, Except.ok.injEq] at h1
  subst h1
  have step : ∑ r ∈ range H, ∑ c ∈ range W, pixel img (H - 1 - r) c * (a r * b c) = ∑ r ∈ range H, ∑ c ∈ range W,
      (rays.map (fun h => if Inside W H h then h.w * (tent (h.e - (c : K)) * tent (h.u - (r : K))) else 0)).sum * (a r * b c) := by
    apply Finset.sum_congr rfl; intro r hr
    apply Finset.sum_congr rfl; intro c hc
    rw [h4 r c (by simpa using hr) (by simpa using hc)]
  rw [step]
  clear step h4 himg hpos
  induction rays with
  | nil => simp
  | cons h rays ih =>
    simp only [List.map_cons, List.sum_cons]
    have hsplit : ∀ (x y : Nat → Nat → K), ∑ r ∈ range H, ∑ c ∈ range W, (x r c + y r c) * (a r * b c) =
        ∑ r ∈ range H, ∑ c ∈ range W, x r c * (a r * b c) + ∑ r ∈ range H, ∑ c ∈ range W, y r c * (a r * b c) := by
      intro x y
      simp only [add_mul, Finset.sum_add_distrib]
    rw [hsplit, ih]
    congr 1
    by_cases hin : Inside W H h
    · simp only [if_pos hin]
      rw [← tent_sum W h.e hin.1.1 hin.1.2 b, ← tent_sum H h.u hin.2.1 hin.2.2 a, Finset.sum_mul_sum, Finset.mul_sum, Finset.sum_comm]
      apply Finset.sum_congr rfl; intro c _
      rw [Finset.mul_sum]
      apply Finset.sum_congr rfl; intro r _
      ring
    · simp [if_neg hin]

theorem low_add_high (x : K) : low x + high x = 1 := by unfold low high; ring

/-- C08: the sum of all pixels is the sum of the intensities of the rays inside the grid. -/
theorem C08_energy (W H : Nat) (hW : 0 < W) (hH : 0 < H) (rays : List (Hit K)) (hpos : ∀ h ∈ rays, 0 ≤ h.e ∧ 0 ≤ h.u)
    (img : List (List K)) (himg : splat W H rays = .ok img) :
    ∑ r ∈ range H, ∑ c ∈ range W, pixel img r c = (rays.map (fun h => if Inside W H h then h.w else 0)).sum := by
  have h := weighted W H hW hH rays hpos img himg (fun _ => 1) (fun _ => 1)
  simp only [mul_one, low_add_high] at h
  rw [← h, ← Finset.sum_range_reflect]

/-- C08: a ray outside the grid changes no pixel. -/
theorem C08_outside (W H : Nat) (hW : 0 < W) (hH : 0 < H) (rays : List (Hit K)) (hpos : ∀ h ∈ rays, 0 ≤ h.e ∧ 0 ≤ h.u)
    (h : Hit K) (he : 0 ≤ h.e) (hu : 0 ≤ h.u) (hout : ¬ Inside W H h) (img img' : List (List K))
    (himg : splat W H rays = .ok img) (himg' : splat W H (h :: rays) = .ok img') (r c : Nat) (hr : r < H) (hc : c < W) :
    pixel img' r c = pixel img r c := by
  obtain ⟨i1, h1, _, _, g1⟩ := C08_pixel W H hW hH rays hpos
  obtain ⟨i2, h2, _, _, g2⟩ := C08_pixel W H hW hH (h :: rays) (by
    intro x hx; rcases List.mem_cons.1 hx with rfl | hx
    · exact ⟨he, hu⟩
    · exact hpos x hx)
  rw [himg, Except.ok.injEq] at h1; subst h1
  rw [himg', Except.ok.injEq] at h2; subst h2
  have e : r = H - 1 - (H - 1 - r) := by omega
  rw [e, g1 _ c (by omega) hc, g2 _ c (by omega) hc, List.map_cons, List.sum_cons, if_neg hout, zero_add]

/-- C08: no pixel is negative if no intensity is. -/
theorem C08_nonneg (W H : Nat) (hW : 0 < W) (hH : 0 < H) (rays : List (Hit K)) (hpos : ∀ h ∈ rays, 0 ≤ h.e ∧ 0 ≤ h.u)
    (hw : ∀ h ∈ rays, 0 ≤ h.w) (img : List (List K)) (himg : splat W H rays = .ok img) (r c : Nat) (hr : r < H) (hc : c < W) :
    0 ≤ pixel img r c := by
  obtain ⟨i1, h1, _, _, g1⟩ := C08_pixel W H hW hH rays hpos
  rw [himg, Except.ok.injEq] at h1; subst h1
  have e : r = H - 1 - (H - 1 - r) := by omega
  rw [e, g1 _ c (by omega) hc]
  apply List.sum_nonneg
  intro x hx
  rw [List.mem_map] at hx
  obtain ⟨h, hh, rfl⟩ := hx
  split_ifs
  · exact mul_nonneg (hw h hh) (mul_nonneg (tent_nonneg _) (tent_nonneg _))
  · exact le_refl _

/-- C08: the image of two sets of rays is the sum of their images (any coordinates, any intensities). -/
theorem C08_additive (W H : Nat) (hW : 0 < W) (hH : 0 < H) (rays₁ rays₂ : List (Hit K)) :
    ∃ img₁ img₂ img, splat W H rays₁ = .ok img₁ ∧ splat W H rays₂ = .ok img₂ ∧ splat W H (rays₁ ++ rays₂) = .ok img ∧
      ∀ r c, r < H → c < W → pixel img r c = pixel img₁ r c + pixel img₂ r c := by
  obtain ⟨i1, h1, _, _, g1⟩ := splat_spec W H hW hH rays₁
  obtain ⟨i2, h2, _, _, g2⟩ := splat_spec W H hW hH rays₂
  obtain ⟨i3, h3, _, _, g3⟩ := splat_spec W H hW hH (rays₁ ++ rays₂)
  refine ⟨i1, i2, i3, h1, h2, h3, ?_⟩
  intro r c hr hc
  have e : r = H - 1 - (H - 1 - r) := by omega
  rw [e, g1 _ c (by omega) hc, g2 _ c (by omega) hc, g3 _ c (by omega) hc, List.map_append, List.sum_append]

/-- C08: the order of the rays does not matter (any coordinates, any intensities). -/
theorem C08_order (W H : Nat) (hW : 0 < W) (hH : 0 < H) (rays₁ rays₂ : List (Hit K)) (hp : rays₁.Perm rays₂) :
    ∃ img₁ img₂, splat W H rays₁ = .ok img₁ ∧ splat W H rays₂ = .ok img₂ ∧
      ∀ r c, r < H → c < W → pixel img₁ r c = pixel img₂ r c := by
  obtain ⟨i1, h1, _, _, g1⟩ := splat_spec W H hW hH rays₁
  obtain ⟨i2, h2, _, _, g2⟩ := splat_spec W H hW hH rays₂
  refine ⟨i1, i2, h1, h2, ?_⟩
  intro r c hr hc
  have e : r = H - 1 - (H - 1 - r) := by omega
  rw [e, g1 _ c (by omega) hc, g2 _ c (by omega) hc, (hp.map _).sum_eq]

/-- C08: first moments.  The intensity-weighted sum of column numbers is the intensity-weighted sum of the east coordinates, and the
intensity-weighted sum of row numbers counted from the bottom is that of the up coordinates. -/
theorem C08_centroid (W H : Nat) (hW : 0 < W) (hH : 0 < H) (rays : List (Hit K)) (hpos : ∀ h ∈ rays, 0 ≤ h.e ∧ 0 ≤ h.u)
    (img : List (List K)) (himg : splat W H rays = .ok img) :
    ∑ r ∈ range H, ∑ c ∈ range W, pixel img r c * (c : K) = (rays.map (fun h => if Inside W H h then h.w * h.e else 0)).sum ∧
    ∑ r ∈ range H, ∑ c ∈ range W, pixel img r c * (((H - 1 - r : Nat)) : K) =
      (rays.map (fun h => if Inside W H h then h.w * h.u else 0)).sum := by
  have key : ∀ x : K, 0 ≤ x → low x * (((long x).toNat : Nat) : K) + high x * ((((long x).toNat + 1 : Nat)) : K) = x := by
    intro x hx
    have hl : 0 ≤ long x := by unfold long; rw [if_pos hx]; exact Int.floor_nonneg.2 hx
    have : (((long x).toNat : Nat) : K) = ((long x : Int) : K) := by
      have h := Int.toNat_of_nonneg hl
      have := congrArg (Int.cast (R := K)) h
      push_cast at this; exact this
    push_cast
    rw [this]; unfold low high; ring
  constructor
  · have h := weighted W H hW hH rays hpos img himg (fun _ => 1) (fun c => (c : K))
    simp only [mul_one, one_mul, low_add_high] at h
    rw [← Finset.sum_range_reflect, h]
    congr 1
    apply List.map_congr_left
    intro x hx
    rw [key x.e (hpos x hx).1]
  · have h := weighted W H hW hH rays hpos img himg (fun r => (r : K)) (fun _ => 1)
    simp only [mul_one, one_mul, low_add_high] at h
    have e : ∑ r ∈ range H, ∑ c ∈ range W, pixel img r c * (((H - 1 - r : Nat)) : K) =
        ∑ r ∈ range H, ∑ c ∈ range W, pixel img (H - 1 - r) c * (r : K) := by
      rw [← Finset.sum_range_reflect]
      apply Finset.sum_congr rfl
      intro r hr
      have : r < H := by simpa using hr
      rw [show H - 1 - (H - 1 - r) = r by omega]
    rw [e, h]
    congr 1
    apply List.map_congr_left
    intro x hx
    rw [key x.u (hpos x hx).2]

/-- C08, the edge: the grid is half open.  A ray exactly on the last column (or the topmost row) of pixel centres, which the intersection code
reports as on target, is dropped. -/
theorem C08_last_column_dropped (W H : Nat) (hW : 0 < W) (hH : 0 < H) (u w : K) (hu : 0 ≤ u) :
    ∃ img, splat W H [⟨(W : K) - 1, u, w⟩] = .ok img ∧ ∀ r c, r < H → c < W → pixel img r c = 0 := by
  have hW' : (0 : K) ≤ (W : K) - 1 := by
    have : (1 : K) ≤ (W : K) := by exact_mod_cast hW
    linarith
  obtain ⟨i1, h1, _, _, g1⟩ := C08_pixel W H hW hH [⟨(W : K) - 1, u, w⟩] (by
    intro h hh; simp only [List.mem_cons, List.not_mem_nil, or_false] at hh; subst hh; exact ⟨hW', hu⟩)
  refine ⟨i1, h1, ?_⟩
  intro r c hr hc
  have e : r = H - 1 - (H - 1 - r) := by omega
  rw [e, g1 _ c (by omega) hc]
  simp [Inside]

end

/-- C08 needs non-negative coordinates: truncation toward zero counts a ray at `-1/2`, outside of the bitmap, as on target and
gives one pixel a negative flux.  (The intersection functions only deliver non-negative coordinates.) -/
theorem C08_negative_coordinate :
    splat 2 2 [(⟨-1 / 2, 0, 1⟩ : Hit ℚ)] = .ok [[0, 0], [3 / 2, -1 / 2]] ∧ ¬ Inside 2 2 (⟨-1 / 2, 0, 1⟩ : Hit ℚ) := by
  constructor <;> decide +kernel

/-- three rays, two of them inside a 3 × 4 bitmap, that meet the hypotheses of the theorems above -/
example : (∀ h ∈ [(⟨1 / 2, 5 / 4, 2⟩ : Hit ℚ), ⟨2, 1, 7⟩, ⟨0, 0, 3⟩], 0 ≤ h.e ∧ 0 ≤ h.u) ∧
    Inside 3 4 (⟨1 / 2, 5 / 4, 2⟩ : Hit ℚ) ∧ ¬ Inside 3 4 (⟨2, 1, 7⟩ : Hit ℚ) ∧
    splat 3 4 [(⟨1 / 2, 5 / 4, 2⟩ : Hit ℚ), ⟨2, 1, 7⟩, ⟨0, 0, 3⟩] =
      .ok [[0, 0, 0], [1 / 4, 1 / 4, 0], [3 / 4, 3 / 4, 0], [3, 0, 0]] := by
  refine ⟨?_, ?_, ?_, ?_⟩ <;> decide +kernel

end Artist.Splat
