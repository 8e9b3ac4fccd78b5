import Verif.Proofs.Crop
import Mathlib.Data.Rat.Floor
/-!
# C64: cropping shows the requested window around the centre of brightness
-/
namespace Artist.Crop
open Artist Finset Bitmap
variable {K : Type} [Field K] [LinearOrder K] [IsStrictOrderedRing K]

/-- Column and row of the centre of brightness used for cropping: the centre of mass with `eps` of extra brightness put in the middle of
the image. -/
def brightnessCenter (eps : K) (W H : Nat) (img : Nat → Nat → K) : K × K :=
  let total := ∑ r ∈ range H, ∑ c ∈ range W, img r c
  ((∑ r ∈ range H, ∑ c ∈ range W, (c : K) * img r c + eps * (((W : K) - 1) / 2)) / (total + eps),
   (∑ r ∈ range H, ∑ c ∈ range W, (r : K) * img r c + eps * (((H : K) - 1) / 2)) / (total + eps))

theorem linspace_eq {n k : Nat} (hn : 2 ≤ n) : Nurbs.linspace (-1 : K) 1 n k = 2 * k / ((n : K) - 1) - 1 := by
  unfold Nurbs.linspace
  rw [Nat.cast_sub (by omega)]
  push_cast
  ring

theorem toPixel_center {eps : K} {n W H : Nat} {img f : Nat → Nat → K} (hn : 2 ≤ n)
    (ht : (∑ r ∈ range H, ∑ c ∈ range W, img r c) + eps ≠ 0) (s : K) :
    toPixel n (s + ∑ r ∈ range H, ∑ c ∈ range W, (2 * f r c / ((n : K) - 1) - 1) *
        (img r c / ((∑ r ∈ range H, ∑ c ∈ range W, img r c) + eps))) =
      (∑ r ∈ range H, ∑ c ∈ range W, f r c * img r c + eps * (((n : K) - 1) / 2)) /
        ((∑ r ∈ range H, ∑ c ∈ range W, img r c) + eps) + s * (((n : K) - 1) / 2) := by
  have hn1 : (n : K) - 1 ≠ 0 := by
    have : (2 : K) ≤ n := by exact_mod_cast hn
    intro h; linarith
  set T := ∑ r ∈ range H, ∑ c ∈ range W, img r c with hT
  have e : ∑ r ∈ range H, ∑ c ∈ range W, (2 * f r c / ((n : K) - 1) - 1) * (img r c / (T + eps)) =
      (2 / ((n : K) - 1) * ∑ r ∈ range H, ∑ c ∈ range W, f r c * img r c - T) / (T + eps) := by
    rw [hT, Finset.mul_sum, ← Finset.sum_sub_distrib, Finset.sum_div]
    apply Finset.sum_congr rfl; intro r _
    rw [Finset.mul_sum, ← Finset.sum_sub_distrib, Finset.sum_div]
    apply Finset.sum_congr rfl; intro c _
    ring
  rw [e]
  unfold toPixel
  rw [Nat.cast_sub (by omega : 1 ≤ n), Nat.cast_one]
  field_simp
  ring

/-- Every pixel of the cropped image is the brightness of the original image at the place that lies as many crop pixels from the centre
of brightness as the pixel lies from the middle of the cropped image; a crop pixel is `crop size / target size` original pixels wide. -/
theorem C64_window [FloorRing K] (eps epsSize : K) (W H : Nat) (hW : 2 ≤ W) (hH : 2 ≤ H) (img : Nat → Nat → K) (size : K × K)
    (cropWidth cropHeight : K) (hw : epsSize ≤ size.1) (hh : epsSize ≤ size.2)
    (bright : (∑ r ∈ range H, ∑ c ∈ range W, img r c) + eps ≠ 0) (r c : Nat) :
    crop eps epsSize W H img size cropWidth cropHeight r c =
      interpolate W H img
        ((brightnessCenter eps W H img).1 + ((c : K) - ((W : K) - 1) / 2) * (cropWidth / size.1))
        ((brightnessCenter eps W H img).2 + ((r : K) - ((H : K) - 1) / 2) * (cropHeight / size.2)) := by
  have hW1 : (W : K) - 1 ≠ 0 := by
    have : (2 : K) ≤ W := by exact_mod_cast hW
    intro h; linarith
  have hH1 : (H : K) - 1 ≠ 0 := by
    have : (2 : K) ≤ H := by exact_mod_cast hH
    intro h; linarith
  unfold crop
  simp only [bilinear_eq, center, max_eq_left hw, max_eq_left hh, base, linspace_eq hW, linspace_eq hH,
    if_neg (by omega : ¬ W ≤ 1), if_neg (by omega : ¬ H ≤ 1)]
  congr 1
  · rw [toPixel_center (f := fun _ c => (c : K)) hW bright]
    simp only [brightnessCenter]
    congr 1
    field_simp
  · rw [toPixel_center (f := fun r _ => (r : K)) hH bright]
    simp only [brightnessCenter]
    congr 1
    field_simp

/-- In metres: on a planar target area of the given size, the places sampled for the crop differ from the centre of brightness exactly as
the pixels of an area of the crop size differ from its centre. -/
theorem C64_metres (W H : Nat) (hW : 1 ≤ W) (hH : 1 ≤ H) (p : Intersect.Plane K) (hw : p.width ≠ 0) (hh : p.height ≠ 0)
    (e u cropWidth cropHeight c r : K) :
    toPlane W H p (e + (c - ((W : K) - 1) / 2) * (cropWidth / p.width)) (u + (r - ((H : K) - 1) / 2) * (cropHeight / p.height)) -
      toPlane W H p e u =
    toPlane W H { p with width := cropWidth, height := cropHeight } c r - p.center := by
  have hW0 : (W : K) ≠ 0 := by exact_mod_cast (by omega : W ≠ 0)
  have hH0 : (H : K) ≠ 0 := by exact_mod_cast (by omega : H ≠ 0)
  unfold toPlane
  ext <;> simp
  · field_simp
    ring
  · field_simp
    ring

/-- A non-negative image has a cropped image between zero and the largest pixel. -/
theorem C64_bounds [FloorRing K] (eps epsSize : K) (W H : Nat) (img : Nat → Nat → K) (size : K × K) (cropWidth cropHeight top : K)
    (nonneg : ∀ r c, r < H → c < W → 0 ≤ img r c) (le : ∀ r c, r < H → c < W → img r c ≤ top) (htop : 0 ≤ top) (r c : Nat) :
    0 ≤ crop eps epsSize W H img size cropWidth cropHeight r c ∧ crop eps epsSize W H img size cropWidth cropHeight r c ≤ top := by
  unfold crop
  simp only [bilinear_eq]
  generalize toPixel W (_ : K) = x
  generalize toPixel H (_ : K) = y
  constructor
  · apply Finset.sum_nonneg; intro a ha
    apply Finset.sum_nonneg; intro b hb
    exact mul_nonneg (nonneg a b (by simpa using ha) (by simpa using hb)) (mul_nonneg (tent_nonneg _) (tent_nonneg _))
  · calc interpolate W H img x y
        ≤ ∑ r ∈ range H, ∑ c ∈ range W, top * (tent (x - c) * tent (y - r)) := by
          apply Finset.sum_le_sum; intro a ha
          apply Finset.sum_le_sum; intro b hb
          exact mul_le_mul_of_nonneg_right (le a b (by simpa using ha) (by simpa using hb)) (mul_nonneg (tent_nonneg _) (tent_nonneg _))
      _ = top * ((∑ c ∈ range W, tent (x - c)) * ∑ r ∈ range H, tent (y - r)) := by
          rw [Finset.sum_mul_sum, Finset.sum_comm, Finset.mul_sum]
          apply Finset.sum_congr rfl; intro a _
          rw [Finset.mul_sum]
      _ ≤ top := by
          have a1 := tent_partition W x
          have a2 := tent_partition H y
          have a3 : 0 ≤ ∑ r ∈ range H, tent (y - r) := Finset.sum_nonneg fun _ _ => tent_nonneg _
          have a4 : 0 ≤ ∑ r ∈ range W, tent (x - r) := Finset.sum_nonneg fun _ _ => tent_nonneg _
          exact mul_le_of_le_one_right htop (mul_le_one₀ a1 a3 a2)

/-- The centre of brightness of a non-negative image lies within the image. -/
theorem C64_center_inside (eps : K) (he : 0 < eps) (W H : Nat) (hW : 1 ≤ W) (hH : 1 ≤ H) (img : Nat → Nat → K)
    (nonneg : ∀ r c, r < H → c < W → 0 ≤ img r c) :
    0 ≤ (brightnessCenter eps W H img).1 ∧ (brightnessCenter eps W H img).1 ≤ W - 1 ∧
    0 ≤ (brightnessCenter eps W H img).2 ∧ (brightnessCenter eps W H img).2 ≤ H - 1 := by
  have key : ∀ (f : Nat → Nat → K) (n : Nat), 1 ≤ n → (∀ r c, r < H → c < W → 0 ≤ f r c ∧ f r c ≤ (n : K) - 1) →
      0 ≤ (∑ r ∈ range H, ∑ c ∈ range W, f r c * img r c + eps * (((n : K) - 1) / 2)) /
        ((∑ r ∈ range H, ∑ c ∈ range W, img r c) + eps) ∧
      (∑ r ∈ range H, ∑ c ∈ range W, f r c * img r c + eps * (((n : K) - 1) / 2)) /
        ((∑ r ∈ range H, ∑ c ∈ range W, img r c) + eps) ≤ (n : K) - 1 := by
    intro f n hn hf
    have hn1 : (1 : K) ≤ n := by exact_mod_cast hn
    have t0 : 0 ≤ ∑ r ∈ range H, ∑ c ∈ range W, img r c :=
      Finset.sum_nonneg fun r hr => Finset.sum_nonneg fun c hc => nonneg r c (by simpa using hr) (by simpa using hc)
    have s0 : 0 ≤ ∑ r ∈ range H, ∑ c ∈ range W, f r c * img r c :=
      Finset.sum_nonneg fun r hr => Finset.sum_nonneg fun c hc =>
        mul_nonneg (hf r c (by simpa using hr) (by simpa using hc)).1 (nonneg r c (by simpa using hr) (by simpa using hc))
    have s1 : ∑ r ∈ range H, ∑ c ∈ range W, f r c * img r c ≤ ((n : K) - 1) * ∑ r ∈ range H, ∑ c ∈ range W, img r c := by
      rw [Finset.mul_sum]
      apply Finset.sum_le_sum; intro r hr
      rw [Finset.mul_sum]
      apply Finset.sum_le_sum; intro c hc
      exact mul_le_mul_of_nonneg_right (hf r c (by simpa using hr) (by simpa using hc)).2
        (nonneg r c (by simpa using hr) (by simpa using hc))
    constructor
    · apply div_nonneg
      · have : 0 ≤ eps * (((n : K) - 1) / 2) := mul_nonneg he.le (by linarith)
        linarith
      · linarith
    · rw [div_le_iff₀ (by linarith)]
      have : eps * (((n : K) - 1) / 2) ≤ ((n : K) - 1) * eps := by
        have : 0 ≤ ((n : K) - 1) * eps := mul_nonneg (by linarith) he.le
        linarith
      rw [mul_add]
      linarith
  obtain ⟨a, b⟩ := key (fun _ c => (c : K)) W hW (by
    intro r c _ hc
    refine ⟨Nat.cast_nonneg c, ?_⟩
    have : (c : K) + 1 ≤ W := by exact_mod_cast hc
    linarith)
  obtain ⟨c, d⟩ := key (fun r _ => (r : K)) H hH (by
    intro r c hr _
    refine ⟨Nat.cast_nonneg r, ?_⟩
    have : (r : K) + 1 ≤ H := by exact_mod_cast hr
    linarith)
  exact ⟨a, b, c, d⟩

theorem interpolate_pixel [FloorRing K] (W H : Nat) (img : Nat → Nat → K) {r c : Nat} (hr : r < H) (hc : c < W) :
    interpolate W H img (c : K) (r : K) = img r c := by
  rw [← bilinear_eq]
  unfold bilinear pixel
  simp [hr, hc]

/-- Cropping an image whose centre of brightness is in the middle to the full size of the target area changes nothing. -/
theorem C64_identity [FloorRing K] (eps epsSize : K) (W H : Nat) (hW : 2 ≤ W) (hH : 2 ≤ H) (img : Nat → Nat → K) (size : K × K)
    (h0 : 0 < epsSize) (hw : epsSize ≤ size.1) (hh : epsSize ≤ size.2)
    (bright : (∑ r ∈ range H, ∑ c ∈ range W, img r c) + eps ≠ 0)
    (middle : brightnessCenter eps W H img = (((W : K) - 1) / 2, ((H : K) - 1) / 2)) (r c : Nat) (hr : r < H) (hc : c < W) :
    crop eps epsSize W H img size size.1 size.2 r c = img r c := by
  rw [C64_window eps epsSize W H hW hH img size _ _ hw hh bright, middle, div_self (by linarith), div_self (by linarith)]
  simp only [mul_one, add_sub_cancel]
  exact interpolate_pixel W H img hr hc

/-- The size used belongs to the target area the index refers to: planar areas first, then the cylindrical ones with their arc length. -/
theorem C64_size (planar : List (K × K)) (cylinders : List (K × K × K)) :
    (∀ (i : Nat) (d : K × K), planar[i]? = some d → targetSize planar cylinders i = .ok d) ∧
    (∀ (i : Nat) (radius opening height : K), cylinders[i]? = some (radius, opening, height) →
      targetSize planar cylinders (planar.length + i) = .ok (radius * opening, height)) ∧
    (∀ i, planar.length + cylinders.length ≤ i → targetSize planar cylinders i = .error .indexError) := by
  refine ⟨?_, ?_, ?_⟩
  · intro i d h
    have := (List.getElem?_eq_some_iff.1 h).1
    unfold targetSize
    rw [if_pos this, h]
  · intro i a b c h
    simp [targetSize, h]
  · intro i h
    have : cylinders[i - planar.length]? = none := List.getElem?_eq_none_iff.2 (by omega)
    unfold targetSize
    rw [if_neg (by omega), this]

/-- a spot of two pixels -/
def spot : Nat → Nat → ℚ := fun r c => if r = 1 ∧ (c = 2 ∨ c = 3) then 2 else 0

/-- A 5 × 4 image with a spot, cropped from eight by six to two by two metres: the hypotheses hold, the centre of brightness is (almost)
between the two pixels, and the spot fills the middle of the crop. -/
example : (∑ r ∈ range 4, ∑ c ∈ range 5, spot r c) + 1 / 10 ^ 8 ≠ 0 ∧ |(brightnessCenter (1 / 10 ^ 8) 5 4 spot).1 - 5 / 2| < 1 / 10 ^ 8 ∧
    (∀ r c, r < 4 → c < 5 → 0 ≤ spot r c) ∧ (∀ r c, r < 4 → c < 5 → spot r c ≤ 2) ∧
    19 / 10 < crop (1 / 10 ^ 8) (1 / 10 ^ 8) 5 4 spot (8, 6) 2 (1 / 2) 1 2 := by
  refine ⟨by decide +kernel, by decide +kernel, ?_, ?_, by decide +kernel⟩
  · intro r c _ _; unfold spot; split <;> norm_num
  · intro r c _ _; unfold spot; split <;> norm_num

/-- A centred image meets the hypotheses of `C64_identity`. -/
example : brightnessCenter (1 / 10 ^ 8 : ℚ) 3 3 (fun r c => if r = 1 ∧ c = 1 then 5 else 1) = ((((3 : Nat) : ℚ) - 1) / 2, (((3 : Nat) : ℚ) - 1) / 2) := by
  decide +kernel

/-- Two planar and one cylindrical target area. -/
example : targetSize [((6 : ℚ), 7), (5, 4)] [(4, 1, 3)] 1 = .ok (5, 4) ∧ targetSize [((6 : ℚ), 7), (5, 4)] [(4, 1, 3)] 2 = .ok (4, 3) := by
  decide +kernel

end Artist.Crop
