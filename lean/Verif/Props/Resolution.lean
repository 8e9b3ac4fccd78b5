import Verif.Proofs.Resolution
import Mathlib.Tactic.Linarith
import Mathlib.Tactic.Positivity
/-!
# C120: what an image says about the light that made it

For any rays, traced onto a planar target with any resolution of at least two by two pixels, with any blocking.
-/
namespace Artist.Resolution
open Artist Intersect Flux Splat Bitmap Filter Topology

/-! ## Sizes -/

/-- What a ray brings is not negative. -/
theorem arriving_nonneg (m ext refl : ℝ) (hm : 0 ≤ m) (hext : ext ≤ 1) (hrefl : 0 ≤ refl) (p : Plane ℝ) (blocked : V3 ℝ × V3 ℝ → ℝ) (ray : V3 ℝ × V3 ℝ)
    (hb : blocked ray ≤ 1) : 0 ≤ arriving m ext refl p blocked ray := by
  unfold arriving
  split_ifs with h
  · have h1 : 0 ≤ -(V3.dot ray.2 p.normal) := by linarith [h.1]
    have h2 : 0 ≤ 1 - blocked ray := by linarith
    have h3 : 0 ≤ 1 - ext := by linarith
    positivity
  · exact le_refl _

theorem power_eq (W H : Nat) (hW : 2 ≤ W) (hH : 2 ≤ H) (m ext refl : ℝ) (p : Plane ℝ) (hw : 0 < p.width) (hh : 0 < p.height)
    (blocked : V3 ℝ × V3 ℝ → ℝ) (rays : List (V3 ℝ × V3 ℝ)) (bitmap : List (List ℝ)) (factors : ℝ × ℝ × ℝ)
    (htr : traceSample W H m ext refl (.planar p) blocked rays = .ok (bitmap, factors)) :
    power W H bitmap = (rays.map fun ray => arriving m ext refl p blocked ray).sum := by
  obtain ⟨b, f, h1, h2⟩ := C65_planar_total W H hW hH m ext refl p hw hh blocked rays
  rw [h1, Except.ok.injEq, Prod.mk.injEq] at htr
  rw [← htr.1, h2]; rfl

/-- C120, size of the image: around every column, and around every row, the spread of the image is the spread of the light, and at most a quarter of a squared pixel more; the
products of columns and rows are exactly those of the light. -/
theorem C120_spread (W H : Nat) (hW : 2 ≤ W) (hH : 2 ≤ H) (m ext refl : ℝ) (hm : 0 ≤ m) (hext : ext ≤ 1) (hrefl : 0 ≤ refl) (p : Plane ℝ)
    (hw : 0 < p.width) (hh : 0 < p.height) (blocked : V3 ℝ × V3 ℝ → ℝ) (rays : List (V3 ℝ × V3 ℝ)) (hb : ∀ ray ∈ rays, blocked ray ≤ 1)
    (bitmap : List (List ℝ)) (factors : ℝ × ℝ × ℝ) (htr : traceSample W H m ext refl (.planar p) blocked rays = .ok (bitmap, factors)) (c₀ r₀ : ℝ) :
    (ofLight m ext refl p blocked rays (fun x _ => (column W p x - c₀) ^ 2) ≤
        ∑ r ∈ Finset.range H, ∑ c ∈ Finset.range W, pixel bitmap r c * ((c : ℝ) - c₀) ^ 2 ∧
      ∑ r ∈ Finset.range H, ∑ c ∈ Finset.range W, pixel bitmap r c * ((c : ℝ) - c₀) ^ 2 ≤
        ofLight m ext refl p blocked rays (fun x _ => (column W p x - c₀) ^ 2) + power W H bitmap / 4) ∧
    (ofLight m ext refl p blocked rays (fun _ z => (row H p z - r₀) ^ 2) ≤
        ∑ r ∈ Finset.range H, ∑ c ∈ Finset.range W, pixel bitmap r c * ((r : ℝ) - r₀) ^ 2 ∧
      ∑ r ∈ Finset.range H, ∑ c ∈ Finset.range W, pixel bitmap r c * ((r : ℝ) - r₀) ^ 2 ≤
        ofLight m ext refl p blocked rays (fun _ z => (row H p z - r₀) ^ 2) + power W H bitmap / 4) ∧
    ∑ r ∈ Finset.range H, ∑ c ∈ Finset.range W, pixel bitmap r c * (((c : ℝ) - c₀) * ((r : ℝ) - r₀)) =
      ofLight m ext refl p blocked rays (fun x z => (column W p x - c₀) * (row H p z - r₀)) := by
  have hsum := image_sum W H hW hH m ext refl p hw hh blocked rays bitmap factors htr
  have hpow := power_eq W H hW hH m ext refl p hw hh blocked rays bitmap factors htr
  have bounds : ∀ (F : Nat → Nat → ℝ) (g : V3 ℝ × V3 ℝ → ℝ), (∀ ray ∈ rays, Lands p ray →
      g ray ≤ share W H (column W p (meets p ray).e) ((H : ℝ) - 1 - row H p (meets p ray).u) F ∧
      share W H (column W p (meets p ray).e) ((H : ℝ) - 1 - row H p (meets p ray).u) F ≤ g ray + 1 / 4) →
      (rays.map fun ray => arriving m ext refl p blocked ray * g ray).sum ≤ ∑ r ∈ Finset.range H, ∑ c ∈ Finset.range W, pixel bitmap r c * F r c ∧
      ∑ r ∈ Finset.range H, ∑ c ∈ Finset.range W, pixel bitmap r c * F r c ≤
        (rays.map fun ray => arriving m ext refl p blocked ray * g ray).sum + power W H bitmap / 4 := by
    intro F g hg
    rw [hsum F, hpow]
    have hz : ∀ ray, ¬ Lands p ray → arriving m ext refl p blocked ray = 0 := fun ray h => by unfold arriving; rw [if_neg h]
    have e : (rays.map fun ray => arriving m ext refl p blocked ray * g ray).sum + (rays.map fun ray => arriving m ext refl p blocked ray).sum / 4 =
        (rays.map fun ray => arriving m ext refl p blocked ray * (g ray + 1 / 4)).sum := by
      rw [div_eq_mul_inv, ← List.sum_map_mul_right, ← List.sum_map_add]
      congr 1
      exact List.map_congr_left fun ray _ => by ring
    rw [e]
    constructor
    · apply sum_map_le
      intro ray hr
      by_cases hl : Lands p ray
      · exact mul_le_mul_of_nonneg_left (hg ray hr hl).1 (arriving_nonneg m ext refl hm hext hrefl p blocked ray (hb ray hr))
      · rw [hz ray hl, zero_mul, zero_mul]
    · apply sum_map_le
      intro ray hr
      by_cases hl : Lands p ray
      · exact mul_le_mul_of_nonneg_left (hg ray hr hl).2 (arriving_nonneg m ext refl hm hext hrefl p blocked ray (hb ray hr))
      · rw [hz ray hl, zero_mul, zero_mul]
  refine ⟨bounds _ _ ?_, bounds _ _ ?_, ?_⟩
  · intro ray _ hl
    obtain ⟨k, i, f, h, hf, hh', hk, hi, hF⟩ := around W H hW hH p hw hh ray hl
    beta_reduce
    rw [hF, hk]
    push_cast
    constructor
    · nlinarith [mul_nonneg hf.1 (by linarith [hf.2] : (0 : ℝ) ≤ 1 - f)]
    · nlinarith [sq_nonneg (f - 1 / 2)]
  · intro ray _ hl
    obtain ⟨k, i, f, h, hf, hh', hk, hi, hF⟩ := around W H hW hH p hw hh ray hl
    beta_reduce
    rw [hF, hi]
    push_cast
    constructor
    · nlinarith [mul_nonneg hh'.1 (by linarith [hh'.2] : (0 : ℝ) ≤ 1 - h)]
    · nlinarith [sq_nonneg (h - 1 / 2)]
  · rw [hsum (fun r c => ((c : ℝ) - c₀) * ((r : ℝ) - r₀))]
    unfold ofLight
    congr 1
    apply List.map_congr_left
    intro ray _
    by_cases hl : Lands p ray
    · obtain ⟨k, i, f, h, hf, hh', hk, hi, hF⟩ := around W H hW hH p hw hh ray hl
      beta_reduce
      rw [hF, hk, hi]
      push_cast
      ring
    · unfold arriving; rw [if_neg hl, zero_mul, zero_mul]

/-! ## Measurements -/

theorem toPlane_e (W H : Nat) (p : Plane ℝ) (c r : ℝ) : (toPlane W H p c r).e = p.center.e + (1 / 2 - (c + 1 / 2) / (W : ℝ)) * p.width := by
  unfold toPlane; simp [V3.add_e, V3.smul_e]

theorem toPlane_u (W H : Nat) (p : Plane ℝ) (c r : ℝ) : (toPlane W H p c r).u = p.center.u + (1 / 2 - (r + 1 / 2) / (H : ℝ)) * p.height := by
  unfold toPlane; simp [V3.add_u, V3.smul_u]

/-- C120, every measurement: what a quantity that changes by at most `L` per metre amounts to over the image differs from what it amounts to over the light by no more than `L` times
one pixel per watt. -/
theorem C120_measurement (W H : Nat) (hW : 2 ≤ W) (hH : 2 ≤ H) (m ext refl : ℝ) (hm : 0 ≤ m) (hext : ext ≤ 1) (hrefl : 0 ≤ refl) (p : Plane ℝ)
    (hw : 0 < p.width) (hh : 0 < p.height) (blocked : V3 ℝ × V3 ℝ → ℝ) (rays : List (V3 ℝ × V3 ℝ)) (hb : ∀ ray ∈ rays, blocked ray ≤ 1)
    (bitmap : List (List ℝ)) (factors : ℝ × ℝ × ℝ) (htr : traceSample W H m ext refl (.planar p) blocked rays = .ok (bitmap, factors))
    (g : ℝ → ℝ → ℝ) (L : ℝ) (hg : ∀ x z x' z', |g x z - g x' z'| ≤ L * (|x - x'| + |z - z'|)) :
    |ofImage W H p bitmap g - ofLight m ext refl p blocked rays g| ≤ L * (p.width / (W : ℝ) + p.height / (H : ℝ)) * power W H bitmap := by
  have hL : 0 ≤ L := by
    have := (abs_nonneg _).trans (hg 1 0 0 0)
    norm_num at this; exact this
  have hsum := image_sum W H hW hH m ext refl p hw hh blocked rays bitmap factors htr
  rw [power_eq W H hW hH m ext refl p hw hh blocked rays bitmap factors htr]
  unfold ofImage
  rw [hsum (fun r c => g (toPlane W H p (c : ℝ) (r : ℝ)).e (toPlane W H p (c : ℝ) (r : ℝ)).u)]
  unfold ofLight
  rw [← List.sum_map_mul_left]
  have hWp : (0 : ℝ) < (W : ℝ) := by exact_mod_cast (by omega : 0 < W)
  have hHp : (0 : ℝ) < (H : ℝ) := by exact_mod_cast (by omega : 0 < H)
  have each : ∀ ray ∈ rays, |arriving m ext refl p blocked ray * share W H (column W p (meets p ray).e) ((H : ℝ) - 1 - row H p (meets p ray).u)
      (fun r c => g (toPlane W H p (c : ℝ) (r : ℝ)).e (toPlane W H p (c : ℝ) (r : ℝ)).u) -
      arriving m ext refl p blocked ray * g (meets p ray).e (meets p ray).u| ≤
      L * (p.width / (W : ℝ) + p.height / (H : ℝ)) * arriving m ext refl p blocked ray := by
    intro ray hr
    have ha := arriving_nonneg m ext refl hm hext hrefl p blocked ray (hb ray hr)
    by_cases hl : Lands p ray
    · rw [← mul_sub, abs_mul, abs_of_nonneg ha, mul_comm]
      refine mul_le_mul_of_nonneg_right ?_ ha
      obtain ⟨-, -, -, -, hx, hz⟩ := landing W H hW hH m ext refl p hw hh blocked ray hl
      obtain ⟨k, i, f, h, hf, hh', hk, hi, hF⟩ := around W H hW hH p hw hh ray hl
      rw [hF]
      have nx := near W hW p.width _ hw hx k f hk
      have nz := near H hH p.height _ hh hz i h hi
      have val : ∀ (a b : Nat) (s t : ℝ), ((k + a : Nat) : ℝ) = k + s → ((i + b : Nat) : ℝ) = i + t →
          |g (toPlane W H p ((k + a : Nat) : ℝ) ((i + b : Nat) : ℝ)).e (toPlane W H p ((k + a : Nat) : ℝ) ((i + b : Nat) : ℝ)).u -
            g (meets p ray).e (meets p ray).u| ≤
          L * ((p.width / (2 * (W : ℝ)) + p.width / (W : ℝ) * |f - s|) + (p.height / (2 * (H : ℝ)) + p.height / (H : ℝ) * |h - t|)) := by
        intro a b s t hs ht
        refine (hg _ _ _ _).trans (mul_le_mul_of_nonneg_left (add_le_add ?_ ?_) hL)
        · rw [toPlane_e, hs]
          have := nx s
          rwa [show p.center.e + (1 / 2 - ((k : ℝ) + s + 1 / 2) / (W : ℝ)) * p.width - (meets p ray).e =
            (1 / 2 - ((k : ℝ) + s + 1 / 2) / (W : ℝ)) * p.width - ((meets p ray).e - p.center.e) by ring]
        · rw [toPlane_u, ht]
          have := nz t
          rwa [show p.center.u + (1 / 2 - ((i : ℝ) + t + 1 / 2) / (H : ℝ)) * p.height - (meets p ray).u =
            (1 / 2 - ((i : ℝ) + t + 1 / 2) / (H : ℝ)) * p.height - ((meets p ray).u - p.center.u) by ring]
      have v00 := val 0 0 0 0 (by simp) (by simp)
      have v10 := val 1 0 1 0 (by simp) (by simp)
      have v01 := val 0 1 0 1 (by simp) (by simp)
      have v11 := val 1 1 1 1 (by simp) (by simp)
      simp only [Nat.add_zero] at v00 v10 v01
      refine (mixture_le f h _ _ _ _ _ _ _ _ _ hf hh' v00 v10 v01 v11).trans ?_
      have af : |f - 0| = f := by rw [sub_zero, abs_of_nonneg hf.1]
      have af1 : |f - 1| = 1 - f := by rw [abs_of_nonpos (by linarith [hf.2])]; ring
      have ah : |h - 0| = h := by rw [sub_zero, abs_of_nonneg hh'.1]
      have ah1 : |h - 1| = 1 - h := by rw [abs_of_nonpos (by linarith [hh'.2])]; ring
      rw [af, af1, ah, ah1]
      have q1 : f * (1 - f) ≤ 1 / 4 := by nlinarith [sq_nonneg (f - 1 / 2)]
      have q2 : h * (1 - h) ≤ 1 / 4 := by nlinarith [sq_nonneg (h - 1 / 2)]
      have e : (1 - h) * ((1 - f) * (L * ((p.width / (2 * (W : ℝ)) + p.width / (W : ℝ) * f) + (p.height / (2 * (H : ℝ)) + p.height / (H : ℝ) * h))) +
          f * (L * ((p.width / (2 * (W : ℝ)) + p.width / (W : ℝ) * (1 - f)) + (p.height / (2 * (H : ℝ)) + p.height / (H : ℝ) * h)))) +
        h * ((1 - f) * (L * ((p.width / (2 * (W : ℝ)) + p.width / (W : ℝ) * f) + (p.height / (2 * (H : ℝ)) + p.height / (H : ℝ) * (1 - h)))) +
          f * (L * ((p.width / (2 * (W : ℝ)) + p.width / (W : ℝ) * (1 - f)) + (p.height / (2 * (H : ℝ)) + p.height / (H : ℝ) * (1 - h))))) =
        L * ((p.width / (W : ℝ)) * (1 / 2 + 2 * (f * (1 - f))) + (p.height / (H : ℝ)) * (1 / 2 + 2 * (h * (1 - h)))) := by
        field_simp; ring
      rw [e]
      refine mul_le_mul_of_nonneg_left (add_le_add ?_ ?_) hL
      · exact mul_le_of_le_one_right (div_pos hw hWp).le (by linarith)
      · exact mul_le_of_le_one_right (div_pos hh hHp).le (by linarith)
    · have : arriving m ext refl p blocked ray = 0 := by unfold arriving; rw [if_neg hl]
      rw [this]; simp
  clear hsum htr hb
  induction rays with
  | nil => simp
  | cons ray rays ih =>
    simp only [List.map_cons, List.sum_cons]
    have h1 := each ray List.mem_cons_self
    have h2 := ih fun x hx => each x (List.mem_cons_of_mem _ hx)
    rw [add_sub_add_comm]
    exact (abs_add_le _ _).trans (add_le_add h1 h2)

/-- C120, fine images: as the resolution grows in both directions, everything measured on the image tends to what it is for the light, if the quantity is continuous where rays land. -/
theorem C120_limit (W H : Nat → Nat) (hW : ∀ n, 2 ≤ W n) (hH : ∀ n, 2 ≤ H n) (hWt : Tendsto W atTop atTop) (hHt : Tendsto H atTop atTop)
    (m ext refl : ℝ) (p : Plane ℝ) (hw : 0 < p.width) (hh : 0 < p.height) (blocked : V3 ℝ × V3 ℝ → ℝ) (rays : List (V3 ℝ × V3 ℝ))
    (bitmap : Nat → List (List ℝ)) (factors : Nat → ℝ × ℝ × ℝ)
    (htr : ∀ n, traceSample (W n) (H n) m ext refl (.planar p) blocked rays = .ok (bitmap n, factors n))
    (g : ℝ → ℝ → ℝ) (hg : ∀ ray ∈ rays, Lands p ray → ContinuousAt (fun q : ℝ × ℝ => g q.1 q.2) ((meets p ray).e, (meets p ray).u)) :
    Tendsto (fun n => ofImage (W n) (H n) p (bitmap n) g) atTop (𝓝 (ofLight m ext refl p blocked rays g)) := by
  have e : ∀ n, ofImage (W n) (H n) p (bitmap n) g = (rays.map fun ray => arriving m ext refl p blocked ray *
      share (W n) (H n) (column (W n) p (meets p ray).e) ((H n : ℝ) - 1 - row (H n) p (meets p ray).u)
        (fun r c => g (toPlane (W n) (H n) p (c : ℝ) (r : ℝ)).e (toPlane (W n) (H n) p (c : ℝ) (r : ℝ)).u)).sum := fun n =>
    image_sum (W n) (H n) (hW n) (hH n) m ext refl p hw hh blocked rays (bitmap n) (factors n) (htr n) _
  rw [show (fun n => ofImage (W n) (H n) p (bitmap n) g) = fun n => _ from funext e]
  unfold ofLight
  apply tendsto_list_sum
  intro ray hr
  by_cases hl : Lands p ray
  · apply Tendsto.const_mul
    rw [Metric.tendsto_atTop]
    intro ε hε
    obtain ⟨δ, hδ, hclose⟩ := Metric.continuousAt_iff.1 (hg ray hr hl) ε hε
    have small : ∀ (N : Nat → Nat) (_ : Tendsto N atTop atTop) (s : ℝ), ∃ n₀, ∀ n ≥ n₀, 2 * s / (N n : ℝ) < δ := by
      intro N hN s
      have ht : Tendsto (fun n => 2 * s / (N n : ℝ)) atTop (𝓝 0) := (tendsto_natCast_atTop_atTop.comp hN).const_div_atTop _
      obtain ⟨n₀, h⟩ := (Metric.tendsto_atTop.1 ht) δ hδ
      refine ⟨n₀, fun n hn => ?_⟩
      have := h n hn
      rw [Real.dist_eq, sub_zero] at this
      exact lt_of_abs_lt this
    obtain ⟨n₁, h₁⟩ := small W hWt p.width
    obtain ⟨n₂, h₂⟩ := small H hHt p.height
    refine ⟨max n₁ n₂, fun n hn => ?_⟩
    have hn1 := h₁ n (le_trans (le_max_left _ _) hn)
    have hn2 := h₂ n (le_trans (le_max_right _ _) hn)
    obtain ⟨-, -, -, -, hx, hz⟩ := landing (W n) (H n) (hW n) (hH n) m ext refl p hw hh blocked ray hl
    obtain ⟨k, i, f, h, hf, hh', hk, hi, hF⟩ := around (W n) (H n) (hW n) (hH n) p hw hh ray hl
    rw [Real.dist_eq, hF]
    have hWp : (0 : ℝ) < (W n : ℝ) := by exact_mod_cast (by have := hW n; omega : 0 < W n)
    have hHp : (0 : ℝ) < (H n : ℝ) := by exact_mod_cast (by have := hH n; omega : 0 < H n)
    have nx := near (W n) (hW n) p.width _ hw hx k f hk
    have nz := near (H n) (hH n) p.height _ hh hz i h hi
    have side : ∀ (N s x y : ℝ), 0 < N → 0 < s → y ≤ 1 → 2 * s / N < δ → |x| ≤ s / (2 * N) + s / N * y → |x| < δ := by
      intro N s x y hN hs hy hlt hle
      refine lt_of_le_of_lt (hle.trans ?_) hlt
      have h1 : s / N * y ≤ s / N := mul_le_of_le_one_right (div_pos hs hN).le hy
      have h2 : s / (2 * N) ≤ s / N := div_le_div_of_nonneg_left hs.le hN (by linarith)
      have h3 : 2 * s / N = s / N + s / N := by ring
      linarith
    have val : ∀ (a b : Nat) (s t : ℝ), |f - s| ≤ 1 → |h - t| ≤ 1 → ((k + a : Nat) : ℝ) = k + s → ((i + b : Nat) : ℝ) = i + t →
        |g (toPlane (W n) (H n) p ((k + a : Nat) : ℝ) ((i + b : Nat) : ℝ)).e (toPlane (W n) (H n) p ((k + a : Nat) : ℝ) ((i + b : Nat) : ℝ)).u -
          g (meets p ray).e (meets p ray).u| < ε := by
      intro a b s t hs1 ht1 hs ht
      have := @hclose ((toPlane (W n) (H n) p ((k + a : Nat) : ℝ) ((i + b : Nat) : ℝ)).e, (toPlane (W n) (H n) p ((k + a : Nat) : ℝ) ((i + b : Nat) : ℝ)).u) (by
        rw [Prod.dist_eq, max_lt_iff]
        constructor
        · rw [Real.dist_eq]
          simp only
          rw [toPlane_e, hs, show p.center.e + (1 / 2 - ((k : ℝ) + s + 1 / 2) / (W n : ℝ)) * p.width - (meets p ray).e =
            (1 / 2 - ((k : ℝ) + s + 1 / 2) / (W n : ℝ)) * p.width - ((meets p ray).e - p.center.e) by ring]
          exact side _ _ _ _ hWp hw hs1 hn1 (nx s)
        · rw [Real.dist_eq]
          simp only
          rw [toPlane_u, ht, show p.center.u + (1 / 2 - ((i : ℝ) + t + 1 / 2) / (H n : ℝ)) * p.height - (meets p ray).u =
            (1 / 2 - ((i : ℝ) + t + 1 / 2) / (H n : ℝ)) * p.height - ((meets p ray).u - p.center.u) by ring]
          exact side _ _ _ _ hHp hh ht1 hn2 (nz t))
      rwa [Real.dist_eq] at this
    have f0 : |f - 0| ≤ 1 := by rw [sub_zero, abs_of_nonneg hf.1]; exact hf.2
    have f1 : |f - 1| ≤ 1 := by rw [abs_le]; constructor <;> linarith [hf.1, hf.2]
    have h0 : |h - 0| ≤ 1 := by rw [sub_zero, abs_of_nonneg hh'.1]; exact hh'.2
    have h1 : |h - 1| ≤ 1 := by rw [abs_le]; constructor <;> linarith [hh'.1, hh'.2]
    have v00 := val 0 0 0 0 f0 h0 (by simp) (by simp)
    have v10 := val 1 0 1 0 f1 h0 (by simp) (by simp)
    have v01 := val 0 1 0 1 f0 h1 (by simp) (by simp)
    have v11 := val 1 1 1 1 f1 h1 (by simp) (by simp)
    simp only [Nat.add_zero] at v00 v10 v01
    exact mixture f h _ _ _ _ _ ε hf hh' v00 v10 v01 v11
  · have : arriving m ext refl p blocked ray = 0 := by unfold arriving; rw [if_neg hl]
    simp only [this, zero_mul]
    exact tendsto_const_nhds

open Classical in
/-- C120, power in a part of the target: as the resolution grows, the sum of the pixels in any region tends to the power of the rays that land in it, if no ray lands exactly on
the edge of the region. -/
theorem C120_region (W H : Nat → Nat) (hW : ∀ n, 2 ≤ W n) (hH : ∀ n, 2 ≤ H n) (hWt : Tendsto W atTop atTop) (hHt : Tendsto H atTop atTop)
    (m ext refl : ℝ) (p : Plane ℝ) (hw : 0 < p.width) (hh : 0 < p.height) (blocked : V3 ℝ × V3 ℝ → ℝ) (rays : List (V3 ℝ × V3 ℝ))
    (bitmap : Nat → List (List ℝ)) (factors : Nat → ℝ × ℝ × ℝ)
    (htr : ∀ n, traceSample (W n) (H n) m ext refl (.planar p) blocked rays = .ok (bitmap n, factors n))
    (R : Set (ℝ × ℝ)) (hR : ∀ ray ∈ rays, Lands p ray → ((meets p ray).e, (meets p ray).u) ∉ frontier R) :
    Tendsto (fun n => ∑ r ∈ Finset.range (H n), ∑ c ∈ Finset.range (W n),
        if ((toPlane (W n) (H n) p (c : ℝ) (r : ℝ)).e, (toPlane (W n) (H n) p (c : ℝ) (r : ℝ)).u) ∈ R then pixel (bitmap n) r c else 0) atTop
      (𝓝 (rays.map fun ray => if ((meets p ray).e, (meets p ray).u) ∈ R then arriving m ext refl p blocked ray else 0).sum) := by
  have h := C120_limit W H hW hH hWt hHt m ext refl p hw hh blocked rays bitmap factors htr (fun x z => if (x, z) ∈ R then 1 else 0) (by
    intro ray hr hl
    have hf := hR ray hr hl
    generalize ((meets p ray).e, (meets p ray).u) = q at hf
    by_cases hq : q ∈ R
    · have hi : q ∈ interior R := by
        by_contra hi
        exact hf ⟨subset_closure hq, hi⟩
      refine (continuousAt_const (y := (1 : ℝ))).congr ?_
      filter_upwards [isOpen_interior.mem_nhds hi] with y hy
      rw [if_pos (interior_subset hy)]
    · have hi : q ∈ (closure R)ᶜ := fun hc => hf ⟨hc, fun h => hq (interior_subset h)⟩
      refine (continuousAt_const (y := (0 : ℝ))).congr ?_
      filter_upwards [isClosed_closure.isOpen_compl.mem_nhds hi] with y hy
      rw [if_neg fun h => hy (subset_closure h)])
  unfold ofImage ofLight at h
  simpa only [mul_ite, mul_one, mul_zero] using h

/-! ## A case -/

/-- A ray that lands half a metre east of the centre of the target, and one that runs away from it. -/
noncomputable def two : List (V3 ℝ × V3 ℝ) := [(⟨1 / 2, -50, 10⟩, ⟨0, 1, 0⟩), awayFromTarget]

theorem two_lands : Lands southTarget (⟨1 / 2, -50, 10⟩, ⟨0, 1, 0⟩) ∧ ¬ Lands southTarget awayFromTarget ∧
    meets southTarget (⟨1 / 2, -50, 10⟩, ⟨0, 1, 0⟩) = ⟨1 / 2, 0, 10⟩ := by
  refine ⟨⟨by norm_num [V3.dot, southTarget], 50, ?_⟩, fun h => ?_, ?_⟩
  · norm_num [V3.dot, southTarget]
  · have := h.1
    norm_num [V3.dot, southTarget, awayFromTarget] at this
  · unfold meets
    ext <;> norm_num [V3.dot, southTarget]

theorem two_arriving : arriving 10 0 (1 / 2) southTarget (fun _ => 0) (⟨1 / 2, -50, 10⟩, ⟨0, 1, 0⟩) = 5 ∧
    arriving 10 0 (1 / 2) southTarget (fun _ => 0) awayFromTarget = 0 := by
  unfold arriving
  rw [if_pos two_lands.1, if_neg two_lands.2.1]
  norm_num [V3.dot, southTarget]

/-- The hypotheses of `C120_spread` and `C120_measurement` hold for these rays on an image of 3 by 3 pixels, and the upper bound of the spread is attained there: the light is at column 1/2,
its spread around that column is 0, and that of the image is a quarter of the power. -/
example : ∃ bitmap factors, traceSample 3 3 10 0 (1 / 2) (.planar southTarget) (fun _ => 0) two = .ok (bitmap, factors) ∧ power 3 3 bitmap = 5 ∧
    ofLight 10 0 (1 / 2) southTarget (fun _ => 0) two (fun x _ => (column 3 southTarget x - 1 / 2) ^ 2) = 0 ∧
    ∑ r ∈ Finset.range 3, ∑ c ∈ Finset.range 3, pixel bitmap r c * ((c : ℝ) - 1 / 2) ^ 2 = 5 / 4 := by
  obtain ⟨b, f, h1, -⟩ := C65_planar_total 3 3 (by norm_num) (by norm_num) 10 0 (1 / 2) southTarget southTarget_valid.1 southTarget_valid.2.1 (fun _ => 0) two
  have hp := power_eq 3 3 (by norm_num) (by norm_num) 10 0 (1 / 2) southTarget southTarget_valid.1 southTarget_valid.2.1 (fun _ => 0) two b f h1
  have hc : column 3 southTarget (1 / 2) = 1 / 2 := by norm_num [column, southTarget]
  refine ⟨b, f, h1, ?_, ?_, ?_⟩
  · rw [hp]; simp only [two, List.map_cons, List.map_nil, List.sum_cons, List.sum_nil, two_arriving.1, two_arriving.2, add_zero]
  · simp only [ofLight, two, List.map_cons, List.map_nil, List.sum_cons, List.sum_nil, two_arriving.1, two_arriving.2, two_lands.2.2, hc]
    norm_num
  · rw [image_sum 3 3 (by norm_num) (by norm_num) 10 0 (1 / 2) southTarget southTarget_valid.1 southTarget_valid.2.1 (fun _ => 0) two b f h1
      (fun _ c => ((c : ℝ) - 1 / 2) ^ 2)]
    simp only [two, List.map_cons, List.map_nil, List.sum_cons, List.sum_nil, two_arriving.1, two_arriving.2, zero_mul, add_zero]
    obtain ⟨k, i, f, h, hf, hh', hk, hi, hF⟩ := around 3 3 (by norm_num) (by norm_num) southTarget southTarget_valid.1 southTarget_valid.2.1 _ two_lands.1
    rw [hF]
    rw [two_lands.2.2] at hk
    simp only [hc] at hk
    have hk0 : k = 0 := by
      have : (k : ℝ) < 1 := by linarith [hf.1]
      exact_mod_cast Nat.lt_one_iff.1 (by exact_mod_cast this)
    subst hk0
    have hf' : f = 1 / 2 := by simp at hk; linarith
    rw [hf']; push_cast; ring

/-- The hypotheses of `C120_limit` and `C120_region` hold for these rays, ever finer images and the eastern half of the target, where all the power ends up. -/
example : ∃ (bitmap : Nat → List (List ℝ)), Tendsto (fun n => ∑ r ∈ Finset.range (n + 2), ∑ c ∈ Finset.range (n + 2),
    open Classical in if ((toPlane (n + 2) (n + 2) southTarget (c : ℝ) (r : ℝ)).e, (toPlane (n + 2) (n + 2) southTarget (c : ℝ) (r : ℝ)).u) ∈ {q : ℝ × ℝ | 0 < q.1}
      then pixel (bitmap n) r c else 0) atTop (𝓝 5) ∧
    ∀ n, ∃ factors, traceSample (n + 2) (n + 2) 10 0 (1 / 2) (.planar southTarget) (fun _ => 0) two = .ok (bitmap n, factors) := by
  have hex := fun n : Nat => C65_planar_total (n + 2) (n + 2) (by omega) (by omega) 10 0 (1 / 2) southTarget southTarget_valid.1 southTarget_valid.2.1 (fun _ => 0) two
  choose b f h1 _ using hex
  refine ⟨b, ?_, fun n => ⟨f n, h1 n⟩⟩
  have ht : Tendsto (fun n : Nat => n + 2) atTop atTop := tendsto_add_atTop_nat 2
  have hopen : IsOpen {q : ℝ × ℝ | 0 < q.1} := isOpen_lt continuous_const continuous_fst
  have := C120_region (fun n => n + 2) (fun n => n + 2) (by intro n; omega) (by intro n; omega) ht ht 10 0 (1 / 2) southTarget southTarget_valid.1 southTarget_valid.2.1
    (fun _ => 0) two b f h1 {q | 0 < q.1} (by
      intro ray hr hl
      simp only [two, List.mem_cons, List.not_mem_nil, or_false] at hr
      rcases hr with rfl | rfl
      · rw [two_lands.2.2]
        intro h
        exact h.2 (hopen.interior_eq.symm ▸ (by norm_num : (0 : ℝ) < 1 / 2))
      · exact absurd hl two_lands.2.1)
  have hlim : (two.map fun ray => open Classical in if ((meets southTarget ray).e, (meets southTarget ray).u) ∈ {q : ℝ × ℝ | 0 < q.1} then
      arriving 10 0 (1 / 2) southTarget (fun _ => 0) ray else 0).sum = 5 := by
    simp only [two, List.map_cons, List.map_nil, List.sum_cons, List.sum_nil, two_arriving.1, two_arriving.2, two_lands.2.2, ite_self, add_zero]
    rw [if_pos (by norm_num)]
  rw [hlim] at this
  exact this

end Artist.Resolution
