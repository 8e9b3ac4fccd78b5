import Verif.Proofs.Bitmap
import Verif.Props.Intersect
import Verif.Props.Splat
import Verif.Props.Nurbs
/-! Properties C39, C49 and C50: centers of mass, target coordinates, normalised points and trapezoids. -/
namespace Artist.Bitmap
open Artist Finset Artist.Intersect

section
variable {K : Type} [Field K] [LinearOrder K] [IsStrictOrderedRing K]

/-- C39: the center of mass of a non-negative image lies inside the image. -/
theorem C39_inside (eps : K) (he : 0 < eps) (W H : Nat) (hW : 0 < W) (hH : 0 < H) (img : Nat → Nat → K)
    (hi : ∀ r c, r < H → c < W → 0 ≤ img r c) :
    (0 ≤ (centerOfMass eps W H img).1 ∧ (centerOfMass eps W H img).1 ≤ (W : K) - 1) ∧
    (0 ≤ (centerOfMass eps W H img).2 ∧ (centerOfMass eps W H img).2 ≤ (H : K) - 1) := by
  rw [centerOfMass_eq]
  have ht := moment_nonneg W H img (fun _ _ => 1) hi (fun _ _ _ _ => zero_le_one)
  have hte : 0 < moment W H img (fun _ _ => 1) + eps := by linarith
  have key : ∀ (f : Nat → Nat → K) (b : K), 0 ≤ b → (∀ r c, r < H → c < W → 0 ≤ f r c ∧ f r c ≤ b) →
      0 ≤ moment W H img f / (moment W H img (fun _ _ => 1) + eps) ∧ moment W H img f / (moment W H img (fun _ _ => 1) + eps) ≤ b := by
    intro f b hb hf
    refine ⟨div_nonneg (moment_nonneg W H img f hi (fun r c hr hc => (hf r c hr hc).1)) hte.le, ?_⟩
    rw [div_le_iff₀ hte]
    have := moment_le W H img f b hi (fun r c hr hc => (hf r c hr hc).2)
    nlinarith
  exact ⟨key _ _ (by simpa using cast_le_pred (K := K) 0 W hW) (fun r c hr hc => ⟨Nat.cast_nonneg c, cast_le_pred c W hc⟩),
    key _ _ (by simpa using cast_le_pred (K := K) 0 H hH) (fun r c hr hc => ⟨Nat.cast_nonneg r, cast_le_pred r H hr⟩)⟩

/-- C39: an empty image has its center of mass at pixel `(0, 0)`. -/
theorem C39_empty (eps : K) (W H : Nat) : centerOfMass eps W H (fun _ _ => 0) = (0, 0) := by
  rw [centerOfMass_eq]; simp [moment]

/-- C39: up to the epsilon it is the intensity-weighted mean of the pixel positions: the deviation is at most the image size times
`eps / (total + eps)`, towards pixel `(0, 0)`. -/
theorem C39_mean (eps : K) (he : 0 < eps) (W H : Nat) (img : Nat → Nat → K)
    (hi : ∀ r c, r < H → c < W → 0 ≤ img r c) (ht : 0 < ∑ r ∈ range H, ∑ c ∈ range W, img r c) :
    let total := ∑ r ∈ range H, ∑ c ∈ range W, img r c
    let mean := fun (f : Nat → Nat → K) => (∑ r ∈ range H, ∑ c ∈ range W, f r c * img r c) / total
    ((centerOfMass eps W H img).1 ≤ mean (fun _ c => (c : K)) ∧
      mean (fun _ c => (c : K)) - (centerOfMass eps W H img).1 ≤ ((W : K) - 1) * eps / (total + eps)) ∧
    ((centerOfMass eps W H img).2 ≤ mean (fun r _ => (r : K)) ∧
      mean (fun r _ => (r : K)) - (centerOfMass eps W H img).2 ≤ ((H : K) - 1) * eps / (total + eps)) := by
  intro total mean
  have htot : total = moment W H img (fun _ _ => 1) := by simp [total, moment]
  have hpos : 0 < moment W H img (fun _ _ => 1) := by rw [← htot]; exact ht
  have hmean : ∀ f, mean f = moment W H img f / moment W H img (fun _ _ => 1) := by intro f; rw [← htot]; rfl
  rw [hmean, hmean, htot, centerOfMass_eq]
  exact ⟨shrink _ _ eps _ hpos he (moment_nonneg W H img _ hi (fun _ c _ _ => Nat.cast_nonneg c))
      (moment_le W H img _ _ hi (fun _ c _ hc => cast_le_pred c W hc)),
    shrink _ _ eps _ hpos he (moment_nonneg W H img _ hi (fun r _ _ _ => Nat.cast_nonneg r))
      (moment_le W H img _ _ hi (fun r _ hr _ => cast_le_pred r H hr))⟩

/-- C39: scaling an image moves its center of mass by at most the image size times `eps / (m + eps)`, where `m` bounds the total intensity of both
images from below. -/
theorem C39_scaling (eps : K) (he : 0 < eps) (W H : Nat) (img : Nat → Nat → K) (k m : K) (hk : 0 < k) (hm : 0 < m)
    (hi : ∀ r c, r < H → c < W → 0 ≤ img r c)
    (h1 : m ≤ ∑ r ∈ range H, ∑ c ∈ range W, img r c) (h2 : m ≤ k * ∑ r ∈ range H, ∑ c ∈ range W, img r c) :
    |(centerOfMass eps W H (fun r c => k * img r c)).1 - (centerOfMass eps W H img).1| ≤ ((W : K) - 1) * eps / (m + eps) ∧
    |(centerOfMass eps W H (fun r c => k * img r c)).2 - (centerOfMass eps W H img).2| ≤ ((H : K) - 1) * eps / (m + eps) := by
  have htot : ∑ r ∈ range H, ∑ c ∈ range W, img r c = moment W H img (fun _ _ => 1) := by simp [moment]
  rw [htot] at h1 h2
  have hWH : 0 < W ∧ 0 < H := by
    constructor <;> rw [Nat.pos_iff_ne_zero] <;> rintro rfl <;> simp [moment] at h1 <;> linarith
  rw [centerOfMass_eq, centerOfMass_eq]
  simp only [moment_smul]
  have hb : ∀ (N : Nat), 0 < N → (0 : K) ≤ (N : K) - 1 := fun N hN => by simpa using cast_le_pred (K := K) 0 N hN
  have key : ∀ (x b : K), 0 ≤ b → 0 ≤ x → x ≤ b * moment W H img (fun _ _ => 1) →
      |k * x / (k * moment W H img (fun _ _ => 1) + eps) - x / (moment W H img (fun _ _ => 1) + eps)| ≤ b * eps / (m + eps) := by
    intro x b hb hx0 hx
    set M := moment W H img (fun _ _ => 1)
    have hM : 0 < M := by linarith
    have hkM : 0 < k * M := mul_pos hk hM
    have s1 := shrink x M eps b hM he hx0 hx
    have s2 := shrink (k * x) (k * M) eps b hkM he (mul_nonneg hk.le hx0) (by nlinarith)
    rw [mul_div_mul_left _ _ hk.ne'] at s2
    have hbe : 0 ≤ b * eps := mul_nonneg hb he.le
    have m1 : b * eps / (M + eps) ≤ b * eps / (m + eps) := div_le_div_of_nonneg_left hbe (by linarith) (by linarith)
    have m2 : b * eps / (k * M + eps) ≤ b * eps / (m + eps) := div_le_div_of_nonneg_left hbe (by linarith) (by linarith)
    rw [abs_le]
    constructor <;> linarith [s1.1, s1.2, s2.1, s2.2]
  exact ⟨key _ _ (hb W hWH.1) (moment_nonneg W H img _ hi (fun _ c _ _ => Nat.cast_nonneg c))
      (moment_le W H img _ _ hi (fun _ c _ hc => cast_le_pred c W hc)),
    key _ _ (hb H hWH.2) (moment_nonneg W H img _ hi (fun r _ _ _ => Nat.cast_nonneg r))
      (moment_le W H img _ _ hi (fun r _ hr _ => cast_le_pred r H hr))⟩

/-- Converting a linearly scaled and mirrored offset `x ∈ [-w/2, w/2]` back loses at most half a pixel. -/
theorem half_pixel (N : Nat) (hN : 0 < N) (x w : K) (hw : 0 < w) (hx : |x| ≤ w / 2) :
    |(1 / 2 - (((N : K) - 1) * (1 / 2 - x / w) + 1 / 2) / (N : K)) * w - x| ≤ w / (2 * (N : K)) := by
  have hN' : (0 : K) < (N : K) := by exact_mod_cast hN
  have : (1 / 2 - (((N : K) - 1) * (1 / 2 - x / w) + 1 / 2) / (N : K)) * w - x = -(x / (N : K)) := by
    field_simp; ring
  rw [this, abs_neg, abs_div, abs_of_pos hN', show w / (2 * (N : K)) = (w / 2) / (N : K) by field_simp]
  exact div_le_div_of_nonneg_right hx hN'.le

/-- C39, round trip: for every counted ray the pixel position of the hit (row counted from the top) converts back to the hit point up to half a
pixel in east and up direction; the north coordinate is that of the target center. The full claim needs the hit point to lie there too, which holds
for upright targets facing north or south. -/
theorem C39_roundtrip_partial (W H : Nat) (hW : 2 ≤ W) (hH : 2 ≤ H) (o d : V3 K) (m : K) (p : Plane K) (hw : 0 < p.width) (hh : 0 < p.height)
    (hpos : (linePlane W H o d m p).intensity ≠ 0) :
    let hit := linePlane W H o d m p
    let q := o + hit.distance • d
    let back := toPlane W H p hit.e ((H : K) - 1 - hit.u)
    |back.e - q.e| ≤ p.width / (2 * (W : K)) ∧ |back.u - q.u| ≤ p.height / (2 * (H : K)) ∧
    (p.normal.e = 0 → p.normal.u = 0 → back.n = q.n) := by
  intro hit q back
  rcases linePlane_spec W H hW hH o d m p hw hh with ⟨hf, hon, heq⟩ | ⟨_, heq⟩
  · have hr : hit = _ := heq
    have hq : q = planePoint o d p := by simp only [q, hr]; rfl
    have h1 := half_pixel W (by omega) _ p.width hw hon.2.1
    have h2 := half_pixel H (by omega) _ p.height hh hon.2.2
    have hb : back = toPlane W H p hit.e ((H : K) - 1 - hit.u) := rfl
    rw [hb, hq, hr]
    unfold toPlane
    simp only [V3.add_e, V3.add_n, V3.add_u, V3.smul_e, V3.smul_n, V3.smul_u, mul_zero, mul_one, add_zero]
    refine ⟨?_, ?_, ?_⟩
    · convert h1 using 2; ring
    · convert h2 using 2; ring
    · intro he hu
      have h0 := hon.1
      unfold V3.dot at h0 hf
      rw [he, hu] at h0 hf
      simp only [mul_zero, add_zero, zero_add, V3.sub_n] at h0 hf
      have hne : p.normal.n ≠ 0 := by rintro h; rw [h, mul_zero] at hf; exact lt_irrefl _ hf
      have := (mul_eq_zero.1 h0).resolve_right hne
      linarith
  · exact absurd (by rw [heq]) hpos

/-- C39 is false for tilted targets: the converted point keeps the north coordinate of the target center.  For a target tilted up or down
(`normal.e = 0`) every hit off the center's height is displaced in north direction by its height offset times the tilt. -/
theorem C39_tilted_displaced (W H : Nat) (hW : 2 ≤ W) (hH : 2 ≤ H) (o d : V3 K) (m : K) (p : Plane K) (hw : 0 < p.width) (hh : 0 < p.height)
    (he : p.normal.e = 0) (hn : p.normal.n ≠ 0) (hpos : (linePlane W H o d m p).intensity ≠ 0) :
    let hit := linePlane W H o d m p
    let q := o + hit.distance • d
    let back := toPlane W H p hit.e ((H : K) - 1 - hit.u)
    back.n - q.n = (q.u - p.center.u) * (p.normal.u / p.normal.n) := by
  intro hit q back
  rcases linePlane_spec W H hW hH o d m p hw hh with ⟨hf, hon, heq⟩ | ⟨_, heq⟩
  · have hr : hit = _ := heq
    have hq : q = planePoint o d p := by simp only [q, hr]; rfl
    have hb : back.n = p.center.n := by simp [back, toPlane]
    rw [hb, hq]
    have h0 := hon.1
    unfold V3.dot at h0
    rw [he] at h0
    simp only [mul_zero, zero_add, V3.sub_n, V3.sub_u] at h0
    field_simp
    linear_combination -h0
  · exact absurd (by rw [heq]) hpos
end

/-- a receiver tilted by about 37° -/
def tilted : Plane ℚ := ⟨⟨0, 0, 10⟩, ⟨0, 4 / 5, -3 / 5⟩, 4, 4⟩

/-- C39, instance: a ray hits the tilted receiver 3/2 m above its center; the converted point is more than a metre off. -/
example : linePlane 256 256 ⟨0, 50, 23 / 2⟩ ⟨0, -1, 0⟩ 1 tilted = ⟨255 / 2, 255 * (7 / 8), 50 - 9 / 8, 4 / 5⟩ ∧
    (toPlane 256 256 tilted (255 / 2) (255 - 255 * (7 / 8))).n - 9 / 8 = -(9 / 8) := by decide +kernel
example : linePlane 256 256 ⟨1, 50, 11⟩ ⟨0, -1, 0⟩ 1 northTarget = ⟨255 / 4, 255 * 3 / 4, 50, 1⟩ ∧
    toPlane 256 256 northTarget (255 / 4) (255 - 255 * 3 / 4) = ⟨255 / 256, 0, 10 + 255 / 256⟩ := by decide +kernel

/-! ### The whole path from rays to the focal spot -/
section
variable {K : Type} [Field K] [LinearOrder K] [IsStrictOrderedRing K] [FloorRing K]

/-- A ray: origin, direction, magnitude. -/
structure Ray (K : Type) where
  origin : V3 K
  direction : V3 K
  magnitude : K

/-- What the splatting gets for a ray. -/
def Ray.hit (W H : Nat) (p : Plane K) (x : Ray K) : Splat.Hit K :=
  let l := linePlane W H x.origin x.direction x.magnitude p
  ⟨l.e, l.u, l.intensity⟩

/-- Where a ray meets the target plane. -/
def Ray.point (W H : Nat) (p : Plane K) (x : Ray K) : V3 K :=
  x.origin + (linePlane W H x.origin x.direction x.magnitude p).distance • x.direction

/-- What is known about a counted ray. -/
theorem Ray.facts (W H : Nat) (hW : 2 ≤ W) (hH : 2 ≤ H) (p : Plane K) (hw : 0 < p.width) (hh : 0 < p.height) (x : Ray K)
    (hm : 0 < x.magnitude) (hx : (x.hit W H p).w ≠ 0) :
    0 < (x.hit W H p).w ∧
    (x.hit W H p).e = ((W : K) - 1) * (1 / 2 - ((x.point W H p).e - p.center.e) / p.width) ∧ |(x.point W H p).e - p.center.e| ≤ p.width / 2 ∧
    (x.hit W H p).u = ((H : K) - 1) * (1 / 2 + ((x.point W H p).u - p.center.u) / p.height) ∧ |(x.point W H p).u - p.center.u| ≤ p.height / 2 := by
  unfold Ray.hit Ray.point at *
  simp only at *
  rcases linePlane_spec W H hW hH x.origin x.direction x.magnitude p hw hh with ⟨hf, hon, heq⟩ | ⟨_, heq⟩
  · rw [heq]
    have hq : x.origin + planeDistance x.origin x.direction p • x.direction = planePoint x.origin x.direction p := rfl
    simp only
    rw [hq]
    exact ⟨mul_pos hm (by linarith), rfl, hon.2.1, rfl, hon.2.2⟩
  · rw [heq] at hx; exact absurd rfl hx

/-- Weighted sums of affine functions and bounds of weighted means. -/
theorem weighted_affine {A : Type} (l : List A) (w f g : A → K) (a k : K) (h : ∀ x ∈ l, g x = a + k * f x) :
    (l.map (fun x => w x * g x)).sum = a * (l.map w).sum + k * (l.map (fun x => w x * f x)).sum := by
  induction l with
  | nil => simp
  | cons x l ih =>
    have := ih (fun y hy => h y (List.mem_cons_of_mem _ hy))
    simp only [List.map_cons, List.sum_cons]
    rw [this, h x List.mem_cons_self]; ring

theorem weighted_abs {A : Type} (l : List A) (w f : A → K) (b : K) (hw : ∀ x ∈ l, 0 ≤ w x) (h : ∀ x ∈ l, |f x| ≤ b) :
    |(l.map (fun x => w x * f x)).sum| ≤ b * (l.map w).sum := by
  induction l with
  | nil => simp
  | cons x l ih =>
    have h1 := ih (fun y hy => hw y (List.mem_cons_of_mem _ hy)) (fun y hy => h y (List.mem_cons_of_mem _ hy))
    simp only [List.map_cons, List.sum_cons]
    have h2 : |w x * f x| ≤ b * w x := by
      rw [abs_mul, abs_of_nonneg (hw x List.mem_cons_self), mul_comm]
      exact mul_le_mul_of_nonneg_right (h x List.mem_cons_self) (hw x List.mem_cons_self)
    have := abs_add_le (w x * f x) (l.map (fun x => w x * f x)).sum
    linarith

theorem sum_map_pos {A : Type} (l : List A) (w : A → K) (hne : l ≠ []) (hw : ∀ x ∈ l, 0 < w x) : 0 < (l.map w).sum := by
  induction l with
  | nil => exact absurd rfl hne
  | cons x l ih =>
    simp only [List.map_cons, List.sum_cons]
    by_cases hl : l = []
    · subst hl; simpa using hw x List.mem_cons_self
    · have := ih hl (fun y hy => hw y (List.mem_cons_of_mem _ hy))
      have := hw x List.mem_cons_self
      linarith

/-- From a mean pixel position to the mean position on the target, one coordinate. -/
theorem spot_coordinate (N : Nat) (hN : 2 ≤ N) (w eps total c com meanPixel meanPoint : K) (hw : 0 < w) (he : 0 < eps) (ht : 0 < total)
    (hmean : meanPixel = ((N : K) - 1) * (1 / 2 - (meanPoint - c) / w)) (hin : |meanPoint - c| ≤ w / 2)
    (hcom : com ≤ meanPixel ∧ meanPixel - com ≤ ((N : K) - 1) * eps / (total + eps)) :
    |c + (1 / 2 - (com + 1 / 2) / (N : K)) * w - meanPoint| ≤ w / (2 * (N : K)) + w * (eps / (total + eps)) := by
  have hN' : (0 : K) < (N : K) := by exact_mod_cast (by omega : 0 < N)
  have h1 := half_pixel N (by omega) (meanPoint - c) w hw hin
  rw [← hmean] at h1
  have e : c + (1 / 2 - (com + 1 / 2) / (N : K)) * w - meanPoint =
      ((1 / 2 - (meanPixel + 1 / 2) / (N : K)) * w - (meanPoint - c)) + (meanPixel - com) * (w / (N : K)) := by
    field_simp; ring
  rw [e]
  refine le_trans (abs_add_le _ _) (add_le_add h1 ?_)
  have hwN : 0 < w / (N : K) := div_pos hw hN'
  have hd : 0 ≤ meanPixel - com := by linarith [hcom.1]
  rw [abs_of_nonneg (mul_nonneg hd hwN.le)]
  have hte : 0 < total + eps := by linarith
  have hq : 0 < eps / (total + eps) := div_pos he hte
  calc (meanPixel - com) * (w / (N : K)) ≤ (((N : K) - 1) * eps / (total + eps)) * (w / (N : K)) :=
        mul_le_mul_of_nonneg_right hcom.2 hwN.le
    _ = (((N : K) - 1) / (N : K)) * (w * (eps / (total + eps))) := by field_simp
    _ ≤ 1 * (w * (eps / (total + eps))) := by
        apply mul_le_mul_of_nonneg_right _ (mul_pos hw hq).le
        rw [div_le_one hN']; linarith
    _ = _ := one_mul _

/-- C39, focal spots: the focal spot computed from the bitmap that was traced from any collection of rays, all of which land inside the grid of
pixel centres, is the intensity-weighted mean of the points where the rays hit the target, up to half a pixel plus the effect of the epsilon. -/
theorem C39_focal_spot (eps : K) (he : 0 < eps) (W H : Nat) (hW : 2 ≤ W) (hH : 2 ≤ H) (p : Plane K) (hw : 0 < p.width) (hh : 0 < p.height)
    (rays : List (Ray K)) (hmag : ∀ x ∈ rays, 0 < x.magnitude) (hne : rays ≠ [])
    (hland : ∀ x ∈ rays, (x.hit W H p).w ≠ 0 ∧ Splat.Inside W H (x.hit W H p))
    (img : List (List K)) (himg : Splat.splat W H (rays.map (Ray.hit W H p)) = .ok img) :
    let com := centerOfMass eps W H (Splat.pixel img)
    let spot := toPlane W H p com.1 com.2
    let total := (rays.map (fun x => (x.hit W H p).w)).sum
    |spot.e - (rays.map (fun x => (x.hit W H p).w * (x.point W H p).e)).sum / total| ≤
        p.width / (2 * (W : K)) + p.width * (eps / (total + eps)) ∧
    |spot.u - (rays.map (fun x => (x.hit W H p).w * (x.point W H p).u)).sum / total| ≤
        p.height / (2 * (H : K)) + p.height * (eps / (total + eps)) := by
  intro com spot total
  have hfacts := fun x hx => Ray.facts W H hW hH p hw hh x (hmag x hx) (hland x hx).1
  have htd : (rays.map (fun x => (x.hit W H p).w)).sum = total := rfl
  have htot : 0 < total := sum_map_pos rays _ hne (fun x hx => (hfacts x hx).1)
  clear_value total
  have hpos : ∀ h ∈ rays.map (Ray.hit W H p), 0 ≤ h.e ∧ 0 ≤ h.u := by
    intro h hh'
    obtain ⟨x, hx, rfl⟩ := List.mem_map.1 hh'
    exact ⟨(hland x hx).2.1.1, (hland x hx).2.2.1⟩
  have hin : ∀ (f : Splat.Hit K → K), ((rays.map (Ray.hit W H p)).map (fun h => if Splat.Inside W H h then f h else 0)).sum =
      (rays.map (fun x => f (x.hit W H p))).sum := by
    intro f
    rw [List.map_map]
    congr 1
    apply List.map_congr_left
    intro x hx
    simp only [Function.comp]
    rw [if_pos (hland x hx).2]
  have henergy := Splat.C08_energy W H (by omega) (by omega) _ hpos img himg
  have hcent := Splat.C08_centroid W H (by omega) (by omega) _ hpos img himg
  have hnn := Splat.C08_nonneg W H (by omega) (by omega) _ hpos (by
    intro h hh'
    obtain ⟨x, hx, rfl⟩ := List.mem_map.1 hh'
    exact (hfacts x hx).1.le) img himg
  rw [hin (fun h => h.w), htd] at henergy
  rw [hin (fun h => h.w * h.e), hin (fun h => h.w * h.u)] at hcent
  have hi : ∀ r c, r < H → c < W → 0 ≤ Splat.pixel img r c := fun r c hr hc => hnn r c hr hc
  have hmean := C39_mean eps he W H (Splat.pixel img) hi (by rw [henergy]; exact htot)
  simp only [henergy] at hmean
  have hc1 : ∑ r ∈ range H, ∑ c ∈ range W, (c : K) * Splat.pixel img r c = (rays.map (fun x => (x.hit W H p).w * (x.hit W H p).e)).sum := by
    rw [← hcent.1]
    apply Finset.sum_congr rfl; intro r _
    apply Finset.sum_congr rfl; intro c _
    ring
  have hc2 : ∑ r ∈ range H, ∑ c ∈ range W, (r : K) * Splat.pixel img r c =
      ((H : K) - 1) * total - (rays.map (fun x => (x.hit W H p).w * (x.hit W H p).u)).sum := by
    rw [← hcent.2, ← henergy, Finset.mul_sum, ← Finset.sum_sub_distrib]
    apply Finset.sum_congr rfl; intro r hr
    rw [Finset.mul_sum, ← Finset.sum_sub_distrib]
    apply Finset.sum_congr rfl; intro c _
    rw [Finset.mem_range] at hr
    have : ((H - 1 - r : Nat) : K) = (H : K) - 1 - (r : K) := by
      rw [Nat.cast_sub (by omega), Nat.cast_sub (by omega)]; simp
    rw [this]; ring
  rw [hc1, hc2] at hmean
  have ae := weighted_affine rays (fun x => (x.hit W H p).w) (fun x => (x.point W H p).e) (fun x => (x.hit W H p).e)
    (((W : K) - 1) * (1 / 2 + p.center.e / p.width)) (-(((W : K) - 1) / p.width))
    (fun x hx => by rw [(hfacts x hx).2.1]; field_simp; ring)
  have au := weighted_affine rays (fun x => (x.hit W H p).w) (fun x => (x.point W H p).u) (fun x => (x.hit W H p).u)
    (((H : K) - 1) * (1 / 2 - p.center.u / p.height)) (((H : K) - 1) / p.height)
    (fun x hx => by rw [(hfacts x hx).2.2.2.1]; field_simp; ring)
  rw [htd] at ae au
  have bound : ∀ (f : Ray K → K) (c w : K), (∀ x ∈ rays, |f x - c| ≤ w / 2) →
      |(rays.map (fun x => (x.hit W H p).w * f x)).sum / total - c| ≤ w / 2 := by
    intro f c w hf
    have h1 := weighted_abs rays (fun x => (x.hit W H p).w) (fun x => f x - c) (w / 2) (fun x hx => (hfacts x hx).1.le) hf
    have h2 := weighted_affine rays (fun x => (x.hit W H p).w) f (fun x => f x - c) (-c) 1 (fun x _ => by ring)
    rw [h2, htd] at h1
    have e : (rays.map (fun x => (x.hit W H p).w * f x)).sum / total - c =
        (-c * total + 1 * (rays.map (fun x => (x.hit W H p).w * f x)).sum) / total := by field_simp; ring
    rw [e, abs_div, abs_of_pos htot, div_le_iff₀ htot]
    exact h1
  constructor
  · have := spot_coordinate W hW p.width eps total p.center.e com.1 _ ((rays.map (fun x => (x.hit W H p).w * (x.point W H p).e)).sum / total)
      hw he htot (by rw [ae]; field_simp; ring) (bound _ _ _ (fun x hx => (hfacts x hx).2.2.1)) hmean.1
    simpa [spot, toPlane] using this
  · have := spot_coordinate H hH p.height eps total p.center.u com.2 _ ((rays.map (fun x => (x.hit W H p).w * (x.point W H p).u)).sum / total)
      hh he htot (by rw [au]; field_simp; ring) (bound _ _ _ (fun x hx => (hfacts x hx).2.2.2.2)) hmean.2
    simpa [spot, toPlane] using this
end

/-- Two rays onto the north-facing target. -/
def twoRays : List (Ray ℚ) := [⟨⟨1, 50, 11⟩, ⟨0, -1, 0⟩, 1⟩, ⟨⟨-1, 50, 9⟩, ⟨0, -1, 0⟩, 3⟩]
example : (∀ x ∈ twoRays, 0 < x.magnitude) ∧ twoRays ≠ [] ∧
    (∀ x ∈ twoRays, (x.hit 5 5 northTarget).w ≠ 0 ∧ Splat.Inside 5 5 (x.hit 5 5 northTarget)) ∧
    Splat.splat 5 5 (twoRays.map (Ray.hit 5 5 northTarget)) =
      .ok [[0, 0, 0, 0, 0], [0, 1, 0, 0, 0], [0, 0, 0, 0, 0], [0, 0, 0, 3, 0], [0, 0, 0, 0, 0]] := by
  refine ⟨?_, ?_, ?_, ?_⟩ <;> decide +kernel

/-! ### Cylindrical target areas -/

/-- C39, round trip on cylindrical targets facing north with at most half a turn: the pixel position of a hit at angle `φ` from the normal and height `z`
converts back to a point of the cylinder whose angle and height differ by at most half a pixel. Missing: other orientations, for which the column of
the hit itself is wrong (`C18_middle_iff_north`). -/
theorem C39_cylinder_partial (W H : Nat) (hW : 0 < W) (hH : 0 < H) (o d : V3 ℝ) (m : ℝ) (cyl : Cylinder) (hfr : cyl.Framed)
    (hnorth : cyl.normal.e = 0 ∧ 0 < cyl.normal.n) (ho : 0 < cyl.opening) (hopi : cyl.opening ≤ Real.pi) (hheight : 0 < cyl.height)
    (t ρ φ z : ℝ) (hρ : 0 < ρ) (hφ : |φ| ≤ cyl.opening / 2) (hz : |z| ≤ cyl.height / 2)
    (hd : cyl.distance o d = some t)
    (hp : o + t • d = cyl.center + (ρ * Real.cos φ) • cyl.normal - (ρ * Real.sin φ) • V3.cross cyl.normal cyl.axis + z • cyl.axis) :
    ∃ φ' z' : ℝ, |φ' - φ| ≤ cyl.opening / (2 * (W : ℝ)) ∧ |z' - z| ≤ cyl.height / (2 * (H : ℝ)) ∧
      toCylinder W H cyl (lineCylinder W H o d m cyl).e ((H : ℝ) - 1 - (lineCylinder W H o d m cyl).u) =
        cyl.center + (cyl.radius * Real.cos φ') • cyl.normal - (cyl.radius * Real.sin φ') • V3.cross cyl.normal cyl.axis + z' • cyl.axis := by
  obtain ⟨h1, h2, _⟩ := C18_column_partial W H o d m cyl hfr hnorth ho hopi t ρ φ z hρ hφ hz hd hp
  have hφ' : |-φ| ≤ cyl.opening / 2 := by rwa [abs_neg]
  have b1 := half_pixel W hW (-φ) cyl.opening ho hφ'
  have b2 := half_pixel H hH z cyl.height hheight hz
  refine ⟨((((1 / 2 + φ / cyl.opening) * ((W : ℝ) - 1)) + 1 / 2) / (W : ℝ) - 1 / 2) * cyl.opening,
    (1 / 2 - (((H : ℝ) - 1 - (z + cyl.height / 2) / cyl.height * ((H : ℝ) - 1)) + 1 / 2) / (H : ℝ)) * cyl.height, ?_, ?_, ?_⟩
  · rw [← abs_neg]
    rw [show -(((((1 / 2 + φ / cyl.opening) * ((W : ℝ) - 1)) + 1 / 2) / (W : ℝ) - 1 / 2) * cyl.opening - φ) =
      (1 / 2 - (((W : ℝ) - 1) * (1 / 2 - -φ / cyl.opening) + 1 / 2) / (W : ℝ)) * cyl.opening - -φ by ring]
    exact b1
  · have hne := hheight.ne'
    have e : (z + cyl.height / 2) / cyl.height = z / cyl.height + 1 / 2 := by field_simp
    rw [e, show (1 / 2 - (((H : ℝ) - 1 - (z / cyl.height + 1 / 2) * ((H : ℝ) - 1)) + 1 / 2) / (H : ℝ)) * cyl.height - z =
      (1 / 2 - (((H : ℝ) - 1) * (1 / 2 - z / cyl.height) + 1 / 2) / (H : ℝ)) * cyl.height - z by ring]
    exact b2
  · rw [h1, h2]
    unfold toCylinder V3.cross
    ext <;> simp <;> ring

/-! ## C49 -/
section
variable {K : Type} [Field K] [LinearOrder K] [IsStrictOrderedRing K]

/-- C49: every coordinate of the normalised points lies strictly between 0 and 1, and the order of the points is kept: there is one strictly increasing
affine function of which the normalised column is the image. -/
theorem C49_normalize (eps : K) (he : 0 < eps) (x : K) (xs : List K) :
    ∃ a b : K, 0 < a ∧ normalizeColumn eps x xs = (x :: xs).map (fun y => a * y + b) ∧
      ∀ y ∈ normalizeColumn eps x xs, 0 < y ∧ y < 1 := by
  obtain ⟨l1, l2⟩ := minimum_le x xs
  set low := minimum x xs with hlow
  obtain ⟨g1, g2⟩ := le_maximum (x - low + 2 * eps) (xs.map fun y => y - low + 2 * eps)
  set high := maximum (x - low + 2 * eps) (xs.map fun y => y - low + 2 * eps) with hhigh
  have hlo : ∀ y ∈ x :: xs, low ≤ y := by
    intro y hy; rcases List.mem_cons.1 hy with rfl | hy
    · exact l1
    · exact l2 y hy
  have hhi : ∀ y ∈ x :: xs, y - low + 2 * eps ≤ high := by
    intro y hy; rcases List.mem_cons.1 hy with rfl | hy
    · exact g1
    · exact g2 _ (List.mem_map_of_mem hy)
  have hh : 0 < high := by linarith [hlo x List.mem_cons_self, hhi x List.mem_cons_self]
  have hdef : normalizeColumn eps x xs = (x :: xs).map fun y => (y - low + eps) / high := rfl
  refine ⟨1 / high, (eps - low) / high, by positivity, ?_, ?_⟩
  · rw [hdef]
    apply List.map_congr_left
    intro y _; field_simp; ring
  · rw [hdef]
    intro y hy
    obtain ⟨z, hz, rfl⟩ := List.mem_map.1 hy
    have := hlo z hz
    have := hhi z hz
    exact ⟨div_pos (by linarith) hh, by rw [div_lt_one hh]; linarith⟩

/-- C49: the evaluation grid has the requested size and lies strictly inside the unit square. -/
theorem C49_grid [FloorSemiring K] (ne nn : Nat) (eps : K) (h0 : 0 < eps) (h1 : eps < 1 / 2) :
    (Nurbs.evaluationGrid ne nn eps).length = ne * nn ∧
    ∀ a ∈ Nurbs.evaluationGrid ne nn eps, 0 < a.1 ∧ a.1 < 1 ∧ 0 < a.2 ∧ a.2 < 1 := Nurbs.C23_grid ne nn eps h0 h1
end

example : normalizeColumn (1 / 10 : ℚ) 3 [5, 4, 3] = [1 / 22, 21 / 22, 1 / 2, 1 / 22] := by decide +kernel

/-! ## C50 -/
section
variable {K : Type} [Field K] [LinearOrder K] [IsStrictOrderedRing K]

/-- Twice the distance of index `i` from the middle of `total` entries. -/
def off (total i : Nat) : K := |2 * (i : K) - ((total : K) - 1)|

theorem trapezoid_get (total slope plateau i : Nat) (hi : i < total) :
    (trapezoid total slope plateau : List K)[i]? = some
      (if slope = 0 then (if off total i ≤ (plateau : K) then 1 else 0)
       else 1 - min (max ((off total i - plateau) / 2 / (slope : K)) 0) 1) := by
  have e : |(i : K) - ((total : K) - 1) / 2| = off total i / 2 := by
    unfold off
    rw [show (2 * (i : K) - ((total : K) - 1)) = 2 * ((i : K) - ((total : K) - 1) / 2) by ring, abs_mul, abs_two]; ring
  unfold trapezoid
  rw [List.getElem?_map, List.getElem?_range hi]
  simp only [Option.map_some, e]
  congr 1
  have e2 : off total i / 2 - (plateau : K) / 2 = (off total i - plateau) / 2 := by ring
  rw [e2]
  congr 1
  apply if_congr _ rfl rfl
  constructor <;> intro h <;> linarith

/-- C50: the distribution has the requested length and values in `[0, 1]`. -/
theorem C50_range (total slope plateau : Nat) :
    (trapezoid total slope plateau : List K).length = total ∧ ∀ v ∈ (trapezoid total slope plateau : List K), 0 ≤ v ∧ v ≤ 1 := by
  refine ⟨by simp [trapezoid], ?_⟩
  intro v hv
  obtain ⟨i, hi, rfl⟩ := List.mem_map.1 hv
  simp only
  split_ifs
  · exact ⟨zero_le_one, le_refl _⟩
  · exact ⟨le_refl _, zero_le_one⟩
  · constructor
    · have := min_le_right (max ((|(i : K) - ((total : K) - 1) / 2| - (plateau : K) / 2) / (slope : K)) 0) 1; linarith
    · have : 0 ≤ min (max ((|(i : K) - ((total : K) - 1) / 2| - (plateau : K) / 2) / (slope : K)) 0) 1 := le_min (le_max_right _ _) zero_le_one
      linarith

/-- C50: mirror symmetry. -/
theorem C50_symmetric (total slope plateau : Nat) : (trapezoid total slope plateau : List K).reverse = trapezoid total slope plateau := by
  have hl : (trapezoid total slope plateau : List K).length = total := (C50_range total slope plateau).1
  apply List.ext_getElem?
  intro i
  by_cases hi : i < total
  · rw [List.getElem?_reverse (by rw [hl]; exact hi), hl, trapezoid_get _ _ _ _ (by omega), trapezoid_get _ _ _ _ hi]
    have : off (K := K) total (total - 1 - i) = off total i := by
      unfold off
      rw [Nat.cast_sub (by omega), Nat.cast_sub (by omega), ← abs_neg]
      congr 1; push_cast; ring
    rw [this]
  · rw [List.getElem?_eq_none (by simp [hl]; omega), List.getElem?_eq_none (by rw [hl]; omega)]

/-- C50: values never increase away from the middle. -/
theorem C50_unimodal (total slope plateau i j : Nat) (x y : K)
    (hx : (trapezoid total slope plateau : List K)[i]? = some x) (hy : (trapezoid total slope plateau : List K)[j]? = some y)
    (hij : |2 * (i : K) - ((total : K) - 1)| ≤ |2 * (j : K) - ((total : K) - 1)|) : y ≤ x := by
  have hl : (trapezoid total slope plateau : List K).length = total := (C50_range total slope plateau).1
  have hi : i < total := by rw [← hl]; exact (List.getElem?_eq_some_iff.1 hx).1
  have hj : j < total := by rw [← hl]; exact (List.getElem?_eq_some_iff.1 hy).1
  rw [trapezoid_get _ _ _ _ hi, Option.some.injEq] at hx
  rw [trapezoid_get _ _ _ _ hj, Option.some.injEq] at hy
  have h : off (K := K) total i ≤ off total j := hij
  rw [← hx, ← hy]
  split_ifs with h0 h1 h2 h2
  · exact le_refl _
  · exact absurd (le_trans h h1) h2
  · exact zero_le_one
  · exact le_refl _
  · have : (off total i - plateau) / 2 / (slope : K) ≤ (off total j - plateau) / 2 / (slope : K) :=
      div_le_div_of_nonneg_right (div_le_div_of_nonneg_right (by linarith) (by norm_num)) (Nat.cast_nonneg slope)
    have := min_le_min_right 1 (max_le_max_right 0 this)
    linarith

/-- C50: the value is one exactly on the plateau, that is for the indices at most `plateau / 2` from the middle. -/
theorem C50_plateau (total slope plateau i : Nat) (x : K) (hx : (trapezoid total slope plateau : List K)[i]? = some x) :
    x = 1 ↔ (total : Int) - 1 - plateau ≤ 2 * i ∧ 2 * (i : Int) ≤ (total : Int) - 1 + plateau := by
  have hl : (trapezoid total slope plateau : List K).length = total := (C50_range total slope plateau).1
  have hi : i < total := by rw [← hl]; exact (List.getElem?_eq_some_iff.1 hx).1
  rw [trapezoid_get _ _ _ _ hi, Option.some.injEq] at hx
  have hoff : off total i ≤ (plateau : K) ↔ (total : Int) - 1 - plateau ≤ 2 * i ∧ 2 * (i : Int) ≤ (total : Int) - 1 + plateau := by
    unfold off
    rw [abs_le]
    have e1 : (-(plateau : K) ≤ 2 * (i : K) - ((total : K) - 1)) ↔ (total : Int) - 1 - plateau ≤ 2 * i := by
      rw [← Int.cast_le (R := K)]; push_cast; constructor <;> intro h <;> linarith
    have e2 : (2 * (i : K) - ((total : K) - 1) ≤ (plateau : K)) ↔ 2 * (i : Int) ≤ (total : Int) - 1 + plateau := by
      rw [← Int.cast_le (R := K)]; push_cast; constructor <;> intro h <;> linarith
    rw [e1, e2]
  rw [← hoff, ← hx]
  split_ifs with h0 h1
  · simp [h1]
  · simp [h1]
  · have hs : (0 : K) < (slope : K) := by exact_mod_cast Nat.pos_of_ne_zero h0
    constructor
    · intro h
      have h2 : min (max ((off total i - plateau) / 2 / (slope : K)) 0) 1 = 0 := by linarith
      rcases min_choice (max ((off total i - plateau) / 2 / (slope : K)) 0) (1 : K) with h3 | h3
      · rw [h3] at h2
        have := le_max_left ((off total i - plateau) / 2 / (slope : K)) 0
        rw [h2, div_le_iff₀ hs] at this
        linarith
      · rw [h3] at h2; exact absurd h2 one_ne_zero
    · intro h
      have : (off total i - plateau) / 2 / (slope : K) ≤ 0 := div_nonpos_of_nonpos_of_nonneg (by linarith) hs.le
      rw [max_eq_right this, min_eq_left zero_le_one, sub_zero]

/-- C50: the value is zero exactly at distance `plateau / 2 + slope` from the middle and beyond (with slope zero: beyond `plateau / 2`). -/
theorem C50_zero (total slope plateau i : Nat) (x : K) (hx : (trapezoid total slope plateau : List K)[i]? = some x) :
    x = 0 ↔ if slope = 0 then (plateau : K) / 2 < |(i : K) - ((total : K) - 1) / 2|
      else (plateau : K) / 2 + slope ≤ |(i : K) - ((total : K) - 1) / 2| := by
  have hl : (trapezoid total slope plateau : List K).length = total := (C50_range total slope plateau).1
  have hi : i < total := by rw [← hl]; exact (List.getElem?_eq_some_iff.1 hx).1
  rw [trapezoid_get _ _ _ _ hi, Option.some.injEq] at hx
  have e : |(i : K) - ((total : K) - 1) / 2| = off total i / 2 := by
    unfold off
    rw [show (2 * (i : K) - ((total : K) - 1)) = 2 * ((i : K) - ((total : K) - 1) / 2) by ring, abs_mul, abs_two]; ring
  rw [e, ← hx]
  split_ifs with h0 h1
  · simp only [one_ne_zero, false_iff, not_lt]; linarith
  · simp only [true_iff]; push Not at h1; linarith
  · have hs : (0 : K) < (slope : K) := by exact_mod_cast Nat.pos_of_ne_zero h0
    constructor
    · intro h
      have h2 : 1 ≤ max ((off total i - plateau) / 2 / (slope : K)) 0 := by
        have := min_le_left (max ((off total i - plateau) / 2 / (slope : K)) 0) 1
        linarith
      rcases le_max_iff.1 h2 with h3 | h3
      · rw [le_div_iff₀ hs] at h3; linarith
      · exact absurd h3 (by norm_num)
    · intro h
      have : 1 ≤ (off total i - plateau) / 2 / (slope : K) := by rw [le_div_iff₀ hs]; linarith
      rw [min_eq_right (le_trans this (le_max_left _ _)), sub_self]

/-- C50: between plateau and foot the values fall linearly with the distance from the middle. -/
theorem C50_slope (total slope plateau i : Nat) (hs : 0 < slope) (x : K) (hx : (trapezoid total slope plateau : List K)[i]? = some x)
    (h1 : (plateau : K) / 2 ≤ |(i : K) - ((total : K) - 1) / 2|) (h2 : |(i : K) - ((total : K) - 1) / 2| ≤ (plateau : K) / 2 + slope) :
    x = 1 - (|(i : K) - ((total : K) - 1) / 2| - (plateau : K) / 2) / slope := by
  have hl : (trapezoid total slope plateau : List K).length = total := (C50_range total slope plateau).1
  have hi : i < total := by rw [← hl]; exact (List.getElem?_eq_some_iff.1 hx).1
  have hs' : (0 : K) < (slope : K) := by exact_mod_cast hs
  unfold trapezoid at hx
  rw [List.getElem?_map, List.getElem?_range hi] at hx
  simp only [Option.map_some, Option.some.injEq, if_neg (by omega : ¬ slope = 0)] at hx
  rw [← hx, max_eq_left (div_nonneg (by linarith) hs'.le), min_eq_left (by rw [div_le_one hs']; linarith)]

/-- C50, slope zero: a 0/1 rectangle. -/
theorem C50_rectangle (total plateau : Nat) : ∀ v ∈ (trapezoid total 0 plateau : List K), v = 0 ∨ v = 1 := by
  intro v hv
  obtain ⟨i, _, rfl⟩ := List.mem_map.1 hv
  simp only [if_true]
  split_ifs
  · exact .inr rfl
  · exact .inl rfl
end

example : (trapezoid 8 2 2 : List ℚ) = [0, 1 / 4, 3 / 4, 1, 1, 3 / 4, 1 / 4, 0] ∧ (trapezoid 5 0 3 : List ℚ) = [0, 1, 1, 1, 0] := by decide +kernel
/-- With an even plateau and an odd total width the plateau has one entry more than its width. -/
example : (trapezoid 5 0 2 : List ℚ) = [0, 1, 1, 1, 0] := by decide +kernel

end Artist.Bitmap
