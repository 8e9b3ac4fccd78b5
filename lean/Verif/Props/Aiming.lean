import Verif.Props.Flux
import Verif.Props.Bitmap
import Verif.Props.Alignment
/-!
# C92: the flux image of an aligned heliostat is centred on its aim point

Joins alignment (C56), ray tracing (C65), splatting (C08) and focal spots (C39): what a user gets who aligns a heliostat, traces it onto a planar
target and asks for the focal spot of the bitmap.
-/
namespace Artist.Aiming
open Artist Matrix Intersect Flux Splat Bitmap Transforms Kinematics

/-! ## Specification -/

/-- The east, north and up components. -/
def vec (v : Fin 4 → ℝ) : V3 ℝ := ⟨v 0, v 1, v 2⟩

/-- An ideal flat mirror with orientation `M`: the points `(x, y)` of the mirror plane, all with the same normal. -/
def flatMirror (M : Matrix (Fin 4) (Fin 4) ℝ) (points : List (ℝ × ℝ)) : List (V3 ℝ × (Fin 4 → ℝ)) :=
  points.map fun s => (vec (M *ᵥ ![s.1, s.2, 0, 1]), M *ᵥ ![0, 0, 1, 0])

/-- Distance between the mirror centre of an orientation and the aim point. -/
noncomputable def slant (aim : Fin 4 → ℝ) (M : Matrix (Fin 4) (Fin 4) ℝ) : ℝ :=
  length3 ![aim 0 - (M *ᵥ ![0, 0, 0, 1]) 0, aim 1 - (M *ᵥ ![0, 0, 0, 1]) 1, aim 2 - (M *ᵥ ![0, 0, 0, 1]) 2, 0]

/-- The points are balanced around the mirror centre. -/
def Balanced (points : List (ℝ × ℝ)) : Prop := (points.map Prod.fst).sum = 0 ∧ (points.map Prod.snd).sum = 0

/-- `k` rays for every one of `n` points, none of them scattered. -/
def unscattered (k n : Nat) : List (List (ℝ × ℝ)) := List.replicate k (List.replicate n (0, 0))

/-- The focal spot that is reported for a bitmap (see C39). -/
noncomputable def focalSpot (eps : ℝ) (W H : Nat) (p : Plane ℝ) (bitmap : List (List ℝ)) : V3 ℝ :=
  let com := centerOfMass eps W H (pixel bitmap)
  toPlane W H p com.1 com.2

/-- What the resolution of the bitmap and the epsilon of the centre of mass may move a focal spot, along one side of the target. -/
noncomputable def pixelError (eps side total : ℝ) (n : Nat) : ℝ := side / (2 * (n : ℝ)) + side * (eps / (total + eps))

/-! ## Helpers -/

theorem normSq_cross_le (a b : V3 ℝ) : V3.normSq (V3.cross a b) ≤ V3.normSq a * V3.normSq b := by
  have : V3.normSq (V3.cross a b) = V3.normSq a * V3.normSq b - V3.dot a b ^ 2 := by
    simp only [V3.normSq, V3.dot, V3.cross]; ring
  rw [this]; nlinarith [sq_nonneg (V3.dot a b)]

theorem component_sq_le (a : V3 ℝ) : a.e ^ 2 ≤ V3.normSq a ∧ a.u ^ 2 ≤ V3.normSq a := by
  simp only [V3.normSq, V3.dot]
  constructor <;> nlinarith [sq_nonneg a.e, sq_nonneg a.n, sq_nonneg a.u]

/-- the part of `v` along the ray `r` that leads into the plane with normal `n` -/
theorem oblique (n r v : V3 ℝ) : (V3.dot r n) • v - (V3.dot v n) • r = V3.cross n (V3.cross v r) := by
  ext <;> simp only [V3.cross, V3.dot, V3.sub_e, V3.sub_n, V3.sub_u, V3.smul_e, V3.smul_n, V3.smul_u] <;> ring

theorem oblique_le (n r v : V3 ℝ) (hn : V3.normSq n = 1) (b : ℝ) (hb : 0 ≤ b) (hv : V3.normSq (V3.cross v r) ≤ b ^ 2) :
    |((V3.dot r n) • v - (V3.dot v n) • r).e| ≤ b ∧ |((V3.dot r n) • v - (V3.dot v n) • r).u| ≤ b := by
  rw [oblique]
  have h1 := normSq_cross_le n (V3.cross v r)
  rw [hn, one_mul] at h1
  have h2 := component_sq_le (V3.cross n (V3.cross v r))
  exact ⟨abs_le_of_sq_le_sq (h2.1.trans (h1.trans hv)) hb, abs_le_of_sq_le_sq (h2.2.trans (h1.trans hv)) hb⟩

/-- Where a ray meets the plane of a target that contains `a`. -/
theorem planePoint_eq (p : Plane ℝ) (a o d : V3 ℝ) (ha : V3.dot (a - p.center) p.normal = 0) (hd : V3.dot d p.normal < 0) :
    planePoint o d p = o + (V3.dot (a - o) p.normal / V3.dot d p.normal) • d := by
  unfold planePoint planeDistance planeAngle
  simp only [hd, decide_true, if_true]
  congr 3
  simp only [V3.dot, V3.sub_e, V3.sub_n, V3.sub_u] at *
  linarith

theorem planePoint_on (p : Plane ℝ) (o d : V3 ℝ) (hd : V3.dot d p.normal < 0) : V3.dot (planePoint o d p - p.center) p.normal = 0 := by
  rw [planePoint_eq p p.center o d (by simp [V3.dot]) hd]
  have e : V3.dot (o + (V3.dot (p.center - o) p.normal / V3.dot d p.normal) • d - p.center) p.normal =
      -V3.dot (p.center - o) p.normal + V3.dot (p.center - o) p.normal / V3.dot d p.normal * V3.dot d p.normal := by
    generalize V3.dot (p.center - o) p.normal / V3.dot d p.normal = x
    simp only [V3.dot, V3.sub_e, V3.sub_n, V3.sub_u, V3.add_e, V3.add_n, V3.add_u, V3.smul_e, V3.smul_n, V3.smul_u]; ring
  rw [e, div_mul_cancel₀ _ hd.ne]; ring

/-- Distance between aim point and landing point of a ray that starts at `c + v`, the aim point lying `s` along `d` from `c`. -/
theorem landing_error (p : Plane ℝ) (hn : V3.normSq p.normal = 1) (a c v d r : V3 ℝ) (s R δ : ℝ) (hs : 0 ≤ s) (hR : 0 ≤ R) (hδ : 0 ≤ δ)
    (ha : V3.dot (a - p.center) p.normal = 0) (hsd : a = c + s • d) (hd : V3.normSq d = 1) (hr1 : V3.normSq r = 1)
    (hv : V3.normSq v ≤ R ^ 2) (hrd : V3.normSq (r - d) ≤ δ ^ 2) (hr : V3.dot r p.normal < 0) :
    |(planePoint (c + v) r p).e - a.e| ≤ (R + s * δ) / -(V3.dot r p.normal) ∧
    |(planePoint (c + v) r p).u - a.u| ≤ (R + s * δ) / -(V3.dot r p.normal) := by
  rw [planePoint_eq p a _ _ ha hr]
  have b1 := oblique_le p.normal r v hn R hR ((normSq_cross_le v r).trans (by rw [hr1, mul_one]; exact hv))
  have hx : V3.cross d r = V3.cross d (r - d) := by
    ext <;> simp only [V3.cross, V3.sub_e, V3.sub_n, V3.sub_u] <;> ring
  have b2 := oblique_le p.normal r d hn δ hδ (by rw [hx]; exact (normSq_cross_le d (r - d)).trans (by rw [hd, one_mul]; exact hrd))
  have hc : 0 < -(V3.dot r p.normal) := by linarith
  have key : ∀ f : V3 ℝ → ℝ, (∀ x y, f (x + y) = f x + f y) → (∀ x y, f (x - y) = f x - f y) → (∀ (k : ℝ) x, f (k • x) = k * f x) →
      |f ((V3.dot r p.normal) • v - (V3.dot v p.normal) • r)| ≤ R → |f ((V3.dot r p.normal) • d - (V3.dot d p.normal) • r)| ≤ δ →
      |f (c + v + (V3.dot (a - (c + v)) p.normal / V3.dot r p.normal) • r) - f a| ≤ (R + s * δ) / -(V3.dot r p.normal) := by
    intro f fa fs fm h1 h2
    rw [le_div_iff₀ hc, ← abs_of_pos hc, ← abs_mul]
    have e : (f (c + v + (V3.dot (a - (c + v)) p.normal / V3.dot r p.normal) • r) - f a) * -(V3.dot r p.normal) =
        -f ((V3.dot r p.normal) • v - (V3.dot v p.normal) • r) + s * f ((V3.dot r p.normal) • d - (V3.dot d p.normal) • r) := by
      have hdot : V3.dot (a - (c + v)) p.normal = s * V3.dot d p.normal - V3.dot v p.normal := by
        rw [hsd]; simp only [V3.dot, V3.sub_e, V3.sub_n, V3.sub_u, V3.add_e, V3.add_n, V3.add_u, V3.smul_e, V3.smul_n, V3.smul_u]; ring
      rw [hdot, fa, fa, fm, fs, fs, fm, fm, fm, fm, hsd, fa, fm]
      have := hr.ne
      field_simp; ring
    rw [e]
    refine (abs_add_le _ _).trans ?_
    rw [abs_neg, abs_mul, abs_of_nonneg hs]
    exact add_le_add h1 (mul_le_mul_of_nonneg_left h2 hs)
  exact ⟨key V3.e (fun _ _ => rfl) (fun _ _ => rfl) (fun _ _ => rfl) b1.1 b2.1, key V3.u (fun _ _ => rfl) (fun _ _ => rfl) (fun _ _ => rfl) b1.2 b2.2⟩

/-- The focal spot of traced rays that all land is the weighted mean of their landing points. -/
theorem spot_mean (eps : ℝ) (he : 0 < eps) (W H : Nat) (hW : 2 ≤ W) (hH : 2 ≤ H) (m ext refl : ℝ) (hm : 0 < m) (hext : ext < 1) (hrefl : 0 < refl)
    (p : Plane ℝ) (hw : 0 < p.width) (hh : 0 < p.height) (blocked : V3 ℝ × V3 ℝ → ℝ) (rays : List (V3 ℝ × V3 ℝ)) (hne : rays ≠ [])
    (hfree : ∀ ray ∈ rays, blocked ray < 1) (hland : ∀ ray ∈ rays, Lands p ray) :
    ∃ bitmap factors, traceSample W H m ext refl (.planar p) blocked rays = .ok (bitmap, factors) ∧
      let w : V3 ℝ × V3 ℝ → ℝ := fun ray => m * (1 - ext) * refl * (1 - blocked ray) * -(V3.dot ray.2 p.normal)
      let total := power W H bitmap
      total = (rays.map w).sum ∧ 0 < total ∧ (∀ ray ∈ rays, 0 < w ray) ∧
      |(focalSpot eps W H p bitmap).e - (rays.map fun ray => w ray * (planePoint ray.1 ray.2 p).e).sum / total| ≤ pixelError eps p.width total W ∧
      |(focalSpot eps W H p bitmap).u - (rays.map fun ray => w ray * (planePoint ray.1 ray.2 p).u).sum / total| ≤ pixelError eps p.height total H := by
  obtain ⟨bitmap, factors, htr, hpow⟩ := C65_planar_total W H hW hH m ext refl p hw hh blocked rays
  refine ⟨bitmap, factors, htr, ?_⟩
  intro w total
  have hM : 0 < m * (1 - ext) * refl := mul_pos (mul_pos hm (by linarith)) hrefl
  have hwpos : ∀ ray ∈ rays, 0 < w ray := fun ray hr => mul_pos (mul_pos hM (by linarith [hfree ray hr])) (by linarith [(hland ray hr).1])
  have htot : total = (rays.map w).sum := by
    rw [show total = _ from hpow]
    congr 1
    apply List.map_congr_left
    intro ray hr
    rw [if_pos (hland ray hr)]; simp only [w]; ring
  have hin : ∀ ray ∈ rays, Inside W H (hitOf W H m ext refl (.planar p) blocked ray) := fun ray hr =>
    (inside_iff_lands W H hW hH m ext refl p hw hh blocked ray).1.2 (hland ray hr)
  let conv : V3 ℝ × V3 ℝ → Ray ℝ := fun ray => ⟨ray.1, ray.2, m * (1 - ext) * refl * (1 - blocked ray)⟩
  have hon : ∀ ray ∈ rays, linePlane W H ray.1 ray.2 (m * (1 - ext) * refl * (1 - blocked ray)) p =
      ⟨((W : ℝ) - 1) * (1 / 2 - ((planePoint ray.1 ray.2 p).e - p.center.e) / p.width),
        ((H : ℝ) - 1) * (1 / 2 + ((planePoint ray.1 ray.2 p).u - p.center.u) / p.height), planeDistance ray.1 ray.2 p, w ray⟩ ∧
      linePlane W H ray.1 ray.2 m p = ⟨((W : ℝ) - 1) * (1 / 2 - ((planePoint ray.1 ray.2 p).e - p.center.e) / p.width),
        ((H : ℝ) - 1) * (1 / 2 + ((planePoint ray.1 ray.2 p).u - p.center.u) / p.height), planeDistance ray.1 ray.2 p,
          m * -(V3.dot ray.2 p.normal)⟩ := by
    intro ray hr
    have hI := hin ray hr
    rcases linePlane_spec W H hW hH ray.1 ray.2 m p hw hh with ⟨hf, hon, heq⟩ | ⟨_, heq⟩
    · refine ⟨?_, heq⟩
      rcases linePlane_spec W H hW hH ray.1 ray.2 (m * (1 - ext) * refl * (1 - blocked ray)) p hw hh with ⟨_, _, heq'⟩ | ⟨hno, _⟩
      · exact heq'
      · exact absurd ⟨hf, hon⟩ hno
    · unfold hitOf land at hI
      simp only [heq] at hI
      exact absurd hI.1.2 (lt_irrefl _)
  have hhit : ∀ ray ∈ rays, hitOf W H m ext refl (.planar p) blocked ray = (conv ray).hit W H p := by
    intro ray hr
    unfold hitOf land Ray.hit
    simp only [conv, (hon ray hr).1, (hon ray hr).2, SoftMask.intensity, w]
    congr 1; ring
  have hw' : ∀ ray ∈ rays, ((conv ray).hit W H p).w = w ray := by
    intro ray hr; unfold Ray.hit; simp only [conv, (hon ray hr).1]
  have hp' : ∀ ray ∈ rays, (conv ray).point W H p = planePoint ray.1 ray.2 p := by
    intro ray hr; unfold Ray.point; simp only [conv, (hon ray hr).1]; rfl
  have hsplat : splat W H ((rays.map conv).map (Ray.hit W H p)) = .ok bitmap := by
    have e : (rays.map conv).map (Ray.hit W H p) = rays.map (hitOf W H m ext refl (.planar p) blocked) := by
      rw [List.map_map]; exact List.map_congr_left fun ray hr => (hhit ray hr).symm
    rw [e]
    unfold traceSample at htr
    simp only at htr
    split at htr
    · cases htr
    · rename_i b hb; rw [hb]; simp only [Except.ok.injEq, Prod.mk.injEq] at htr; rw [htr.1]
  have hfs := C39_focal_spot eps he W H hW hH p hw hh (rays.map conv)
    (by intro x hx; obtain ⟨ray, hr, rfl⟩ := List.mem_map.1 hx; exact mul_pos hM (by linarith [hfree ray hr])) (by simpa using hne)
    (by
      intro x hx; obtain ⟨ray, hr, rfl⟩ := List.mem_map.1 hx
      exact ⟨by rw [hw' ray hr]; exact (hwpos ray hr).ne', by rw [← hhit ray hr]; exact hin ray hr⟩) bitmap hsplat
  simp only [List.map_map] at hfs
  have c1 : rays.map ((fun x => (Ray.hit W H p x).w) ∘ conv) = rays.map w := List.map_congr_left fun ray hr => hw' ray hr
  have c2 : rays.map ((fun x => (Ray.hit W H p x).w * (Ray.point W H p x).e) ∘ conv) = rays.map fun ray => w ray * (planePoint ray.1 ray.2 p).e :=
    List.map_congr_left fun ray hr => by simp only [Function.comp]; rw [hw' ray hr, hp' ray hr]
  have c3 : rays.map ((fun x => (Ray.hit W H p x).w * (Ray.point W H p x).u) ∘ conv) = rays.map fun ray => w ray * (planePoint ray.1 ray.2 p).u :=
    List.map_congr_left fun ray hr => by simp only [Function.comp]; rw [hw' ray hr, hp' ray hr]
  rw [c1, c2, c3, ← htot] at hfs
  exact ⟨htot, by rw [htot]; exact sum_map_pos rays w hne hwpos, hwpos, hfs.1, hfs.2⟩

/-- Rays that do not land leave no trace in the bitmap. -/
theorem trace_landed (eps : ℝ) (W H : Nat) (hW : 2 ≤ W) (hH : 2 ≤ H) (m ext refl : ℝ) (p : Plane ℝ) (hw : 0 < p.width) (hh : 0 < p.height)
    (blocked : V3 ℝ × V3 ℝ → ℝ) (rays landed : List (V3 ℝ × V3 ℝ)) [DecidablePred (Lands p)] (hl : landed = rays.filter (fun ray => decide (Lands p ray)))
    (bitmap bitmap' : List (List ℝ)) (f f' : ℝ × ℝ × ℝ) (h : traceSample W H m ext refl (.planar p) blocked rays = .ok (bitmap, f))
    (h' : traceSample W H m ext refl (.planar p) blocked landed = .ok (bitmap', f')) :
    focalSpot eps W H p bitmap = focalSpot eps W H p bitmap' ∧ power W H bitmap = power W H bitmap' := by
  have hpos : ∀ rs : List (V3 ℝ × V3 ℝ), ∀ x ∈ rs.map (hitOf W H m ext refl (.planar p) blocked), 0 ≤ x.e ∧ 0 ≤ x.u := by
    intro rs x hx
    obtain ⟨ray, _, rfl⟩ := List.mem_map.1 hx
    have := C17_coordinates_in_bitmap W H hW hH ray.1 ray.2 m p hw hh
    exact ⟨this.1.1, this.2.1⟩
  have get : ∀ (rs : List (V3 ℝ × V3 ℝ)) b g, traceSample W H m ext refl (.planar p) blocked rs = .ok (b, g) →
      ∀ r c, r < H → c < W → pixel b (H - 1 - r) c = (rs.map fun ray => if Lands p ray then
        (hitOf W H m ext refl (.planar p) blocked ray).w * (tent ((hitOf W H m ext refl (.planar p) blocked ray).e - (c : ℝ)) *
          tent ((hitOf W H m ext refl (.planar p) blocked ray).u - (r : ℝ))) else 0).sum := by
    intro rs b g hb r c hr hc
    obtain ⟨img, hs, -, -, hpix⟩ := C08_pixel W H (by omega) (by omega) _ (hpos rs)
    have : b = img := by
      unfold traceSample at hb
      simp only [hs, Except.ok.injEq, Prod.mk.injEq] at hb
      exact hb.1.symm
    rw [this, hpix r c hr hc, List.map_map]
    congr 1
    apply List.map_congr_left
    intro ray _
    simp only [Function.comp]
    exact if_congr (inside_iff_lands W H hW hH m ext refl p hw hh blocked ray).1 rfl rfl
  have hfil : ∀ (g : V3 ℝ × V3 ℝ → ℝ), (landed.map fun ray => if Lands p ray then g ray else 0).sum =
      (rays.map fun ray => if Lands p ray then g ray else 0).sum := by
    intro g
    rw [hl]
    clear h hl
    induction rays with
    | nil => rfl
    | cons x l ih =>
      by_cases hx : Lands p x
      · rw [List.filter_cons_of_pos (by simpa using hx), List.map_cons, List.map_cons, List.sum_cons, List.sum_cons, ih]
      · rw [List.filter_cons_of_neg (by simpa using hx), ih, List.map_cons, List.sum_cons, if_neg hx, zero_add]
  have hp : ∀ r c, r < H → c < W → pixel bitmap r c = pixel bitmap' r c := by
    intro r c hr hc
    have e : H - 1 - (H - 1 - r) = r := by omega
    have a1 := get rays bitmap f h (H - 1 - r) c (by omega) hc
    have a2 := get landed bitmap' f' h' (H - 1 - r) c (by omega) hc
    rw [e] at a1 a2
    rw [a1, a2, hfil]
  have hsum : ∀ (k : Nat → Nat → ℝ → ℝ), ∑ r ∈ Finset.range H, ∑ c ∈ Finset.range W, k r c (pixel bitmap r c) =
      ∑ r ∈ Finset.range H, ∑ c ∈ Finset.range W, k r c (pixel bitmap' r c) := by
    intro k
    apply Finset.sum_congr rfl; intro r hr
    apply Finset.sum_congr rfl; intro c hc
    rw [hp r c (Finset.mem_range.1 hr) (Finset.mem_range.1 hc)]
  have ht := hsum (fun _ _ x => x)
  refine ⟨?_, ht⟩
  unfold focalSpot centerOfMass
  simp only
  rw [ht, hsum (fun r c x => (c : ℝ) * (x / ((∑ r ∈ Finset.range H, ∑ c ∈ Finset.range W, pixel bitmap' r c) + eps))),
    hsum (fun r c x => (r : ℝ) * (x / ((∑ r ∈ Finset.range H, ∑ c ∈ Finset.range W, pixel bitmap' r c) + eps)))]

theorem mean_near {A : Type} (l : List A) (w f : A → ℝ) (a B : ℝ) (hw : ∀ x ∈ l, 0 ≤ w x) (ht : 0 < (l.map w).sum) (h : ∀ x ∈ l, |f x - a| ≤ B) :
    |(l.map fun x => w x * f x).sum / (l.map w).sum - a| ≤ B := by
  have h1 := weighted_abs l w (fun x => f x - a) B hw h
  have h2 := weighted_affine l w f (fun x => f x - a) (-a) 1 (fun x _ => by ring)
  rw [h2] at h1
  have e : (l.map fun x => w x * f x).sum / (l.map w).sum - a = (-a * (l.map w).sum + 1 * (l.map fun x => w x * f x).sum) / (l.map w).sum := by
    field_simp; ring
  rw [e, abs_div, abs_of_pos ht, div_le_iff₀ ht]
  exact h1

theorem vec_normSq (v : Fin 4 → ℝ) : V3.normSq (vec v) = length3 v ^ 2 := by
  rw [length3_sq]; simp only [V3.normSq, V3.dot, vec]; ring

theorem toAim_unit (aim : Fin 4 → ℝ) (M : Matrix (Fin 4) (Fin 4) ℝ) (hfar : 0 < slant aim M) :
    vec aim = vec (M *ᵥ ![0, 0, 0, 1]) + slant aim M • vec (toAim aim M) ∧ V3.normSq (vec (toAim aim M)) = 1 := by
  have ht : toAim aim M = (slant aim M)⁻¹ • ![aim 0 - (M *ᵥ ![0, 0, 0, 1]) 0, aim 1 - (M *ᵥ ![0, 0, 0, 1]) 1, aim 2 - (M *ᵥ ![0, 0, 0, 1]) 2, 0] := rfl
  constructor
  · rw [ht]
    ext <;> simp only [vec, V3.add_e, V3.add_n, V3.add_u, V3.smul_e, V3.smul_n, V3.smul_u, Pi.smul_apply, smul_eq_mul] <;>
      rw [mul_inv_cancel_left₀ hfar.ne'] <;> simp
  · rw [vec_normSq, ht, length3_smul, ← slant, abs_of_pos (inv_pos.2 hfar), inv_mul_cancel₀ hfar.ne', one_pow]

theorem normal_unit (M : Matrix (Fin 4) (Fin 4) ℝ) (hM : Rigid M) :
    (M *ᵥ ![0, 0, 1, 0]) 3 = 0 ∧ (M *ᵥ ![0, 0, 1, 0]) ⬝ᵥ (M *ᵥ ![0, 0, 1, 0]) = 1 := by
  have h3 : (M *ᵥ ![0, 0, 1, 0]) 3 = 0 := (hM.homogeneous _).trans (by simp)
  refine ⟨h3, ?_⟩
  have h1 := hM.length_dir ![0, 0, 1, 0] (by simp)
  have h2 := length3_sq (M *ᵥ ![0, 0, 1, 0])
  rw [h1] at h2
  have h4 : length3 ![0, 0, 1, 0] = 1 := by simp [length3]
  rw [h4] at h2
  simp only [dotProduct, Fin.sum_univ_four, h3]; linarith

theorem rotDist_zero : rotDist 0 0 = 1 := by
  ext i j; fin_cases i <;> fin_cases j <;> simp [rotDist]

theorem raysOf_unscattered (incident : Fin 4 → ℝ) (M : Matrix (Fin 4) (Fin 4) ℝ) (points : List (ℝ × ℝ)) (k : Nat) :
    raysOf incident (flatMirror M points) (unscattered k points.length) =
      (List.replicate k (points.map fun s => (vec (M *ᵥ ![s.1, s.2, 0, 1]), vec (reflect incident (M *ᵥ ![0, 0, 1, 0]))))).flatten := by
  have hz : ∀ (l : List (ℝ × ℝ)), List.zipWith (fun s d => (s.1, direction incident s.2 d.1 d.2)) (flatMirror M l) (List.replicate l.length (0, 0)) =
      l.map fun s => (vec (M *ᵥ ![s.1, s.2, 0, 1]), vec (reflect incident (M *ᵥ ![0, 0, 1, 0]))) := by
    intro l
    induction l with
    | nil => rfl
    | cons x l ih =>
      unfold flatMirror at ih ⊢
      simp only [List.map_cons, List.length_cons, List.replicate_succ, List.zipWith_cons_cons]
      rw [ih]
      congr 1
      unfold direction
      rw [rotDist_zero, one_mulVec]; rfl
  unfold raysOf unscattered
  rw [List.flatMap_def, List.map_replicate, hz]

theorem sum_flatten_replicate (k : Nat) (l : List (V3 ℝ × V3 ℝ)) (f : V3 ℝ × V3 ℝ → ℝ) :
    (((List.replicate k l).flatten).map f).sum = k * (l.map f).sum := by
  induction k with
  | zero => simp
  | succ k ih => rw [List.replicate_succ, List.flatten_cons, List.map_append, List.sum_append, ih]; push_cast; ring

/-- Sum of an affine function over balanced points. -/
theorem sum_balanced (points : List (ℝ × ℝ)) (hbal : Balanced points) (g : ℝ × ℝ → ℝ) (a b c : ℝ) (h : ∀ s, g s = a + s.1 * b + s.2 * c) :
    (points.map g).sum = points.length * a := by
  have key : ∀ l : List (ℝ × ℝ), (l.map g).sum = l.length * a + (l.map Prod.fst).sum * b + (l.map Prod.snd).sum * c := by
    intro l
    induction l with
    | nil => simp
    | cons x l ih => simp only [List.map_cons, List.sum_cons, List.length_cons, ih, h x]; push_cast; ring
  rw [key, hbal.1, hbal.2]; ring

/-! ## C92 -/

/-- C92, for any surface and any sun: rays that start within `R` of the mirror centre, whose directions differ from the direction towards the aim point by
at most `δ` and which make an angle with cosine at least `κ` with the normal of the planar target, give a bitmap whose focal spot lies within `(R + distance * δ) / κ`
(plus the resolution of the bitmap) of the aim point in east and in up direction; rays may be blocked in part, and rays that miss the target do no harm as
long as at least one lands. -/
theorem C92_focal_spot_near_aim (eps : ℝ) (he : 0 < eps) (W H : Nat) (hW : 2 ≤ W) (hH : 2 ≤ H) (m ext refl : ℝ) (hm : 0 < m) (hext : ext < 1) (hrefl : 0 < refl)
    (p : Plane ℝ) (hw : 0 < p.width) (hh : 0 < p.height) (hn : V3.normSq p.normal = 1) (blocked : V3 ℝ × V3 ℝ → ℝ) (hblocked : ∀ ray, blocked ray < 1)
    (M : Matrix (Fin 4) (Fin 4) ℝ) (incident aim : Fin 4 → ℝ) (hi : UnitDirection incident) (surface : List (V3 ℝ × (Fin 4 → ℝ)))
    (hs : ∀ s ∈ surface, s.2 3 = 0 ∧ s.2 ⬝ᵥ s.2 = 1) (distortions : List (List (ℝ × ℝ)))
    (honplane : V3.dot (vec aim - p.center) p.normal = 0) (hfar : 0 < slant aim M) (R δ κ : ℝ) (hR : 0 ≤ R) (hδ : 0 ≤ δ) (hκ : 0 < κ)
    (hnear : ∀ s ∈ surface, V3.normSq (s.1 - vec (M *ᵥ ![0, 0, 0, 1])) ≤ R ^ 2)
    (hdir : ∀ ray ∈ raysOf incident surface distortions, V3.normSq (ray.2 - vec (toAim aim M)) ≤ δ ^ 2 ∧ κ ≤ -(V3.dot ray.2 p.normal))
    (hland : ∃ ray ∈ raysOf incident surface distortions, Lands p ray) :
    ∃ bitmap factors, traceSample W H m ext refl (.planar p) blocked (raysOf incident surface distortions) = .ok (bitmap, factors) ∧
      0 < power W H bitmap ∧
      |(focalSpot eps W H p bitmap).e - aim 0| ≤ pixelError eps p.width (power W H bitmap) W + (R + slant aim M * δ) / κ ∧
      |(focalSpot eps W H p bitmap).u - aim 2| ≤ pixelError eps p.height (power W H bitmap) H + (R + slant aim M * δ) / κ := by
  classical
  set rays := raysOf incident surface distortions with hrays
  set landed := rays.filter (fun ray => decide (Lands p ray)) with hl
  have hmem : ∀ ray ∈ landed, ray ∈ rays ∧ Lands p ray := fun ray hr => by simpa [hl] using List.mem_filter.1 hr
  have hne : landed ≠ [] := by
    obtain ⟨ray, hr, hL⟩ := hland
    exact List.ne_nil_of_mem (List.mem_filter.2 ⟨hr, by simpa using hL⟩)
  obtain ⟨bitmap', f', htr', htot, hpos, hwpos, he', hu'⟩ := spot_mean eps he W H hW hH m ext refl hm hext hrefl p hw hh blocked landed hne
    (fun ray _ => hblocked ray) (fun ray hr => (hmem ray hr).2)
  obtain ⟨bitmap, f, htr, _⟩ := C65_planar_total W H hW hH m ext refl p hw hh blocked rays
  obtain ⟨hspot, hpow⟩ := trace_landed eps W H hW hH m ext refl p hw hh blocked rays landed hl bitmap bitmap' f f' htr htr'
  refine ⟨bitmap, f, htr, ?_⟩
  rw [hspot, hpow]
  refine ⟨hpos, ?_⟩
  obtain ⟨hsd, hd1⟩ := toAim_unit aim M hfar
  have hunit : incident ⬝ᵥ incident = 1 := by
    have := length3_sq incident; rw [hi.2] at this
    simp only [dotProduct, Fin.sum_univ_four, hi.1]; linarith
  have horigin : ∀ ray ∈ rays, ∃ s ∈ surface, ray.1 = s.1 := by
    intro ray hr
    rw [hrays] at hr
    unfold raysOf at hr
    rw [List.mem_flatMap] at hr
    obtain ⟨row, -, hr⟩ := hr
    rw [← List.map_uncurry_zip_eq_zipWith, List.mem_map] at hr
    obtain ⟨⟨s, d⟩, hz, rfl⟩ := hr
    exact ⟨s, (List.of_mem_zip hz).1, rfl⟩
  have hpt : ∀ ray ∈ landed, |(planePoint ray.1 ray.2 p).e - aim 0| ≤ (R + slant aim M * δ) / κ ∧
      |(planePoint ray.1 ray.2 p).u - aim 2| ≤ (R + slant aim M * δ) / κ := by
    intro ray hr
    obtain ⟨hr, hL⟩ := hmem ray hr
    obtain ⟨s, hss, hso⟩ := horigin ray hr
    have hle := landing_error p hn (vec aim) (vec (M *ᵥ ![0, 0, 0, 1])) (ray.1 - vec (M *ᵥ ![0, 0, 0, 1])) (vec (toAim aim M)) ray.2 (slant aim M) R δ
      hfar.le hR hδ honplane hsd hd1 (by rw [raysOf_normSq incident surface distortions hi.1 hs ray hr, hunit]) (by rw [hso]; exact hnear s hss)
      (hdir ray hr).1 hL.1
    have e : vec (M *ᵥ ![0, 0, 0, 1]) + (ray.1 - vec (M *ᵥ ![0, 0, 0, 1])) = ray.1 := by ext <;> simp
    rw [e] at hle
    have hnn : 0 ≤ R + slant aim M * δ := by positivity
    have hκ' : (R + slant aim M * δ) / -(V3.dot ray.2 p.normal) ≤ (R + slant aim M * δ) / κ := div_le_div_of_nonneg_left hnn hκ (hdir ray hr).2
    exact ⟨hle.1.trans hκ', hle.2.trans hκ'⟩
  have b1 := mean_near landed _ (fun ray => (planePoint ray.1 ray.2 p).e) (aim 0) _ (fun ray hr => (hwpos ray hr).le) (by rw [← htot]; exact hpos)
    (fun ray hr => (hpt ray hr).1)
  have b2 := mean_near landed _ (fun ray => (planePoint ray.1 ray.2 p).u) (aim 2) _ (fun ray hr => (hwpos ray hr).le) (by rw [← htot]; exact hpos)
    (fun ray hr => (hpt ray hr).2)
  rw [← htot] at b1 b2
  exact ⟨(abs_sub_le _ _ _).trans (add_le_add he' b1), (abs_sub_le _ _ _).trans (add_le_add hu' b2)⟩

/-- C92, for an ideal flat mirror and an undistorted sun: if the mirror reflects the sun to the aim point up to `δ`, the focal spot of the bitmap is at the
aim point, up to the resolution of the bitmap and `distance * δ / cos`, whatever the size and the distance of the mirror. -/
theorem C92_flat_mirror (eps : ℝ) (he : 0 < eps) (W H : Nat) (hW : 2 ≤ W) (hH : 2 ≤ H) (m ext refl : ℝ) (hm : 0 < m) (hext : ext < 1) (hrefl : 0 < refl)
    (p : Plane ℝ) (hw : 0 < p.width) (hh : 0 < p.height) (hn : V3.normSq p.normal = 1) (blocked : V3 ℝ × V3 ℝ → ℝ) (hfree : ∀ ray, blocked ray = 0)
    (M : Matrix (Fin 4) (Fin 4) ℝ) (hM : Rigid M) (incident aim : Fin 4 → ℝ) (hi : UnitDirection incident) (points : List (ℝ × ℝ)) (hpoints : points ≠ [])
    (hbal : Balanced points) (k : Nat) (hk : 0 < k)
    (honplane : V3.dot (vec aim - p.center) p.normal = 0) (hfar : 0 < slant aim M) (δ : ℝ)
    (hdir : length3 (reflect incident (M *ᵥ ![0, 0, 1, 0]) - toAim aim M) ≤ δ)
    (hland : ∀ ray ∈ raysOf incident (flatMirror M points) (unscattered k points.length), Lands p ray) :
    ∃ bitmap factors, traceSample W H m ext refl (.planar p) blocked (raysOf incident (flatMirror M points) (unscattered k points.length)) =
        .ok (bitmap, factors) ∧
      let c := -(V3.dot (vec (reflect incident (M *ᵥ ![0, 0, 1, 0]))) p.normal)
      0 < c ∧ power W H bitmap = k * points.length * (m * (1 - ext) * refl * c) ∧
      |(focalSpot eps W H p bitmap).e - aim 0| ≤ pixelError eps p.width (power W H bitmap) W + slant aim M * δ / c ∧
      |(focalSpot eps W H p bitmap).u - aim 2| ≤ pixelError eps p.height (power W H bitmap) H + slant aim M * δ / c := by
  set r := vec (reflect incident (M *ᵥ ![0, 0, 1, 0])) with hr
  set o : ℝ × ℝ → V3 ℝ := fun q => vec (M *ᵥ ![q.1, q.2, 0, 1]) with ho
  have hrays := raysOf_unscattered incident M points k
  rw [← hr] at hrays
  change _ = (List.replicate k (points.map fun q => (o q, r))).flatten at hrays
  obtain ⟨q₀, hq₀⟩ := List.exists_mem_of_ne_nil points hpoints
  have hmem : ∀ q ∈ points, (o q, r) ∈ raysOf incident (flatMirror M points) (unscattered k points.length) := by
    intro q hq
    rw [hrays, List.mem_flatten]
    exact ⟨_, List.mem_replicate.2 ⟨hk.ne', rfl⟩, List.mem_map.2 ⟨q, hq, rfl⟩⟩
  have hc : V3.dot r p.normal < 0 := (hland _ (hmem q₀ hq₀)).1
  obtain ⟨bitmap, f, htr, htot, hpos, hwpos, he', hu'⟩ := spot_mean eps he W H hW hH m ext refl hm hext hrefl p hw hh blocked _
    (List.ne_nil_of_mem (hmem q₀ hq₀)) (fun ray _ => by rw [hfree]; norm_num) hland
  refine ⟨bitmap, f, htr, ?_⟩
  intro c
  have hc0 : 0 < c := by simp only [c]; linarith
  have hn0 : (0 : ℝ) < points.length := by exact_mod_cast List.length_pos_of_ne_nil hpoints
  have hk0 : (0 : ℝ) < k := by exact_mod_cast hk
  have hC : 0 < m * (1 - ext) * refl * c := mul_pos (mul_pos (mul_pos hm (by linarith)) hrefl) hc0
  have hP : power W H bitmap = k * points.length * (m * (1 - ext) * refl * c) := by
    rw [htot, hrays, sum_flatten_replicate, List.map_map]
    have : (points.map ((fun ray : V3 ℝ × V3 ℝ => m * (1 - ext) * refl * (1 - blocked ray) * -(V3.dot ray.2 p.normal)) ∘ fun q => (o q, r))).sum =
        points.length * (m * (1 - ext) * refl * c) := by
      apply sum_balanced points hbal _ _ 0 0
      intro q; simp only [Function.comp, hfree, c]; ring
    rw [this]; ring
  refine ⟨hc0, hP, ?_⟩
  -- the mean landing point is the landing point of the ray from the mirror centre
  have hlin : ∀ q : ℝ × ℝ, o q = o (0, 0) + (q.1 • vec (M *ᵥ ![1, 0, 0, 0]) + q.2 • vec (M *ᵥ ![0, 1, 0, 0])) := by
    intro q
    ext <;> simp only [ho, vec, mulVec, dotProduct, Fin.sum_univ_four, V3.add_e, V3.add_n, V3.add_u, V3.smul_e, V3.smul_n, V3.smul_u] <;>
      simp <;> ring
  have hmean : ∀ (g : V3 ℝ → ℝ), (∀ x y, g (x + y) = g x + g y) → (∀ (t : ℝ) x, g (t • x) = t * g x) →
      ((raysOf incident (flatMirror M points) (unscattered k points.length)).map fun ray =>
        m * (1 - ext) * refl * (1 - blocked ray) * -(V3.dot ray.2 p.normal) * g (planePoint ray.1 ray.2 p)).sum / power W H bitmap =
      g (planePoint (o (0, 0)) r p) := by
    intro g ga gm
    rw [hrays, sum_flatten_replicate, List.map_map, hP]
    have : (points.map ((fun ray : V3 ℝ × V3 ℝ => m * (1 - ext) * refl * (1 - blocked ray) * -(V3.dot ray.2 p.normal) * g (planePoint ray.1 ray.2 p)) ∘
        fun q => (o q, r))).sum = points.length * (m * (1 - ext) * refl * c * g (planePoint (o (0, 0)) r p)) := by
      apply sum_balanced points hbal _ _
        (m * (1 - ext) * refl * c * (g (vec (M *ᵥ ![1, 0, 0, 0])) - V3.dot (vec (M *ᵥ ![1, 0, 0, 0])) p.normal / V3.dot r p.normal * g r))
        (m * (1 - ext) * refl * c * (g (vec (M *ᵥ ![0, 1, 0, 0])) - V3.dot (vec (M *ᵥ ![0, 1, 0, 0])) p.normal / V3.dot r p.normal * g r))
      intro q
      simp only [Function.comp, hfree]
      rw [planePoint_eq p (vec aim) _ _ honplane hc, planePoint_eq p (vec aim) _ _ honplane hc, ga, gm, ga, gm, hlin q, ga, ga, gm, gm]
      have hdot : V3.dot (vec aim - (o (0, 0) + (q.1 • vec (M *ᵥ ![1, 0, 0, 0]) + q.2 • vec (M *ᵥ ![0, 1, 0, 0])))) p.normal =
          V3.dot (vec aim - o (0, 0)) p.normal - q.1 * V3.dot (vec (M *ᵥ ![1, 0, 0, 0])) p.normal - q.2 * V3.dot (vec (M *ᵥ ![0, 1, 0, 0])) p.normal := by
        simp only [V3.dot, V3.sub_e, V3.sub_n, V3.sub_u, V3.add_e, V3.add_n, V3.add_u, V3.smul_e, V3.smul_n, V3.smul_u]; ring
      rw [hdot]
      have hc' := hc.ne
      field_simp
      simp only [c]
      ring
    rw [this]
    have : 1 - ext ≠ 0 := by linarith
    field_simp
  obtain ⟨hsd, hd1⟩ := toAim_unit aim M hfar
  have hδ : 0 ≤ δ := (Real.sqrt_nonneg _).trans hdir
  have hdiff : V3.normSq (r - vec (toAim aim M)) ≤ δ ^ 2 := by
    have e : r - vec (toAim aim M) = vec (reflect incident (M *ᵥ ![0, 0, 1, 0]) - toAim aim M) := rfl
    rw [e, vec_normSq]
    exact pow_le_pow_left₀ (Real.sqrt_nonneg _) hdir 2
  have hunit : incident ⬝ᵥ incident = 1 := by
    have := length3_sq incident; rw [hi.2] at this
    simp only [dotProduct, Fin.sum_univ_four, hi.1]; linarith
  have hN := normal_unit M hM
  have hr1 : V3.normSq r = 1 := by
    have := direction_normSq incident (M *ᵥ ![0, 0, 1, 0]) hi.1 hN.1 hN.2 0 0
    unfold direction at this
    rw [rotDist_zero, one_mulVec, hunit] at this
    exact this
  have hle := landing_error p hn (vec aim) (o (0, 0)) 0 (vec (toAim aim M)) r (slant aim M) 0 δ
      hfar.le le_rfl hδ honplane hsd hd1 hr1 (by simp [V3.normSq, V3.dot]) hdiff hc
  have e0 : o (0, 0) + 0 = o (0, 0) := by ext <;> simp
  rw [e0, zero_add] at hle
  have m1 := hmean V3.e (fun _ _ => rfl) (fun _ _ => rfl)
  have m2 := hmean V3.u (fun _ _ => rfl) (fun _ _ => rfl)
  rw [m1] at he'
  rw [m2] at hu'
  exact ⟨(abs_sub_le _ _ _).trans (add_le_add he' hle.1), (abs_sub_le _ _ _).trans (add_le_add hu' hle.2)⟩

/-! A mirror tilted towards the south under a sun in the zenith, 50 m north of a target: normal (0, -3/5, 4/5), reflected direction (0, -24/25, 7/25). -/

/-- its orientation -/
noncomputable def tiltedMirror : Matrix (Fin 4) (Fin 4) ℝ := !![1, 0, 0, 0; 0, 4 / 5, -3 / 5, 50; 0, 3 / 5, 4 / 5, 0; 0, 0, 0, 1]
/-- its aim point -/
noncomputable def tiltedAim : Fin 4 → ℝ := ![0, 0, 175 / 12, 1]
/-- the target, seen from the north -/
def tiltedTarget : Plane ℝ := ⟨⟨0, 0, 15⟩, ⟨0, 1, 0⟩, 10, 10⟩

theorem tilted_slant : slant tiltedAim tiltedMirror = 625 / 12 := by
  have e : ∀ x : ℝ, x = (625 / 12) ^ 2 → √x = 625 / 12 := fun x hx => by rw [hx]; exact Real.sqrt_sq (by norm_num)
  unfold slant length3
  apply e
  simp [tiltedAim, tiltedMirror, mulVec, dotProduct, Fin.sum_univ_four]; norm_num

theorem tilted_reflect : reflect ![0, 0, -1, 0] (tiltedMirror *ᵥ ![0, 0, 1, 0]) = ![0, -24 / 25, 7 / 25, 0] := by
  unfold reflect
  ext j; fin_cases j <;> simp [tiltedMirror, mulVec, dotProduct, Fin.sum_univ_four] <;> norm_num

theorem tilted_toAim : toAim tiltedAim tiltedMirror = ![0, -24 / 25, 7 / 25, 0] := by
  have : toAim tiltedAim tiltedMirror = (slant tiltedAim tiltedMirror)⁻¹ • ![tiltedAim 0 - (tiltedMirror *ᵥ ![0, 0, 0, 1]) 0,
    tiltedAim 1 - (tiltedMirror *ᵥ ![0, 0, 0, 1]) 1, tiltedAim 2 - (tiltedMirror *ᵥ ![0, 0, 0, 1]) 2, 0] := rfl
  rw [this, tilted_slant]
  ext j; fin_cases j <;> simp [tiltedAim, tiltedMirror, mulVec, dotProduct, Fin.sum_univ_four] <;> norm_num

theorem tilted_lands (x y : ℝ) (hx : |x| ≤ 1) (hy : |y| ≤ 1) :
    Lands tiltedTarget (vec (tiltedMirror *ᵥ ![x, y, 0, 1]), vec (reflect ![0, 0, -1, 0] (tiltedMirror *ᵥ ![0, 0, 1, 0]))) := by
  rw [tilted_reflect]
  rw [abs_le] at hx hy
  refine ⟨by simp [vec, V3.dot, tiltedTarget]; norm_num, (50 + 4 / 5 * y) * (25 / 24), ?_⟩
  simp [vec, V3.dot, tiltedTarget, tiltedMirror, mulVec, dotProduct, Fin.sum_univ_four]
  refine ⟨by ring, ⟨by linarith, by linarith⟩, by linarith, by linarith⟩

/-- C92, instance: a 2 m × 2 m mirror represented by its corners, ten rays for each of them. -/
example : Rigid tiltedMirror ∧ UnitDirection ![0, 0, -1, 0] ∧ Balanced [(1, 1), (1, -1), (-1, 1), (-1, -1)] ∧
    V3.dot (vec tiltedAim - tiltedTarget.center) tiltedTarget.normal = 0 ∧ 0 < slant tiltedAim tiltedMirror ∧ V3.normSq tiltedTarget.normal = 1 ∧
    length3 (reflect ![0, 0, -1, 0] (tiltedMirror *ᵥ ![0, 0, 1, 0]) - toAim tiltedAim tiltedMirror) ≤ 0 ∧
    ∀ ray ∈ raysOf ![0, 0, -1, 0] (flatMirror tiltedMirror [(1, 1), (1, -1), (-1, 1), (-1, -1)]) (unscattered 10 4), Lands tiltedTarget ray := by
  refine ⟨⟨?_, ?_, ?_⟩, ⟨by simp, by simp [length3]⟩, ?_, ?_, ?_, ?_, ?_, ?_⟩
  · ext i j; fin_cases i <;> fin_cases j <;> simp [linearPart, tiltedMirror, Matrix.mul_apply, Fin.sum_univ_three] <;> norm_num
  · simp [linearPart, tiltedMirror, Matrix.det_fin_three]; norm_num
  · ext j; fin_cases j <;> simp [tiltedMirror]
  · constructor <;> simp
  · simp [vec, V3.dot, tiltedTarget, tiltedAim]
  · rw [tilted_slant]; norm_num
  · simp [V3.normSq, V3.dot, tiltedTarget]
  · rw [tilted_reflect, tilted_toAim]; simp [length3]
  · intro ray hr
    have := raysOf_unscattered ![0, 0, -1, 0] tiltedMirror [(1, 1), (1, -1), (-1, 1), (-1, -1)] 10
    rw [show ([(1, 1), (1, -1), (-1, 1), (-1, -1)] : List (ℝ × ℝ)).length = 4 from rfl] at this
    rw [this, List.mem_flatten] at hr
    obtain ⟨l, hl, hr⟩ := hr
    rw [List.mem_replicate] at hl
    rw [hl.2, List.mem_map] at hr
    obtain ⟨q, hq, rfl⟩ := hr
    apply tilted_lands <;> (simp at hq; rcases hq with rfl | rfl | rfl | rfl <;> simp)

/-- C92, instance with a ray that misses the target: a mirror with a point 9 m off its centre. -/
example : (∀ s ∈ flatMirror tiltedMirror [(0, 0), (9, 0)], s.2 3 = 0 ∧ s.2 ⬝ᵥ s.2 = 1) ∧
    (∀ s ∈ flatMirror tiltedMirror [(0, 0), (9, 0)], V3.normSq (s.1 - vec (tiltedMirror *ᵥ ![0, 0, 0, 1])) ≤ 9 ^ 2) ∧
    (∀ ray ∈ raysOf ![0, 0, -1, 0] (flatMirror tiltedMirror [(0, 0), (9, 0)]) (unscattered 1 2),
      V3.normSq (ray.2 - vec (toAim tiltedAim tiltedMirror)) ≤ 0 ^ 2 ∧ 24 / 25 ≤ -(V3.dot ray.2 tiltedTarget.normal)) ∧
    (∃ ray ∈ raysOf ![0, 0, -1, 0] (flatMirror tiltedMirror [(0, 0), (9, 0)]) (unscattered 1 2), Lands tiltedTarget ray) ∧
    ∃ ray ∈ raysOf ![0, 0, -1, 0] (flatMirror tiltedMirror [(0, 0), (9, 0)]) (unscattered 1 2), ¬ Lands tiltedTarget ray := by
  have hrays := raysOf_unscattered ![0, 0, -1, 0] tiltedMirror [(0, 0), (9, 0)] 1
  rw [show ([(0, 0), (9, 0)] : List (ℝ × ℝ)).length = 2 from rfl, tilted_reflect] at hrays
  simp only [List.replicate_one, List.flatten_cons, List.flatten_nil, List.append_nil, List.map_cons, List.map_nil] at hrays
  rw [hrays, tilted_toAim]
  refine ⟨?_, ?_, ?_, ⟨_, List.mem_cons_self, ?_⟩, ⟨_, List.mem_cons_of_mem _ List.mem_cons_self, ?_⟩⟩
  · intro s hs
    simp [flatMirror] at hs
    rcases hs with rfl | rfl <;> simp [tiltedMirror, mulVec, dotProduct, Fin.sum_univ_four] <;> norm_num
  · intro s hs
    simp [flatMirror] at hs
    rcases hs with rfl | rfl <;> simp [tiltedMirror, mulVec, dotProduct, Fin.sum_univ_four, V3.normSq, V3.dot, vec] <;> norm_num
  · intro ray hr
    simp at hr
    rcases hr with rfl | rfl <;> simp [V3.normSq, V3.dot, vec, tiltedTarget] <;> norm_num
  · have := tilted_lands 0 0 (by simp) (by simp)
    rw [tilted_reflect] at this; exact this
  · rintro ⟨_, t, h⟩
    simp [vec, V3.dot, tiltedTarget, tiltedMirror, mulVec, dotProduct, Fin.sum_univ_four] at h
    linarith [h.2.1.2]

/-- C92, from alignment to the focal spot: a heliostat whose mirror centre does not move with its joints is aligned with its aim point on a planar target
(at least two iterations, bisecting normal reachable, actuators able to realise the angles) and traced with an ideal flat mirror and an undistorted sun;
then the focal spot of its bitmap is at the aim point up to the resolution of the bitmap and `distance * 4 * √(2e-8 + 1e-16) / cos`. -/
theorem C92_aligned (eps : ℝ) (he : 0 < eps) (W H : Nat) (hW : 2 ≤ W) (hH : 2 ≤ H) (m ext refl : ℝ) (hm : 0 < m) (hext : ext < 1) (hrefl : 0 < refl)
    (p : Plane ℝ) (hw : 0 < p.width) (hh : 0 < p.height) (hn : V3.normSq p.normal = 1) (blocked : V3 ℝ × V3 ℝ → ℝ) (hfree : ∀ ray, blocked ray = 0)
    {l : Nat} (t : Task l) (hf : ∀ i, FixedOrigin (t.heliostat i)) (n : Nat) (hn2 : 2 ≤ n) (minEps : ℝ)
    (o : Fin l → Matrix (Fin 4) (Fin 4) ℝ) (motors : Fin l → ℝ × ℝ) (halign : t.align n minEps = .ok (o, motors)) (i : Fin l)
    (hi : UnitDirection (t.incident i)) (hfar : 1 / 10 ^ 8 ≤ slant (t.aim i) (o i))
    (hback : 1 / 10 ^ 8 ≤ length3 (toAim (t.aim i) (o i) - t.incident i))
    (hreach : Reachable (t.heliostat i) (Heliostat.desiredNormal (t.incident i) (t.aim i) (o i)))
    (hact : ∀ s, (s = ((t.heliostat i).jointAngles (1 / 10 ^ 8) (Heliostat.desiredNormal (t.incident i) (t.aim i) (o i))).1 ∨
        s = ((t.heliostat i).jointAngles (1 / 10 ^ 8) (Heliostat.desiredNormal (t.incident i) (t.aim i) (o i))).2) →
      (t.heliostat i).actuator1.toAngle ((t.heliostat i).actuator1.toMotor s.1) = s.1 ∧
      (t.heliostat i).actuator2.toAngle ((t.heliostat i).actuator2.toMotor s.2) = s.2)
    (points : List (ℝ × ℝ)) (hpoints : points ≠ []) (hbal : Balanced points) (k : Nat) (hk : 0 < k)
    (honplane : V3.dot (vec (t.aim i) - p.center) p.normal = 0)
    (hland : ∀ ray ∈ raysOf (t.incident i) (flatMirror (o i) points) (unscattered k points.length), Lands p ray) :
    ∃ bitmap factors, traceSample W H m ext refl (.planar p) blocked (raysOf (t.incident i) (flatMirror (o i) points) (unscattered k points.length)) =
        .ok (bitmap, factors) ∧
      let c := -(V3.dot (vec (reflect (t.incident i) (o i *ᵥ ![0, 0, 1, 0]))) p.normal)
      0 < c ∧ power W H bitmap = k * points.length * (m * (1 - ext) * refl * c) ∧
      |(focalSpot eps W H p bitmap).e - t.aim i 0| ≤ pixelError eps p.width (power W H bitmap) W +
        slant (t.aim i) (o i) * (4 * √(2 * (1 / 10 ^ 8) + (1 / 10 ^ 8) ^ 2)) / c ∧
      |(focalSpot eps W H p bitmap).u - t.aim i 2| ≤ pixelError eps p.height (power W H bitmap) H +
        slant (t.aim i) (o i) * (4 * √(2 * (1 / 10 ^ 8) + (1 / 10 ^ 8) ^ 2)) / c := by
  have hM : Rigid (o i) := by
    obtain ⟨j, _, _, ho, _⟩ := C26_result t n minEps o motors halign
    rw [ho i]; exact (C24_rigid (t.heliostat i) _).2
  exact C92_flat_mirror eps he W H hW hH m ext refl hm hext hrefl p hw hh hn blocked hfree (o i) hM (t.incident i) (t.aim i) hi points hpoints hbal k hk
    honplane (lt_of_lt_of_le (by norm_num) hfar) _ (C56_reflects_to_aim t hf n hn2 minEps o motors halign i hi hfar hback hreach hact) hland

/-- C92, instance: the heliostat of C56 at (10, 20, 30), aligned to an aim point 50 m south of it in the middle of a target of 10 m × 10 m,
with the mirror represented by four points. -/
example : ∃ o m, taskExample.align 4 (1 / 10 ^ 4) = .ok (o, m) ∧
    (∀ ray ∈ raysOf (taskExample.incident 0) (flatMirror (o 0) [(1, 0), (-1, 0), (0, 1), (0, -1)]) (unscattered 3 4),
      Lands ⟨⟨10, -30, 30⟩, ⟨0, 1, 0⟩, 10, 10⟩ ray) ∧
    ∃ bitmap factors, traceSample 256 256 1 0 1 (.planar ⟨⟨10, -30, 30⟩, ⟨0, 1, 0⟩, 10, 10⟩) (fun _ => 0)
        (raysOf (taskExample.incident 0) (flatMirror (o 0) [(1, 0), (-1, 0), (0, 1), (0, -1)]) (unscattered 3 4)) = .ok (bitmap, factors) ∧
      |(focalSpot (1 / 10 ^ 8) 256 256 ⟨⟨10, -30, 30⟩, ⟨0, 1, 0⟩, 10, 10⟩ bitmap).e - 10| ≤ 1 / 10 := by
  obtain ⟨o, m, h, hor, hto, hi, hlen, hback, hreach⟩ := taskExample_aligned
  refine ⟨o, m, h, ?_⟩
  set p : Plane ℝ := ⟨⟨10, -30, 30⟩, ⟨0, 1, 0⟩, 10, 10⟩ with hp
  have hclose := C56_reflects_to_aim taskExample (fun _ _ _ => rfl) 4 (by norm_num) _ o m h 0 hi (by rw [hlen]; norm_num) hback hreach (fun s _ => ⟨rfl, rfl⟩)
  have hδ : (4 : ℝ) * √(2 * (1 / 10 ^ 8) + (1 / 10 ^ 8) ^ 2) ≤ 1 / 1000 := by
    have : √(2 * (1 / 10 ^ 8) + (1 / 10 ^ 8) ^ 2 : ℝ) ≤ 1 / 4000 := by
      rw [Real.sqrt_le_left (by norm_num)]; norm_num
    linarith
  have hδ0 : (0 : ℝ) ≤ 4 * √(2 * (1 / 10 ^ 8) + (1 / 10 ^ 8) ^ 2) := by positivity
  obtain ⟨j, _, _, ho, _⟩ := C26_result taskExample 4 _ o m h
  have hM : Rigid (o 0) := by rw [ho 0]; exact (C24_rigid (taskExample.heliostat 0) _).2
  set r := reflect (taskExample.incident 0) (o 0 *ᵥ ![0, 0, 1, 0]) with hr
  rw [hto] at hclose
  have hrn : |r 1 + 1| ≤ 1 / 1000 := by
    have := (abs_comp_le_length3 (r - ![0, -1, 0, 0])).2.1
    rw [show (r - (![0, -1, 0, 0] : Fin 4 → ℝ)) 1 = r 1 + 1 by simp] at this
    linarith
  have hrneg : V3.dot (vec r) p.normal ≤ -(999 / 1000) := by
    rw [abs_le] at hrn
    simp [V3.dot, vec, hp]; linarith [hrn.2]
  have hc : V3.dot (vec r) p.normal < 0 := by linarith
  have hsl : slant (taskExample.aim 0) (o 0) = 50 := hlen
  obtain ⟨hsd, hd1⟩ := toAim_unit (taskExample.aim 0) (o 0) (by rw [hsl]; norm_num)
  have hplane : V3.dot (vec (taskExample.aim 0) - p.center) p.normal = 0 := by
    simp [V3.dot, vec, hp, taskExample]
  have hunit : taskExample.incident 0 ⬝ᵥ taskExample.incident 0 = 1 := by
    simp [taskExample]
  have hN : (o 0 *ᵥ ![0, 0, 1, 0]) 3 = 0 ∧ (o 0 *ᵥ ![0, 0, 1, 0]) ⬝ᵥ (o 0 *ᵥ ![0, 0, 1, 0]) = 1 := normal_unit (o 0) hM
  have hr1 : V3.normSq (vec r) = 1 := by
    have := direction_normSq (taskExample.incident 0) (o 0 *ᵥ ![0, 0, 1, 0]) hi.1 hN.1 hN.2 0 0
    unfold direction at this
    rw [rotDist_zero, one_mulVec, hunit] at this
    exact this
  have hland : ∀ ray ∈ raysOf (taskExample.incident 0) (flatMirror (o 0) [(1, 0), (-1, 0), (0, 1), (0, -1)]) (unscattered 3 4), Lands p ray := by
    intro ray hray
    have hraysOf := raysOf_unscattered (taskExample.incident 0) (o 0) [(1, 0), (-1, 0), (0, 1), (0, -1)] 3
    rw [show ([(1, 0), (-1, 0), (0, 1), (0, -1)] : List (ℝ × ℝ)).length = 4 from rfl] at hraysOf
    rw [hraysOf, List.mem_flatten] at hray
    obtain ⟨l, hl, hray⟩ := hray
    rw [List.mem_replicate] at hl
    rw [hl.2, List.mem_map] at hray
    obtain ⟨q, hq, rfl⟩ := hray
    have hv : V3.normSq (vec (o 0 *ᵥ ![q.1, q.2, 0, 0])) ≤ 1 ^ 2 := by
      rw [vec_normSq, hM.length_dir _ (by simp), length3_sq]
      simp at hq; rcases hq with rfl | rfl | rfl | rfl <;> simp
    have e : vec (o 0 *ᵥ ![q.1, q.2, 0, 1]) = vec (o 0 *ᵥ ![0, 0, 0, 1]) + vec (o 0 *ᵥ ![q.1, q.2, 0, 0]) := by
      ext <;> simp [vec, mulVec, dotProduct, Fin.sum_univ_four] <;> ring
    have hle := landing_error p (by simp [hp, V3.normSq, V3.dot]) _ _ (vec (o 0 *ᵥ ![q.1, q.2, 0, 0])) _ (vec r) _ 1 (1 / 1000)
      (by rw [hsl]; norm_num) (by norm_num) (by norm_num) hplane hsd hd1 hr1 hv (by
        rw [hto, show vec r - vec ![0, -1, 0, 0] = vec (r - ![0, -1, 0, 0]) from rfl, vec_normSq]
        exact pow_le_pow_left₀ (Real.sqrt_nonneg _) (hclose.trans hδ) 2) hc
    rw [← e, hsl] at hle
    have hb : (1 + 50 * (1 / 1000)) / -(V3.dot (vec r) p.normal) ≤ 2 := by
      rw [div_le_iff₀ (by linarith)]; linarith
    have h1 := abs_le.1 (hle.1.trans hb)
    have h2 := abs_le.1 (hle.2.trans hb)
    have ha0 : (vec (taskExample.aim 0)).e = 10 ∧ (vec (taskExample.aim 0)).u = 30 := by simp [vec, taskExample]
    rw [ha0.1] at h1; rw [ha0.2] at h2
    refine ⟨hc, planeDistance (vec (o 0 *ᵥ ![q.1, q.2, 0, 1])) (vec r) p, ?_⟩
    change V3.dot (planePoint (vec (o 0 *ᵥ ![q.1, q.2, 0, 1])) (vec r) p - p.center) p.normal = 0 ∧ _
    refine ⟨planePoint_on p _ _ hc, ?_⟩
    change (-(10 / 2 : ℝ) < (planePoint (vec (o 0 *ᵥ ![q.1, q.2, 0, 1])) (vec r) p).e - 10 ∧
      (planePoint (vec (o 0 *ᵥ ![q.1, q.2, 0, 1])) (vec r) p).e - 10 ≤ 10 / 2) ∧
      -(10 / 2 : ℝ) ≤ (planePoint (vec (o 0 *ᵥ ![q.1, q.2, 0, 1])) (vec r) p).u - 30 ∧
      (planePoint (vec (o 0 *ᵥ ![q.1, q.2, 0, 1])) (vec r) p).u - 30 < 10 / 2
    exact ⟨⟨by linarith, by linarith⟩, by linarith, by linarith⟩
  refine ⟨hland, ?_⟩
  obtain ⟨bitmap, factors, htr, hc0, hpow, hes, -⟩ := C92_aligned (1 / 10 ^ 8) (by norm_num) 256 256 (by norm_num) (by norm_num) 1 0 1 (by norm_num) (by norm_num)
    (by norm_num) p (by norm_num [hp]) (by norm_num [hp]) (by simp [hp, V3.normSq, V3.dot]) (fun _ => 0) (fun _ => rfl) taskExample (fun _ _ _ => rfl) 4 (by norm_num)
    _ o m h 0 hi (by rw [hsl]; norm_num) hback hreach (fun s _ => ⟨rfl, rfl⟩) [(1, 0), (-1, 0), (0, 1), (0, -1)] (by simp) (by constructor <;> simp) 3 (by norm_num)
    hplane hland
  refine ⟨bitmap, factors, htr, ?_⟩
  rw [← hr] at hc0 hpow hes
  have ha0 : taskExample.aim 0 0 = 10 := by simp [taskExample]
  rw [ha0, hsl] at hes
  refine hes.trans ?_
  have b1 : 50 * (4 * √(2 * (1 / 10 ^ 8) + (1 / 10 ^ 8) ^ 2 : ℝ)) / -(V3.dot (vec r) p.normal) ≤ 6 / 100 := by
    rw [div_le_iff₀ hc0]; linarith
  have b2 : pixelError (1 / 10 ^ 8) p.width (power 256 256 bitmap) 256 ≤ 3 / 100 := by
    have hP : (1 : ℝ) ≤ power 256 256 bitmap := by
      rw [hpow]; push_cast [List.length_cons, List.length_nil]; linarith
    unfold pixelError
    have : (1 / 10 ^ 8 : ℝ) / (power 256 256 bitmap + 1 / 10 ^ 8) ≤ 1 / 10 ^ 8 := by
      rw [div_le_iff₀ (by linarith)]; nlinarith
    have hw10 : p.width = 10 := rfl
    rw [hw10]
    push_cast
    linarith
  linarith

end Artist.Aiming
