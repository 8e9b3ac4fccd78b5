import Verif.Model.Flux
import Verif.Props.Intersect
import Verif.Props.Splat
import Verif.Props.SoftMask
import Verif.Props.Transforms
import Mathlib.Analysis.Calculus.Deriv.Basic
import Mathlib.Analysis.SpecialFunctions.Sqrt
/-!
# C65, C66, C67: power in the bitmaps, the three fractions, and the power of a ray
-/
namespace Artist
open Intersect Splat SoftMask Transforms Flux Finset

/-- Target areas with positive dimensions and unit vectors. -/
def Target.Valid : Target → Prop
  | .planar p => 0 < p.width ∧ 0 < p.height ∧ V3.normSq p.normal = 1
  | .cylinder c => c.Framed ∧ 0 < c.height ∧ 0 < c.opening

/-- Sum of all pixels of a bitmap. -/
noncomputable def power (W H : Nat) (bitmap : List (List ℝ)) : ℝ := ∑ r ∈ range H, ∑ c ∈ range W, pixel bitmap r c

/-- C65: target areas are numbered with the planar ones first, then the cylindrical ones; a number beyond both raises. -/
theorem C65_target (planes : List (Plane ℝ)) (cylinders : List Cylinder) :
    (∀ i p, planes[i]? = some p → target planes cylinders i = .ok (.planar p)) ∧
    (∀ i c, cylinders[i]? = some c → target planes cylinders (planes.length + i) = .ok (.cylinder c)) ∧
    ∀ i, planes.length + cylinders.length ≤ i → target planes cylinders i = .error .indexError := by
  refine ⟨?_, ?_, ?_⟩
  · intro i p h
    have := (List.getElem?_eq_some_iff.1 h).1
    unfold target; rw [if_pos this, h]
  · intro i c h
    unfold target; rw [if_neg (by omega), Nat.add_sub_cancel_left, h]
  · intro i h
    unfold target; rw [if_neg (by omega), List.getElem?_eq_none (by omega)]

theorem dot_sq_le (a b : V3 ℝ) : V3.dot a b ^ 2 ≤ V3.normSq a * V3.normSq b := by
  unfold V3.normSq V3.dot
  nlinarith [sq_nonneg (a.e * b.n - a.n * b.e), sq_nonneg (a.e * b.u - a.u * b.e), sq_nonneg (a.n * b.u - a.u * b.n)]

theorem normSq_nonneg (a : V3 ℝ) : 0 ≤ V3.normSq a := by
  unfold V3.normSq V3.dot; nlinarith [sq_nonneg a.e, sq_nonneg a.n, sq_nonneg a.u]

theorem dot_le_one (a b : V3 ℝ) (ha : V3.normSq a ≤ 1) (hb : V3.normSq b = 1) : |V3.dot a b| ≤ 1 := by
  have := dot_sq_le a b
  rw [hb, mul_one] at this
  rw [abs_le_one_iff_mul_self_le_one]
  nlinarith

theorem land_bounds (W H : Nat) (hW : 2 ≤ W) (hH : 2 ≤ H) (m : ℝ) (hm : 0 ≤ m) (t : Target) (ht : Target.Valid t) (ray : V3 ℝ × V3 ℝ)
    (hd : V3.normSq ray.2 ≤ 1) :
    let l := land W H m t ray
    0 ≤ l.e ∧ 0 ≤ l.u ∧ 0 ≤ l.intensity ∧ l.intensity ≤ m := by
  intro l
  cases t with
  | planar p =>
    obtain ⟨hw, hh, hn⟩ := ht
    have hc := C17_coordinates_in_bitmap W H hW hH ray.1 ray.2 m p hw hh
    refine ⟨hc.1.1, hc.2.1, ?_⟩
    have h1 := C17_intensity W H hW hH ray.1 ray.2 m p hw hh
    by_cases hit : V3.dot ray.2 p.normal < 0 ∧ ∃ t : ℝ, OnTarget p (ray.1 + t • ray.2)
    · have h := h1.1 hit
      simp only [l, land, h]
      have hb := abs_le.1 (dot_le_one ray.2 p.normal hd hn)
      constructor
      · apply mul_nonneg hm; linarith [hit.1]
      · nlinarith [hb.1]
    · have h := h1.2 hit
      simp only [l, land, h]
      exact ⟨le_refl _, hm⟩
  | cylinder c =>
    obtain ⟨hfr, hh, ho⟩ := ht
    have hb := C18_bounds W H (by omega) (by omega) ray.1 ray.2 m hm c hh ho
    refine ⟨hb.1.1, hb.2.1.1, hb.2.2.1, ?_⟩
    by_cases h0 : lineCylinder W H ray.1 ray.2 m c = ⟨0, 0, 0, 0⟩
    · simp only [l, land, h0]; exact hm
    · cases hdist : c.distance ray.1 ray.2 with
      | none =>
        exfalso; apply h0
        unfold lineCylinder; rw [hdist]
      | some s =>
        have hi := C18_intensity W H ray.1 ray.2 m s c hfr hdist h0
        simp only [l, land]
        rw [hi]
        set ν := ray.1 + s • ray.2 - c.center - V3.dot (ray.1 + s • ray.2 - c.center) c.axis • c.axis
        have hle : max (-(V3.dot ray.2 ν / Real.sqrt (V3.normSq ν))) 0 ≤ 1 := by
          apply max_le _ zero_le_one
          rw [← neg_div]
          apply div_le_one_of_le₀ _ (Real.sqrt_nonneg _)
          apply Real.le_sqrt_of_sq_le
          have := dot_sq_le ray.2 ν
          nlinarith [normSq_nonneg ν]
        nlinarith

theorem land_magnitude (W H : Nat) (m : ℝ) (t : Target) (ray : V3 ℝ × V3 ℝ) :
    land W H m t ray = { land W H 1 t ray with intensity := m * (land W H 1 t ray).intensity } := by
  cases t with
  | planar p =>
    simp only [land, linePlane]
    congr 1
    split_ifs <;> ring
  | cylinder c =>
    simp only [land, lineCylinder]
    split
    · simp
    · split_ifs <;> simp

theorem direction_normSq (incident normal : Fin 4 → ℝ) (hi : incident 3 = 0) (hn : normal 3 = 0) (hn1 : normal ⬝ᵥ normal = 1) (e u : ℝ) :
    V3.normSq (direction incident normal e u) = incident ⬝ᵥ incident := by
  have h3 : reflect incident normal 3 = 0 := C16_direction incident normal hi hn
  have h1 := (C16_isometry incident incident normal hn1).2
  have h2 := (C19_rigid_meaning (C19_rotations_rigid e u).2.2.2).2.1 (reflect incident normal) (reflect incident normal) h3 h3
  have h4 : V3.normSq (direction incident normal e u) =
      inner3 (Matrix.mulVec (rotDist e u) (reflect incident normal)) (Matrix.mulVec (rotDist e u) (reflect incident normal)) := rfl
  rw [h4, h2, ← h1]
  simp only [inner3, dotProduct, Fin.sum_univ_four, h3]
  ring

/-- every ray of a sample has the length of the incident direction -/
theorem raysOf_normSq (incident : Fin 4 → ℝ) (surface : List (V3 ℝ × (Fin 4 → ℝ))) (distortions : List (List (ℝ × ℝ)))
    (hi : incident 3 = 0) (hs : ∀ s ∈ surface, s.2 3 = 0 ∧ s.2 ⬝ᵥ s.2 = 1) (ray : V3 ℝ × V3 ℝ)
    (h : ray ∈ raysOf incident surface distortions) : V3.normSq ray.2 = incident ⬝ᵥ incident := by
  unfold raysOf at h
  rw [List.mem_flatMap] at h
  obtain ⟨row, -, h⟩ := h
  rw [← List.map_uncurry_zip_eq_zipWith, List.mem_map] at h
  obtain ⟨⟨s, d⟩, hm, rfl⟩ := h
  have := hs s (List.of_mem_zip hm).1
  exact direction_normSq incident s.2 hi this.1 this.2 d.1 d.2

theorem traceSample_spec (W H : Nat) (hW : 2 ≤ W) (hH : 2 ≤ H) (m ext refl : ℝ) (hm : 0 ≤ m) (t : Target) (ht : Target.Valid t)
    (blocked : V3 ℝ × V3 ℝ → ℝ) (rays : List (V3 ℝ × V3 ℝ)) (hd : ∀ ray ∈ rays, V3.normSq ray.2 ≤ 1) :
    ∃ bitmap, splat W H (rays.map (hitOf W H m ext refl t blocked)) = .ok bitmap ∧
      (∀ h ∈ rays.map (hitOf W H m ext refl t blocked), 0 ≤ h.e ∧ 0 ≤ h.u) ∧
      traceSample W H m ext refl t blocked rays = .ok (bitmap,
        (rays.countP fun ray => decide (0 < (hitOf W H m ext refl t blocked ray).w) : Nat) / (rays.length : ℝ),
        (rays.countP fun ray => decide (0 < (land W H m t ray).intensity) : Nat) / (rays.length : ℝ),
        (rays.countP fun ray => decide (blocked ray < 1 / 10 ^ 3) : Nat) / (rays.length : ℝ)) := by
  have hpos : ∀ h ∈ rays.map (hitOf W H m ext refl t blocked), 0 ≤ h.e ∧ 0 ≤ h.u := by
    intro h hh
    rw [List.mem_map] at hh
    obtain ⟨ray, hr, rfl⟩ := hh
    have := land_bounds W H hW hH m hm t ht ray (hd ray hr)
    exact ⟨this.1, this.2.1⟩
  obtain ⟨bitmap, hb, -⟩ := C08_pixel W H (by omega) (by omega) _ hpos
  refine ⟨bitmap, hb, hpos, ?_⟩
  unfold traceSample
  simp only [hb]

/-- A ray that reaches a planar target: it runs against the normal and its line meets the target rectangle, the left and the top edge
(as seen from the field) excluded. -/
def Lands (p : Plane ℝ) (ray : V3 ℝ × V3 ℝ) : Prop :=
  V3.dot ray.2 p.normal < 0 ∧ ∃ t : ℝ, let q := ray.1 + t • ray.2
    V3.dot (q - p.center) p.normal = 0 ∧ (-(p.width / 2) < q.e - p.center.e ∧ q.e - p.center.e ≤ p.width / 2) ∧
      (-(p.height / 2) ≤ q.u - p.center.u ∧ q.u - p.center.u < p.height / 2)

theorem inside_iff_lands (W H : Nat) (hW : 2 ≤ W) (hH : 2 ≤ H) (m ext refl : ℝ) (p : Plane ℝ) (hw : 0 < p.width) (hh : 0 < p.height)
    (blocked : V3 ℝ × V3 ℝ → ℝ) (ray : V3 ℝ × V3 ℝ) :
    (Inside W H (hitOf W H m ext refl (.planar p) blocked ray) ↔ Lands p ray) ∧
    (Lands p ray → (hitOf W H m ext refl (.planar p) blocked ray).w = m * -(V3.dot ray.2 p.normal) * (1 - blocked ray) * (1 - ext) * refl) := by
  have hW1 : (0 : ℝ) < (W : ℝ) - 1 := by
    have : (2 : ℝ) ≤ (W : ℝ) := by exact_mod_cast hW
    linarith
  have hH1 : (0 : ℝ) < (H : ℝ) - 1 := by
    have : (2 : ℝ) ≤ (H : ℝ) := by exact_mod_cast hH
    linarith
  have huniq : V3.dot ray.2 p.normal < 0 → ∀ t : ℝ, V3.dot (ray.1 + t • ray.2 - p.center) p.normal = 0 →
      planePoint ray.1 ray.2 p = ray.1 + t • ray.2 := by
    intro hf t h0
    unfold planePoint
    congr 2
    simp only [Intersect.planeDistance, planeAngle, hf, decide_true, if_true]
    rw [div_eq_iff hf.ne]
    unfold V3.dot at h0 ⊢
    simp only [V3.sub_e, V3.sub_n, V3.sub_u, V3.add_e, V3.add_n, V3.add_u, V3.smul_e, V3.smul_n, V3.smul_u] at h0 ⊢
    linear_combination -h0
  have hlands : Lands p ray → V3.dot ray.2 p.normal < 0 ∧ OnTarget p (planePoint ray.1 ray.2 p) := by
    rintro ⟨hf, t, h0, ⟨h1, h2⟩, h3, h4⟩
    refine ⟨hf, ?_⟩
    rw [huniq hf t h0]
    exact ⟨h0, abs_le.2 ⟨h1.le, h2⟩, abs_le.2 ⟨h3, h4.le⟩⟩
  rcases linePlane_spec W H hW hH ray.1 ray.2 m p hw hh with ⟨hf, hon, heq⟩ | ⟨hno, heq⟩
  · have he : hitOf W H m ext refl (.planar p) blocked ray =
        ⟨((W : ℝ) - 1) * (1 / 2 - ((planePoint ray.1 ray.2 p).e - p.center.e) / p.width),
        ((H : ℝ) - 1) * (1 / 2 + ((planePoint ray.1 ray.2 p).u - p.center.u) / p.height),
        m * -(V3.dot ray.2 p.normal) * (1 - blocked ray) * (1 - ext) * refl⟩ := by
      simp only [hitOf, land, heq, intensity]
    rw [he]
    refine ⟨?_, fun _ => rfl⟩
    obtain ⟨h0, h1, h2⟩ := hon
    rw [abs_le] at h1 h2
    have hin : Inside W H (⟨((W : ℝ) - 1) * (1 / 2 - ((planePoint ray.1 ray.2 p).e - p.center.e) / p.width),
        ((H : ℝ) - 1) * (1 / 2 + ((planePoint ray.1 ray.2 p).u - p.center.u) / p.height),
        m * -(V3.dot ray.2 p.normal) * (1 - blocked ray) * (1 - ext) * refl⟩ : Hit ℝ) ↔
        -(p.width / 2) < (planePoint ray.1 ray.2 p).e - p.center.e ∧ (planePoint ray.1 ray.2 p).u - p.center.u < p.height / 2 := by
      unfold Inside
      simp only
      generalize (planePoint ray.1 ray.2 p).e - p.center.e = x at h1
      generalize (planePoint ray.1 ray.2 p).u - p.center.u = y at h2
      have hx : x / p.width ≤ 1 / 2 := by rw [div_le_iff₀ hw]; linarith [h1.2]
      have hy : -(1 / 2) ≤ y / p.height := by rw [le_div_iff₀ hh]; linarith [h2.1]
      have hx' : -(1 / 2) < x / p.width ↔ -(p.width / 2) < x := by rw [lt_div_iff₀ hw]; constructor <;> intro h <;> linarith
      have hy' : y / p.height < 1 / 2 ↔ y < p.height / 2 := by rw [div_lt_iff₀ hh]; constructor <;> intro h <;> linarith
      rw [← hx', ← hy']
      constructor
      · rintro ⟨⟨-, a⟩, -, b⟩
        constructor
        · by_contra hc; nlinarith
        · by_contra hc; nlinarith
      · rintro ⟨a, b⟩
        refine ⟨⟨mul_nonneg hW1.le (by linarith), by nlinarith⟩, mul_nonneg hH1.le (by linarith), by nlinarith⟩
    rw [hin]
    constructor
    · rintro ⟨a, b⟩
      exact ⟨hf, _, h0, ⟨a, h1.2⟩, h2.1, b⟩
    · rintro ⟨-, t, g0, ⟨g1, g2⟩, g3, g4⟩
      rw [huniq hf t g0]
      exact ⟨g1, g4⟩
  · have he : hitOf W H m ext refl (.planar p) blocked ray = ⟨(W : ℝ) - 1, 0, 0⟩ := by
      simp only [hitOf, land, heq, intensity]
      simp
    have hnl : ¬ Lands p ray := fun h => hno (hlands h)
    rw [he]
    refine ⟨⟨fun h => absurd h.1.2 (lt_irrefl _), fun h => absurd h hnl⟩, fun h => absurd h hnl⟩

open Classical in
/-- C65: the pixels of the bitmap of a planar target add up to the power of the rays that reach it: magnitude times cosine of incidence times
the unblocked fraction times the fraction left by extinction times the reflectivity. -/
theorem C65_planar_total (W H : Nat) (hW : 2 ≤ W) (hH : 2 ≤ H) (m ext refl : ℝ) (p : Plane ℝ) (hw : 0 < p.width) (hh : 0 < p.height)
    (blocked : V3 ℝ × V3 ℝ → ℝ) (rays : List (V3 ℝ × V3 ℝ)) :
    ∃ bitmap factors, traceSample W H m ext refl (.planar p) blocked rays = .ok (bitmap, factors) ∧
      power W H bitmap = (rays.map fun ray =>
        if Lands p ray then m * -(V3.dot ray.2 p.normal) * (1 - blocked ray) * (1 - ext) * refl else 0).sum := by
  have hpos : ∀ h ∈ rays.map (hitOf W H m ext refl (.planar p) blocked), 0 ≤ h.e ∧ 0 ≤ h.u := by
    intro h hh'
    rw [List.mem_map] at hh'
    obtain ⟨ray, hr, rfl⟩ := hh'
    have := C17_coordinates_in_bitmap W H hW hH ray.1 ray.2 m p hw hh
    exact ⟨this.1.1, this.2.1⟩
  obtain ⟨bitmap, hb, -⟩ := C08_pixel W H (by omega) (by omega) _ hpos
  have he := C08_energy W H (by omega) (by omega) _ hpos bitmap hb
  refine ⟨bitmap, _, by unfold traceSample; simp only [hb]; rfl, ?_⟩
  unfold power
  rw [he, List.map_map]
  congr 1
  apply List.map_congr_left
  intro ray _
  obtain ⟨h1, h2⟩ := inside_iff_lands W H hW hH m ext refl p hw hh blocked ray
  simp only [Function.comp_apply, h1]
  split_ifs with hl
  · exact h2 hl
  · rfl

theorem sum_map_le {α : Type} (l : List α) (f g : α → ℝ) (h : ∀ x ∈ l, f x ≤ g x) : (l.map f).sum ≤ (l.map g).sum := by
  induction l with
  | nil => simp
  | cons x xs ih =>
    simp only [List.map_cons, List.sum_cons]
    exact add_le_add (h x (by simp)) (ih fun y hy => h y (by simp [hy]))

theorem sum_ite_count {α : Type} (l : List α) (q : α → Bool) (c : ℝ) :
    (l.map fun x => if q x = true then c else 0).sum = c * (l.countP q : Nat) := by
  induction l with
  | nil => simp
  | cons x xs ih =>
    simp only [List.map_cons, List.sum_cons, List.countP_cons, ih]
    split_ifs <;> push_cast <;> ring

/-- C65: no pixel is negative, and a bitmap never holds more power than the rays that hit the target carry after extinction and reflection; in
particular no more than all rays of the heliostat. -/
theorem C65_bound (W H : Nat) (hW : 2 ≤ W) (hH : 2 ≤ H) (m ext refl : ℝ) (hm : 0 ≤ m) (hext : ext ≤ 1) (hrefl : 0 ≤ refl)
    (t : Target) (ht : Target.Valid t) (blocked : V3 ℝ × V3 ℝ → ℝ) (hb : ∀ ray, 0 ≤ blocked ray ∧ blocked ray ≤ 1)
    (incident : Fin 4 → ℝ) (hi : incident 3 = 0) (hi1 : incident ⬝ᵥ incident = 1)
    (surface : List (V3 ℝ × (Fin 4 → ℝ))) (hs : ∀ s ∈ surface, s.2 3 = 0 ∧ s.2 ⬝ᵥ s.2 = 1) (distortions : List (List (ℝ × ℝ))) :
    let rays := raysOf incident surface distortions
    ∃ bitmap intercept onTarget blocking,
      traceSample W H m ext refl t blocked rays = .ok (bitmap, intercept, onTarget, blocking) ∧
      (∀ r c, r < H → c < W → 0 ≤ pixel bitmap r c) ∧
      power W H bitmap ≤ m * (1 - ext) * refl * (onTarget * rays.length) ∧
      power W H bitmap ≤ m * (1 - ext) * refl * rays.length := by
  intro rays
  have hd : ∀ ray ∈ rays, V3.normSq ray.2 ≤ 1 := fun ray hr => by
    rw [raysOf_normSq incident surface distortions hi hs ray hr, hi1]
  obtain ⟨bitmap, hsp, hpos, htr⟩ := traceSample_spec W H hW hH m ext refl hm t ht blocked rays hd
  refine ⟨bitmap, _, _, _, htr, ?_, ?_⟩
  · intro r c hr hc
    apply C08_nonneg W H (by omega) (by omega) _ hpos _ bitmap hsp r c hr hc
    intro h hh
    rw [List.mem_map] at hh
    obtain ⟨ray, hr, rfl⟩ := hh
    have := land_bounds W H hW hH m hm t ht ray (hd ray hr)
    unfold hitOf intensity
    exact mul_nonneg (mul_nonneg (mul_nonneg this.2.2.1 (by linarith [(hb ray).2])) (by linarith)) hrefl
  · have he := C08_energy W H (by omega) (by omega) _ hpos bitmap hsp
    have hk : 0 ≤ (1 - ext) * refl := mul_nonneg (by linarith) hrefl
    have h1 : power W H bitmap ≤ m * (1 - ext) * refl *
        ((rays.countP fun ray => decide (0 < (land W H m t ray).intensity) : Nat) : ℝ) := by
      rw [← sum_ite_count]
      unfold power
      rw [he, List.map_map]
      apply sum_map_le
      intro ray hr
      have := land_bounds W H hW hH m hm t ht ray (hd ray hr)
      have hwle : (hitOf W H m ext refl t blocked ray).w ≤ (land W H m t ray).intensity * ((1 - ext) * refl) := by
        unfold hitOf intensity
        have h1 : (land W H m t ray).intensity * (1 - blocked ray) ≤ (land W H m t ray).intensity := by
          nlinarith [(hb ray).1, this.2.2.1]
        calc (land W H m t ray).intensity * (1 - blocked ray) * (1 - ext) * refl
            = (land W H m t ray).intensity * (1 - blocked ray) * ((1 - ext) * refl) := by ring
          _ ≤ _ := mul_le_mul_of_nonneg_right h1 hk
      simp only [Function.comp_apply, decide_eq_true_eq]
      by_cases hp : 0 < (land W H m t ray).intensity
      · rw [if_pos hp]
        have hle : (land W H m t ray).intensity * ((1 - ext) * refl) ≤ m * (1 - ext) * refl := by
          rw [mul_assoc]; exact mul_le_mul_of_nonneg_right this.2.2.2 hk
        split_ifs
        · linarith
        · rw [mul_assoc]; exact mul_nonneg hm hk
      · rw [if_neg hp]
        have h0 : (land W H m t ray).intensity = 0 := le_antisymm (not_lt.1 hp) this.2.2.1
        rw [h0, zero_mul] at hwle
        split_ifs
        · exact hwle
        · exact le_refl _
    constructor
    · rcases Nat.eq_zero_or_pos rays.length with h0 | h0
      · have : rays = [] := List.length_eq_zero_iff.1 h0
        rw [this] at h1 ⊢
        simpa using h1
      · rw [div_mul_cancel₀ _ (by exact_mod_cast h0.ne')]
        exact h1
    · refine h1.trans (mul_le_mul_of_nonneg_left ?_ (by rw [mul_assoc]; exact mul_nonneg hm hk))
      exact_mod_cast List.countP_le_length

/-- C65: bitmaps are proportional to the power of the rays, to what extinction leaves and to the reflectivity. -/
theorem C65_proportional (W H : Nat) (hW : 2 ≤ W) (hH : 2 ≤ H) (m ext refl : ℝ) (hm : 0 ≤ m)
    (t : Target) (ht : Target.Valid t) (blocked : V3 ℝ × V3 ℝ → ℝ) (rays : List (V3 ℝ × V3 ℝ)) (hd : ∀ ray ∈ rays, V3.normSq ray.2 ≤ 1) :
    ∃ bitmap bitmap₁ f f₁, traceSample W H m ext refl t blocked rays = .ok (bitmap, f) ∧
      traceSample W H 1 0 1 t blocked rays = .ok (bitmap₁, f₁) ∧
      ∀ r c, r < H → c < W → pixel bitmap r c = m * (1 - ext) * refl * pixel bitmap₁ r c := by
  obtain ⟨b, hs, hpos, htr⟩ := traceSample_spec W H hW hH m ext refl hm t ht blocked rays hd
  obtain ⟨b₁, hs₁, hpos₁, htr₁⟩ := traceSample_spec W H hW hH 1 0 1 zero_le_one t ht blocked rays hd
  refine ⟨b, b₁, _, _, htr, htr₁, ?_⟩
  intro r c hr hc
  obtain ⟨b', hb', -, -, hpix⟩ := C08_pixel W H (by omega) (by omega) _ hpos
  obtain ⟨b₁', hb₁', -, -, hpix₁⟩ := C08_pixel W H (by omega) (by omega) _ hpos₁
  rw [hs] at hb'; rw [hs₁] at hb₁'
  obtain rfl := Except.ok.inj hb'
  obtain rfl := Except.ok.inj hb₁'
  have e : H - 1 - (H - 1 - r) = r := by omega
  have h1 := hpix (H - 1 - r) c (by omega) hc
  have h2 := hpix₁ (H - 1 - r) c (by omega) hc
  rw [e] at h1 h2
  rw [h1, h2, List.map_map, List.map_map, ← List.sum_map_mul_left]
  congr 1
  apply List.map_congr_left
  intro ray _
  have hl := land_magnitude W H m t ray
  have heq : hitOf W H m ext refl t blocked ray =
      ⟨(hitOf W H 1 0 1 t blocked ray).e, (hitOf W H 1 0 1 t blocked ray).u, m * (1 - ext) * refl * (hitOf W H 1 0 1 t blocked ray).w⟩ := by
    unfold hitOf
    rw [hl]
    simp only [intensity]
    congr 1
    ring
  simp only [Function.comp_apply]
  rw [heq]
  have hin : Inside W H (⟨(hitOf W H 1 0 1 t blocked ray).e, (hitOf W H 1 0 1 t blocked ray).u,
      m * (1 - ext) * refl * (hitOf W H 1 0 1 t blocked ray).w⟩ : Hit ℝ) ↔ Inside W H (hitOf W H 1 0 1 t blocked ray) := Iff.rfl
  by_cases hc : Inside W H (hitOf W H 1 0 1 t blocked ray)
  · rw [if_pos (hin.2 hc), if_pos hc]; ring
  · rw [if_neg (fun h => hc (hin.1 h)), if_neg hc]; ring

/-- C65: a blocking mask that is larger everywhere makes no pixel brighter. -/
theorem C65_blocking (W H : Nat) (hW : 2 ≤ W) (hH : 2 ≤ H) (m ext refl : ℝ) (hm : 0 ≤ m) (hext : ext ≤ 1) (hrefl : 0 ≤ refl)
    (t : Target) (ht : Target.Valid t) (blocked blocked' : V3 ℝ × V3 ℝ → ℝ) (rays : List (V3 ℝ × V3 ℝ))
    (hd : ∀ ray ∈ rays, V3.normSq ray.2 ≤ 1) (hle : ∀ ray ∈ rays, blocked ray ≤ blocked' ray) :
    ∃ bitmap bitmap' f f', traceSample W H m ext refl t blocked rays = .ok (bitmap, f) ∧
      traceSample W H m ext refl t blocked' rays = .ok (bitmap', f') ∧
      ∀ r c, r < H → c < W → pixel bitmap' r c ≤ pixel bitmap r c := by
  obtain ⟨b, hs, hpos, htr⟩ := traceSample_spec W H hW hH m ext refl hm t ht blocked rays hd
  obtain ⟨b₁, hs₁, hpos₁, htr₁⟩ := traceSample_spec W H hW hH m ext refl hm t ht blocked' rays hd
  refine ⟨b, b₁, _, _, htr, htr₁, ?_⟩
  intro r c hr hc
  obtain ⟨b', hb', -, -, hpix⟩ := C08_pixel W H (by omega) (by omega) _ hpos
  obtain ⟨b₁', hb₁', -, -, hpix₁⟩ := C08_pixel W H (by omega) (by omega) _ hpos₁
  rw [hs] at hb'; rw [hs₁] at hb₁'
  obtain rfl := Except.ok.inj hb'
  obtain rfl := Except.ok.inj hb₁'
  have e : H - 1 - (H - 1 - r) = r := by omega
  have h1 := hpix (H - 1 - r) c (by omega) hc
  have h2 := hpix₁ (H - 1 - r) c (by omega) hc
  rw [e] at h1 h2
  rw [h1, h2, List.map_map, List.map_map]
  apply sum_map_le
  intro ray hray
  have hb := land_bounds W H hW hH m hm t ht ray (hd ray hray)
  have hw : (hitOf W H m ext refl t blocked' ray).w ≤ (hitOf W H m ext refl t blocked ray).w := by
    unfold hitOf intensity
    have hk : 0 ≤ (1 - ext) * refl := mul_nonneg (by linarith) hrefl
    have h := mul_le_mul_of_nonneg_left (by linarith [hle ray hray] : 1 - blocked' ray ≤ 1 - blocked ray) hb.2.2.1
    have := mul_le_mul_of_nonneg_right h hk
    simp only at this ⊢
    rw [mul_assoc (_ * _), mul_assoc (_ * _)]
    exact this
  simp only [Function.comp_apply]
  have hE : (hitOf W H m ext refl t blocked' ray).e = (hitOf W H m ext refl t blocked ray).e := rfl
  have hU : (hitOf W H m ext refl t blocked' ray).u = (hitOf W H m ext refl t blocked ray).u := rfl
  have hin : Inside W H (hitOf W H m ext refl t blocked' ray) ↔ Inside W H (hitOf W H m ext refl t blocked ray) := Iff.rfl
  by_cases hi : Inside W H (hitOf W H m ext refl t blocked ray)
  · rw [if_pos (hin.2 hi), if_pos hi, hE, hU]
    exact mul_le_mul_of_nonneg_right hw (mul_nonneg (le_max_left _ _) (le_max_left _ _))
  · rw [if_neg (fun h => hi (hin.1 h)), if_neg hi]


/-! ## C66 -/

open Classical in
/-- Fraction of the rays with a property. -/
noncomputable def fraction (rays : List (V3 ℝ × V3 ℝ)) (q : V3 ℝ × V3 ℝ → Prop) : ℝ :=
  (rays.countP fun ray => decide (q ray) : Nat) / (rays.length : ℝ)

/-- A ray that hits a planar target: it runs against its normal and its line meets the target rectangle. -/
def Hits (p : Plane ℝ) (ray : V3 ℝ × V3 ℝ) : Prop := V3.dot ray.2 p.normal < 0 ∧ ∃ t : ℝ, OnTarget p (ray.1 + t • ray.2)

theorem countP_prop (rays : List (V3 ℝ × V3 ℝ)) (q : V3 ℝ × V3 ℝ → Bool) (q' : V3 ℝ × V3 ℝ → Prop) (h : ∀ ray ∈ rays, q ray = true ↔ q' ray) :
    (rays.countP q : Nat) / (rays.length : ℝ) = fraction rays q' := by
  unfold fraction
  congr 2
  apply List.countP_congr
  intro ray hr
  rw [h ray hr]
  simp

/-- C66: what the three numbers returned with the bitmap are: the fraction of rays that hit and are not completely blocked, the fraction of rays
that hit, and the fraction of rays whose blocking value is below a thousandth. The documentation lists them in another order, see `C66_documented_order`. -/
theorem C66_fractions_partial (W H : Nat) (hW : 2 ≤ W) (hH : 2 ≤ H) (m ext refl : ℝ) (hm : 0 < m) (hext : ext < 1) (hrefl : 0 < refl)
    (p : Plane ℝ) (hp : Target.Valid (.planar p)) (blocked : V3 ℝ × V3 ℝ → ℝ) (rays : List (V3 ℝ × V3 ℝ)) (hd : ∀ ray ∈ rays, V3.normSq ray.2 ≤ 1) :
    ∃ bitmap, traceSample W H m ext refl (.planar p) blocked rays =
      .ok (bitmap, fraction rays (fun ray => Hits p ray ∧ blocked ray < 1), fraction rays (Hits p), fraction rays (fun ray => blocked ray < 1 / 10 ^ 3)) := by
  obtain ⟨b, -, -, htr⟩ := traceSample_spec W H hW hH m ext refl hm.le _ hp blocked rays hd
  refine ⟨b, htr.trans ?_⟩
  obtain ⟨hw, hh, -⟩ := hp
  have hhit : ∀ ray, 0 < (land W H m (.planar p) ray).intensity ↔ Hits p ray := by
    intro ray
    have h1 := C17_intensity W H hW hH ray.1 ray.2 m p hw hh
    by_cases h : Hits p ray
    · simp only [land, h1.1 h, h, iff_true]
      exact mul_pos hm (by linarith [h.1])
    · simp only [land, h1.2 h, h, iff_false]
      exact lt_irrefl _
  have h3 : ∀ ray, 0 ≤ (land W H m (.planar p) ray).intensity := by
    intro ray
    by_cases h : Hits p ray
    · exact ((hhit ray).2 h).le
    · have h1 := C17_intensity W H hW hH ray.1 ray.2 m p hw hh
      simp only [land, h1.2 h]; exact le_refl _
  rw [countP_prop rays _ (fun ray => Hits p ray ∧ blocked ray < 1), countP_prop rays _ (Hits p), countP_prop rays _ (fun ray => blocked ray < 1 / 10 ^ 3)]
  · intro ray _; simp
  · intro ray _; rw [decide_eq_true_iff, hhit]
  · intro ray _
    rw [decide_eq_true_iff]
    have hk : 0 < (1 - ext) * refl := mul_pos (by linarith) hrefl
    have e : (hitOf W H m ext refl (.planar p) blocked ray).w = (land W H m (.planar p) ray).intensity * (1 - blocked ray) * ((1 - ext) * refl) := by
      unfold hitOf intensity; ring
    rw [e, mul_pos_iff_of_pos_right hk, ← hhit ray]
    constructor
    · intro h
      have h0 : 0 < (land W H m (.planar p) ray).intensity := lt_of_le_of_ne (h3 ray) (fun h' => by rw [← h', zero_mul] at h; exact lt_irrefl _ h)
      rw [mul_pos_iff_of_pos_left h0] at h
      exact ⟨h0, by linarith⟩
    · rintro ⟨h0, h1⟩
      exact mul_pos h0 (by linarith)

/-- C66: the fractions lie between 0 and 1, for every kind of target; no more rays are intercepted than hit, and a ray that hits and is not blocked is
intercepted. -/
theorem C66_ranges (W H : Nat) (hW : 2 ≤ W) (hH : 2 ≤ H) (m ext refl : ℝ) (hm : 0 ≤ m) (hext : ext < 1) (hrefl : 0 < refl)
    (t : Target) (ht : Target.Valid t) (blocked : V3 ℝ × V3 ℝ → ℝ) (hb : ∀ ray, blocked ray ≤ 1) (rays : List (V3 ℝ × V3 ℝ))
    (hne : rays ≠ []) (hd : ∀ ray ∈ rays, V3.normSq ray.2 ≤ 1) :
    ∃ bitmap intercept onTarget blocking,
      traceSample W H m ext refl t blocked rays = .ok (bitmap, intercept, onTarget, blocking) ∧
      0 ≤ intercept ∧ intercept ≤ onTarget ∧ onTarget ≤ 1 ∧ 0 ≤ blocking ∧ blocking ≤ 1 ∧ onTarget + blocking - 1 ≤ intercept := by
  obtain ⟨b, -, -, htr⟩ := traceSample_spec W H hW hH m ext refl hm _ ht blocked rays hd
  have hn : (0 : ℝ) < rays.length := by exact_mod_cast List.length_pos_iff.2 hne
  have hk : 0 < (1 - ext) * refl := mul_pos (by linarith) hrefl
  have e : ∀ ray, (hitOf W H m ext refl t blocked ray).w = (land W H m t ray).intensity * (1 - blocked ray) * ((1 - ext) * refl) := by
    intro ray; unfold hitOf intensity; ring
  have h1 : rays.countP (fun ray => decide (0 < (hitOf W H m ext refl t blocked ray).w)) ≤
      rays.countP fun ray => decide (0 < (land W H m t ray).intensity) := by
    apply List.countP_mono_left
    intro ray hr h
    rw [decide_eq_true_iff] at h ⊢
    rw [e, mul_pos_iff_of_pos_right hk] at h
    have := (land_bounds W H hW hH m hm t ht ray (hd ray hr)).2.2.1
    exact lt_of_le_of_ne this (fun h' => by rw [← h', zero_mul] at h; exact lt_irrefl _ h)
  have h2 : rays.countP (fun ray => decide (0 < (land W H m t ray).intensity)) + rays.countP (fun ray => decide (blocked ray < 1 / 10 ^ 3)) ≤
      rays.countP (fun ray => decide (0 < (hitOf W H m ext refl t blocked ray).w)) + rays.length := by
    clear hn hne htr hd h1
    induction rays with
    | nil => simp
    | cons x xs ih =>
      simp only [List.countP_cons, List.length_cons]
      have : (if decide (0 < (land W H m t x).intensity) = true then 1 else 0) + (if decide (blocked x < 1 / 10 ^ 3) = true then 1 else 0) ≤
          (if decide (0 < (hitOf W H m ext refl t blocked x).w) = true then 1 else 0) + 1 := by
        by_cases ha : 0 < (land W H m t x).intensity
        · by_cases hc : blocked x < 1 / 10 ^ 3
          · have : 0 < (hitOf W H m ext refl t blocked x).w := by
              rw [e]
              exact mul_pos (mul_pos ha (by norm_num at hc; linarith)) hk
            simp [this, ha]
            split <;> omega
          · simp [ha, hc]
            simp only [one_div] at hc
            simp [hc]
        · simp [ha]
          split <;> omega
      omega
  refine ⟨b, _, _, _, htr, by positivity, ?_, ?_, by positivity, ?_, ?_⟩
  · rw [div_le_div_iff_of_pos_right hn]; exact_mod_cast h1
  · rw [div_le_one hn]; exact_mod_cast List.countP_le_length
  · rw [div_le_one hn]; exact_mod_cast List.countP_le_length
  · rw [← add_div, sub_le_iff_le_add]
    rw [div_add_one hn.ne', div_le_div_iff_of_pos_right hn]
    exact_mod_cast h2

/-- C66: in exact arithmetic the blocking mask never reaches 1, so blocking has no influence on the first fraction: it is the fraction of rays that
hit the target (with rounding, strongly blocked rays get the mask value 1 and are not counted). -/
theorem C66_blocking_invisible (W H : Nat) (hW : 2 ≤ W) (hH : 2 ≤ H) (m ext refl : ℝ) (hm : 0 < m) (hext : ext < 1) (hrefl : 0 < refl)
    (p : Plane ℝ) (hp : Target.Valid (.planar p)) (rects : List Rect) (blocked : V3 ℝ × V3 ℝ → ℝ) (rays : List (V3 ℝ × V3 ℝ))
    (hd : ∀ ray ∈ rays, V3.normSq ray.2 ≤ 1) (hb : ∀ ray ∈ rays, Blocks rects blocked ray) :
    ∃ bitmap blocking, traceSample W H m ext refl (.planar p) blocked rays =
      .ok (bitmap, fraction rays (Hits p), fraction rays (Hits p), blocking) := by
  obtain ⟨b, h⟩ := C66_fractions_partial W H hW hH m ext refl hm hext hrefl p hp blocked rays hd
  refine ⟨b, fraction rays (fun ray => blocked ray < 1 / 10 ^ 3), h.trans ?_⟩
  congr 3
  unfold fraction
  congr 2
  apply List.countP_congr
  intro ray hr
  have := (C15_range _ _ _ _ (by norm_num) _ _ _ _ (hb ray hr)).2
  simp [this]

/-- A vertical target facing south. -/
def southTarget : Plane ℝ := ⟨⟨0, 0, 10⟩, ⟨0, -1, 0⟩, 2, 2⟩

/-- a ray running straight into the middle of the target -/
def towardsTarget : V3 ℝ × V3 ℝ := (⟨0, -50, 10⟩, ⟨0, 1, 0⟩)
/-- a ray running away from the target -/
def awayFromTarget : V3 ℝ × V3 ℝ := (⟨0, -50, 10⟩, ⟨0, -1, 0⟩)

theorem southTarget_valid : Target.Valid (.planar southTarget) := by
  refine ⟨by norm_num [southTarget], by norm_num [southTarget], ?_⟩
  unfold V3.normSq V3.dot southTarget; norm_num

theorem towards_hits : Hits southTarget towardsTarget ∧ Lands southTarget towardsTarget := by
  have h1 : V3.dot towardsTarget.2 southTarget.normal < 0 := by unfold towardsTarget southTarget V3.dot; norm_num
  refine ⟨⟨h1, 50, ?_⟩, h1, 50, ?_⟩
  · unfold OnTarget towardsTarget southTarget V3.dot; norm_num
  · unfold towardsTarget southTarget V3.dot; norm_num

theorem away_misses : ¬ Hits southTarget awayFromTarget := by
  rintro ⟨h, -⟩
  unfold awayFromTarget southTarget V3.dot at h; norm_num at h

theorem example_lengths : ∀ ray ∈ [towardsTarget, awayFromTarget], V3.normSq ray.2 ≤ 1 := by
  intro ray h
  simp only [List.mem_cons, List.not_mem_nil, or_false] at h
  rcases h with rfl | rfl <;> norm_num [V3.normSq, V3.dot, towardsTarget, awayFromTarget]

/-- C66 in the documented order is false: the documentation of `trace_rays` lists first the fraction that hits neglecting blocking, then the fraction
not blocked, then the fraction that hits taking blocking into account. Without any blocking, for a ray that hits and one that does not, these are 1/2, 1 and 1/2, but
1/2, 1/2 and 1 are returned. -/
theorem C66_documented_order : ¬ ∀ (W H : Nat) (m ext refl : ℝ) (p : Plane ℝ) (blocked : V3 ℝ × V3 ℝ → ℝ) (rays : List (V3 ℝ × V3 ℝ))
    (bitmap : List (List ℝ)) (first second third : ℝ), 2 ≤ W → 2 ≤ H → 0 < m → ext < 1 → 0 < refl → Target.Valid (.planar p) →
    (∀ ray ∈ rays, V3.normSq ray.2 ≤ 1) → traceSample W H m ext refl (.planar p) blocked rays = .ok (bitmap, first, second, third) →
    first = fraction rays (Hits p) ∧ second = fraction rays (fun ray => blocked ray < 1 / 10 ^ 3) ∧
      third = fraction rays (fun ray => Hits p ray ∧ blocked ray < 1 / 10 ^ 3) := by
  intro h
  obtain ⟨b, hb⟩ := C66_fractions_partial 2 2 (le_refl _) (le_refl _) 1 0 1 one_pos zero_lt_one one_pos southTarget southTarget_valid (fun _ => 0)
    [towardsTarget, awayFromTarget] example_lengths
  have := (h 2 2 1 0 1 southTarget (fun _ => 0) [towardsTarget, awayFromTarget] _ _ _ _ (le_refl _) (le_refl _) one_pos zero_lt_one one_pos
    southTarget_valid example_lengths hb).2.1
  have ht := towards_hits.1
  have ha := away_misses
  unfold fraction at this
  simp [List.countP_cons, ht, ha] at this

/-- hypotheses of `C66_fractions_partial`, `C66_ranges` and `C65_proportional`, with the values -/
example : ∃ bitmap, traceSample 2 2 1 0 1 (.planar southTarget) (fun _ => 0) [towardsTarget, awayFromTarget] = .ok (bitmap, 1 / 2, 1 / 2, 1) := by
  obtain ⟨b, hb⟩ := C66_fractions_partial 2 2 (le_refl _) (le_refl _) 1 0 1 one_pos zero_lt_one one_pos southTarget southTarget_valid (fun _ => 0)
    [towardsTarget, awayFromTarget] example_lengths
  refine ⟨b, hb.trans ?_⟩
  have ht := towards_hits.1
  have ha := away_misses
  unfold fraction
  simp [List.countP_cons, ht, ha]

/-- C65 for these two rays: half of the power arrives (reflectivity 1/2) -/
example : ∃ bitmap f, traceSample 2 2 10 0 (1 / 2) (.planar southTarget) (fun _ => 0) [towardsTarget, awayFromTarget] = .ok (bitmap, f) ∧
    power 2 2 bitmap = 5 := by
  obtain ⟨b, f, h1, h2⟩ := C65_planar_total 2 2 (le_refl _) (le_refl _) 10 0 (1 / 2) southTarget southTarget_valid.1 southTarget_valid.2.1 (fun _ => 0)
    [towardsTarget, awayFromTarget]
  refine ⟨b, f, h1, h2.trans ?_⟩
  have ha : ¬ Lands southTarget awayFromTarget := by
    rintro ⟨h, -⟩
    unfold awayFromTarget southTarget V3.dot at h; norm_num at h
  simp only [List.map_cons, List.map_nil, if_pos towards_hits.2, if_neg ha]
  unfold towardsTarget southTarget V3.dot; norm_num

/-- hypotheses of `C66_blocking_invisible`: a rectangle between heliostat and target -/
example : ∃ blocked, ∀ ray ∈ [towardsTarget, awayFromTarget], Blocks [⟨⟨-1, -20, 9⟩, ⟨2, 0, 0⟩, ⟨0, 0, 2⟩, ⟨0, -1, 0⟩⟩] blocked ray := by
  refine ⟨fun ray => (softMask (1 / 10 ^ 12) 1000 100 (5 / 100) ray.1 ray.2 [⟨⟨-1, -20, 9⟩, ⟨2, 0, 0⟩, ⟨0, 0, 2⟩, ⟨0, -1, 0⟩⟩]).getD 0, ?_⟩
  intro ray _
  unfold Blocks
  cases h : softMask (1 / 10 ^ 12) 1000 100 (5 / 100) ray.1 ray.2 [⟨⟨-1, -20, 9⟩, ⟨2, 0, 0⟩, ⟨0, 0, 2⟩, ⟨0, -1, 0⟩⟩] with
  | none =>
    rw [C15_nan_iff _ _ _ _ (by positivity)] at h
    obtain ⟨r, hr, h0⟩ := h
    rw [List.mem_singleton] at hr
    subst hr
    have := congrArg V3.n h0
    unfold V3.cross at this
    norm_num at this
  | some m => simp only [h, Option.getD_some]

/-- hypotheses of `C65_bound`: a mirror that reflects light from the south back to the south -/
example : (![0, 1, 0, 0] : Fin 4 → ℝ) 3 = 0 ∧ (![0, 1, 0, 0] : Fin 4 → ℝ) ⬝ᵥ ![0, 1, 0, 0] = 1 ∧
    ∀ s ∈ [((⟨0, -50, 10⟩ : V3 ℝ), (![0, 1, 0, 0] : Fin 4 → ℝ))], s.2 3 = 0 ∧ s.2 ⬝ᵥ s.2 = 1 := by
  refine ⟨rfl, by simp [dotProduct, Fin.sum_univ_four], ?_⟩
  intro s hs
  rw [List.mem_singleton] at hs
  subst hs
  exact ⟨rfl, by simp [dotProduct, Fin.sum_univ_four]⟩

/-- C66: as functions of any parameter (motor positions, control points), the fractions have no derivative other than zero: an optimiser that follows gradients is
not influenced by them.  `rays` and `blocked` may depend on the parameter `x` in any way, as long as the number of rays is fixed. -/
theorem C66_no_gradient (W H : Nat) (m ext refl : ℝ) (t : Target) (n : Nat) (rays : ℝ → List (V3 ℝ × V3 ℝ)) (hn : ∀ x, (rays x).length = n)
    (blocked : ℝ → V3 ℝ × V3 ℝ → ℝ) (bitmap : ℝ → List (List ℝ)) (f : ℝ → ℝ × ℝ × ℝ)
    (h : ∀ x, traceSample W H m ext refl t (blocked x) (rays x) = .ok (bitmap x, f x)) (x c : ℝ) :
    (HasDerivAt (fun x => (f x).1) c x → c = 0) ∧ (HasDerivAt (fun x => (f x).2.1) c x → c = 0) ∧ (HasDerivAt (fun x => (f x).2.2) c x → c = 0) := by
  have key : ∀ g : ℝ → ℝ, (∀ x, ∃ k : Nat, g x = (k : ℝ) / n) → HasDerivAt g c x → c = 0 := by
    intro g hg hd
    rcases Nat.eq_zero_or_pos n with h0 | h0
    · have : g = fun _ => 0 := by
        funext y
        obtain ⟨k, hk⟩ := hg y
        rw [hk, h0]; simp
      rw [this] at hd
      exact hd.unique (hasDerivAt_const x 0)
    · have hn' : (0 : ℝ) < n := by exact_mod_cast h0
      have hcont := hd.continuousAt
      rw [Metric.continuousAt_iff] at hcont
      obtain ⟨δ, hδ, hball⟩ := hcont (1 / n) (by positivity)
      have hloc : g =ᶠ[nhds x] fun _ => g x := by
        rw [Filter.eventuallyEq_iff_exists_mem]
        refine ⟨Metric.ball x δ, Metric.ball_mem_nhds x hδ, ?_⟩
        intro y hy
        have := hball hy
        obtain ⟨k, hk⟩ := hg y
        obtain ⟨l, hl⟩ := hg x
        rw [Real.dist_eq, hk, hl, ← sub_div, abs_div, abs_of_pos hn', div_lt_div_iff_of_pos_right hn'] at this
        have hkl : |((k : Int) - (l : Int) : Int)| < 1 := by
          have h' : |(((k : Int) - (l : Int) : Int) : ℝ)| < 1 := by push_cast; exact this
          exact_mod_cast h'
        rw [Int.abs_lt_one_iff] at hkl
        have : k = l := by omega
        simp only [hk, hl, this]
      exact hd.unique ((hasDerivAt_const x (g x)).congr_of_eventuallyEq hloc)
  have hf : ∀ x, (∃ k : Nat, (f x).1 = (k : ℝ) / n) ∧ (∃ k : Nat, (f x).2.1 = (k : ℝ) / n) ∧ (∃ k : Nat, (f x).2.2 = (k : ℝ) / n) := by
    intro x
    have hx := h x
    unfold traceSample at hx
    simp only at hx
    split at hx
    · exact absurd hx (by simp)
    · rw [Except.ok.injEq, Prod.mk.injEq] at hx
      rw [← hx.2, hn x]
      exact ⟨⟨_, rfl⟩, ⟨_, rfl⟩, ⟨_, rfl⟩⟩
  exact ⟨key _ fun x => (hf x).1, key _ fun x => (hf x).2.1, key _ fun x => (hf x).2.2⟩

/-- hypotheses of `C66_no_gradient`: a ray that turns with the parameter -/
example : ∃ (bitmap : ℝ → List (List ℝ)) (f : ℝ → ℝ × ℝ × ℝ), ∀ x : ℝ,
    traceSample 2 2 1 0 1 (.planar southTarget) (fun _ => 0) [(⟨0, -50, 10⟩, ⟨Real.sin x, Real.cos x, 0⟩)] = .ok (bitmap x, f x) := by
  have : ∀ x : ℝ, ∃ b f, traceSample 2 2 1 0 1 (.planar southTarget) (fun _ => 0) [(⟨0, -50, 10⟩, ⟨Real.sin x, Real.cos x, 0⟩)] = .ok (b, f) := by
    intro x
    obtain ⟨b, hb⟩ := C66_fractions_partial 2 2 (le_refl _) (le_refl _) 1 0 1 one_pos zero_lt_one one_pos southTarget southTarget_valid (fun _ => 0)
      [(⟨0, -50, 10⟩, ⟨Real.sin x, Real.cos x, 0⟩)] (by
        intro ray hr
        rw [List.mem_singleton] at hr
        subst hr
        unfold V3.normSq V3.dot
        nlinarith [Real.sin_sq_add_cos_sq x])
    exact ⟨b, _, hb⟩
  choose b f hf using this
  exact ⟨b, f, hf⟩

/-! ## C67 -/

/-- Length of a canting vector. -/
noncomputable def cantLength (v : Fin 4 → ℝ) : ℝ := Real.sqrt (v 0 ^ 2 + v 1 ^ 2 + v 2 ^ 2)

/-- Mirror area of a heliostat: its facets, given by their canting vectors, reach from minus to plus the length of each vector. -/
noncomputable def mirrorArea (facets : List ((Fin 4 → ℝ) × (Fin 4 → ℝ))) : ℝ :=
  (facets.map fun f => (2 * cantLength f.1) * (2 * cantLength f.2)).sum

/-- C67: for a first facet that is not inclined, of half width `a` and half height `b`, the rays of each heliostat together carry the irradiance times
the area `(4a + 0.02) (4b + 0.02)`: two by two facets including gaps of two centimetres. Without irradiance each ray counts 1. The full claim (the mirror area) is
false, see below. -/
theorem C67_outline_partial (dni a b : ℝ) (ha : 0 ≤ a) (hb : 0 ≤ b) (points rays : Nat) (hp : 0 < points) (hr : 0 < rays) :
    rayMagnitude (some dni) ![a, 0, 0, 0] ![0, b, 0, 0] points rays * (points * rays) = dni * ((4 * a + 2 / 100) * (4 * b + 2 / 100)) ∧
    rayMagnitude none ![a, 0, 0, 0] ![0, b, 0, 0] points rays = 1 := by
  refine ⟨?_, rfl⟩
  have hp' : (points : ℝ) ≠ 0 := by exact_mod_cast hp.ne'
  have hr' : (rays : ℝ) ≠ 0 := by exact_mod_cast hr.ne'
  unfold rayMagnitude
  simp only [Matrix.cons_val_zero, Matrix.cons_val_one]
  rw [show a ^ 2 + (0 : ℝ) ^ 2 = a ^ 2 by ring, show (0 : ℝ) ^ 2 + b ^ 2 = b ^ 2 by ring, Real.sqrt_sq ha, Real.sqrt_sq hb]
  push_cast
  field_simp

/-- C67 is false for the mirror area: if the first facet is not inclined, the power is right exactly for heliostats whose mirror area is the outline of two by
two such facets with gaps of two centimetres. -/
theorem C67_right_iff (dni a b : ℝ) (hd : 0 < dni) (ha : 0 ≤ a) (hb : 0 ≤ b) (others : List ((Fin 4 → ℝ) × (Fin 4 → ℝ))) (points rays : Nat)
    (hp : 0 < points) (hr : 0 < rays) :
    rayMagnitude (some dni) ![a, 0, 0, 0] ![0, b, 0, 0] points rays * (points * rays) = dni * mirrorArea ((![a, 0, 0, 0], ![0, b, 0, 0]) :: others) ↔
      mirrorArea ((![a, 0, 0, 0], ![0, b, 0, 0]) :: others) = (4 * a + 2 / 100) * (4 * b + 2 / 100) := by
  rw [(C67_outline_partial dni a b ha hb points rays hp hr).1]
  constructor
  · intro h; exact (mul_left_cancel₀ hd.ne' h).symm
  · intro h; rw [h]

theorem mirrorArea_two_by_two (a b : ℝ) (ha : 0 ≤ a) (hb : 0 ≤ b) (n : Nat) :
    mirrorArea (List.replicate n (![a, 0, 0, 0], ![0, b, 0, 0])) = n * (4 * a * b) := by
  unfold mirrorArea cantLength
  rw [List.map_replicate, List.sum_replicate, nsmul_eq_mul]
  congr 1
  simp only [Matrix.cons_val_zero, Matrix.cons_val_one, Matrix.cons_val]
  rw [show a ^ 2 + (0 : ℝ) ^ 2 + 0 ^ 2 = a ^ 2 by ring, show (0 : ℝ) ^ 2 + b ^ 2 + 0 ^ 2 = b ^ 2 by ring, Real.sqrt_sq ha, Real.sqrt_sq hb]
  ring

/-- C67: even the usual two by two facets get more power than their mirrors collect, and a heliostat with a single facet gets more than four times as much. -/
theorem C67_too_much (dni a b : ℝ) (hd : 0 < dni) (ha : 0 < a) (hb : 0 < b) (points rays : Nat) (hp : 0 < points) (hr : 0 < rays) :
    let total := rayMagnitude (some dni) ![a, 0, 0, 0] ![0, b, 0, 0] points rays * (points * rays)
    dni * mirrorArea (List.replicate 4 (![a, 0, 0, 0], ![0, b, 0, 0])) < total ∧
    4 * (dni * mirrorArea [(![a, 0, 0, 0], ![0, b, 0, 0])]) < total := by
  intro total
  have h1 := mirrorArea_two_by_two a b ha.le hb.le 1
  have h4 := mirrorArea_two_by_two a b ha.le hb.le 4
  rw [List.replicate_one] at h1
  simp only [total]
  rw [(C67_outline_partial dni a b ha.le hb.le points rays hp hr).1, h1, h4]
  push_cast
  constructor
  · apply mul_lt_mul_of_pos_left _ hd; nlinarith [mul_pos ha hb]
  · nlinarith [mul_pos ha hb, mul_pos hd (mul_pos ha hb), mul_pos hd ha, mul_pos hd hb]

example : rayMagnitude (some 800) ![1, 0, 0, 0] ![0, 1, 0, 0] 2500 10 * ((2500 : Nat) * (10 : Nat)) = 800 * (402 / 100 * (402 / 100)) := by
  rw [(C67_outline_partial 800 1 1 zero_le_one zero_le_one 2500 10 (by norm_num) (by norm_num)).1]
  norm_num

end Artist
