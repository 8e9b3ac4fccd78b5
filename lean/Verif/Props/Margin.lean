import Verif.Spec.Margin
import Verif.Props.Pointing
import Verif.Props.Aiming
/-!
# C128: small errors neither lose light nor move the focal spot far

Errors of the joints, of the sun position and of the mirror surface, followed to the bitmap and to the focal spot that is computed from it.
-/
namespace Artist.Margin
open Artist Matrix Intersect Flux Splat Bitmap Kinematics Pointing Aiming Moved Converge

/-! ## Helpers -/

theorem component_le (a b : V3 ℝ) : |a.e - b.e| ≤ apart a b ∧ |a.u - b.u| ≤ apart a b := by
  unfold apart
  constructor <;> refine Real.abs_le_sqrt ?_ <;> nlinarith [sq_nonneg (a.e - b.e), sq_nonneg (a.n - b.n), sq_nonneg (a.u - b.u)]

theorem apart_nonneg (a b : V3 ℝ) : 0 ≤ apart a b := Real.sqrt_nonneg _

theorem cosine_close (p : Plane ℝ) (hn : V3.normSq p.normal = 1) (a δ : ℝ) (ray ray' : V3 ℝ × V3 ℝ) (h : Off a δ ray ray') :
    |V3.dot ray.2 p.normal - V3.dot ray'.2 p.normal| ≤ δ := by
  refine le_trans (le_of_eq ?_) ((dot_le ray.2 ray'.2 p.normal hn).trans h.2.1)
  congr 1
  simp [V3.dot]
  ring

theorem arrives_close (p : Plane ℝ) (hn : V3.normSq p.normal = 1) (a δ T κ : ℝ) (hδ : δ < κ) (ray ray' : V3 ℝ × V3 ℝ) (h : Off a δ ray ray') (q : V3 ℝ)
    (hq : Arrives p T κ ray q) : κ - δ ≤ -(V3.dot ray'.2 p.normal) ∧ apart q (planePoint ray'.1 ray'.2 p) ≤ reach a δ T κ := by
  obtain ⟨hk, hon, t, ht, rfl⟩ := hq
  have hc := abs_le.1 (cosine_close p hn a δ ray ray' h)
  have hk' : κ - δ ≤ -(V3.dot ray'.2 p.normal) := by linarith [hc.1]
  have hneg : V3.dot ray'.2 p.normal < 0 := by linarith
  have hδ0 : 0 ≤ δ := (apart_nonneg _ _).trans h.2.1
  refine ⟨hk', ?_⟩
  have hp := planePoint_on p ray'.1 ray'.2 hneg
  rw [planePoint_eq p p.center ray'.1 ray'.2 (by simp [V3.dot]) hneg] at hp ⊢
  refine (hits_close ray.1 ray'.1 ray.2 ray'.2 p.center p.normal t _ a δ (κ - δ) hn hon hp h.1 h.2.1 h.2.2 (by linarith)
    (by rw [abs_of_neg hneg]; exact hk')).trans ?_
  unfold reach
  refine mul_le_mul_of_nonneg_right ?_ ?_
  · nlinarith
  · have : 0 < 1 / (κ - δ) := one_div_pos.2 (by linarith)
    linarith

theorem lands_of (p : Plane ℝ) (ray : V3 ℝ × V3 ℝ) (hneg : V3.dot ray.2 p.normal < 0) (he : |(planePoint ray.1 ray.2 p).e - p.center.e| < p.width / 2)
    (hu : |(planePoint ray.1 ray.2 p).u - p.center.u| < p.height / 2) : Lands p ray := by
  have hp := planePoint_on p ray.1 ray.2 hneg
  rw [planePoint_eq p p.center ray.1 ray.2 (by simp [V3.dot]) hneg] at hp he hu
  rw [abs_lt] at he hu
  exact ⟨hneg, _, hp, ⟨he.1, he.2.le⟩, hu.1.le, hu.2⟩

theorem lands_point (p : Plane ℝ) (ray : V3 ℝ × V3 ℝ) (h : Lands p ray) :
    |(planePoint ray.1 ray.2 p).e - p.center.e| ≤ p.width / 2 ∧ |(planePoint ray.1 ray.2 p).u - p.center.u| ≤ p.height / 2 := by
  obtain ⟨hneg, t, h1, ⟨h2, h3⟩, h4, h5⟩ := h
  have e : ray.1 + t • ray.2 = planePoint ray.1 ray.2 p := by
    rw [planePoint_eq p p.center ray.1 ray.2 (by simp [V3.dot]) hneg]
    congr 2
    rw [eq_div_iff hneg.ne]
    simp [V3.dot] at h1 ⊢
    linarith
  rw [e] at h2 h3 h4 h5
  exact ⟨abs_le.2 ⟨h2.le, h3⟩, abs_le.2 ⟨h4, h5.le⟩⟩

/-- Two weighted means of values that are pairwise close, with weights that are pairwise close. -/
theorem means_close {A : Type} (l l' : List A) (c x : A → ℝ) (δ D κ L : ℝ) (hδ : 0 ≤ δ) (hκ : δ < κ) (hne : l ≠ [])
    (h : List.Forall₂ (fun r r' => |c r - c r'| ≤ δ ∧ |x r - x r'| ≤ D) l l') (hc : ∀ r ∈ l, κ ≤ c r) (y : ℝ) (hx : ∀ r ∈ l, |x r - y| ≤ L / 2) :
    |(l'.map fun r => c r * x r).sum / (l'.map c).sum - (l.map fun r => c r * x r).sum / (l.map c).sum| ≤ D + L * (δ / (κ - δ)) := by
  have hd : 0 < κ - δ := by linarith
  have hn : (0 : ℝ) < l.length := by exact_mod_cast List.length_pos_iff.2 hne
  have hD : 0 ≤ D := by
    cases h with
    | nil => exact absurd rfl hne
    | cons a _ => exact (abs_nonneg _).trans a.2
  have hL : 0 ≤ L := by
    obtain ⟨r, hr⟩ := List.exists_mem_of_ne_nil l hne
    linarith [(abs_nonneg _).trans (hx r hr)]
  have tot : κ * l.length ≤ (l.map c).sum := by
    clear hn hne h hx
    induction l with
    | nil => simp
    | cons r l ih =>
      simp only [List.map_cons, List.sum_cons, List.length_cons]
      push_cast
      linarith [hc r List.mem_cons_self, ih fun r hr => hc r (List.mem_cons_of_mem _ hr)]
  have tpos : 0 < (l.map c).sum := lt_of_lt_of_le (by nlinarith) tot
  set μ := (l.map fun r => c r * x r).sum / (l.map c).sum with hμ
  have bμ : |μ - y| ≤ L / 2 := mean_near l c x y (L / 2) (fun r hr => by linarith [hc r hr]) tpos hx
  have tot' : (κ - δ) * l.length ≤ (l'.map c).sum := by
    clear hn hne hx tot tpos hμ bμ μ
    induction h with
    | nil => simp
    | cons a _ ih =>
      simp only [List.map_cons, List.sum_cons, List.length_cons]
      push_cast
      have := (abs_le.1 a.1).2
      linarith [hc _ List.mem_cons_self, ih fun r hr => hc r (List.mem_cons_of_mem _ hr)]
  have tpos' : 0 < (l'.map c).sum := lt_of_lt_of_le (mul_pos hd hn) tot'
  have key : ∀ {l l' : List A}, List.Forall₂ (fun r r' => |c r - c r'| ≤ δ ∧ |x r - x r'| ≤ D) l l' → (∀ r ∈ l, κ ≤ c r) → (∀ r ∈ l, |x r - y| ≤ L / 2) →
      |((l'.map fun r => c r * x r).sum - μ * (l'.map c).sum) - ((l.map fun r => c r * x r).sum - μ * (l.map c).sum)| ≤ D * (l'.map c).sum + L * δ * l.length := by
    intro l l' h
    induction h with
    | nil => intro _ _; simp
    | cons a _ ih =>
      rename_i r r' l l' _
      intro hc hx
      have ih := ih (fun r hr => hc r (List.mem_cons_of_mem _ hr)) (fun r hr => hx r (List.mem_cons_of_mem _ hr))
      simp only [List.map_cons, List.sum_cons, List.length_cons]
      push_cast
      have cr := hc r List.mem_cons_self
      have cpos : 0 ≤ c r' := by linarith [(abs_le.1 a.1).2]
      have b1 : |c r' * (x r' - x r)| ≤ c r' * D := by
        rw [abs_mul, abs_of_nonneg cpos, abs_sub_comm]
        exact mul_le_mul_of_nonneg_left a.2 cpos
      have b2 : |(c r' - c r) * (x r - μ)| ≤ δ * L := by
        rw [abs_mul, abs_sub_comm]
        refine mul_le_mul a.1 ?_ (abs_nonneg _) hδ
        have := hx r List.mem_cons_self
        rw [abs_le] at this bμ ⊢
        constructor <;> linarith
      have e : c r' * x r' + (l'.map fun r => c r * x r).sum - μ * (c r' + (l'.map c).sum) - (c r * x r + (l.map fun r => c r * x r).sum - μ * (c r + (l.map c).sum)) =
          c r' * (x r' - x r) + (c r' - c r) * (x r - μ) +
          (((l'.map fun r => c r * x r).sum - μ * (l'.map c).sum) - ((l.map fun r => c r * x r).sum - μ * (l.map c).sum)) := by ring
      rw [e]
      refine (abs_add_le _ _).trans ?_
      refine (add_le_add ((abs_add_le _ _).trans (add_le_add b1 b2)) ih).trans (le_of_eq (by ring))
  have k := key h hc hx
  have z : (l.map fun r => c r * x r).sum - μ * (l.map c).sum = 0 := by rw [hμ, div_mul_cancel₀ _ tpos.ne', sub_self]
  rw [z, sub_zero] at k
  have e : (l'.map fun r => c r * x r).sum / (l'.map c).sum - μ = ((l'.map fun r => c r * x r).sum - μ * (l'.map c).sum) / (l'.map c).sum := by
    field_simp
  rw [e, abs_div, abs_of_pos tpos', div_le_iff₀ tpos']
  refine k.trans ?_
  rw [add_mul]
  refine add_le_add le_rfl ?_
  have : L * (δ / (κ - δ)) * ((κ - δ) * l.length) = L * δ * l.length := by field_simp
  rw [← this]
  exact mul_le_mul_of_nonneg_left tot' (by positivity)

/-! ## Theorems -/

/-- C128: a single ray that lands further from the edges than errors can carry it lands with errors, too, and arrives within `reach` of where it should. -/
theorem C128_ray (p : Plane ℝ) (hn : V3.normSq p.normal = 1) (a δ T κ M : ℝ) (hδ : δ < κ) (hM : reach a δ T κ < M) (ray ray' : V3 ℝ × V3 ℝ) (h : Off a δ ray ray')
    (hin : Inside p T κ M ray) : Lands p ray' ∧ ∃ q q', Arrives p T κ ray q ∧ V3.dot (q' - p.center) p.normal = 0 ∧ (∃ t : ℝ, q' = ray'.1 + t • ray'.2) ∧
      apart q q' ≤ reach a δ T κ := by
  obtain ⟨q, hq, he, hu⟩ := hin
  obtain ⟨hk, hr⟩ := arrives_close p hn a δ T κ hδ ray ray' h q hq
  have hneg : V3.dot ray'.2 p.normal < 0 := by linarith
  obtain ⟨c1, c2⟩ := component_le q (planePoint ray'.1 ray'.2 p)
  refine ⟨lands_of p ray' hneg ?_ ?_, q, _, hq, planePoint_on p _ _ hneg, ⟨_, planePoint_eq p p.center _ _ (by simp [V3.dot]) hneg⟩, hr⟩
  · have := abs_sub_le (planePoint ray'.1 ray'.2 p).e q.e p.center.e
    rw [abs_sub_comm _ q.e] at this
    linarith
  · have := abs_sub_le (planePoint ray'.1 ray'.2 p).u q.u p.center.u
    rw [abs_sub_comm _ q.u] at this
    linarith

theorem reach_nonneg (a δ T κ : ℝ) (hδ : δ < κ) (ray ray' : V3 ℝ × V3 ℝ) (h : Off a δ ray ray') (p : Plane ℝ) (q : V3 ℝ) (hq : Arrives p T κ ray q) : 0 ≤ reach a δ T κ := by
  have h1 := (apart_nonneg _ _).trans h.1
  have h2 := (apart_nonneg _ _).trans h.2.1
  obtain ⟨_, _, t, ht, _⟩ := hq
  have h3 := (abs_nonneg _).trans ht
  have h4 : 0 < κ - δ := by linarith
  unfold reach
  positivity

/-- C128: if all light of a heliostat lands further from the edges of the target than errors can carry it, then errors lose no light: all rays land, and the power on the target changes by at
most `δ` per ray, from the cosine at the target. -/
theorem C128_power (W H : Nat) (hW : 2 ≤ W) (hH : 2 ≤ H) (m ext refl : ℝ) (hm : 0 ≤ m) (hext : ext ≤ 1) (hrefl : 0 ≤ refl) (p : Plane ℝ) (hw : 0 < p.width) (hh : 0 < p.height)
    (hn : V3.normSq p.normal = 1) (blocked : V3 ℝ × V3 ℝ → ℝ) (hfree : ∀ ray, blocked ray = 0) (a δ T κ M : ℝ) (hδ : δ < κ) (hM : reach a δ T κ < M)
    (rays rays' : List (V3 ℝ × V3 ℝ)) (h : List.Forall₂ (Off a δ) rays rays') (hin : ∀ ray ∈ rays, Inside p T κ M ray) :
    (∀ ray' ∈ rays', Lands p ray') ∧
    ∃ bitmap factors bitmap' factors', traceSample W H m ext refl (.planar p) blocked rays = .ok (bitmap, factors) ∧
      traceSample W H m ext refl (.planar p) blocked rays' = .ok (bitmap', factors') ∧
      power W H bitmap' = (rays'.map fun ray => m * (1 - ext) * refl * -(V3.dot ray.2 p.normal)).sum ∧
      |power W H bitmap' - power W H bitmap| ≤ rays.length * (m * (1 - ext) * refl * δ) := by
  have hland' : ∀ ray' ∈ rays', Lands p ray' := by
    intro ray' hr
    obtain ⟨i, hi, rfl⟩ := List.getElem_of_mem hr
    have hi' : i < rays.length := by rw [h.length_eq]; exact hi
    exact (C128_ray p hn a δ T κ M hδ hM _ _ (h.get hi' hi) (hin _ (List.getElem_mem hi'))).1
  have hland : ∀ ray ∈ rays, Lands p ray := by
    intro ray hr
    obtain ⟨i, hi, rfl⟩ := List.getElem_of_mem hr
    have hi' : i < rays'.length := by rw [← h.length_eq]; exact hi
    obtain ⟨q, hq, he, hu⟩ := hin _ (List.getElem_mem hi)
    have nn := reach_nonneg a δ T κ hδ _ _ (h.get hi hi') p q hq
    have hδ0 := (apart_nonneg _ _).trans (h.get hi hi').2.1
    obtain ⟨hk, hon, t, ht, rfl⟩ := hq
    rw [abs_le] at he hu
    exact ⟨by linarith, t, hon, ⟨by linarith, by linarith⟩, by linarith, by linarith⟩
  classical
  obtain ⟨b, f, h1, h2⟩ := C65_planar_total W H hW hH m ext refl p hw hh blocked rays
  obtain ⟨b', f', h1', h2'⟩ := C65_planar_total W H hW hH m ext refl p hw hh blocked rays'
  have e : ∀ l : List (V3 ℝ × V3 ℝ), (∀ ray ∈ l, Lands p ray) →
      (l.map fun ray => if Lands p ray then m * -(V3.dot ray.2 p.normal) * (1 - blocked ray) * (1 - ext) * refl else 0) =
        l.map fun ray => m * (1 - ext) * refl * -(V3.dot ray.2 p.normal) := by
    intro l hl
    refine List.map_congr_left fun ray hr => ?_
    rw [if_pos (hl ray hr), hfree]
    ring
  rw [e _ hland] at h2
  rw [e _ hland'] at h2'
  refine ⟨hland', b, f, b', f', h1, h1', h2', ?_⟩
  rw [h2, h2']
  have k0 : 0 ≤ m * (1 - ext) * refl := mul_nonneg (mul_nonneg hm (by linarith)) hrefl
  clear hin hland hland' h1 h1' h2 h2' e
  induction h with
  | nil => simp
  | cons x _ ih =>
    rename_i r r' l l' _
    simp only [List.map_cons, List.sum_cons, List.length_cons]
    push_cast
    have c := cosine_close p hn a δ r r' x
    have e : m * (1 - ext) * refl * -(V3.dot r'.2 p.normal) + (l'.map fun ray => m * (1 - ext) * refl * -(V3.dot ray.2 p.normal)).sum -
        (m * (1 - ext) * refl * -(V3.dot r.2 p.normal) + (l.map fun ray => m * (1 - ext) * refl * -(V3.dot ray.2 p.normal)).sum) =
        m * (1 - ext) * refl * (V3.dot r.2 p.normal - V3.dot r'.2 p.normal) +
        ((l'.map fun ray => m * (1 - ext) * refl * -(V3.dot ray.2 p.normal)).sum - (l.map fun ray => m * (1 - ext) * refl * -(V3.dot ray.2 p.normal)).sum) := by ring
    rw [e]
    refine (abs_add_le _ _).trans ((add_le_add ?_ ih).trans (le_of_eq (by ring : m * (1 - ext) * refl * δ + _ = _)))
    rw [abs_mul, abs_of_nonneg k0]
    exact mul_le_mul_of_nonneg_left c k0

/-- C128: and a target that the light passes at a distance larger than errors can carry it stays dark. -/
theorem C128_dark (W H : Nat) (hW : 2 ≤ W) (hH : 2 ≤ H) (m ext refl : ℝ) (p : Plane ℝ) (hw : 0 < p.width) (hh : 0 < p.height)
    (hn : V3.normSq p.normal = 1) (blocked : V3 ℝ × V3 ℝ → ℝ) (a δ T κ M : ℝ) (hδ : δ < κ) (hM : reach a δ T κ < M)
    (rays rays' : List (V3 ℝ × V3 ℝ)) (h : List.Forall₂ (Off a δ) rays rays') (hout : ∀ ray ∈ rays, Outside p T κ M ray) :
    ∃ bitmap' factors', traceSample W H m ext refl (.planar p) blocked rays' = .ok (bitmap', factors') ∧ power W H bitmap' = 0 := by
  obtain ⟨b', f', h1', h2'⟩ := C65_planar_total W H hW hH m ext refl p hw hh blocked rays'
  refine ⟨b', f', h1', ?_⟩
  rw [h2']
  apply List.sum_eq_zero
  intro x hx
  obtain ⟨ray', hr, rfl⟩ := List.mem_map.1 hx
  refine if_neg fun hl => ?_
  obtain ⟨i, hi, rfl⟩ := List.getElem_of_mem hr
  have hi' : i < rays.length := by rw [h.length_eq]; exact hi
  obtain ⟨q, hq, ho⟩ := hout _ (List.getElem_mem hi')
  obtain ⟨-, hr⟩ := arrives_close p hn a δ T κ hδ _ _ (h.get hi' hi) q hq
  obtain ⟨b1, b2⟩ := lands_point p _ hl
  obtain ⟨c1, c2⟩ := component_le q (planePoint (rays'[i]).1 (rays'[i]).2 p)
  have hr' : apart q (planePoint (rays'[i]).1 (rays'[i]).2 p) ≤ reach a δ T κ := hr
  rcases ho with ho | ho
  · have := abs_sub_le q.e (planePoint (rays'[i]).1 (rays'[i]).2 p).e p.center.e
    linarith
  · have := abs_sub_le q.u (planePoint (rays'[i]).1 (rays'[i]).2 p).u p.center.u
    linarith

/-- C128: the focal spot moves by at most `reach`, plus what the changed weights of the rays and the resolution of the two bitmaps may do. -/
theorem C128_focal_spot (eps : ℝ) (he : 0 < eps) (W H : Nat) (hW : 2 ≤ W) (hH : 2 ≤ H) (m ext refl : ℝ) (hm : 0 < m) (hext : ext < 1) (hrefl : 0 < refl) (p : Plane ℝ)
    (hw : 0 < p.width) (hh : 0 < p.height) (hn : V3.normSq p.normal = 1) (blocked : V3 ℝ × V3 ℝ → ℝ) (hfree : ∀ ray, blocked ray = 0) (a δ T κ M : ℝ) (hδ : δ < κ)
    (hM : reach a δ T κ < M) (rays rays' : List (V3 ℝ × V3 ℝ)) (hne : rays ≠ []) (h : List.Forall₂ (Off a δ) rays rays') (hin : ∀ ray ∈ rays, Inside p T κ M ray) :
    ∃ bitmap factors bitmap' factors', traceSample W H m ext refl (.planar p) blocked rays = .ok (bitmap, factors) ∧
      traceSample W H m ext refl (.planar p) blocked rays' = .ok (bitmap', factors') ∧
      |(focalSpot eps W H p bitmap').e - (focalSpot eps W H p bitmap).e| ≤
        reach a δ T κ + p.width * (δ / (κ - δ)) + (pixelError eps p.width (power W H bitmap) W + pixelError eps p.width (power W H bitmap') W) ∧
      |(focalSpot eps W H p bitmap').u - (focalSpot eps W H p bitmap).u| ≤
        reach a δ T κ + p.height * (δ / (κ - δ)) + (pixelError eps p.height (power W H bitmap) H + pixelError eps p.height (power W H bitmap') H) := by
  have hlands : ∀ ray ∈ rays, Lands p ray ∧ κ ≤ -(V3.dot ray.2 p.normal) := by
    intro ray hr
    obtain ⟨i, hi, rfl⟩ := List.getElem_of_mem hr
    have hi' : i < rays'.length := by rw [← h.length_eq]; exact hi
    obtain ⟨q, hq, he, hu⟩ := hin _ (List.getElem_mem hi)
    have nn := reach_nonneg a δ T κ hδ _ _ (h.get hi hi') p q hq
    have hδ0 := (apart_nonneg _ _).trans (h.get hi hi').2.1
    obtain ⟨hk, hon, t, ht, rfl⟩ := hq
    rw [abs_le] at he hu
    exact ⟨⟨by linarith, t, hon, ⟨by linarith, by linarith⟩, by linarith, by linarith⟩, hk⟩
  have hne' : rays' ≠ [] := by
    intro hc
    rw [hc] at h
    exact hne (List.forall₂_nil_right_iff.1 h)
  have hland' := (C128_power W H hW hH m ext refl hm.le hext.le hrefl.le p hw hh hn blocked hfree a δ T κ M hδ hM rays rays' h hin).1
  obtain ⟨b, f, h1, t1, p1, -, e1, u1⟩ := spot_mean eps he W H hW hH m ext refl hm hext hrefl p hw hh blocked rays hne (fun _ _ => by rw [hfree]; norm_num)
    (fun ray hr => (hlands ray hr).1)
  obtain ⟨b', f', h1', t1', p1', -, e1', u1'⟩ := spot_mean eps he W H hW hH m ext refl hm hext hrefl p hw hh blocked rays' hne' (fun _ _ => by rw [hfree]; norm_num) hland'
  refine ⟨b, f, b', f', h1, h1', ?_⟩
  set k := m * (1 - ext) * refl with hk
  have kpos : 0 < k := mul_pos (mul_pos hm (by linarith)) hrefl
  have scale : ∀ (l : List (V3 ℝ × V3 ℝ)) (x : V3 ℝ × V3 ℝ → ℝ), (l.map fun ray => k * (1 - blocked ray) * -(V3.dot ray.2 p.normal) * x ray).sum / (l.map fun ray => k * (1 - blocked ray) * -(V3.dot ray.2 p.normal)).sum =
      (l.map fun ray => -(V3.dot ray.2 p.normal) * x ray).sum / (l.map fun ray => -(V3.dot ray.2 p.normal)).sum := by
    intro l x
    have s1 : (l.map fun ray => k * (1 - blocked ray) * -(V3.dot ray.2 p.normal) * x ray).sum = k * (l.map fun ray => -(V3.dot ray.2 p.normal) * x ray).sum := by
      rw [← List.sum_map_mul_left]
      congr 1
      refine List.map_congr_left fun ray _ => ?_
      rw [hfree]; ring
    have s2 : (l.map fun ray => k * (1 - blocked ray) * -(V3.dot ray.2 p.normal)).sum = k * (l.map fun ray => -(V3.dot ray.2 p.normal)).sum := by
      rw [← List.sum_map_mul_left]
      congr 1
      refine List.map_congr_left fun ray _ => ?_
      rw [hfree]; ring
    rw [s1, s2, mul_div_mul_left _ _ kpos.ne']
  have point : ∀ ray ray', Off a δ ray ray' → Inside p T κ M ray → apart (planePoint ray.1 ray.2 p) (planePoint ray'.1 ray'.2 p) ≤ reach a δ T κ ∧ 0 ≤ δ := by
    intro ray ray' ho hi
    obtain ⟨q, hq, -, -⟩ := hi
    have hδ0 := (apart_nonneg _ _).trans ho.2.1
    obtain ⟨-, hr⟩ := arrives_close p hn a δ T κ hδ ray ray' ho q hq
    obtain ⟨hk, hon, t, ht, rfl⟩ := hq
    have hneg : V3.dot ray.2 p.normal < 0 := by linarith
    have e : planePoint ray.1 ray.2 p = ray.1 + t • ray.2 := by
      rw [planePoint_eq p p.center ray.1 ray.2 (by simp [V3.dot]) hneg]
      congr 2
      rw [div_eq_iff hneg.ne]
      simp [V3.dot] at hon ⊢
      linarith
    rw [e]
    exact ⟨hr, hδ0⟩
  have δ0 : 0 ≤ δ := by
    cases h with
    | nil => exact absurd rfl hne
    | cons x _ => exact (apart_nonneg _ _).trans x.2.1
  have pairs : ∀ g : V3 ℝ → ℝ, (∀ a b : V3 ℝ, |g a - g b| ≤ apart a b) →
      List.Forall₂ (fun r r' => |(-(V3.dot r.2 p.normal)) - -(V3.dot r'.2 p.normal)| ≤ δ ∧ |g (planePoint r.1 r.2 p) - g (planePoint r'.1 r'.2 p)| ≤ reach a δ T κ) rays rays' := by
    intro g hg
    clear t1 p1 e1 u1 t1' p1' e1' u1' h1 h1' hland' hlands hne hne'
    induction h with
    | nil => exact List.Forall₂.nil
    | cons x _ ih =>
      refine List.Forall₂.cons ⟨?_, ?_⟩ (ih fun ray hr => hin ray (List.mem_cons_of_mem _ hr))
      · rw [neg_sub_neg, abs_sub_comm]
        exact cosine_close p hn a δ _ _ x
      · exact (hg _ _).trans (point _ _ x (hin _ List.mem_cons_self)).1
  have final : ∀ s s' y y' E E' D : ℝ, |s - y| ≤ E → |s' - y'| ≤ E' → |y' - y| ≤ D → |s' - s| ≤ D + (E + E') := by
    intro s s' y y' E E' D h1 h2 h3
    rw [abs_le] at *
    constructor <;> linarith
  constructor
  · rw [t1, scale rays fun ray => (planePoint ray.1 ray.2 p).e, ← t1] at e1
    rw [t1', scale rays' fun ray => (planePoint ray.1 ray.2 p).e, ← t1'] at e1'
    refine final _ _ _ _ _ _ _ e1 e1' ?_
    exact means_close rays rays' (fun ray => -(V3.dot ray.2 p.normal)) (fun ray => (planePoint ray.1 ray.2 p).e) δ (reach a δ T κ) κ p.width δ0 hδ hne
      (pairs (fun v => v.e) fun a b => (component_le a b).1) (fun ray hr => (hlands ray hr).2) p.center.e fun ray hr => (lands_point p ray (hlands ray hr).1).1
  · rw [t1, scale rays fun ray => (planePoint ray.1 ray.2 p).u, ← t1] at u1
    rw [t1', scale rays' fun ray => (planePoint ray.1 ray.2 p).u, ← t1'] at u1'
    refine final _ _ _ _ _ _ _ u1 u1' ?_
    exact means_close rays rays' (fun ray => -(V3.dot ray.2 p.normal)) (fun ray => (planePoint ray.1 ray.2 p).u) δ (reach a δ T κ) κ p.height δ0 hδ hne
      (pairs (fun v => v.u) fun a b => (component_le a b).2) (fun ray hr => (hlands ray hr).2) p.center.u fun ray hr => (lands_point p ray (hlands ray hr).1).2

/-- C128: the rays of a heliostat whose joints are off by `e₁` and `e₂` and whose sun is off by `σ` are such rays. -/
theorem C128_pointing (h : Heliostat) (m m' : ℝ × ℝ) (i i' : Fin 4 → ℝ) (mirror : List ((Fin 4 → ℝ) × (Fin 4 → ℝ))) (distortions : List (List (ℝ × ℝ))) (R e₁ e₂ σ : ℝ)
    (hm : Within R mirror) (hi : UnitDirection i) (hi' : UnitDirection i') (hσ : length3 (i - i') ≤ σ)
    (h₁ : |(angles h m).1 - (angles h m').1| ≤ e₁) (h₂ : |(angles h m).2 - (angles h m').2| ≤ e₂) :
    List.Forall₂ (Off (shift h R e₁ e₂) (σ + 2 * (e₁ + e₂))) (raysOf i (placed (h.motorToOrientation m) mirror) distortions)
      (raysOf i' (placed (h.motorToOrientation m') mirror) distortions) :=
  C119_rays h m m' i i' mirror distortions R e₁ e₂ σ hm hi hi' hσ h₁ h₂

/-- C128: and so are those of a deformed mirror: an error of a normal counts twice. -/
theorem C128_surface (i : Fin 4 → ℝ) (hi : UnitDirection i) (a ε : ℝ) (surface surface' : List (V3 ℝ × (Fin 4 → ℝ))) (hd : Deformed a ε surface surface')
    (distortions : List (List (ℝ × ℝ))) : List.Forall₂ (Off a (2 * ε)) (raysOf i surface distortions) (raysOf i surface' distortions) := by
  have single : ∀ s s' : V3 ℝ × (Fin 4 → ℝ), (apart s.1 s'.1 ≤ a ∧ UnitDirection s.2 ∧ UnitDirection s'.2 ∧ length3 (s.2 - s'.2) ≤ ε) → ∀ e u : ℝ,
      Off a (2 * ε) (s.1, direction i s.2 e u) (s'.1, direction i s'.2 e u) := by
    rintro s s' ⟨h1, n1, n2, h2⟩ e u
    refine ⟨h1, ?_, ?_⟩
    · rw [scattered _ _ _ _ _ _ (by rw [C16_direction _ _ hi.1 n1.1, C16_direction _ _ hi.1 n2.1])]
      exact (C119_reflection i i _ _ hi hi.1 n1 n2).1.trans (mul_le_mul_of_nonneg_left h2 (by norm_num))
    · have z : reflect i s'.2 3 = 0 := C16_direction _ _ hi.1 n2.1
      have l : length3 (Transforms.rotDist e u *ᵥ reflect i s'.2) ^ 2 = 1 := by
        rw [(rigid_rotDist e u).length_dir _ z]
        have z0 : reflect (0 : Fin 4 → ℝ) s'.2 = 0 := by unfold reflect; simp
        have := reflect_incident i 0 _ hi.1 rfl n2
        rw [z0, sub_zero, sub_zero, hi.2] at this
        rw [this, one_pow]
      rw [length3_sq] at l
      unfold direction V3.normSq V3.dot
      simp only
      linarith
  unfold raysOf
  induction distortions with
  | nil => simp
  | cons row rows ih =>
    rw [List.flatMap_cons, List.flatMap_cons]
    refine List.rel_append ?_ ih
    clear ih
    unfold Deformed at hd
    induction hd generalizing row with
    | nil => simp
    | cons x _ ih =>
      cases row with
      | nil => simp
      | cons d row =>
        rw [List.zipWith_cons_cons, List.zipWith_cons_cons]
        exact List.Forall₂.cons (single _ _ x d.1 d.2) (ih row)

/-- a ray that runs into the target of C65 from 50 m away, at `x` metres east of its middle and turned to the east; `s` is the tangent of half the angle -/
noncomputable def turned (x s : ℝ) : V3 ℝ × V3 ℝ := (⟨x, -50, 10⟩, ⟨2 * s / (1 + s ^ 2), (1 - s ^ 2) / (1 + s ^ 2), 0⟩)

theorem turned_off (x s : ℝ) (hs : 0 ≤ s) : Off 0 (2 * s) (turned x 0) (turned x s) := by
  have pos : 0 < 1 + s ^ 2 := by positivity
  refine ⟨by simp [turned, apart], ?_, ?_⟩
  · unfold apart turned
    refine Real.sqrt_le_iff.2 ⟨by linarith, ?_⟩
    simp only [mul_zero, zero_div, zero_sub, sub_self]
    have e : (-(2 * s / (1 + s ^ 2))) ^ 2 + ((1 - 0 ^ 2) / (1 + 0 ^ 2) - (1 - s ^ 2) / (1 + s ^ 2)) ^ 2 + 0 ^ 2 = 4 * s ^ 2 / (1 + s ^ 2) := by
      field_simp; ring
    rw [e, div_le_iff₀ pos]
    nlinarith [sq_nonneg s, sq_nonneg (s ^ 2)]
  · unfold turned V3.normSq V3.dot
    simp only
    field_simp
    ring

/-- C128: the distance from the edge is needed: of light that lands at the edge, arbitrarily small errors lose everything. -/
theorem C128_edge (δ : ℝ) (hδ : 0 < δ) : ∃ ray ray', Lands southTarget ray ∧ Off 0 δ ray ray' ∧
    ∃ bitmap factors bitmap' factors', traceSample 2 2 1 0 1 (.planar southTarget) (fun _ => 0) [ray] = .ok (bitmap, factors) ∧ power 2 2 bitmap = 1 ∧
      traceSample 2 2 1 0 1 (.planar southTarget) (fun _ => 0) [ray'] = .ok (bitmap', factors') ∧ power 2 2 bitmap' = 0 := by
  classical
  obtain ⟨s, s0, s1, s2⟩ : ∃ s : ℝ, 0 < s ∧ 2 * s ≤ δ ∧ s < 1 :=
    ⟨min (δ / 2) (1 / 2), lt_min (by linarith) (by norm_num), by linarith [min_le_left (δ / 2) (1 / 2)], lt_of_le_of_lt (min_le_right _ _) (by norm_num)⟩
  have hl : Lands southTarget (turned 1 0) := by
    refine ⟨by norm_num [turned, southTarget, V3.dot], 50, ?_⟩
    norm_num [turned, southTarget, V3.dot]
  have pos : 0 < 1 + s ^ 2 := by positivity
  have hno : ¬ Lands southTarget (turned 1 s) := by
    rintro ⟨h1, t, h2, ⟨-, h3⟩, -⟩
    simp [turned, southTarget, V3.dot] at h1 h2 h3
    have c : 0 < (1 - s ^ 2) / (1 + s ^ 2) := div_pos (by nlinarith) pos
    have ht : 0 < t := by
      by_contra hc
      push Not at hc
      nlinarith
    have : 0 < t * (2 * s / (1 + s ^ 2)) := by positivity
    linarith
  have off := turned_off 1 s s0.le
  obtain ⟨b, f, h1, h2⟩ := C65_planar_total 2 2 le_rfl le_rfl 1 0 1 southTarget southTarget_valid.1 southTarget_valid.2.1 (fun _ => 0) [turned 1 0]
  obtain ⟨b', f', h1', h2'⟩ := C65_planar_total 2 2 le_rfl le_rfl 1 0 1 southTarget southTarget_valid.1 southTarget_valid.2.1 (fun _ => 0) [turned 1 s]
  refine ⟨_, _, hl, ⟨off.1, off.2.1.trans s1, off.2.2⟩, b, f, b', f', h1, ?_, h1', ?_⟩
  · rw [h2]
    simp only [List.map_cons, List.map_nil, List.sum_cons, List.sum_nil]
    rw [if_pos hl]
    norm_num [turned, southTarget, V3.dot]
  · rw [h2']
    simp only [List.map_cons, List.map_nil, List.sum_cons, List.sum_nil]
    rw [if_neg hno, add_zero]

/-- three rays, all within 30 cm of the middle of the target -/
noncomputable def beam (s : ℝ) : List (V3 ℝ × V3 ℝ) := [turned (-3 / 10) s, turned 0 s, turned (3 / 10) s]

theorem beam_off : List.Forall₂ (Off 0 (1 / 500)) (beam 0) (beam (1 / 1000)) := by
  have h := fun x => turned_off x (1 / 1000) (by norm_num)
  norm_num at h
  norm_num
  exact List.Forall₂.cons (h _) (List.Forall₂.cons (h _) (List.Forall₂.cons (h _) List.Forall₂.nil))

theorem beam_reach : reach 0 (1 / 500) 50 1 < 7 / 10 := by norm_num [reach]

theorem beam_inside : ∀ ray ∈ beam 0, Inside southTarget 50 1 (7 / 10) ray := by
  intro ray hr
  simp only [beam, List.mem_cons, List.not_mem_nil, or_false] at hr
  have key : ∀ x : ℝ, |x| ≤ 3 / 10 → Inside southTarget 50 1 (7 / 10) (turned x 0) := by
    intro x hx
    refine ⟨⟨x, 0, 10⟩, ⟨?_, ?_, 50, by norm_num, ?_⟩, ?_, ?_⟩
    · norm_num [turned, southTarget, V3.dot]
    · norm_num [southTarget, V3.dot]
    · ext <;> norm_num [turned]
    · simp only [southTarget, sub_zero]
      linarith
    · norm_num [southTarget]
  rcases hr with rfl | rfl | rfl <;> exact key _ (by norm_num [abs_le])

/-- Mirrors off by a milliradian, 50 m away: nothing is lost on a target of 2 m if the light should land within 30 cm of its middle; the power changes by less than 0.2 percent, and the
focal spot on an image of 256 by 256 pixels by less than 25 cm. -/
example : ∃ bitmap factors bitmap' factors', traceSample 256 256 1 0 1 (.planar southTarget) (fun _ => 0) (beam 0) = .ok (bitmap, factors) ∧
    traceSample 256 256 1 0 1 (.planar southTarget) (fun _ => 0) (beam (1 / 1000)) = .ok (bitmap', factors') ∧
    |power 256 256 bitmap' - power 256 256 bitmap| ≤ 3 * (1 / 500) ∧
    |(focalSpot (1 / 10 ^ 8) 256 256 southTarget bitmap').e - (focalSpot (1 / 10 ^ 8) 256 256 southTarget bitmap).e| ≤
      reach 0 (1 / 500) 50 1 + 2 * (1 / 499) + (pixelError (1 / 10 ^ 8) 2 (power 256 256 bitmap) 256 + pixelError (1 / 10 ^ 8) 2 (power 256 256 bitmap') 256) := by
  obtain ⟨-, b, f, b', f', h1, h1', -, h2⟩ := C128_power 256 256 (by norm_num) (by norm_num) 1 0 1 (by norm_num) (by norm_num) (by norm_num) southTarget southTarget_valid.1
    southTarget_valid.2.1 southTarget_valid.2.2 (fun _ => 0) (fun _ => rfl) 0 (1 / 500) 50 1 (7 / 10) (by norm_num) beam_reach (beam 0) (beam (1 / 1000)) beam_off beam_inside
  obtain ⟨c, g, c', g', k1, k1', h3, -⟩ := C128_focal_spot (1 / 10 ^ 8) (by norm_num) 256 256 (by norm_num) (by norm_num) 1 0 1 (by norm_num) (by norm_num) (by norm_num) southTarget
    southTarget_valid.1 southTarget_valid.2.1 southTarget_valid.2.2 (fun _ => 0) (fun _ => rfl) 0 (1 / 500) 50 1 (7 / 10) (by norm_num) beam_reach (beam 0) (beam (1 / 1000))
    (by simp [beam]) beam_off beam_inside
  rw [h1] at k1
  rw [h1'] at k1'
  obtain ⟨rfl, -⟩ := Prod.mk.inj (Except.ok.inj k1)
  obtain ⟨rfl, -⟩ := Prod.mk.inj (Except.ok.inj k1')
  refine ⟨b, f, b', f', h1, h1', ?_, ?_⟩
  · refine h2.trans (le_of_eq ?_)
    norm_num [beam]
  · have e : southTarget.width = 2 := rfl
    rw [e] at h3
    have : (1 / 500 : ℝ) / (1 - 1 / 500) = 1 / 499 := by norm_num
    rw [this] at h3
    exact h3

/-- The light passes a target 5 m further east. -/
example : ∃ bitmap factors, traceSample 2 2 1 0 1 (.planar ⟨⟨5, 0, 10⟩, ⟨0, -1, 0⟩, 2, 2⟩) (fun _ => 0) (beam (1 / 1000)) = .ok (bitmap, factors) ∧ power 2 2 bitmap = 0 := by
  refine C128_dark 2 2 le_rfl le_rfl 1 0 1 _ (by norm_num) (by norm_num) (by norm_num [V3.normSq, V3.dot]) _ 0 (1 / 500) 50 1 (7 / 10) (by norm_num) beam_reach (beam 0) (beam (1 / 1000))
    beam_off ?_
  intro ray hr
  simp only [beam, List.mem_cons, List.not_mem_nil, or_false] at hr
  have key : ∀ x : ℝ, |x| ≤ 3 / 10 → Outside ⟨⟨5, 0, 10⟩, ⟨0, -1, 0⟩, 2, 2⟩ 50 1 (7 / 10) (turned x 0) := by
    intro x hx
    refine ⟨⟨x, 0, 10⟩, ⟨?_, ?_, 50, by norm_num, ?_⟩, Or.inl ?_⟩
    · norm_num [turned, V3.dot]
    · norm_num [V3.dot]
    · ext <;> norm_num [turned]
    · rw [abs_le] at hx
      simp only
      rw [abs_of_neg (by linarith)]
      linarith
  rcases hr with rfl | rfl | rfl <;> exact key _ (by norm_num [abs_le])

/-- A mirror one of whose normals is tilted: the normals `(0, 0, 1)` and `(0, 3/5, 4/5)` are less than 0.64 apart. -/
example (distortions : List (List (ℝ × ℝ))) : List.Forall₂ (Off 0 (2 * (16 / 25))) (raysOf ![0, 0, -1, 0] [(⟨0, 0, 0⟩, ![0, 0, 1, 0]), (⟨1, 0, 0⟩, ![0, 0, 1, 0])] distortions)
    (raysOf ![0, 0, -1, 0] [(⟨0, 0, 0⟩, ![0, 3 / 5, 4 / 5, 0]), (⟨1, 0, 0⟩, ![0, 0, 1, 0])] distortions) := by
  have u : UnitDirection ![0, 0, 1, 0] := by simp [UnitDirection, length3]
  have u' : UnitDirection ![0, 3 / 5, 4 / 5, 0] := by
    refine ⟨by simp, ?_⟩
    unfold length3
    rw [Real.sqrt_eq_one]
    simp; norm_num
  refine C128_surface _ (by simp [UnitDirection, length3]) _ _ _ _ (List.Forall₂.cons ⟨by simp [apart], u, u', ?_⟩ (List.Forall₂.cons ⟨by simp [apart], u, u, ?_⟩ List.Forall₂.nil)) _
  · unfold length3
    refine Real.sqrt_le_iff.2 ⟨by norm_num, ?_⟩
    simp; norm_num
  · simp [length3]; norm_num

end Artist.Margin
