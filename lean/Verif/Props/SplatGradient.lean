import Verif.Proofs.SplatGradient
import Verif.Props.Splat
import Mathlib.Analysis.Calculus.Deriv.Pow
/-!
# C105: the bitmap follows small movements of the rays, and the gradients say how

The bitmap of rays that stay inside the grid is a continuous function of where the rays hit, and what `backward` computes is its derivative.
-/
namespace Artist.Splat
open Artist Finset Topology Filter

section
variable {K : Type} [Field K] [LinearOrder K] [IsStrictOrderedRing K] [FloorRing K]

/-- C105: when rays move inside the grid, all pixels together change by at most twice the distance (in pixels, east plus up), weighted with the intensities. -/
theorem C105_shift (W H : Nat) (hW : 0 < W) (hH : 0 < H) (moves : List (Hit K × Hit K)) (hm : ∀ m ∈ moves, MovesInside W H m) :
    ∃ img img', splat W H (moves.map Prod.fst) = .ok img ∧ splat W H (moves.map Prod.snd) = .ok img' ∧
      ∑ r ∈ range H, ∑ c ∈ range W, |pixel img r c - pixel img' r c| ≤
        (moves.map (fun m => |m.1.w| * (2 * (|m.1.e - m.2.e| + |m.1.u - m.2.u|)))).sum := by
  obtain ⟨img, h1, _, _, g1⟩ := C08_pixel W H hW hH (moves.map Prod.fst) (by
    intro h hh; obtain ⟨m, hm', rfl⟩ := List.mem_map.1 hh; exact ⟨(hm m hm').1.1.1, (hm m hm').1.2.1⟩)
  obtain ⟨img', h2, _, _, g2⟩ := C08_pixel W H hW hH (moves.map Prod.snd) (by
    intro h hh; obtain ⟨m, hm', rfl⟩ := List.mem_map.1 hh; exact ⟨(hm m hm').2.1.1.1, (hm m hm').2.1.2.1⟩)
  refine ⟨img, img', h1, h2, ?_⟩
  rw [← Finset.sum_range_reflect]
  have e1 : ∀ r ∈ range H, ∀ c ∈ range W, |pixel img (H - 1 - r) c - pixel img' (H - 1 - r) c| ≤
      (moves.map (fun m => |m.1.w| * |tent (m.1.e - (c : K)) * tent (m.1.u - (r : K)) - tent (m.2.e - (c : K)) * tent (m.2.u - (r : K))|)).sum := by
    intro r hr c hc
    rw [g1 r c (mem_range.1 hr) (mem_range.1 hc), g2 r c (mem_range.1 hr) (mem_range.1 hc)]
    clear g1 g2 h1 h2
    induction moves with
    | nil => simp
    | cons m l ih =>
      obtain ⟨i1, i2, i3⟩ := hm m List.mem_cons_self
      have := ih (fun x hx => hm x (List.mem_cons_of_mem _ hx))
      simp only [List.map_cons, List.sum_cons]
      rw [if_pos i1, if_pos i2, ← i3, add_sub_add_comm]
      refine (abs_add_le _ _).trans (add_le_add (le_of_eq ?_) this)
      rw [← mul_sub, abs_mul]
  refine (Finset.sum_le_sum fun r hr => Finset.sum_le_sum fun c hc => e1 r hr c hc).trans ?_
  clear g1 g2 h1 h2 e1 hm
  induction moves with
  | nil => simp
  | cons m l ih =>
    simp only [List.map_cons, List.sum_cons, Finset.sum_add_distrib]
    refine add_le_add ?_ ih
    simp only [← Finset.mul_sum]
    exact mul_le_mul_of_nonneg_left (sum_tent_pair W H _ _ _ _) (abs_nonneg _)

/-- C105: for every ray, inside the bitmap or not, the backward pass reads the gradients at exactly the four entries of the flat bitmap to which the forward pass added, and these exist. -/
theorem C105_same_entries (W H : Nat) (hW : 0 < W) (hH : 0 < H) (h : Hit K) :
    [maskedIndex W H h ((long h.u + 1) * W + long h.e), maskedIndex W H h ((long h.u + 1) * W + long h.e + 1),
      maskedIndex W H h (long h.u * W + long h.e + 1), maskedIndex W H h (long h.u * W + long h.e)] =
      [(entry1 W H h).1, (entry2 W H h).1, (entry3 W H h).1, (entry4 W H h).1] ∧
    ∀ i ∈ [(entry1 W H h).1, (entry2 W H h).1, (entry3 W H h).1, (entry4 W H h).1], 0 ≤ i ∧ i < ((H * W : Nat) : Int) := by
  by_cases hon : onTarget W H h = true
  · unfold maskedIndex entry1 entry2 entry3 entry4
    simp only [hon, if_true, true_and]
    simp only [onTarget, Bool.and_eq_true, decide_eq_true_eq] at hon
    obtain ⟨⟨⟨a, b⟩, c⟩, d⟩ := hon
    generalize long h.e = x at *
    generalize long h.u = y at *
    have hy : (y + 1 + 1) * (W : Int) ≤ H * W := mul_le_mul_of_nonneg_right (by omega) (by omega)
    have y0 : 0 ≤ y * (W : Int) := mul_nonneg c (by omega)
    intro i hi
    push_cast
    have e1 : (y + 1 + 1) * (W : Int) = y * W + W + W := by ring
    have e2 : (y + 1) * (W : Int) = y * W + W := by ring
    rw [e1] at hy
    rw [e2] at hi
    simp only [List.mem_cons, List.not_mem_nil, or_false] at hi
    generalize y * (W : Int) = q at *
    generalize (H : Int) * W = r at *
    omega
  · have : 0 < H * W := Nat.mul_pos hH hW
    simp only [maskedIndex, entry1, entry2, entry3, entry4, hon]
    refine ⟨rfl, ?_⟩
    intro i hi
    simp at hi
    subst hi
    exact ⟨le_rfl, by exact_mod_cast this⟩

/-- C105, instance: a ray inside a bitmap of 4 × 3 pixels, and one outside, which the forward pass adds to (and the backward pass reads from) entry 0. -/
example : [(entry1 4 3 (⟨3 / 2, 1 / 2, 1⟩ : Hit ℚ)).1, (entry2 4 3 (⟨3 / 2, 1 / 2, 1⟩ : Hit ℚ)).1, (entry3 4 3 (⟨3 / 2, 1 / 2, 1⟩ : Hit ℚ)).1, (entry4 4 3 (⟨3 / 2, 1 / 2, 1⟩ : Hit ℚ)).1] =
    [5, 6, 2, 1] ∧ (entry1 4 3 (⟨7, 1 / 2, 1⟩ : Hit ℚ)).1 = 0 := by
  constructor <;> decide +kernel

/-- C105: the border of the grid is where this ends: a ray that is nearly there has its whole intensity in the bitmap, a ray that is there has nothing in it. -/
theorem C105_border (W H : Nat) (hW : 1 < W) (hH : 1 < H) (u w ε : K) (hu : 0 ≤ u ∧ u < (H : K) - 1) (hε : 0 < ε ∧ ε ≤ 1) :
    ∃ img img', splat W H [⟨(W : K) - 1 - ε, u, w⟩] = .ok img ∧ splat W H [⟨(W : K) - 1, u, w⟩] = .ok img' ∧
      ∑ r ∈ range H, ∑ c ∈ range W, pixel img r c = w ∧ ∀ r c, r < H → c < W → pixel img' r c = 0 := by
  have hWK : (2 : K) ≤ (W : K) := by exact_mod_cast hW
  have hpos : ∀ h ∈ [(⟨(W : K) - 1 - ε, u, w⟩ : Hit K)], 0 ≤ h.e ∧ 0 ≤ h.u := by
    intro h hh; rw [List.mem_singleton] at hh; subst hh
    exact ⟨by show 0 ≤ (W : K) - 1 - ε; linarith [hε.2], hu.1⟩
  obtain ⟨img, h1, _, _, _⟩ := C08_pixel W H (by omega) (by omega) _ hpos
  obtain ⟨img', h2, g2⟩ := C08_last_column_dropped W H (by omega) (by omega) u w hu.1
  refine ⟨img, img', h1, h2, ?_, g2⟩
  rw [C08_energy W H (by omega) (by omega) _ hpos img h1]
  have hin : Inside W H (⟨(W : K) - 1 - ε, u, w⟩ : Hit K) :=
    ⟨⟨(hpos _ (List.mem_singleton.2 rfl)).1, by show (W : K) - 1 - ε < _; linarith [hε.1]⟩, hu⟩
  simp [hin]

/-- C105: a ray outside the grid gets no gradient, whatever the loss: nothing pulls it back. -/
theorem C105_outside (W H : Nat) (g : Nat → Nat → K) (h : Hit K) (he : 0 ≤ h.e) (hu : 0 ≤ h.u) (hout : ¬ Inside W H h) :
    backward W H g h = ⟨0, 0, 0⟩ := by
  have : ¬ onTarget W H h = true := fun hh => hout ((onTarget_inside W H h he hu).1 hh)
  unfold backward maskValue
  simp [this]

/-- C105: a loss that only looks at the total flux in the bitmap gives no gradient for where the rays hit; for the intensity of a ray in the grid it gives 1. -/
theorem C105_total_flux (W H : Nat) (h : Hit K) (he : 0 ≤ h.e) (hu : 0 ≤ h.u) :
    (backward W H (fun _ _ => 1) h).e = 0 ∧ (backward W H (fun _ _ => 1) h).u = 0 ∧
      (backward W H (fun _ _ => 1) h).w = if Inside W H h then 1 else 0 := by
  by_cases hin : Inside W H h
  · have hon := (onTarget_inside W H h he hu).2 hin
    have e1 := low_add_high h.e
    have e2 := low_add_high h.u
    have f1 : low h.e = 1 - high h.e := by linarith
    have f2 : low h.u = 1 - high h.u := by linarith
    unfold backward maskValue flatGradient
    simp only [hon, if_true, mul_one, one_mul, hin]
    rw [f1, f2]
    refine ⟨by ring, by ring, by ring⟩
  · rw [C105_outside W H _ h he hu hin]; simp [hin]
end

/-- C105: let the rays move along any differentiable paths (for example as the parameters of the heliostats change).  Unless a ray hits a pixel line, the derivative of
the loss is what the chain rule makes of the gradients that `backward` leaves for the rays. -/
theorem C105_gradient (W H : Nat) (hW : 0 < W) (hH : 0 < H) (g : Nat → Nat → ℝ) (paths : List ((ℝ → Hit ℝ) × Gradient ℝ)) (t : ℝ)
    (hd : ∀ p ∈ paths, HasDerivAt (fun x => (p.1 x).e) p.2.e t ∧ HasDerivAt (fun x => (p.1 x).u) p.2.u t ∧ HasDerivAt (fun x => (p.1 x).w) p.2.w t)
    (hl : ∀ p ∈ paths, OffLine (p.1 t).e ∧ OffLine (p.1 t).u) :
    HasDerivAt (fun x => score W H g (paths.map (fun p => p.1 x)))
      ((paths.map (fun p => (backward W H g (p.1 t)).e * p.2.e + (backward W H g (p.1 t)).u * p.2.u + (backward W H g (p.1 t)).w * p.2.w)).sum) t := by
  have e : (fun x => score W H g (paths.map (fun p => p.1 x))) = fun x => (paths.map (fun p => scoreRay W H g (p.1 x))).sum := by
    funext x; rw [score_eq W H hW hH, List.map_map]; rfl
  rw [e, ← hasDerivWithinAt_univ]
  refine sum_deriv Set.univ t (fun (p : (ℝ → Hit ℝ) × Gradient ℝ) x => scoreRay W H g (p.1 x))
    (fun p => (backward W H g (p.1 t)).e * p.2.e + (backward W H g (p.1 t)).u * p.2.u + (backward W H g (p.1 t)).w * p.2.w) paths ?_
  intro p hp
  obtain ⟨d1, d2, d3⟩ := hd p hp
  obtain ⟨l1, l2⟩ := hl p hp
  refine scoreRay_deriv W H g p.1 Set.univ t p.2 (Set.mem_univ _) d1.hasDerivWithinAt d2.hasDerivWithinAt d3.hasDerivWithinAt ?_ ?_
  · rw [nhdsWithin_univ]; exact d1.continuousAt.eventually (long_eventually _ l1)
  · rw [nhdsWithin_univ]; exact d2.continuousAt.eventually (long_eventually _ l2)

theorem score_one (W H : Nat) (hW : 0 < W) (hH : 0 < H) (g : Nat → Nat → ℝ) (before after : List (Hit ℝ)) (p : ℝ → Hit ℝ) (s : Set ℝ) (t d : ℝ)
    (h : HasDerivWithinAt (fun x => scoreRay W H g (p x)) d s t) :
    HasDerivWithinAt (fun x => score W H g (before ++ p x :: after)) d s t := by
  simp only [score_eq W H hW hH, List.map_append, List.map_cons, List.sum_append, List.sum_cons]
  exact (h.add_const _).const_add _

/-- C105: the gradients for one ray among others are the partial derivatives of the loss: for a coordinate unless it lies on a pixel line, for the intensity always. -/
theorem C105_partial_derivatives (W H : Nat) (hW : 0 < W) (hH : 0 < H) (g : Nat → Nat → ℝ) (before after : List (Hit ℝ)) (h : Hit ℝ) :
    (OffLine h.e → HasDerivAt (fun x => score W H g (before ++ ⟨x, h.u, h.w⟩ :: after)) (backward W H g h).e h.e) ∧
    (OffLine h.u → HasDerivAt (fun x => score W H g (before ++ ⟨h.e, x, h.w⟩ :: after)) (backward W H g h).u h.u) ∧
    HasDerivAt (fun x => score W H g (before ++ ⟨h.e, h.u, x⟩ :: after)) (backward W H g h).w h.w := by
  have c : ∀ a t : ℝ, HasDerivWithinAt (fun _ : ℝ => a) 0 Set.univ t := fun a t => hasDerivWithinAt_const _ _ _
  have i : ∀ t : ℝ, HasDerivWithinAt (fun x : ℝ => x) 1 Set.univ t := fun t => hasDerivWithinAt_id _ _
  refine ⟨fun hx => ?_, fun hx => ?_, ?_⟩ <;> rw [← hasDerivWithinAt_univ] <;> refine score_one W H hW hH g before after _ _ _ _ ?_
  · exact (scoreRay_deriv W H g (fun x => ⟨x, h.u, h.w⟩) Set.univ h.e ⟨1, 0, 0⟩ (Set.mem_univ _) (i _) (c _ _) (c _ _)
      (by rw [nhdsWithin_univ]; exact long_eventually _ hx) (Eventually.of_forall fun _ => rfl)).congr_deriv (by simp)
  · exact (scoreRay_deriv W H g (fun x => ⟨h.e, x, h.w⟩) Set.univ h.u ⟨0, 1, 0⟩ (Set.mem_univ _) (c _ _) (i _) (c _ _)
      (Eventually.of_forall fun _ => rfl) (by rw [nhdsWithin_univ]; exact long_eventually _ hx)).congr_deriv (by simp)
  · exact (scoreRay_deriv W H g (fun x => ⟨h.e, h.u, x⟩) Set.univ h.w ⟨0, 0, 1⟩ (Set.mem_univ _) (c _ _) (c _ _) (i _)
      (Eventually.of_forall fun _ => rfl) (Eventually.of_forall fun _ => rfl)).congr_deriv (by simp)

/-- C105: on a pixel line the gradients are the derivatives for movements to the east and upwards. -/
theorem C105_on_line (W H : Nat) (hW : 0 < W) (hH : 0 < H) (g : Nat → Nat → ℝ) (before after : List (Hit ℝ)) (h : Hit ℝ) (he : 0 ≤ h.e) (hu : 0 ≤ h.u) :
    HasDerivWithinAt (fun x => score W H g (before ++ ⟨x, h.u, h.w⟩ :: after)) (backward W H g h).e (Set.Ici h.e) h.e ∧
    HasDerivWithinAt (fun x => score W H g (before ++ ⟨h.e, x, h.w⟩ :: after)) (backward W H g h).u (Set.Ici h.u) h.u := by
  have c : ∀ a b t : ℝ, HasDerivWithinAt (fun _ : ℝ => a) 0 (Set.Ici b) t := fun a b t => hasDerivWithinAt_const _ _ _
  have i : ∀ b t : ℝ, HasDerivWithinAt (fun x : ℝ => x) 1 (Set.Ici b) t := fun b t => hasDerivWithinAt_id _ _
  constructor <;> refine score_one W H hW hH g before after _ _ _ _ ?_
  · exact (scoreRay_deriv W H g (fun x => ⟨x, h.u, h.w⟩) (Set.Ici h.e) h.e ⟨1, 0, 0⟩ (Set.mem_Ici.2 le_rfl) (i _ _) (c _ _ _) (c _ _ _)
      (long_eventually_right _ he) (Eventually.of_forall fun _ => rfl)).congr_deriv (by simp)
  · exact (scoreRay_deriv W H g (fun x => ⟨h.e, x, h.w⟩) (Set.Ici h.u) h.u ⟨0, 1, 0⟩ (Set.mem_Ici.2 le_rfl) (c _ _ _) (i _ _) (c _ _ _)
      (Eventually.of_forall fun _ => rfl) (long_eventually_right _ hu)).congr_deriv (by simp)

/-- C105: for movements to the west the derivative on a pixel line can be the opposite of the gradient: a ray in the middle of its pixel makes that pixel darker
whichever way it moves, the gradient says that moving west makes it brighter. -/
theorem C105_line_kink :
    (backward 3 2 (fun r c => if r = 1 ∧ c = 1 then 1 else 0) (⟨1, 0, 1⟩ : Hit ℝ)).e = -1 ∧
    HasDerivWithinAt (fun x => score 3 2 (fun r c => if r = 1 ∧ c = 1 then 1 else 0) [(⟨x, 0, 1⟩ : Hit ℝ)]) 1 (Set.Iic 1) 1 := by
  have l0 : long (0 : ℝ) = 0 := by simp [long]
  have l1 : long (1 : ℝ) = 1 := by simp [long]
  constructor
  · unfold backward maskedIndex maskValue flatGradient onTarget low high
    simp only [l0, l1]
    norm_num
    decide
  · have hi : HasDerivWithinAt (fun x : ℝ => x) 1 (Set.Iic 1) 1 := hasDerivWithinAt_id _ _
    have key : ∀ x : ℝ, 0 < x → x ≤ 1 → score 3 2 (fun r c => if r = 1 ∧ c = 1 then 1 else 0) [(⟨x, 0, 1⟩ : Hit ℝ)] = x := by
      intro x hx hx1
      rw [score_eq 3 2 (by norm_num) (by norm_num), List.map_singleton, List.sum_singleton, scoreRay_eq]
      rcases lt_or_eq_of_le hx1 with hlt | rfl
      · have lx : long x = 0 := by
          unfold long; rw [if_pos hx.le, Int.floor_eq_iff]; push_cast; constructor <;> linarith
        unfold onTarget flatGradient low high
        simp only [l0, lx]
        norm_num
      · unfold onTarget flatGradient low high
        simp only [l0, l1]
        norm_num
    refine hi.congr_of_eventuallyEq ?_ (key 1 one_pos le_rfl)
    have : Set.Ioc (0 : ℝ) 1 ∈ 𝓝[≤] (1 : ℝ) := Ioc_mem_nhdsLE one_pos
    filter_upwards [this] with x hx using key x hx.1 hx.2

/-- two rays that move inside a bitmap of 4 × 3 pixels, the first one across a pixel line; the bound of `C105_shift` is reached by the second one -/
example : (∀ m ∈ [((⟨3 / 4, 1 / 2, 2⟩ : Hit ℚ), (⟨5 / 4, 1 / 2, 2⟩ : Hit ℚ)), (⟨1 / 4, 0, 1⟩, ⟨1 / 2, 0, 1⟩)], MovesInside 4 3 m) ∧
    splat 4 3 [(⟨3 / 4, 1 / 2, 2⟩ : Hit ℚ), ⟨1 / 4, 0, 1⟩] = .ok [[0, 0, 0, 0], [1 / 4, 3 / 4, 0, 0], [1, 1, 0, 0]] ∧
    splat 4 3 [(⟨5 / 4, 1 / 2, 2⟩ : Hit ℚ), ⟨1 / 2, 0, 1⟩] = .ok [[0, 0, 0, 0], [0, 3 / 4, 1 / 4, 0], [1 / 2, 5 / 4, 1 / 4, 0]] ∧
    splat 4 3 [(⟨1 / 4, 0, 1⟩ : Hit ℚ)] = .ok [[0, 0, 0, 0], [0, 0, 0, 0], [3 / 4, 1 / 4, 0, 0]] ∧
    splat 4 3 [(⟨1 / 2, 0, 1⟩ : Hit ℚ)] = .ok [[0, 0, 0, 0], [0, 0, 0, 0], [1 / 2, 1 / 2, 0, 0]] := by
  refine ⟨?_, ?_, ?_, ?_, ?_⟩
  · intro m hm
    simp only [List.mem_cons, List.not_mem_nil, or_false] at hm
    rcases hm with rfl | rfl <;> refine ⟨?_, ?_, rfl⟩ <;> decide +kernel
  all_goals decide +kernel

/-- the gradient of the pixel in the middle of the lower row for a ray that is east of it and a little above: brighter to the west and downwards -/
example : backward 3 2 (fun r c => if r = 1 ∧ c = 1 then 1 else 0) (⟨5 / 4, 1 / 8, 2⟩ : Hit ℚ) = ⟨-7 / 4, -3 / 2, 21 / 32⟩ := by decide +kernel

/-- coordinates off all pixel lines, as `C105_gradient` wants them, for a ray that moves along a parabola -/
example : OffLine ((5 / 4 : ℝ)) ∧ HasDerivAt (fun x : ℝ => x ^ 2 / 4 + 1) (1 / 2) 1 ∧ (1 : ℝ) ^ 2 / 4 + 1 = 5 / 4 := by
  refine ⟨?_, ?_, by norm_num⟩
  · intro n hn
    have h1 : (5 : ℝ) = 4 * n := by linarith
    have h2 : (5 : Int) = 4 * n := by exact_mod_cast h1
    omega
  · have := ((hasDerivAt_pow 2 (1 : ℝ)).div_const 4).add_const (1 : ℝ)
    refine this.congr_deriv ?_
    norm_num

end Artist.Splat
