import Verif.Spec.SplatGradient
import Verif.Proofs.Splat
import Mathlib.Analysis.Calculus.Deriv.Mul
import Mathlib.Analysis.Calculus.Deriv.Add
import Mathlib.Topology.Algebra.Order.Floor
import Mathlib.Tactic.Linarith
import Mathlib.Tactic.Ring
import Mathlib.Tactic.FieldSimp
/-! Helper lemmas for C105. -/
namespace Artist.Splat
open Artist Finset

section
variable {K : Type} [Field K] [LinearOrder K] [IsStrictOrderedRing K] [FloorRing K]

/-- what one entry adds to the score -/
theorem sum_entry (W H : Nat) (hW : 0 < W) (g : Nat → Nat → K) (i : Int) (v : K) (h0 : 0 ≤ i) (h1 : i < ((H * W : Nat) : Int)) :
    ∑ r ∈ range H, ∑ c ∈ range W, g (H - 1 - r) c * (if i = ((r * W + c : Nat) : Int) then v else 0) = flatGradient W H g i * v := by
  obtain ⟨n, rfl⟩ := Int.eq_ofNat_of_zero_le h0
  have hn : n < H * W := by exact_mod_cast h1
  have hr : n / W < H := Nat.div_lt_of_lt_mul (by rw [Nat.mul_comm]; exact hn)
  have hc : n % W < W := Nat.mod_lt _ hW
  have hdm : n / W * W + n % W = n := by rw [Nat.mul_comm]; exact Nat.div_add_mod n W
  rw [Finset.sum_eq_single_of_mem (n / W) (mem_range.2 hr), Finset.sum_eq_single_of_mem (n % W) (mem_range.2 hc)]
  · rw [if_pos (by rw [hdm])]; simp [flatGradient]
  · intro c hc' hne
    rw [if_neg, mul_zero]
    intro hh
    apply hne
    have : n = n / W * W + c := by exact_mod_cast hh
    omega
  · intro r hr' hne
    apply Finset.sum_eq_zero
    intro c hc'
    rw [if_neg, mul_zero]
    intro hh
    apply hne
    have h2 : n = r * W + c := by exact_mod_cast hh
    rw [h2, Nat.mul_comm, Nat.mul_add_div hW, Nat.div_eq_of_lt (mem_range.1 hc')]; rfl

/-- what one ray adds to the score -/
def scoreRay (W H : Nat) (g : Nat → Nat → K) (h : Hit K) : K :=
  flatGradient W H g (entry1 W H h).1 * (entry1 W H h).2 + flatGradient W H g (entry2 W H h).1 * (entry2 W H h).2 +
  flatGradient W H g (entry3 W H h).1 * (entry3 W H h).2 + flatGradient W H g (entry4 W H h).1 * (entry4 W H h).2

theorem sum_contrib (W H : Nat) (hW : 0 < W) (hH : 0 < H) (g : Nat → Nat → K) (h : Hit K) :
    ∑ r ∈ range H, ∑ c ∈ range W, g (H - 1 - r) c * contrib W H r c h = scoreRay W H g h := by
  have hb := entry_bounds W H hW hH h
  unfold contrib scoreRay
  simp only [mul_add, Finset.sum_add_distrib]
  rw [sum_entry W H hW g _ _ (hb _ (by simp)).1 (hb _ (by simp)).2, sum_entry W H hW g _ _ (hb _ (by simp)).1 (hb _ (by simp)).2,
    sum_entry W H hW g _ _ (hb _ (by simp)).1 (hb _ (by simp)).2, sum_entry W H hW g _ _ (hb _ (by simp)).1 (hb _ (by simp)).2]

theorem score_eq (W H : Nat) (hW : 0 < W) (hH : 0 < H) (g : Nat → Nat → K) (rays : List (Hit K)) :
    score W H g rays = (rays.map (scoreRay W H g)).sum := by
  obtain ⟨img, h1, _, _, h4⟩ := splat_spec W H hW hH rays
  unfold score
  rw [h1]
  show ∑ r ∈ range H, ∑ c ∈ range W, g r c * pixel img r c = _
  rw [← Finset.sum_range_reflect]
  have h2 : ∑ r ∈ range H, ∑ c ∈ range W, g (H - 1 - r) c * pixel img (H - 1 - r) c =
      ∑ r ∈ range H, ∑ c ∈ range W, g (H - 1 - r) c * (rays.map (contrib W H r c)).sum := by
    apply Finset.sum_congr rfl; intro r hr
    apply Finset.sum_congr rfl; intro c hc
    rw [h4 r c (mem_range.1 hr) (mem_range.1 hc)]
  rw [h2]
  clear h1 h4 h2
  induction rays with
  | nil => simp
  | cons a l ih =>
    simp only [List.map_cons, List.sum_cons, mul_add, Finset.sum_add_distrib]
    rw [ih, sum_contrib W H hW hH]

theorem scoreRay_eq (W H : Nat) (g : Nat → Nat → K) (h : Hit K) :
    scoreRay W H g h = if onTarget W H h then
      (flatGradient W H g ((long h.u + 1) * W + long h.e) * (low h.e * high h.u) +
       flatGradient W H g ((long h.u + 1) * W + long h.e + 1) * (high h.e * high h.u) +
       flatGradient W H g (long h.u * W + long h.e + 1) * (high h.e * low h.u) +
       flatGradient W H g (long h.u * W + long h.e) * (low h.e * low h.u)) * h.w else 0 := by
  unfold scoreRay entry1 entry2 entry3 entry4
  split
  · ring
  · simp

/-! ### Lipschitz bound -/

/-- a coordinate limited to `[0, n]` -/
def lim (n x : K) : K := min n (max 0 x)

theorem lim_mono (n : K) {x y : K} (h : x ≤ y) : lim n x ≤ lim n y := min_le_min_left _ (max_le_max_left _ h)

theorem lim_step (n : K) {x y : K} (h : x ≤ y) : lim n y - lim n x ≤ y - x := by
  unfold lim
  rcases le_total 0 x with h0 | h0 <;> rcases le_total 0 y with h1 | h1 <;>
    simp only [max_eq_left, max_eq_right, h0, h1] <;>
    rcases min_cases n x with ⟨e1, l1⟩ | ⟨e1, l1⟩ <;> rcases min_cases n y with ⟨e2, l2⟩ | ⟨e2, l2⟩ <;>
    rcases min_cases n 0 with ⟨e3, l3⟩ | ⟨e3, l3⟩ <;> simp only [e1, e2, e3] <;> linarith

theorem sum_lim (n : Nat) (x : K) : ∑ c ∈ range n, lim 1 (x - (c : K)) = lim (n : K) x := by
  induction n with
  | zero => simp [lim]
  | succ n ih =>
    rw [Finset.sum_range_succ, ih]
    unfold lim
    push_cast
    have hn : (0 : K) ≤ n := Nat.cast_nonneg n
    rcases le_total 0 x with h0 | h0
    · rw [max_eq_right h0]
      rcases le_total x n with h1 | h1
      · rw [min_eq_right h1, max_eq_left (by linarith), min_eq_right (by linarith), min_eq_right (by linarith)]; ring
      · rw [min_eq_left h1, max_eq_right (by linarith)]
        rcases le_total x (n + 1) with h2 | h2
        · rw [min_eq_right (by linarith), min_eq_right h2]; ring
        · rw [min_eq_left (by linarith), min_eq_left h2]
    · rw [max_eq_left h0, max_eq_left (by linarith), min_eq_right hn, min_eq_right (by linarith), min_eq_right (by linarith)]; ring

theorem tent_lim (z : K) : tent z = lim 1 (z + 1) - lim 1 z := by
  unfold tent lim
  rcases le_total 0 z with h | h
  · rw [abs_of_nonneg h, max_eq_right h, max_eq_right (by linarith : (0 : K) ≤ z + 1), min_eq_left (by linarith)]
    rcases le_total z 1 with h1 | h1
    · rw [min_eq_right h1, max_eq_right (by linarith)]
    · rw [min_eq_left h1, max_eq_left (by linarith)]; ring
  · rw [abs_of_nonpos h, max_eq_left h, min_eq_right (by norm_num : (0 : K) ≤ 1)]
    rcases le_total 0 (z + 1) with h1 | h1
    · rw [max_eq_right h1, max_eq_right (by linarith), min_eq_right (by linarith)]; ring
    · rw [max_eq_left h1, max_eq_left (by linarith), min_eq_right (by norm_num : (0 : K) ≤ 1)]; ring

theorem sum_tent_le (n : Nat) (x : K) : ∑ c ∈ range n, tent (x - (c : K)) ≤ 1 := by
  have : ∀ c ∈ range n, tent (x - (c : K)) = lim 1 (x + 1 - (c : K)) - lim 1 (x - (c : K)) := by
    intro c _; rw [tent_lim]; congr 2; ring
  rw [Finset.sum_congr rfl this, Finset.sum_sub_distrib, sum_lim, sum_lim]
  have := lim_step (n : K) (show x ≤ x + 1 by linarith)
  linarith

theorem sum_tent_shift_le (n : Nat) (x y : K) (h : x ≤ y) :
    ∑ c ∈ range n, |tent (x - (c : K)) - tent (y - (c : K))| ≤ 2 * (y - x) := by
  have h1 : ∀ c ∈ range n, |tent (x - (c : K)) - tent (y - (c : K))| ≤
      (lim 1 (y + 1 - (c : K)) - lim 1 (x + 1 - (c : K))) + (lim 1 (y - (c : K)) - lim 1 (x - (c : K))) := by
    intro c _
    rw [tent_lim, tent_lim, show x - (c : K) + 1 = x + 1 - c by ring, show y - (c : K) + 1 = y + 1 - c by ring]
    have a := lim_mono 1 (show x + 1 - (c : K) ≤ y + 1 - c by linarith)
    have b := lim_mono 1 (show x - (c : K) ≤ y - c by linarith)
    rw [abs_le]; constructor <;> linarith
  refine (Finset.sum_le_sum h1).trans ?_
  rw [Finset.sum_add_distrib, Finset.sum_sub_distrib, Finset.sum_sub_distrib, sum_lim, sum_lim, sum_lim, sum_lim]
  have a := lim_step (n : K) (show x + 1 ≤ y + 1 by linarith)
  have b := lim_step (n : K) h
  linarith

theorem sum_tent_shift (n : Nat) (x y : K) : ∑ c ∈ range n, |tent (x - (c : K)) - tent (y - (c : K))| ≤ 2 * |x - y| := by
  rcases le_total x y with h | h
  · rw [abs_of_nonpos (by linarith : x - y ≤ 0), show -(x - y) = y - x by ring]; exact sum_tent_shift_le n x y h
  · rw [abs_of_nonneg (by linarith : 0 ≤ x - y)]
    refine le_of_eq_of_le ?_ (sum_tent_shift_le n y x h)
    apply Finset.sum_congr rfl; intro c _; rw [abs_sub_comm]

theorem sum_tent_pair (W H : Nat) (e u e' u' : K) :
    ∑ r ∈ range H, ∑ c ∈ range W, |tent (e - (c : K)) * tent (u - (r : K)) - tent (e' - (c : K)) * tent (u' - (r : K))| ≤
      2 * (|e - e'| + |u - u'|) := by
  have h1 : ∀ r ∈ range H, ∀ c ∈ range W,
      |tent (e - (c : K)) * tent (u - (r : K)) - tent (e' - (c : K)) * tent (u' - (r : K))| ≤
        |tent (e - (c : K)) - tent (e' - (c : K))| * tent (u - (r : K)) + tent (e' - (c : K)) * |tent (u - (r : K)) - tent (u' - (r : K))| := by
    intro r _ c _
    have : tent (e - (c : K)) * tent (u - (r : K)) - tent (e' - (c : K)) * tent (u' - (r : K)) =
        (tent (e - (c : K)) - tent (e' - (c : K))) * tent (u - (r : K)) + tent (e' - (c : K)) * (tent (u - (r : K)) - tent (u' - (r : K))) := by ring
    rw [this]
    refine (abs_add_le _ _).trans ?_
    rw [abs_mul, abs_mul, abs_of_nonneg (tent_nonneg (u - (r : K))), abs_of_nonneg (tent_nonneg (e' - (c : K)))]
  refine (Finset.sum_le_sum fun r hr => Finset.sum_le_sum fun c hc => h1 r hr c hc).trans ?_
  simp only [Finset.sum_add_distrib, ← Finset.sum_mul]
  rw [← Finset.mul_sum, ← Finset.mul_sum]
  have a := sum_tent_shift W e e'
  have b := sum_tent_shift H u u'
  have c := sum_tent_le H u
  have d := sum_tent_le W e'
  have a0 : 0 ≤ ∑ c ∈ range W, |tent (e - (c : K)) - tent (e' - (c : K))| := Finset.sum_nonneg fun _ _ => abs_nonneg _
  have b0 : 0 ≤ ∑ r ∈ range H, |tent (u - (r : K)) - tent (u' - (r : K))| := Finset.sum_nonneg fun _ _ => abs_nonneg _
  have p1 : (∑ c ∈ range W, |tent (e - (c : K)) - tent (e' - (c : K))|) * ∑ r ∈ range H, tent (u - (r : K)) ≤
      ∑ c ∈ range W, |tent (e - (c : K)) - tent (e' - (c : K))| := mul_le_of_le_one_right a0 c
  have p2 : (∑ c ∈ range W, tent (e' - (c : K))) * ∑ r ∈ range H, |tent (u - (r : K)) - tent (u' - (r : K))| ≤
      ∑ r ∈ range H, |tent (u - (r : K)) - tent (u' - (r : K))| := mul_le_of_le_one_left b0 d
  linarith

end

/-! ### Derivatives -/
open Filter Topology

theorem long_eventually (x : ℝ) (hx : OffLine x) : ∀ᶠ y in 𝓝 x, long y = long x := by
  rcases lt_or_ge x 0 with h | h
  · have hc : ⌈x⌉ ≤ 0 := by rw [Int.ceil_le]; push_cast; exact h.le
    have h1 : x < ((⌈x⌉ : Int) : ℝ) := lt_of_le_of_ne (Int.le_ceil x) (hx _)
    have h2 : ((⌈x⌉ : Int) : ℝ) - 1 < x := by have := Int.ceil_lt_add_one x; linarith
    filter_upwards [Ioo_mem_nhds h2 h1] with y hy
    have hy0 : y < 0 := lt_of_lt_of_le hy.2 (by exact_mod_cast hc)
    unfold long
    rw [if_neg (not_le.2 hy0), if_neg (not_le.2 h), Int.ceil_eq_iff]
    exact ⟨hy.1, hy.2.le⟩
  · have hf : 0 ≤ ⌊x⌋ := Int.floor_nonneg.2 h
    have h1 : ((⌊x⌋ : Int) : ℝ) < x := lt_of_le_of_ne (Int.floor_le x) (hx _).symm
    have h2 : x < ((⌊x⌋ : Int) : ℝ) + 1 := Int.lt_floor_add_one x
    filter_upwards [Ioo_mem_nhds h1 h2] with y hy
    have hy0 : 0 ≤ y := le_trans (by exact_mod_cast hf) hy.1.le
    unfold long
    rw [if_pos hy0, if_pos h, Int.floor_eq_iff]
    exact ⟨hy.1.le, hy.2⟩

theorem long_eventually_right (x : ℝ) (hx : 0 ≤ x) : ∀ᶠ y in 𝓝[≥] x, long y = long x := by
  have h2 : x < ((⌊x⌋ : Int) : ℝ) + 1 := Int.lt_floor_add_one x
  filter_upwards [Ico_mem_nhdsGE h2] with y hy
  unfold long
  rw [if_pos (hx.trans hy.1), if_pos hx, Int.floor_eq_iff]
  exact ⟨(Int.floor_le x).trans hy.1, hy.2⟩

theorem onTarget_congr (W H : Nat) (h h' : Hit ℝ) (he : long h.e = long h'.e) (hu : long h.u = long h'.u) :
    onTarget W H h = onTarget W H h' := by unfold onTarget; rw [he, hu]

/-- one ray on a path along which its four pixels stay the same -/
theorem scoreRay_deriv (W H : Nat) (g : Nat → Nat → ℝ) (p : ℝ → Hit ℝ) (s : Set ℝ) (t : ℝ) (d : Gradient ℝ) (ht : t ∈ s)
    (he : HasDerivWithinAt (fun x => (p x).e) d.e s t) (hu : HasDerivWithinAt (fun x => (p x).u) d.u s t)
    (hw : HasDerivWithinAt (fun x => (p x).w) d.w s t) (hle : ∀ᶠ x in 𝓝[s] t, long (p x).e = long (p t).e)
    (hlu : ∀ᶠ x in 𝓝[s] t, long (p x).u = long (p t).u) :
    HasDerivWithinAt (fun x => scoreRay W H g (p x))
      ((backward W H g (p t)).e * d.e + (backward W H g (p t)).u * d.u + (backward W H g (p t)).w * d.w) s t := by
  by_cases hon : onTarget W H (p t) = true
  · set a := long (p t).e with ha
    set b := long (p t).u with hb
    set g1 := flatGradient W H g ((b + 1) * W + a) with hg1
    set g2 := flatGradient W H g ((b + 1) * W + a + 1) with hg2
    set g3 := flatGradient W H g (b * W + a + 1) with hg3
    set g4 := flatGradient W H g (b * W + a) with hg4
    let e := fun x => (p x).e
    let u := fun x => (p x).u
    let w := fun x => (p x).w
    have hev : ∀ᶠ x in 𝓝[s] t, scoreRay W H g (p x) =
        (g1 * (((a : ℝ) + 1 - e x) * (u x - b)) + g2 * ((e x - a) * (u x - b)) + g3 * ((e x - a) * ((b : ℝ) + 1 - u x)) +
          g4 * (((a : ℝ) + 1 - e x) * ((b : ℝ) + 1 - u x))) * w x := by
      filter_upwards [hle, hlu] with x h1 h2
      rw [scoreRay_eq, if_pos (by rw [onTarget_congr W H (p x) (p t) h1 h2]; exact hon)]
      unfold low high
      rw [h1, h2]
    have hlowe : HasDerivWithinAt (fun x => (a : ℝ) + 1 - e x) (-d.e) s t := he.const_sub _
    have hhighe : HasDerivWithinAt (fun x => e x - (a : ℝ)) d.e s t := he.sub_const _
    have hlowu : HasDerivWithinAt (fun x => (b : ℝ) + 1 - u x) (-d.u) s t := hu.const_sub _
    have hhighu : HasDerivWithinAt (fun x => u x - (b : ℝ)) d.u s t := hu.sub_const _
    have main := (((((hlowe.mul hhighu).const_mul g1).add ((hhighe.mul hhighu).const_mul g2)).add ((hhighe.mul hlowu).const_mul g3)).add
      ((hlowe.mul hlowu).const_mul g4)).mul hw
    have main' := main.congr_of_eventuallyEq (f₁ := fun x => scoreRay W H g (p x)) (by
      filter_upwards [hev] with x hx
      rw [hx]; rfl) (by
      rw [hev.self_of_nhdsWithin ht]; rfl)
    refine main'.congr_deriv ?_
    unfold backward maskedIndex maskValue
    simp only [hon, if_true, mul_one]
    unfold low high
    rw [← ha, ← hb, ← hg1, ← hg2, ← hg3, ← hg4]
    simp only [e, u, w, Pi.mul_apply, Pi.add_apply]
    ring
  · have hev : ∀ᶠ x in 𝓝[s] t, scoreRay W H g (p x) = 0 := by
      filter_upwards [hle, hlu] with x h1 h2
      rw [scoreRay_eq, if_neg (by rw [onTarget_congr W H (p x) (p t) h1 h2]; exact hon)]
    have h0 : HasDerivWithinAt (fun _ : ℝ => (0 : ℝ)) 0 s t := hasDerivWithinAt_const _ _ _
    refine (h0.congr_of_eventuallyEq (by filter_upwards [hev] with x hx using hx) (hev.self_of_nhdsWithin ht)).congr_deriv ?_
    unfold backward maskValue
    simp [hon]

theorem sum_deriv (s : Set ℝ) (t : ℝ) {α : Type} (f : α → ℝ → ℝ) (f' : α → ℝ) : ∀ l : List α,
    (∀ a ∈ l, HasDerivWithinAt (f a) (f' a) s t) → HasDerivWithinAt (fun x => (l.map (fun a => f a x)).sum) ((l.map f').sum) s t
  | [], _ => by simpa using hasDerivWithinAt_const t s (0 : ℝ)
  | a :: l, h => by
    simp only [List.map_cons, List.sum_cons]
    exact (h a List.mem_cons_self).add (sum_deriv s t f f' l fun b hb => h b (List.mem_cons_of_mem _ hb))

end Artist.Splat
