import Verif.Spec.NanGradient
import Mathlib.Analysis.SpecialFunctions.Trigonometric.InverseDeriv
import Mathlib.Analysis.SpecialFunctions.Sqrt
import Mathlib.Analysis.Calculus.Deriv.Inv
import Mathlib.Tactic.Linarith
import Mathlib.Tactic.Ring
import Mathlib.Tactic.FieldSimp
import Mathlib.Tactic.Positivity
/-! Helper lemmas for C106. -/
namespace Artist.NanGradient
open Artist Num

theorem scale_scale (a : Bool) (c d : ℝ) : ((inf a).scale c).scale d = (inf a).scale (c * d) := by
  unfold scale
  by_cases hc : c = 0
  · simp [hc]
  by_cases hd : d = 0
  · simp [hc, hd]
  rcases lt_or_gt_of_ne hc with h1 | h1 <;> rcases lt_or_gt_of_ne hd with h2 | h2
  · simp [hc, hd, not_lt.2 h1.le, not_lt.2 h2.le, mul_pos_of_neg_of_neg h1 h2]
  · simp [hc, hd, not_lt.2 h1.le, h2, not_lt.2 (mul_neg_of_neg_of_pos h1 h2).le]
  · simp [hc, hd, h1, not_lt.2 h2.le, not_lt.2 (mul_neg_of_pos_of_neg h1 h2).le]
  · simp [hc, hd, h1, h2]

theorem scale_pos (a : Bool) (c d : ℝ) (hd : 0 < d) : (inf a).scale (c * d) = (inf a).scale c := by
  unfold scale
  by_cases hc : c = 0
  · simp [hc]
  · simp [hc, hd.ne', mul_pos_iff_of_pos_right hd]

theorem scale_zero (a : Bool) : (inf a).scale 0 = nan := by simp [scale]

theorem scale_ne (a : Bool) (c : ℝ) (hc : c ≠ 0) : ∃ b, (inf a).scale c = inf b := by simp [scale, hc]

theorem add_self (a : Bool) (c : ℝ) : ((inf a).scale c).add ((inf a).scale c) = (inf a).scale c := by
  by_cases hc : c = 0
  · subst hc; rw [scale_zero]; rfl
  · obtain ⟨b, hb⟩ := scale_ne a c hc
    rw [hb]; simp [add]

theorem add_opposite (a : Bool) (c : ℝ) : ((inf a).scale c).add ((inf a).scale (-c)) = nan := by
  unfold scale
  by_cases hc : c = 0
  · simp [hc, add]
  · rcases lt_or_gt_of_ne hc with h | h
    · simp [hc, not_lt.2 h.le, h, add]
    · simp [hc, not_lt.2 h.le, h, add]

@[simp] theorem add_nan (x : Num) : x.add nan = nan := by cases x <;> rfl
@[simp] theorem nan_add (x : Num) : nan.add x = nan := by cases x <;> rfl
@[simp] theorem nan_scale (c : ℝ) : nan.scale c = nan := rfl
@[simp] theorem fin_add (x y : ℝ) : (fin x).add (fin y) = fin (x + y) := rfl
@[simp] theorem fin_scale (x c : ℝ) : (fin x).scale c = fin (x * c) := rfl

theorem dot_self_nonneg (x : V3 ℝ) : 0 ≤ x.dot x := by
  unfold V3.dot; nlinarith [mul_self_nonneg x.e, mul_self_nonneg x.n, mul_self_nonneg x.u]

theorem norm_sq (x : V3 ℝ) : norm x * norm x = x.dot x := Real.mul_self_sqrt (dot_self_nonneg x)

theorem norm_pos (x : V3 ℝ) (hx : Proper x) : 0 < norm x := lt_of_lt_of_le (by positivity) hx

theorem denominator_eq (x : V3 ℝ) (hx : Proper x) : denominator x = norm x := max_eq_left hx

theorem cosine_eq (x t : V3 ℝ) (hx : Proper x) (ht : Proper t) : cosine x t = x.dot t / (norm x * norm t) := by
  have h1 := norm_pos x hx
  have h2 := norm_pos t ht
  unfold cosine normalized
  rw [denominator_eq x hx, denominator_eq t ht]
  simp only [V3.dot, V3.smul_e, V3.smul_n, V3.smul_u]
  field_simp

theorem lagrange (x t : V3 ℝ) : x.dot t * x.dot t + (x.cross t).dot (x.cross t) = x.dot x * t.dot t := by
  simp only [V3.dot, V3.cross]; ring

theorem one_sub_cosine_sq (x t : V3 ℝ) (hx : Proper x) (ht : Proper t) :
    1 - cosine x t * cosine x t = (x.cross t).dot (x.cross t) / (x.dot x * t.dot t) := by
  have h1 := norm_pos x hx
  have h2 := norm_pos t ht
  have e1 := norm_sq x
  have e2 := norm_sq t
  have p1 : 0 < x.dot x := by rw [← e1]; positivity
  have p2 : 0 < t.dot t := by rw [← e2]; positivity
  rw [cosine_eq x t hx ht]
  have : (x.dot t / (norm x * norm t)) * (x.dot t / (norm x * norm t)) = x.dot t * x.dot t / (x.dot x * t.dot t) := by
    rw [div_mul_div_comm, ← e1, ← e2]; ring_nf
  rw [this, eq_div_iff (by positivity), sub_mul, div_mul_cancel₀ _ (by positivity : x.dot x * t.dot t ≠ 0)]
  linarith [lagrange x t]

theorem dot_self_eq_zero (x : V3 ℝ) : x.dot x = 0 ↔ x = 0 := by
  constructor
  · intro h
    unfold V3.dot at h
    have := mul_self_nonneg x.e
    have := mul_self_nonneg x.n
    have := mul_self_nonneg x.u
    ext <;> simp only [V3.zero_e, V3.zero_n, V3.zero_u] <;> apply mul_self_eq_zero.1 <;> linarith
  · rintro rfl; simp [V3.dot]

theorem cosine_sq_one_iff (x t : V3 ℝ) (hx : Proper x) (ht : Proper t) : 1 - cosine x t * cosine x t = 0 ↔ Parallel x t := by
  have h1 := norm_pos x hx
  have h2 := norm_pos t ht
  have p : 0 < x.dot x * t.dot t := by rw [← norm_sq x, ← norm_sq t]; positivity
  rw [one_sub_cosine_sq x t hx ht, div_eq_zero_iff, or_iff_left p.ne', dot_self_eq_zero]; rfl

theorem cosine_mem (x t : V3 ℝ) (hx : Proper x) (ht : Proper t) : -1 ≤ cosine x t ∧ cosine x t ≤ 1 := by
  have h1 := norm_pos x hx
  have h2 := norm_pos t ht
  have p : 0 < x.dot x * t.dot t := by rw [← norm_sq x, ← norm_sq t]; positivity
  have h := one_sub_cosine_sq x t hx ht
  have : 0 ≤ 1 - cosine x t * cosine x t := by rw [h]; exact div_nonneg (dot_self_nonneg _) p.le
  constructor <;> nlinarith

theorem clamp_cosine (x t : V3 ℝ) (hx : Proper x) (ht : Proper t) : min (max (cosine x t) (-1)) 1 = cosine x t := by
  obtain ⟨h1, h2⟩ := cosine_mem x t hx ht
  rw [max_eq_left h1, min_eq_left h2]

/-- parallel vectors are multiples of each other -/
theorem parallel_smul (x t : V3 ℝ) (hx : Proper x) (ht : Proper t) (hp : Parallel x t) :
    ∃ l : ℝ, l ≠ 0 ∧ x = l • normalized t := by
  have h2 := norm_pos t ht
  have h1 := norm_pos x hx
  have hl : x = (x.dot t / norm t) • normalized t := by
    have q : t.dot t ≠ 0 := by rw [← norm_sq t]; positivity
    have key : t.dot t • x = x.dot t • t := by
      unfold Parallel at hp
      have c1 := congrArg V3.e hp
      have c2 := congrArg V3.n hp
      have c3 := congrArg V3.u hp
      simp only [V3.cross, V3.zero_e, V3.zero_n, V3.zero_u] at c1 c2 c3
      ext <;> simp only [V3.smul_e, V3.smul_n, V3.smul_u, V3.dot]
      · linear_combination (-t.u) * c2 + t.n * c3
      · linear_combination (t.u) * c1 + (-t.e) * c3
      · linear_combination (-t.n) * c1 + (t.e) * c2
    have k1 := congrArg V3.e key
    have k2 := congrArg V3.n key
    have k3 := congrArg V3.u key
    simp only [V3.smul_e, V3.smul_n, V3.smul_u] at k1 k2 k3
    rw [← norm_sq t] at k1 k2 k3
    unfold normalized
    rw [denominator_eq t ht]
    ext <;> simp only [V3.smul_e, V3.smul_n, V3.smul_u] <;> field_simp <;> linarith
  refine ⟨_, ?_, hl⟩
  intro h0
  rw [h0] at hl
  have : x.dot x = 0 := by rw [hl]; simp [V3.dot]
  rw [← norm_sq x] at this
  have := mul_self_eq_zero.1 this
  linarith

/-- a sample with parallel normals has no gradient at all -/
theorem angleBackward_parallel (w : ℝ) (hw : w ≠ 0) (x t : V3 ℝ) (hx : Proper x) (ht : Proper t) (hp : Parallel x t) :
    angleBackward w x t = ⟨nan, nan, nan⟩ := by
  have hn := norm_pos x hx
  obtain ⟨l, hl, hxl⟩ := parallel_smul x t hx ht hp
  obtain ⟨a, ha⟩ := scale_ne false w hw
  have hg : clampBackward (cosine x t) (acosBackward (min (max (cosine x t) (-1)) 1) w) = inf a := by
    unfold clampBackward
    rw [if_pos (cosine_mem x t hx ht), clamp_cosine x t hx ht]
    unfold acosBackward
    rw [if_pos ((cosine_sq_one_iff x t hx ht).2 hp), ha]
  unfold angleBackward
  simp only [hg]
  set y := normalized t with hy
  have xe : x.e = l * y.e := congrArg V3.e hxl
  have xn : x.n = l * y.n := congrArg V3.n hxl
  have xu : x.u = l * y.u := congrArg V3.u hxl
  unfold normalizeBackward
  simp only [denominator_eq x hx, hn.ne', if_false]
  rw [if_pos (show 1 / 10 ^ 12 ≤ norm x from hx)]
  have term : ∀ c : ℝ, c ≠ 0 → ((inf a).scale c).scale (-(l * c / norm x / norm x)) = (inf a).scale (-l) := by
    intro c hc
    rw [scale_scale]
    have : c * -(l * c / norm x / norm x) = -l * (c * c / (norm x * norm x)) := by field_simp
    rw [this, scale_pos _ _ _ (div_pos (mul_self_pos.2 hc) (mul_pos hn hn))]
  have term0 : ∀ c : ℝ, c = 0 → ((inf a).scale c).scale (-(l * c / norm x / norm x)) = nan := by
    intro c hc; rw [hc, scale_zero]; rfl
  have hd : ((((inf a).scale y.e).scale (-(x.e / norm x / norm x))).add (((inf a).scale y.n).scale (-(x.n / norm x / norm x)))).add
      (((inf a).scale y.u).scale (-(x.u / norm x / norm x))) = nan ∨
      ((((inf a).scale y.e).scale (-(x.e / norm x / norm x))).add (((inf a).scale y.n).scale (-(x.n / norm x / norm x)))).add
      (((inf a).scale y.u).scale (-(x.u / norm x / norm x))) = (inf a).scale (-l) := by
    rw [xe, xn, xu]
    by_cases e0 : y.e = 0
    · left; rw [term0 _ e0]; simp
    by_cases n0 : y.n = 0
    · left; rw [term0 _ n0]; simp
    by_cases u0 : y.u = 0
    · left; rw [term0 _ u0]; simp
    right
    rw [term _ e0, term _ n0, term _ u0, add_self, add_self]
  have fin : ∀ c : ℝ, (((inf a).scale c).scale (1 / norm x)).add ((((inf a).scale (-l)).scale (1 / norm x)).scale (l * c)) = nan := by
    intro c
    rw [scale_scale, scale_scale, scale_scale, scale_pos _ _ _ (by positivity)]
    have : -l * (1 / norm x) * (l * c) = -c * (l * l / norm x) := by field_simp
    rw [this, scale_pos _ _ _ (div_pos (mul_self_pos.2 hl) hn), add_opposite]
  rcases hd with h | h
  · rw [h]; simp
  · rw [h, xe, xn, xu, fin, fin, fin]

/-- the gradient of a sample whose normals are not parallel -/
theorem angleBackward_regular (w : ℝ) (x t : V3 ℝ) (hx : Proper x) (ht : Proper t) (hp : ¬ Parallel x t) :
    angleBackward w x t =
      ⟨fin (w * -(1 / √(1 - cosine x t * cosine x t)) * ((t.e / norm t - cosine x t * (x.e / norm x)) / norm x)),
       fin (w * -(1 / √(1 - cosine x t * cosine x t)) * ((t.n / norm t - cosine x t * (x.n / norm x)) / norm x)),
       fin (w * -(1 / √(1 - cosine x t * cosine x t)) * ((t.u / norm t - cosine x t * (x.u / norm x)) / norm x))⟩ := by
  have hn := norm_pos x hx
  have hm := norm_pos t ht
  have hg : clampBackward (cosine x t) (acosBackward (min (max (cosine x t) (-1)) 1) w) = fin (w * -(1 / √(1 - cosine x t * cosine x t))) := by
    unfold clampBackward
    rw [if_pos (cosine_mem x t hx ht), clamp_cosine x t hx ht]
    unfold acosBackward
    rw [if_neg (fun h => hp ((cosine_sq_one_iff x t hx ht).1 h))]
  unfold angleBackward
  simp only [hg]
  set g := w * -(1 / √(1 - cosine x t * cosine x t)) with hgdef
  unfold normalizeBackward normalized
  simp only [denominator_eq x hx, denominator_eq t ht, hn.ne', if_false, fin_scale, fin_add]
  rw [if_pos (show 1 / 10 ^ 12 ≤ norm x from hx)]
  simp only [fin_scale, fin_add, V3.smul_e, V3.smul_n, V3.smul_u]
  rw [cosine_eq x t hx ht]
  simp only [V3.dot]
  congr 2 <;> field_simp <;> ring

theorem gradient_parallel (s : Sample) (hv : s.Valid) (hp : Parallel s.prediction s.truth) (k : Nat) : s.gradient k = nan := by
  unfold Sample.gradient
  rw [angleBackward_parallel s.weight hv.2.2 _ _ hv.1 hv.2.1 hp]
  simp

/-- derivative of the angle along a path -/
theorem angle_deriv (p : ℝ → V3 ℝ) (d t : V3 ℝ) (τ : ℝ) (hx : Proper (p τ)) (ht : Proper t) (hp : ¬ Parallel (p τ) t)
    (he : HasDerivAt (fun z => (p z).e) d.e τ) (hn : HasDerivAt (fun z => (p z).n) d.n τ) (hu : HasDerivAt (fun z => (p z).u) d.u τ) :
    HasDerivAt (fun z => angle (p z) t)
      (-(1 / √(1 - cosine (p τ) t * cosine (p τ) t)) * (((t.e / norm t - cosine (p τ) t * ((p τ).e / norm (p τ))) / norm (p τ)) * d.e +
        ((t.n / norm t - cosine (p τ) t * ((p τ).n / norm (p τ))) / norm (p τ)) * d.n +
        ((t.u / norm t - cosine (p τ) t * ((p τ).u / norm (p τ))) / norm (p τ)) * d.u)) τ := by
  have n1 := norm_pos (p τ) hx
  have n2 := norm_pos t ht
  have hdot : HasDerivAt (fun z => (p z).dot t) (d.dot t) τ := by
    have := ((he.mul_const t.e).add (hn.mul_const t.n)).add (hu.mul_const t.u)
    exact this
  have hsq : HasDerivAt (fun z => (p z).dot (p z)) (2 * (p τ).dot d) τ := by
    have := ((he.mul he).add (hn.mul hn)).add (hu.mul hu)
    refine this.congr_deriv ?_
    simp only [V3.dot]; ring
  have hnorm : HasDerivAt (fun z => norm (p z)) (2 * (p τ).dot d / (2 * norm (p τ))) τ := by
    refine hsq.sqrt ?_
    rw [← norm_sq]; positivity
  have hq := hdot.div (hnorm.mul_const (norm t)) (by positivity)
  have hc1 : cosine (p τ) t ≠ -1 := by
    intro h; exact hp ((cosine_sq_one_iff _ _ hx ht).1 (by rw [h]; ring))
  have hc2 : cosine (p τ) t ≠ 1 := by
    intro h; exact hp ((cosine_sq_one_iff _ _ hx ht).1 (by rw [h]; ring))
  have hce := cosine_eq (p τ) t hx ht
  have hac := Real.hasDerivAt_arccos hc1 hc2
  rw [hce] at hac
  have hcomp := hac.comp τ hq
  refine hcomp.congr_deriv ?_
  rw [pow_two, ← hce, mul_comm (cosine (p τ) t) (cosine (p τ) t)]
  have e1 := norm_sq (p τ)
  have : (d.dot t * (norm (p τ) * norm t) - (p τ).dot t * (2 * (p τ).dot d / (2 * norm (p τ)) * norm t)) / (norm (p τ) * norm t) ^ 2 =
      ((t.e / norm t - cosine (p τ) t * ((p τ).e / norm (p τ))) / norm (p τ)) * d.e +
        ((t.n / norm t - cosine (p τ) t * ((p τ).n / norm (p τ))) / norm (p τ)) * d.n +
        ((t.u / norm t - cosine (p τ) t * ((p τ).u / norm (p τ))) / norm (p τ)) * d.u := by
    rw [hce]
    simp only [V3.dot]
    field_simp
    ring
  rw [this]

theorem foldl_nan (k : Nat) : ∀ (l : List Sample), l.foldl (fun acc s => acc.add (s.gradient k)) nan = nan
  | [] => rfl
  | a :: l => by rw [List.foldl_cons, nan_add, foldl_nan k l]

theorem foldl_silenced (k : Nat) : ∀ (l : List Sample) (acc : Num), (∃ s ∈ l, s.gradient k = nan) →
    l.foldl (fun acc s => acc.add (s.gradient k)) acc = nan
  | [], _, h => by obtain ⟨s, hs, _⟩ := h; cases hs
  | a :: l, acc, h => by
    rw [List.foldl_cons]
    obtain ⟨s, hs, hn⟩ := h
    rcases List.mem_cons.1 hs with rfl | hs
    · rw [hn, add_nan, foldl_nan]
    · exact foldl_silenced k l _ ⟨s, hs, hn⟩

theorem foldl_fin (k : Nat) (v : Sample → ℝ) : ∀ (l : List Sample) (acc : ℝ), (∀ s ∈ l, s.gradient k = fin (v s)) →
    l.foldl (fun acc s => acc.add (s.gradient k)) (fin acc) = fin (acc + (l.map v).sum)
  | [], acc, _ => by simp
  | a :: l, acc, h => by
    rw [List.foldl_cons, h a List.mem_cons_self, fin_add, foldl_fin k v l _ (fun s hs => h s (List.mem_cons_of_mem _ hs)), List.map_cons, List.sum_cons, add_assoc]

end Artist.NanGradient
