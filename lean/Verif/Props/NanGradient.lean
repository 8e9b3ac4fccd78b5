import Verif.Proofs.NanGradient
import Verif.Props.RoundedFilter
import Mathlib.Analysis.SpecialFunctions.Trigonometric.Bounds
/-!
# C106: samples without a gradient are left out of an epoch, all others count

Which samples have no gradient in the alignment-driven reconstruction, and what becomes of the others.
-/
namespace Artist.NanGradient
open Artist Num

/-- C106: a sample has a gradient unless the predicted normal is parallel to the measured one: a perfectly predicted sample has none, any other has one unless it
points exactly the opposite way. -/
theorem C106_undefined_iff (s : Sample) (hv : s.Valid) (k : Nat) :
    s.gradient k = nan ↔ Parallel s.prediction s.truth := by
  constructor
  · intro h
    by_contra hp
    unfold Sample.gradient at h
    rw [angleBackward_regular _ _ _ hv.1 hv.2.1 hp] at h
    simp at h
  · intro hp; exact gradient_parallel s hv hp k

/-- C106: where it is defined, the gradient of a sample is the derivative of its part of the loss. -/
theorem C106_defined (s : Sample) (hv : s.Valid) (hp : ¬ Parallel s.prediction s.truth) (k : Nat) (normal : ℝ → V3 ℝ) (τ : ℝ) (h0 : normal τ = s.prediction)
    (he : HasDerivAt (fun z => (normal z).e) (s.jacobian k).e τ) (hn : HasDerivAt (fun z => (normal z).n) (s.jacobian k).n τ)
    (hu : HasDerivAt (fun z => (normal z).u) (s.jacobian k).u τ) :
    ∃ v, s.gradient k = fin v ∧ HasDerivAt (fun z => s.weight * angle (normal z) s.truth) v τ := by
  have hd := (angle_deriv normal (s.jacobian k) s.truth τ (by rw [h0]; exact hv.1) hv.2.1 (by rw [h0]; exact hp) he hn hu).const_mul s.weight
  rw [h0] at hd
  refine ⟨_, ?_, hd⟩
  unfold Sample.gradient
  rw [angleBackward_regular _ _ _ hv.1 hv.2.1 hp]
  simp only [fin_scale, fin_add]
  congr 1
  ring

/-- C106 (what is true): if no sample of a heliostat is predicted perfectly (or exactly opposite), the optimiser works with the derivative of the loss of the heliostat.
Missing for the full claim: heliostats with such a sample, see `C106_silenced`. -/
theorem C106_gradient_partial (samples : List Sample) (heliostat k : Nat) (normal : Sample → ℝ → V3 ℝ) (τ : ℝ)
    (hv : ∀ s ∈ own samples heliostat, s.Valid) (hp : ∀ s ∈ own samples heliostat, ¬ Parallel s.prediction s.truth)
    (h0 : ∀ s ∈ own samples heliostat, normal s τ = s.prediction)
    (hd : ∀ s ∈ own samples heliostat, HasDerivAt (fun z => (normal s z).e) (s.jacobian k).e τ ∧
      HasDerivAt (fun z => (normal s z).n) (s.jacobian k).n τ ∧ HasDerivAt (fun z => (normal s z).u) (s.jacobian k).u τ) :
    HasDerivAt (fun z => ((own samples heliostat).map (fun s => s.weight * angle (normal s z) s.truth)).sum) (usedGradient samples heliostat k) τ := by
  have hs : ∀ s, ∃ v, s ∈ own samples heliostat → s.gradient k = fin v ∧ HasDerivAt (fun z => s.weight * angle (normal s z) s.truth) v τ := by
    intro s
    by_cases h : s ∈ own samples heliostat
    · obtain ⟨v, h1, h2⟩ := C106_defined s (hv s h) (hp s h) k (normal s) τ (h0 s h) (hd s h).1 (hd s h).2.1 (hd s h).2.2
      exact ⟨v, fun _ => ⟨h1, h2⟩⟩
    · exact ⟨0, fun h' => absurd h' h⟩
  choose v hv' using hs
  have e : usedGradient samples heliostat k = ((own samples heliostat).map v).sum := by
    unfold usedGradient rawGradient
    rw [show samples.filter (fun s => s.heliostat == heliostat) = own samples heliostat from rfl, foldl_fin k v _ 0 (fun s hs => (hv' s hs).1), zero_add]; rfl
  rw [e]
  have gen : ∀ l : List Sample, (∀ s ∈ l, HasDerivAt (fun z => s.weight * angle (normal s z) s.truth) (v s) τ) →
      HasDerivAt (fun z => (l.map (fun s => s.weight * angle (normal s z) s.truth)).sum) ((l.map v).sum) τ := by
    intro l
    induction l with
    | nil => intro _; simpa using hasDerivAt_const τ (0 : ℝ)
    | cons a l ih =>
      intro h
      simp only [List.map_cons, List.sum_cons]
      exact (h a List.mem_cons_self).add (ih fun b hb => h b (List.mem_cons_of_mem _ hb))
  exact gen _ fun s hs => (hv' s hs).2

/-- C106: one perfectly predicted sample silences all samples of its heliostat: the gradient of every parameter of the heliostat is zero. -/
theorem C106_silenced (samples : List Sample) (heliostat k : Nat) (s : Sample) (hs : s ∈ own samples heliostat) (hv : s.Valid)
    (hp : Parallel s.prediction s.truth) : usedGradient samples heliostat k = 0 := by
  unfold usedGradient rawGradient
  unfold own at hs
  rw [foldl_silenced k _ _ ⟨s, hs, gradient_parallel s hv hp k⟩]; rfl

/-- C106: leaving such a sample out makes no difference exactly if the other samples of the heliostat have no effect either. -/
theorem C106_no_influence_iff (before after : List Sample) (k : Nat) (s : Sample) (hv : s.Valid) (hp : Parallel s.prediction s.truth) :
    usedGradient (before ++ s :: after) s.heliostat k = usedGradient (before ++ after) s.heliostat k ↔
      usedGradient (before ++ after) s.heliostat k = 0 := by
  rw [C106_silenced (before ++ s :: after) s.heliostat k s (by unfold own; simp) hv hp]
  exact eq_comm

/-- C106: other heliostats are not concerned: the gradients of a heliostat depend on its own samples only. -/
theorem C106_other_heliostats (samples samples' : List Sample) (heliostat k : Nat) (h : own samples heliostat = own samples' heliostat) :
    usedGradient samples heliostat k = usedGradient samples' heliostat k := by
  unfold own at h
  unfold usedGradient rawGradient
  rw [h]

/-- a sample that is predicted perfectly -/
noncomputable def perfect : Sample := ⟨3, 1 / 2, ⟨0, 0, 1⟩, ⟨0, 0, 1⟩, fun _ => ⟨0, 1, 0⟩⟩
/-- a sample of the same heliostat that is predicted badly -/
noncomputable def bad : Sample := ⟨3, 1 / 2, ⟨0, 0, 1⟩, ⟨0, 1, 0⟩, fun _ => ⟨0, 1, 0⟩⟩

theorem sqrt_one_dot : √((⟨0, 0, 1⟩ : V3 ℝ).dot ⟨0, 0, 1⟩) = 1 := by norm_num [V3.dot]
theorem sqrt_one_dot' : √((⟨0, 1, 0⟩ : V3 ℝ).dot ⟨0, 1, 0⟩) = 1 := by norm_num [V3.dot]

theorem perfect_valid : perfect.Valid ∧ Parallel perfect.prediction perfect.truth := by
  unfold Sample.Valid Proper Parallel perfect
  simp only [sqrt_one_dot]
  refine ⟨⟨by norm_num, by norm_num, by norm_num⟩, ?_⟩
  ext <;> simp [V3.cross]

theorem bad_valid : bad.Valid ∧ ¬ Parallel bad.prediction bad.truth := by
  unfold Sample.Valid Proper Parallel bad
  simp only [sqrt_one_dot, sqrt_one_dot']
  refine ⟨⟨by norm_num, by norm_num, by norm_num⟩, ?_⟩
  intro h
  have := congrArg V3.e h
  norm_num [V3.cross] at this

theorem bad_gradient : bad.gradient 0 = fin (-(1 / 2)) := by
  have hv := bad_valid
  unfold Sample.gradient
  rw [angleBackward_regular _ _ _ hv.1.1 hv.1.2.1 hv.2]
  rw [cosine_eq _ _ hv.1.1 hv.1.2.1]
  unfold bad norm
  simp only [sqrt_one_dot, sqrt_one_dot']
  norm_num [V3.dot]

/-- C106 (the claim is false): a badly predicted sample is no longer learned from as soon as another sample of the same heliostat is predicted perfectly. -/
theorem C106_false : usedGradient [bad] 3 0 = -(1 / 2) ∧ usedGradient [bad, perfect] 3 0 = 0 := by
  constructor
  · unfold usedGradient rawGradient
    have : [bad].filter (fun s => s.heliostat == 3) = [bad] := by simp [bad]
    rw [this, List.foldl_cons, List.foldl_nil, bad_gradient, fin_add, zero_add]; rfl
  · exact C106_silenced _ 3 0 perfect (by unfold own; simp [bad, perfect]) perfect_valid.1 perfect_valid.2

/-- a heliostat that meets the hypotheses of `C106_gradient_partial`, beside another one with a perfectly predicted sample -/
example : HasDerivAt (fun z => ((own [bad, ⟨4, 1, ⟨0, 0, 1⟩, ⟨0, 0, 1⟩, fun _ => ⟨0, 0, 0⟩⟩] 3).map
    (fun s => s.weight * angle (⟨0, z, 1⟩ : V3 ℝ) s.truth)).sum) (usedGradient [bad, ⟨4, 1, ⟨0, 0, 1⟩, ⟨0, 0, 1⟩, fun _ => ⟨0, 0, 0⟩⟩] 3 0) 0 := by
  have ho : own [bad, ⟨4, 1, ⟨0, 0, 1⟩, ⟨0, 0, 1⟩, fun _ => ⟨0, 0, 0⟩⟩] 3 = [bad] := by unfold own; simp [bad]
  refine C106_gradient_partial _ 3 0 (fun _ z => ⟨0, z, 1⟩) 0 ?_ ?_ ?_ ?_ <;> rw [ho] <;> intro s hs <;> rw [List.mem_singleton] at hs <;> subst hs
  · exact bad_valid.1
  · exact bad_valid.2
  · rfl
  · exact ⟨hasDerivAt_const _ _, hasDerivAt_id _, hasDerivAt_const _ _⟩

/-- C106: in float32 "perfectly" means within 2⁻¹² rad (0.24 mrad): there the cosine of the angle is rounded to 1, where the gradient of `acos` is infinite. -/
theorem C106_float32 (a b : V3 ℝ) (ha : Proper a) (hb : Proper b) (hθ : angle a b < 1 / 2 ^ 12) (weight : ℝ) (hw : 0 < weight) :
    Rounded.float32 (cosine a b) = 1 ∧ acosBackward (Rounded.float32 (cosine a b)) weight = inf false := by
  have hc := cosine_eq a b ha hb
  have hm := cosine_mem a b ha hb
  have hcos : Real.cos (angle a b) = cosine a b := by
    unfold angle
    rw [show a.dot b / (√(a.dot a) * √(b.dot b)) = cosine a b from hc.symm]
    exact Real.cos_arccos hm.1 hm.2
  have h0 : 0 ≤ angle a b := Real.arccos_nonneg _
  have hlow : 1 - 1 / 2 ^ 25 < cosine a b := by
    rw [← hcos]
    have h1 := Real.one_sub_sq_div_two_le_cos (x := angle a b)
    have h2 : angle a b ^ 2 < (1 / 2 ^ 12) ^ 2 := by
      apply pow_lt_pow_left₀ hθ h0 (by norm_num)
    have h3 : ((1 : ℝ) / 2 ^ 12) ^ 2 / 2 = 1 / 2 ^ 25 := by norm_num
    linarith
  have hr : Rounded.float32 (cosine a b) = 1 := by
    rcases lt_or_eq_of_le hm.2 with h | h
    · have := RoundedFilter.float32_eq (cosine a b) (-24) (2 ^ 24) (by norm_num) (by
        have e : ((2 : ℝ) ^ ((-24 : Int) + 23)) = 1 / 2 := by norm_num
        rw [e]
        have : (1 : ℝ) / 2 ^ 25 ≤ 1 / 2 := by norm_num
        linarith) (by norm_num; exact h) (by
        have e : (((2 ^ 24 : Int)) : ℝ) * 2 ^ (-24 : Int) = 1 := by norm_num
        have e2 : (2 : ℝ) ^ (-24 : Int) / 2 = 1 / 2 ^ 25 := by norm_num
        rw [e, e2, abs_of_neg (by linarith)]
        linarith)
      rw [this]; norm_num
    · rw [h]
      have := RoundedFilter.float32_eq 1 (-23) (2 ^ 23) (by norm_num) (by norm_num) (by norm_num) (by norm_num)
      rw [this]; norm_num
  refine ⟨hr, ?_⟩
  rw [hr]
  unfold acosBackward
  simp [scale, hw.ne', hw]

/-- two nearly parallel normals that meet the hypotheses of `C106_float32` -/
example : Proper ⟨0, 0, 1⟩ ∧ Proper ⟨0, 1 / 10000, 1⟩ ∧ angle ⟨0, 0, 1⟩ ⟨0, 1 / 10000, 1⟩ < 1 / 2 ^ 12 ∧ ¬ Parallel ⟨0, 0, 1⟩ ⟨0, 1 / 10000, 1⟩ := by
  have p1 : Proper ⟨0, 0, 1⟩ := by unfold Proper; rw [sqrt_one_dot]; norm_num
  have hs : √((⟨0, 1 / 10000, 1⟩ : V3 ℝ).dot ⟨0, 1 / 10000, 1⟩) = √(1 + 1 / 10 ^ 8) := by congr 1; simp only [V3.dot]; norm_num
  have h1 : 1 ≤ √((1 : ℝ) + 1 / 10 ^ 8) := by rw [Real.one_le_sqrt]; norm_num
  have p2 : Proper ⟨0, 1 / 10000, 1⟩ := by
    unfold Proper; rw [hs]; exact le_trans (by norm_num) h1
  refine ⟨p1, p2, ?_, ?_⟩
  · unfold angle
    rw [sqrt_one_dot, hs]
    have hx : (⟨0, 0, 1⟩ : V3 ℝ).dot ⟨0, 1 / 10000, 1⟩ / (1 * √(1 + 1 / 10 ^ 8)) = 1 / √(1 + 1 / 10 ^ 8) := by simp [V3.dot]
    rw [hx]
    have hcos : Real.cos (1 / 2 ^ 12) < 1 / √((1 : ℝ) + 1 / 10 ^ 8) := by
      have hpi := Real.two_le_pi
      refine lt_of_lt_of_le (Real.cos_lt_one_div_sqrt_sq_add_one (x := (1 : ℝ) / 2 ^ 12) (by norm_num; linarith) (by norm_num; linarith) (by norm_num)) ?_
      apply one_div_le_one_div_of_le (by positivity)
      apply Real.sqrt_le_sqrt
      norm_num
    have := Real.arccos_lt_arccos (Real.neg_one_le_cos _) hcos (by rw [div_le_one (by positivity)]; exact h1)
    rwa [Real.arccos_cos (by norm_num) (by have := Real.two_le_pi; norm_num; linarith)] at this
  · intro h
    have := congrArg V3.e h
    norm_num [V3.cross] at this

end Artist.NanGradient
