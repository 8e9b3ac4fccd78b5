import Verif.Proofs.Tracking
/-! C111: the motors follow the sun. -/
namespace Artist.Tracking
open Artist Kinematics Real Matrix Transforms Intersect Filter Topology MotorImage Converge

variable {X : Type} [TopologicalSpace X]

/-- C111: the motor positions for a wanted normal change continuously with the normal, wherever the normal is steady. -/
theorem C111_inverse (h : Heliostat) (hg : Gentle h.actuator1 ∧ Gentle h.actuator2) (x₀ : X) (n : X → Fin 4 → ℝ)
    (hn : ∀ i, ContinuousAt (fun x => n x i) x₀) (hs : Steady h (n x₀)) : ContinuousAt (fun x => (h.inverse (1 / 10 ^ 8) (n x)).1) x₀ := by
  obtain ⟨s1, s2⟩ := solutions_continuous h hg hn hs.axis
  have c := s1 hs.first
  have c1 := c.fst
  have c2 := c.snd
  rcases hs.choice with ⟨⟨a1, a2⟩, a3, a4⟩ | ⟨ho, hp⟩
  · refine c.congr ?_
    filter_upwards [continuousAt_const.eventually_lt c1 a1, c1.eventually_lt continuousAt_const a2, continuousAt_const.eventually_lt c2 a3, c2.eventually_lt continuousAt_const a4] with x b1 b2 b3 b4
    have : h.InLimits (h.motors (h.jointAngles (1 / 10 ^ 8) (n x)).1) := ⟨⟨b1.le, b2.le⟩, b3.le, b4.le⟩
    simp only [Heliostat.inverse, if_pos this]
  · refine (s2 hp).congr ?_
    have out : ∀ᶠ x in 𝓝 x₀, ¬ h.InLimits (h.motors (h.jointAngles (1 / 10 ^ 8) (n x)).1) := by
      rcases ho with ho | ho | ho | ho
      · filter_upwards [c1.eventually_lt continuousAt_const ho] with x hx hc; exact absurd hc.1.1 (not_le.2 hx)
      · filter_upwards [continuousAt_const.eventually_lt c1 ho] with x hx hc; exact absurd hc.1.2 (not_le.2 hx)
      · filter_upwards [c2.eventually_lt continuousAt_const ho] with x hx hc; exact absurd hc.2.1 (not_le.2 hx)
      · filter_upwards [continuousAt_const.eventually_lt c2 ho] with x hx hc; exact absurd hc.2.2 (not_le.2 hx)
    filter_upwards [out] with x hx
    simp only [Heliostat.inverse, if_neg hx]

/-- C111: every iteration of the alignment, and its loss, changes continuously with the sun and the aim points. -/
theorem C111_iterations {k : Nat} (f : Following X k) (x₀ : X) (hg : ∀ i, Gentle (f.heliostat i).actuator1 ∧ Gentle (f.heliostat i).actuator2)
    (hi : ∀ i c, ContinuousAt (fun x => f.incident i x c) x₀) (ha : ∀ i c, ContinuousAt (fun x => f.aim i x c) x₀) (n : Nat)
    (hs : ∀ j < n, ∀ i, Steady (f.heliostat i) ((f.task x₀).desired (iterate (f.task x₀) j) i)) (j : Nat) (hj : j ≤ n) (i : Fin k) :
    ContinuousAt (fun x => iterate (f.task x) j i) x₀ ∧ ContinuousAt (fun x => (f.task x).losses (iterate (f.task x) j) i) x₀ := by
  have des : ∀ j, ContinuousAt (fun x => iterate (f.task x) j i) x₀ → ∀ c, ContinuousAt (fun x => (f.task x).desired (iterate (f.task x) j) i c) x₀ := by
    intro j h
    exact desired_continuous (hi i) (ha i) (forward_continuous (f.heliostat i) (hg i) h)
  have los : ∀ j, ContinuousAt (fun x => iterate (f.task x) j i) x₀ → ContinuousAt (fun x => (f.task x).losses (iterate (f.task x) j) i) x₀ := by
    intro j h
    have d := des j h
    have m := (closed_continuous x₀).mulVec (fun x => (f.heliostat i).forward (iterate (f.task x) j i)) (fun _ => south) (forward_continuous (f.heliostat i) (hg i) h) (fun _ => continuousAt_const)
    exact (((((d 0).sub (m 0)).abs.add ((d 1).sub (m 1)).abs).add ((d 2).sub (m 2)).abs).add ((d 3).sub (m 3)).abs).div_const 4
  have it : ∀ j ≤ n, ContinuousAt (fun x => iterate (f.task x) j i) x₀ := by
    intro j
    induction j with
    | zero => intro _; exact continuousAt_const
    | succ j ih =>
      intro hj
      simp only [iterate_succ]
      exact C111_inverse (f.heliostat i) (hg i) x₀ _ (des j (ih (by omega))) (hs j (by omega) i)
  exact ⟨it j hj, los j (it j hj)⟩

theorem loop_uniform {k : Nat} (minEps : ℝ) (n : Nat) (P0 : Prop) (P : Nat → Prop) : ∃ j ≤ n, ∃ b ≤ n + 1, ∀ (t : Task k) (last : Option (Fin k → ℝ)) (m : Fin k → ℝ × ℝ),
    ((∃ l, last = some l ∧ ∀ i, |l i - t.losses m i| ≤ minEps) ↔ P0) →
    (∀ j < n, (∀ i, |t.losses (t.next^[j] m) i - t.losses (t.next^[j + 1] m) i| ≤ minEps) ↔ P j) →
    t.loop minEps n last m = (t.orientations (t.next^[j] m), t.next^[b] m) := by
  induction n generalizing P0 P with
  | zero =>
    by_cases hp : P0
    · refine ⟨0, le_rfl, 0, by omega, fun t last m h0 _ => ?_⟩
      rw [Task.loop, if_pos (h0.2 hp)]; rfl
    · refine ⟨0, le_rfl, 1, by omega, fun t last m h0 _ => ?_⟩
      rw [Task.loop, if_neg (fun h => hp (h0.1 h))]; rfl
  | succ n ih =>
    by_cases hp : P0
    · refine ⟨0, by omega, 0, by omega, fun t last m h0 _ => ?_⟩
      rw [Task.loop, if_pos (h0.2 hp)]; rfl
    · obtain ⟨j, hj, b, hb, h⟩ := ih (P 0) (fun j => P (j + 1))
      refine ⟨j + 1, by omega, b + 1, by omega, fun t last m h0 h1 => ?_⟩
      rw [Task.loop, if_neg (fun h => hp (h0.1 h))]
      refine h t (some (t.losses m)) (t.next m) ?_ fun j hj => h1 (j + 1) (by omega)
      rw [← h1 0 (by omega)]
      simp only [Option.some.injEq, exists_eq_left']
      rfl

/-- C111, in one statement: close to `x₀` the alignment always ends with the same iteration. -/
theorem C111_same_iteration {k : Nat} (f : Following X k) (n : Nat) (hn : 0 < n) (minEps : ℝ) (x₀ : X) (hg : ∀ i, Gentle (f.heliostat i).actuator1 ∧ Gentle (f.heliostat i).actuator2)
    (hi : ∀ i c, ContinuousAt (fun x => f.incident i x c) x₀) (ha : ∀ i c, ContinuousAt (fun x => f.aim i x c) x₀)
    (hs : ∀ j < n, ∀ i, Steady (f.heliostat i) ((f.task x₀).desired (iterate (f.task x₀) j) i))
    (ht : ∀ j, j + 1 < n → (∀ i, |(f.task x₀).losses (iterate (f.task x₀) j) i - (f.task x₀).losses (iterate (f.task x₀) (j + 1)) i| < minEps) ∨
      ∃ i, minEps < |(f.task x₀).losses (iterate (f.task x₀) j) i - (f.task x₀).losses (iterate (f.task x₀) (j + 1)) i|) :
    ∃ j < n, ∃ b ≤ n, ∀ᶠ x in 𝓝 x₀, (f.task x).align n minEps = .ok (fun i => (f.heliostat i).motorToOrientation (iterate (f.task x) j i), iterate (f.task x) b) := by
  obtain ⟨n, rfl⟩ := Nat.exists_eq_succ_of_ne_zero hn.ne'
  obtain ⟨j, hj, b, hb, h⟩ := loop_uniform (k := k) minEps n False
    (fun j => ∀ i, |(f.task x₀).losses (iterate (f.task x₀) j) i - (f.task x₀).losses (iterate (f.task x₀) (j + 1)) i| ≤ minEps)
  refine ⟨j, by omega, b, by omega, ?_⟩
  have same : ∀ j < n, ∀ᶠ x in 𝓝 x₀, ((∀ i, |(f.task x).losses (iterate (f.task x) j) i - (f.task x).losses (iterate (f.task x) (j + 1)) i| ≤ minEps) ↔
      ∀ i, |(f.task x₀).losses (iterate (f.task x₀) j) i - (f.task x₀).losses (iterate (f.task x₀) (j + 1)) i| ≤ minEps) := by
    intro j hj
    have c : ∀ i, ContinuousAt (fun x => |(f.task x).losses (iterate (f.task x) j) i - (f.task x).losses (iterate (f.task x) (j + 1)) i|) x₀ := fun i =>
      ((C111_iterations f x₀ hg hi ha (n + 1) hs j (by omega) i).2.sub (C111_iterations f x₀ hg hi ha (n + 1) hs (j + 1) (by omega) i).2).abs
    rcases ht j (by omega) with t | ⟨i, t⟩
    · filter_upwards [eventually_all.2 fun i => (c i).eventually_lt continuousAt_const (t i)] with x hx
      exact ⟨fun _ i => (t i).le, fun _ i => (hx i).le⟩
    · filter_upwards [continuousAt_const.eventually_lt (c i) t] with x hx
      exact ⟨fun h => absurd (h i) (not_le.2 hx), fun h => absurd (h i) (not_le.2 t)⟩
  have all : ∀ᶠ x in 𝓝 x₀, ∀ j : Fin n, ((∀ i, |(f.task x).losses (iterate (f.task x) j) i - (f.task x).losses (iterate (f.task x) (j + 1)) i| ≤ minEps) ↔
      ∀ i, |(f.task x₀).losses (iterate (f.task x₀) j) i - (f.task x₀).losses (iterate (f.task x₀) (j + 1)) i| ≤ minEps) :=
    eventually_all.2 fun j => same j j.2
  filter_upwards [all] with x hx
  simp only [Task.align]
  rw [h (f.task x) none _ (by simp) (fun j hj => hx ⟨j, hj⟩)]
  rfl

/-- C111: orientations and stored motor positions change continuously with the direction of the light and with the aim points.  Exceptions are wanted normals that are not steady, and ties at
which it changes after how many iterations the alignment stops. -/
theorem C111_align_partial {k : Nat} (f : Following X k) (n : Nat) (hn : 0 < n) (minEps : ℝ) (x₀ : X) (hg : ∀ i, Gentle (f.heliostat i).actuator1 ∧ Gentle (f.heliostat i).actuator2)
    (hi : ∀ i c, ContinuousAt (fun x => f.incident i x c) x₀) (ha : ∀ i c, ContinuousAt (fun x => f.aim i x c) x₀)
    (hs : ∀ j < n, ∀ i, Steady (f.heliostat i) ((f.task x₀).desired (iterate (f.task x₀) j) i))
    (ht : ∀ j, j + 1 < n → (∀ i, |(f.task x₀).losses (iterate (f.task x₀) j) i - (f.task x₀).losses (iterate (f.task x₀) (j + 1)) i| < minEps) ∨
      ∃ i, minEps < |(f.task x₀).losses (iterate (f.task x₀) j) i - (f.task x₀).losses (iterate (f.task x₀) (j + 1)) i|)
    (o : X → Fin k → Mat) (m : X → Fin k → ℝ × ℝ) (h : ∀ x, (f.task x).align n minEps = .ok (o x, m x)) (i : Fin k) :
    (∀ a b, ContinuousAt (fun x => o x i a b) x₀) ∧ ContinuousAt (fun x => m x i) x₀ := by
  obtain ⟨j, hj, b, hb, e⟩ := C111_same_iteration f n hn minEps x₀ hg hi ha hs ht
  have e' : ∀ᶠ x in 𝓝 x₀, o x i = (f.heliostat i).motorToOrientation (iterate (f.task x) j i) ∧ m x i = iterate (f.task x) b i := by
    filter_upwards [e] with x hx
    rw [h x] at hx
    simp only [Except.ok.injEq, Prod.mk.injEq] at hx
    rw [hx.1, hx.2]; exact ⟨rfl, rfl⟩
  have cj := (C111_iterations f x₀ hg hi ha n hs j hj.le i).1
  constructor
  · intro a c
    have : ContinuousAt (fun x => (f.heliostat i).motorToOrientation (iterate (f.task x) j i) a c) x₀ :=
      (closed_continuous x₀).matMul _ (fun _ => orientationOffset) (forward_continuous (f.heliostat i) (hg i) cj) (fun _ _ => continuousAt_const) a c
    refine this.congr ?_
    filter_upwards [e'] with x hx
    rw [hx.1]
  · refine (C111_iterations f x₀ hg hi ha n hs b hb i).1.congr ?_
    filter_upwards [e'] with x hx
    rw [hx.2]

open Moved Flux Splat in
/-- C111: so does the image on a planar target: the brightness of every pixel changes continuously while the heliostats follow the sun, unless a ray meets the edge of the target. -/
theorem C111_image_partial {k : Nat} (f : Following X k) (n : Nat) (hn : 0 < n) (minEps : ℝ) (x₀ : X) (hg : ∀ i, Gentle (f.heliostat i).actuator1 ∧ Gentle (f.heliostat i).actuator2)
    (hi : ∀ i c, ContinuousAt (fun x => f.incident i x c) x₀) (ha : ∀ i c, ContinuousAt (fun x => f.aim i x c) x₀)
    (hs : ∀ j < n, ∀ i, Steady (f.heliostat i) ((f.task x₀).desired (iterate (f.task x₀) j) i))
    (ht : ∀ j, j + 1 < n → (∀ i, |(f.task x₀).losses (iterate (f.task x₀) j) i - (f.task x₀).losses (iterate (f.task x₀) (j + 1)) i| < minEps) ∨
      ∃ i, minEps < |(f.task x₀).losses (iterate (f.task x₀) j) i - (f.task x₀).losses (iterate (f.task x₀) (j + 1)) i|)
    (o : X → Fin k → Mat) (m : X → Fin k → ℝ × ℝ) (h : ∀ x, (f.task x).align n minEps = .ok (o x, m x)) (i : Fin k)
    (mirror : List ((Fin 4 → ℝ) × (Fin 4 → ℝ))) (distortions : List (List (ℝ × ℝ))) (W H : Nat) (magnitude extinction reflectivity : ℝ) (p : Plane ℝ)
    (hw : 0 < p.width) (hh : 0 < p.height) (hW : 1 < W) (hH : 1 < H)
    (he : ∀ ray ∈ raysOf (f.incident i x₀) (placed (o x₀ i) mirror) distortions, ¬ HitsEdge p ray) (r c : Nat) (hr : r < H) (hc : c < W)
    (image : X → List (List ℝ)) (totals : X → ℝ × ℝ × ℝ) (hI : ∀ x, traceSample W H magnitude extinction reflectivity (.planar p) (fun _ => 0) (raysOf (f.incident i x) (placed (o x i) mirror) distortions) = .ok (image x, totals x)) :
    ContinuousAt (fun x => pixel (image x) r c) x₀ := by
  obtain ⟨j, hj, b, hb, e⟩ := C111_same_iteration f n hn minEps x₀ hg hi ha hs ht
  have e' : ∀ᶠ x in 𝓝 x₀, o x i = (f.heliostat i).motorToOrientation (iterate (f.task x) j i) := by
    filter_upwards [e] with x hx
    rw [h x] at hx
    simp only [Except.ok.injEq, Prod.mk.injEq] at hx
    rw [hx.1]
  have cj := (C111_iterations f x₀ hg hi ha n hs j hj.le i).1
  let s : Moving X := ⟨fun _ => f.heliostat i, fun x => iterate (f.task x) j i, fun x => f.incident i x, mirror.map fun q => (fun _ => q.1, fun _ => q.2)⟩
  have rays : ∀ x, o x i = (f.heliostat i).motorToOrientation (iterate (f.task x) j i) → s.rays distortions x = raysOf (f.incident i x) (placed (o x i) mirror) distortions := by
    intro x hx
    unfold Moving.rays
    simp [s, Function.comp_def, hx]
  have key : ContinuousAt (s.brightness distortions W H magnitude extinction reflectivity (.planar p) (fun _ _ => 0) r c) x₀ := by
    refine C108_continuous s distortions W H magnitude extinction reflectivity p _ x₀ hw hh hW hH ?_ (fun _ _ => continuousAt_const) (by rw [rays x₀ e'.self_of_nhds]; exact he) r c hr hc
    refine ⟨fun _ => continuousAt_const, fun _ => continuousAt_const, fun _ => continuousAt_const, (hg i).1.1.continuousAt.comp cj.fst, (hg i).2.1.continuousAt.comp cj.snd, hi i, ?_⟩
    intro q hq i
    obtain ⟨q', -, rfl⟩ := List.mem_map.1 hq
    exact ⟨continuousAt_const, continuousAt_const⟩
  refine key.congr ?_
  filter_upwards [e'] with x hx
  unfold Moving.brightness
  rw [rays x hx, hI x]

/-! ### When a normal is steady -/
open Actuators

/-- C111: linear actuators are continuous both ways, and their motor position does not change by a full turn: half turns of the joint angles do not matter to them. -/
theorem C111_linear (a : Linear) : Gentle a.actuator ∧ ∀ angle, NoHalfTurn a.actuator angle := by
  refine ⟨⟨C108_motor_position a, ?_⟩, fun _ => Or.inr ?_⟩
  · show Continuous fun angle => a.toMotor angle
    unfold Linear.toMotor Linear.clampStroke clamp
    by_cases h : a.clockwise = 1
    · simp only [if_pos h]; fun_prop
    · simp only [if_neg h]; fun_prop
  · intro angle
    show a.toMotor _ = a.toMotor _
    unfold Linear.toMotor
    by_cases h : a.clockwise = 1
    · simp only [if_pos h]
      rw [show a.absoluteAngle 0 - (angle + 2 * π - a.initialAngle) = a.absoluteAngle 0 - (angle - a.initialAngle) - 2 * π by ring, cos_sub_two_pi]
    · simp only [if_neg h]
      rw [show a.absoluteAngle 0 - (a.initialAngle - (angle + 2 * π)) = a.absoluteAngle 0 - (a.initialAngle - angle) + 2 * π by ring, cos_add_two_pi]

/-- C111: ideal actuators are continuous both ways, but a half turn matters to them. -/
theorem C111_ideal (a : Ideal) : Gentle a.actuator ∧ ∀ angle, NoHalfTurn a.actuator angle ↔ angle ≠ π := by
  refine ⟨⟨continuous_id, continuous_id⟩, fun angle => ⟨?_, Or.inl⟩⟩
  rintro (h | h)
  · exact h
  · have := h 0
    simp only [Ideal.actuator, Ideal.toMotor] at this
    linarith [pi_pos]

/-- C111: whatever the actuators are, mirrors that look upwards never get a half turn from the first solution, if the second axis is not tilted. -/
theorem C111_upwards (h : Heliostat) (h2 : h.rotation 2 = 0) (h3 : h.rotation 3 = 0) (n : Fin 4 → ℝ) (hn : 0 < (h.deviation1ᵀ *ᵥ n) 2) :
    ((h.deviation1ᵀ *ᵥ n) 1 ≠ 0 ∨ (h.deviation1ᵀ *ᵥ n) 2 ≠ 0) ∧ Clear h (h.jointAngles (1 / 10 ^ 8) n).1 := by
  refine ⟨Or.inr hn.ne', ?_⟩
  set n' := h.deviation1ᵀ *ᵥ n with hn'
  obtain ⟨e1, e2⟩ := dev2_entries h
  have b := ratio_bound (n' 0) (√((h.deviation2 0 0) ^ 2 + (h.deviation2 0 1) ^ 2))
  have e : (h.jointAngles (1 / 10 ^ 8) n).1 = (h.firstAngle n' (Heliostat.wrap (arcsin (clamp (n' 0 / (√((h.deviation2 0 0) ^ 2 + (h.deviation2 0 1) ^ 2) + 1 / 10 ^ 8)) (-1 + 1 / 10 ^ 8) (1 - 1 / 10 ^ 8)))),
      Heliostat.wrap (arcsin (clamp (n' 0 / (√((h.deviation2 0 0) ^ 2 + (h.deviation2 0 1) ^ 2) + 1 / 10 ^ 8)) (-1 + 1 / 10 ^ 8) (1 - 1 / 10 ^ 8)))) := by
    have : atan2 (-(h.deviation2 0 1)) (h.deviation2 0 0) = 0 := by
      rw [e1, e2, h3, cos_zero, neg_zero]
      have : (⟨1, 0⟩ : ℂ) = 1 := rfl
      rw [atan2, this, Complex.arg_one]
    simp only [Heliostat.jointAngles, this, sub_zero, ← hn']
  rw [e]
  generalize clamp (n' 0 / (√((h.deviation2 0 0) ^ 2 + (h.deviation2 0 1) ^ 2) + 1 / 10 ^ 8)) (-1 + 1 / 10 ^ 8) (1 - 1 / 10 ^ 8) = ρ at b
  have c0 : 0 < cos (arcsin ρ) := by
    rw [cos_arcsin]
    have := abs_lt.1 b
    exact Real.sqrt_pos.2 (by nlinarith)
  constructor
  · refine Or.inl fun hc => ?_
    simp only at hc
    have hs := (firstAngle_cs h n' (Heliostat.wrap (arcsin ρ))).2
    rw [hc, sin_pi, mul_zero] at hs
    have v : vOf h (Heliostat.wrap (arcsin ρ)) 1 = -cos (arcsin ρ) ∧ vOf h (Heliostat.wrap (arcsin ρ)) 2 = 0 := by
      simp [vOf, Heliostat.deviation2, h2, h3, rotE, rotN, rotU, south, mulVec, dotProduct, Fin.sum_univ_four, mul_apply, wrap_cos]
    rw [v.1, v.2] at hs
    nlinarith
  · refine Or.inl fun hc => ?_
    simp only at hc
    have := wrap_cos (arcsin ρ)
    rw [hc, cos_pi] at this
    linarith

/-! ### Jumps -/

/-- a heliostat with ideal actuators and the given limits of the second motor -/
noncomputable def plain (low high : ℝ) : Heliostat :=
  { position := ![0, 0, 0, 1], translation := 0, rotation := 0, actuator1 := (Ideal.mk (-4) 4).actuator, actuator2 := (Ideal.mk low high).actuator }

theorem plain_dev (low high : ℝ) : (plain low high).deviation1 = 1 ∧ (plain low high).deviation2 = 1 := by
  have r0 : rotN 0 = 1 := by ext i j; fin_cases i <;> fin_cases j <;> simp [rotN]
  have r1 : rotU 0 = 1 := by ext i j; fin_cases i <;> fin_cases j <;> simp [rotU]
  have r2 : rotE 0 = 1 := by ext i j; fin_cases i <;> fin_cases j <;> simp [rotE]
  simp [Heliostat.deviation1, Heliostat.deviation2, plain, r0, r1, r2]

theorem plain_first (low high : ℝ) (n : Fin 4 → ℝ) (b : ℝ) : (plain low high).firstAngle n b = atan2 (-cos b * n 2) (-cos b * n 1) := by
  have v : ((plain low high).deviation2 * rotU b) *ᵥ south = ![sin b, -cos b, 0, 0] := by
    rw [(plain_dev low high).2, one_mul]
    ext i; fin_cases i <;> simp [rotU, south, mulVec, dotProduct, Fin.sum_univ_four]
  simp only [Heliostat.firstAngle, v, wrap_atan2]
  simp

theorem plain_angles (low high : ℝ) (n : Fin 4 → ℝ) :
    let ρ := clamp (n 0 / (1 + 1 / 10 ^ 8)) (-1 + 1 / 10 ^ 8) (1 - 1 / 10 ^ 8)
    (plain low high).jointAngles (1 / 10 ^ 8) n = ((atan2 (-cos (arcsin ρ) * n 2) (-cos (arcsin ρ) * n 1), Heliostat.wrap (arcsin ρ)),
      (atan2 (cos (arcsin ρ) * n 2) (cos (arcsin ρ) * n 1), Heliostat.wrap (π - arcsin ρ))) := by
  intro ρ
  have a : atan2 0 1 = 0 := by
    have : (⟨1, 0⟩ : ℂ) = 1 := rfl
    rw [atan2, this, Complex.arg_one]
  simp only [Heliostat.jointAngles, plain_first, (plain_dev low high).1, (plain_dev low high).2, Matrix.transpose_one, Matrix.one_mulVec, wrap_cos]
  simp [a, ρ]

theorem clamp_zero : clamp ((0 : ℝ) / (1 + 1 / 10 ^ 8)) (-1 + 1 / 10 ^ 8) (1 - 1 / 10 ^ 8) = 0 := by
  unfold clamp; rw [zero_div, max_eq_left (by norm_num), min_eq_left (by norm_num)]

theorem atan2_self (x : ℝ) (h1 : -π < x) (h2 : x ≤ π) : atan2 (sin x) (cos x) = x := by
  have := wrap_atan2 (sin x) (cos x)
  have e : (⟨cos x, sin x⟩ : ℂ) = Complex.exp ((x : ℝ) * Complex.I) := by
    rw [Complex.exp_mul_I, ← Complex.ofReal_cos, ← Complex.ofReal_sin, Complex.mk_eq_add_mul_I]
  show Complex.arg _ = _
  rw [e, Complex.arg_exp_mul_I, toIocMod_eq_self]
  exact ⟨h1, by linarith⟩

/-- C111 fails at half turns: two normals as close as one likes, both within the limits of the ideal actuators, but a motor turns by nearly a full turn from one to the other. -/
theorem C111_half_turn (δ : ℝ) (h0 : 0 < δ) (h1 : δ < 1) :
    let near : Fin 4 → ℝ := ![0, cos δ, sin δ, 0]
    length3 (near - ![0, 1, 0, 0]) ≤ δ ∧
    ((plain (-4) 4).inverse (1 / 10 ^ 8) ![0, 1, 0, 0]).1 = (π, 0) ∧ ((plain (-4) 4).inverse (1 / 10 ^ 8) near).1 = (δ - π, 0) ∧
    (plain (-4) 4).InLimits (π, 0) ∧ (plain (-4) 4).InLimits (δ - π, 0) := by
  intro near
  have p1 := pi_gt_three
  have p2 := pi_lt_four
  have i1 : (plain (-4) 4).InLimits (π, 0) := by
    refine ⟨⟨?_, ?_⟩, ?_, ?_⟩ <;> simp [plain, Ideal.actuator] <;> linarith
  have i2 : (plain (-4) 4).InLimits (δ - π, 0) := by
    refine ⟨⟨?_, ?_⟩, ?_, ?_⟩ <;> simp [plain, Ideal.actuator] <;> linarith
  have w0 : Heliostat.wrap 0 = 0 := by
    have := atan2_self 0 (by linarith) (by linarith)
    exact this
  have s1 : (plain (-4) 4).motors ((plain (-4) 4).jointAngles (1 / 10 ^ 8) ![0, 1, 0, 0]).1 = (π, 0) := by
    have a := atan2_self π (by linarith) le_rfl
    rw [sin_pi, cos_pi] at a
    rw [plain_angles]
    simp only [Matrix.cons_val_zero, clamp_zero, arcsin_zero, cos_zero, w0]
    simp [Heliostat.motors, plain, Ideal.actuator, Ideal.toMotor, a]
  have s2 : (plain (-4) 4).motors ((plain (-4) 4).jointAngles (1 / 10 ^ 8) near).1 = (δ - π, 0) := by
    have a := atan2_self (δ - π) (by linarith) (by linarith)
    rw [sin_sub_pi, cos_sub_pi] at a
    rw [plain_angles]
    simp only [near, Matrix.cons_val_zero, clamp_zero, arcsin_zero, cos_zero, w0]
    simp [Heliostat.motors, plain, Ideal.actuator, Ideal.toMotor, a]
  refine ⟨?_, ?_, ?_, i1, i2⟩
  rotate_left
  · rw [(C25_limits _ _ _).1 (by rw [s1]; exact i1), s1]
  · rw [(C25_limits _ _ _).1 (by rw [s2]; exact i2), s2]
  refine length3_le_of_sq h0.le ?_
  simp only [near, Pi.sub_apply, Matrix.cons_val]
  have := one_sub_sq_div_two_le_cos (x := δ)
  nlinarith [sin_sq_add_cos_sq δ]

/-- C111 fails at the limits: the second motor may only turn one way.  A little beyond the limit the alignment does not stay at the limit but takes the other solution, half a turn away, even though that is
beyond the limit, too. -/
theorem C111_limit (δ : ℝ) (h0 : 0 < δ) (h1 : δ < 1) :
    let near : Fin 4 → ℝ := ![sin δ, 0, cos δ, 0]
    length3 (near - ![0, 0, 1, 0]) ≤ δ ∧
    ((plain (-4) 0).inverse (1 / 10 ^ 8) ![0, 0, 1, 0]).1 = (-(π / 2), 0) ∧
    ((plain (-4) 0).inverse (1 / 10 ^ 8) near).1.1 = π / 2 ∧ π / 2 < ((plain (-4) 0).inverse (1 / 10 ^ 8) near).1.2 ∧
    (plain (-4) 0).InLimits (-(π / 2), 0) ∧ ((plain (-4) 0).inverse (1 / 10 ^ 8) near).2 = true := by
  intro near
  have p1 := pi_gt_three
  have p2 := pi_lt_four
  have i1 : (plain (-4) 0).InLimits (-(π / 2), 0) := by
    refine ⟨⟨?_, ?_⟩, ?_, ?_⟩ <;> simp [plain, Ideal.actuator] <;> linarith
  have w0 : Heliostat.wrap 0 = 0 := by
    have := atan2_self 0 (by linarith) (by linarith)
    exact this
  have sd : 0 < sin δ := sin_pos_of_pos_of_lt_pi h0 (by linarith)
  have cd : 0 < cos δ := cos_pos_of_mem_Ioo ⟨by linarith, by linarith⟩
  have sd1 : sin δ ≤ 1 := sin_le_one δ
  have s1 : (plain (-4) 0).motors ((plain (-4) 0).jointAngles (1 / 10 ^ 8) ![0, 0, 1, 0]).1 = (-(π / 2), 0) := by
    have a := atan2_self (-(π / 2)) (by linarith) (by linarith)
    rw [sin_neg, cos_neg, sin_pi_div_two, cos_pi_div_two] at a
    rw [plain_angles]
    simp only [Matrix.cons_val_zero, clamp_zero, arcsin_zero, cos_zero, w0]
    simp [Heliostat.motors, plain, Ideal.actuator, Ideal.toMotor, a]
  set ρ := clamp (sin δ / (1 + 1 / 10 ^ 8)) (-1 + 1 / 10 ^ 8) (1 - 1 / 10 ^ 8) with hρ
  have q : 0 < sin δ / (1 + 1 / 10 ^ 8) := by positivity
  have r0 : 0 < ρ := by
    rw [hρ]; unfold clamp
    exact lt_min (lt_of_lt_of_le q (le_max_left _ _)) (by norm_num)
  have r1 : ρ < 1 := lt_of_le_of_lt (min_le_right _ _) (by norm_num)
  have a0 : 0 < arcsin ρ := arcsin_pos.2 r0
  have a1 : arcsin ρ < π / 2 := arcsin_lt_pi_div_two.2 r1
  have ca : 0 < cos (arcsin ρ) := cos_pos_of_mem_Ioo ⟨by linarith, a1⟩
  have w1 : Heliostat.wrap (arcsin ρ) = arcsin ρ := atan2_self _ (by linarith) (by linarith)
  have w2 : Heliostat.wrap (π - arcsin ρ) = π - arcsin ρ := atan2_self _ (by linarith) (by linarith)
  have e := plain_angles (-4) 0 near
  simp only [near, Matrix.cons_val, ← hρ, w1, w2] at e
  have m2 : (plain (-4) 0).motors ((plain (-4) 0).jointAngles (1 / 10 ^ 8) near).2 = (π / 2, π - arcsin ρ) := by
    have : atan2 (cos (arcsin ρ) * cos δ) (cos (arcsin ρ) * 0) = π / 2 := by
      rw [mul_zero, atan2]
      have : (⟨0, cos (arcsin ρ) * cos δ⟩ : ℂ) = ((cos (arcsin ρ) * cos δ : ℝ) : ℂ) * Complex.I := by
        apply Complex.ext <;> simp only [Complex.mul_re, Complex.mul_im, Complex.ofReal_re, Complex.ofReal_im, Complex.I_re, Complex.I_im] <;> ring
      rw [this, Complex.arg_real_mul _ (mul_pos ca cd), Complex.arg_I]
    simp only [near, e, Heliostat.motors, this]
    rfl
  have n1 : ¬ (plain (-4) 0).InLimits ((plain (-4) 0).motors ((plain (-4) 0).jointAngles (1 / 10 ^ 8) near).1) := by
    intro hc
    have := hc.2.2
    simp only [near, e, Heliostat.motors] at this
    simp only [plain, Ideal.actuator, Ideal.toMotor] at this
    linarith
  have n2 : ¬ (plain (-4) 0).InLimits (π / 2, π - arcsin ρ) := by
    intro hc
    have := hc.2.2
    simp only [plain, Ideal.actuator] at this
    linarith
  have inv : ((plain (-4) 0).inverse (1 / 10 ^ 8) near).1 = (π / 2, π - arcsin ρ) := by
    simp only [Heliostat.inverse, if_neg n1, m2]
  refine ⟨?_, by rw [(C25_limits _ _ _).1 (by rw [s1]; exact i1), s1], by rw [inv], by rw [inv]; show π / 2 < π - arcsin ρ; linarith, i1, (C25_limits _ _ _).2.2.2 (by rw [inv]; exact n2)⟩
  · refine length3_le_of_sq h0.le ?_
    simp only [near, Pi.sub_apply, Matrix.cons_val]
    have := one_sub_sq_div_two_le_cos (x := δ)
    nlinarith [sin_sq_add_cos_sq δ]

/-! ### A concrete scene -/

theorem plain_steady (n : Fin 4 → ℝ) (hn : 0 < n 2) : Steady (plain (-4) 4) n := by
  have u := C111_upwards (plain (-4) 4) rfl rfl n (by rw [(plain_dev _ _).1, Matrix.transpose_one, Matrix.one_mulVec]; exact hn)
  have r := C25_angle_range (plain (-4) 4) (1 / 10 ^ 8) n _ (Or.inl rfl)
  have p2 := pi_lt_four
  refine ⟨u.1, u.2, Or.inl ⟨⟨?_, ?_⟩, ?_, ?_⟩⟩ <;> simp only [plain, Heliostat.motors, Ideal.actuator, Ideal.toMotor] at r ⊢ <;> linarith [r.1.1, r.1.2, r.2.1, r.2.2]

/-- the sun moves from the zenith to the west; the heliostat aims at a point in the south -/
noncomputable def day : Following ℝ 1 := ⟨fun _ => plain (-4) 4, fun _ x => ![sin x, 0, -cos x, 0], fun _ _ => ![0, -100, 0, 1]⟩

theorem plain_forward (m : ℝ × ℝ) : (plain (-4) 4).forward m = rotE m.1 * rotU m.2 := by
  have r0 : rotN 0 = 1 := by ext i j; fin_cases i <;> fin_cases j <;> simp [rotN]
  have r1 : rotU 0 = 1 := by ext i j; fin_cases i <;> fin_cases j <;> simp [rotU]
  have r2 : rotE 0 = 1 := by ext i j; fin_cases i <;> fin_cases j <;> simp [rotE]
  have r3 : transl 0 0 0 = 1 := by ext i j; fin_cases i <;> fin_cases j <;> simp [transl]
  simp [Heliostat.forward, Heliostat.anglesToOrientation, plain, r0, r1, r2, r3, Ideal.actuator, Ideal.toAngle]

theorem day_desired (m : Fin 1 → ℝ × ℝ) (i : Fin 1) : (day.task 0).desired m i = ![0, -(√2)⁻¹, (√2)⁻¹, 0] := by
  have o : (plain (-4) 4).forward (m i) *ᵥ origin = ![0, 0, 0, 1] := by
    rw [plain_forward]
    ext j; fin_cases j <;> simp [rotE, rotU, origin, mulVec, dotProduct, Fin.sum_univ_four, mul_apply]
  have r : normalizeEps (1 / 10 ^ 8) ![0, -100, 0] = ![0, -1, 0] := by
    have : norm3 ![0, -100, 0] = 100 := by
      have : √(100 * 100 : ℝ) = 100 := Real.sqrt_mul_self (by norm_num)
      simp [norm3, dotProduct, Fin.sum_univ_three, this]
    rw [normalizeEps, this, max_eq_left (by norm_num)]
    ext j; fin_cases j <;> simp
  have d : normalizeEps (1 / 10 ^ 8) ![0, -1, 1] = ![0, -(√2)⁻¹, (√2)⁻¹] := by
    have : norm3 ![0, -1, 1] = √2 := by
      simp [norm3, dotProduct, Fin.sum_univ_three]; norm_num
    have h1 : (1 : ℝ) ≤ √2 := Real.one_le_sqrt.2 (by norm_num)
    rw [normalizeEps, this, max_eq_left (by linarith)]
    ext j; fin_cases j <;> simp
  show Heliostat.desiredNormal ![sin 0, 0, -cos 0, 0] ![0, -100, 0, 1] ((plain (-4) 4).forward (m i)) = _
  unfold Heliostat.desiredNormal
  simp only [o, sin_zero, cos_zero, Matrix.cons_val, sub_zero, r, neg_neg, neg_zero, zero_add, add_zero, d]

theorem day_steady (j : Nat) (i : Fin 1) : Steady (day.heliostat i) ((day.task 0).desired (iterate (day.task 0) j) i) := by
  rw [day_desired]
  exact plain_steady _ (by simp)

theorem day_motors (j : Nat) (i : Fin 1) : iterate (day.task 0) (j + 1) i = (-(π / 4), 0) := by
  rw [iterate_succ]
  have w : wanted ((day.task 0).heliostat i) ((day.task 0).incident i) ((day.task 0).aim i) (iterate (day.task 0) j i) = ![0, -(√2)⁻¹, (√2)⁻¹, 0] := day_desired (iterate (day.task 0) j) i
  rw [w]
  have p1 := pi_gt_three
  have p2 := pi_lt_four
  have w0 : Heliostat.wrap 0 = 0 := by
    have := atan2_self 0 (by linarith) (by linarith)
    exact this
  have s1 : (plain (-4) 4).motors ((plain (-4) 4).jointAngles (1 / 10 ^ 8) ![0, -(√2)⁻¹, (√2)⁻¹, 0]).1 = (-(π / 4), 0) := by
    have a := atan2_self (-(π / 4)) (by linarith) (by linarith)
    have e : √2 / 2 = (√2)⁻¹ := by
      have h2 : √2 * √2 = 2 := Real.mul_self_sqrt (by norm_num)
      have : √2 ≠ 0 := by positivity
      field_simp; nlinarith
    rw [sin_neg, cos_neg, sin_pi_div_four, cos_pi_div_four, e] at a
    rw [plain_angles]
    simp only [Matrix.cons_val_zero, clamp_zero, arcsin_zero, cos_zero, w0]
    simp [Heliostat.motors, plain, Ideal.actuator, Ideal.toMotor, a]
  have i1 : (plain (-4) 4).InLimits (-(π / 4), 0) := by
    refine ⟨⟨?_, ?_⟩, ?_, ?_⟩ <;> simp [plain, Ideal.actuator] <;> linarith
  show ((plain (-4) 4).inverse _ _).1 = _
  rw [(C25_limits _ _ _).1 (by rw [s1]; exact i1), s1]

theorem day_loss (j : Nat) (i : Fin 1) : (day.task 0).losses (iterate (day.task 0) j) i = if j = 0 then 1 / 4 else 0 := by
  have e : √2 / 2 = (√2)⁻¹ := by
    have h2 : √2 * √2 = 2 := Real.mul_self_sqrt (by norm_num)
    have : √2 ≠ 0 := by positivity
    field_simp; nlinarith
  have o : ∀ m, (day.task 0).orientations m i = rotE (m i).1 * rotU (m i).2 := fun m => plain_forward (m i)
  unfold Task.losses
  rw [day_desired, o]
  cases j with
  | zero =>
    have h1 : (1 : ℝ) ≤ √2 := Real.one_le_sqrt.2 (by norm_num)
    have h2 : (√2)⁻¹ ≤ 1 := inv_le_one_of_one_le₀ h1
    have h3 : 0 ≤ (√2)⁻¹ := by positivity
    simp [iterate, Heliostat.loss, rotE, rotU, south, mulVec, dotProduct, Fin.sum_univ_four, mul_apply]
    rw [abs_of_nonneg (by linarith : 0 ≤ -(√2)⁻¹ + 1), abs_of_nonneg (by linarith : 0 ≤ √2)]
    ring
  | succ j =>
    rw [day_motors]
    simp [Heliostat.loss, rotE, rotU, south, mulVec, dotProduct, Fin.sum_univ_four, mul_apply, e]

/-- in this scene the heliostat follows the sun, in as many iterations as one likes -/
example (n : Nat) (hn : 0 < n) (o : ℝ → Fin 1 → Mat) (m : ℝ → Fin 1 → ℝ × ℝ) (h : ∀ x, (day.task x).align n (1 / 10 ^ 4) = .ok (o x, m x)) (i : Fin 1) :
    (∀ a b, ContinuousAt (fun x => o x i a b) 0) ∧ ContinuousAt (fun x => m x i) 0 := by
  refine C111_align_partial day n hn (1 / 10 ^ 4) 0 (fun _ => ⟨(C111_ideal _).1, (C111_ideal _).1⟩) ?_ (fun _ _ => continuousAt_const) (fun j _ i => day_steady j i) ?_ o m h i
  · intro i c
    fin_cases c
    · exact continuous_sin.continuousAt
    · exact continuousAt_const
    · exact continuous_cos.neg.continuousAt
    · exact continuousAt_const
  · intro j _
    rcases j with - | j
    · refine Or.inr ⟨0, ?_⟩
      rw [day_loss, day_loss]; norm_num
    · refine Or.inl fun i => ?_
      rw [day_loss, day_loss]; norm_num

example : length3 (![0, cos (1 / 1000), sin (1 / 1000), 0] - ![0, 1, 0, 0]) ≤ 1 / 1000 := (C111_half_turn (1 / 1000) (by norm_num) (by norm_num)).1

end Artist.Tracking
