import Verif.Spec.RoundedActuator
import Verif.Spec.Rounded
import Verif.Proofs.Pointing
/-! Helper lemmas for C132. -/
namespace Artist.RoundedActuator
open Artist Actuators Rounded Pointing
noncomputable section
variable {rnd fsoft facos : ℝ → ℝ} {u η ε L : ℝ} {M : Nat} {a : Linear} {m : ℝ}

/-- rounding of a number of known size -/
theorem rle (A : Arithmetic rnd u η M) (hε : ε = u + 10 ^ 6 * η) {x K : ℝ} (hx : |x| ≤ K) (hK : 1 / 10 ^ 6 ≤ K) : |rnd x - x| ≤ ε * K := by
  have h1 := A.close x
  have h2 := mul_le_mul_of_nonneg_left hx A.u_nonneg
  have h3 := mul_le_mul_of_nonneg_left hK A.η_nonneg
  rw [hε]
  linarith

/-- one more operation -/
theorem step (A : Arithmetic rnd u η M) (hε : ε = u + 10 ^ 6 * η) (h0 : 0 ≤ ε) {x y K p b : ℝ} (hK : 1 / 10 ^ 6 ≤ K) (hb : 1 ≤ b) (hx : |x| ≤ b * K) (h : |y - x| ≤ p * ε * K) (hp : p * ε ≤ 1 / 100) :
    |rnd y - x| ≤ (p + b + 1 / 100) * ε * K := by
  have K0 : 0 ≤ K := by linarith [show (0 : ℝ) ≤ 1 / 10 ^ 6 by norm_num]
  have h1 : |y| ≤ (b + 1 / 100) * K := by
    have e1 := abs_sub_abs_le_abs_sub y x
    have e2 := mul_le_mul_of_nonneg_right hp K0
    linarith
  have h2 := rle A hε h1 (by nlinarith)
  have h3 := abs_sub_le (rnd y) y x
  linarith

theorem softplus_nonneg (x : ℝ) : 0 ≤ softplus 100 x := by
  unfold softplus
  split
  · linarith
  · exact div_nonneg (Real.log_nonneg (by linarith [Real.exp_pos (100 * x)])) (by norm_num)

theorem physical_close (A : Arithmetic rnd u η M) (hε : ε = u + 10 ^ 6 * η) (h0 : 0 ≤ ε) (h1 : ε ≤ 1 / 10000) (B : Library ε fsoft facos) (x : ℝ) :
    |physical rnd fsoft x - Linear.physical x| ≤ 4 * ε * Linear.physical x := by
  have s0 := softplus_nonneg x
  have k1 := B.softplus x
  have k2 : |rnd eps - eps| ≤ ε * eps := rle A hε (by rw [abs_of_nonneg]; unfold eps; norm_num) (by unfold eps; norm_num)
  have p0 : 1 / 10 ^ 6 ≤ Linear.physical x := by unfold Linear.physical eps; linarith
  have e0 : 0 ≤ eps := by unfold eps; norm_num
  have p1 : Linear.physical x = softplus 100 x + eps := rfl
  have k3 : |fsoft x + rnd eps - Linear.physical x| ≤ 2 * ε * Linear.physical x := by
    rw [p1, add_sub_add_comm]
    refine (abs_add_le _ _).trans ?_
    have := mul_nonneg h0 e0
    linarith
  have k4 := step A hε h0 (b := 1) (p := 2) p0 le_rfl (by rw [abs_of_nonneg (by linarith [show (0 : ℝ) ≤ 1 / 10 ^ 6 by norm_num])]; linarith) k3 (by linarith)
  refine k4.trans ?_
  have := mul_nonneg h0 (show 0 ≤ Linear.physical x by linarith [show (0 : ℝ) ≤ 1 / 10 ^ 6 by norm_num])
  linarith

/-- a clamp hardly changes if its three arguments hardly change -/
theorem clamp_near {x y l l' h h' d : ℝ} (hx : |x - y| ≤ d) (hl : |l - l'| ≤ d) (hh : |h - h'| ≤ d) : |clamp x l h - clamp y l' h'| ≤ d := by
  unfold clamp
  exact (abs_min_sub_min_le_max _ _ _ _).trans (max_le ((abs_max_sub_max_le_max _ _ _ _).trans (max_le hx hl)) hh)

theorem eps_le (x : ℝ) : eps ≤ Linear.physical x := by
  unfold Linear.physical
  linarith [softplus_nonneg x]

theorem Sized.facts (S : Sized ε L a m) (h0 : 0 ≤ ε) : ε ≤ 1 / 10000 ∧ 0 < a.offset ∧ 0 < a.pivotRadius ∧ 0 < a.initialStroke ∧ 0 < a.increment ∧ 0 < L := by
  have e : 0 < eps := by unfold eps; norm_num
  have l : 0 < L := lt_of_lt_of_le (by norm_num) S.size
  have ho : 0 < a.offset := e.trans_le (eps_le _)
  have hr : 0 < a.pivotRadius := e.trans_le (eps_le _)
  refine ⟨?_, ho, hr, e.trans_le (eps_le _), e.trans_le (eps_le _), l⟩
  have h1 : a.offset * a.pivotRadius ≤ L * L := mul_le_mul S.offset S.pivot hr.le l.le
  have h2 := S.small
  have h3 : (20000 * ε - 2) * L ^ 2 ≤ 0 := by nlinarith
  have h4 : 20000 * ε - 2 ≤ 0 := by
    by_contra hc
    push Not at hc
    have := mul_pos hc (pow_pos l 2)
    linarith
  linarith

theorem stroke_close (A : Arithmetic rnd u η M) (hε : ε = u + 10 ^ 6 * η) (h0 : 0 ≤ ε) (B : Library ε fsoft facos) (S : Sized ε L a m) :
    |stroke rnd fsoft a m - a.clampStroke (m / a.increment + a.initialStroke)| ≤ 13 * ε * L := by
  obtain ⟨h1, ho, hr, hs, hi, hL⟩ := S.facts h0
  have ε0 : 0 ≤ ε * L := mul_nonneg h0 hL.le
  have LK : 1 / 10 ^ 6 ≤ L := by linarith [S.size, show (1 : ℝ) / 10 ^ 6 ≤ 1 / 1000 by norm_num]
  have pc := physical_close A hε h0 h1 B
  have grow : ∀ x, Linear.physical x ≤ L → |physical rnd fsoft x - Linear.physical x| ≤ 4 * ε * L := fun x hx =>
    (pc x).trans (mul_le_mul_of_nonneg_left hx (by linarith))
  have co := grow _ S.offset
  have cr := grow _ S.pivot
  have cs := grow _ S.initial
  have ci := pc a.rawIncrement
  have e' : |rnd eps - eps| ≤ 1 / 100 * ε * L := by
    refine (rle A hε (by rw [abs_of_nonneg]; unfold eps; norm_num) (by unfold eps; norm_num)).trans ?_
    have : eps ≤ 1 / 100 * L := by unfold eps; linarith [S.size]
    have := mul_le_mul_of_nonneg_left this h0
    linarith
  have eL : eps ≤ L / 1000 := by unfold eps; linarith [S.size]
  have e0 : 0 < eps := by unfold eps; norm_num
  unfold stroke Linear.clampStroke
  simp only
  change |physical rnd fsoft a.rawOffset - a.offset| ≤ _ at co
  change |physical rnd fsoft a.rawPivotRadius - a.pivotRadius| ≤ _ at cr
  change |physical rnd fsoft a.rawInitialStroke - a.initialStroke| ≤ _ at cs
  change |physical rnd fsoft a.rawIncrement - a.increment| ≤ 4 * ε * a.increment at ci
  have oe : eps ≤ a.offset := eps_le _
  have re : eps ≤ a.pivotRadius := eps_le _
  generalize physical rnd fsoft a.rawOffset = o' at *
  generalize physical rnd fsoft a.rawPivotRadius = r' at *
  generalize physical rnd fsoft a.rawInitialStroke = s' at *
  generalize physical rnd fsoft a.rawIncrement = i' at *
  obtain ⟨hS, hO, hR, hI, hM, -⟩ := S
  generalize a.offset = o at *
  generalize a.pivotRadius = r at *
  generalize a.initialStroke = s at *
  generalize a.increment = i at *
  refine clamp_near ?_ ?_ ?_
  · have i1 : 9 / 10 * i ≤ i' := by
      have := (abs_le.1 ci).1
      nlinarith
    have i0 : 0 < i' := by linarith
    have q : |m / i' - m / i| ≤ 5 * ε * L := by
      have e : m / i' - m / i = m / i * ((i - i') / i') := by field_simp
      rw [e, abs_mul]
      have : |(i - i') / i'| ≤ 5 * ε := by
        rw [abs_div, abs_of_pos i0, div_le_iff₀ i0, abs_sub_comm]
        have := mul_le_mul_of_nonneg_left i1 h0
        have := mul_nonneg h0 hi.le
        linarith
      have := mul_le_mul hM this (abs_nonneg _) hL.le
      linarith
    have q1 := step A hε h0 LK le_rfl (by linarith : |m / i| ≤ 1 * L) q (by linarith)
    have q2 : |rnd (m / i') + s' - (m / i + s)| ≤ (10 + 1 / 100) * ε * L := by
      rw [add_sub_add_comm]
      refine (abs_add_le _ _).trans ?_
      linarith
    have q3 := step A hε h0 (b := 2) LK (by norm_num) (by
      refine (abs_add_le _ _).trans ?_
      rw [abs_of_pos hs]
      linarith) q2 (by linarith)
    linarith
  · have q : |o' - r' - (o - r)| ≤ 8 * ε * L := by
      rw [sub_sub_sub_comm]
      refine (abs_sub _ _).trans ?_
      linarith
    have q1 := step A hε h0 (b := 1) LK le_rfl (abs_le.2 ⟨by linarith, by linarith⟩) q (by linarith)
    have q2 : |(|rnd (o' - r')| + rnd eps) - (|o - r| + eps)| ≤ (9 + 2 / 100) * ε * L := by
      rw [add_sub_add_comm]
      refine (abs_add_le _ _).trans ?_
      have := abs_abs_sub_abs_le (rnd (o' - r')) (o - r)
      linarith
    have q3 := step A hε h0 (b := 2) LK (by norm_num) (by
      rw [abs_of_nonneg (add_nonneg (abs_nonneg _) e0.le)]
      have : |o - r| ≤ L := abs_le.2 ⟨by linarith, by linarith⟩
      linarith) q2 (by linarith)
    linarith
  · have q : |o' + r' - (o + r)| ≤ 8 * ε * L := by
      rw [add_sub_add_comm]
      refine (abs_add_le _ _).trans ?_
      linarith
    have q1 := step A hε h0 (b := 2) LK (by norm_num) (abs_le.2 ⟨by linarith, by linarith⟩) q (by linarith)
    have q2 : |rnd (o' + r') - rnd eps - (o + r - eps)| ≤ (10 + 2 / 100) * ε * L := by
      rw [sub_sub_sub_comm]
      refine (abs_sub _ _).trans ?_
      linarith
    have q3 := step A hε h0 (b := 2) LK (by norm_num) (abs_le.2 ⟨by linarith, by linarith⟩) q2 (by linarith)
    linarith

theorem sq_close {x y d b : ℝ} (h : |y - x| ≤ d) (hx : |x| ≤ b) : |y ^ 2 - x ^ 2| ≤ d * (2 * b + d) := by
  have e : y ^ 2 - x ^ 2 = (y - x) * (2 * x + (y - x)) := by ring
  rw [e, abs_mul]
  refine mul_le_mul h ?_ (abs_nonneg _) ((abs_nonneg _).trans h)
  refine (abs_add_le _ _).trans ?_
  rw [abs_mul, abs_two]
  linarith

/-- the stroke is one side of a triangle -/
theorem triangle (a : Linear) (x : ℝ) : |a.offset ^ 2 + a.pivotRadius ^ 2 - a.clampStroke x ^ 2| ≤ 2 * a.offset * a.pivotRadius := by
  have e0 : 0 < eps := by unfold eps; norm_num
  have ho : eps ≤ a.offset := eps_le _
  have hr : eps ≤ a.pivotRadius := eps_le _
  obtain ⟨l, h⟩ := stroke_range a x
  have lo : |a.offset - a.pivotRadius| ≤ a.clampStroke x := by
    unfold Linear.clampStroke clamp
    refine le_min (le_max_of_le_right (by linarith)) ?_
    refine abs_le.2 ⟨by linarith, by linarith⟩
  have s1 : (a.offset - a.pivotRadius) ^ 2 ≤ a.clampStroke x ^ 2 := by
    rw [← sq_abs]
    exact pow_le_pow_left₀ (abs_nonneg _) lo 2
  have s2 := pow_le_pow_left₀ l h 2
  exact abs_le.2 ⟨by nlinarith, by nlinarith⟩

theorem numerator_close (A : Arithmetic rnd u η M) (hε : ε = u + 10 ^ 6 * η) (h0 : 0 ≤ ε) (h1 : ε ≤ 1 / 10000) (hL : 1 / 1000 ≤ L) {o r s o' r' s' : ℝ} (ho : 0 < o) (hr : 0 < r) (hs : 0 ≤ s) (hO : o ≤ L)
    (hR : r ≤ L) (hS : s ≤ 2 * L) (co : |o' - o| ≤ 4 * ε * L) (cr : |r' - r| ≤ 4 * ε * L) (cs : |s' - s| ≤ 13 * ε * L) (tri : |o ^ 2 + r ^ 2 - s ^ 2| ≤ 2 * o * r) :
    |rnd (rnd (rnd (o' ^ 2) + rnd (r' ^ 2)) - rnd (s' ^ 2)) - (o ^ 2 + r ^ 2 - s ^ 2)| ≤ 79 * ε * L ^ 2 := by
  have L0 : 0 ≤ L := by linarith
  have ε0 : 0 ≤ ε * L ^ 2 := by positivity
  have LK : 1 / 10 ^ 6 ≤ L ^ 2 := by
    have := pow_le_pow_left₀ (by norm_num) hL 2
    norm_num at this ⊢
    exact this
  have εε : ε * (ε * L ^ 2) ≤ 1 / 10000 * (ε * L ^ 2) := mul_le_mul_of_nonneg_right h1 ε0
  have sq : ∀ x x', 0 < x → x ≤ L → |x' - x| ≤ 4 * ε * L → |rnd (x' ^ 2) - x ^ 2| ≤ (9 + 1 / 10) * ε * L ^ 2 := by
    intro x x' hx hxL h
    have q := sq_close h (b := L) (by rw [abs_of_pos hx]; exact hxL)
    have q1 : |x' ^ 2 - x ^ 2| ≤ (8 + 1 / 100) * ε * L ^ 2 := by
      refine q.trans ?_
      have : 4 * ε * L * (2 * L + 4 * ε * L) = 8 * (ε * L ^ 2) + 16 * (ε * (ε * L ^ 2)) := by ring
      rw [this]
      linarith
    have q2 := step A hε h0 (b := 1) LK le_rfl (by
      rw [abs_of_nonneg (sq_nonneg _), one_mul]
      exact pow_le_pow_left₀ hx.le hxL 2) q1 (by linarith)
    linarith
  have k1 := sq o o' ho hO co
  have k2 := sq r r' hr hR cr
  have k3 : |rnd (o' ^ 2) + rnd (r' ^ 2) - (o ^ 2 + r ^ 2)| ≤ (18 + 2 / 10) * ε * L ^ 2 := by
    rw [add_sub_add_comm]
    refine (abs_add_le _ _).trans ?_
    linarith
  have o2 := pow_le_pow_left₀ ho.le hO 2
  have r2 := pow_le_pow_left₀ hr.le hR 2
  have k4 := step A hε h0 (b := 2) LK (by norm_num) (by rw [abs_of_nonneg (by positivity)]; linarith) k3 (by linarith)
  have k5 : |rnd (s' ^ 2) - s ^ 2| ≤ (56 + 1 / 10) * ε * L ^ 2 := by
    have q := sq_close cs (b := 2 * L) (by rw [abs_of_nonneg hs]; exact hS)
    have q1 : |s' ^ 2 - s ^ 2| ≤ (52 + 2 / 100) * ε * L ^ 2 := by
      refine q.trans ?_
      have : 13 * ε * L * (2 * (2 * L) + 13 * ε * L) = 52 * (ε * L ^ 2) + 169 * (ε * (ε * L ^ 2)) := by ring
      rw [this]
      linarith
    have q2 := step A hε h0 (b := 4) LK (by norm_num) (by
      rw [abs_of_nonneg (sq_nonneg _)]
      have := pow_le_pow_left₀ hs hS 2
      linarith) q1 (by linarith)
    linarith
  have k6 : |rnd (rnd (o' ^ 2) + rnd (r' ^ 2)) - rnd (s' ^ 2) - (o ^ 2 + r ^ 2 - s ^ 2)| ≤ (76 + 4 / 10) * ε * L ^ 2 := by
    rw [sub_sub_sub_comm]
    refine (abs_sub _ _).trans ?_
    linarith
  have k7 := step A hε h0 (b := 2) LK (by norm_num) (tri.trans (by nlinarith)) k6 (by linarith)
  linarith

theorem denominator_close (A : Arithmetic rnd u η M) (hε : ε = u + 10 ^ 6 * η) (h0 : 0 ≤ ε) (h1 : ε ≤ 1 / 10000) (hL : 1 / 1000 ≤ L) {o r o' r' : ℝ} (ho : 0 < o) (hr : 0 < r) (hO : o ≤ L)
    (hR : r ≤ L) (co : |o' - o| ≤ 4 * ε * L) (cr : |r' - r| ≤ 4 * ε * L) :
    |rnd (rnd (2 * o') * r') - 2 * o * r| ≤ 21 * ε * L ^ 2 := by
  have L0 : 0 ≤ L := by linarith
  have ε0 : 0 ≤ ε * L ^ 2 := by positivity
  have ε1 : 0 ≤ ε * L := by positivity
  have LK : 1 / 10 ^ 6 ≤ L := by linarith [show (1 : ℝ) / 10 ^ 6 ≤ 1 / 1000 by norm_num]
  have LK2 : 1 / 10 ^ 6 ≤ L ^ 2 := by
    have := pow_le_pow_left₀ (by norm_num) hL 2
    norm_num at this ⊢
    exact this
  have k1 : |2 * o' - 2 * o| ≤ 8 * ε * L := by
    rw [← mul_sub, abs_mul, abs_two]
    linarith
  have k2 := step A hε h0 (b := 2) LK (by norm_num) (by rw [abs_of_pos (by linarith)]; linarith) k1 (by linarith)
  generalize rnd (2 * o') = d at *
  have r1 : |r'| ≤ 101 / 100 * L := by
    have e1 := abs_sub_abs_le_abs_sub r' r
    rw [abs_of_pos hr] at e1
    have := mul_le_mul_of_nonneg_right h1 L0
    linarith
  have k3 : |d * r' - 2 * o * r| ≤ (18 + 2 / 10) * ε * L ^ 2 := by
    have e : d * r' - 2 * o * r = (d - 2 * o) * r' + 2 * o * (r' - r) := by ring
    rw [e]
    refine (abs_add_le _ _).trans ?_
    rw [abs_mul, abs_mul, abs_of_pos (show 0 < 2 * o by linarith)]
    have m1 := mul_le_mul k2 r1 (abs_nonneg _) (by positivity)
    have m2 := mul_le_mul (show 2 * o ≤ 2 * L by linarith) cr (abs_nonneg _) (by positivity)
    nlinarith
  have k4 := step A hε h0 (b := 2) LK2 (by norm_num) (by rw [abs_of_pos (by positivity)]; nlinarith) k3 (by linarith)
  linarith

theorem cosine_close (A : Arithmetic rnd u η M) (hε : ε = u + 10 ^ 6 * η) (B : Library ε fsoft facos) (S : Sized ε L a m) :
    |cosine rnd fsoft a m - Real.cos (a.absoluteAngle m)| ≤ 104 * loss ε L a := by
  have h0 : 0 ≤ ε := by rw [hε]; have := A.u_nonneg; have := A.η_nonneg; positivity
  obtain ⟨h1, ho, hr, hs, hi, hL⟩ := S.facts h0
  have pc := physical_close A hε h0 h1 B
  have grow : ∀ x, Linear.physical x ≤ L → |physical rnd fsoft x - Linear.physical x| ≤ 4 * ε * L := fun x hx =>
    (pc x).trans (mul_le_mul_of_nonneg_left hx (by linarith))
  have co : |physical rnd fsoft a.rawOffset - a.offset| ≤ 4 * ε * L := grow _ S.offset
  have cr : |physical rnd fsoft a.rawPivotRadius - a.pivotRadius| ≤ 4 * ε * L := grow _ S.pivot
  have cs := stroke_close A hε h0 B S
  have tri := triangle a (m / a.increment + a.initialStroke)
  obtain ⟨l, h⟩ := stroke_range a (m / a.increment + a.initialStroke)
  have hcos : Real.cos (a.absoluteAngle m) = clamp ((a.offset ^ 2 + a.pivotRadius ^ 2 - a.clampStroke (m / a.increment + a.initialStroke) ^ 2) / (2 * a.offset * a.pivotRadius)) (-1 + 1 / 10 ^ 6) (1 - 1 / 10 ^ 6) := by
    unfold Linear.absoluteAngle
    refine Real.cos_arccos ?_ ?_
    · unfold clamp
      exact le_min (le_max_of_le_right (by norm_num)) (by norm_num)
    · exact (min_le_right _ _).trans (by norm_num)
  rw [hcos]
  unfold cosine
  simp only
  have N := numerator_close A hε h0 h1 S.size ho hr l S.offset S.pivot (by linarith [S.offset, S.pivot]) co cr cs tri
  have D := denominator_close A hε h0 h1 S.size ho hr S.offset S.pivot co cr
  generalize rnd (rnd (rnd (physical rnd fsoft a.rawOffset ^ 2) + rnd (physical rnd fsoft a.rawPivotRadius ^ 2)) - rnd (stroke rnd fsoft a m ^ 2)) = n' at *
  generalize rnd (rnd (2 * physical rnd fsoft a.rawOffset) * physical rnd fsoft a.rawPivotRadius) = d' at *
  generalize a.offset ^ 2 + a.pivotRadius ^ 2 - a.clampStroke (m / a.increment + a.initialStroke) ^ 2 = n at *
  have d0 : 0 < 2 * a.offset * a.pivotRadius := by positivity
  have sm := S.small
  have le2 : 2 * a.offset * a.pivotRadius ≤ 2 * L ^ 2 := by
    have := mul_le_mul S.offset S.pivot hr.le hL.le
    linarith
  unfold loss
  generalize 2 * a.offset * a.pivotRadius = d at *
  have g0 : 0 ≤ ε * L ^ 2 / d := by positivity
  have gd : ε * L ^ 2 / d * d = ε * L ^ 2 := by field_simp
  have g1 : 20000 * (ε * L ^ 2 / d) ≤ 1 := by
    rw [← mul_div_assoc, div_le_one d0]
    linarith
  have g2 : ε ≤ 2 * (ε * L ^ 2 / d) := by
    rw [← mul_div_assoc, le_div_iff₀ d0]
    have := mul_le_mul_of_nonneg_left le2 h0
    linarith
  generalize ε * L ^ 2 / d = g at *
  have d1 : 99 / 100 * d ≤ d' := by
    have := (abs_le.1 D).1
    nlinarith
  have d2 : 0 < d' := by linarith
  have q : |n' / d' - n / d| ≤ (101 + 2 / 10) * g := by
    have e : n' / d' - n / d = ((n' - n) + n / d * (d - d')) / d' := by
      field_simp
      ring
    have nd : |n / d| ≤ 1 := by
      rw [abs_div, abs_of_pos d0, div_le_one d0]
      exact tri
    rw [e, abs_div, abs_of_pos d2, div_le_iff₀ d2]
    have b : |n' - n + n / d * (d - d')| ≤ 100 * (ε * L ^ 2) := by
      refine (abs_add_le _ _).trans ?_
      rw [abs_mul, abs_sub_comm d]
      have := mul_le_mul nd D (abs_nonneg _) zero_le_one
      linarith
    refine b.trans ?_
    rw [← gd]
    have := mul_le_mul_of_nonneg_left d1 g0
    have := mul_nonneg g0 d0.le
    linarith
  have nd : |n / d| ≤ 1 := by
    rw [abs_div, abs_of_pos d0, div_le_one d0]
    exact tri
  have size : |n' / d'| ≤ 102 / 100 := by
    have := abs_sub_abs_le_abs_sub (n' / d') (n / d)
    linarith
  have q1 := rle A hε size (by norm_num)
  refine clamp_near ?_ ?_ ?_
  · have := abs_sub_le (rnd (n' / d')) (n' / d') (n / d)
    linarith
  · have := rle A hε (x := -1 + 1 / 10 ^ 6) (K := 1) (by norm_num [abs_of_neg, abs_le]) (by norm_num)
    linarith
  · have := rle A hε (x := 1 - 1 / 10 ^ 6) (K := 1) (by norm_num [abs_of_pos]) (by norm_num)
    linarith

theorem cosine_range (A : Arithmetic rnd u η M) (hM : 1 ≤ M) : -1 ≤ cosine rnd fsoft a m ∧ cosine rnd fsoft a m ≤ 1 := by
  have r1 : rnd 1 = 1 := by simpa using A.nat 1 hM
  have r2 : rnd (-1) = -1 := by rw [A.odd, r1]
  have hi : rnd (1 - 1 / 10 ^ 6) ≤ rnd 1 := A.mono (by norm_num)
  have lo : rnd (-1) ≤ rnd (-1 + 1 / 10 ^ 6) := A.mono (by norm_num)
  have lo2 : rnd (-1) ≤ rnd (1 - 1 / 10 ^ 6) := A.mono (by norm_num)
  rw [r1] at hi
  rw [r2] at lo lo2
  unfold cosine clamp
  exact ⟨le_min (le_max_of_le_right lo) lo2, (min_le_right _ _).trans hi⟩

/-- without any margin, angles are still determined by the root of the difference of their cosines -/
theorem angle_of_cos_any {x y : ℝ} (hx : 0 ≤ x) (hy : y ≤ Real.pi) (h : x ≤ y) : 2 * ((y - x) / Real.pi) ^ 2 ≤ Real.cos x - Real.cos y := by
  have p := Real.pi_pos
  have hdiff : Real.cos x - Real.cos y = 2 * (Real.sin ((x + y) / 2) * Real.sin ((y - x) / 2)) := by
    have e1 : Real.cos x = Real.cos ((x + y) / 2) * Real.cos ((y - x) / 2) + Real.sin ((x + y) / 2) * Real.sin ((y - x) / 2) := by rw [← Real.cos_sub]; congr 1; ring
    have e2 : Real.cos y = Real.cos ((x + y) / 2) * Real.cos ((y - x) / 2) - Real.sin ((x + y) / 2) * Real.sin ((y - x) / 2) := by rw [← Real.cos_add]; congr 1; ring
    rw [e1, e2]; ring
  have s1 : (y - x) / Real.pi ≤ Real.sin ((y - x) / 2) := by
    have := Real.mul_le_sin (x := (y - x) / 2) (by linarith) (by linarith)
    refine le_trans (le_of_eq ?_) this
    field_simp
  have s2 : Real.sin ((y - x) / 2) ≤ Real.sin ((x + y) / 2) := by
    rcases le_total ((x + y) / 2) (Real.pi / 2) with hh | hh
    · exact Real.sin_le_sin_of_le_of_le_pi_div_two (by linarith) hh (by linarith)
    · rw [← Real.sin_pi_sub ((x + y) / 2)]
      exact Real.sin_le_sin_of_le_of_le_pi_div_two (by linarith) (by linarith) (by linarith)
  have z : 0 ≤ (y - x) / Real.pi := div_nonneg (by linarith) p.le
  rw [hdiff, sq]
  have := mul_le_mul (s1.trans s2) s1 z (z.trans (s1.trans s2))
  linarith

end
end Artist.RoundedActuator
