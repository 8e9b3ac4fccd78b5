import Verif.Proofs.RoundedLanding
import Verif.Props.Rounded
import Verif.Props.Splat
import Mathlib.Tactic.GCongr
/-! C126: where rays land in floating point arithmetic. -/
namespace Artist.RoundedLanding
open Artist Intersect Rounded

section
variable {rnd : ℝ → ℝ} {u η : ℝ} {M : Nat}

/-- the dot product of directions is moderate -/
theorem dot_le {dir : V3 ℝ} {n : V3 ℝ} (hd : Within (11 / 10) dir) (hn : Within (11 / 10) n) : |V3.dot dir n| ≤ 363 / 100 := by
  have one : ∀ a b : ℝ, |a| ≤ 11 / 10 → |b| ≤ 11 / 10 → |a * b| ≤ 121 / 100 := by
    intro a b ha hb
    rw [abs_mul]
    calc |a| * |b| ≤ 11 / 10 * (11 / 10) := mul_le_mul ha hb (abs_nonneg _) (by norm_num)
      _ = _ := by norm_num
  have e : V3.dot dir n = dir.e * n.e + dir.n * n.n + dir.u * n.u := rfl
  rw [e]
  have := one _ _ hd.1 hn.1
  have := one _ _ hd.2.1 hn.2.1
  have := one _ _ hd.2.2 hn.2.2
  refine (abs_add_le _ _).trans ?_
  have := abs_add_le (dir.e * n.e) (dir.n * n.n)
  linarith

/-- C126: a ray that truly lands on the target, not too close to its edges, also lands there in floating point arithmetic.  The column, the row, the travelled distance and the
intensity are the true ones up to explicit small errors. -/
theorem C126_lands (A : Arithmetic rnd u η M) (o₁ o₂ : Order) (W H : Nat) (hW : 2 ≤ W) (hH : 2 ≤ H) (R κ t : ℝ) (origin dir : V3 ℝ) (p : Plane ℝ)
    (m : Meeting (u + η) R κ origin dir p t) (on : Lands (u + η) R κ W H origin dir p t) (mag : ℝ) (hmag : 0 ≤ mag ∧ mag ≤ 1) :
    |(linePlane rnd o₁ o₂ W H origin dir mag p).e - ((W : ℝ) - 1 - column W origin dir p t)| ≤ shift (u + η) R κ p.width W ∧
    |(linePlane rnd o₁ o₂ W H origin dir mag p).u - row H origin dir p t| ≤ shift (u + η) R κ p.height H ∧
    |(linePlane rnd o₁ o₂ W H origin dir mag p).distance - t| ≤ 56 * ((u + η) * (R / κ)) ∧
    |(linePlane rnd o₁ o₂ W H origin dir mag p).intensity - mag * -V3.dot dir p.normal| ≤ 22 * (u + η) := by
  have hu := A.u_nonneg
  have hη := A.η_nonneg
  have hc := column_near hu hη A.close m o₁ o₂ hW
  have hr := row_near hu hη A.close m o₁ o₂ hH
  have hd := distance_near hu hη A.close m o₁ o₂
  have ha := angle_near hu hη A.close (m.small.trans m.cosine.2.1) m.dir_within m.normal_within o₁
  obtain ⟨neg, _⟩ := angle_neg hu hη A.close m o₁
  have dl := dot_le m.dir_within m.normal_within
  have hs : 1000 * (u + η) ≤ 1 := m.small.trans m.cosine.2.1
  obtain ⟨⟨c1, c2⟩, r1, r2⟩ := on
  have W1 : (1 : ℝ) ≤ (W : ℝ) - 1 := by
    have : (2 : ℝ) ≤ W := by exact_mod_cast hW
    linarith
  have H1 : (1 : ℝ) ≤ (H : ℝ) - 1 := by
    have : (2 : ℝ) ≤ H := by exact_mod_cast hH
    linarith
  have eW : 0 ≤ 2 * (u + η) * ((W : ℝ) - 1) := mul_nonneg (by linarith) (by linarith)
  have eH : 0 ≤ 2 * (u + η) * ((H : ℝ) - 1) := mul_nonneg (by linarith) (by linarith)
  simp only [linePlane]
  generalize distance rnd o₁ o₂ origin dir p = s at *
  generalize bitmap rnd s origin.e dir.e p.center.e p.width ((W : ℝ) - 1) = be at *
  generalize bitmap rnd s origin.u dir.u p.center.u p.height ((H : ℝ) - 1) = bu at *
  generalize column W origin dir p t = col at *
  generalize row H origin dir p t = ro at *
  have hc' := abs_le.1 (by linarith : |be - col| ≤ shift (u + η) R κ p.width W)
  have hr' := abs_le.1 (by linarith : |bu - ro| ≤ shift (u + η) R κ p.height H)
  have v : (decide (0 ≤ be) && decide (be ≤ (W : ℝ) - 1) && decide (0 ≤ bu) && decide (bu ≤ (H : ℝ) - 1) && decide (angle rnd o₁ dir p < 0)) = true := by
    simp only [Bool.and_eq_true, decide_eq_true_eq]
    exact ⟨⟨⟨⟨by linarith [hc'.1], by linarith [hc'.2]⟩, by linarith [hr'.1]⟩, by linarith [hr'.2]⟩, neg⟩
  simp only [v, if_true]
  refine ⟨?_, by linarith, ?_, ?_⟩
  · have k := A.close ((W : ℝ) - 1 - be)
    have b : |(W : ℝ) - 1 - be| ≤ (W : ℝ) - 1 := abs_le.2 ⟨by linarith [hc'.2], by linarith [hc'.1]⟩
    have b' := mul_le_mul_of_nonneg_left b hu
    have h3 : η ≤ η * ((W : ℝ) - 1) := le_mul_of_one_le_right hη W1
    refine (abs_sub_le _ ((W : ℝ) - 1 - be) _).trans ?_
    rw [show (W : ℝ) - 1 - be - (W - 1 - col) = -(be - col) by ring, abs_neg]
    linarith
  · refine hd.trans (le_of_eq ?_)
    ring
  · generalize angle rnd o₁ dir p = a at *
    generalize V3.dot dir p.normal = a' at *
    have k := A.close (mag * -a)
    have q1 : |mag * -a - mag * -a'| ≤ 17 * (u + η) := by
      rw [← mul_sub, abs_mul, abs_of_nonneg hmag.1, show -a - -a' = -(a - a') by ring, abs_neg]
      exact (mul_le_of_le_one_left (abs_nonneg _) hmag.2).trans ha
    have q2 : |mag * -a| ≤ 4 := by
      rw [abs_mul, abs_of_nonneg hmag.1, abs_neg]
      have : |a| ≤ 4 := (near_abs hu hη A.close ha dl).trans (by linarith)
      exact (mul_le_of_le_one_left (abs_nonneg _) hmag.2).trans this
    have q3 := mul_le_mul_of_nonneg_left q2 hu
    refine (abs_sub_le _ (mag * -a) _).trans ?_
    linarith

/-- C126: a ray that truly passes beside the target, not too close to its edges, carries nothing in floating point arithmetic either. -/
theorem C126_misses (A : Arithmetic rnd u η M) (o₁ o₂ : Order) (W H : Nat) (hW : 2 ≤ W) (hH : 2 ≤ H) (R κ t : ℝ) (origin dir : V3 ℝ) (p : Plane ℝ)
    (m : Meeting (u + η) R κ origin dir p t) (off : Misses (u + η) R κ W H origin dir p t) (mag : ℝ) :
    (linePlane rnd o₁ o₂ W H origin dir mag p).intensity = 0 := by
  have hu := A.u_nonneg
  have hη := A.η_nonneg
  have hc := column_near hu hη A.close m o₁ o₂ hW
  have hr := row_near hu hη A.close m o₁ o₂ hH
  have W1 : (1 : ℝ) ≤ (W : ℝ) - 1 := by
    have : (2 : ℝ) ≤ W := by exact_mod_cast hW
    linarith
  have H1 : (1 : ℝ) ≤ (H : ℝ) - 1 := by
    have : (2 : ℝ) ≤ H := by exact_mod_cast hH
    linarith
  have eW : 0 ≤ 2 * (u + η) * ((W : ℝ) - 1) := mul_nonneg (by linarith) (by linarith)
  have eH : 0 ≤ 2 * (u + η) * ((H : ℝ) - 1) := mul_nonneg (by linarith) (by linarith)
  simp only [linePlane]
  unfold Misses at off
  generalize distance rnd o₁ o₂ origin dir p = s at *
  generalize bitmap rnd s origin.e dir.e p.center.e p.width ((W : ℝ) - 1) = be at *
  generalize bitmap rnd s origin.u dir.u p.center.u p.height ((H : ℝ) - 1) = bu at *
  generalize column W origin dir p t = col at *
  generalize row H origin dir p t = ro at *
  have hc' := abs_le.1 (by linarith : |be - col| ≤ shift (u + η) R κ p.width W)
  have hr' := abs_le.1 (by linarith : |bu - ro| ≤ shift (u + η) R κ p.height H)
  have v : (decide (0 ≤ be) && decide (be ≤ (W : ℝ) - 1) && decide (0 ≤ bu) && decide (bu ≤ (H : ℝ) - 1) && decide (angle rnd o₁ dir p < 0)) = false := by
    rw [Bool.eq_false_iff]
    intro hv
    simp only [Bool.and_eq_true, decide_eq_true_eq] at hv
    obtain ⟨⟨⟨⟨v1, v2⟩, v3⟩, v4⟩, _⟩ := hv
    rcases off with h | h | h | h <;> linarith [hc'.1, hc'.2, hr'.1, hr'.2]
  simp only [v, Bool.false_eq_true, if_false]

/-- C126: a ray from behind carries nothing in floating point arithmetic either. -/
theorem C126_behind (A : Arithmetic rnd u η M) (o₁ o₂ : Order) (W H : Nat) (origin dir : V3 ℝ) (p : Plane ℝ) (b : Behind (u + η) dir p) (mag : ℝ) :
    (linePlane rnd o₁ o₂ W H origin dir mag p).intensity = 0 := by
  obtain ⟨hs, hd, hn, h⟩ := b
  have ha := abs_le.1 (angle_near A.u_nonneg A.η_nonneg A.close hs hd hn o₁)
  have neg : ¬ angle rnd o₁ dir p < 0 := by linarith [ha.1]
  simp [linePlane, neg]

/-- coordinates and intensities are numbers of the format and not negative -/
theorem landing_float (A : Arithmetic rnd u η M) (o₁ o₂ : Order) (W H : Nat) (hW : 2 ≤ W) (hWM : W ≤ M) (origin dir : V3 ℝ) (p : Plane ℝ) (mag : ℝ) (hmag : 0 ≤ mag) :
    IsFloat rnd (hit (linePlane rnd o₁ o₂ W H origin dir mag p)) := by
  have z : rnd 0 = 0 := by simpa using A.nat 0 (Nat.zero_le _)
  have pos : ∀ x, 0 ≤ x → 0 ≤ rnd x := fun x hx => by have := A.mono hx; rwa [z] at this
  have W1 : (1 : ℝ) ≤ (W : ℝ) - 1 := by
    have : (2 : ℝ) ≤ W := by exact_mod_cast hW
    linarith
  simp only [hit, linePlane]
  cases hv : (decide (0 ≤ bitmap rnd (distance rnd o₁ o₂ origin dir p) origin.e dir.e p.center.e p.width ((W : ℝ) - 1)) &&
      decide (bitmap rnd (distance rnd o₁ o₂ origin dir p) origin.e dir.e p.center.e p.width ((W : ℝ) - 1) ≤ (W : ℝ) - 1) &&
      decide (0 ≤ bitmap rnd (distance rnd o₁ o₂ origin dir p) origin.u dir.u p.center.u p.height ((H : ℝ) - 1)) &&
      decide (bitmap rnd (distance rnd o₁ o₂ origin dir p) origin.u dir.u p.center.u p.height ((H : ℝ) - 1) ≤ (H : ℝ) - 1) && decide (angle rnd o₁ dir p < 0)) with
  | false =>
    simp only [hv, Bool.false_eq_true, if_false]
    exact ⟨⟨A.idem _, z, z⟩, pos _ (by linarith), le_rfl, le_rfl⟩
  | true =>
    simp only [hv, if_true]
    simp only [Bool.and_eq_true, decide_eq_true_eq] at hv
    obtain ⟨⟨⟨⟨v1, v2⟩, v3⟩, v4⟩, v5⟩ := hv
    refine ⟨⟨A.idem _, ?_, A.idem _⟩, pos _ (by linarith), v3, pos _ (mul_nonneg hmag (by linarith))⟩
    unfold bitmap
    exact A.idem _

/-- exact landings -/
theorem exact_lands {ε R κ t : ℝ} {W H : Nat} {origin dir : V3 ℝ} {p : Plane ℝ} (hε : 0 ≤ ε) (hW : 2 ≤ W) (hH : 2 ≤ H) (m : Meeting ε R κ origin dir p t) (on : Lands ε R κ W H origin dir p t) (mag : ℝ) :
    hit (Intersect.linePlane W H origin dir mag p) = ⟨(W : ℝ) - 1 - column W origin dir p t, row H origin dir p t, mag * -V3.dot dir p.normal⟩ := by
  have neg : V3.dot dir p.normal < 0 := by linarith [m.cosine.1, m.cosine.2.2]
  have sE : 0 ≤ shift ε R κ p.width W := by
    have := m.cosine.1; have := m.size; have := m.width.1
    have : (2 : ℝ) ≤ W := by exact_mod_cast hW
    exact mul_nonneg (mul_nonneg (by linarith) (div_nonneg (by linarith) (by linarith))) (div_nonneg (by linarith) (by linarith))
  have sU : 0 ≤ shift ε R κ p.height H := by
    have := m.cosine.1; have := m.size; have := m.height.1
    have : (2 : ℝ) ≤ H := by exact_mod_cast hH
    exact mul_nonneg (mul_nonneg (by linarith) (div_nonneg (by linarith) (by linarith))) (div_nonneg (by linarith) (by linarith))
  obtain ⟨⟨c1, c2⟩, r1, r2⟩ := on
  simp only [hit, Intersect.linePlane, planePoint, exact_meeting m]
  unfold column at c1 c2 ⊢
  unfold row at r1 r2 ⊢
  have v : (decide (0 ≤ ((origin + t • dir).e + p.width / 2 - p.center.e) / p.width * ((W : ℝ) - 1)) && decide (((origin + t • dir).e + p.width / 2 - p.center.e) / p.width * ((W : ℝ) - 1) ≤ (W : ℝ) - 1) &&
      decide (0 ≤ ((origin + t • dir).u + p.height / 2 - p.center.u) / p.height * ((H : ℝ) - 1)) && decide (((origin + t • dir).u + p.height / 2 - p.center.u) / p.height * ((H : ℝ) - 1) ≤ (H : ℝ) - 1) &&
      decide (planeAngle dir p < 0)) = true := by
    simp only [Bool.and_eq_true, decide_eq_true_eq]
    exact ⟨⟨⟨⟨by linarith, by linarith⟩, by linarith⟩, by linarith⟩, neg⟩
  simp only [v, if_true]
  rfl

theorem exact_misses {ε R κ t : ℝ} {W H : Nat} {origin dir : V3 ℝ} {p : Plane ℝ} (hε : 0 ≤ ε) (hW : 2 ≤ W) (hH : 2 ≤ H) (m : Meeting ε R κ origin dir p t) (off : Misses ε R κ W H origin dir p t) (mag : ℝ) :
    (Intersect.linePlane W H origin dir mag p).intensity = 0 := by
  have sE : 0 ≤ shift ε R κ p.width W := by
    have := m.cosine.1; have := m.size; have := m.width.1
    have : (2 : ℝ) ≤ W := by exact_mod_cast hW
    exact mul_nonneg (mul_nonneg (by linarith) (div_nonneg (by linarith) (by linarith))) (div_nonneg (by linarith) (by linarith))
  have sU : 0 ≤ shift ε R κ p.height H := by
    have := m.cosine.1; have := m.size; have := m.height.1
    have : (2 : ℝ) ≤ H := by exact_mod_cast hH
    exact mul_nonneg (mul_nonneg (by linarith) (div_nonneg (by linarith) (by linarith))) (div_nonneg (by linarith) (by linarith))
  unfold Misses column row at off
  simp only [Intersect.linePlane, planePoint, exact_meeting m]
  have v : (decide (0 ≤ ((origin + t • dir).e + p.width / 2 - p.center.e) / p.width * ((W : ℝ) - 1)) && decide (((origin + t • dir).e + p.width / 2 - p.center.e) / p.width * ((W : ℝ) - 1) ≤ (W : ℝ) - 1) &&
      decide (0 ≤ ((origin + t • dir).u + p.height / 2 - p.center.u) / p.height * ((H : ℝ) - 1)) && decide (((origin + t • dir).u + p.height / 2 - p.center.u) / p.height * ((H : ℝ) - 1) ≤ (H : ℝ) - 1) &&
      decide (planeAngle dir p < 0)) = false := by
    rw [Bool.eq_false_iff]
    intro hv
    simp only [Bool.and_eq_true, decide_eq_true_eq] at hv
    obtain ⟨⟨⟨⟨v1, v2⟩, v3⟩, v4⟩, _⟩ := hv
    rcases off with h | h | h | h <;> linarith
  simp only [v, Bool.false_eq_true, if_false]

theorem part_dark (W H r c : Nat) (l : Landing ℝ) (h : l.intensity = 0) : part W H r c (hit l) = 0 := by
  unfold part hit
  rw [h]
  split_ifs <;> simp

/-- what rounding changes in the part of one ray -/
theorem part_shift (A : Arithmetic rnd u η M) (o₁ o₂ : Order) (W H r c : Nat) (hW : 2 ≤ W) (hH : 2 ≤ H) (R κ : ℝ) (origin dir : V3 ℝ) (p : Plane ℝ)
    (hR : 1 ≤ R) (hκ : 0 < κ) (hp : 0 < p.width ∧ 0 < p.height)
    (clear : Clear (u + η) R κ W H origin dir p) (mag : ℝ) (hmag : 0 ≤ mag ∧ mag ≤ 1) :
    |part W H r c (hit (linePlane rnd o₁ o₂ W H origin dir mag p)) - part W H r c (hit (Intersect.linePlane W H origin dir mag p))| ≤
      22 * (u + η) + 4 * (shift (u + η) R κ p.width W + shift (u + η) R κ p.height H) := by
  have hu := A.u_nonneg
  have hη := A.η_nonneg
  have hW' : (2 : ℝ) ≤ W := by exact_mod_cast hW
  have hH' : (2 : ℝ) ≤ H := by exact_mod_cast hH
  have sE : 0 ≤ shift (u + η) R κ p.width W := mul_nonneg (mul_nonneg (by linarith) (div_nonneg (by linarith) (by linarith))) (div_nonneg (by linarith) (by linarith))
  have sU : 0 ≤ shift (u + η) R κ p.height H := mul_nonneg (mul_nonneg (by linarith) (div_nonneg (by linarith) (by linarith))) (div_nonneg (by linarith) (by linarith))
  rcases clear with b | ⟨t, m, on | off⟩
  · rw [part_dark W H r c _ (C126_behind A o₁ o₂ W H origin dir p b mag)]
    have neg : ¬ V3.dot dir p.normal < 0 := by linarith [b.2.2.2]
    rw [part_dark W H r c _ (by simp [Intersect.linePlane, planeAngle, neg])]
    rw [sub_zero, abs_zero]
    linarith
  · obtain ⟨h1, h2, _, h4⟩ := C126_lands A o₁ o₂ W H hW hH R κ t origin dir p m on mag hmag
    rw [exact_lands (by linarith) hW hH m on mag]
    obtain ⟨⟨c1, c2⟩, r1, r2⟩ := on
    have g1 := abs_le.1 h1
    have g2 := abs_le.1 h2
    have dl := abs_le.1 (dot_le m.dir_within m.normal_within)
    have neg : V3.dot dir p.normal < 0 := by linarith [m.cosine.1, m.cosine.2.2]
    refine (part_near W H r c _ _ ⟨⟨?_, ?_⟩, ?_, ?_⟩ ⟨⟨?_, ?_⟩, ?_, ?_⟩ ?_ ?_).trans ?_
    · simp only [hit]; linarith [g1.1]
    · simp only [hit]; linarith [g1.2]
    · simp only [hit]; linarith [g2.1]
    · simp only [hit]; linarith [g2.2]
    · simp only; linarith
    · simp only; linarith
    · simp only; linarith
    · simp only; linarith
    · exact mul_nonneg hmag.1 (by linarith)
    · have := mul_le_of_le_one_left (by linarith : 0 ≤ -V3.dot dir p.normal) hmag.2
      simp only
      linarith [dl.1]
    · simp only [hit]
      linarith
  · rw [part_dark W H r c _ (C126_misses A o₁ o₂ W H hW hH R κ t origin dir p m off mag), part_dark W H r c _ (exact_misses (by linarith) hW hH m off mag)]
    rw [sub_zero, abs_zero]
    linarith

theorem sum_near (l : List (V3 ℝ × V3 ℝ × ℝ)) (f g : V3 ℝ × V3 ℝ × ℝ → ℝ) (d : ℝ) (h : ∀ x ∈ l, |f x - g x| ≤ d) : |(l.map f).sum - (l.map g).sum| ≤ l.length * d := by
  induction l with
  | nil => simp
  | cons a l ih =>
    have h1 := h a (List.mem_cons_self ..)
    have h2 := ih fun x hx => h x (List.mem_cons_of_mem _ hx)
    simp only [List.map_cons, List.sum_cons, List.length_cons]
    rw [show f a + (l.map f).sum - (g a + (l.map g).sum) = (f a - g a) + ((l.map f).sum - (l.map g).sum) by ring]
    refine (abs_add_le _ _).trans ?_
    push_cast
    linarith

theorem pow_bounds {n : Nat} (hu : 0 ≤ u) (hn : 2 * (n * u) ≤ 1) : (1 + u) ^ n ≤ 1 + 2 * (n * u) := by
  induction n with
  | zero => simp
  | succ n ih =>
    push_cast at hn ⊢
    have n0 : 0 ≤ (n : ℝ) * u := by positivity
    have h := ih (by linarith)
    rw [pow_succ]
    have := mul_le_mul_of_nonneg_right h (by linarith : 0 ≤ 1 + u)
    nlinarith

/-- C126: the image in floating point arithmetic.  `rays` are origin, direction and magnitude of the rays, and all are clear of the edges.  Every pixel is that of exact arithmetic up to
what rounding shifts the rays (`D` for every ray) and a relative error of `2 (k + 4) u` for adding up `k` rays. -/
theorem C126_image (A : Arithmetic rnd u η M) (o₁ o₂ : V3 ℝ × V3 ℝ × ℝ → Order) (order : Fin 4 → List (Splat.Hit ℝ) → List (Splat.Hit ℝ)) (W H : Nat) (hW : 2 ≤ W) (hH : 2 ≤ H) (hWM : W ≤ M) (hHM : H ≤ M)
    (R κ : ℝ) (hR : 1 ≤ R) (hκ : 0 < κ) (p : Plane ℝ) (hp : 0 < p.width ∧ 0 < p.height) (rays : List (V3 ℝ × V3 ℝ × ℝ))
    (horder : ∀ i l, (order i l).Perm l)
    (clear : ∀ x ∈ rays, Clear (u + η) R κ W H x.1 x.2.1 p ∧ 0 ≤ x.2.2 ∧ x.2.2 ≤ 1) (few : 2 * (((rays.length + 4 : Nat) : ℝ) * u) ≤ 1) :
    ∃ img exact, Rounded.splat rnd order W H (rays.map fun x => hit (linePlane rnd (o₁ x) (o₂ x) W H x.1 x.2.1 x.2.2 p)) = .ok img ∧
      Splat.splat W H (rays.map fun x => hit (Intersect.linePlane W H x.1 x.2.1 x.2.2 p)) = .ok exact ∧
      ∀ r c, r < H → c < W → ∀ D, D = 22 * (u + η) + 4 * (shift (u + η) R κ p.width W + shift (u + η) R κ p.height H) →
        |Splat.pixel img r c - Splat.pixel exact r c| ≤ rays.length * D + 2 * ((rays.length + 4 : Nat) : ℝ) * u * (Splat.pixel exact r c + rays.length * D) + 33 * rays.length * η := by
  classical
  have hu := A.u_nonneg
  have hη := A.η_nonneg
  have hu1 := A.u_lt_one
  have floats : ∀ h ∈ rays.map fun x => hit (linePlane rnd (o₁ x) (o₂ x) W H x.1 x.2.1 x.2.2 p), IsFloat rnd h := by
    intro h hh
    obtain ⟨x, hx, rfl⟩ := List.mem_map.1 hh
    exact landing_float A _ _ W H hW hWM _ _ p _ (clear x hx).2.1
  obtain ⟨img, i1, _, _, i4⟩ := C103_pixel A order W H (by omega) (by omega) hWM hHM _ (fun i => horder i _) floats
  obtain ⟨exact, e1, _, _, e4⟩ := Splat.C08_pixel W H (by omega) (by omega) (rays.map fun x => hit (Intersect.linePlane W H x.1 x.2.1 x.2.2 p)) (by
    intro h hh
    obtain ⟨x, hx, rfl⟩ := List.mem_map.1 hh
    simp only [hit, Intersect.linePlane]
    have W1 : (2 : ℝ) ≤ W := by exact_mod_cast hW
    split_ifs with hv
    · simp only [Bool.and_eq_true, decide_eq_true_eq] at hv
      obtain ⟨⟨⟨⟨v1, v2⟩, v3⟩, v4⟩, v5⟩ := hv
      exact ⟨by linarith, v3⟩
    · exact ⟨by linarith, le_rfl⟩)
  refine ⟨img, exact, i1, e1, fun r c hr hc D hD => ?_⟩
  obtain ⟨_, lower, upper⟩ := i4 (H - 1 - r) c (by omega) hc
  have ex := e4 (H - 1 - r) c (by omega) hc
  rw [show H - 1 - (H - 1 - r) = r by omega] at lower upper ex
  have ex' : Splat.pixel exact r c = (rays.map fun x => part W H (H - 1 - r) c (hit (Intersect.linePlane W H x.1 x.2.1 x.2.2 p))).sum := by
    rw [ex, List.map_map]
    congr 1
  have near : |(rays.map fun x => part W H (H - 1 - r) c (hit (linePlane rnd (o₁ x) (o₂ x) W H x.1 x.2.1 x.2.2 p))).sum - Splat.pixel exact r c| ≤ rays.length * D := by
    rw [ex']
    refine sum_near rays _ _ D fun x hx => ?_
    rw [hD]
    exact part_shift A _ _ W H _ c hW hH R κ x.1 x.2.1 p hR hκ hp (clear x hx).1 x.2.2 (clear x hx).2
  rw [List.map_map] at lower upper
  set rr := rays.map fun x => hit (linePlane rnd (o₁ x) (o₂ x) W H x.1 x.2.1 x.2.2 p) with hrr
  set k := (reaching W H (H - 1 - r) c rr).length with hk
  have kn : k ≤ rays.length := by
    rw [hk]
    unfold reaching
    refine (List.length_filter_le _ _).trans ?_
    rw [hrr, List.length_map]
  -- intensities are moderate
  have tail0 : 0 ≤ ((reaching W H (H - 1 - r) c rr).map fun h => η * ((1 + u) * h.w + 1)).sum := by
    refine List.sum_nonneg fun x hx => ?_
    obtain ⟨h, hh, rfl⟩ := List.mem_map.1 hx
    have hm := floats h (List.mem_filter.1 hh).1
    exact mul_nonneg hη (by nlinarith [hm.2.2.2])
  have tail : ((reaching W H (H - 1 - r) c rr).map fun h => η * ((1 + u) * h.w + 1)).sum ≤ rays.length * (11 * η) := by
    have w4 : ∀ h ∈ reaching W H (H - 1 - r) c rr, η * ((1 + u) * h.w + 1) ≤ 11 * η := by
      intro h hh
      obtain ⟨hin, hne⟩ := List.mem_filter.1 hh
      obtain ⟨x, hx, rfl⟩ := List.mem_map.1 hin
      have hne' : part W H (H - 1 - r) c (hit (linePlane rnd (o₁ x) (o₂ x) W H x.1 x.2.1 x.2.2 p)) ≠ 0 := by simpa using hne
      obtain ⟨cl, m0, m1⟩ := clear x hx
      have w : (hit (linePlane rnd (o₁ x) (o₂ x) W H x.1 x.2.1 x.2.2 p)).w ≤ 4 := by
        rcases cl with b | ⟨t, m, on | off⟩
        · exact absurd (part_dark W H _ c _ (C126_behind A _ _ W H _ _ p b _)) hne'
        · have := abs_le.1 (C126_lands A (o₁ x) (o₂ x) W H hW hH R κ t _ _ p m on x.2.2 ⟨m0, m1⟩).2.2.2
          have dl := abs_le.1 (dot_le m.dir_within m.normal_within)
          have neg : V3.dot x.2.1 p.normal < 0 := by linarith [m.cosine.1, m.cosine.2.2]
          have q := mul_le_of_le_one_left (by linarith : 0 ≤ -V3.dot x.2.1 p.normal) m1
          have hs : 1000 * (u + η) ≤ 1 := m.small.trans m.cosine.2.1
          simp only [hit]
          linarith [dl.1, this.2]
        · exact absurd (part_dark W H _ c _ (C126_misses A _ _ W H hW hH R κ t _ _ p m off _)) hne'
      have w0 := (floats _ hin).2.2.2
      have : (1 + u) * (hit (linePlane rnd (o₁ x) (o₂ x) W H x.1 x.2.1 x.2.2 p)).w + 1 ≤ 11 := by nlinarith
      have := mul_le_mul_of_nonneg_left this hη
      linarith
    have s := List.sum_le_card_nsmul ((reaching W H (H - 1 - r) c rr).map fun h => η * ((1 + u) * h.w + 1)) (11 * η) (by
      intro x hx
      obtain ⟨h, hh, rfl⟩ := List.mem_map.1 hx
      exact w4 h hh)
    rw [List.length_map, nsmul_eq_mul] at s
    refine s.trans (mul_le_mul_of_nonneg_right ?_ (by linarith))
    exact_mod_cast kn
  generalize ((reaching W H (H - 1 - r) c rr).map fun h => η * ((1 + u) * h.w + 1)).sum = T at *
  have S0 : 0 ≤ (rays.map fun x => part W H (H - 1 - r) c (hit (linePlane rnd (o₁ x) (o₂ x) W H x.1 x.2.1 x.2.2 p))).sum := by
    refine List.sum_nonneg fun y hy => ?_
    obtain ⟨x, hx, rfl⟩ := List.mem_map.1 hy
    have hm := floats _ (List.mem_map_of_mem hx)
    unfold part
    split_ifs
    · exact mul_nonneg hm.2.2.2 (mul_nonneg (le_max_left _ _) (le_max_left _ _))
    · exact le_rfl
  have sr : (rays.map (part W H (H - 1 - r) c ∘ fun x => hit (linePlane rnd (o₁ x) (o₂ x) W H x.1 x.2.1 x.2.2 p))).sum =
      (rays.map fun x => part W H (H - 1 - r) c (hit (linePlane rnd (o₁ x) (o₂ x) W H x.1 x.2.1 x.2.2 p))).sum := rfl
  rw [sr] at lower upper
  generalize (rays.map fun x => part W H (H - 1 - r) c (hit (linePlane rnd (o₁ x) (o₂ x) W H x.1 x.2.1 x.2.2 p))).sum = S at *
  have N : ((k + 4 : Nat) : ℝ) ≤ ((rays.length + 4 : Nat) : ℝ) := by exact_mod_cast Nat.add_le_add_right kn 4
  have Nu : ((k + 4 : Nat) : ℝ) * u ≤ ((rays.length + 4 : Nat) : ℝ) * u := mul_le_mul_of_nonneg_right N hu
  have up := pow_bounds hu (by linarith : 2 * (((k + 4 : Nat) : ℝ) * u) ≤ 1)
  have up' : (1 + u) ^ k ≤ 3 := by
    have : (1 + u) ^ k ≤ (1 + u) ^ (k + 4) := pow_le_pow_right₀ (by linarith) (by omega)
    linarith
  have low : 1 - ((k + 4 : Nat) : ℝ) * u ≤ (1 - u) ^ (k + 4) := by
    have := one_add_mul_le_pow (a := -u) (by linarith) (k + 4)
    rw [← sub_eq_add_neg] at this
    linarith
  have n := abs_le.1 near
  have u1 := mul_le_mul_of_nonneg_right up S0
  have l1 := mul_le_mul_of_nonneg_right low S0
  have t1 := mul_le_mul up' tail tail0 (by norm_num)
  have B0 : 0 ≤ 2 * ((rays.length + 4 : Nat) : ℝ) * u := by positivity
  have SB : S ≤ Splat.pixel exact r c + rays.length * D := by linarith [n.2]
  have SB' := mul_le_mul_of_nonneg_left SB B0
  have KN := mul_le_mul_of_nonneg_right Nu S0
  have KS : 0 ≤ ((rays.length + 4 : Nat) : ℝ) * u * S := mul_nonneg (mul_nonneg (by positivity) hu) S0
  have nη : 0 ≤ (rays.length : ℝ) * η := mul_nonneg (by positivity) hη
  rw [abs_le]
  constructor <;> linarith [n.1, n.2]

end

/-- C126, numbers for float32: in a field of 200 m, for rays that meet a target of 8 m by 8 m with 256 by 256 pixels at an angle of at most 60 degrees to its normal, rounding shifts the image of a ray by at most 2 / 25
of a pixel and changes its intensity by at most 1.4 millionths. -/
theorem C126_float32 (o₁ o₂ : Order) (t : ℝ) (origin dir : V3 ℝ) (p : Plane ℝ) (hp : p.width = 8 ∧ p.height = 8)
    (m : Meeting (1 / 2 ^ 24 + 2 ^ (-149 : Int) / 2) 200 (1 / 2) origin dir p t)
    (c1 : 2 / 25 < column 256 origin dir p t ∧ column 256 origin dir p t < 255 - 2 / 25) (r1 : 2 / 25 < row 256 origin dir p t ∧ row 256 origin dir p t < 255 - 2 / 25)
    (mag : ℝ) (hmag : 0 ≤ mag ∧ mag ≤ 1) :
    |(linePlane float32 o₁ o₂ 256 256 origin dir mag p).e - (255 - column 256 origin dir p t)| ≤ 2 / 25 ∧
    |(linePlane float32 o₁ o₂ 256 256 origin dir mag p).u - row 256 origin dir p t| ≤ 2 / 25 ∧
    |(linePlane float32 o₁ o₂ 256 256 origin dir mag p).intensity - mag * -V3.dot dir p.normal| ≤ 14 / 10 ^ 7 := by
  have e : (1 / 2 ^ 24 + 2 ^ (-149 : Int) / 2 : ℝ) ≤ 61 / 10 ^ 9 := by norm_num
  have s : shift (1 / 2 ^ 24 + 2 ^ (-149 : Int) / 2) 200 (1 / 2) 8 256 ≤ 2 / 25 := by
    unfold shift
    norm_num
  have h := C126_lands C103_float32 o₁ o₂ 256 256 (by norm_num) (by norm_num) 200 (1 / 2) t origin dir p m (by
    unfold Lands
    rw [hp.1, hp.2]
    push_cast
    exact ⟨⟨by linarith, by linarith⟩, by linarith, by linarith⟩) mag hmag
  rw [hp.1, hp.2] at h
  obtain ⟨h1, h2, _, h4⟩ := h
  refine ⟨?_, h2.trans s, h4.trans (by linarith)⟩
  have := h1.trans s
  push_cast at this
  rw [show (256 : ℝ) - 1 - column 256 origin dir p t = 255 - column 256 origin dir p t by ring] at this
  exact this

/-- a ray of 90 m to a target of 8 m -/
example : ∃ (origin dir : V3 ℝ) (p : Plane ℝ) (t : ℝ), (p.width = 8 ∧ p.height = 8) ∧ Meeting (1 / 2 ^ 24 + 2 ^ (-149 : Int) / 2) 200 (1 / 2) origin dir p t ∧
    (2 / 25 < column 256 origin dir p t ∧ column 256 origin dir p t < 255 - 2 / 25) ∧ (2 / 25 < row 256 origin dir p t ∧ row 256 origin dir p t < 255 - 2 / 25) ∧
    Clear (1 / 2 ^ 24 + 2 ^ (-149 : Int) / 2) 200 (1 / 2) 256 256 origin dir p := by
  have m : Meeting (1 / 2 ^ 24 + 2 ^ (-149 : Int) / 2) 200 (1 / 2) ⟨2, 90, 1⟩ ⟨0, -4 / 5, 3 / 5⟩ ⟨⟨0, 10, 60⟩, ⟨0, 1, 0⟩, 8, 8⟩ 100 := by
    constructor <;> norm_num [Within, V3.dot, V3.sub_e, V3.sub_n, V3.sub_u, V3.add_e, V3.add_n, V3.add_u, V3.smul_e, V3.smul_n, V3.smul_u]
  have c : column 256 (⟨2, 90, 1⟩ : V3 ℝ) ⟨0, -4 / 5, 3 / 5⟩ ⟨⟨0, 10, 60⟩, ⟨0, 1, 0⟩, 8, 8⟩ 100 = 765 / 4 := by
    norm_num [column, V3.add_e, V3.smul_e]
  have r : row 256 (⟨2, 90, 1⟩ : V3 ℝ) ⟨0, -4 / 5, 3 / 5⟩ ⟨⟨0, 10, 60⟩, ⟨0, 1, 0⟩, 8, 8⟩ 100 = 1275 / 8 := by
    norm_num [row, V3.add_u, V3.smul_u]
  refine ⟨⟨2, 90, 1⟩, ⟨0, -4 / 5, 3 / 5⟩, ⟨⟨0, 10, 60⟩, ⟨0, 1, 0⟩, 8, 8⟩, 100, ⟨rfl, rfl⟩, m, ?_, ?_, Or.inr ⟨100, m, Or.inl ?_⟩⟩
  · rw [c]; norm_num
  · rw [r]; norm_num
  · unfold Lands
    rw [c, r]
    unfold shift
    norm_num

/-! ## At the edge -/

theorem float32_below {x : ℝ} (hx : 0 ≤ x) (k : Int) (hk : x = k * 2 ^ (-23 : Int)) (h2 : x < 2) : float32 x = x := by
  rcases hx.eq_or_lt with rfl | hpos
  · simpa using C103_float32.nat 0 (Nat.zero_le _)
  refine float32_multiple hx (-23) ?_ k hk
  unfold lastDigit
  have : Int.log 2 x < 1 := by
    rw [← Int.lt_zpow_iff_log_lt (by norm_num) hpos]
    simpa using h2
  refine max_le ?_ (by norm_num)
  push_cast
  omega

theorem float32_two : float32 (2 + 1 / 2 ^ 23) = 2 := by
  unfold float32 binary
  rw [if_pos (by norm_num)]
  have hlog : Int.log 2 ((2 : ℝ) + 1 / 2 ^ 23) = 1 := by
    have h1 : (1 : Int) ≤ Int.log 2 ((2 : ℝ) + 1 / 2 ^ 23) := by
      rw [← Int.zpow_le_iff_le_log (by norm_num) (by norm_num)]
      norm_num
    have h2 : Int.log 2 ((2 : ℝ) + 1 / 2 ^ 23) < 2 := by
      rw [← Int.lt_zpow_iff_log_lt (by norm_num) (by norm_num)]
      norm_num
    omega
  have hd : lastDigit 24 (-149) ((2 : ℝ) + 1 / 2 ^ 23) = -22 := by unfold lastDigit; rw [hlog]; norm_num
  unfold roundPos
  rw [hd]
  have hf : ⌊((2 : ℝ) + 1 / 2 ^ 23) / 2 ^ (-22 : Int)⌋ = 2 ^ 23 := by rw [Int.floor_eq_iff]; norm_num
  have hn : nearestEven (((2 : ℝ) + 1 / 2 ^ 23) / 2 ^ (-22 : Int)) = 2 ^ 23 := by
    unfold nearestEven
    rw [hf, if_neg (by norm_num), if_neg (by norm_num), if_pos (by decide)]
  rw [hn]
  norm_num

/-- C126, why rays must be clear of the edges: a ray that truly passes beside the target, by a ten-millionth of a metre, counts fully in float32. -/
theorem C126_edge (o₁ o₂ : Order) : ∃ (origin dir : V3 ℝ) (p : Plane ℝ), (∃ k : Int, origin.e = k * 2 ^ (-23 : Int)) ∧ (Intersect.linePlane 2 3 origin dir 1 p).intensity = 0 ∧
    (linePlane float32 o₁ o₂ 2 3 origin dir 1 p).intensity = 1 ∧ Splat.Inside 2 3 (hit (linePlane float32 o₁ o₂ 2 3 origin dir 1 p)) := by
  have f0 : float32 0 = 0 := by simpa using C103_float32.nat 0 (Nat.zero_le _)
  have f1 : float32 1 = 1 := by simpa using C103_float32.nat 1 (by norm_num)
  have f2 : float32 2 = 2 := by simpa using C103_float32.nat 2 (by norm_num)
  have m1 : float32 (-1) = -1 := by rw [C103_float32.odd, f1]
  have fh : float32 (2⁻¹) = 2⁻¹ := by
    have := float32_pow (-1) (by norm_num)
    simpa using this
  have fo : float32 (1 + 1 / 2 ^ 23) = 1 + 1 / 2 ^ 23 := float32_below (by norm_num) (2 ^ 23 + 1) (by norm_num) (by norm_num)
  have ang : ∀ o, angle float32 o ⟨0, 1, 0⟩ ⟨⟨0, 0, 0⟩, ⟨0, -1, 0⟩, 2, 2⟩ = -1 := by
    intro o
    cases o <;> simp [angle, dot3, sum3, f0, m1]
  have num : ∀ o, numerator float32 o ⟨1 + 1 / 2 ^ 23, -1, 0⟩ ⟨⟨0, 0, 0⟩, ⟨0, -1, 0⟩, 2, 2⟩ = -1 := by
    intro o
    cases o <;> simp [numerator, dot3, sum3, f0, f1, m1]
  have dist : distance float32 o₁ o₂ ⟨1 + 1 / 2 ^ 23, -1, 0⟩ ⟨0, 1, 0⟩ ⟨⟨0, 0, 0⟩, ⟨0, -1, 0⟩, 2, 2⟩ = 1 := by
    unfold distance
    rw [ang, num, if_pos (by norm_num)]
    norm_num [f1]
  have be : bitmap float32 1 (1 + 1 / 2 ^ 23) 0 0 2 (((2 : Nat) : ℝ) - 1) = 1 := by
    unfold bitmap
    rw [show (0 : ℝ) * 1 = 0 by norm_num, f0, add_zero, fo, show (2 : ℝ) / 2 = 1 by norm_num, f1, show (1 + 1 / 2 ^ 23 + 1 : ℝ) = 2 + 1 / 2 ^ 23 by ring, float32_two, sub_zero, f2,
      show (2 : ℝ) / 2 = 1 by norm_num, f1]
    norm_num [f1]
  have bu : bitmap float32 1 0 0 0 2 (((3 : Nat) : ℝ) - 1) = 1 := by
    unfold bitmap
    rw [show (0 : ℝ) * 1 = 0 by norm_num, f0, add_zero, f0, show (2 : ℝ) / 2 = 1 by norm_num, f1, zero_add, f1, sub_zero, f1, show (1 : ℝ) / 2 = 2⁻¹ by norm_num, fh]
    norm_num [f1]
  refine ⟨⟨1 + 1 / 2 ^ 23, -1, 0⟩, ⟨0, 1, 0⟩, ⟨⟨0, 0, 0⟩, ⟨0, -1, 0⟩, 2, 2⟩, ⟨2 ^ 23 + 1, by norm_num⟩, ?_, ?_, ?_⟩
  · norm_num [Intersect.linePlane, planePoint, Intersect.planeDistance, planeAngle, V3.dot, V3.sub_e, V3.sub_n, V3.sub_u, V3.add_e, V3.add_n, V3.add_u, V3.smul_e, V3.smul_n, V3.smul_u]
  · simp only [linePlane, dist, be, bu, ang]
    norm_num [f1]
  · simp only [hit, linePlane, dist, be, bu, ang]
    norm_num [Splat.Inside, f0]

end Artist.RoundedLanding
