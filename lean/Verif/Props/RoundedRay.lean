import Verif.Proofs.RoundedRay
import Verif.Props.RoundedLanding
/-! C129: floating point arithmetic from the mirror to the image. -/
namespace Artist.RoundedRay
open Artist Intersect RoundedLanding Rounded

section
variable {rnd : ℝ → ℝ} {u η : ℝ} {M : Nat}

/-- C129: a sum of four products, in whatever order it is added up and whether or not products and additions are fused. -/
theorem C129_sum (A : Arithmetic rnd u η M) (small : 1000 * (u + η) ≤ 1) (P : Plan) (hP : P.Complete) (a b : Fin 4 → ℝ) :
    |P.eval rnd a b - ∑ i, a i * b i| ≤ 8 * u * ∑ i, |a i * b i| + 10 * η := by
  rw [Fin.sum_univ_four, Fin.sum_univ_four]
  exact dot_error A.u_nonneg A.η_nonneg A.close small a b P hP _ le_rfl

/-- the plan that adds from left to right, and one with fused products -/
example : (Plan.add (.add (.add (.product 0) (.product 1)) (.product 2)) (.product 3)).Complete ∧ (Plan.fused 0 (.fused 1 (.fused 2 (.product 3)))).Complete ∧
    (Plan.add (.add (.product 0) (.product 2)) (.fused 1 (.product 3))).Complete ∧ ¬ (Plan.add (.product 0) (.product 1)).Complete := by
  simp only [Plan.Complete, Plan.terms]
  decide

/-- C129: reflected directions are right up to 32 units of rounding. -/
theorem C129_reflect (A : Arithmetic rnd u η M) (small : 10000 * (u + η) ≤ 1) (P : Plan) (hP : P.Complete) (d n : Fin 4 → ℝ) (hd : AtMostUnit d) (hn : AtMostUnit n) (i : Fin 4) :
    |reflect rnd P d n i - Intersect.reflect d n i| ≤ 32 * (u + η) :=
  reflect_near A.u_nonneg A.η_nonneg A.close small P hP d n hd hn i

/-- C129: directions of rays, reflected and scattered, are right up to 78 units of rounding. -/
theorem C129_direction (A : Arithmetic rnd u η M) (small : 10000 * (u + η) ≤ 1) (P : Plan) (hP : P.Complete) (Q : Fin 3 → Plan) (hQ : ∀ i, (Q i).Complete) (fcos fsin : ℝ → ℝ)
    (x : Sent) (hx : x.Regular (u + η) fcos fsin) :
    |(direction rnd P Q fcos fsin x.incident x.normal x.e x.u).e - x.dir.e| ≤ 78 * (u + η) ∧
    |(direction rnd P Q fcos fsin x.incident x.normal x.e x.u).n - x.dir.n| ≤ 78 * (u + η) ∧
    |(direction rnd P Q fcos fsin x.incident x.normal x.e x.u).u - x.dir.u| ≤ 78 * (u + η) := by
  have h := direction_near A.u_nonneg A.η_nonneg A.close small P hP Q hQ fcos fsin x.incident x.normal hx.1.1 hx.1.2 x.e x.u hx.2.1.1 hx.2.1.2
  exact ⟨h.e, h.n, h.u⟩

theorem shift_tilt (ε R κ size : ℝ) (n : Nat) : shift ε R (49 / 50 * κ) size n = 50 / 49 * shift ε R κ size n := by
  unfold shift
  rw [show R / (49 / 50 * κ) = 50 / 49 * (R / κ) by rw [div_mul_eq_div_div_swap]; ring]
  ring

/-- where the rounded direction takes the ray -/
theorem moved (A : Arithmetic rnd u η M) (P : Plan) (hP : P.Complete) (Q : Fin 3 → Plan) (hQ : ∀ i, (Q i).Complete) (fcos fsin : ℝ → ℝ) (W H : Nat) (hW : 2 ≤ W) (hH : 2 ≤ H) (R κ t : ℝ) (p : Plane ℝ)
    (x : Sent) (hx : x.Regular (u + η) fcos fsin) (m : Arriving (u + η) R κ x.point x.dir p t) (d' : V3 ℝ) (hd' : d' = direction rnd P Q fcos fsin x.incident x.normal x.e x.u) :
    ∃ t', Meeting (u + η) R (49 / 50 * κ) x.point d' p t' ∧ |t' - t| ≤ 125 * ((u + η) * (R / κ)) ∧
      |column W x.point d' p t' - column W x.point x.dir p t| ≤ 203 / 100 * shift (u + η) R κ p.width W ∧ |row H x.point d' p t' - row H x.point x.dir p t| ≤ 203 / 100 * shift (u + η) R κ p.height H ∧
      |V3.dot d' p.normal - V3.dot x.dir p.normal| ≤ 136 * (u + η) := by
  have hε : 0 ≤ u + η := add_nonneg A.u_nonneg A.η_nonneg
  have ap := direction_near A.u_nonneg A.η_nonneg A.close (m.small.trans m.cosine.2.1) P hP Q hQ fcos fsin x.incident x.normal hx.1.1 hx.1.2 x.e x.u hx.2.1.1 hx.2.1.2
  rw [← hd'] at ap
  obtain ⟨t', m', h1, h2, h3⟩ := meets_near hε m (direction_within _ _ hx.1.1 hx.1.2 x.e x.u) ap
  have one : ∀ (n : Nat) (size o c a b : ℝ), 2 ≤ n → 0 < size → |b - a| ≤ 203 * ((u + η) * (R / κ)) →
      |(o + b + size / 2 - c) / size * ((n : ℝ) - 1) - (o + a + size / 2 - c) / size * ((n : ℝ) - 1)| ≤ 203 / 100 * shift (u + η) R κ size n := by
    intro n size o c a b hn hs h
    have hn' : (2 : ℝ) ≤ n := by exact_mod_cast hn
    have f : 0 ≤ ((n : ℝ) - 1) / size := div_nonneg (by linarith) hs.le
    rw [show (o + b + size / 2 - c) / size * ((n : ℝ) - 1) - (o + a + size / 2 - c) / size * ((n : ℝ) - 1) = (b - a) * (((n : ℝ) - 1) / size) by ring, abs_mul, abs_of_nonneg f]
    refine (mul_le_mul_of_nonneg_right h f).trans (le_of_eq ?_)
    unfold shift
    ring
  refine ⟨t', m', h1, ?_, ?_, cosine_near hε ap m.normal_unit⟩
  · unfold column
    simp only [V3.add_e, V3.smul_e]
    exact one W p.width _ _ _ _ hW m.width.1 h2
  · unfold row
    simp only [V3.add_u, V3.smul_u]
    exact one H p.height _ _ _ _ hH m.height.1 h3

theorem shift_pos {ε R κ size : ℝ} {n : Nat} (hε : 0 ≤ ε) (hR : 1 ≤ R) (hκ : 0 < κ) (hs : 0 < size) (hn : 2 ≤ n) : 0 ≤ shift ε R κ size n := by
  have : (2 : ℝ) ≤ n := by exact_mod_cast hn
  exact mul_nonneg (mul_nonneg (by linarith) (div_nonneg (by linarith) (by linarith))) (div_nonneg (by linarith) (by linarith))

/-- the rounded direction lands and misses where the exact one does -/
theorem lands_of {ε R κ t t' : ℝ} {W H : Nat} {o d d' : V3 ℝ} {p : Plane ℝ} (sW : 0 ≤ shift ε R κ p.width W) (sH : 0 ≤ shift ε R κ p.height H)
    (hc : |column W o d' p t' - column W o d p t| ≤ 203 / 100 * shift ε R κ p.width W) (hr : |row H o d' p t' - row H o d p t| ≤ 203 / 100 * shift ε R κ p.height H)
    (h : WellInside ε R κ W H o d p t) : Lands ε R (49 / 50 * κ) W H o d' p t' ∧ Lands ε R κ W H o d p t := by
  obtain ⟨⟨c1, c2⟩, r1, r2⟩ := h
  have a := abs_le.1 hc
  have b := abs_le.1 hr
  constructor
  · unfold Lands
    rw [shift_tilt, shift_tilt]
    exact ⟨⟨by linarith [a.1], by linarith [a.2]⟩, by linarith [b.1], by linarith [b.2]⟩
  · exact ⟨⟨by linarith, by linarith⟩, by linarith, by linarith⟩

theorem misses_of {ε R κ t t' : ℝ} {W H : Nat} {o d d' : V3 ℝ} {p : Plane ℝ} (sW : 0 ≤ shift ε R κ p.width W) (sH : 0 ≤ shift ε R κ p.height H)
    (hc : |column W o d' p t' - column W o d p t| ≤ 203 / 100 * shift ε R κ p.width W) (hr : |row H o d' p t' - row H o d p t| ≤ 203 / 100 * shift ε R κ p.height H)
    (h : WellOutside ε R κ W H o d p t) : Misses ε R (49 / 50 * κ) W H o d' p t' ∧ Misses ε R κ W H o d p t := by
  have a := abs_le.1 hc
  have b := abs_le.1 hr
  unfold Misses
  rw [shift_tilt, shift_tilt]
  rcases h with h | h | h | h
  · exact ⟨.inl (by linarith [a.2]), .inl (by linarith)⟩
  · exact ⟨.inr (.inl (by linarith [a.1])), .inr (.inl (by linarith))⟩
  · exact ⟨.inr (.inr (.inl (by linarith [b.2]))), .inr (.inr (.inl (by linarith)))⟩
  · exact ⟨.inr (.inr (.inr (by linarith [b.1]))), .inr (.inr (.inr (by linarith)))⟩

/-- the exact ray meets the plane in the sense of C126 -/
theorem meeting_of {ε R κ t : ℝ} (hε : 0 ≤ ε) {o d : V3 ℝ} {p : Plane ℝ} (m : Arriving ε R κ o d p t) (hd : Within (104 / 100) d) : Meeting ε R κ o d p t := by
  have nw : Within (11 / 10) p.normal := by
    have hn := m.normal_unit
    unfold V3.normSq V3.dot at hn
    exact comp_le (x := p.normal.e) (y := p.normal.n) (z := p.normal.u) (by norm_num : (0 : ℝ) ≤ 11 / 10) (by nlinarith)
  exact ⟨m.size, m.origin_within, m.center_within, ⟨hd.1.trans (by norm_num), hd.2.1.trans (by norm_num), hd.2.2.trans (by norm_num)⟩, nw, m.width, m.height, m.cosine, by linarith [m.small], m.meets,
    by linarith [m.near, m.size]⟩

/-- C129: a ray that is reflected, scattered and intersected in floating point arithmetic lands where it does in exact arithmetic, up to four times what intersecting alone may shift it. -/
theorem C129_lands (A : Arithmetic rnd u η M) (P : Plan) (hP : P.Complete) (Q : Fin 3 → Plan) (hQ : ∀ i, (Q i).Complete) (fcos fsin : ℝ → ℝ) (o₁ o₂ : Order) (W H : Nat) (hW : 2 ≤ W) (hH : 2 ≤ H) (R κ t : ℝ)
    (p : Plane ℝ) (x : Sent) (hx : x.Regular (u + η) fcos fsin) (m : Arriving (u + η) R κ x.point x.dir p t) (on : WellInside (u + η) R κ W H x.point x.dir p t)
    (l : Landing ℝ) (hl : l = linePlane rnd o₁ o₂ W H x.point (direction rnd P Q fcos fsin x.incident x.normal x.e x.u) x.magnitude p) :
    |l.e - ((W : ℝ) - 1 - column W x.point x.dir p t)| ≤ 4 * shift (u + η) R κ p.width W ∧
    |l.u - row H x.point x.dir p t| ≤ 4 * shift (u + η) R κ p.height H ∧
    |l.distance - t| ≤ 183 * ((u + η) * (R / κ)) ∧
    |l.intensity - x.magnitude * -V3.dot x.dir p.normal| ≤ 158 * (u + η) := by
  have hε : 0 ≤ u + η := add_nonneg A.u_nonneg A.η_nonneg
  obtain ⟨k0, k1, _⟩ := m.cosine
  have sW := shift_pos hε m.size k0 m.width.1 hW
  have sH := shift_pos hε m.size k0 m.height.1 hH
  generalize hd' : direction rnd P Q fcos fsin x.incident x.normal x.e x.u = d' at hl
  obtain ⟨t', m', ht, hc, hr, hn⟩ := moved A P hP Q hQ fcos fsin W H hW hH R κ t p x hx m d' hd'.symm
  obtain ⟨g1, g2, g3, g4⟩ := C126_lands A o₁ o₂ W H hW hH R (49 / 50 * κ) t' x.point d' p m' (lands_of sW sH hc hr on).1 x.magnitude hx.2.2
  rw [← hl, shift_tilt] at g1 g2
  rw [← hl] at g3 g4
  refine ⟨?_, ?_, ?_, ?_⟩
  · refine (abs_sub_le _ _ _).trans ((add_le_add g1 (le_of_eq_of_le ?_ hc)).trans ?_)
    · rw [sub_sub_sub_cancel_left, abs_sub_comm]
    · linarith
  · exact (abs_sub_le _ _ _).trans ((add_le_add g2 hr).trans (by linarith))
  · rw [show R / (49 / 50 * κ) = 50 / 49 * (R / κ) by rw [div_mul_eq_div_div_swap]; ring] at g3
    have : 0 ≤ (u + η) * (R / κ) := mul_nonneg hε (div_nonneg (by linarith [m.size]) k0.le)
    exact (abs_sub_le _ _ _).trans ((add_le_add g3 ht).trans (by linarith))
  · refine (abs_sub_le _ _ _).trans ((add_le_add g4 (d := 136 * (u + η)) ?_).trans (by linarith))
    rw [← mul_sub, abs_mul, abs_of_nonneg hx.2.2.1, show -V3.dot d' p.normal - -V3.dot x.dir p.normal = -(V3.dot d' p.normal - V3.dot x.dir p.normal) by ring, abs_neg]
    exact (mul_le_of_le_one_left (abs_nonneg _) hx.2.2.2).trans hn

/-- C129: a ray that passes beside the target in exact arithmetic carries nothing in floating point arithmetic, nor does one from behind. -/
theorem C129_misses (A : Arithmetic rnd u η M) (P : Plan) (hP : P.Complete) (Q : Fin 3 → Plan) (hQ : ∀ i, (Q i).Complete) (fcos fsin : ℝ → ℝ) (o₁ o₂ : Order) (W H : Nat) (hW : 2 ≤ W) (hH : 2 ≤ H) (R κ : ℝ)
    (p : Plane ℝ) (x : Sent) (hx : x.Regular (u + η) fcos fsin)
    (off : FromBehind (u + η) x.dir p ∨ ∃ t, Arriving (u + η) R κ x.point x.dir p t ∧ WellOutside (u + η) R κ W H x.point x.dir p t) :
    (linePlane rnd o₁ o₂ W H x.point (direction rnd P Q fcos fsin x.incident x.normal x.e x.u) x.magnitude p).intensity = 0 := by
  have hε : 0 ≤ u + η := add_nonneg A.u_nonneg A.η_nonneg
  rcases off with ⟨small, hn, h⟩ | ⟨t, m, off⟩
  · have ap := direction_near A.u_nonneg A.η_nonneg A.close small P hP Q hQ fcos fsin x.incident x.normal hx.1.1 hx.1.2 x.e x.u hx.2.1.1 hx.2.1.2
    have dw := direction_within _ _ hx.1.1 hx.1.2 x.e x.u
    have c := abs_le.1 (cosine_near hε ap hn)
    have wi : ∀ x x' : ℝ, |x| ≤ 104 / 100 → |x' - x| ≤ 78 * (u + η) → |x'| ≤ 11 / 10 := fun x x' hx hx' => by
      have := abs_sub_abs_le_abs_sub x' x
      linarith
    refine C126_behind A o₁ o₂ W H _ _ p ⟨by linarith, ⟨wi _ _ dw.1 ap.e, wi _ _ dw.2.1 ap.n, wi _ _ dw.2.2 ap.u⟩, ?_, ?_⟩ _
    · unfold V3.normSq V3.dot at hn
      exact comp_le (x := p.normal.e) (y := p.normal.n) (z := p.normal.u) (by norm_num : (0 : ℝ) ≤ 11 / 10) (by nlinarith)
    · have : V3.dot x.dir p.normal = V3.dot (Flux.direction x.incident x.normal x.e x.u) p.normal := rfl
      linarith [c.1]
  · obtain ⟨t', m', ht, hc, hr, _⟩ := moved A P hP Q hQ fcos fsin W H hW hH R κ t p x hx m _ rfl
    have k0 := m.cosine.1
    exact C126_misses A o₁ o₂ W H hW hH R (49 / 50 * κ) t' x.point _ p m'
      (misses_of (shift_pos hε m.size k0 m.width.1 hW) (shift_pos hε m.size k0 m.height.1 hH) hc hr off).1 x.magnitude

/-- a clear ray stays clear in the sense of C126 -/
theorem clear_of (A : Arithmetic rnd u η M) (P : Plan) (hP : P.Complete) (Q : Fin 3 → Plan) (hQ : ∀ i, (Q i).Complete) (fcos fsin : ℝ → ℝ) (W H : Nat) (hW : 2 ≤ W) (hH : 2 ≤ H) (R κ : ℝ)
    (p : Plane ℝ) (x : Sent) (hx : x.Regular (u + η) fcos fsin) (cl : x.Clear (u + η) R κ W H p) :
    RoundedLanding.Clear (u + η) R (49 / 50 * κ) W H x.point (direction rnd P Q fcos fsin x.incident x.normal x.e x.u) p := by
  have hε : 0 ≤ u + η := add_nonneg A.u_nonneg A.η_nonneg
  rcases cl with ⟨small, hn, h⟩ | ⟨t, m, onoff⟩
  · left
    have ap := direction_near A.u_nonneg A.η_nonneg A.close small P hP Q hQ fcos fsin x.incident x.normal hx.1.1 hx.1.2 x.e x.u hx.2.1.1 hx.2.1.2
    have dw := direction_within _ _ hx.1.1 hx.1.2 x.e x.u
    have c := abs_le.1 (cosine_near hε ap hn)
    have wi : ∀ x x' : ℝ, |x| ≤ 104 / 100 → |x' - x| ≤ 78 * (u + η) → |x'| ≤ 11 / 10 := fun x x' hx hx' => by
      have := abs_sub_abs_le_abs_sub x' x
      linarith
    refine ⟨by linarith, ⟨wi _ _ dw.1 ap.e, wi _ _ dw.2.1 ap.n, wi _ _ dw.2.2 ap.u⟩, ?_, ?_⟩
    · unfold V3.normSq V3.dot at hn
      exact comp_le (x := p.normal.e) (y := p.normal.n) (z := p.normal.u) (by norm_num : (0 : ℝ) ≤ 11 / 10) (by nlinarith)
    · have : V3.dot x.dir p.normal = V3.dot (Flux.direction x.incident x.normal x.e x.u) p.normal := rfl
      linarith [c.1]
  · obtain ⟨t', m', ht, hc, hr, _⟩ := moved A P hP Q hQ fcos fsin W H hW hH R κ t p x hx m _ rfl
    have k0 := m.cosine.1
    have sW := shift_pos hε m.size k0 m.width.1 hW
    have sH := shift_pos hε m.size k0 m.height.1 hH
    right
    rcases onoff with on | off
    · exact ⟨t', m', .inl (lands_of sW sH hc hr on).1⟩
    · exact ⟨t', m', .inr (misses_of sW sH hc hr off).1⟩

theorem dark_behind (W H : Nat) (o d : V3 ℝ) (mag : ℝ) (p : Plane ℝ) (h : ¬ V3.dot d p.normal < 0) : (Intersect.linePlane W H o d mag p).intensity = 0 := by
  simp [Intersect.linePlane, planeAngle, h]

/-- what the rounded direction changes in the part of one ray, intersected exactly -/
theorem part_turned (A : Arithmetic rnd u η M) (P : Plan) (hP : P.Complete) (Q : Fin 3 → Plan) (hQ : ∀ i, (Q i).Complete) (fcos fsin : ℝ → ℝ) (W H r c : Nat) (hW : 2 ≤ W) (hH : 2 ≤ H) (R κ : ℝ)
    (hR : 1 ≤ R) (hκ : 0 < κ) (p : Plane ℝ) (hp : 0 < p.width ∧ 0 < p.height) (x : Sent) (hx : x.Regular (u + η) fcos fsin) (cl : x.Clear (u + η) R κ W H p) :
    |part W H r c (hit (Intersect.linePlane W H x.point (direction rnd P Q fcos fsin x.incident x.normal x.e x.u) x.magnitude p)) - part W H r c (hit (Intersect.linePlane W H x.point x.dir x.magnitude p))| ≤
      136 * (u + η) + 4 * (203 / 100 * shift (u + η) R κ p.width W + 203 / 100 * shift (u + η) R κ p.height H) := by
  have hε : 0 ≤ u + η := add_nonneg A.u_nonneg A.η_nonneg
  have sW := shift_pos hε hR hκ hp.1 hW
  have sH := shift_pos hε hR hκ hp.2 hH
  have cl' := clear_of A P hP Q hQ fcos fsin W H hW hH R κ p x hx cl
  rcases cl with ⟨small, hn, h⟩ | ⟨t, m, onoff⟩
  · have ap := direction_near A.u_nonneg A.η_nonneg A.close small P hP Q hQ fcos fsin x.incident x.normal hx.1.1 hx.1.2 x.e x.u hx.2.1.1 hx.2.1.2
    have c := abs_le.1 (cosine_near hε ap hn)
    have e : V3.dot x.dir p.normal = V3.dot (Flux.direction x.incident x.normal x.e x.u) p.normal := rfl
    have neg : ¬ V3.dot x.dir p.normal < 0 := by linarith
    have neg' : ¬ V3.dot (direction rnd P Q fcos fsin x.incident x.normal x.e x.u) p.normal < 0 := by linarith [c.1]
    rw [part_dark W H r _ _ (dark_behind W H _ _ _ p neg'), part_dark W H r _ _ (dark_behind W H _ _ _ p neg), sub_zero, abs_zero]
    linarith
  · generalize hd' : direction rnd P Q fcos fsin x.incident x.normal x.e x.u = d' at *
    obtain ⟨t', m', ht, hc, hr, hn⟩ := moved A P hP Q hQ fcos fsin W H hW hH R κ t p x hx m d' hd'.symm
    have m0 := meeting_of hε m (direction_within _ _ hx.1.1 hx.1.2 x.e x.u)
    rcases onoff with on | off
    · obtain ⟨on', on0⟩ := lands_of sW sH hc hr on
      rw [exact_lands hε hW hH m' on' x.magnitude, exact_lands hε hW hH m0 on0 x.magnitude]
      have sW' : 0 ≤ shift (u + η) R (49 / 50 * κ) p.width W := by rw [shift_tilt]; linarith
      have sH' : 0 ≤ shift (u + η) R (49 / 50 * κ) p.height H := by rw [shift_tilt]; linarith
      obtain ⟨⟨c1, c2⟩, r1, r2⟩ := on'
      obtain ⟨⟨e1, e2⟩, f1, f2⟩ := on0
      have dl := abs_le.1 (dot_le m0.dir_within m0.normal_within)
      have neg : V3.dot x.dir p.normal < 0 := by linarith [m0.cosine.2.2]
      refine (part_near W H r c _ _ ⟨⟨?_, ?_⟩, ?_, ?_⟩ ⟨⟨?_, ?_⟩, ?_, ?_⟩ ?_ ?_).trans ?_
      · simp only; linarith
      · simp only; linarith
      · simp only; linarith
      · simp only; linarith
      · simp only; linarith
      · simp only; linarith
      · simp only; linarith
      · simp only; linarith
      · exact mul_nonneg hx.2.2.1 (by linarith)
      · have := mul_le_of_le_one_left (by linarith : 0 ≤ -V3.dot x.dir p.normal) hx.2.2.2
        simp only
        linarith [dl.1]
      · simp only
        rw [sub_sub_sub_cancel_left, abs_sub_comm (column W x.point x.dir p t)]
        have : |x.magnitude * -V3.dot d' p.normal - x.magnitude * -V3.dot x.dir p.normal| ≤ 136 * (u + η) := by
          rw [← mul_sub, abs_mul, abs_of_nonneg hx.2.2.1, show -V3.dot d' p.normal - -V3.dot x.dir p.normal = -(V3.dot d' p.normal - V3.dot x.dir p.normal) by ring, abs_neg]
          exact (mul_le_of_le_one_left (abs_nonneg _) hx.2.2.2).trans hn
        linarith
    · obtain ⟨off', off0⟩ := misses_of sW sH hc hr off
      rw [part_dark W H r _ _ (exact_misses hε hW hH m' off' _), part_dark W H r _ _ (exact_misses hε hW hH m0 off0 _), sub_zero, abs_zero]
      linarith

theorem sum_near' {α : Type} (l : List α) (f g : α → ℝ) (d : ℝ) (h : ∀ x ∈ l, |f x - g x| ≤ d) : |(l.map f).sum - (l.map g).sum| ≤ l.length * d := by
  induction l with
  | nil => simp
  | cons a l ih =>
    have h1 := h a (List.mem_cons_self ..)
    have h2 := ih fun x hx => h x (List.mem_cons_of_mem _ hx)
    simp only [List.map_cons, List.sum_cons, List.length_cons]
    rw [show f a + (l.map f).sum - (g a + (l.map g).sum) = (f a - g a) + ((l.map f).sum - (l.map g).sum) by ring]
    refine (abs_add_le _ _).trans ?_
    push_cast
    linarith

/-- exact images -/
theorem exact_image (W H : Nat) (hW : 2 ≤ W) (hH : 2 ≤ H) (rays : List (V3 ℝ × V3 ℝ × ℝ)) (p : Plane ℝ) :
    ∃ img, Splat.splat W H (rays.map fun x => hit (Intersect.linePlane W H x.1 x.2.1 x.2.2 p)) = .ok img ∧
      ∀ r c, r < H → c < W → Splat.pixel img r c = (rays.map fun x => part W H (H - 1 - r) c (hit (Intersect.linePlane W H x.1 x.2.1 x.2.2 p))).sum := by
  classical
  obtain ⟨exact, e1, _, _, e4⟩ := Splat.C08_pixel W H (by omega) (by omega) (rays.map fun x => hit (Intersect.linePlane W H x.1 x.2.1 x.2.2 p)) (by
    intro h hh
    obtain ⟨x, hx, rfl⟩ := List.mem_map.1 hh
    simp only [hit, Intersect.linePlane]
    have W1 : (2 : ℝ) ≤ W := by exact_mod_cast hW
    split_ifs with hv
    · simp only [Bool.and_eq_true, decide_eq_true_eq] at hv
      obtain ⟨⟨⟨⟨v1, v2⟩, v3⟩, v4⟩, v5⟩ := hv
      exact ⟨by linarith, v3⟩
    · exact ⟨by linarith, le_rfl⟩)
  refine ⟨exact, e1, fun r c hr hc => ?_⟩
  have ex := e4 (H - 1 - r) c (by omega) hc
  rw [show H - 1 - (H - 1 - r) = r by omega] at ex
  rw [ex, List.map_map]
  congr 1

/-- C129: the image.  Rays are reflected, scattered, intersected and added to the pixels in floating point arithmetic; every pixel is that of exact arithmetic up to `D` for every ray and a relative error of `2 (k + 4) u` for
adding up `k` rays. -/
theorem C129_image (A : Arithmetic rnd u η M) (P : Sent → Plan) (hP : ∀ x, (P x).Complete) (Q : Sent → Fin 3 → Plan) (hQ : ∀ x i, (Q x i).Complete) (fcos fsin : ℝ → ℝ)
    (o₁ o₂ : V3 ℝ × V3 ℝ × ℝ → Order) (order : Fin 4 → List (Splat.Hit ℝ) → List (Splat.Hit ℝ)) (horder : ∀ i l, (order i l).Perm l) (W H : Nat) (hW : 2 ≤ W) (hH : 2 ≤ H) (hWM : W ≤ M) (hHM : H ≤ M)
    (R κ : ℝ) (hR : 1 ≤ R) (hκ : 0 < κ) (p : Plane ℝ) (hp : 0 < p.width ∧ 0 < p.height) (rays : List Sent)
    (regular : ∀ x ∈ rays, x.Regular (u + η) fcos fsin) (clear : ∀ x ∈ rays, x.Clear (u + η) R κ W H p) (few : 2 * (((rays.length + 4 : Nat) : ℝ) * u) ≤ 1)
    (D : ℝ) (hD : D = 158 * (u + η) + 13 * (shift (u + η) R κ p.width W + shift (u + η) R κ p.height H)) :
    ∃ img exact,
      Rounded.splat rnd order W H ((rays.map fun x => (x.point, direction rnd (P x) (Q x) fcos fsin x.incident x.normal x.e x.u, x.magnitude)).map fun y =>
        hit (linePlane rnd (o₁ y) (o₂ y) W H y.1 y.2.1 y.2.2 p)) = .ok img ∧
      Splat.splat W H (rays.map fun x => hit (Intersect.linePlane W H x.point x.dir x.magnitude p)) = .ok exact ∧
      ∀ r c, r < H → c < W →
        |Splat.pixel img r c - Splat.pixel exact r c| ≤ rays.length * D + 2 * ((rays.length + 4 : Nat) : ℝ) * u * (Splat.pixel exact r c + rays.length * D) + 33 * rays.length * η := by
  have hε : 0 ≤ u + η := add_nonneg A.u_nonneg A.η_nonneg
  have sW := shift_pos hε hR hκ hp.1 hW
  have sH := shift_pos hε hR hκ hp.2 hH
  set rr := rays.map fun x => (x.point, direction rnd (P x) (Q x) fcos fsin x.incident x.normal x.e x.u, x.magnitude) with hrr
  have len : rr.length = rays.length := by rw [hrr, List.length_map]
  obtain ⟨img, mid, i1, i2, i3⟩ := C126_image A o₁ o₂ order W H hW hH hWM hHM R (49 / 50 * κ) hR (by linarith) p hp rr horder (by
    intro y hy
    obtain ⟨x, hx, rfl⟩ := List.mem_map.1 hy
    exact ⟨clear_of A _ (hP x) _ (hQ x) fcos fsin W H hW hH R κ p x (regular x hx) (clear x hx), (regular x hx).2.2⟩) (by rw [len]; exact few)
  obtain ⟨mid', j1, j2⟩ := exact_image W H hW hH rr p
  obtain rfl : mid = mid' := by
    rw [i2] at j1
    exact Except.ok.inj j1
  obtain ⟨exact, k1, k2⟩ := exact_image W H hW hH (rays.map fun x => (x.point, x.dir, x.magnitude)) p
  rw [List.map_map] at k1
  refine ⟨img, exact, i1, k1, fun r c hr hc => ?_⟩
  have h := i3 r c hr hc _ rfl
  rw [len, shift_tilt, shift_tilt] at h
  have near : |Splat.pixel mid r c - Splat.pixel exact r c| ≤ rays.length * (136 * (u + η) + 4 * (203 / 100 * shift (u + η) R κ p.width W + 203 / 100 * shift (u + η) R κ p.height H)) := by
    rw [j2 r c hr hc, k2 r c hr hc, hrr, List.map_map, List.map_map]
    exact sum_near' rays _ _ _ fun x hx => part_turned A _ (hP x) _ (hQ x) fcos fsin W H _ c hW hH R κ hR hκ p hp x (regular x hx) (clear x hx)
  generalize Splat.pixel mid r c = pm at *
  generalize Splat.pixel exact r c = pe at *
  generalize Splat.pixel img r c = pi at *
  set D₁ := 22 * (u + η) + 4 * (50 / 49 * shift (u + η) R κ p.width W + 50 / 49 * shift (u + η) R κ p.height H) with hD₁
  set D₂ := 136 * (u + η) + 4 * (203 / 100 * shift (u + η) R κ p.width W + 203 / 100 * shift (u + η) R κ p.height H) with hD₂
  have DD : D₁ + D₂ ≤ D := by rw [hD, hD₁, hD₂]; linarith
  have n0 : (0 : ℝ) ≤ rays.length := by positivity
  have nD : (rays.length : ℝ) * D₁ + rays.length * D₂ ≤ rays.length * D := by
    rw [← mul_add]
    exact mul_le_mul_of_nonneg_left DD n0
  have B0 : 0 ≤ 2 * ((rays.length + 4 : Nat) : ℝ) * u := by
    have := A.u_nonneg
    positivity
  have le : pm + rays.length * D₁ ≤ pe + rays.length * D := by linarith [(abs_le.1 near).2]
  have := mul_le_mul_of_nonneg_left le B0
  refine (abs_sub_le _ pm _).trans ?_
  linarith

end

/-- C129, numbers for float32: in a field of 200 m, for rays that meet a target of 8 m by 8 m with 256 by 256 pixels at an angle of at most 60 degrees to its normal, the image of a ray is shifted by less than a third of a
pixel (1 cm) altogether and its intensity is changed by less than a hundred-thousandth. -/
theorem C129_float32 (P : Plan) (hP : P.Complete) (Q : Fin 3 → Plan) (hQ : ∀ i, (Q i).Complete) (fcos fsin : ℝ → ℝ) (o₁ o₂ : Order) (t : ℝ) (p : Plane ℝ) (hp : p.width = 8 ∧ p.height = 8)
    (x : Sent) (hx : x.Regular (1 / 2 ^ 24 + 2 ^ (-149 : Int) / 2) fcos fsin) (m : Arriving (1 / 2 ^ 24 + 2 ^ (-149 : Int) / 2) 200 (1 / 2) x.point x.dir p t)
    (c1 : 1 / 3 < column 256 x.point x.dir p t ∧ column 256 x.point x.dir p t < 255 - 1 / 3) (r1 : 1 / 3 < row 256 x.point x.dir p t ∧ row 256 x.point x.dir p t < 255 - 1 / 3)
    (l : Landing ℝ) (hl : l = linePlane float32 o₁ o₂ 256 256 x.point (direction float32 P Q fcos fsin x.incident x.normal x.e x.u) x.magnitude p) :
    |l.e - (255 - column 256 x.point x.dir p t)| < 1 / 3 ∧ |l.u - row 256 x.point x.dir p t| < 1 / 3 ∧ |l.intensity - x.magnitude * -V3.dot x.dir p.normal| < 1 / 10 ^ 5 := by
  have e : (1 / 2 ^ 24 + 2 ^ (-149 : Int) / 2 : ℝ) ≤ 61 / 10 ^ 9 := by norm_num
  have s : 4 * shift (1 / 2 ^ 24 + 2 ^ (-149 : Int) / 2) 200 (1 / 2) 8 256 < 1 / 3 := by
    unfold shift
    norm_num
  have h := C129_lands C103_float32 P hP Q hQ fcos fsin o₁ o₂ 256 256 (by norm_num) (by norm_num) 200 (1 / 2) t p x hx m (by
    unfold WellInside
    rw [hp.1, hp.2]
    push_cast
    exact ⟨⟨by linarith, by linarith⟩, by linarith, by linarith⟩) l hl
  rw [hp.1, hp.2] at h
  obtain ⟨h1, h2, _, h4⟩ := h
  refine ⟨?_, h2.trans_lt s, h4.trans_lt (by linarith)⟩
  have := h1.trans_lt s
  push_cast at this
  rw [show (256 : ℝ) - 1 - column 256 x.point x.dir p t = 255 - column 256 x.point x.dir p t by ring] at this
  exact this

/-- a ray of 90 m to a target of 8 m -/
example : ∃ (fcos fsin : ℝ → ℝ) (x : Sent) (p : Plane ℝ) (t : ℝ), (p.width = 8 ∧ p.height = 8) ∧ x.Regular (1 / 2 ^ 24 + 2 ^ (-149 : Int) / 2) fcos fsin ∧
    Arriving (1 / 2 ^ 24 + 2 ^ (-149 : Int) / 2) 200 (1 / 2) x.point x.dir p t ∧
    (1 / 3 < column 256 x.point x.dir p t ∧ column 256 x.point x.dir p t < 255 - 1 / 3) ∧ (1 / 3 < row 256 x.point x.dir p t ∧ row 256 x.point x.dir p t < 255 - 1 / 3) ∧
    x.Clear (1 / 2 ^ 24 + 2 ^ (-149 : Int) / 2) 200 (1 / 2) 256 256 p := by
  let x : Sent := ⟨⟨2, 90, 1⟩, ![0, -4 / 5, -3 / 5, 0], ![0, 0, 1, 0], 0, 0, 1⟩
  have dir : x.dir = ⟨0, -4 / 5, 3 / 5⟩ := by
    ext <;> simp [x, Sent.dir, Flux.direction, Intersect.reflect, Transforms.rotDist, Matrix.mulVec, dotProduct, Fin.sum_univ_four, Matrix.vecHead, Matrix.vecTail] <;> norm_num
  have m : Arriving (1 / 2 ^ 24 + 2 ^ (-149 : Int) / 2) 200 (1 / 2) x.point x.dir ⟨⟨0, 10, 60⟩, ⟨0, 1, 0⟩, 8, 8⟩ 100 := by
    rw [dir]
    constructor <;> norm_num [x, Within, V3.normSq, V3.dot, V3.sub_e, V3.sub_n, V3.sub_u, V3.add_e, V3.add_n, V3.add_u, V3.smul_e, V3.smul_n, V3.smul_u]
  have c : column 256 x.point x.dir ⟨⟨0, 10, 60⟩, ⟨0, 1, 0⟩, 8, 8⟩ 100 = 765 / 4 := by
    rw [dir]
    norm_num [x, column, V3.add_e, V3.smul_e]
  have r : row 256 x.point x.dir ⟨⟨0, 10, 60⟩, ⟨0, 1, 0⟩, 8, 8⟩ 100 = 1275 / 8 := by
    rw [dir]
    norm_num [x, row, V3.add_u, V3.smul_u]
  refine ⟨Real.cos, Real.sin, x, ⟨⟨0, 10, 60⟩, ⟨0, 1, 0⟩, 8, 8⟩, 100, ⟨rfl, rfl⟩, ⟨⟨?_, ?_⟩, ⟨?_, ?_⟩, ?_⟩, m, ?_, ?_, Or.inr ⟨100, m, Or.inl ?_⟩⟩
  · simp [x, AtMostUnit]; norm_num
  · simp [x, AtMostUnit]; norm_num
  · norm_num [Faithful]
  · norm_num [Faithful]
  · norm_num [x]
  · rw [c]; norm_num
  · rw [r]; norm_num
  · unfold WellInside
    rw [c, r]
    unfold shift
    norm_num

end Artist.RoundedRay
