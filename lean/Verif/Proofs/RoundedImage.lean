import Verif.Spec.RoundedImage
import Verif.Props.RoundedChain
/-! Helper lemmas for C133. -/
namespace Artist.RoundedChain
open Artist Transforms Kinematics Intersect RoundedRay RoundedKinematics RoundedLanding Matrix Rounded
noncomputable section

variable {rnd : ℝ → ℝ} {u η : ℝ} {M : Nat} {fcos fsin : ℝ → ℝ} {f : Fin 3 → ℝ} {P : Plans} {x : Ray} {R ρ s r κ t : ℝ} {p : Plane ℝ}

theorem pixels_large (hε : 0 ≤ u + η) (k0 : 0 < κ) (hR : 0 ≤ R) (hρ : 0 ≤ ρ) (hs : 0 ≤ s) (hr : 0 ≤ r) {size : ℝ} (h0 : 0 < size) {n : Nat} (hn : 2 ≤ n) :
    50 * shift (u + η) (11 / 10 * r) (49 / 50 * κ) size n ≤ pixels (u + η) R ρ s r κ size n ∧ shift (u + η) r κ size n ≤ pixels (u + η) R ρ s r κ size n ∧ 0 ≤ shift (u + η) r κ size n ∧
    0 ≤ shift (u + η) (11 / 10 * r) (49 / 50 * κ) size n := by
  have n1 : (0 : ℝ) ≤ (n : ℝ) - 1 := by
    have : (2 : ℝ) ≤ n := by exact_mod_cast hn
    linarith
  have q0 : 0 ≤ ((n : ℝ) - 1) / size := by positivity
  have e0 : 0 ≤ (u + η) / κ := by positivity
  refine ⟨(mul_le_mul_of_nonneg_left (shift_small k0 hε hr h0 hn) (by norm_num)).trans ?_, ?_, ?_, ?_⟩
  · unfold pixels reach
    rw [← mul_assoc, ← mul_assoc]
    refine mul_le_mul_of_nonneg_right (mul_le_mul_of_nonneg_right (by linarith) e0) q0
  · unfold pixels reach shift
    refine mul_le_mul_of_nonneg_right ?_ q0
    rw [show 100 * (u + η) * (r / κ) = 100 * r * ((u + η) / κ) by ring]
    exact mul_le_mul_of_nonneg_right (by linarith) e0
  · unfold shift
    positivity
  · unfold shift
    positivity

/-- a clear ray stays clear -/
theorem clear_of (A : Arithmetic rnd u η M) (hM : 1 ≤ M) (hP : P.Complete) (hx : x.Regular (u + η) R ρ s fcos fsin f) {W H : Nat} (hW : 2 ≤ W) (hH : 2 ≤ H) (cl : x.Clear (u + η) R ρ s r κ W H p) :
    RoundedLanding.Clear (u + η) (11 / 10 * r) (49 / 50 * κ) W H (start rnd fcos fsin f P x) (leave rnd fcos fsin f P x) p := by
  have hε : 0 ≤ u + η := add_nonneg A.u_nonneg A.η_nonneg
  rcases cl with ⟨hn, h⟩ | ⟨t, m, onoff⟩
  · left
    obtain ⟨_, _, sm, _⟩ := hx.sized.facts hε
    have d := leave_near A hM hP hx
    have w := leave_within A hM hP hx
    have ap : Apart (2200 / 78 * (u + η)) x.leave (leave rnd fcos fsin f P x) := ⟨d.1.trans (by linarith), d.2.1.trans (by linarith), d.2.2.trans (by linarith)⟩
    have c := abs_le.1 (cosine_near (by linarith) ap hn)
    have wi : ∀ x x' : ℝ, |x| ≤ 104 / 100 → |x' - x| ≤ 2200 * (u + η) → |x'| ≤ 11 / 10 := fun x x' hx hx' => by
      have := abs_sub_abs_le_abs_sub x' x
      linarith
    have nw : Within (11 / 10) p.normal := by
      unfold V3.normSq V3.dot at hn
      have := comp_le (x := p.normal.e) (y := p.normal.n) (z := p.normal.u) (by norm_num : (0 : ℝ) ≤ 11 / 10) (by nlinarith)
      exact this
    exact ⟨by linarith, ⟨wi _ _ w.1 d.1, wi _ _ w.2.1 d.2.1, wi _ _ w.2.2 d.2.2⟩, nw, by linarith⟩
  · obtain ⟨t', me, hc, hr, _⟩ := moved A hM hP hx m hW hH
    have hc' := abs_le.1 (le_sub_iff_add_le.2 hc)
    have hr' := abs_le.1 (le_sub_iff_add_le.2 hr)
    refine .inr ⟨t', me, ?_⟩
    rcases onoff with on | off
    · obtain ⟨⟨c1, c2⟩, r1, r2⟩ := on
      exact .inl ⟨⟨by linarith, by linarith⟩, by linarith, by linarith⟩
    · right
      rcases off with h | h | h | h
      · exact .inl (by linarith)
      · exact .inr (.inl (by linarith))
      · exact .inr (.inr (.inl (by linarith)))
      · exact .inr (.inr (.inr (by linarith)))

/-- what a rounded start and direction change in the part of one ray, intersected exactly -/
theorem part_moved (A : Arithmetic rnd u η M) (hM : 1 ≤ M) (hP : P.Complete) (hx : x.Regular (u + η) R ρ s fcos fsin f) {W H : Nat} (hW : 2 ≤ W) (hH : 2 ≤ H) (hr1 : 1 ≤ r) (k0 : 0 < κ)
    (hp : 0 < p.width ∧ 0 < p.height) (cl : x.Clear (u + η) R ρ s r κ W H p) (i c : Nat) :
    |part W H i c (hit (Intersect.linePlane W H (start rnd fcos fsin f P x) (leave rnd fcos fsin f P x) x.magnitude p)) - part W H i c (hit (Intersect.linePlane W H x.start x.leave x.magnitude p))| ≤
      3838 * (u + η) + 4 * (pixels (u + η) R ρ s r κ p.width W + pixels (u + η) R ρ s r κ p.height H) := by
  have hε : 0 ≤ u + η := add_nonneg A.u_nonneg A.η_nonneg
  obtain ⟨hR, hρ, sm, _⟩ := hx.sized.facts hε
  have hs : 0 ≤ s := (Converge.length3_nonneg _).trans hx.point.2
  obtain ⟨w1, w2, w3, w4⟩ := pixels_large (n := W) hε k0 hR hρ hs (by linarith : 0 ≤ r) hp.1 hW
  obtain ⟨v1, v2, v3, v4⟩ := pixels_large (n := H) hε k0 hR hρ hs (by linarith : 0 ≤ r) hp.2 hH
  rcases cl with ⟨hn, h⟩ | ⟨t, m, onoff⟩
  · have d := leave_near A hM hP hx
    have ap : Apart (2200 / 78 * (u + η)) x.leave (leave rnd fcos fsin f P x) := ⟨d.1.trans (by linarith), d.2.1.trans (by linarith), d.2.2.trans (by linarith)⟩
    have c := abs_le.1 (cosine_near (by linarith) ap hn)
    rw [part_dark W H i _ _ (dark_behind W H _ _ _ p (by linarith)), part_dark W H i _ _ (dark_behind W H _ _ _ p (by linarith)), sub_zero, abs_zero]
    linarith
  · obtain ⟨t', me, hc, hr, hn⟩ := moved A hM hP hx m hW hH
    have m0 := meeting_of hε m.1 (leave_within A hM hP hx)
    have hc' := abs_le.1 (le_sub_iff_add_le.2 hc)
    have hr' := abs_le.1 (le_sub_iff_add_le.2 hr)
    rcases onoff with ⟨⟨c1, c2⟩, r1, r2⟩ | off
    · rw [exact_lands hε hW hH me ⟨⟨by linarith, by linarith⟩, by linarith, by linarith⟩ x.magnitude, exact_lands hε hW hH m0 ⟨⟨by linarith, by linarith⟩, by linarith, by linarith⟩ x.magnitude]
      have dl := abs_le.1 (dot_le m0.dir_within m0.normal_within)
      have neg : V3.dot x.leave p.normal < 0 := by linarith [m0.cosine.2.2]
      refine (part_near W H i c _ _ ⟨⟨?_, ?_⟩, ?_, ?_⟩ ⟨⟨?_, ?_⟩, ?_, ?_⟩ ?_ ?_).trans ?_
      · simp only; linarith
      · simp only; linarith
      · simp only; linarith
      · simp only; linarith
      · simp only; linarith
      · simp only; linarith
      · simp only; linarith
      · simp only; linarith
      · exact mul_nonneg hx.magnitude.1 (by linarith)
      · have := mul_le_of_le_one_left (by linarith : 0 ≤ -V3.dot x.leave p.normal) hx.magnitude.2
        simp only
        linarith [dl.1]
      · simp only
        rw [sub_sub_sub_cancel_left, abs_sub_comm (column W x.start x.leave p t)]
        have : |x.magnitude * -V3.dot (leave rnd fcos fsin f P x) p.normal - x.magnitude * -V3.dot x.leave p.normal| ≤ 3838 * (u + η) := by
          rw [← mul_sub, abs_mul, abs_of_nonneg hx.magnitude.1, show -V3.dot (leave rnd fcos fsin f P x) p.normal - -V3.dot x.leave p.normal =
            -(V3.dot (leave rnd fcos fsin f P x) p.normal - V3.dot x.leave p.normal) by ring, abs_neg]
          exact (mul_le_of_le_one_left (abs_nonneg _) hx.magnitude.2).trans hn
        linarith
    · have off' : Misses (u + η) (11 / 10 * r) (49 / 50 * κ) W H (start rnd fcos fsin f P x) (leave rnd fcos fsin f P x) p t' := by
        rcases off with h | h | h | h
        · exact .inl (by linarith)
        · exact .inr (.inl (by linarith))
        · exact .inr (.inr (.inl (by linarith)))
        · exact .inr (.inr (.inr (by linarith)))
      have off0 : Misses (u + η) r κ W H x.start x.leave p t := by
        rcases off with h | h | h | h
        · exact .inl (by linarith)
        · exact .inr (.inl (by linarith))
        · exact .inr (.inr (.inl (by linarith)))
        · exact .inr (.inr (.inr (by linarith)))
      rw [part_dark W H i _ _ (exact_misses hε hW hH me off' _), part_dark W H i _ _ (exact_misses hε hW hH m0 off0 _), sub_zero, abs_zero]
      linarith

end
end Artist.RoundedChain
