import Verif.Spec.RoundedChain
import Verif.Props.RoundedKinematics
/-! Helper lemmas for C131. -/
namespace Artist.RoundedChain
open Artist Transforms Kinematics Intersect RoundedRay RoundedKinematics RoundedLanding Matrix Rounded
noncomputable section

/-- a ray with another start and another direction meets the plane near where the first one does -/
theorem drifted {ε r κ t σ : ℝ} (hε : 0 ≤ ε) {o o' d d' : V3 ℝ} {p : Plane ℝ} (m : Arriving ε r κ o d p t) (small : 200000 * ε ≤ κ) (hd : Within (104 / 100) d)
    (hσ : 0 ≤ σ) (hσr : σ * ε ≤ κ * r / 100) (ho : (o'.e - o.e) ^ 2 + (o'.n - o.n) ^ 2 + (o'.u - o.u) ^ 2 ≤ (σ * ε) ^ 2)
    (h : |d'.e - d.e| ≤ 2200 * ε ∧ |d'.n - d.n| ≤ 2200 * ε ∧ |d'.u - d.u| ≤ 2200 * ε) :
    ∃ t', Meeting ε (11 / 10 * r) (49 / 50 * κ) o' d' p t' ∧ |(o' + t' • d').e - (o + t • d).e| ≤ (214 / 100 * σ + 5860 * r) * (ε / κ) ∧
      |(o' + t' • d').u - (o + t • d).u| ≤ (214 / 100 * σ + 5860 * r) * (ε / κ) ∧ |V3.dot d' p.normal - V3.dot d p.normal| ≤ 3838 * ε := by
  obtain ⟨k0, k1, kc⟩ := m.cosine
  have r1 := m.size
  have ap : Apart (2200 / 78 * ε) d d' := ⟨h.1.trans (by linarith), h.2.1.trans (by linarith), h.2.2.trans (by linarith)⟩
  have cn : |V3.dot d' p.normal - V3.dot d p.normal| ≤ 3838 * ε := (cosine_near (by linarith) ap m.normal_unit).trans (by linarith)
  have c := abs_le.1 cn
  have σε : 0 ≤ σ * ε := mul_nonneg hσ hε
  have nl : p.normal.e ^ 2 + p.normal.n ^ 2 + p.normal.u ^ 2 ≤ (1005 / 1000) ^ 2 := by
    have hn := m.normal_unit
    unfold V3.normSq V3.dot at hn
    nlinarith
  have on : |V3.dot (o' - o) p.normal| ≤ σ * ε * (1005 / 1000) := by
    have k := cauchy_abs σε (by norm_num : (0 : ℝ) ≤ 1005 / 1000) ho nl
    refine le_trans ?_ k
    have e : V3.dot (o' - o) p.normal = (o'.e - o.e) * p.normal.e + (o'.n - o.n) * p.normal.n + (o'.u - o.u) * p.normal.u := by simp [V3.dot]
    rw [e]
    exact abs_add_three _ _ _
  have oc := comp_le σε ho
  set a := V3.dot d p.normal with ha
  set a' := V3.dot d' p.normal with ha'
  have a'n : a' ≤ -(49 / 50 * κ) := by linarith [c.2]
  have a'0 : a' < 0 := by linarith
  set t' := (t * a - V3.dot (o' - o) p.normal) / a' with ht'
  have tt : (t' - t) * a' = t * (a - a') - V3.dot (o' - o) p.normal := by
    rw [ht', sub_mul, div_mul_cancel₀ _ a'0.ne]
    ring
  have near := m.near
  have X0 : 0 ≤ ε / κ := by positivity
  have X2 : ε ≤ ε / κ := by
    rw [le_div_iff₀ k0]
    exact mul_le_of_le_one_right hε k1
  have d1 : |t' - t| ≤ (1026 / 1000 * σ + 3525 * r) * (ε / κ) := by
    have e1 : |t' - t| * |a'| ≤ (9 / 10 * r) * (3838 * ε) + σ * ε * (1005 / 1000) := by
      rw [← abs_mul, tt]
      refine (abs_sub _ _).trans (add_le_add ?_ on)
      rw [abs_mul, abs_sub_comm a a']
      exact mul_le_mul near cn (abs_nonneg _) (by linarith)
    have e2 : 49 / 50 * κ ≤ |a'| := by
      rw [abs_of_neg a'0]; linarith
    have e3 := (mul_le_mul_of_nonneg_left e2 (abs_nonneg (t' - t))).trans e1
    have e4 : (1026 / 1000 * σ + 3525 * r) * (ε / κ) * (49 / 50 * κ) = 49 / 50 * ((1026 / 1000) * (σ * ε) + 3525 * (r * ε)) := by field_simp
    have e5 : 0 ≤ r * ε := by positivity
    refine le_of_mul_le_mul_right (e3.trans ?_) (by linarith : 0 < 49 / 50 * κ)
    rw [e4]
    linarith
  have X1 : ε / κ ≤ 1 / 200000 := by
    rw [div_le_iff₀ k0]
    linarith
  have X3 : σ * (ε / κ) ≤ r / 100 := by
    rw [mul_div_assoc', div_le_iff₀ k0]
    linarith
  have X4 : r * (ε / κ) ≤ r * (1 / 200000) := mul_le_mul_of_nonneg_left X1 (by linarith)
  have t1 : |t'| ≤ 93 / 100 * r := by
    have := abs_sub_abs_le_abs_sub t' t
    linarith
  have move : ∀ y y' x x' : ℝ, |y' - y| ≤ σ * ε → |x| ≤ 104 / 100 → |x' - x| ≤ 2200 * ε → |(y' + t' * x') - (y + t * x)| ≤ (214 / 100 * σ + 5860 * r) * (ε / κ) := by
    intro y y' x x' hy hx hx'
    rw [show (y' + t' * x') - (y + t * x) = (y' - y) + t' * (x' - x) + (t' - t) * x by ring]
    have b1 : |t' * (x' - x)| ≤ 93 / 100 * r * (2200 * ε) := by
      rw [abs_mul]
      exact mul_le_mul t1 hx' (abs_nonneg _) (by linarith)
    have b2 : |(t' - t) * x| ≤ (1026 / 1000 * σ + 3525 * r) * (ε / κ) * (104 / 100) := by
      rw [abs_mul]
      exact mul_le_mul d1 hx (abs_nonneg _) (mul_nonneg (by linarith) X0)
    have b3 : σ * ε ≤ σ * (ε / κ) := mul_le_mul_of_nonneg_left X2 hσ
    have b4 : r * ε ≤ r * (ε / κ) := mul_le_mul_of_nonneg_left X2 (by linarith)
    have b5 : 0 ≤ r * (ε / κ) := mul_nonneg (by linarith) X0
    have b6 : 0 ≤ σ * (ε / κ) := mul_nonneg hσ X0
    refine (abs_add_three _ _ _).trans ?_
    linarith
  have wi : ∀ x x' : ℝ, |x| ≤ 104 / 100 → |x' - x| ≤ 2200 * ε → |x'| ≤ 11 / 10 := fun x x' hx hx' => by
    have := abs_sub_abs_le_abs_sub x' x
    linarith
  have nw : Within (11 / 10) p.normal := by
    have := comp_le (x := p.normal.e) (y := p.normal.n) (z := p.normal.u) (by norm_num : (0 : ℝ) ≤ 11 / 10) (nl.trans (by norm_num))
    exact this
  have σr : σ * ε ≤ r / 10 := by
    have : κ * r ≤ r := mul_le_of_le_one_left (by linarith) k1
    linarith
  have wo : ∀ x x' : ℝ, |x| ≤ r → |x' - x| ≤ σ * ε → |x'| ≤ 11 / 10 * r := fun x x' hx hx' => by
    have := abs_sub_abs_le_abs_sub x' x
    linarith
  have up : ∀ x : ℝ, x ≤ r → x ≤ 11 / 10 * r := fun x hx => by linarith
  refine ⟨t', ⟨by linarith, ⟨wo _ _ m.origin_within.1 oc.1, wo _ _ m.origin_within.2.1 oc.2.1, wo _ _ m.origin_within.2.2 oc.2.2⟩,
    ⟨up _ m.center_within.1, up _ m.center_within.2.1, up _ m.center_within.2.2⟩, ⟨wi _ _ hd.1 h.1, wi _ _ hd.2.1 h.2.1, wi _ _ hd.2.2 h.2.2⟩, nw, ⟨m.width.1, up _ m.width.2⟩,
    ⟨m.height.1, up _ m.height.2⟩, ⟨by linarith, by linarith, a'n⟩, by linarith, ?_, by linarith⟩, move _ _ _ _ oc.1 hd.1 h.1, move _ _ _ _ oc.2.2 hd.2.2 h.2.2, cn⟩
  have me := m.meets
  have ex : ∀ (q : V3 ℝ) (s : ℝ) (x : V3 ℝ), V3.dot (q + s • x - p.center) p.normal = V3.dot (q - p.center) p.normal + s * V3.dot x p.normal := by
    intro q s x
    simp [V3.dot]
    ring
  have ex2 : V3.dot (o' - p.center) p.normal = V3.dot (o - p.center) p.normal + V3.dot (o' - o) p.normal := by
    simp [V3.dot]
    ring
  rw [ex] at me ⊢
  rw [← ha', ht', div_mul_cancel₀ _ a'0.ne, ex2, ha]
  linarith

variable {rnd : ℝ → ℝ} {u η : ℝ} {M : Nat} {fcos fsin : ℝ → ℝ} {f : Fin 3 → ℝ} {P : Plans} {x : Ray} {R ρ s r κ t : ℝ} {p : Plane ℝ}

theorem start_near (A : Arithmetic rnd u η M) (hM : 1 ≤ M) (hP : P.Complete) (hx : x.Regular (u + η) R ρ s fcos fsin f) :
    ((start rnd fcos fsin f P x).e - x.start.e) ^ 2 + ((start rnd fcos fsin f P x).n - x.start.n) ^ 2 + ((start rnd fcos fsin f P x).u - x.start.u) ^ 2 ≤
      ((465 * s + 90 * R + 822 * ρ + 269) * (u + η)) ^ 2 := by
  have h := (C130_point A hM hP.matrices P.point hP.point hx.sized hx.angles x.point hx.point.1 s hx.point.2).2
  have k := pow_le_pow_left₀ (Converge.length3_nonneg _) h 2
  rw [length_sq] at k
  exact k

theorem leave_near (A : Arithmetic rnd u η M) (hM : 1 ≤ M) (hP : P.Complete) (hx : x.Regular (u + η) R ρ s fcos fsin f) :
    |(leave rnd fcos fsin f P x).e - x.leave.e| ≤ 2200 * (u + η) ∧ |(leave rnd fcos fsin f P x).n - x.leave.n| ≤ 2200 * (u + η) ∧ |(leave rnd fcos fsin f P x).u - x.leave.u| ≤ 2200 * (u + η) :=
  C130_ray A hM hP.matrices P.normal hP.normal hx.sized hx.angles x.normal hx.normal.1 hx.normal.2 P.reflection hP.reflection P.scattering hP.scattering x.incident hx.incident x.e x.u
    hx.scattering.1 hx.scattering.2 _ _ rfl rfl

theorem leave_within (A : Arithmetic rnd u η M) (hM : 1 ≤ M) (hP : P.Complete) (hx : x.Regular (u + η) R ρ s fcos fsin f) : Within (104 / 100) x.leave := by
  have C := orientation_close A hM rfl hP.matrices hx.sized hx.angles
  refine direction_within _ _ hx.incident ⟨?_, ?_⟩ x.e x.u
  · rw [Ray.pose, C.rigid.homogeneous]
    exact hx.normal.1
  · rw [← length_sq, Ray.pose, C.rigid.length_dir _ hx.normal.1, hx.normal.2]
    norm_num

theorem shift_small (k0 : 0 < κ) (hε : 0 ≤ u + η) (hr : 0 ≤ r) {size : ℝ} (hs : 0 < size) {n : Nat} (hn : 2 ≤ n) :
    shift (u + η) (11 / 10 * r) (49 / 50 * κ) size n ≤ 113 * r * ((u + η) / κ) * (((n : ℝ) - 1) / size) := by
  have n1 : (0 : ℝ) ≤ (n : ℝ) - 1 := by
    have : (2 : ℝ) ≤ n := by exact_mod_cast hn
    linarith
  unfold shift
  refine mul_le_mul_of_nonneg_right ?_ (by positivity)
  have e : 100 * (u + η) * (11 / 10 * r / (49 / 50 * κ)) = 5500 / 49 * (r * ((u + η) / κ)) := by
    field_simp
    ring
  rw [e]
  have : 0 ≤ r * ((u + η) / κ) := by positivity
  linarith

/-- what the earlier parts give together -/
theorem moved (A : Arithmetic rnd u η M) (hM : 1 ≤ M) (hP : P.Complete) (hx : x.Regular (u + η) R ρ s fcos fsin f) (m : x.Arrives (u + η) R ρ s r κ p t) {W H : Nat} (hW : 2 ≤ W) (hH : 2 ≤ H) :
    ∃ t', Meeting (u + η) (11 / 10 * r) (49 / 50 * κ) (start rnd fcos fsin f P x) (leave rnd fcos fsin f P x) p t' ∧
      |column W (start rnd fcos fsin f P x) (leave rnd fcos fsin f P x) p t' - column W x.start x.leave p t| + shift (u + η) (11 / 10 * r) (49 / 50 * κ) p.width W ≤ pixels (u + η) R ρ s r κ p.width W ∧
      |row H (start rnd fcos fsin f P x) (leave rnd fcos fsin f P x) p t' - row H x.start x.leave p t| + shift (u + η) (11 / 10 * r) (49 / 50 * κ) p.height H ≤ pixels (u + η) R ρ s r κ p.height H ∧
      |V3.dot (leave rnd fcos fsin f P x) p.normal - V3.dot x.leave p.normal| ≤ 3838 * (u + η) := by
  have hε : 0 ≤ u + η := add_nonneg A.u_nonneg A.η_nonneg
  obtain ⟨m, ⟨sr, Rr, ρr⟩, small⟩ := m
  obtain ⟨hR, hρ, _, _⟩ := hx.sized.facts hε
  obtain ⟨k0, k1, _⟩ := m.cosine
  have r1 := m.size
  have hs : 0 ≤ s := (Converge.length3_nonneg _).trans hx.point.2
  have eR := mul_nonneg hε hR
  have eρ := mul_nonneg hε hρ
  have σr : (465 * s + 90 * R + 822 * ρ + 269) * (u + η) ≤ κ * r / 100 := by
    have h1 : (u + η) * s ≤ (u + η) * r := mul_le_mul_of_nonneg_left sr hε
    have h2 : 200000 * (u + η) * r ≤ κ * r := mul_le_mul_of_nonneg_right small (by linarith)
    have h3 := mul_le_mul_of_nonneg_left Rr hε
    have h4 := mul_le_mul_of_nonneg_left ρr hε
    have h5 := mul_le_mul_of_nonneg_left r1 hε
    linarith
  obtain ⟨t', me, ce, cu, cn⟩ := drifted hε m small (leave_within A hM hP hx) (by positivity) σr (start_near A hM hP hx) (leave_near A hM hP hx)
  refine ⟨t', me, ?_, ?_, cn⟩
  · have n1 : (0 : ℝ) ≤ (W : ℝ) - 1 := by
      have : (2 : ℝ) ≤ W := by exact_mod_cast hW
      linarith
    have q0 : 0 ≤ ((W : ℝ) - 1) / p.width := div_nonneg n1 m.width.1.le
    have e : column W (start rnd fcos fsin f P x) (leave rnd fcos fsin f P x) p t' - column W x.start x.leave p t =
        ((start rnd fcos fsin f P x + t' • leave rnd fcos fsin f P x).e - (x.start + t • x.leave).e) * (((W : ℝ) - 1) / p.width) := by
      unfold column
      ring
    rw [e, abs_mul, abs_of_nonneg q0]
    refine (add_le_add (mul_le_mul_of_nonneg_right ce q0) (shift_small k0 hε (by linarith) m.width.1 hW)).trans ?_
    unfold pixels reach
    rw [← add_mul]
    refine mul_le_mul_of_nonneg_right ?_ q0
    rw [← add_mul]
    exact mul_le_mul_of_nonneg_right (by linarith) (by positivity)
  · have n1 : (0 : ℝ) ≤ (H : ℝ) - 1 := by
      have : (2 : ℝ) ≤ H := by exact_mod_cast hH
      linarith
    have q0 : 0 ≤ ((H : ℝ) - 1) / p.height := div_nonneg n1 m.height.1.le
    have e : row H (start rnd fcos fsin f P x) (leave rnd fcos fsin f P x) p t' - row H x.start x.leave p t =
        ((start rnd fcos fsin f P x + t' • leave rnd fcos fsin f P x).u - (x.start + t • x.leave).u) * (((H : ℝ) - 1) / p.height) := by
      unfold RoundedLanding.row
      ring
    rw [e, abs_mul, abs_of_nonneg q0]
    refine (add_le_add (mul_le_mul_of_nonneg_right cu q0) (shift_small k0 hε (by linarith) m.height.1 hH)).trans ?_
    unfold pixels reach
    rw [← add_mul]
    refine mul_le_mul_of_nonneg_right ?_ q0
    rw [← add_mul]
    exact mul_le_mul_of_nonneg_right (by linarith) (by positivity)

end
end Artist.RoundedChain
