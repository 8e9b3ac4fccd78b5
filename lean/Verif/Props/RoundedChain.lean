import Verif.Proofs.RoundedChain
/-! C131: floating point arithmetic from the joint angles to the target. -/
namespace Artist.RoundedChain
open Artist Transforms Kinematics Intersect RoundedRay RoundedKinematics RoundedLanding Matrix Rounded
open Real (sin cos)

section
variable {rnd : ℝ → ℝ} {u η : ℝ} {M : Nat} {fcos fsin : ℝ → ℝ} {f : Fin 3 → ℝ} {P : Plans} {x : Ray} {R ρ s r κ t : ℝ} {p : Plane ℝ}

/-- C131: a ray that is followed from the joint angles of its heliostat to the target in floating point arithmetic lands where it does in exact arithmetic, up to an explicit distance. -/
theorem C131_lands (A : Arithmetic rnd u η M) (hM : 1 ≤ M) (hP : P.Complete) (hx : x.Regular (u + η) R ρ s fcos fsin f) (m : x.Arrives (u + η) R ρ s r κ p t) (W H : Nat) (hW : 2 ≤ W) (hH : 2 ≤ H)
    (on : x.Inside (u + η) R ρ s r κ W H p t) (l : Landing ℝ) (hl : l = landing rnd fcos fsin f P x W H p) :
    |l.e - ((W : ℝ) - 1 - column W x.start x.leave p t)| ≤ pixels (u + η) R ρ s r κ p.width W ∧ |l.u - row H x.start x.leave p t| ≤ pixels (u + η) R ρ s r κ p.height H ∧
    |l.intensity - x.magnitude * -V3.dot x.leave p.normal| ≤ 3860 * (u + η) := by
  obtain ⟨t', me, hc, hr, hn⟩ := moved A hM hP hx m hW hH
  obtain ⟨⟨c1, c2⟩, r1, r2⟩ := on
  have hc' := abs_le.1 (le_sub_iff_add_le.2 hc)
  have hr' := abs_le.1 (le_sub_iff_add_le.2 hr)
  obtain ⟨g1, g2, _, g4⟩ := C126_lands A P.angle P.distance W H hW hH _ _ t' _ _ p me ⟨⟨by linarith, by linarith⟩, by linarith, by linarith⟩ x.magnitude hx.magnitude
  have hl' : l = linePlane rnd P.angle P.distance W H (start rnd fcos fsin f P x) (leave rnd fcos fsin f P x) x.magnitude p := hl
  rw [← hl'] at g1 g2 g4
  refine ⟨?_, ?_, ?_⟩
  · refine (abs_sub_le _ _ _).trans ((add_le_add g1 (le_of_eq ?_)).trans ((add_comm _ _).trans_le hc))
    rw [sub_sub_sub_cancel_left, abs_sub_comm]
  · exact (abs_sub_le _ _ _).trans ((add_le_add g2 le_rfl).trans ((add_comm _ _).trans_le hr))
  · refine (abs_sub_le _ _ _).trans ((add_le_add g4 (d := 3838 * (u + η)) ?_).trans (by linarith))
    rw [← mul_sub, abs_mul, abs_of_nonneg hx.magnitude.1, show -V3.dot (leave rnd fcos fsin f P x) p.normal - -V3.dot x.leave p.normal =
      -(V3.dot (leave rnd fcos fsin f P x) p.normal - V3.dot x.leave p.normal) by ring, abs_neg]
    exact (mul_le_of_le_one_left (abs_nonneg _) hx.magnitude.2).trans hn

/-- C131: a ray that passes beside the target carries nothing in floating point arithmetic either. -/
theorem C131_misses (A : Arithmetic rnd u η M) (hM : 1 ≤ M) (hP : P.Complete) (hx : x.Regular (u + η) R ρ s fcos fsin f) (m : x.Arrives (u + η) R ρ s r κ p t) (W H : Nat) (hW : 2 ≤ W) (hH : 2 ≤ H)
    (off : x.Outside (u + η) R ρ s r κ W H p t) : (landing rnd fcos fsin f P x W H p).intensity = 0 := by
  obtain ⟨t', me, hc, hr, _⟩ := moved A hM hP hx m hW hH
  have hc' := abs_le.1 (le_sub_iff_add_le.2 hc)
  have hr' := abs_le.1 (le_sub_iff_add_le.2 hr)
  refine C126_misses A P.angle P.distance W H hW hH _ _ t' _ _ p me ?_ x.magnitude
  rcases off with h | h | h | h
  · exact .inl (by linarith)
  · exact .inr (.inl (by linarith))
  · exact .inr (.inr (.inl (by linarith)))
  · exact .inr (.inr (.inr (by linarith)))

/-- C131: a ray that reaches the target from behind carries nothing. -/
theorem C131_behind (A : Arithmetic rnd u η M) (hM : 1 ≤ M) (hP : P.Complete) (hx : x.Regular (u + η) R ρ s fcos fsin f) (hn : V3.normSq p.normal ≤ 101 / 100)
    (h : 3860 * (u + η) ≤ V3.dot x.leave p.normal) (W H : Nat) : (landing rnd fcos fsin f P x W H p).intensity = 0 := by
  have hε : 0 ≤ u + η := add_nonneg A.u_nonneg A.η_nonneg
  obtain ⟨_, _, sm, _⟩ := hx.sized.facts hε
  have d := leave_near A hM hP hx
  have w := leave_within A hM hP hx
  have ap : Apart (2200 / 78 * (u + η)) x.leave (leave rnd fcos fsin f P x) := ⟨d.1.trans (by linarith), d.2.1.trans (by linarith), d.2.2.trans (by linarith)⟩
  have c := abs_le.1 (cosine_near (by linarith) ap hn)
  have wi : ∀ x x' : ℝ, |x| ≤ 104 / 100 → |x' - x| ≤ 2200 * (u + η) → |x'| ≤ 11 / 10 := fun x x' hx hx' => by
    have := abs_sub_abs_le_abs_sub x' x
    linarith
  have nw : Within (11 / 10) p.normal := by
    unfold V3.normSq V3.dot at hn
    have := comp_le (x := p.normal.e) (y := p.normal.n) (z := p.normal.u) (by norm_num : (0 : ℝ) ≤ 11 / 10) (by nlinarith)
    exact this
  exact C126_behind A P.angle P.distance W H _ _ p ⟨by linarith, ⟨wi _ _ w.1 d.1, wi _ _ w.2.1 d.2.1, wi _ _ w.2.2 d.2.2⟩, nw, by linarith⟩ x.magnitude

end

/-- C131 in float32: a heliostat within 200 m of the origin, a target of 8 m and 256 pixels that is met at 60 degrees or less.  The ray lands within five pixels, 15 cm, of where it should. -/
theorem C131_float32 (P : Plans) (hP : P.Complete) (fcos fsin : ℝ → ℝ) (f : Fin 3 → ℝ) (x : Ray) (p : Plane ℝ) (t : ℝ) (hx : x.Regular (1 / 2 ^ 24 + 2 ^ (-149 : Int) / 2) 200 1 5 fcos fsin f)
    (m : x.Arrives (1 / 2 ^ 24 + 2 ^ (-149 : Int) / 2) 200 1 5 200 (1 / 2) p t) (hp : p.width = 8 ∧ p.height = 8) (c1 : 5 < column 256 x.start x.leave p t ∧ column 256 x.start x.leave p t < 250)
    (r1 : 5 < RoundedLanding.row 256 x.start x.leave p t ∧ RoundedLanding.row 256 x.start x.leave p t < 250) (l : Landing ℝ) (hl : l = landing float32 fcos fsin f P x 256 256 p) :
    |l.e - (255 - column 256 x.start x.leave p t)| < 5 ∧ |l.u - RoundedLanding.row 256 x.start x.leave p t| < 5 ∧ |l.intensity - x.magnitude * -V3.dot x.leave p.normal| < 3 / 10 ^ 4 := by
  have e : (1 / 2 ^ 24 + 2 ^ (-149 : Int) / 2 : ℝ) ≤ 61 / 10 ^ 9 := by norm_num
  have s : pixels (1 / 2 ^ 24 + 2 ^ (-149 : Int) / 2) 200 1 5 200 (1 / 2) 8 256 < 5 := by
    unfold pixels reach
    norm_num
  have h := C131_lands C103_float32 (by norm_num) hP hx m 256 256 (by norm_num) (by norm_num) (by
    unfold Ray.Inside
    rw [hp.1, hp.2]
    push_cast
    exact ⟨⟨by linarith, by linarith⟩, by linarith, by linarith⟩) l hl
  rw [hp.1, hp.2] at h
  obtain ⟨h1, h2, h4⟩ := h
  refine ⟨?_, h2.trans_lt s, h4.trans_lt (by linarith)⟩
  have := h1.trans_lt s
  push_cast at this
  rw [show (256 : ℝ) - 1 - column 256 x.start x.leave p t = 255 - column 256 x.start x.leave p t by ring] at this
  exact this

/-- a heliostat 90 m north of a target, whose mirror faces south -/
theorem sample_ray (a₁ a₂ : Actuator) (o : Order) : ∃ (P : Plans) (fcos fsin : ℝ → ℝ) (f : Fin 3 → ℝ) (x : Ray) (p : Plane ℝ) (t : ℝ), P.Complete ∧ x.heliostat.actuator1 = a₁ ∧ x.heliostat.actuator2 = a₂ ∧
    x.Regular (1 / 2 ^ 24 + 2 ^ (-149 : Int) / 2) 200 1 5 fcos fsin f ∧ x.Arrives (1 / 2 ^ 24 + 2 ^ (-149 : Int) / 2) 200 1 5 200 (1 / 2) p t ∧ (p.width = 8 ∧ p.height = 8) ∧
    (5 < column 256 x.start x.leave p t ∧ column 256 x.start x.leave p t < 250) ∧ (5 < RoundedLanding.row 256 x.start x.leave p t ∧ RoundedLanding.row 256 x.start x.leave p t < 250) ∧
    (∀ θ, Faithful (1 / 2 ^ 24 + 2 ^ (-149 : Int) / 2) fcos fsin θ) ∧ (x.first = 0 ∧ x.second = 0) ∧ 12 < column 256 x.start x.leave p t ∧ column 256 x.start x.leave p t < 243 ∧
    12 < RoundedLanding.row 256 x.start x.leave p t ∧ RoundedLanding.row 256 x.start x.leave p t < 243 := by
  have e0 : (0 : ℝ) ≤ 1 / 2 ^ 24 + 2 ^ (-149 : Int) / 2 := by positivity
  have F : ∀ x, Faithful (1 / 2 ^ 24 + 2 ^ (-149 : Int) / 2) cos sin x := fun x => ⟨by rw [sub_self, abs_zero]; linarith, by rw [sub_self, abs_zero]; linarith⟩
  have c : (Plan.add (.add (.add (.product 0) (.product 1)) (.product 2)) (.product 3)).Complete := by
    simp only [Plan.Complete, Plan.terms]
    decide
  let x : Ray := ⟨⟨![1, 90, 1, 1], ![0, 0, 3 / 10, 0, 1 / 2, 0, 0, 0, 2 / 5], ![0, 0, 0, 0], a₁, a₂⟩, 0, 0, ![1, 0, 0, 1], ![0, 0, 1, 0], ![0, 1, 0, 0], 0, 0, 1⟩
  have pose : x.pose = transl 1 (181 / 2) (17 / 10) * rotE (Real.pi / 2) := by
    rw [Ray.pose, offset_eq]
    congr 1
    ext i j
    fin_cases i <;> fin_cases j <;>
      simp [x, Heliostat.anglesToOrientation, rotE, rotN, rotU, transl, Matrix.mul_apply, Fin.sum_univ_four] <;> norm_num
  have st : x.start = ⟨2, 181 / 2, 17 / 10⟩ := by
    rw [Ray.start, pose]
    ext <;> simp [x, enu, rotE, transl, ← mulVec_mulVec, mulVec, dotProduct, Fin.sum_univ_four] <;> norm_num
  have lv : x.leave = ⟨0, -1, 0⟩ := by
    have n : x.pose *ᵥ x.normal = ![0, -1, 0, 0] := by
      rw [pose]
      ext i
      fin_cases i <;> simp [x, rotE, transl, ← mulVec_mulVec, mulVec, dotProduct, Fin.sum_univ_four]
    rw [Ray.leave, n]
    ext <;> simp [x, Flux.direction, Intersect.reflect, rotDist, mulVec, dotProduct, Fin.sum_univ_four, vecHead, vecTail]
    norm_num
  refine ⟨⟨fun _ _ _ => .add (.add (.add (.product 0) (.product 1)) (.product 2)) (.product 3), fun _ => .add (.add (.add (.product 0) (.product 1)) (.product 2)) (.product 3),
    fun _ => .add (.add (.add (.product 0) (.product 1)) (.product 2)) (.product 3), .add (.add (.add (.product 0) (.product 1)) (.product 2)) (.product 3),
    fun _ => .add (.add (.add (.product 0) (.product 1)) (.product 2)) (.product 3), o, o⟩, cos, sin,
    decomposeRotations ![0, 0, 1] ![0, -1, 0], x, ⟨⟨0, 10, 0⟩, ⟨0, 1, 0⟩, 8, 8⟩, 161 / 2, ⟨fun _ _ _ => c, fun _ => c, fun _ => c, c, fun _ => c⟩, rfl, rfl,
    ⟨⟨?_, ?_, ?_, ?_, by norm_num⟩, ⟨fun _ => F _, ⟨F _, F _⟩, fun _ => F _, fun i => by rw [sub_self, abs_zero]; linarith⟩, ⟨F _, F _⟩, ⟨by simp [x], ?_⟩, ⟨by simp [x], ?_⟩,
      ⟨by simp [x], by simp [x]; norm_num⟩, by simp [x], by simp [x]⟩, ?_, ⟨rfl, rfl⟩, ?_, ?_, F, ⟨rfl, rfl⟩, ?_⟩
  · exact Converge.length3_le_of_sq (by norm_num) (by simp [x]; norm_num)
  · exact Converge.length3_le_of_sq (by norm_num) (by simp [x]; norm_num)
  · exact Converge.length3_le_of_sq (by norm_num) (by simp [x]; norm_num)
  · exact Converge.length3_le_of_sq (by norm_num) (by simp [x]; norm_num)
  · exact Converge.length3_le_of_sq (by norm_num) (by simp [x])
  · rw [length3, Real.sqrt_eq_one]
    simp [x]
  · rw [Ray.Arrives, st, lv]
    refine ⟨⟨by norm_num, ?_, ?_, by simp [V3.normSq, V3.dot]; norm_num, by norm_num, by norm_num, ⟨by norm_num, by norm_num, by simp [V3.dot]; norm_num⟩, by norm_num, ?_, ?_⟩, by norm_num, by norm_num⟩
    · refine ⟨?_, ?_, ?_⟩ <;> rw [abs_le] <;> norm_num
    · refine ⟨?_, ?_, ?_⟩ <;> rw [abs_le] <;> norm_num
    · simp [V3.dot]
      norm_num
    · rw [abs_le]
      norm_num
  · rw [st, lv]
    simp [column]
    norm_num
  · rw [st, lv]
    simp [RoundedLanding.row]
    norm_num
  · rw [st, lv]
    simp [column, RoundedLanding.row]
    norm_num

end Artist.RoundedChain
