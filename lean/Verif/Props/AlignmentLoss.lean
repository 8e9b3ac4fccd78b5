import Verif.Proofs.AlignmentLoss
/-!
# C69: the alignment-driven reconstruction compares normals that reflect the sun onto the measured focal spots
-/
namespace Artist.AlignmentLoss
open Artist Matrix Kinematics Transforms Intersect

/-- C69: the measured normal is a unit vector facing the incident light, and a mirror with this normal standing at the heliostat's position
reflects the incident direction exactly towards the measured focal spot.  (The focal spot is away from the position and not straight behind it.) -/
theorem C69_measured_reflects (p f i : Fin 4 → ℝ) (hi : UnitDirection i) (hfar : 1 / 10 ^ 12 ≤ length3 (f - p))
    (hback : 1 / 10 ^ 12 ≤ length3 (direction p f - i)) :
    UnitDirection (measuredNormal p f i) ∧ reflect i (measuredNormal p f i) = direction p f ∧ inner3 i (measuredNormal p f i) < 0 := by
  have h0 : (0:ℝ) < 1 / 10 ^ 12 := by norm_num
  rw [measuredNormal_eq p f i hi.1 hfar hback]
  exact bisector i _ hi (direction_unit p f (lt_of_lt_of_le h0 hfar)) (lt_of_lt_of_le h0 hback)

/-- C69: the angle between the normal the kinematics predicts from the motor positions and the measured normal is zero exactly when the
predicted mirror faces the light and reflects the incident direction into the direction from the heliostat's position to the focal spot. -/
theorem C69_zero_iff (h : Heliostat) (m : ℝ × ℝ) (f i : Fin 4 → ℝ) (hi : UnitDirection i)
    (hfar : 1 / 10 ^ 12 ≤ length3 (f - h.position)) (hback : 1 / 10 ^ 12 ≤ length3 (direction h.position f - i)) :
    angleLoss (predictedNormal h m) (measuredNormal h.position f i) = 0 ↔
      reflect i (h.motorToOrientation m *ᵥ ![0, 0, 1, 0]) = direction h.position f ∧
        inner3 i (h.motorToOrientation m *ᵥ ![0, 0, 1, 0]) < 0 := by
  obtain ⟨h1, h2, h3⟩ := C69_measured_reflects h.position f i hi hfar hback
  have hp := predicted_unit h m
  rw [show predictedNormal h m = h.motorToOrientation m *ᵥ ![0, 0, 1, 0] from rfl, angleLoss_zero _ _ hp h1]
  constructor
  · intro e; rw [e]; exact ⟨h2, h3⟩
  · rintro ⟨e1, e2⟩
    rw [bisector_unique i _ _ hp e1 e2, measuredNormal_eq h.position f i hi.1 hfar hback]

/-- C69, the group: if every heliostat with samples has `k` of them, `t` of which are for training, then the `j`-th loss is the mean over the
training samples of the `j`-th heliostat with samples, of its own predicted normals against the normals measured for it. -/
theorem C69_group (testOf : Nat → Int) (loss : (Fin 4 → ℝ) → (Fin 4 → ℝ) → ℝ) (heliostats : List Heliostat) (mask : List Nat)
    (hlen : mask.length = heliostats.length) (k t : Nat) (hu : ∀ c ∈ mask, c = 0 ∨ c = k)
    (ht : (k : Int) - max 1 (testOf k) = t) (ht0 : 0 < t) (a : Nat) (ha : 0 < a) (H : Nat → Heliostat)
    (hH : activeRows heliostats mask = (List.range a).map H) (sample : Nat → Nat → Sample) :
    perHeliostat testOf loss heliostats mask ((List.range a).flatMap (fun j => (List.range k).map (sample j))) =
      .ok ((List.range a).map (fun j => mean ((List.range t).map (fun q =>
        loss (predictedNormal (H j) (sample j q).motors)
          (measuredNormal (H j).position (sample j q).focal (sample j q).incident))))) := by
  have hk : 0 < k := by omega
  have htk : t ≤ k := by omega
  have hact : Report.numberActive mask = a := by
    rw [← activeRows_length heliostats mask hlen, hH]; simp
  obtain ⟨s, h1, h2, h3, h4⟩ := Report.split_uniform testOf mask k hk hu (by omega) t ht
  rw [hact] at h4
  rw [flatMap_block a k sample]
  have hpos : activeRows (heliostats.map Heliostat.position) mask = (List.range a).map (fun j => (H j).position) := by
    have : activeRows (heliostats.map Heliostat.position) mask = (activeRows heliostats mask).map Heliostat.position := by
      rw [activeRows, activeRows, List.zip_map_left, List.filter_map, List.map_map, List.map_map]
      rfl
    rw [this, hH, List.map_map]; rfl
  have hm : measuredNormals heliostats mask ((List.range (a * k)).map (fun s => sample (s / k) (s % k))) =
      .ok ((List.range (a * k)).map (fun s => measuredNormal (H (s / k)).position (sample (s / k) (s % k)).focal (sample (s / k) (s % k)).incident)) := by
    unfold measuredNormals
    rw [repeatCounts_ok _ _ (by rw [List.length_map]; exact hlen), repeatInterleave_uniform _ _ k hu hk, hpos, flatMap_replicate]
    exact pairLoss_map _ _ _ _
  have htrain : repeatCounts heliostats (s.maskTrain.map Int.toNat) = .ok ((List.range (a * t)).map (fun s => H (s / t))) := by
    rw [h3, repeatCounts_ok _ _ (by rw [List.length_map]; exact hlen), repeatInterleave_uniform _ _ t _ ht0, activeRows_train _ _ _ ht0, hH,
      flatMap_replicate]
    intro c hc
    obtain ⟨d, -, rfl⟩ := List.mem_map.1 hc
    split <;> simp
  have hg1 := gather_train a k t htk ht0 (fun s => sample (s / k) (s % k))
  have hg2 := gather_train a k t htk ht0
    (fun s => measuredNormal (H (s / k)).position (sample (s / k) (s % k)).focal (sample (s / k) (s % k)).incident)
  have hp := pairLoss_map (fun h (x : Sample) => predictedNormal h x.motors) (a * t) (fun s => H (s / t))
    (fun s => sample ((s / t * k + s % t) / k) ((s / t * k + s % t) % k))
  have hl := pairLoss_map loss (a * t)
    (fun s => predictedNormal (H (s / t)) (sample ((s / t * k + s % t) / k) ((s / t * k + s % t) % k)).motors)
    (fun s => measuredNormal (H ((s / t * k + s % t) / k)).position (sample ((s / t * k + s % t) / k) ((s / t * k + s % t) % k)).focal
      (sample ((s / t * k + s % t) / k) ((s / t * k + s % t) % k)).incident)
  rw [perHeliostat, h1]
  simp only [h4, hm, htrain, h2, hg1, hg2, hp, hl]
  have hr := Report.reduce_own loss mean a k t ht0
    (fun s => predictedNormal (H (s / t)) (sample ((s / t * k + s % t) / k) ((s / t * k + s % t) % k)).motors)
    (fun s => measuredNormal (H (s / k)).position (sample (s / k) (s % k)).focal (sample (s / k) (s % k)).incident)
  rw [List.zipWith_map, List.zipWith_self] at hr
  rw [hr]
  refine congrArg Except.ok (List.map_congr_left (fun j _ => congrArg mean (List.map_congr_left (fun q hq => ?_))))
  rw [List.mem_range] at hq
  have e1 : (j * t + q) / t = j := by rw [Nat.add_comm, Nat.add_mul_div_right _ _ ht0, Nat.div_eq_of_lt hq, Nat.zero_add]
  have e2 : (j * t + q) % t = q := by rw [Nat.add_comm, Nat.add_mul_mod_self_right, Nat.mod_eq_of_lt hq]
  have e3 : (j * k + q) / k = j := by
    rw [Nat.add_comm, Nat.add_mul_div_right _ _ hk, Nat.div_eq_of_lt (by omega), Nat.zero_add]
  have e4 : (j * k + q) % k = q := by rw [Nat.add_comm, Nat.add_mul_mod_self_right, Nat.mod_eq_of_lt (by omega)]
  simp only [e1, e2, e3, e4]

/-- C69: the loss of a heliostat (mean of the angles of its training samples) is never negative, and zero exactly if each angle is. -/
theorem C69_mean_zero (l : List ℝ) (hl : l ≠ []) (h : ∀ x ∈ l, 0 ≤ x) : 0 ≤ mean l ∧ (mean l = 0 ↔ ∀ x ∈ l, x = 0) := by
  have hn : (0:ℝ) < l.length := by exact_mod_cast List.length_pos_iff.2 hl
  have hs : 0 ≤ l.sum := List.sum_nonneg h
  refine ⟨div_nonneg hs hn.le, ?_⟩
  rw [mean, div_eq_zero_iff, or_iff_left hn.ne']
  clear hn hs hl
  induction l with
  | nil => simp
  | cons x xs ih =>
    have hx := h x (by simp)
    have hxs : 0 ≤ xs.sum := List.sum_nonneg (fun y hy => h y (by simp [hy]))
    rw [List.sum_cons, add_eq_zero_iff_of_nonneg hx hxs, ih (fun y hy => h y (by simp [hy]))]
    simp

/-- C69: consider a heliostat whose mirror, at its true centre, reflects the incident direction exactly onto the measured focal spot.  The loss
of the sample is zero exactly if the focal spot lies in the same direction from the heliostat's position as from the mirror centre. -/
theorem C69_exact_iff (h : Heliostat) (m : ℝ × ℝ) (f i : Fin 4 → ℝ) (hi : UnitDirection i)
    (hfar : 1 / 10 ^ 12 ≤ length3 (f - h.position)) (hback : 1 / 10 ^ 12 ≤ length3 (direction h.position f - i))
    (hits : reflect i (h.motorToOrientation m *ᵥ ![0, 0, 1, 0]) = direction (h.motorToOrientation m *ᵥ ![0, 0, 0, 1]) f)
    (hface : inner3 i (h.motorToOrientation m *ᵥ ![0, 0, 1, 0]) < 0) :
    angleLoss (predictedNormal h m) (measuredNormal h.position f i) = 0 ↔
      direction (h.motorToOrientation m *ᵥ ![0, 0, 0, 1]) f = direction h.position f := by
  rw [C69_zero_iff h m f i hi hfar hback, hits]
  exact and_iff_left hface

theorem centre_at_position (h : Heliostat) (ht : h.translation = 0) (m : ℝ × ℝ) (f : Fin 4 → ℝ) :
    direction (h.motorToOrientation m *ᵥ ![0, 0, 0, 1]) f = direction h.position f := by
  have hE : ∀ x, rotE x *ᵥ ![0, 0, 0, 1] = ![0, 0, 0, 1] := by
    intro x; ext i; fin_cases i <;> simp [rotE, mulVec, dotProduct, Fin.sum_univ_four]
  have hN : ∀ x, rotN x *ᵥ ![0, 0, 0, 1] = ![0, 0, 0, 1] := by
    intro x; ext i; fin_cases i <;> simp [rotN, mulVec, dotProduct, Fin.sum_univ_four]
  have hU : ∀ x, rotU x *ᵥ ![0, 0, 0, 1] = ![0, 0, 0, 1] := by
    intro x; ext i; fin_cases i <;> simp [rotU, mulVec, dotProduct, Fin.sum_univ_four]
  have t0 : transl 0 0 0 = 1 := by ext i j; fin_cases i <;> fin_cases j <;> simp [transl, one_apply]
  have : h.motorToOrientation m *ᵥ ![0, 0, 0, 1] = ![h.position 0, h.position 1, h.position 2, 1] := by
    rw [Heliostat.motorToOrientation, offset_eq]
    simp only [Heliostat.forward, Heliostat.anglesToOrientation, ht, Pi.zero_apply, t0, one_mul, Matrix.mul_one, ← mulVec_mulVec, hE, hN, hU]
    ext i; fin_cases i <;> simp [transl, mulVec, dotProduct, Fin.sum_univ_four]
  rw [this, direction, direction]
  simp

/-- C69 (partial): a heliostat that hits the measured focal spot has loss zero if it has no translation deviations, so that its mirror centre
is its position.  Missing: heliostats with translations, see `C69_exact_wrong`. -/
theorem C69_exact_partial (h : Heliostat) (ht : h.translation = 0) (m : ℝ × ℝ) (f i : Fin 4 → ℝ) (hi : UnitDirection i)
    (hfar : 1 / 10 ^ 12 ≤ length3 (f - h.position)) (hback : 1 / 10 ^ 12 ≤ length3 (direction h.position f - i))
    (hits : reflect i (h.motorToOrientation m *ᵥ ![0, 0, 1, 0]) = direction (h.motorToOrientation m *ᵥ ![0, 0, 0, 1]) f)
    (hface : inner3 i (h.motorToOrientation m *ᵥ ![0, 0, 1, 0]) < 0) :
    angleLoss (predictedNormal h m) (measuredNormal h.position f i) = 0 :=
  (C69_exact_iff h m f i hi hfar hback hits hface).2 (centre_at_position h ht m f)

/-- A heliostat at the origin whose mirror centre is one metre above its position. -/
noncomputable def raised : Heliostat :=
  { position := ![0, 0, 0, 1], translation := ![0, 0, 0, 0, 0, 0, 0, 0, 1], rotation := 0,
    actuator1 := (Actuators.Ideal.mk (-4) 4).actuator, actuator2 := (Actuators.Ideal.mk (-4) 4).actuator }

theorem raised_orientation : raised.motorToOrientation (0, 0) = transl 0 0 1 * rotE (Real.pi / 2) := by
  have r0 : rotN 0 = 1 := by ext i j; fin_cases i <;> fin_cases j <;> simp [rotN, one_apply]
  have r1 : rotU 0 = 1 := by ext i j; fin_cases i <;> fin_cases j <;> simp [rotU, one_apply]
  have r2 : rotE 0 = 1 := by ext i j; fin_cases i <;> fin_cases j <;> simp [rotE, one_apply]
  have t0 : transl 0 0 0 = 1 := by ext i j; fin_cases i <;> fin_cases j <;> simp [transl, one_apply]
  rw [Heliostat.motorToOrientation, offset_eq]
  have e : raised.forward (0, 0) = transl 0 0 1 := by
    have t8 : transl (raised.translation 6) (raised.translation 7) (raised.translation 8) = transl 0 0 1 := rfl
    have t5 : transl (raised.translation 3) (raised.translation 4) (raised.translation 5) = transl 0 0 0 := rfl
    have t2 : transl (raised.translation 0) (raised.translation 1) (raised.translation 2) = transl 0 0 0 := rfl
    have tp : transl (raised.position 0) (raised.position 1) (raised.position 2) = transl 0 0 0 := rfl
    simp only [Heliostat.forward, Heliostat.anglesToOrientation, t8, t5, t2, tp, t0]
    simp [raised, Actuators.Ideal.actuator, Actuators.Ideal.toAngle, r0, r1, r2]
  rw [e]

theorem raised_normal : raised.motorToOrientation (0, 0) *ᵥ ![0, 0, 1, 0] = ![0, -1, 0, 0] := by
  rw [raised_orientation, ← mulVec_mulVec]
  have : rotE (Real.pi / 2) *ᵥ ![0, 0, 1, 0] = ![0, -1, 0, 0] := by
    ext i; fin_cases i <;> simp [rotE, mulVec, dotProduct, Fin.sum_univ_four]
  rw [this]
  ext i; fin_cases i <;> simp [transl, mulVec, dotProduct, Fin.sum_univ_four]

theorem raised_centre : raised.motorToOrientation (0, 0) *ᵥ ![0, 0, 0, 1] = ![0, 0, 1, 1] := by
  rw [raised_orientation, ← mulVec_mulVec]
  have : rotE (Real.pi / 2) *ᵥ ![0, 0, 0, 1] = ![0, 0, 0, 1] := by
    ext i; fin_cases i <;> simp [rotE, mulVec, dotProduct, Fin.sum_univ_four]
  rw [this]
  ext i; fin_cases i <;> simp [transl, mulVec, dotProduct, Fin.sum_univ_four]

/-- C69 is false for heliostats with translation deviations: this one hits the measured focal spot exactly, with the true parameters, and its
loss is nevertheless positive, because the measured normal starts from the heliostat's position instead of from the mirror centre. -/
theorem C69_exact_wrong : ∃ (h : Heliostat) (m : ℝ × ℝ) (f i : Fin 4 → ℝ), UnitDirection i ∧
    reflect i (h.motorToOrientation m *ᵥ ![0, 0, 1, 0]) = direction (h.motorToOrientation m *ᵥ ![0, 0, 0, 1]) f ∧
    inner3 i (h.motorToOrientation m *ᵥ ![0, 0, 1, 0]) < 0 ∧
    0 < angleLoss (predictedNormal h m) (measuredNormal h.position f i) := by
  have hi : UnitDirection ![0, 1, 0, 0] := ⟨by simp, by simp [length3]⟩
  have hc : direction ![0, 0, 1, 1] ![0, -10, 1, 1] = ![0, -1, 0, 0] := by
    have : length3 ![0, -10, 0, 0] = 10 := by
      rw [length3, show (![0, -10, 0, 0] : Fin 4 → ℝ) 0 ^ 2 + (![0, -10, 0, 0] : Fin 4 → ℝ) 1 ^ 2 + (![0, -10, 0, 0] : Fin 4 → ℝ) 2 ^ 2 = 10 ^ 2 by simp]
      exact Real.sqrt_sq (by norm_num)
    simp [direction, this]
  have hits : reflect ![0, 1, 0, 0] (raised.motorToOrientation (0, 0) *ᵥ ![0, 0, 1, 0]) =
      direction (raised.motorToOrientation (0, 0) *ᵥ ![0, 0, 0, 1]) ![0, -10, 1, 1] := by
    rw [raised_normal, raised_centre, hc, reflect]
    ext i; fin_cases i <;> simp [dotProduct, Fin.sum_univ_four]; norm_num
  have hface : inner3 ![0, 1, 0, 0] (raised.motorToOrientation (0, 0) *ᵥ ![0, 0, 1, 0]) < 0 := by
    rw [raised_normal]; simp [inner3]
  refine ⟨raised, (0, 0), ![0, -10, 1, 1], ![0, 1, 0, 0], hi, hits, hface, ?_⟩
  refine lt_of_le_of_ne (Losses.C37_angle _ (by norm_num) _ _).1 (Ne.symm ?_)
  have hpos : raised.position = ![0, 0, 0, 1] := rfl
  have hl : length3 (![0, -10, 1, 1] - raised.position) = √101 := by
    rw [hpos, length3]; congr 1; simp; norm_num
  have hs : (1:ℝ) ≤ √101 := by rw [Real.le_sqrt] <;> norm_num
  have hd : direction raised.position ![0, -10, 1, 1] = (√101)⁻¹ • ![0, -10, 1, 0] := by
    have : length3 ![0, -10, 1, 0] = √101 := by rw [length3]; congr 1; simp; norm_num
    rw [hpos, direction]; simp [this]
  have hinv : 0 < (√101)⁻¹ := inv_pos.2 (by linarith)
  have hback : 1 / 10 ^ 12 ≤ length3 (direction raised.position ![0, -10, 1, 1] - ![0, 1, 0, 0]) := by
    refine le_trans ?_ (abs_comp_le_length3 _).2.1
    rw [hd]
    simp only [Pi.sub_apply, Pi.smul_apply, smul_eq_mul, cons_val_one, cons_val_zero]
    rw [abs_of_neg (by nlinarith)]
    nlinarith
  rw [Ne, C69_exact_iff raised (0, 0) ![0, -10, 1, 1] ![0, 1, 0, 0] hi (by rw [hl]; linarith) hback hits hface, raised_centre, hc, hd]
  intro e
  have := congrFun e 2
  simp at this
  linarith

/-- The hypotheses of `C69_measured_reflects` and `C69_zero_iff` are met: sun in the south, focal spot north-west above. -/
example : UnitDirection ![0, 1, 0, 0] ∧ 1 / 10 ^ 12 ≤ length3 ((![3, -4, 12, 1] : Fin 4 → ℝ) - ![0, 0, 0, 1]) ∧
    1 / 10 ^ 12 ≤ length3 (direction ![0, 0, 0, 1] ![3, -4, 12, 1] - ![0, 1, 0, 0]) := by
  have h13 : length3 ![3, -4, 12, 0] = 13 := by
    rw [length3, show (![3, -4, 12, 0] : Fin 4 → ℝ) 0 ^ 2 + (![3, -4, 12, 0] : Fin 4 → ℝ) 1 ^ 2 + (![3, -4, 12, 0] : Fin 4 → ℝ) 2 ^ 2 = 13 ^ 2 by
      simp; norm_num]
    exact Real.sqrt_sq (by norm_num)
  refine ⟨⟨by simp, by simp [length3]⟩, ?_, ?_⟩
  · refine le_trans ?_ (abs_comp_le_length3 _).1
    simp; norm_num
  · refine le_trans ?_ (abs_comp_le_length3 _).1
    simp [direction, h13]; norm_num

/-- The hypotheses of `C69_group` are met: three heliostats, the second without samples, the others with four samples of which one is for
testing. -/
example (loss : (Fin 4 → ℝ) → (Fin 4 → ℝ) → ℝ) (h₁ h₂ h₃ : Heliostat) (sample : Nat → Nat → Sample) :
    perHeliostat (fun n => n / 4) loss [h₁, h₂, h₃] [4, 0, 4] ((List.range 2).flatMap (fun j => (List.range 4).map (sample j))) =
      .ok ((List.range 2).map (fun j => mean ((List.range 3).map (fun q =>
        loss (predictedNormal (if j = 0 then h₁ else h₃) (sample j q).motors)
          (measuredNormal (if j = 0 then h₁ else h₃).position (sample j q).focal (sample j q).incident))))) :=
  C69_group (fun n => n / 4) loss [h₁, h₂, h₃] [4, 0, 4] rfl 4 3 (by decide) (by decide) (by decide) 2 (by decide)
    (fun j => if j = 0 then h₁ else h₃) rfl sample

end Artist.AlignmentLoss
