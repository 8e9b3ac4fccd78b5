import Verif.Proofs.RoundedKinematics
import Verif.Props.RoundedRay
/-! C130: floating point arithmetic from the joint angles to the mirror. -/
namespace Artist.RoundedKinematics
open Artist Transforms Kinematics RoundedRay Matrix Rounded
open Real (sin cos)

section
variable {rnd : ℝ → ℝ} {u η : ℝ} {M : Nat} {fcos fsin : ℝ → ℝ} {f : Fin 3 → ℝ} {P : Nat → Plans} {h : Heliostat} {θ₁ θ₂ R ρ : ℝ}

/-- C130: thirteen products of matrices turn directions by at most 450 units of rounding, move the centre by at most 75 units per metre of its distance from the origin, 777 per metre of lever arm and 250 in all, and
keep the last row exactly. -/
theorem C130_orientation (A : Arithmetic rnd u η M) (hM : 1 ≤ M) (hP : AllComplete P) (S : Sized (u + η) R ρ h) (T : Angles (u + η) fcos fsin f h θ₁ θ₂) :
    orientation rnd fcos fsin P f h θ₁ θ₂ 3 = ![0, 0, 0, 1] ∧
    (∀ x : Fin 4 → ℝ, x 3 = 0 → length3 (orientation rnd fcos fsin P f h θ₁ θ₂ *ᵥ x - (h.anglesToOrientation θ₁ θ₂ * orientationOffset) *ᵥ x) ≤ 450 * (u + η) * length3 x) ∧
    length3 (orientation rnd fcos fsin P f h θ₁ θ₂ *ᵥ ![0, 0, 0, 1] - (h.anglesToOrientation θ₁ θ₂ * orientationOffset) *ᵥ ![0, 0, 0, 1]) ≤ (75 * R + 777 * ρ + 250) * (u + η) := by
  have C := orientation_close A hM rfl hP S T
  exact ⟨C.last, C.dir, C.org⟩

/-- C130: normals of the mirror are right up to 486 units of rounding and remain directions. -/
theorem C130_normal (A : Arithmetic rnd u η M) (hM : 1 ≤ M) (hP : AllComplete P) (Q : Fin 4 → Plan) (hQ : ∀ i, (Q i).Complete) (S : Sized (u + η) R ρ h) (T : Angles (u + η) fcos fsin f h θ₁ θ₂)
    (n : Fin 4 → ℝ) (hn : AtMostUnit n) :
    place rnd Q (orientation rnd fcos fsin P f h θ₁ θ₂) n 3 = 0 ∧
    length3 (place rnd Q (orientation rnd fcos fsin P f h θ₁ θ₂) n - (h.anglesToOrientation θ₁ θ₂ * orientationOffset) *ᵥ n) ≤ 486 * (u + η) := by
  have h0 : 0 ≤ u + η := add_nonneg A.u_nonneg A.η_nonneg
  obtain ⟨hR, hρ, sm, bd⟩ := S.facts h0
  have C := orientation_close A hM rfl hP S T
  refine ⟨by simpa using place_last A hM Q hQ C.last n 0 (by omega) (by simpa using hn.1), ?_⟩
  have b := bd 75 777 250 (by norm_num) (by norm_num) (by norm_num) (by norm_num) (by norm_num) (by norm_num)
  have l : length3 n ≤ 1005 / 1000 := Converge.length3_le_of_sq (by norm_num) (hn.2.trans (by norm_num))
  have p := place_close A (by linarith) Q hQ C (by linarith) (by linarith) (by linarith) n
  rw [hn.1, abs_zero, zero_mul, zero_mul, add_zero, add_zero] at p
  have := mul_le_mul_of_nonneg_left l h0
  linarith

/-- C130: points of the mirror that are `s` away from its centre. -/
theorem C130_point (A : Arithmetic rnd u η M) (hM : 1 ≤ M) (hP : AllComplete P) (Q : Fin 4 → Plan) (hQ : ∀ i, (Q i).Complete) (S : Sized (u + η) R ρ h) (T : Angles (u + η) fcos fsin f h θ₁ θ₂)
    (p : Fin 4 → ℝ) (hp : p 3 = 1) (s : ℝ) (hs : length3 p ≤ s) :
    place rnd Q (orientation rnd fcos fsin P f h θ₁ θ₂) p 3 = 1 ∧
    length3 (place rnd Q (orientation rnd fcos fsin P f h θ₁ θ₂) p - (h.anglesToOrientation θ₁ θ₂ * orientationOffset) *ᵥ p) ≤ (465 * s + 90 * R + 822 * ρ + 269) * (u + η) := by
  have h0 : 0 ≤ u + η := add_nonneg A.u_nonneg A.η_nonneg
  obtain ⟨hR, hρ, sm, bd⟩ := S.facts h0
  have C := orientation_close A hM rfl hP S T
  refine ⟨by simpa using place_last A hM Q hQ C.last p 1 le_rfl (by simpa using hp), ?_⟩
  have b := bd 75 777 250 (by norm_num) (by norm_num) (by norm_num) (by norm_num) (by norm_num) (by norm_num)
  have k := place_close A (by linarith) Q hQ C (by linarith) (by linarith) (by linarith) p
  rw [hp, abs_one, one_mul, one_mul] at k
  have := mul_le_mul_of_nonneg_left hs h0
  linarith

/-- C130: the same for given motor positions, if the joint angles are those of exact arithmetic. -/
theorem C130_motors (A : Arithmetic rnd u η M) (hM : 1 ≤ M) (hP : AllComplete P) (m : ℝ × ℝ) (S : Sized (u + η) R ρ h)
    (T : Angles (u + η) fcos fsin f h (h.actuator1.toAngle m.1) (h.actuator2.toAngle m.2)) (x : Fin 4 → ℝ) (hx : x 3 = 0) :
    length3 (orientation rnd fcos fsin P f h (h.actuator1.toAngle m.1) (h.actuator2.toAngle m.2) *ᵥ x - h.motorToOrientation m *ᵥ x) ≤ 450 * (u + η) * length3 x ∧
    length3 (orientation rnd fcos fsin P f h (h.actuator1.toAngle m.1) (h.actuator2.toAngle m.2) *ᵥ ![0, 0, 0, 1] - h.motorToOrientation m *ᵥ ![0, 0, 0, 1]) ≤ (75 * R + 777 * ρ + 250) * (u + η) :=
  have C := C130_orientation A hM hP S T
  ⟨C.2.1 x hx, C.2.2⟩

/-- C130: rays leave the mirror of the computed kinematics, in computed arithmetic, within 2200 units of rounding of their exact directions. -/
theorem C130_ray (A : Arithmetic rnd u η M) (hM : 1 ≤ M) (hP : AllComplete P) (Q : Fin 4 → Plan) (hQ : ∀ i, (Q i).Complete) (S : Sized (u + η) R ρ h) (T : Angles (u + η) fcos fsin f h θ₁ θ₂)
    (n : Fin 4 → ℝ) (hn : n 3 = 0) (hn1 : length3 n = 1) (P' : Plan) (hP' : P'.Complete) (Q' : Fin 3 → Plan) (hQ' : ∀ i, (Q' i).Complete) (i : Fin 4 → ℝ) (hi : AtMostUnit i) (e t : ℝ)
    (he : Faithful (u + η) fcos fsin e) (ht : Faithful (u + η) fcos fsin t) (d d' : V3 ℝ) (hd : d = Flux.direction i ((h.anglesToOrientation θ₁ θ₂ * orientationOffset) *ᵥ n) e t)
    (hd' : d' = direction rnd P' Q' fcos fsin i (place rnd Q (orientation rnd fcos fsin P f h θ₁ θ₂) n) e t) :
    |d'.e - d.e| ≤ 2200 * (u + η) ∧ |d'.n - d.n| ≤ 2200 * (u + η) ∧ |d'.u - d.u| ≤ 2200 * (u + η) := by
  have h0 : 0 ≤ u + η := add_nonneg A.u_nonneg A.η_nonneg
  obtain ⟨hR, hρ, sm, bd⟩ := S.facts h0
  have C := orientation_close A hM rfl hP S T
  have sq1 : n 0 ^ 2 + n 1 ^ 2 + n 2 ^ 2 = 1 := by rw [← length_sq, hn1, one_pow]
  obtain ⟨g3, g⟩ := C130_normal A hM hP Q hQ S T n ⟨hn, by linarith⟩
  set n' := place rnd Q (orientation rnd fcos fsin P f h θ₁ θ₂) n with hn'
  set N := (h.anglesToOrientation θ₁ θ₂ * orientationOffset) *ᵥ n with hN
  have N3 : N 3 = 0 := by rw [hN, C.rigid.homogeneous, hn]
  have N1 : length3 N = 1 := by rw [hN, C.rigid.length_dir n hn, hn1]
  have n1 : length3 n' ≤ 1 + 486 * (u + η) := by
    have := Converge.length3_triangle n' N 0
    rw [sub_zero, sub_zero, N1] at this
    linarith
  have n2 : length3 n' ≤ 10031 / 10000 := by linarith
  have nU : AtMostUnit n' := by
    refine ⟨g3, ?_⟩
    rw [← length_sq]
    nlinarith [Converge.length3_nonneg n']
  have i1 : length3 i ≤ 1005 / 1000 := Converge.length3_le_of_sq (by norm_num) (hi.2.trans (by norm_num))
  have k := C129_direction A (by linarith) P' hP' Q' hQ' fcos fsin ⟨⟨0, 0, 0⟩, i, n', e, t, 0⟩ ⟨⟨hi, nU⟩, ⟨he, ht⟩, le_rfl, zero_le_one⟩
  have w := reflect_wrong i N n' hi.1 N3 g3
  have w2 : length3 (Intersect.reflect i n' - Intersect.reflect i N) ≤ 2000 * (u + η) := by
    refine w.trans ?_
    rw [N1]
    have a1 : 2 * length3 i * (1 + length3 n') ≤ 2 * (1005 / 1000) * (1 + 10031 / 10000) :=
      mul_le_mul (by linarith) (by linarith) (by have := Converge.length3_nonneg n'; linarith) (by norm_num)
    have a2 := mul_le_mul a1 g (Converge.length3_nonneg _) (by norm_num)
    linarith
  have r3 : (Intersect.reflect i n' - Intersect.reflect i N) 3 = 0 := by
    simp [Intersect.reflect, hi.1, g3, N3]
  have dist : length3 (rotDist e t *ᵥ (Intersect.reflect i n' - Intersect.reflect i N)) ≤ 2000 * (u + η) := by
    rw [(rigid_rotDist e t).length_dir _ r3]
    exact w2
  rw [mulVec_sub] at dist
  obtain ⟨c1, c2, c3⟩ := comp_le_length (rotDist e t *ᵥ Intersect.reflect i n' - rotDist e t *ᵥ Intersect.reflect i N)
  have hx : (⟨⟨0, 0, 0⟩, i, n', e, t, 0⟩ : Sent).dir = Flux.direction i n' e t := rfl
  rw [hx] at k
  rw [hd, hd']
  refine ⟨(abs_sub_le _ (Flux.direction i n' e t).e _).trans ?_, (abs_sub_le _ (Flux.direction i n' e t).n _).trans ?_, (abs_sub_le _ (Flux.direction i n' e t).u _).trans ?_⟩
  · exact (add_le_add k.1 (c1.trans dist)).trans (by linarith)
  · exact (add_le_add k.2.1 (c2.trans dist)).trans (by linarith)
  · exact (add_le_add k.2.2 (c3.trans dist)).trans (by linarith)

end

/-- C130 in float32: a heliostat within 200 m of the origin with lever arms of at most one metre and points at most five metres from its centre.  Points are right up to 1.4 mm, normals up to 0.03 mrad. -/
theorem C130_float32 (P : Nat → Plans) (hP : AllComplete P) (Q : Fin 4 → Plan) (hQ : ∀ i, (Q i).Complete) (fcos fsin : ℝ → ℝ) (f : Fin 3 → ℝ) (h : Heliostat) (θ₁ θ₂ : ℝ)
    (S : Sized (1 / 2 ^ 24 + 2 ^ (-149 : Int) / 2) 200 1 h) (T : Angles (1 / 2 ^ 24 + 2 ^ (-149 : Int) / 2) fcos fsin f h θ₁ θ₂) (p n : Fin 4 → ℝ) (hp : p 3 = 1 ∧ length3 p ≤ 5) (hn : AtMostUnit n) :
    length3 (place float32 Q (orientation float32 fcos fsin P f h θ₁ θ₂) p - (h.anglesToOrientation θ₁ θ₂ * orientationOffset) *ᵥ p) < 14 / 10 ^ 4 ∧
    length3 (place float32 Q (orientation float32 fcos fsin P f h θ₁ θ₂) n - (h.anglesToOrientation θ₁ θ₂ * orientationOffset) *ᵥ n) < 3 / 10 ^ 5 := by
  have e : (1 / 2 ^ 24 + 2 ^ (-149 : Int) / 2 : ℝ) ≤ 61 / 10 ^ 9 := by norm_num
  have e0 : (0 : ℝ) ≤ 1 / 2 ^ 24 + 2 ^ (-149 : Int) / 2 := by positivity
  have k1 := (C130_point C103_float32 (by norm_num) hP Q hQ S T p hp.1 5 hp.2).2
  have k2 := (C130_normal C103_float32 (by norm_num) hP Q hQ S T n hn).2
  exact ⟨k1.trans_lt (by linarith), k2.trans_lt (by linarith)⟩

/-- a heliostat 93 m from the origin with tilted axes and lever arms of 30 to 50 cm, its joints at 0.3 and 1.2 rad, and sums that are added up from left to right -/
example (a₁ a₂ : Actuator) : ∃ (P : Nat → Plans) (Q : Fin 4 → Plan) (fcos fsin : ℝ → ℝ) (f : Fin 3 → ℝ) (h : Heliostat) (p n : Fin 4 → ℝ), h.actuator1 = a₁ ∧ h.actuator2 = a₂ ∧ AllComplete P ∧
    (∀ i, (Q i).Complete) ∧ Sized (1 / 2 ^ 24 + 2 ^ (-149 : Int) / 2) 200 1 h ∧ Angles (1 / 2 ^ 24 + 2 ^ (-149 : Int) / 2) fcos fsin f h (3 / 10) (6 / 5) ∧ (p 3 = 1 ∧ length3 p ≤ 5) ∧
    AtMostUnit n ∧ n 3 = 0 ∧ length3 n = 1 := by
  have e0 : (0 : ℝ) ≤ 1 / 2 ^ 24 + 2 ^ (-149 : Int) / 2 := by positivity
  have F : ∀ x, Faithful (1 / 2 ^ 24 + 2 ^ (-149 : Int) / 2) cos sin x := fun x => ⟨by rw [sub_self, abs_zero]; linarith, by rw [sub_self, abs_zero]; linarith⟩
  have c : (Plan.add (.add (.add (.product 0) (.product 1)) (.product 2)) (.product 3)).Complete := by
    simp only [Plan.Complete, Plan.terms]
    decide
  refine ⟨fun _ _ _ => .add (.add (.add (.product 0) (.product 1)) (.product 2)) (.product 3), fun _ => .add (.add (.add (.product 0) (.product 1)) (.product 2)) (.product 3), cos, sin,
    decomposeRotations ![0, 0, 1] ![0, -1, 0], ⟨![20, 90, 1, 1], ![0, 0, 3 / 10, 0, 1 / 2, 0, 0, 0, 2 / 5], ![1 / 100, -1 / 100, 1 / 50, 0], a₁, a₂⟩, ![3, 4, 0, 1], ![0, 3 / 5, 4 / 5, 0], rfl, rfl,
    fun _ _ _ => c, fun _ => c, ⟨?_, ?_, ?_, ?_, by norm_num⟩, ⟨fun _ => F _, ⟨F _, F _⟩, fun _ => F _, fun i => by rw [sub_self, abs_zero]; linarith⟩, ⟨by simp, ?_⟩, ⟨by simp, by simp; norm_num⟩, by simp, ?_⟩
  · exact Converge.length3_le_of_sq (by norm_num) (by simp; norm_num)
  · exact Converge.length3_le_of_sq (by norm_num) (by simp; norm_num)
  · exact Converge.length3_le_of_sq (by norm_num) (by simp; norm_num)
  · exact Converge.length3_le_of_sq (by norm_num) (by simp; norm_num)
  · exact Converge.length3_le_of_sq (by norm_num) (by simp; norm_num)
  · rw [length3, Real.sqrt_eq_one]
    simp
    norm_num

end Artist.RoundedKinematics
