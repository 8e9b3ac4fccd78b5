import Verif.Spec.RoundedMotorsImage
import Verif.Props.RoundedMotors
import Verif.Props.RoundedImage
/-! C138: the power on the target in floating point arithmetic, from the motor positions. -/
namespace Artist.RoundedMotors
open Artist Transforms Kinematics Actuators Intersect RoundedRay RoundedKinematics RoundedLanding RoundedChain Matrix Rounded

section
variable {rnd fsoft facos : ℝ → ℝ} {u η : ℝ} {M : Nat} {fcos fsin : ℝ → ℝ} {f : Fin 3 → ℝ} {R ρ s r κ D : ℝ} {p : Plane ℝ}

/-- C138: a ray that motor positions send to the back of the target carries nothing. -/
theorem C138_behind (A : Arithmetic rnd u η M) (hM : 1 ≤ M) {P : RoundedChain.Plans} (hP : P.Complete) (k : Sent) (hk : k.Regular (u + η) R ρ s rnd fsoft facos fcos fsin f)
    (hD : k.off rnd fsoft facos ≤ D) (small : 400000 * units (u + η) D ≤ 1) (hn : V3.normSq p.normal ≤ 101 / 100)
    (h : 3860 * units (u + η) D ≤ V3.dot (driven k.first k.second k.motors k.ray).leave p.normal) (W H : Nat) : (k.computed rnd fsoft facos fcos fsin f P W H p).w = 0 := by
  have hε : 0 ≤ u + η := add_nonneg A.u_nonneg A.η_nonneg
  have D0 : 0 ≤ D := le_trans (add_nonneg (abs_nonneg _) (abs_nonneg _)) hD
  have un : u + η ≤ units (u + η) D := by unfold units; linarith
  set x := turned k.ray (RoundedActuator.toAngle rnd fsoft facos k.first k.motors.1) (RoundedActuator.toAngle rnd fsoft facos k.second k.motors.2) with ex
  have hx : x.Regular (u + η) R ρ s fcos fsin f := hk
  set y := driven k.first k.second k.motors k.ray with ey
  have d : |(leave rnd fcos fsin f P x).e - y.leave.e| ≤ 2200 * units (u + η) D ∧ |(leave rnd fcos fsin f P x).n - y.leave.n| ≤ 2200 * units (u + η) D ∧
      |(leave rnd fcos fsin f P x).u - y.leave.u| ≤ 2200 * units (u + η) D := leave_both A hM hP hx (θ₁ := k.first.toAngle k.motors.1) (θ₂ := k.second.toAngle k.motors.2) hD
  have w : Within (104 / 100) y.leave := leave_within y hx.normal hx.incident
  have ap : Apart (2200 / 78 * units (u + η) D) y.leave (leave rnd fcos fsin f P x) := ⟨d.1.trans (by linarith), d.2.1.trans (by linarith), d.2.2.trans (by linarith)⟩
  have c := abs_le.1 (cosine_near (by linarith) ap hn)
  have wi : ∀ x x' : ℝ, |x| ≤ 104 / 100 → |x' - x| ≤ 2200 * units (u + η) D → |x'| ≤ 11 / 10 := fun x x' hx hx' => by
    have := abs_sub_abs_le_abs_sub x' x
    linarith
  have nw : Within (11 / 10) p.normal := by
    unfold V3.normSq V3.dot at hn
    have := comp_le (x := p.normal.e) (y := p.normal.n) (z := p.normal.u) (by norm_num : (0 : ℝ) ≤ 11 / 10) (by nlinarith)
    exact this
  exact C126_behind A P.angle P.distance W H _ _ p ⟨by linarith, ⟨wi _ _ w.1 d.1, wi _ _ w.2.1 d.2.1, wi _ _ w.2.2 d.2.2⟩, nw, by linarith⟩ k.ray.magnitude

theorem shift_le_pixels {ε : ℝ} (hε : 0 ≤ ε) (k0 : 0 < κ) (hR : 0 ≤ R) (hρ : 0 ≤ ρ) (hs : 0 ≤ s) (hr : 0 ≤ r) {size : ℝ} (h0 : 0 < size) {n : Nat} (hn : 2 ≤ n) :
    shift ε r κ size n ≤ pixels ε R ρ s r κ size n ∧ 0 ≤ shift ε r κ size n := by
  have n1 : (0 : ℝ) ≤ (n : ℝ) - 1 := by
    have : (2 : ℝ) ≤ n := by exact_mod_cast hn
    linarith
  have q0 : 0 ≤ ((n : ℝ) - 1) / size := by positivity
  have e0 : 0 ≤ ε / κ := by positivity
  constructor
  · unfold pixels reach shift
    refine mul_le_mul_of_nonneg_right ?_ q0
    rw [show 100 * ε * (r / κ) = 100 * r * (ε / κ) by ring]
    exact mul_le_mul_of_nonneg_right (by linarith) e0
  · unfold shift
    positivity

/-- C138: what a ray adds to the power on the target is right up to 3860 units. -/
theorem C138_ray (A : Arithmetic rnd u η M) (hM : 1 ≤ M) {P : RoundedChain.Plans} (hP : P.Complete) {W H : Nat} (hW : 2 ≤ W) (hH : 2 ≤ H) (hr : 1 ≤ r) (hκ : 0 < κ)
    (hp : 0 < p.width ∧ 0 < p.height) (k : Sent) (hk : k.Regular (u + η) R ρ s rnd fsoft facos fcos fsin f) (hD : k.off rnd fsoft facos ≤ D) (small : 400000 * units (u + η) D ≤ 1)
    (cl : Clear (units (u + η) D) R ρ s r κ W H p (driven k.first k.second k.motors k.ray)) (h h' : Splat.Hit ℝ) (e : h = k.exact W H p) (e' : h' = k.computed rnd fsoft facos fcos fsin f P W H p) :
    |(if Splat.Inside W H h' then h'.w else 0) - (if Splat.Inside W H h then h.w else 0)| ≤ 3860 * units (u + η) D ∧ h'.w ≤ 4 := by
  have hε : 0 ≤ u + η := add_nonneg A.u_nonneg A.η_nonneg
  have D0 : 0 ≤ D := le_trans (add_nonneg (abs_nonneg _) (abs_nonneg _)) hD
  have hU : 0 ≤ units (u + η) D := by unfold units; linarith
  obtain ⟨hR, hρ, sm, _⟩ := hk.sized.facts hε
  have hs : 0 ≤ s := (Converge.length3_nonneg _).trans hk.point.2
  have mag : 0 ≤ k.ray.magnitude ∧ k.ray.magnitude ≤ 1 := hk.magnitude
  have wy : Within (104 / 100) (driven k.first k.second k.motors k.ray).leave := leave_within (driven k.first k.second k.motors k.ray) hk.normal hk.incident
  obtain ⟨w2, w3⟩ := shift_le_pixels (n := W) hU hκ hR hρ hs (by linarith : 0 ≤ r) hp.1 hW
  obtain ⟨v2, v3⟩ := shift_le_pixels (n := H) hU hκ hR hρ hs (by linarith : 0 ≤ r) hp.2 hH
  have dark : ∀ q q' : Splat.Hit ℝ, q.w = 0 → q'.w = 0 → |(if Splat.Inside W H q' then q'.w else 0) - (if Splat.Inside W H q then q.w else 0)| ≤ 3860 * units (u + η) D ∧ q'.w ≤ 4 := by
    intro q q' hq hq'
    rw [hq, hq', ite_self, ite_self, sub_zero, abs_zero]
    exact ⟨by linarith, by norm_num⟩
  rcases cl with ⟨hn, hb⟩ | ⟨t, m, onoff⟩
  · refine dark h h' ?_ ?_
    · rw [e]
      exact dark_behind W H _ _ _ p (by linarith)
    · rw [e']
      exact C138_behind A hM hP k hk hD small hn hb W H
  · have m0 := meeting_of hU m.1 wy
    rcases onoff with on | off
    · obtain ⟨l1, l2, l3⟩ := C136_lands A hM hP hk hD _ rfl m W H hW hH on _ rfl
      obtain ⟨⟨c1, c2⟩, r1, r2⟩ := on
      have ex := exact_lands hU hW hH m0 ⟨⟨by linarith, by linarith⟩, by linarith, by linarith⟩ k.ray.magnitude
      rw [Sent.exact, ex] at e
      have e2 : h' = hit (landing rnd fsoft facos fcos fsin f P k.first k.second k.motors k.ray W H p) := e'
      have dl := abs_le.1 (RoundedLanding.dot_le m0.dir_within m0.normal_within)
      set y := driven k.first k.second k.motors k.ray with ey
      have neg : V3.dot y.leave p.normal < 0 := by linarith [m0.cosine.2.2]
      have top := mul_le_of_le_one_left (by linarith : 0 ≤ -V3.dot y.leave p.normal) mag.2
      have i0 : Splat.Inside W H h := by
        rw [e]
        exact ⟨⟨by simp only; linarith, by simp only; linarith⟩, by simp only; linarith, by simp only; linarith⟩
      have l1' := abs_le.1 l1
      have l2' := abs_le.1 l2
      have i1 : Splat.Inside W H h' := by
        rw [e2]
        exact ⟨⟨by simp only [hit]; linarith, by simp only [hit]; linarith⟩, by simp only [hit]; linarith, by simp only [hit]; linarith⟩
      rw [if_pos i0, if_pos i1]
      have hw : h.w = k.ray.magnitude * -V3.dot y.leave p.normal := by rw [e]
      have hw' : h'.w = (landing rnd fsoft facos fcos fsin f P k.first k.second k.motors k.ray W H p).intensity := by rw [e2]; rfl
      rw [hw, hw']
      refine ⟨l3, ?_⟩
      linarith [(abs_le.1 l3).2, dl.1]
    · have off0 : Misses (units (u + η) D) r κ W H (driven k.first k.second k.motors k.ray).start (driven k.first k.second k.motors k.ray).leave p t := by
        rcases off with h | h | h | h
        · exact .inl (by linarith)
        · exact .inr (.inl (by linarith))
        · exact .inr (.inr (.inl (by linarith)))
        · exact .inr (.inr (.inr (by linarith)))
      refine dark h h' ?_ ?_
      · rw [e]
        exact exact_misses hU hW hH m0 off0 _
      · rw [e']
        exact C136_misses A hM hP hk hD _ rfl m W H hW hH off

open Finset in
/-- C138: the power on the target, which is the sum of all pixels, computed from the motor positions on.  Every ray changes it by at most 3860 units, which include the errors of the joint angles; adding up changes
it by the factors `(1 ± u) ^ (n + 4)`; what underflow does is negligible. -/
theorem C138_power (A : Arithmetic rnd u η M) (P : Sent → RoundedChain.Plans) (hP : ∀ k, (P k).Complete) (order : Fin 4 → List (Splat.Hit ℝ) → List (Splat.Hit ℝ))
    (horder : ∀ i l, (order i l).Perm l) (W H : Nat) (hW : 2 ≤ W) (hH : 2 ≤ H) (hWM : W ≤ M) (hHM : H ≤ M) (hr : 1 ≤ r) (hκ : 0 < κ) (hp : 0 < p.width ∧ 0 < p.height) (rays : List Sent)
    (regular : ∀ k ∈ rays, k.Regular (u + η) R ρ s rnd fsoft facos fcos fsin f) (hD : ∀ k ∈ rays, k.off rnd fsoft facos ≤ D) (small : 400000 * units (u + η) D ≤ 1)
    (clear : ∀ k ∈ rays, Clear (units (u + η) D) R ρ s r κ W H p (driven k.first k.second k.motors k.ray)) (img exact : List (List ℝ))
    (himg : Rounded.splat rnd order W H (rays.map fun k => k.computed rnd fsoft facos fcos fsin f (P k) W H p) = .ok img) (hexact : Splat.splat W H (rays.map fun k => k.exact W H p) = .ok exact)
    (T T' : ℝ) (hT : T = ∑ i ∈ range H, ∑ c ∈ range W, Splat.pixel exact i c) (hT' : T' = ∑ i ∈ range H, ∑ c ∈ range W, Splat.pixel img i c) :
    (1 - u) ^ (rays.length + 4) * (T - rays.length * (3860 * units (u + η) D)) - H * W * (rays.length * (9 * η)) ≤ T' ∧
    T' ≤ (1 + u) ^ (rays.length + 4) * (T + rays.length * (3860 * units (u + η) D)) + H * W * ((1 + u) ^ rays.length * (rays.length * (9 * η))) := by
  have hu := A.u_nonneg
  have hη := A.η_nonneg
  have hu1 : 0 ≤ 1 - u := by linarith [A.u_lt_one]
  have hM : 1 ≤ M := by omega
  set g : Sent → Splat.Hit ℝ := fun k => k.computed rnd fsoft facos fcos fsin f (P k) W H p with hg
  set g₀ : Sent → Splat.Hit ℝ := fun k => k.exact W H p with hg₀
  have fl : ∀ h ∈ rays.map g, IsFloat rnd h := by
    intro h hh
    obtain ⟨k, hk, rfl⟩ := List.mem_map.1 hh
    exact landing_float A _ _ W H hW hWM _ _ p _ (regular k hk).magnitude.1
  have key := fun k hk => C138_ray A hM (hP k) hW hH hr hκ hp k (regular k hk) (hD k hk) small (clear k hk) (g₀ k) (g k) rfl rfl
  have en := Splat.C08_energy W H (by omega) (by omega) (rays.map g₀) (by
    intro h hh
    obtain ⟨k, hk, rfl⟩ := List.mem_map.1 hh
    simp only [hg₀, Sent.exact, hit, Intersect.linePlane]
    have W1 : (2 : ℝ) ≤ W := by exact_mod_cast hW
    split_ifs with hv
    · simp only [Bool.and_eq_true, decide_eq_true_eq] at hv
      obtain ⟨⟨⟨⟨v1, v2⟩, v3⟩, v4⟩, v5⟩ := hv
      exact ⟨by linarith, v3⟩
    · exact ⟨by linarith, le_rfl⟩) exact hexact
  obtain ⟨t1, t2⟩ := C103_total A order W H (by omega) (by omega) hWM hHM (rays.map g) (fun i => horder i _) fl img himg
  rw [List.length_map, List.map_map, List.map_map, ← hT'] at t1 t2
  rw [List.map_map, ← hT] at en
  have near := abs_le.1 (sum_near' rays ((fun h => if Splat.Inside W H h then h.w else 0) ∘ g) ((fun h => if Splat.Inside W H h then h.w else 0) ∘ g₀) _ fun x hx => (key x hx).1)
  rw [← en] at near
  have under : (rays.map ((fun h : Splat.Hit ℝ => η * ((1 + u) * h.w + 1)) ∘ g)).sum ≤ rays.length * (9 * η) := by
    have := List.sum_le_card_nsmul (rays.map ((fun h : Splat.Hit ℝ => η * ((1 + u) * h.w + 1)) ∘ g)) (9 * η) (by
      intro y hy
      obtain ⟨x, hx, rfl⟩ := List.mem_map.1 hy
      have k := (key x hx).2
      have z := (fl (g x) (List.mem_map.2 ⟨x, hx, rfl⟩)).2.2.2
      simp only [Function.comp]
      have : (1 + u) * (g x).w ≤ 2 * 4 := mul_le_mul (by linarith) k z (by norm_num)
      have := mul_le_mul_of_nonneg_left (by linarith : (1 + u) * (g x).w + 1 ≤ 9) hη
      linarith)
    rw [List.length_map, nsmul_eq_mul] at this
    exact this
  have HW : (0 : ℝ) ≤ H * W := by positivity
  constructor
  · refine le_trans ?_ t1
    have a1 := mul_le_mul_of_nonneg_left under HW
    have a2 := mul_le_mul_of_nonneg_left (by linarith [near.1] : T - rays.length * (3860 * units (u + η) D) ≤ (rays.map ((fun h => if Splat.Inside W H h then h.w else 0) ∘ g)).sum) (pow_nonneg hu1 (rays.length + 4))
    linarith
  · refine t2.trans ?_
    have p1 : 0 ≤ (1 + u) ^ rays.length := by positivity
    have p2 : 0 ≤ (1 + u) ^ (rays.length + 4) := by positivity
    have a1 := mul_le_mul_of_nonneg_left (mul_le_mul_of_nonneg_left under p1) HW
    have a2 := mul_le_mul_of_nonneg_left (by linarith [near.2] : (rays.map ((fun h => if Splat.Inside W H h then h.w else 0) ∘ g)).sum ≤ T + rays.length * (3860 * units (u + η) D)) p2
    linarith

end

/-- C138 in float32: a thousand rays in a field of 200 m with steady actuators; the power on a target with 256 by 256 pixels is right up to 0.07 percent of what the rays could carry. -/
theorem C138_float32 (P : Sent → RoundedChain.Plans) (hP : ∀ k, (P k).Complete) (fsoft facos fcos fsin : ℝ → ℝ) (B : RoundedActuator.Library (1 / 2 ^ 24 + 10 ^ 6 * (2 ^ (-149 : Int) / 2)) fsoft facos)
    (f : Fin 3 → ℝ) (order : Fin 4 → List (Splat.Hit ℝ) → List (Splat.Hit ℝ)) (horder : ∀ i l, (order i l).Perm l) (p : Plane ℝ) (hp : 0 < p.width ∧ 0 < p.height) (rays : List Sent) (few : rays.length = 1000)
    (steady : ∀ k ∈ rays, Steady k.first k.motors.1 ∧ Steady k.second k.motors.2) (regular : ∀ k ∈ rays, k.Regular (1 / 2 ^ 24 + 2 ^ (-149 : Int) / 2) 200 1 5 float32 fsoft facos fcos fsin f)
    (clear : ∀ k ∈ rays, Clear (units (1 / 2 ^ 24 + 2 ^ (-149 : Int) / 2) (8 / 10 ^ 5)) 200 1 5 200 (1 / 2) 256 256 p (driven k.first k.second k.motors k.ray)) (img exact : List (List ℝ))
    (himg : Rounded.splat float32 order 256 256 (rays.map fun k => k.computed float32 fsoft facos fcos fsin f (P k) 256 256 p) = .ok img)
    (hexact : Splat.splat 256 256 (rays.map fun k => k.exact 256 256 p) = .ok exact)
    (T T' : ℝ) (hT : T = ∑ i ∈ Finset.range 256, ∑ c ∈ Finset.range 256, Splat.pixel exact i c) (hT' : T' = ∑ i ∈ Finset.range 256, ∑ c ∈ Finset.range 256, Splat.pixel img i c)
    (most : 0 ≤ T ∧ T ≤ 1000) : |T' - T| ≤ 7 / 10 ^ 4 * 1000 := by
  have off : ∀ k ∈ rays, k.off float32 fsoft facos ≤ 8 / 10 ^ 5 := by
    intro k hk
    obtain ⟨s₁, s₂⟩ := steady k hk
    have j₁ := RoundedActuator.C132_float32 fsoft facos k.first k.motors.1 B s₁.offset s₁.pivot s₁.initial s₁.motor s₁.angle s₁.moved s₁.rest
    have j₂ := RoundedActuator.C132_float32 fsoft facos k.second k.motors.2 B s₂.offset s₂.pivot s₂.initial s₂.motor s₂.angle s₂.moved s₂.rest
    unfold Sent.off
    linarith
  obtain ⟨l, h⟩ := C138_power C103_float32 P hP order horder 256 256 (by norm_num) (by norm_num) (by norm_num) (by norm_num) (by norm_num) (by norm_num) hp rays regular off (by unfold units; norm_num) clear
    img exact himg hexact T T' hT hT'
  rw [few] at l h
  have e : units (1 / 2 ^ 24 + 2 ^ (-149 : Int) / 2) (8 / 10 ^ 5) ≤ 140 / 10 ^ 9 := by unfold units; norm_num
  have e0 : 0 ≤ units (1 / 2 ^ 24 + 2 ^ (-149 : Int) / 2) (8 / 10 ^ 5) := by unfold units; norm_num
  have lo : (99994 / 100000 : ℝ) ≤ (1 - 1 / 2 ^ 24) ^ (1000 + 4) := by
    have := one_add_mul_le_pow (a := (-(1 / 2 ^ 24) : ℝ)) (by norm_num) 1004
    refine le_trans ?_ this
    norm_num
  have hi : (1 + 1 / 2 ^ 24 : ℝ) ^ (1000 + 4) ≤ 1000061 / 1000000 := by
    have pr : (1 + 1 / 2 ^ 24 : ℝ) ^ (1000 + 4) * (1 - 1 / 2 ^ 24) ^ (1000 + 4) ≤ 1 := by
      rw [← mul_pow]
      exact pow_le_one₀ (by norm_num) (by norm_num)
    have p0 : (0 : ℝ) ≤ (1 + 1 / 2 ^ 24) ^ (1000 + 4) := pow_nonneg (by norm_num) _
    generalize (1 + 1 / 2 ^ 24 : ℝ) ^ (1000 + 4) = q at *
    generalize (1 - 1 / 2 ^ 24 : ℝ) ^ (1000 + 4) = q' at *
    have := mul_le_mul_of_nonneg_left lo p0
    linarith
  have hi2 : (1 + 1 / 2 ^ 24 : ℝ) ^ 1000 ≤ 2 := by
    refine le_trans (pow_le_pow_right₀ (by norm_num) (by norm_num)) (hi.trans (by norm_num))
  have lo1 : (1 - 1 / 2 ^ 24 : ℝ) ^ (1000 + 4) ≤ 1 := pow_le_one₀ (by norm_num) (by norm_num)
  have p0 : (0 : ℝ) ≤ (1 + 1 / 2 ^ 24) ^ (1000 + 4) := pow_nonneg (by norm_num) _
  have p2 : (0 : ℝ) ≤ (1 + 1 / 2 ^ 24) ^ 1000 := pow_nonneg (by norm_num) _
  generalize (1 + 1 / 2 ^ 24 : ℝ) ^ (1000 + 4) = q at *
  generalize (1 - 1 / 2 ^ 24 : ℝ) ^ (1000 + 4) = q' at *
  generalize (1 + 1 / 2 ^ 24 : ℝ) ^ 1000 = q'' at *
  push_cast at l h
  have d0 : (0 : ℝ) ≤ 1000 * (3860 * units (1 / 2 ^ 24 + 2 ^ (-149 : Int) / 2) (8 / 10 ^ 5)) := by positivity
  have d1 : (1000 : ℝ) * (3860 * units (1 / 2 ^ 24 + 2 ^ (-149 : Int) / 2) (8 / 10 ^ 5)) ≤ 540400 / 10 ^ 6 := by linarith
  generalize (1000 : ℝ) * (3860 * units (1 / 2 ^ 24 + 2 ^ (-149 : Int) / 2) (8 / 10 ^ 5)) = d at *
  have n0 : (256 : ℝ) * 256 * (1000 * (9 * (2 ^ (-149 : Int) / 2))) ≤ 1 / 10 ^ 9 := by norm_num
  have n1 : (256 : ℝ) * 256 * (q'' * (1000 * (9 * (2 ^ (-149 : Int) / 2)))) ≤ 2 / 10 ^ 9 := by
    have z : (0 : ℝ) ≤ 256 * 256 * (1000 * (9 * (2 ^ (-149 : Int) / 2))) := by positivity
    have := mul_le_mul hi2 n0 z (by norm_num)
    linarith
  have u1 := mul_le_mul_of_nonneg_right hi (by linarith [most.1] : 0 ≤ T + d)
  have u2 := mul_le_mul_of_nonneg_right lo most.1
  have u3 := mul_le_mul_of_nonneg_right lo1 d0
  refine abs_le.2 ⟨?_, ?_⟩
  · linarith [most.2]
  · linarith [most.2]

/-- a thousand times the ray of the heliostat that two actuators have turned towards a target of 8 m, 90 m away -/
example (o : Order) : ∃ (P : Sent → RoundedChain.Plans) (fsoft facos fcos fsin : ℝ → ℝ) (f : Fin 3 → ℝ) (rays : List Sent) (p : Plane ℝ), (∀ k, (P k).Complete) ∧
    RoundedActuator.Library (1 / 2 ^ 24 + 10 ^ 6 * (2 ^ (-149 : Int) / 2)) fsoft facos ∧ rays.length = 1000 ∧ (∀ k ∈ rays, Steady k.first k.motors.1 ∧ Steady k.second k.motors.2) ∧
    (∀ k ∈ rays, k.Regular (1 / 2 ^ 24 + 2 ^ (-149 : Int) / 2) 200 1 5 float32 fsoft facos fcos fsin f) ∧
    (∀ k ∈ rays, Clear (units (1 / 2 ^ 24 + 2 ^ (-149 : Int) / 2) (8 / 10 ^ 5)) 200 1 5 200 (1 / 2) 256 256 p (driven k.first k.second k.motors k.ray)) ∧ 0 < p.width ∧ 0 < p.height := by
  obtain ⟨P, fsoft, facos, fcos, fsin, f, a₁, a₂, m, x, p, t, hP, B, s₁, s₂, -, -, -, -, hx, ma, hp, ⟨c1, c2⟩, r1, r2⟩ := sample_driven o
  have sm : pixels (units (1 / 2 ^ 24 + 2 ^ (-149 : Int) / 2) (8 / 10 ^ 5)) 200 1 5 200 (1 / 2) 8 256 < 12 := by
    unfold pixels reach units
    norm_num
  refine ⟨fun _ => P, fsoft, facos, fcos, fsin, f, List.replicate 1000 ⟨x, a₁, a₂, m⟩, p, fun _ => hP, B, List.length_replicate, ?_, ?_, ?_, by rw [hp.1]; norm_num, by rw [hp.2]; norm_num⟩
  · intro k hk
    rw [List.eq_of_mem_replicate hk]
    exact ⟨s₁, s₂⟩
  · intro k hk
    rw [List.eq_of_mem_replicate hk]
    exact hx
  · intro k hk
    rw [List.eq_of_mem_replicate hk]
    refine .inr ⟨t, ma, .inl ?_⟩
    unfold Inside
    rw [hp.1, hp.2]
    push_cast
    exact ⟨⟨by linarith, by linarith⟩, by linarith, by linarith⟩

end Artist.RoundedMotors
