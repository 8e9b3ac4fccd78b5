import Verif.Proofs.RoundedImage
/-! C133: the whole image in floating point arithmetic, from the joint angles to the pixels. -/
namespace Artist.RoundedChain
open Artist Transforms Kinematics Intersect RoundedRay RoundedKinematics RoundedLanding Matrix Rounded
open Real (sin cos)

section
variable {rnd : ℝ → ℝ} {u η : ℝ} {M : Nat} {fcos fsin : ℝ → ℝ} {f : Fin 3 → ℝ} {R ρ s r κ : ℝ} {p : Plane ℝ}

/-- C133: heliostats are placed, rays are reflected, scattered, intersected and added to the pixels in floating point arithmetic, in whatever order; every pixel is that of exact arithmetic up to `D` for every ray
and a relative error of `2 (k + 4) u` for adding up `k` rays. -/
theorem C133_image (A : Arithmetic rnd u η M) (P : Ray → Plans) (hP : ∀ x, (P x).Complete) (o₁ o₂ : V3 ℝ × V3 ℝ × ℝ → Order) (order : Fin 4 → List (Splat.Hit ℝ) → List (Splat.Hit ℝ))
    (horder : ∀ i l, (order i l).Perm l) (W H : Nat) (hW : 2 ≤ W) (hH : 2 ≤ H) (hWM : W ≤ M) (hHM : H ≤ M) (hr : 1 ≤ r) (hκ : 0 < κ) (hp : 0 < p.width ∧ 0 < p.height) (rays : List Ray)
    (regular : ∀ x ∈ rays, x.Regular (u + η) R ρ s fcos fsin f) (clear : ∀ x ∈ rays, x.Clear (u + η) R ρ s r κ W H p) (few : 2 * (((rays.length + 4 : Nat) : ℝ) * u) ≤ 1)
    (D : ℝ) (hD : D = 3860 * (u + η) + 41 / 10 * (pixels (u + η) R ρ s r κ p.width W + pixels (u + η) R ρ s r κ p.height H)) :
    ∃ img exact,
      Rounded.splat rnd order W H ((rays.map fun x => (start rnd fcos fsin f (P x) x, leave rnd fcos fsin f (P x) x, x.magnitude)).map fun y =>
        hit (linePlane rnd (o₁ y) (o₂ y) W H y.1 y.2.1 y.2.2 p)) = .ok img ∧
      Splat.splat W H (rays.map fun x => hit (Intersect.linePlane W H x.start x.leave x.magnitude p)) = .ok exact ∧
      ∀ i c, i < H → c < W →
        |Splat.pixel img i c - Splat.pixel exact i c| ≤ rays.length * D + 2 * ((rays.length + 4 : Nat) : ℝ) * u * (Splat.pixel exact i c + rays.length * D) + 33 * rays.length * η := by
  have hε : 0 ≤ u + η := add_nonneg A.u_nonneg A.η_nonneg
  have hM : 1 ≤ M := by omega
  set rr := rays.map fun x => (start rnd fcos fsin f (P x) x, leave rnd fcos fsin f (P x) x, x.magnitude) with hrr
  have len : rr.length = rays.length := by rw [hrr, List.length_map]
  obtain ⟨img, mid, i1, i2, i3⟩ := C126_image A o₁ o₂ order W H hW hH hWM hHM (11 / 10 * r) (49 / 50 * κ) (by linarith) (by linarith) p hp rr horder (by
    intro y hy
    obtain ⟨x, hx, rfl⟩ := List.mem_map.1 hy
    exact ⟨clear_of A hM (hP x) (regular x hx) hW hH (clear x hx), (regular x hx).magnitude⟩) (by rw [len]; exact few)
  obtain ⟨mid', j1, j2⟩ := exact_image W H hW hH rr p
  obtain rfl : mid = mid' := by
    rw [i2] at j1
    exact Except.ok.inj j1
  obtain ⟨exact, k1, k2⟩ := exact_image W H hW hH (rays.map fun x => (x.start, x.leave, x.magnitude)) p
  rw [List.map_map] at k1
  refine ⟨img, exact, i1, k1, fun i c hi hc => ?_⟩
  have h := i3 i c hi hc _ rfl
  rw [len] at h
  set D₁ := 22 * (u + η) + 4 * (shift (u + η) (11 / 10 * r) (49 / 50 * κ) p.width W + shift (u + η) (11 / 10 * r) (49 / 50 * κ) p.height H) with hD₁
  set D₂ := 3838 * (u + η) + 4 * (pixels (u + η) R ρ s r κ p.width W + pixels (u + η) R ρ s r κ p.height H) with hD₂
  have near : |Splat.pixel mid i c - Splat.pixel exact i c| ≤ rays.length * D₂ := by
    rw [j2 i c hi hc, k2 i c hi hc, hrr, List.map_map, List.map_map]
    exact sum_near' rays _ _ _ fun x hx => part_moved A hM (hP x) (regular x hx) hW hH hr hκ hp (clear x hx) _ c
  have n0 : (0 : ℝ) ≤ rays.length := by positivity
  have nD : (rays.length : ℝ) * D₁ + rays.length * D₂ ≤ rays.length * D := by
    cases rays with
    | nil => simp
    | cons x l =>
      have rx := regular x List.mem_cons_self
      obtain ⟨hR, hρ, _, _⟩ := rx.sized.facts hε
      have hs : 0 ≤ s := (Converge.length3_nonneg _).trans rx.point.2
      have w := pixels_large (n := W) hε hκ hR hρ hs (by linarith : 0 ≤ r) hp.1 hW
      have v := pixels_large (n := H) hε hκ hR hρ hs (by linarith : 0 ≤ r) hp.2 hH
      rw [← mul_add]
      refine mul_le_mul_of_nonneg_left ?_ n0
      rw [hD, hD₁, hD₂]
      linarith [w.1, v.1]
  generalize Splat.pixel mid i c = pm at *
  generalize Splat.pixel exact i c = pe at *
  generalize Splat.pixel img i c = pi at *
  have B0 : 0 ≤ 2 * ((rays.length + 4 : Nat) : ℝ) * u := by
    have := A.u_nonneg
    positivity
  have le : pm + rays.length * D₁ ≤ pe + rays.length * D := by linarith [(abs_le.1 near).2]
  have := mul_le_mul_of_nonneg_left le B0
  refine (abs_sub_le _ pm _).trans ?_
  linarith

/-- what rounding changes in the intensity of one ray that counts -/
theorem counted_near (A : Arithmetic rnd u η M) (hM : 1 ≤ M) {P : Plans} (hP : P.Complete) (o₁ o₂ : Order) {W H : Nat} (hW : 2 ≤ W) (hH : 2 ≤ H) (hr : 1 ≤ r) (hκ : 0 < κ)
    (hp : 0 < p.width ∧ 0 < p.height) {x : Ray} (hx : x.Regular (u + η) R ρ s fcos fsin f) (cl : x.Clear (u + η) R ρ s r κ W H p) (h h' : Splat.Hit ℝ)
    (e : h = hit (Intersect.linePlane W H x.start x.leave x.magnitude p)) (e' : h' = hit (linePlane rnd o₁ o₂ W H (start rnd fcos fsin f P x) (leave rnd fcos fsin f P x) x.magnitude p)) :
    |(if Splat.Inside W H h' then h'.w else 0) - (if Splat.Inside W H h then h.w else 0)| ≤ 3860 * (u + η) ∧ h'.w ≤ 4 := by
  have hε : 0 ≤ u + η := add_nonneg A.u_nonneg A.η_nonneg
  obtain ⟨hR, hρ, sm, _⟩ := hx.sized.facts hε
  have hs : 0 ≤ s := (Converge.length3_nonneg _).trans hx.point.2
  obtain ⟨w1, w2, w3, w4⟩ := pixels_large (n := W) hε hκ hR hρ hs (by linarith : 0 ≤ r) hp.1 hW
  obtain ⟨v1, v2, v3, v4⟩ := pixels_large (n := H) hε hκ hR hρ hs (by linarith : 0 ≤ r) hp.2 hH
  set P' : Plans := { P with angle := o₁, distance := o₂ } with hP'
  have cP : P'.Complete := ⟨hP.matrices, hP.point, hP.normal, hP.reflection, hP.scattering⟩
  have e2 : h' = hit (landing rnd fcos fsin f P' x W H p) := e'
  have dark : ∀ q q' : Splat.Hit ℝ, q.w = 0 → q'.w = 0 → |(if Splat.Inside W H q' then q'.w else 0) - (if Splat.Inside W H q then q.w else 0)| ≤ 3860 * (u + η) ∧ q'.w ≤ 4 := by
    intro q q' hq hq'
    rw [hq, hq', ite_self, ite_self, sub_zero, abs_zero]
    exact ⟨by linarith, by norm_num⟩
  rcases cl with ⟨hn, hb⟩ | ⟨t, m, onoff⟩
  · refine dark h h' ?_ ?_
    · rw [e]
      exact dark_behind W H _ _ _ p (by linarith)
    · rw [e2]
      exact C131_behind A hM cP hx hn hb W H
  · have m0 := meeting_of hε m.1 (leave_within A hM hP hx)
    rcases onoff with on | off
    · obtain ⟨l1, l2, l3⟩ := C131_lands A hM cP hx m W H hW hH on _ rfl
      obtain ⟨⟨c1, c2⟩, r1, r2⟩ := on
      have ex := exact_lands hε hW hH m0 ⟨⟨by linarith, by linarith⟩, by linarith, by linarith⟩ x.magnitude
      rw [ex] at e
      have dl := abs_le.1 (dot_le m0.dir_within m0.normal_within)
      have neg : V3.dot x.leave p.normal < 0 := by linarith [m0.cosine.2.2]
      have top := mul_le_of_le_one_left (by linarith : 0 ≤ -V3.dot x.leave p.normal) hx.magnitude.2
      have i0 : Splat.Inside W H h := by
        rw [e]
        exact ⟨⟨by simp only; linarith, by simp only; linarith⟩, by simp only; linarith, by simp only; linarith⟩
      have l1' := abs_le.1 l1
      have l2' := abs_le.1 l2
      have i1 : Splat.Inside W H h' := by
        rw [e2]
        exact ⟨⟨by simp only [hit]; linarith, by simp only [hit]; linarith⟩, by simp only [hit]; linarith, by simp only [hit]; linarith⟩
      rw [if_pos i0, if_pos i1]
      have hw : h.w = x.magnitude * -V3.dot x.leave p.normal := by rw [e]
      have hw' : h'.w = (landing rnd fcos fsin f P' x W H p).intensity := by rw [e2]; rfl
      rw [hw, hw']
      refine ⟨l3, ?_⟩
      linarith [(abs_le.1 l3).2, dl.1]
    · have off0 : Misses (u + η) r κ W H x.start x.leave p t := by
        rcases off with h | h | h | h
        · exact .inl (by linarith)
        · exact .inr (.inl (by linarith))
        · exact .inr (.inr (.inl (by linarith)))
        · exact .inr (.inr (.inr (by linarith)))
      refine dark h h' ?_ ?_
      · rw [e]
        exact exact_misses hε hW hH m0 off0 _
      · rw [e2]
        exact C131_misses A hM cP hx m W H hW hH off

open Finset in
/-- C133: the power on the target, which is the sum of all pixels.  Placing heliostats, reflecting, scattering and intersecting changes it by at most 3860 units of rounding for every ray, adding up by the factors
`(1 ± u) ^ (n + 4)`; what underflow does is negligible. -/
theorem C133_power (A : Arithmetic rnd u η M) (P : Ray → Plans) (hP : ∀ x, (P x).Complete) (o₁ o₂ : V3 ℝ × V3 ℝ × ℝ → Order) (order : Fin 4 → List (Splat.Hit ℝ) → List (Splat.Hit ℝ))
    (horder : ∀ i l, (order i l).Perm l) (W H : Nat) (hW : 2 ≤ W) (hH : 2 ≤ H) (hWM : W ≤ M) (hHM : H ≤ M) (hr : 1 ≤ r) (hκ : 0 < κ) (hp : 0 < p.width ∧ 0 < p.height) (rays : List Ray)
    (regular : ∀ x ∈ rays, x.Regular (u + η) R ρ s fcos fsin f) (clear : ∀ x ∈ rays, x.Clear (u + η) R ρ s r κ W H p) (img exact : List (List ℝ))
    (himg : Rounded.splat rnd order W H ((rays.map fun x => (start rnd fcos fsin f (P x) x, leave rnd fcos fsin f (P x) x, x.magnitude)).map fun y =>
        hit (linePlane rnd (o₁ y) (o₂ y) W H y.1 y.2.1 y.2.2 p)) = .ok img)
    (hexact : Splat.splat W H (rays.map fun x => hit (Intersect.linePlane W H x.start x.leave x.magnitude p)) = .ok exact)
    (T T' : ℝ) (hT : T = ∑ i ∈ range H, ∑ c ∈ range W, Splat.pixel exact i c) (hT' : T' = ∑ i ∈ range H, ∑ c ∈ range W, Splat.pixel img i c) :
    (1 - u) ^ (rays.length + 4) * (T - rays.length * (3860 * (u + η))) - H * W * (rays.length * (9 * η)) ≤ T' ∧
    T' ≤ (1 + u) ^ (rays.length + 4) * (T + rays.length * (3860 * (u + η))) + H * W * ((1 + u) ^ rays.length * (rays.length * (9 * η))) := by
  have hu := A.u_nonneg
  have hη := A.η_nonneg
  have hu1 : 0 ≤ 1 - u := by linarith [A.u_lt_one]
  have hM : 1 ≤ M := by omega
  rw [List.map_map] at himg
  set g : Ray → Splat.Hit ℝ := (fun y => hit (linePlane rnd (o₁ y) (o₂ y) W H y.1 y.2.1 y.2.2 p)) ∘ fun x => (start rnd fcos fsin f (P x) x, leave rnd fcos fsin f (P x) x, x.magnitude) with hg
  set g₀ : Ray → Splat.Hit ℝ := fun x => hit (Intersect.linePlane W H x.start x.leave x.magnitude p) with hg₀
  have fl : ∀ h ∈ rays.map g, IsFloat rnd h := by
    intro h hh
    obtain ⟨x, hx, rfl⟩ := List.mem_map.1 hh
    exact landing_float A _ _ W H hW hWM _ _ p _ (regular x hx).magnitude.1
  have key := fun x hx => counted_near A hM (hP x) (o₁ (start rnd fcos fsin f (P x) x, leave rnd fcos fsin f (P x) x, x.magnitude))
    (o₂ (start rnd fcos fsin f (P x) x, leave rnd fcos fsin f (P x) x, x.magnitude)) hW hH hr hκ hp (regular x hx) (clear x hx) (g₀ x) (g x) rfl rfl
  have en := Splat.C08_energy W H (by omega) (by omega) (rays.map g₀) (by
    intro h hh
    obtain ⟨x, hx, rfl⟩ := List.mem_map.1 hh
    simp only [hg₀, hit, Intersect.linePlane]
    have W1 : (2 : ℝ) ≤ W := by exact_mod_cast hW
    split_ifs with hv
    · simp only [Bool.and_eq_true, decide_eq_true_eq] at hv
      obtain ⟨⟨⟨⟨v1, v2⟩, v3⟩, v4⟩, v5⟩ := hv
      exact ⟨by linarith, v3⟩
    · exact ⟨by linarith, le_rfl⟩) exact hexact
  obtain ⟨t1, t2⟩ := C103_total A order W H (by omega) (by omega) hWM hHM (rays.map g) (fun i => horder i _) fl img himg
  rw [List.length_map, List.map_map, List.map_map, ← hT'] at t1 t2
  rw [List.map_map, ← hT] at en
  have near := abs_le.1 (sum_near' rays ((fun h => if Splat.Inside W H h then h.w else 0) ∘ g) ((fun h => if Splat.Inside W H h then h.w else 0) ∘ g₀) _ fun x hx => (key x hx).1)
  rw [← en] at near
  have under : (rays.map ((fun h : Splat.Hit ℝ => η * ((1 + u) * h.w + 1)) ∘ g)).sum ≤ rays.length * (9 * η) := by
    have := List.sum_le_card_nsmul (rays.map ((fun h : Splat.Hit ℝ => η * ((1 + u) * h.w + 1)) ∘ g)) (9 * η) (by
      intro y hy
      obtain ⟨x, hx, rfl⟩ := List.mem_map.1 hy
      have k := (key x hx).2
      have z := (fl (g x) (List.mem_map.2 ⟨x, hx, rfl⟩)).2.2.2
      simp only [Function.comp]
      have : (1 + u) * (g x).w ≤ 2 * 4 := mul_le_mul (by linarith) k z (by norm_num)
      have := mul_le_mul_of_nonneg_left (by linarith : (1 + u) * (g x).w + 1 ≤ 9) hη
      linarith)
    rw [List.length_map, nsmul_eq_mul] at this
    exact this
  have HW : (0 : ℝ) ≤ H * W := by positivity
  constructor
  · refine le_trans ?_ t1
    have a1 := mul_le_mul_of_nonneg_left under HW
    have a2 := mul_le_mul_of_nonneg_left (by linarith [near.1] : T - rays.length * (3860 * (u + η)) ≤ (rays.map ((fun h => if Splat.Inside W H h then h.w else 0) ∘ g)).sum) (pow_nonneg hu1 (rays.length + 4))
    linarith
  · refine t2.trans ?_
    have p1 : 0 ≤ (1 + u) ^ rays.length := by positivity
    have p2 : 0 ≤ (1 + u) ^ (rays.length + 4) := by positivity
    have a1 := mul_le_mul_of_nonneg_left (mul_le_mul_of_nonneg_left under p1) HW
    have a2 := mul_le_mul_of_nonneg_left (by linarith [near.2] : (rays.map ((fun h => if Splat.Inside W H h then h.w else 0) ∘ g)).sum ≤ T + rays.length * (3860 * (u + η))) p2
    linarith

end

/-- a thousand times the ray of a heliostat 90 m north of a target of 8 m with 256 by 256 pixels -/
example (a₁ a₂ : Actuator) (o : Order) : ∃ (P : Ray → Plans) (fcos fsin : ℝ → ℝ) (f : Fin 3 → ℝ) (rays : List Ray) (p : Plane ℝ), (∀ x, (P x).Complete) ∧ rays.length = 1000 ∧
    (∀ x ∈ rays, x.Regular (1 / 2 ^ 24 + 2 ^ (-149 : Int) / 2) 200 1 5 fcos fsin f) ∧ (∀ x ∈ rays, x.Clear (1 / 2 ^ 24 + 2 ^ (-149 : Int) / 2) 200 1 5 200 (1 / 2) 256 256 p) ∧ (0 < p.width ∧ 0 < p.height) ∧
    2 * (((rays.length + 4 : Nat) : ℝ) * (1 / 2 ^ 24)) ≤ 1 ∧ 256 ≤ 2 ^ 24 := by
  obtain ⟨P, fcos, fsin, f, x, p, t, hP, -, -, hx, m, hp, c1, r1, -⟩ := sample_ray a₁ a₂ o
  have sm : pixels (1 / 2 ^ 24 + 2 ^ (-149 : Int) / 2) 200 1 5 200 (1 / 2) 8 256 < 5 := by
    unfold pixels reach
    norm_num
  refine ⟨fun _ => P, fcos, fsin, f, List.replicate 1000 x, p, fun _ => hP, List.length_replicate, ?_, ?_, ⟨by rw [hp.1]; norm_num, by rw [hp.2]; norm_num⟩, by rw [List.length_replicate]; norm_num, by norm_num⟩
  · intro y hy
    rw [List.eq_of_mem_replicate hy]
    exact hx
  · intro y hy
    rw [List.eq_of_mem_replicate hy]
    refine .inr ⟨t, m, .inl ?_⟩
    unfold Ray.Inside
    rw [hp.1, hp.2]
    push_cast
    exact ⟨⟨by linarith, by linarith⟩, by linarith, by linarith⟩

/-- C133 in float32: a thousand rays in a field of 200 m; the power on a target with 256 by 256 pixels is right up to 0.03 percent of what the rays could carry. -/
theorem C133_float32 (P : Ray → Plans) (hP : ∀ x, (P x).Complete) (fcos fsin : ℝ → ℝ) (f : Fin 3 → ℝ) (o₁ o₂ : V3 ℝ × V3 ℝ × ℝ → Order) (order : Fin 4 → List (Splat.Hit ℝ) → List (Splat.Hit ℝ))
    (horder : ∀ i l, (order i l).Perm l) (p : Plane ℝ) (hp : 0 < p.width ∧ 0 < p.height) (rays : List Ray) (few : rays.length = 1000)
    (regular : ∀ x ∈ rays, x.Regular (1 / 2 ^ 24 + 2 ^ (-149 : Int) / 2) 200 1 5 fcos fsin f) (clear : ∀ x ∈ rays, x.Clear (1 / 2 ^ 24 + 2 ^ (-149 : Int) / 2) 200 1 5 200 (1 / 2) 256 256 p)
    (img exact : List (List ℝ))
    (himg : Rounded.splat float32 order 256 256 ((rays.map fun x => (start float32 fcos fsin f (P x) x, leave float32 fcos fsin f (P x) x, x.magnitude)).map fun y =>
        hit (linePlane float32 (o₁ y) (o₂ y) 256 256 y.1 y.2.1 y.2.2 p)) = .ok img)
    (hexact : Splat.splat 256 256 (rays.map fun x => hit (Intersect.linePlane 256 256 x.start x.leave x.magnitude p)) = .ok exact)
    (T T' : ℝ) (hT : T = ∑ i ∈ Finset.range 256, ∑ c ∈ Finset.range 256, Splat.pixel exact i c) (hT' : T' = ∑ i ∈ Finset.range 256, ∑ c ∈ Finset.range 256, Splat.pixel img i c)
    (most : 0 ≤ T ∧ T ≤ 1000) : |T' - T| ≤ 3 / 10 ^ 4 * 1000 := by
  obtain ⟨l, h⟩ := C133_power C103_float32 P hP o₁ o₂ order horder 256 256 (by norm_num) (by norm_num) (by norm_num) (by norm_num) (by norm_num) (by norm_num) hp rays regular clear img exact himg hexact T T' hT hT'
  rw [few] at l h
  have e : (1 / 2 ^ 24 + 2 ^ (-149 : Int) / 2 : ℝ) ≤ 60 / 10 ^ 9 := by norm_num
  have lo : (99994 / 100000 : ℝ) ≤ (1 - 1 / 2 ^ 24) ^ (1000 + 4) := by
    have := one_add_mul_le_pow (a := (-(1 / 2 ^ 24) : ℝ)) (by norm_num) 1004
    refine le_trans ?_ this
    norm_num
  have hi : (1 + 1 / 2 ^ 24 : ℝ) ^ (1000 + 4) ≤ 1000061 / 1000000 := by
    have pr : (1 + 1 / 2 ^ 24 : ℝ) ^ (1000 + 4) * (1 - 1 / 2 ^ 24) ^ (1000 + 4) ≤ 1 := by
      rw [← mul_pow]
      exact pow_le_one₀ (by norm_num) (by norm_num)
    have p0 : (0 : ℝ) ≤ (1 + 1 / 2 ^ 24) ^ (1000 + 4) := pow_nonneg (by norm_num) _
    generalize (1 + 1 / 2 ^ 24 : ℝ) ^ (1000 + 4) = q at *
    generalize (1 - 1 / 2 ^ 24 : ℝ) ^ (1000 + 4) = q' at *
    have := mul_le_mul_of_nonneg_left lo p0
    linarith
  have hi2 : (1 + 1 / 2 ^ 24 : ℝ) ^ 1000 ≤ 2 := by
    refine le_trans (pow_le_pow_right₀ (by norm_num) (by norm_num)) (hi.trans (by norm_num))
  have lo1 : (1 - 1 / 2 ^ 24 : ℝ) ^ (1000 + 4) ≤ 1 := pow_le_one₀ (by norm_num) (by norm_num)
  have p0 : (0 : ℝ) ≤ (1 + 1 / 2 ^ 24) ^ (1000 + 4) := pow_nonneg (by norm_num) _
  have p2 : (0 : ℝ) ≤ (1 + 1 / 2 ^ 24) ^ 1000 := pow_nonneg (by norm_num) _
  generalize (1 + 1 / 2 ^ 24 : ℝ) ^ (1000 + 4) = q at *
  generalize (1 - 1 / 2 ^ 24 : ℝ) ^ (1000 + 4) = q' at *
  generalize (1 + 1 / 2 ^ 24 : ℝ) ^ 1000 = q'' at *
  push_cast at l h
  have d0 : (0 : ℝ) ≤ 1000 * (3860 * (1 / 2 ^ 24 + 2 ^ (-149 : Int) / 2)) := by positivity
  have d1 : (1000 : ℝ) * (3860 * (1 / 2 ^ 24 + 2 ^ (-149 : Int) / 2)) ≤ 231600 / 10 ^ 6 := by linarith
  generalize (1000 : ℝ) * (3860 * (1 / 2 ^ 24 + 2 ^ (-149 : Int) / 2)) = d at *
  have n0 : (256 : ℝ) * 256 * (1000 * (9 * (2 ^ (-149 : Int) / 2))) ≤ 1 / 10 ^ 9 := by norm_num
  have n1 : (256 : ℝ) * 256 * (q'' * (1000 * (9 * (2 ^ (-149 : Int) / 2)))) ≤ 2 / 10 ^ 9 := by
    have z : (0 : ℝ) ≤ 256 * 256 * (1000 * (9 * (2 ^ (-149 : Int) / 2))) := by positivity
    have := mul_le_mul hi2 n0 z (by norm_num)
    linarith
  have u1 := mul_le_mul_of_nonneg_right hi (by linarith [most.1] : 0 ≤ T + d)
  have u2 := mul_le_mul_of_nonneg_right lo most.1
  have u3 := mul_le_mul_of_nonneg_right lo1 d0
  refine abs_le.2 ⟨?_, ?_⟩
  · linarith [most.2]
  · linarith [most.2]

end Artist.RoundedChain
