import Verif.Spec.Translation
import Verif.Props.LBVHAny
import Verif.Props.Aiming
import Verif.Props.Neighbours
/-!
# Moving the whole scene changes nothing (C94)
-/
namespace Artist.Moved
open Artist LBVH Morton SoftMask Intersect Flux Kinematics Transforms Matrix

section
variable {K : Type} [Field K] [LinearOrder K] [IsStrictOrderedRing K]

theorem minOf_add (a x : K) (xs : List K) : Morton.minOf (x + a) (xs.map (· + a)) = Morton.minOf x xs + a := by
  unfold Morton.minOf
  induction xs generalizing x with
  | nil => rfl
  | cons y ys ih => simp only [List.map_cons, List.foldl_cons, min_add_add_right]; exact ih _

theorem maxOf_add (a x : K) (xs : List K) : Morton.maxOf (x + a) (xs.map (· + a)) = Morton.maxOf x xs + a := by
  unfold Morton.maxOf
  induction xs generalizing x with
  | nil => rfl
  | cons y ys ih => simp only [List.map_cons, List.foldl_cons, max_add_add_right]; exact ih _

theorem centroid_moved (v : V3 K) (c : V3 K × V3 K × V3 K × V3 K) : centroid (corners v c) = centroid c + v := by
  unfold centroid corners
  ext <;> simp <;> ring

theorem cornerBox_moved (v : V3 K) (c : V3 K × V3 K × V3 K × V3 K) : cornerBox (corners v c) = ⟨(cornerBox c).mn + v, (cornerBox c).mx + v⟩ := by
  unfold cornerBox corners
  simp only [V3.map₂, Box.mk.injEq]
  constructor <;> (ext <;> simp [min_add_add_right, max_add_add_right])

theorem hits_moved (v : V3 K) (r : Ray K) (b : Box K) : hits (ray v r) ⟨b.mn + v, b.mx + v⟩ = hits r b := by
  unfold hits rayAabb ray
  simp only [V3.map₂, V3.sub_e, V3.sub_n, V3.sub_u, V3.add_e, V3.add_n, V3.add_u, add_sub_add_right_eq_sub]
  rfl

theorem bruteForce_moved (v : V3 K) (field : List (V3 K × V3 K × V3 K × V3 K)) (rays : List (Ray K)) :
    bruteForce ((field.map (corners v)).map cornerBox) (rays.map (ray v)) = bruteForce (field.map cornerBox) rays := by
  unfold bruteForce
  simp only [List.length_map]
  apply List.filter_congr
  intro p hp
  rw [List.mem_range] at hp
  rw [getD_corners _ p (by simpa using hp), getD_corners _ p hp, List.any_map]
  congr 1
  funext r
  simp only [Function.comp_apply, List.getElem_map, cornerBox_moved, hits_moved]
  rfl

variable [FloorRing K]

theorem quantised_moved (eps : K) (v p : V3 K) (ps : List (V3 K)) : quantised eps (p + v) (ps.map (· + v)) = quantised eps p ps := by
  have e : ∀ (f : V3 K → K) (a : K), (∀ x : V3 K, f (x + v) = f x + a) → (ps.map (· + v)).map f = (ps.map f).map (· + a) := by
    intro f a h
    simp only [List.map_map]
    apply List.map_congr_left
    intro x _
    simp [h]
  have hex : extent eps (p + v) (ps.map (· + v)) = ((extent eps p ps).1 + v, (extent eps p ps).2) := by
    unfold extent
    simp only
    rw [e V3.e v.e (fun _ => rfl), e V3.n v.n (fun _ => rfl), e V3.u v.u (fun _ => rfl)]
    simp only [V3.add_e, V3.add_n, V3.add_u, minOf_add, maxOf_add, add_sub_add_right_eq_sub]
    rfl
  unfold quantised
  simp only [hex]
  rw [← List.map_cons (f := (· + v)), List.map_map]
  apply List.map_congr_left
  intro x _
  simp [quantise]

/-- Blocking candidates: for every field and all rays, the filter ends after the move exactly if it did before, with the same result. -/
theorem C94_filter (v : V3 K) (field : List (V3 K × V3 K × V3 K × V3 K)) (rays : List (Ray K)) (result : Except PyErr (List Nat)) :
    (∃ fuel, lbvhFilter (field.map (corners v)) (rays.map (ray v)) fuel = some result) ↔ ∃ fuel, lbvhFilter field rays fuel = some result := by
  by_cases hne : field = []
  · subst hne; rfl
  have hne' : field.map (corners v) ≠ [] := by simpa using hne
  obtain ⟨codes, c, cs, hc, hm, hend⟩ := C10_ends_iff_no_loop field hne
  obtain ⟨codes₁, c₁, cs₁, hc₁, hm₁, hrep⟩ := C09_reported_iff field hne
  obtain ⟨codes', c', cs', hc', hm', hend'⟩ := C10_ends_iff_no_loop (field.map (corners v)) hne'
  obtain ⟨codes₂, c₂, cs₂, hc₂, hm₂, hrep'⟩ := C09_reported_iff (field.map (corners v)) hne'
  have hcv : (field.map (corners v)).map centroid = (c + v) :: cs.map (· + v) := by
    rw [List.map_map, ← List.map_cons (f := (· + v)), ← hc, List.map_map]
    apply List.map_congr_left
    intro x _
    simp [centroid_moved]
  rw [hc, List.cons.injEq] at hc₁
  obtain ⟨rfl, rfl⟩ := hc₁
  rw [hcv, List.cons.injEq] at hc' hc₂
  obtain ⟨rfl, rfl⟩ := hc'
  obtain ⟨rfl, rfl⟩ := hc₂
  have hmv : mortonCodes (1 / 10 ^ 6) (c + v) (cs.map (· + v)) = .ok codes := by
    rw [← hm]; unfold mortonCodes; rw [quantised_moved]
  rw [hm, Except.ok.injEq] at hm₁
  rw [hmv, Except.ok.injEq] at hm' hm₂
  subst hm₁ hm' hm₂
  have hloop : HasLoop (buildFromCodes codes ((field.map (corners v)).map cornerBox)) ↔ HasLoop (buildFromCodes codes (field.map cornerBox)) := Iff.rfl
  have hreach : ∀ p, LeafReachable (buildFromCodes codes ((field.map (corners v)).map cornerBox)) p ↔
      LeafReachable (buildFromCodes codes (field.map cornerBox)) p := fun _ => Iff.rfl
  have hsame : ∀ res res' : List Nat, res.Pairwise (· < ·) → res'.Pairwise (· < ·) → (∀ p, p ∈ res ↔ p ∈ res') → res = res' := by
    intro res res' h1 h2 h3
    exact ((List.perm_ext_iff_of_nodup (h1.imp (fun h => ne_of_lt h)) (h2.imp (fun h => ne_of_lt h))).2 h3).eq_of_pairwise
      (fun a b _ _ hab hba => absurd (lt_trans hab hba) (lt_irrefl _)) h1 h2
  constructor
  · rintro ⟨fuel, hf⟩
    have hno := hloop.not.1 (((hend' (rays.map (ray v))).1).1 ⟨fuel, result, hf⟩)
    obtain ⟨F, res, hF⟩ := (hend rays).2 hno
    obtain ⟨r1, e1, s1, m1⟩ := hrep rays F _ (hF F (le_refl _))
    cases e1
    obtain ⟨r2, rfl, s2, m2⟩ := hrep' (rays.map (ray v)) fuel result hf
    have : r2 = res := hsame _ _ s2 s1 (fun p => by rw [m1, m2, bruteForce_moved, hreach])
    exact ⟨F, by rw [this]; exact hF F (le_refl _)⟩
  · rintro ⟨fuel, hf⟩
    have hno := hloop.not.2 (((hend rays).1).1 ⟨fuel, result, hf⟩)
    obtain ⟨F, res, hF⟩ := (hend' (rays.map (ray v))).2 hno
    obtain ⟨r1, e1, s1, m1⟩ := hrep' (rays.map (ray v)) F _ (hF F (le_refl _))
    cases e1
    obtain ⟨r2, rfl, s2, m2⟩ := hrep rays fuel result hf
    have : r2 = res := hsame _ _ s2 s1 (fun p => by rw [m1, m2, bruteForce_moved, hreach])
    exact ⟨F, by rw [this]; exact hF F (le_refl _)⟩
end

/-! ## Blocking mask -/

theorem sub_moved (a b v : V3 ℝ) : (a + v) - (b + v) = a - b := by ext <;> simp

theorem rectOfCorners_moved (v c0 c1 c2 c3 : V3 ℝ) : rectOfCorners (c0 + v) (c1 + v) (c2 + v) (c3 + v) = rect v (rectOfCorners c0 c1 c2 c3) := by
  unfold rectOfCorners rect
  simp only [sub_moved]

theorem planeCoordinates_moved (eps : ℝ) (v o d : V3 ℝ) (r : Rect) : planeCoordinates eps (o + v) d (rect v r) = planeCoordinates eps o d r := by
  have h1 : SoftMask.planeDistance eps (o + v) d (rect v r) = SoftMask.planeDistance eps o d r := by
    unfold SoftMask.planeDistance rect
    simp only [sub_moved]
  have h2 : ∀ t : ℝ, (o + v + t • d) - (r.corner + v) = (o + t • d) - r.corner := by intro t; ext <;> simp <;> ring
  unfold planeCoordinates
  simp only [h1]
  unfold rect
  simp only [h2]
  rfl

/-- The blocking rectangles move with the aligned surface points; a ray is blocked by the moved rectangles as it was before. -/
theorem C94_blocking (v : V3 ℝ) (points active : List (V3 ℝ)) (eps softness alpha offset : ℝ) (o d : V3 ℝ) (rects : List Rect) :
    rectByBounds points (active.map (· + v)) = (rectByBounds points active).map (rect v) ∧
    rectByIndex (active.map (· + v)) = (rectByIndex active).map (rect v) ∧
    softMask eps softness alpha offset (o + v) d (rects.map (rect v)) = softMask eps softness alpha offset o d rects := by
  refine ⟨?_, ?_, ?_⟩
  · unfold rectByBounds
    simp only
    split
    · rfl
    · simp only [List.getElem?_map]
      rcases active[(boundingCorners points).1]? with _ | a <;> rcases active[(boundingCorners points).2.1]? with _ | b <;>
        rcases active[(boundingCorners points).2.2.1]? with _ | c <;> rcases active[(boundingCorners points).2.2.2]? with _ | d <;>
        simp [Except.map, rectOfCorners_moved]
  · unfold rectByIndex
    simp only [List.length_map, List.getElem?_map]
    rcases active[(cornerIndices active.length).1]? with _ | a <;> rcases active[(cornerIndices active.length).2.1]? with _ | b <;>
        rcases active[(cornerIndices active.length).2.2.1]? with _ | c <;> rcases active[(cornerIndices active.length).2.2.2]? with _ | d <;>
        simp [Except.map, rectOfCorners_moved]
  · unfold softMask
    rw [List.mapM_map]
    have : (fun r => sigma eps softness offset (o + v) d (rect v r)) = sigma eps softness offset o d := by
      funext r
      have h1 : SoftMask.planeDistance eps (o + v) d (rect v r) = SoftMask.planeDistance eps o d r := by
        unfold SoftMask.planeDistance rect
        simp only [sub_moved]
      unfold sigma
      simp only [planeCoordinates_moved, h1]
      rfl
    rw [show (sigma eps softness offset (o + v) d ∘ rect v) = sigma eps softness offset o d from this]

/-! ## Bitmaps -/

theorem land_moved (W H : Nat) (m : ℝ) (v : V3 ℝ) (t : Target) (r : V3 ℝ × V3 ℝ) : land W H m (target v t) (line v r) = land W H m t r := by
  obtain ⟨o, d⟩ := r
  cases t with
  | planar p =>
    have hd : Intersect.planeDistance (o + v) d (plane v p) = Intersect.planeDistance o d p := by
      unfold Intersect.planeDistance plane planeAngle
      simp only [sub_moved]
    have hpt : planePoint (o + v) d (plane v p) = planePoint o d p + v := by
      unfold planePoint
      rw [hd]
      ext <;> simp <;> ring
    have ha : planeAngle d (plane v p) = planeAngle d p := rfl
    unfold land target line linePlane
    simp only [hpt, hd, ha]
    have e1 : (planePoint o d p + v).e + (plane v p).width / 2 - (plane v p).center.e = (planePoint o d p).e + p.width / 2 - p.center.e := by
      simp [plane]; ring
    have e2 : (planePoint o d p + v).u + (plane v p).height / 2 - (plane v p).center.u = (planePoint o d p).u + p.height / 2 - p.center.u := by
      simp [plane]; ring
    rw [e1, e2]
    rfl
  | cylinder c =>
    have hdist : Cylinder.distance { c with center := c.center + v } (o + v) d = c.distance o d := by
      unfold Cylinder.distance Cylinder.quadratic
      simp only [sub_moved]
      rfl
    unfold land target line lineCylinder
    simp only [hdist, sub_moved]
    rfl

/-- The bitmap and the three factors of a sample: target, ray origins and blocking rectangles moved. -/
theorem C94_bitmap (W H : Nat) (m ext refl : ℝ) (v : V3 ℝ) (t : Target) (rects : List Rect) (rays : List (V3 ℝ × V3 ℝ)) (blocked blocked' : V3 ℝ × V3 ℝ → ℝ)
    (hb : ∀ r ∈ rays, Blocks rects blocked r) (hb' : ∀ r ∈ rays, Blocks (rects.map (rect v)) blocked' (line v r)) :
    traceSample W H m ext refl (target v t) blocked' (rays.map (line v)) = traceSample W H m ext refl t blocked rays := by
  have hbl : ∀ r ∈ rays, blocked' (line v r) = blocked r := by
    intro r hr
    have h1 := hb r hr
    have h2 := hb' r hr
    unfold Blocks at h1 h2
    rw [line, (C94_blocking v [] [] _ _ _ _ _ _ _).2.2, h1] at h2
    exact (Option.some.inj h2).symm
  have hhit : ∀ r ∈ rays, hitOf W H m ext refl (target v t) blocked' (line v r) = hitOf W H m ext refl t blocked r := by
    intro r hr
    unfold hitOf
    simp only [land_moved, hbl r hr]
  unfold traceSample
  simp only [List.map_map, List.length_map, List.countP_map]
  rw [List.map_congr_left (f := hitOf W H m ext refl (target v t) blocked' ∘ line v) (g := hitOf W H m ext refl t blocked) (fun r hr => hhit r hr)]
  rw [List.countP_congr (p := (fun ray => decide (0 < (hitOf W H m ext refl (target v t) blocked' ray).w)) ∘ line v)
      (q := fun ray => decide (0 < (hitOf W H m ext refl t blocked ray).w)) (fun r hr => by simp [hhit r hr]),
    List.countP_congr (p := (fun ray => decide (0 < (land W H m (target v t) ray).intensity)) ∘ line v)
      (q := fun ray => decide (0 < (land W H m t ray).intensity)) (fun r hr => by simp [land_moved]),
    List.countP_congr (p := (fun ray => decide (blocked' ray < 1 / 10 ^ 3)) ∘ line v)
      (q := fun ray => decide (blocked ray < 1 / 10 ^ 3)) (fun r hr => by simp [hbl r hr])]

/-! ## Alignment -/

theorem transl_point (v : V3 ℝ) (x : Fin 4 → ℝ) (hx : x 3 = 1) : transl v.e v.n v.u *ᵥ x = point v x := by
  funext i
  fin_cases i <;> simp [transl, point, mulVec, dotProduct, Fin.sum_univ_four, hx]

theorem transl_direction (v : V3 ℝ) (x : Fin 4 → ℝ) (hx : x 3 = 0) : transl v.e v.n v.u *ᵥ x = x := by
  funext i
  fin_cases i <;> simp [transl, mulVec, dotProduct, Fin.sum_univ_four, hx]

theorem forward_moved (v : V3 ℝ) (h : Heliostat) (m : ℝ × ℝ) : (heliostat v h).forward m = transl v.e v.n v.u * h.forward m := by
  have e : transl (h.position 0 + v.e) (h.position 1 + v.n) (h.position 2 + v.u) = transl v.e v.n v.u * transl (h.position 0) (h.position 1) (h.position 2) := by
    ext i j
    fin_cases i <;> fin_cases j <;> simp [transl, Matrix.mul_apply, Fin.sum_univ_four, add_comm]
  unfold Heliostat.forward Heliostat.anglesToOrientation heliostat
  simp only [one_mul]
  rw [show transl (point v h.position 0) (point v h.position 1) (point v h.position 2) = _ from e]
  simp only [Matrix.mul_assoc]

theorem desired_moved {k : Nat} (v : V3 ℝ) (t : Task k) (m : Fin k → ℝ × ℝ) : (task v t).desired m = t.desired m := by
  funext i
  unfold Task.desired Heliostat.desiredNormal Task.orientations
  simp only [task]
  rw [forward_moved, ← mulVec_mulVec]
  have h3 : ((t.heliostat i).forward (m i) *ᵥ origin) 3 = 1 := by
    unfold Heliostat.forward
    rw [(rigid_forward (t.heliostat i) _ _).homogeneous]; simp [origin]
  rw [transl_point v _ h3]
  simp only [point]
  simp

theorem losses_moved {k : Nat} (v : V3 ℝ) (t : Task k) (m : Fin k → ℝ × ℝ) : (task v t).losses m = t.losses m := by
  funext i
  unfold Task.losses
  rw [desired_moved]
  unfold Heliostat.loss Task.orientations
  simp only [task]
  rw [forward_moved, ← mulVec_mulVec]
  have h3 : ((t.heliostat i).forward (m i) *ᵥ south) 3 = 0 := by
    unfold Heliostat.forward
    rw [(rigid_forward (t.heliostat i) _ _).homogeneous]; simp [south]
  rw [transl_direction v _ h3]

theorem next_moved {k : Nat} (v : V3 ℝ) (t : Task k) (m : Fin k → ℝ × ℝ) : (task v t).next m = t.next m := by
  funext i
  unfold Task.next
  rw [desired_moved]
  rfl

theorem loop_moved {k : Nat} (v : V3 ℝ) (t : Task k) (minEps : ℝ) : ∀ (n : Nat) (last : Option (Fin k → ℝ)) (m : Fin k → ℝ × ℝ),
    (task v t).loop minEps n last m = ((fun i => transl v.e v.n v.u * (t.loop minEps n last m).1 i), (t.loop minEps n last m).2) := by
  have ho : ∀ m, (task v t).orientations m = fun i => transl v.e v.n v.u * t.orientations m i := by
    intro m
    funext i
    exact forward_moved v (t.heliostat i) (m i)
  intro n
  induction n with
  | zero =>
    intro last m
    unfold Task.loop
    rw [losses_moved, next_moved, ho]
    split <;> rfl
  | succ n ih =>
    intro last m
    unfold Task.loop
    rw [losses_moved, next_moved, ho]
    split
    · rfl
    · exact ih _ _

/-- Alignment: if all heliostats and all aim points are moved, the motor positions are the same and the orientations are followed by the move. -/
theorem C94_alignment {k : Nat} (v : V3 ℝ) (t : Task k) (iterations : Nat) (minEps : ℝ) :
    (task v t).align iterations minEps = (t.align iterations minEps).map fun r => ((fun i => transl v.e v.n v.u * r.1 i), r.2) := by
  unfold Task.align
  cases iterations with
  | zero => rfl
  | succ n =>
    simp only [loop_moved, Except.map, Matrix.mul_assoc]

/-- Hence every aligned surface point is moved by the vector, and every aligned normal stays. -/
theorem C94_surface (v : V3 ℝ) (orientation : Mat) (ho : Rigid orientation) (p n : Fin 4 → ℝ) (hp : p 3 = 1) (hn : n 3 = 0) :
    p ᵥ* (transl v.e v.n v.u * orientation)ᵀ = point v (p ᵥ* orientationᵀ) ∧ n ᵥ* (transl v.e v.n v.u * orientation)ᵀ = n ᵥ* orientationᵀ := by
  simp only [vecMul_transpose]
  rw [← mulVec_mulVec, ← mulVec_mulVec]
  exact ⟨transl_point v _ (by rw [ho.homogeneous]; exact hp), transl_direction v _ (by rw [ho.homogeneous]; exact hn)⟩

/-- The whole chain for one sample: heliostats and aim points are moved and aligned, the mirror is placed by its new orientation, the sun is scattered by the same distortions, and the
rays are traced to the moved target past the moved blocking rectangles.  The motor positions, the bitmap and the three factors are those of the scene in its old place. -/
theorem C94_scene (v : V3 ℝ) {k : Nat} (t : Task k) (n : Nat) (minEps : ℝ) (o : Fin k → Mat) (motors : Fin k → ℝ × ℝ) (h : t.align n minEps = .ok (o, motors)) :
    ∃ o', (task v t).align n minEps = .ok (o', motors) ∧
      ∀ (i : Fin k) (surface : List ((Fin 4 → ℝ) × (Fin 4 → ℝ))) (_ : ∀ s ∈ surface, s.1 3 = 1 ∧ s.2 3 = 0) (distortions : List (List (ℝ × ℝ)))
        (W H : Nat) (m ext refl : ℝ) (area : Target) (rects : List Rect) (blocked blocked' : V3 ℝ × V3 ℝ → ℝ)
        (_ : ∀ r ∈ raysOf (t.incident i) (placed (o i) surface) distortions, Blocks rects blocked r)
        (_ : ∀ r ∈ raysOf (t.incident i) (placed (o' i) surface) distortions, Blocks (rects.map (rect v)) blocked' r),
        traceSample W H m ext refl (target v area) blocked' (raysOf (t.incident i) (placed (o' i) surface) distortions) =
          traceSample W H m ext refl area blocked (raysOf (t.incident i) (placed (o i) surface) distortions) := by
  refine ⟨fun i => transl v.e v.n v.u * o i, by rw [C94_alignment, h]; rfl, ?_⟩
  intro i surface hs distortions W H m ext refl area rects blocked blocked' hb hb'
  have hM : Rigid (o i) := by
    obtain ⟨j, _, _, ho, _⟩ := C26_result t n minEps o motors h
    rw [ho i]; exact (C24_rigid (t.heliostat i) _).2
  have hplaced : placed (transl v.e v.n v.u * o i) surface = (placed (o i) surface).map fun s => (s.1 + v, s.2) := by
    unfold placed
    rw [List.map_map]
    apply List.map_congr_left
    intro s hmem
    obtain ⟨h1, h2⟩ := C94_surface v (o i) hM s.1 s.2 (hs s hmem).1 (hs s hmem).2
    simp only [vecMul_transpose] at h1 h2
    simp only [Function.comp_apply, h1, h2]
    rfl
  have hrays : raysOf (t.incident i) (placed (transl v.e v.n v.u * o i) surface) distortions = (raysOf (t.incident i) (placed (o i) surface) distortions).map (line v) := by
    rw [hplaced]
    unfold raysOf
    rw [List.map_flatMap]
    congr 1
    funext row
    rw [List.zipWith_map_left, List.map_zipWith]
    rfl
  rw [hrays] at hb' ⊢
  exact C94_bitmap W H m ext refl v area rects _ blocked blocked' hb (fun r hr => hb' _ (List.mem_map.2 ⟨r, hr, rfl⟩))

/-- The focal spot of a bitmap moves with the planar target. -/
theorem C94_focal_spot (eps : ℝ) (W H : Nat) (v : V3 ℝ) (p : Plane ℝ) (bitmap : List (List ℝ)) :
    Aiming.focalSpot eps W H (plane v p) bitmap = Aiming.focalSpot eps W H p bitmap + v := by
  unfold Aiming.focalSpot Bitmap.toPlane plane
  ext <;> simp <;> ring

/-! ## Cases -/

/-- The five heliostats of C93, one kilometre further east and 50 m higher: heliostat 4 is still found in the way of the ray. -/
example : ∃ fuel, lbvhFilter (fiveField.map (corners ⟨1000, 0, 50⟩)) ([northRay].map (ray ⟨1000, 0, 50⟩)) fuel = some (.ok [4]) := by
  obtain ⟨⟨F, hF⟩, _⟩ := C93_further_heliostat_unblocks
  exact (C94_filter _ fiveField [northRay] _).2 ⟨F, (hF F (le_refl _)).1⟩

/-- rectangles that are not degenerate have a blocking mask -/
theorem blocks_of_proper (rects : List Rect) (h : ∀ r ∈ rects, V3.cross r.spanU r.spanV ≠ 0) (r : V3 ℝ × V3 ℝ) :
    Blocks rects (fun r => (softMask (1 / 10 ^ 12) 1000 100 (5 / 100) r.1 r.2 rects).getD 0) r := by
  unfold Blocks
  cases hs : softMask (1 / 10 ^ 12) 1000 100 (5 / 100) r.1 r.2 rects with
  | none =>
    rw [C15_nan_iff _ _ _ _ (by positivity)] at hs
    obtain ⟨x, hx, h0⟩ := hs
    exact absurd h0 (h x hx)
  | some m => simp only [hs, Option.getD_some]

/-- The heliostat of C56 with a mirror of two points, a wall between it and its target; all moved by (100, 200, 300). -/
example : ∃ o o' motors, taskExample.align 4 (1 / 10 ^ 4) = .ok (o, motors) ∧ (task ⟨100, 200, 300⟩ taskExample).align 4 (1 / 10 ^ 4) = .ok (o', motors) ∧
    ∃ blocked blocked',
      traceSample 256 256 1 0 1 (target ⟨100, 200, 300⟩ (.planar ⟨⟨10, -30, 30⟩, ⟨0, 1, 0⟩, 10, 10⟩)) blocked'
          (raysOf ![0, 0, -1, 0] (placed (o' 0) [(![0, 0, 0, 1], ![0, 0, 1, 0]), (![1, 0, 0, 1], ![0, 0, 1, 0])]) [[(0, 0), (1 / 1000, 0)]]) =
        traceSample 256 256 1 0 1 (.planar ⟨⟨10, -30, 30⟩, ⟨0, 1, 0⟩, 10, 10⟩) blocked
          (raysOf ![0, 0, -1, 0] (placed (o 0) [(![0, 0, 0, 1], ![0, 0, 1, 0]), (![1, 0, 0, 1], ![0, 0, 1, 0])]) [[(0, 0), (1 / 1000, 0)]]) := by
  obtain ⟨o, m, h, -⟩ := taskExample_aligned
  obtain ⟨o', h', hsame⟩ := C94_scene ⟨100, 200, 300⟩ taskExample 4 _ o m h
  let wall : Rect := ⟨⟨9, -20, 29⟩, ⟨1, 0, 0⟩, ⟨0, 0, 2⟩, ⟨0, -1, 0⟩⟩
  have hw : V3.cross wall.spanU wall.spanV ≠ 0 := by
    intro h0
    have := congrArg V3.n h0
    simp [wall, V3.cross] at this
  refine ⟨o, o', m, h, h', _, _, hsame 0 _ ?_ _ 256 256 1 0 1 _ [wall] _ _
    (fun r _ => blocks_of_proper _ (by simpa using hw) r) (fun r _ => blocks_of_proper _ (by simpa [rect] using hw) r)⟩
  intro s hs
  simp at hs
  rcases hs with rfl | rfl <;> simp

end Artist.Moved
