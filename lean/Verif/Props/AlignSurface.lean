import Verif.Model.AlignSurface
import Verif.Props.Alignment
import Verif.Spec.Group
import Verif.Proofs.Group
/-!
# C86: aligning puts the mirrors where the last alignment says
-/
namespace Artist.AlignSurface
open Artist Artist.Kinematics Matrix Transforms

theorem rotate_eq (o : Mat) (x : Mirror) : rotate o x = ⟨x.kinematics, x.points.map (o *ᵥ ·), x.normals.map (o *ᵥ ·)⟩ := by
  simp [rotate, vecMul_transpose]

/-- C86: after an activation, aligning with motor positions gives for each active row the stored surface of its heliostat, moved by the orientation of that heliostat for its motor
positions.  Nothing of earlier activations and alignments is left. -/
theorem C86_aligned (s s₁ s₂ : State) (mask : List Nat) (motors : List (ℝ × ℝ)) (h1 : activate s mask = .ok s₁) (h2 : alignMotors s₁ motors mask = .ok s₂) :
    s₂.all = s.all ∧ s₂.active = List.zipWith (fun (x : Mirror) m => ⟨x.kinematics, x.points.map (x.kinematics.motorToOrientation m *ᵥ ·),
      x.normals.map (x.kinematics.motorToOrientation m *ᵥ ·)⟩) (Group.expand s.all mask) motors := by
  unfold activate at h1
  split at h1
  · obtain rfl : _ = s₁ := by simpa using h1
    unfold alignMotors at h2
    simp only [if_true] at h2
    split at h2
    · obtain rfl : _ = s₂ := by simpa using h2
      simp only [rotate_eq, Group.repeatInterleave_eq_expand, and_self]
    · cases h2
  · cases h1

/-- C86, which calls are accepted: one entry of the mask for each heliostat of the group, and one pair of motor positions for each active row. -/
theorem C86_accepted_iff (s : State) (mask : List Nat) (motors : List (ℝ × ℝ)) :
    (∃ s₁ s₂, activate s mask = .ok s₁ ∧ alignMotors s₁ motors mask = .ok s₂) ↔ mask.length = s.all.length ∧ motors.length = mask.sum := by
  have hl : ∀ (rows : List Mirror) (mask : List Nat), mask.length = rows.length → (repeatInterleave rows mask).length = mask.sum := by
    intro rows mask h
    rw [Group.repeatInterleave_eq_expand]
    induction mask generalizing rows with
    | nil => simp [Group.expand]
    | cons m mask ih =>
      cases rows with
      | nil => simp at h
      | cons r rows =>
        have := ih rows (by simpa using h)
        simp only [Group.expand, List.zipWith_cons_cons, List.flatten_cons, List.length_append, List.length_replicate, List.sum_cons] at this ⊢
        omega
  unfold activate
  by_cases h : mask.length = s.all.length
  · simp only [if_pos h]
    constructor
    · rintro ⟨s₁, s₂, h1, h2⟩
      obtain rfl : _ = s₁ := by simpa using h1
      refine ⟨h, ?_⟩
      unfold alignMotors at h2
      simp only [if_true] at h2
      split at h2
      · rename_i hm
        rw [hm, hl _ _ h]
      · cases h2
    · rintro ⟨-, hm⟩
      have hm' : motors.length = (repeatInterleave s.all mask).length := by rw [hl _ _ h, hm]
      refine ⟨_, { s with active := List.zipWith (fun x m => rotate (x.kinematics.motorToOrientation m) x) (repeatInterleave s.all mask) motors, mask := mask }, rfl, ?_⟩
      simp only [alignMotors, if_true, if_pos hm']
  · simp [if_neg h, h]

/-- C86, the same for incident ray directions: each active row is the stored surface moved by the orientation that the kinematics returns for it. -/
theorem C86_aligned_incident (s s₁ s₂ : State) (mask : List Nat) (h1 : activate s mask = .ok s₁) (incident aim : Fin s₁.active.length → Fin 4 → ℝ) (iterations : Nat) (minEps : ℝ)
    (h2 : alignIncident s₁ incident aim mask iterations minEps = .ok s₂) :
    ∃ o m, (task s₁.active incident aim).align iterations minEps = .ok (o, m) ∧ s₁.active = Group.expand s.all mask ∧ s₂.all = s.all ∧
      s₂.active = List.ofFn fun (i : Fin s₁.active.length) => (⟨s₁.active[i].kinematics, s₁.active[i].points.map (o i *ᵥ ·), s₁.active[i].normals.map (o i *ᵥ ·)⟩ : Mirror) := by
  unfold activate at h1
  split at h1
  · obtain rfl : _ = s₁ := by simpa using h1
    unfold alignIncident at h2
    simp only [if_true] at h2
    split at h2
    · cases h2
    · rename_i o m ho
      obtain rfl : _ = s₂ := by simpa using h2
      exact ⟨o, m, ho, Group.repeatInterleave_eq_expand _ _, rfl, by simp only [rotate_eq]; rfl⟩
  · cases h1

/-- C86: aligning with another mask than that of the last activation is rejected, whatever else is given. -/
theorem C86_other_mask (s : State) (mask : List Nat) (hm : s.mask ≠ mask) (motors : List (ℝ × ℝ)) (incident aim : Fin s.active.length → Fin 4 → ℝ) (iterations : Nat) (minEps : ℝ) :
    alignMotors s motors mask = .error .assertionError ∧ alignIncident s incident aim mask iterations minEps = .error .assertionError := by
  simp [alignMotors, alignIncident, hm]

/-- C86 for alignments each preceded by an activation: whatever was done before, the result depends only on the last activation and alignment.  (The full claim, without the
activation in between, is false: `C86_compounds`.) -/
theorem C86_last_partial (s t s₁ s₂ t₁ t₂ : State) (hst : s.all = t.all) (mask : List Nat) (motors : List (ℝ × ℝ)) (h1 : activate s mask = .ok s₁)
    (h2 : alignMotors s₁ motors mask = .ok s₂) (h3 : activate t mask = .ok t₁) (h4 : alignMotors t₁ motors mask = .ok t₂) : s₂.active = t₂.active := by
  rw [(C86_aligned s s₁ s₂ mask motors h1 h2).2, (C86_aligned t t₁ t₂ mask motors h3 h4).2, hst]

/-- C86 is false without an activation in between: the second alignment moves the mirror that was already moved, so both orientations are applied one after the other. -/
theorem C86_compounds (s s₁ s₂ : State) (mask : List Nat) (motors motors' : List (ℝ × ℝ)) (h1 : alignMotors s motors mask = .ok s₁) (h2 : alignMotors s₁ motors' mask = .ok s₂)
    (i : Nat) (x : Mirror) (m m' : ℝ × ℝ) (hx : s.active[i]? = some x) (hm : motors[i]? = some m) (hm' : motors'[i]? = some m') :
    s₂.active[i]? = some ⟨x.kinematics, x.points.map (fun p => (x.kinematics.motorToOrientation m' * x.kinematics.motorToOrientation m) *ᵥ p),
      x.normals.map (fun v => (x.kinematics.motorToOrientation m' * x.kinematics.motorToOrientation m) *ᵥ v)⟩ := by
  by_cases hk : s.mask = mask
  · by_cases hl : motors.length = s.active.length
    · simp only [alignMotors, if_pos hk, if_pos hl] at h1
      obtain rfl : _ = s₁ := by simpa using h1
      by_cases hl' : motors'.length = (List.zipWith (fun x m => rotate (x.kinematics.motorToOrientation m) x) s.active motors).length
      · simp only [alignMotors, if_pos hk, if_pos hl'] at h2
        obtain rfl : _ = s₂ := by simpa using h2
        simp [List.getElem?_zipWith, hx, hm, hm', rotate_eq, Function.comp_def]
      · simp only [alignMotors, if_pos hk, if_neg hl'] at h2; cases h2
    · simp only [alignMotors, if_pos hk, if_neg hl] at h1; cases h1
  · simp only [alignMotors, if_neg hk] at h1; cases h1

/-- C86, how far off: aligning a mirror again to the motor positions it already has displaces its centre by the distance of the mirror from the origin of the field; it stays in place
exactly if it stands at the origin. -/
theorem C86_displaced (h : Heliostat) (m : ℝ × ℝ) :
    length3 ((h.motorToOrientation m * h.motorToOrientation m) *ᵥ ![0, 0, 0, 1] - h.motorToOrientation m *ᵥ ![0, 0, 0, 1]) =
      length3 (h.motorToOrientation m *ᵥ ![0, 0, 0, 1]) := by
  have hr := (C24_rigid h m).2
  rw [← mulVec_mulVec, hr.distance _ _ (by rw [hr.homogeneous])]
  unfold length3
  simp

/-- A case for the theorems: a heliostat ten metres north of the origin with ideal actuators, its mirror a single point, aligned twice with motor positions zero. -/
noncomputable def tenNorth : Mirror :=
  ⟨⟨![0, 10, 0, 1], 0, 0, ⟨id, id, -10, 10⟩, ⟨id, id, -10, 10⟩⟩, [![0, 0, 0, 1]], [![0, 0, 1, 0]]⟩

example : ∃ s₁ s₂ s₃, activate ⟨[tenNorth, tenNorth], [], []⟩ [0, 1] = .ok s₁ ∧ alignMotors s₁ [(0, 0)] [0, 1] = .ok s₂ ∧ alignMotors s₂ [(0, 0)] [0, 1] = .ok s₃ ∧
    (∃ p q, (s₂.active.map (·.points)) = [[p]] ∧ (s₃.active.map (·.points)) = [[q]] ∧ length3 (q - p) = 10) ∧
    alignMotors s₁ [(0, 0)] [1, 0] = .error .assertionError := by
  refine ⟨⟨[tenNorth, tenNorth], [tenNorth], [0, 1]⟩, ⟨[tenNorth, tenNorth], [rotate (tenNorth.kinematics.motorToOrientation (0, 0)) tenNorth], [0, 1]⟩,
    ⟨[tenNorth, tenNorth], [rotate (tenNorth.kinematics.motorToOrientation (0, 0)) (rotate (tenNorth.kinematics.motorToOrientation (0, 0)) tenNorth)], [0, 1]⟩,
    rfl, ?_, ?_, ?_, ?_⟩
  · simp [alignMotors]
  · simp [alignMotors]; rfl
  · refine ⟨tenNorth.kinematics.motorToOrientation (0, 0) *ᵥ ![0, 0, 0, 1],
      (tenNorth.kinematics.motorToOrientation (0, 0) * tenNorth.kinematics.motorToOrientation (0, 0)) *ᵥ ![0, 0, 0, 1], ?_, ?_, ?_⟩
    · simp [rotate_eq, tenNorth]
    · simp [rotate_eq, tenNorth]
    · rw [C86_displaced]
      have h : tenNorth.kinematics.forward (0, 0) = transl 0 10 0 := by
        have := C24_reference tenNorth.kinematics rfl rfl (0, 0) rfl rfl
        simpa [tenNorth] using this
      rw [Heliostat.motorToOrientation, h, ← mulVec_mulVec, offset_eq]
      have h0 : rotE (Real.pi / 2) *ᵥ ![0, 0, 0, 1] = ![0, 0, 0, 1] := by
        ext i; fin_cases i <;> simp [rotE, mulVec, dotProduct, Fin.sum_univ_four]
      rw [h0]
      have h1 : transl 0 10 0 *ᵥ ![0, 0, 0, 1] = ![0, 10, 0, 1] := by
        ext i; fin_cases i <;> simp [transl, mulVec, dotProduct, Fin.sum_univ_four]
      rw [h1]
      unfold length3
      simp
  · simp [alignMotors]

end Artist.AlignSurface
