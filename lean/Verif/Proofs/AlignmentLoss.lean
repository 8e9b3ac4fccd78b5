import Verif.Model.AlignmentLoss
import Verif.Spec.AlignmentLoss
import Verif.Props.Alignment
import Verif.Props.Losses
import Verif.Proofs.Report
import Verif.Proofs.Group
/-! Helper lemmas for C69. -/
namespace Artist.AlignmentLoss
open Artist Matrix Kinematics Transforms Intersect

theorem inner3_self_unit (v : Fin 4 → ℝ) (h : length3 v = 1) : inner3 v v = 1 := by
  have := length3_sq v; rw [h] at this; simp only [inner3]; linarith

theorem dot_inner (v w : Fin 4 → ℝ) (hw : w 3 = 0) : v ⬝ᵥ w = inner3 v w := by
  simp [dotProduct, Fin.sum_univ_four, inner3, hw]

/-- The bisector of two unit directions reflects one into the other. -/
theorem bisector (i r : Fin 4 → ℝ) (hi : UnitDirection i) (hr : UnitDirection r) (h : 0 < length3 (r - i)) :
    UnitDirection ((length3 (r - i))⁻¹ • (r - i)) ∧ reflect i ((length3 (r - i))⁻¹ • (r - i)) = r ∧
      inner3 i ((length3 (r - i))⁻¹ • (r - i)) < 0 := by
  have hw3 : (r - i) 3 = 0 := by simp [hi.1, hr.1]
  have hL : length3 (r - i) ^ 2 = 2 - 2 * inner3 i r := by
    have h1 := inner3_self_unit i hi.2
    have h2 := inner3_self_unit r hr.2
    rw [length3_sq]; simp only [inner3] at *; simp only [Pi.sub_apply]; linarith
  have hin : inner3 i ((length3 (r - i))⁻¹ • (r - i)) = (length3 (r - i))⁻¹ * (inner3 i r - 1) := by
    have h1 := inner3_self_unit i hi.2
    have : inner3 i ((length3 (r - i))⁻¹ • (r - i)) = (length3 (r - i))⁻¹ * (inner3 i r - inner3 i i) := by
      simp only [inner3, Pi.smul_apply, Pi.sub_apply, smul_eq_mul]; ring
    rw [this, h1]
  refine ⟨⟨by simp [hi.1, hr.1], ?_⟩, ?_, ?_⟩
  · rw [length3_smul, abs_of_pos (inv_pos.2 h), inv_mul_cancel₀ h.ne']
  · rw [reflect, dot_inner _ _ (by simp [hi.1, hr.1]), hin, smul_smul]
    have : 2 * ((length3 (r - i))⁻¹ * (inner3 i r - 1)) * (length3 (r - i))⁻¹ = -1 := by
      field_simp; linarith
    rw [this]; ext j; simp
  · rw [hin]
    have : inner3 i r - 1 < 0 := by nlinarith
    exact mul_neg_of_pos_of_neg (inv_pos.2 h) this

/-- The only unit normal facing the light that reflects `i` into `r` is the bisector. -/
theorem bisector_unique (i r n : Fin 4 → ℝ) (hn : UnitDirection n) (href : reflect i n = r) (hface : inner3 i n < 0) :
    n = (length3 (r - i))⁻¹ • (r - i) := by
  have e : r - i = (-(2 * inner3 i n)) • n := by
    rw [← href, reflect, dot_inner _ _ hn.1]; ext j; simp
  have hl : length3 (r - i) = -(2 * inner3 i n) := by
    rw [e, length3_smul, hn.2, mul_one, abs_of_pos (by linarith)]
  have h0 : (-(2 * inner3 i n)) ≠ 0 := by linarith
  rw [hl, e, smul_smul, inv_mul_cancel₀ h0, one_smul]

theorem norm3_length (x : Fin 4 → ℝ) : norm3 ![x 0, x 1, x 2] = length3 x := by
  rw [norm3, length3]; congr 1; simp [dotProduct, Fin.sum_univ_three]; ring

theorem direction_unit (a b : Fin 4 → ℝ) (h : 0 < length3 (b - a)) : UnitDirection (direction a b) := by
  have e : length3 ![b 0 - a 0, b 1 - a 1, b 2 - a 2, 0] = length3 (b - a) := by simp [length3]
  refine ⟨by simp [direction], ?_⟩
  rw [direction, e, length3_smul, e, abs_of_pos (inv_pos.2 h), inv_mul_cancel₀ h.ne']

theorem measuredNormal_eq (p f i : Fin 4 → ℝ) (hi : i 3 = 0) (hfar : 1 / 10 ^ 12 ≤ length3 (f - p))
    (hback : 1 / 10 ^ 12 ≤ length3 (direction p f - i)) :
    measuredNormal p f i = (length3 (direction p f - i))⁻¹ • (direction p f - i) := by
  set r := direction p f with hr
  have hr3 : r 3 = 0 := by simp [hr, direction]
  have e : length3 ![f 0 - p 0, f 1 - p 1, f 2 - p 2, 0] = length3 (f - p) := by simp [length3]
  have e1 : normalizeEps (1 / 10 ^ 12) ![f 0 - p 0, f 1 - p 1, f 2 - p 2] = ![r 0, r 1, r 2] := by
    have h0 := norm3_length ![f 0 - p 0, f 1 - p 1, f 2 - p 2, 0]
    simp only [cons_val_zero, cons_val_one, cons_val_two, head_cons, tail_cons] at h0
    rw [e] at h0
    rw [normalizeEps_of_le (by rw [h0]; exact hfar), h0, hr, direction, e]
    ext j; fin_cases j <;> simp
  have e2 : normalizeEps (1 / 10 ^ 12) ![r 0 - i 0, r 1 - i 1, r 2 - i 2] = (length3 (r - i))⁻¹ • ![(r - i) 0, (r - i) 1, (r - i) 2] := by
    have h0 := norm3_length (r - i)
    have : (![r 0 - i 0, r 1 - i 1, r 2 - i 2] : Fin 3 → ℝ) = ![(r - i) 0, (r - i) 1, (r - i) 2] := by
      ext j; fin_cases j <;> simp
    rw [this, normalizeEps_of_le (by rw [h0]; exact hback), h0]
  simp only [measuredNormal, e1]
  simp only [cons_val_zero, cons_val_one, cons_val_two, head_cons, tail_cons]
  rw [e2]
  ext j; fin_cases j <;> simp [hr3, hi]

theorem predicted_unit (h : Heliostat) (m : ℝ × ℝ) : UnitDirection (h.motorToOrientation m *ᵥ ![0, 0, 1, 0]) := by
  obtain ⟨h1, -, -, h4⟩ := C24_preserves h m
  refine ⟨by rw [h1]; simp, ?_⟩
  have := h4 ![0, 0, 1, 0] ![0, 0, 1, 0] (by simp) (by simp)
  rw [length3, Real.sqrt_eq_one]
  simp only [inner3] at this
  simp at this
  nlinarith

theorem norm2_length (v : Fin 4 → ℝ) : Losses.norm2 ![v 0, v 1, v 2] = length3 v := by
  rw [Losses.norm2, length3, Fin.sum_univ_three]; simp

/-- Between unit directions the angle loss vanishes exactly for equal ones. -/
theorem angleLoss_zero (p g : Fin 4 → ℝ) (hp : UnitDirection p) (hg : UnitDirection g) : angleLoss p g = 0 ↔ p = g := by
  have h1 := norm2_length p
  have h2 := norm2_length g
  rw [hp.2] at h1
  rw [hg.2] at h2
  have := (Losses.C37_angle (1 / 10 ^ 12) (by norm_num) ![p 0, p 1, p 2] ![g 0, g 1, g 2]).2.2 (by rw [h1]; norm_num) (by rw [h2]; norm_num)
  rw [angleLoss, this]
  constructor
  · rintro ⟨c, hc, h⟩
    have e : g = c • p := by
      have a0 := h 0
      have a1 := h 1
      have a2 := h 2
      simp only [cons_val_zero, cons_val_one, cons_val_two, head_cons, tail_cons] at a0 a1
      change g 2 = c * p 2 at a2
      ext j; fin_cases j <;> simp [a0, a1, a2, hp.1, hg.1]
    have : length3 g = c := by rw [e, length3_smul, hp.2, mul_one, abs_of_pos hc]
    rw [hg.2] at this
    rw [e, ← this, one_smul]
  · rintro rfl
    exact ⟨1, one_pos, fun i => by rw [one_mul]⟩

/-! ### Batches -/

theorem repeatInterleave_uniform {R : Type} (rows : List R) (mask : List Nat) (k : Nat) (hu : ∀ c ∈ mask, c = 0 ∨ c = k) (hk : 0 < k) :
    repeatInterleave rows mask = (activeRows rows mask).flatMap (fun r => List.replicate k r) := by
  induction rows generalizing mask with
  | nil => simp [repeatInterleave, activeRows]
  | cons x xs ih =>
    cases mask with
    | nil => simp [repeatInterleave, activeRows]
    | cons c cs =>
      have := ih cs (fun d hd => hu d (by simp [hd]))
      rw [repeatInterleave, this]
      rcases hu c (by simp) with rfl | rfl
      · simp [activeRows]
      · simp [activeRows, hk]

theorem activeRows_length {R : Type} (rows : List R) (mask : List Nat) (h : mask.length = rows.length) :
    (activeRows rows mask).length = Report.numberActive mask := by
  rw [activeRows, List.length_map, ← List.countP_eq_length_filter, Report.numberActive]
  have : mask.countP (fun c => decide (c > 0)) = ((rows.zip mask).map Prod.snd).countP (fun c => decide (c > 0)) := by
    rw [List.map_snd_zip (by omega)]
  rw [this, List.countP_map]
  rfl

theorem activeRows_train {R : Type} (rows : List R) (mask : List Nat) (t : Nat) (ht : 0 < t) :
    activeRows rows (mask.map (fun c => if c = 0 then 0 else t)) = activeRows rows mask := by
  induction rows generalizing mask with
  | nil => simp [activeRows]
  | cons x xs ih =>
    cases mask with
    | nil => simp [activeRows]
    | cons c cs =>
      have := ih cs
      unfold activeRows at this ⊢
      by_cases hc : c = 0
      · simpa [hc] using this
      · have h0 : 0 < c := by omega
        simp only [List.map_cons, List.zip_cons_cons, hc, if_false]
        rw [List.filter_cons_of_pos (by simpa using ht), List.filter_cons_of_pos (by simpa using h0), List.map_cons, List.map_cons, this]

theorem repeatCounts_ok {R : Type} (rows : List R) (mask : List Nat) (h : mask.length = rows.length) :
    repeatCounts rows mask = .ok (repeatInterleave rows mask) := by
  unfold repeatCounts Group.repeatRows
  have h1 : ((mask.map Int.ofNat).any fun c => decide (c < 0)) = false := by
    simp only [List.any_eq_false, decide_eq_true_eq, not_lt, List.mem_map]
    rintro c ⟨d, -, rfl⟩; exact Int.natCast_nonneg d
  rw [h1]
  simp only [Bool.false_eq_true, if_false]
  have h2 : (if (mask.map Int.ofNat).length = 1 then List.replicate rows.length ((mask.map Int.ofNat).headD 0) else mask.map Int.ofNat) =
      mask.map Int.ofNat := by
    split
    · rename_i hl
      rw [List.length_map] at hl
      obtain ⟨c, rfl⟩ := List.length_eq_one_iff.1 hl
      rw [← h]; rfl
    · rfl
  rw [h2, if_pos (by rw [List.length_map]; exact h)]
  congr 1
  rw [List.map_map]
  congr 1
  conv_rhs => rw [← List.map_id mask]
  rfl

theorem flatMap_block {R : Type} (a k : Nat) (f : Nat → Nat → R) :
    (List.range a).flatMap (fun j => (List.range k).map (f j)) = (List.range (a * k)).map (fun s => f (s / k) (s % k)) := by
  rcases Nat.eq_zero_or_pos k with h | h
  · subst h; simp
  induction a with
  | zero => simp
  | succ a ih =>
    rw [List.range_succ, List.flatMap_append, ih, Nat.succ_mul, List.range_add, List.map_append]
    congr 1
    simp only [List.flatMap_cons, List.flatMap_nil, List.append_nil, List.map_map]
    apply List.map_congr_left
    intro s hs
    rw [List.mem_range] at hs
    simp only [Function.comp]
    rw [Nat.add_comm, Nat.add_mul_div_right _ _ h, Nat.div_eq_of_lt hs, Nat.zero_add, Nat.add_mul_mod_self_right, Nat.mod_eq_of_lt hs]

theorem flatMap_replicate {R : Type} (a k : Nat) (H : Nat → R) :
    ((List.range a).map H).flatMap (fun r => List.replicate k r) = (List.range (a * k)).map (fun s => H (s / k)) := by
  rw [← flatMap_block a k (fun j _ => H j), List.flatMap_map]
  congr 1
  funext j
  rw [List.map_const', List.length_range]

theorem pairLoss_map {P G L : Type} (f : P → G → L) (n : Nat) (p : Nat → P) (g : Nat → G) :
    Report.pairLoss f ((List.range n).map p) ((List.range n).map g) = .ok ((List.range n).map (fun s => f (p s) (g s))) := by
  unfold Report.pairLoss
  rw [if_pos (by simp), List.zipWith_map, List.zipWith_self]

theorem gather_train {A : Type} (a k t : Nat) (htk : t ≤ k) (ht : 0 < t) (q : Nat → A) :
    Report.gather ((List.range (a * k)).map q) ((List.range a).flatMap (fun b => (List.range t).map (fun o => b * k + o))) =
      .ok ((List.range (a * t)).map (fun s => q (s / t * k + s % t))) := by
  rw [flatMap_block a t (fun b o => b * k + o)]
  apply Report.gather_map
  intro s hs
  rw [List.mem_range] at hs
  have h1 : s / t < a := Nat.div_lt_of_lt_mul (by rw [Nat.mul_comm]; exact hs)
  have h2 : s % t < t := Nat.mod_lt _ ht
  have h3 : (s / t + 1) * k ≤ a * k := Nat.mul_le_mul_right k h1
  rw [Nat.succ_mul] at h3
  rw [List.getElem?_map, List.getElem?_range (by omega)]
  rfl

end Artist.AlignmentLoss
