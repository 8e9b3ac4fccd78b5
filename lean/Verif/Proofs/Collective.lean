import Verif.Model.Collective
import Verif.Props.Env
import Mathlib.Algebra.Field.Basic
/-! Helper lemmas for C58 and C60. -/
namespace Artist.Collective
open Artist Artist.Env

variable {K : Type}

theorem sumVectors_spec [AddCommMonoid K] (vs : List (List K)) : ∀ (acc : List K) (m : Nat), acc.length = m → (∀ v ∈ vs, v.length = m) →
    (sumVectors acc vs).length = m ∧
    ∀ i, i < m → (sumVectors acc vs)[i]? = some (acc.getD i 0 + (vs.map (fun v => v.getD i 0)).sum) := by
  induction vs with
  | nil =>
    intro acc m h _
    refine ⟨h, fun i hi => ?_⟩
    simp [sumVectors, List.getD, List.getElem?_eq_getElem (by omega : i < acc.length)]
  | cons v vs ih =>
    intro acc m h hv
    have hv0 := hv v (by simp)
    have hz : (List.zipWith (· + ·) acc v).length = m := by simp [h, hv0]
    obtain ⟨h1, h2⟩ := ih (List.zipWith (· + ·) acc v) m hz (fun w hw => hv w (by simp [hw]))
    refine ⟨h1, fun i hi => ?_⟩
    have := h2 i hi
    unfold sumVectors at this ⊢
    rw [List.foldl_cons, this]
    have e : (List.zipWith (· + ·) acc v).getD i 0 = acc.getD i 0 + v.getD i 0 := by
      simp [List.getD, List.getElem?_zipWith, List.getElem?_eq_getElem (by omega : i < acc.length),
        List.getElem?_eq_getElem (by omega : i < v.length)]
    rw [e, List.map_cons, List.sum_cons, add_assoc]

theorem putBack_filter {α β : Type} (l : List β) (P : β → Prop) [DecidablePred P] (f h : β → α) :
    putBack (l.map (fun g => if P g then some (f g) else none)) ((l.filter (fun g => decide (P g))).map h) =
      l.map (fun g => if P g then some (h g) else none) := by
  induction l with
  | nil => simp [putBack]
  | cons x l ih =>
    by_cases hx : P x
    · simp [hx, putBack, ih]
    · simp [hx, putBack, ih]

theorem filterMap_id_if {α β : Type} (l : List β) (P : β → Prop) [DecidablePred P] (f : β → α) :
    (l.map (fun g => if P g then some (f g) else none)).filterMap id = (l.filter (fun g => decide (P g))).map f := by
  rw [List.filterMap_map]
  induction l with
  | nil => simp
  | cons x l ih =>
    simp only [Function.id_comp] at ih ⊢
    by_cases hx : P x
    · simp [hx, ih]
    · simp [hx, ih]

/-- The average over the processes of their `n`-th gradients. -/
def avg [Field K] (W m : Nat) (grp : Nat → Nat → Nat) (grad : Nat → Nat → List K) (n : Nat) : List K :=
  (sumVectors (List.replicate m 0) ((List.range W).map (fun s => grad s (grp s n)))).map (· / (W : K))

theorem avg_spec [Field K] (W m : Nat) (grp : Nat → Nat → Nat) (grad : Nat → Nat → List K) (n : Nat)
    (hm : ∀ s, s < W → (grad s (grp s n)).length = m) :
    (avg W m grp grad n).length = m ∧
      ∀ i, i < m → (avg W m grp grad n)[i]? = some (((List.range W).map (fun s => (grad s (grp s n)).getD i 0)).sum / (W : K)) := by
  obtain ⟨h1, h2⟩ := sumVectors_spec ((List.range W).map (fun s => grad s (grp s n))) (List.replicate m 0) m (by simp) (by
    intro v hv
    obtain ⟨s, hs, rfl⟩ := List.mem_map.1 hv
    exact hm s (List.mem_range.1 hs))
  refine ⟨by simp [avg, h1], fun i hi => ?_⟩
  unfold avg
  rw [List.getElem?_map, h2 i hi]
  have : (List.replicate m (0:K)).getD i 0 = 0 := by simp [List.getD, hi]
  rw [this, zero_add, List.map_map]
  rfl

/-- Evaluation of the synchronisation when every process takes part with `q` gradients. -/
theorem aim_eval [Field K] (T : List (List Nat)) (W G q m : Nat) (hW : 0 < W) (grp idx : Nat → Nat → Nat)
    (grad : Nat → Nat → List K) (hgrp : ∀ r, r < W → (List.range G).filter (fun g => decide (g ∈ T.getD r [])) = (List.range q).map (grp r))
    (hidx : ∀ r n, r < W → n < q → idx r (grp r n) = n) (hm : ∀ r n, r < W → n < q → (grad r (grp r n)).length = m) :
    aimGradients T W G grad = .ok ((List.range W).map (fun r => (List.range G).map (fun g =>
      if g ∈ T.getD r [] then some (avg W m grp grad (idx r g)) else none))) := by
  have hcall : ∀ r, r < W → (rankGradients T G grad r).filterMap id = (List.range q).map (fun n => grad r (grp r n)) := by
    intro r hr
    unfold rankGradients
    rw [filterMap_id_if, hgrp r hr, List.map_map]
    rfl
  have hcalls : ((List.range W).map (rankGradients T G grad)).map (fun g => g.filterMap id) =
      (List.range W).map (fun r => (List.range q).map (fun n => grad r (grp r n))) := by
    rw [List.map_map]
    apply List.map_congr_left
    intro r hr
    exact hcall r (List.mem_range.1 hr)
  unfold aimGradients averageGradients
  rw [hcalls]
  obtain ⟨W', rfl⟩ : ∃ W', W = W' + 1 := ⟨W - 1, by omega⟩
  simp only
  generalize hc : (List.range (W' + 1)).map (fun r => (List.range q).map (fun n => grad r (grp r n))) = calls
  have hfirst : calls = ((List.range q).map (fun n => grad 0 (grp 0 n))) ::
      (List.range W').map (fun r => (List.range q).map (fun n => grad (r + 1) (grp (r + 1) n))) := by
    rw [← hc, List.range_succ_eq_map, List.map_cons, List.map_map]
    rfl
  rw [hfirst]
  simp only
  rw [← hfirst, if_neg (by
    rw [Bool.not_eq_true, List.any_eq_false]
    intro c hcm
    rw [← hc] at hcm
    obtain ⟨r, -, rfl⟩ := List.mem_map.1 hcm
    simp), if_neg (by
    rw [Bool.not_eq_true, List.any_eq_false]
    intro c hcm
    rw [← hc] at hcm
    obtain ⟨r, hr, rfl⟩ := List.mem_map.1 hcm
    rw [List.mem_range] at hr
    simp only [List.map_map, ne_eq, decide_not, Bool.not_eq_true', decide_eq_false_iff_not, not_not]
    apply List.map_congr_left
    intro n hn
    rw [List.mem_range] at hn
    simp only [Function.comp_apply]
    rw [hm r n hr hn, hm 0 n (by omega) hn])]
  have hres : (List.range ((List.range q).map (fun n => grad 0 (grp 0 n))).length).map (fun n =>
        (sumVectors (List.replicate (((List.range q).map (fun n => grad 0 (grp 0 n))).getD n []).length 0) (column calls n)).map
          (· / (((W' + 1 : Nat)) : K))) = (List.range q).map (avg (W' + 1) m grp grad) := by
    rw [List.length_map, List.length_range]
    apply List.map_congr_left
    intro n hn
    rw [List.mem_range] at hn
    have h0 : (((List.range q).map (fun n => grad 0 (grp 0 n))).getD n []).length = m := by
      have : ((List.range q).map (fun n => grad 0 (grp 0 n))).getD n [] = grad 0 (grp 0 n) := by simp [List.getD, hn]
      rw [this, hm 0 n (by omega) hn]
    have hcol : column calls n = (List.range (W' + 1)).map (fun s => grad s (grp s n)) := by
      unfold column
      rw [← hc, List.map_map]
      apply List.map_congr_left
      intro s _
      simp [List.getD, hn]
    rw [h0, hcol]
    rfl
  rw [hres, List.map_map]
  congr 1
  apply List.map_congr_left
  intro r hr
  rw [List.mem_range] at hr
  simp only [Function.comp_apply]
  have : (List.range q).map (avg (W' + 1) m grp grad) =
      ((List.range G).filter (fun g => decide (g ∈ T.getD r []))).map (fun g => avg (W' + 1) m grp grad (idx r g)) := by
    rw [hgrp r hr, List.map_map]
    apply List.map_congr_left
    intro n hn
    simp only [Function.comp_apply]
    rw [hidx r n hr (List.mem_range.1 hn)]
  rw [this]
  unfold rankGradients
  exact putBack_filter (List.range G) (fun g => g ∈ T.getD r []) _ _

/-- Different numbers of gradients: some process waits. -/
theorem aim_hang [Field K] (T : List (List Nat)) (W G : Nat) (grad : Nat → Nat → List K) (r s : Nat) (hr : r < W) (hs : s < W)
    (h : ((List.range G).filter (fun g => decide (g ∈ T.getD r []))).length ≠
      ((List.range G).filter (fun g => decide (g ∈ T.getD s []))).length) :
    aimGradients T W G grad = .error .hang := by
  have hcalls : ((List.range W).map (rankGradients T G grad)).map (fun g => g.filterMap id) =
      (List.range W).map (fun r => ((List.range G).filter (fun g => decide (g ∈ T.getD r []))).map (grad r)) := by
    rw [List.map_map]
    apply List.map_congr_left
    intro r _
    simp only [Function.comp_apply]
    unfold rankGradients
    rw [filterMap_id_if]
  unfold aimGradients averageGradients
  rw [hcalls]
  generalize hc : (List.range W).map (fun r => ((List.range G).filter (fun g => decide (g ∈ T.getD r []))).map (grad r)) = calls
  simp only
  have hrm : ((List.range G).filter (fun g => decide (g ∈ T.getD r []))).map (grad r) ∈ calls := by
    rw [← hc]; exact List.mem_map.2 ⟨r, List.mem_range.2 hr, rfl⟩
  have hsm : ((List.range G).filter (fun g => decide (g ∈ T.getD s []))).map (grad s) ∈ calls := by
    rw [← hc]; exact List.mem_map.2 ⟨s, List.mem_range.2 hs, rfl⟩
  cases calls with
  | nil => simp at hrm
  | cons first rest =>
    simp only
    rw [if_pos]
    rw [List.any_eq_true]
    by_cases h1 : (((List.range G).filter (fun g => decide (g ∈ T.getD r []))).map (grad r)).length = first.length
    · refine ⟨_, hsm, ?_⟩
      simp only [List.length_map] at h1 ⊢
      simp only [ne_eq, decide_not, Bool.not_eq_true', decide_eq_false_iff_not]
      omega
    · exact ⟨_, hrm, by simpa using h1⟩

theorem filter_mod_block (W k r : Nat) (hk : k ≤ W) (hr : r < W) (q : Nat) :
    ((List.range k).map (fun j => q * W + j)).filter (fun g => g % W == r) = if r < k then [q * W + r] else [] := by
  have hcomp : ∀ j ∈ List.range k, ((fun g => g % W == r) ∘ fun j => q * W + j) j = decide (j = r) := by
    intro j hj
    rw [List.mem_range] at hj
    simp only [Function.comp_apply]
    rw [Nat.add_comm, Nat.add_mul_mod_self_right, Nat.mod_eq_of_lt (by omega)]
    rw [Bool.eq_iff_iff]; simp
  rw [List.filter_map, List.filter_congr hcomp]
  have : ∀ k, (List.range k).filter (fun j => decide (j = r)) = if r < k then [r] else [] := by
    intro k
    induction k with
    | zero => simp
    | succ k ih =>
      rw [List.range_succ, List.filter_append, ih]
      by_cases h1 : r < k
      · have : ¬ k = r := by omega
        simp [h1, this, Nat.lt_succ_of_lt h1]
      · by_cases h2 : k = r
        · subst h2; simp
        · have : ¬ r < k + 1 := by omega
          simp [h1, h2, this]
  rw [this]
  split <;> simp

theorem filter_mod (W r : Nat) (hr : r < W) (q k : Nat) (hk : k ≤ W) :
    (List.range (q * W + k)).filter (fun g => g % W == r) =
      (List.range (q + if r < k then 1 else 0)).map (fun n => n * W + r) := by
  induction q generalizing k with
  | zero =>
    have := filter_mod_block W k r hk hr 0
    simp only [Nat.zero_mul, Nat.zero_add, List.map_id'] at this ⊢
    rw [this]
    split <;> simp
  | succ q ih =>
    rw [List.range_add, List.filter_append, filter_mod_block W k r hk hr]
    have h1 := ih W (le_refl W)
    rw [if_pos hr] at h1
    rw [Nat.succ_mul, h1]
    by_cases h2 : r < k
    · rw [if_pos h2, if_pos h2]
      rw [List.range_succ (n := q + 1), List.map_append]
      simp [Nat.succ_mul]
    · rw [if_neg h2, if_neg h2]; simp

theorem putBack_some {α : Type} (gs : List α) : ∀ rs : List α, rs.length = gs.length → putBack (gs.map some) rs = rs.map some := by
  induction gs with
  | nil => intro rs h; cases rs with
    | nil => rfl
    | cons r rs => simp at h
  | cons g gs ih => intro rs h; cases rs with
    | nil => simp at h
    | cons r rs => simp only [List.map_cons, putBack]; rw [ih rs (by simpa using h)]

/-- Averaging when every parameter has a gradient on every process. -/
theorem average_all [Field K] (members : List Nat) (shape : List Nat) (grad : Nat → List (List K))
    (hs : ∀ r ∈ members, (grad r).map List.length = shape) :
    averageGradients members.length (members.map (fun r => (grad r).map some)) = .ok (members.map (fun _ =>
      (List.range shape.length).map (fun p => some ((sumVectors (List.replicate (shape.getD p 0) 0)
        (members.map (fun s => (grad s).getD p []))).map (· / (members.length : K)))))) := by
  have hcalls : (members.map (fun r => (grad r).map some)).map (fun g => g.filterMap id) = members.map grad := by
    rw [List.map_map]
    apply List.map_congr_left
    intro r _
    simp
  unfold averageGradients
  rw [hcalls]
  cases members with
  | nil => rfl
  | cons r0 rest =>
    simp only [List.map_cons]
    have hl : ∀ r ∈ r0 :: rest, (grad r).length = shape.length := fun r hr => by rw [← hs r hr, List.length_map]
    rw [if_neg (by
      rw [Bool.not_eq_true, List.any_eq_false]
      intro c hc
      rw [← List.map_cons] at hc
      obtain ⟨r, hr, rfl⟩ := List.mem_map.1 hc
      simp [hl r hr, hl r0 (by simp)]), if_neg (by
      rw [Bool.not_eq_true, List.any_eq_false]
      intro c hc
      rw [← List.map_cons] at hc
      obtain ⟨r, hr, rfl⟩ := List.mem_map.1 hc
      simp [hs r hr, hs r0 (by simp)])]
    have hres : (List.range (grad r0).length).map (fun n =>
        (sumVectors (List.replicate ((grad r0).getD n []).length 0) (column (grad r0 :: rest.map grad) n)).map
          (· / (((r0 :: rest).length : Nat) : K))) = (List.range shape.length).map (fun p =>
        (sumVectors (List.replicate (shape.getD p 0) 0) ((r0 :: rest).map (fun s => (grad s).getD p []))).map
          (· / (((r0 :: rest).length : Nat) : K))) := by
      rw [hl r0 (by simp)]
      apply List.map_congr_left
      intro p hp
      rw [List.mem_range] at hp
      have e1 : ((grad r0).getD p []).length = shape.getD p 0 := by
        rw [← hs r0 (by simp)]
        have : p < (grad r0).length := by rw [hl r0 (by simp)]; exact hp
        simp [List.getD, List.getElem?_eq_getElem this]
      have e2 : column (grad r0 :: rest.map grad) p = (r0 :: rest).map (fun s => (grad s).getD p []) := by
        simp [column]
      rw [e1, e2]
    rw [hres]
    have hput : ∀ r ∈ r0 :: rest, putBack ((grad r).map some) ((List.range shape.length).map (fun p =>
        (sumVectors (List.replicate (shape.getD p 0) 0) ((r0 :: rest).map (fun s => (grad s).getD p []))).map
          (· / (((r0 :: rest).length : Nat) : K)))) = (List.range shape.length).map (fun p =>
        some ((sumVectors (List.replicate (shape.getD p 0) 0) ((r0 :: rest).map (fun s => (grad s).getD p []))).map
          (· / (((r0 :: rest).length : Nat) : K)))) := by
      intro r hr
      rw [putBack_some _ _ (by simp [hl r hr]), List.map_map]
      rfl
    refine congrArg Except.ok ?_
    have := List.map_congr_left (l := r0 :: rest) hput
    simp only [List.map_cons] at this
    rw [List.map_map]
    exact this

end Artist.Collective
