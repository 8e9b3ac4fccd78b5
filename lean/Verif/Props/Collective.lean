import Verif.Proofs.Collective
import Mathlib.Data.Rat.Defs
import Mathlib.Algebra.Order.Ring.Rat
import Mathlib.Algebra.Order.Field.Basic
import Mathlib.Tactic.Linarith
import Mathlib.Tactic.Ring
import Mathlib.Algebra.CharZero.Defs
/-! Properties C58 and C60: gradient averaging and final synchronisation between processes. -/
namespace Artist.Collective
open Artist Artist.Env

variable {K : Type} [Field K]

/-- What the gradient synchronisation of the aim point optimisation computes when at least as many processes as groups run (process `r` traces
group `r % G`): every process receives the average over *all* processes, whatever group they trace. -/
theorem C58_mixed (W G m : Nat) (hG : 0 < G) (h : G ≤ W) (grad : Nat → Nat → List K) (hm : ∀ r, r < W → (grad r (r % G)).length = m) :
    ∃ T n out, distribute W G = .ok (T, n) ∧ aimGradients T W G grad = .ok out ∧
      ∀ r g, WorksOn T r g → ∃ row v, out[r]? = some row ∧ row.length = G ∧ row[g]? = some (some v) ∧ v.length = m ∧
        ∀ i, i < m → v[i]? = some (((List.range W).map (fun s => (grad s (s % G)).getD i 0)).sum / (W : K)) := by
  obtain ⟨T, n, hT, hl, hrow⟩ : ∃ T n, distribute W G = .ok (T, n) ∧ T.length = W ∧ ∀ r, r < W → T[r]? = some [r % G] := by
    rcases Nat.lt_or_eq_of_le h with h | h
    · obtain ⟨T, a, b, c⟩ := distribute_nested W G hG h
      exact ⟨T, true, a, b, c⟩
    · subst h
      obtain ⟨T, a, b, c⟩ := distribute_flat G G hG (le_refl G)
      refine ⟨T, false, a, b, fun r hr => ?_⟩
      rw [c r hr, Nat.mod_eq_of_lt hr]
      have := filter_mod G r hr 0 G (le_refl G)
      rw [Nat.zero_mul, Nat.zero_add, if_pos hr] at this
      rw [this]; simp
  have hgetD : ∀ r, r < W → T.getD r [] = [r % G] := fun r hr => by simp [List.getD, hrow r hr]
  have hgrp : ∀ r, r < W → (List.range G).filter (fun g => decide (g ∈ T.getD r [])) = (List.range 1).map (fun _ => r % G) := by
    intro r hr
    rw [hgetD r hr]
    have hlt : r % G < G := Nat.mod_lt _ hG
    have h2 : ∀ k, k ≤ G → (List.range k).filter (fun g => decide (g ∈ [r % G])) = if r % G < k then [r % G] else [] := by
      intro k
      induction k with
      | zero => simp
      | succ k ih =>
        intro hk
        rw [List.range_succ, List.filter_append, ih (by omega)]
        by_cases h1 : r % G < k
        · have h3 : ¬ k = r % G := by omega
          rw [if_pos h1, if_pos (by omega)]
          simp [h3]
        · by_cases h4 : k = r % G
          · rw [if_neg h1, if_pos (by omega)]; simp [← h4]
          · rw [if_neg h1, if_neg (by omega)]; simp [h4]
    rw [h2 G (le_refl G), if_pos hlt]
    rfl
  refine ⟨T, n, _, hT, aim_eval T W G 1 m (by omega) (fun r _ => r % G) (fun _ _ => 0) grad hgrp (fun _ n _ hn => by omega)
    (fun r _ hr _ => hm r hr), ?_⟩
  rintro r g ⟨gs, h1, h2⟩
  have hr : r < W := by rw [← hl]; exact (List.getElem?_eq_some_iff.1 h1).1
  have hg : g = r % G := by rw [hrow r hr] at h1; cases h1; simpa using h2
  have hgG : g < G := by rw [hg]; exact Nat.mod_lt _ hG
  obtain ⟨a1, a2⟩ := avg_spec W m (fun r _ => r % G) grad 0 hm
  refine ⟨_, avg W m (fun r _ => r % G) grad 0, by rw [List.getElem?_map, List.getElem?_range hr]; rfl, by simp, ?_, a1, a2⟩
  have hmem : g ∈ T.getD r [] := by rw [hgetD r hr, hg]; simp
  rw [List.getElem?_map, List.getElem?_range hgG]
  simp only [Option.map_some]
  rw [if_pos hmem]

/-- C58 for a single heliostat group, whatever the number of processes: the synchronised gradient is the average of the gradients of that
group over all processes.  Missing from the full statement: several groups, for which it is false (`C58_other_groups_interfere`,
`C58_blocks_mixed`, `C58_hang`). -/
theorem C58_single_group_partial (W m : Nat) (hW : 0 < W) (grad : Nat → Nat → List K) (hm : ∀ r, r < W → (grad r 0).length = m) :
    ∃ T n out, distribute W 1 = .ok (T, n) ∧ aimGradients T W 1 grad = .ok out ∧
      ∀ r, r < W → ∃ v, out[r]? = some [some v] ∧ v.length = m ∧
        ∀ i, i < m → v[i]? = some (((List.range W).map (fun s => (grad s 0).getD i 0)).sum / (W : K)) := by
  obtain ⟨T, n, out, h1, h2, h3⟩ := C58_mixed W 1 m (by omega) hW grad (by simpa [Nat.mod_one] using hm)
  refine ⟨T, n, out, h1, h2, fun r hr => ?_⟩
  obtain ⟨T', n', e1, -, -, e4, -, e6⟩ := C01_distribution_complete W 1 hW (by omega)
  rw [h1] at e1
  cases e1
  obtain ⟨g, hg⟩ := e6 r hr
  have hg0 : g = 0 := by have := (e4 r g hg).2; omega
  subst hg0
  obtain ⟨row, v, k1, hrow, k2, k3, k4⟩ := h3 r 0 hg
  obtain ⟨x, hx⟩ := List.length_eq_one_iff.1 hrow
  subst hx
  simp only [List.getElem?_cons_zero, Option.some.injEq] at k2
  subst k2
  exact ⟨v, k1, k3, by simpa only [Nat.mod_one] using k4⟩

/-- C58 is false with several groups: changing the gradients of another group changes the synchronised gradient of a group.  (Whenever at
least as many processes as groups run and there are at least two groups.) -/
theorem C58_other_groups_interfere [CharZero K] (W G : Nat) (hG : 2 ≤ G) (h : G ≤ W) (a b : K) (hab : a ≠ b) (c : K) :
    ∃ T n out out' v v', distribute W G = .ok (T, n) ∧ WorksOn T 0 0 ∧
      aimGradients T W G (fun r g => if r = 1 ∧ g = 1 then [a] else [c]) = .ok out ∧
      aimGradients T W G (fun r g => if r = 1 ∧ g = 1 then [b] else [c]) = .ok out' ∧
      (out.getD 0 []).getD 0 none = some [v] ∧ (out'.getD 0 []).getD 0 none = some [v'] ∧ v ≠ v' := by
  obtain ⟨T, n, out, h1, h2, h3⟩ := C58_mixed W G 1 (by omega) h (fun r g => if r = 1 ∧ g = 1 then [a] else [c]) (by
    intro r _; split <;> rfl)
  obtain ⟨T', n', out', h1', h2', h3'⟩ := C58_mixed W G 1 (by omega) h (fun r g => if r = 1 ∧ g = 1 then [b] else [c]) (by
    intro r _; split <;> rfl)
  rw [h1] at h1'
  cases h1'
  have hw : WorksOn T 0 0 := by
    rcases Nat.lt_or_eq_of_le h with h | h
    · obtain ⟨T', a, -, b⟩ := distribute_nested W G (by omega) h
      rw [h1] at a; cases a
      exact ⟨_, b 0 (by omega), by simp⟩
    · subst h
      obtain ⟨T', a, -, b⟩ := distribute_flat G G (by omega) (le_refl G)
      rw [h1] at a; cases a
      refine ⟨_, b 0 (by omega), ?_⟩
      simp; omega
  obtain ⟨row, v, k1, -, k2, k3, k4⟩ := h3 0 0 hw
  obtain ⟨row', v', k1', -, k2', k3', k4'⟩ := h3' 0 0 hw
  obtain ⟨x, rfl⟩ := List.length_eq_one_iff.1 k3
  obtain ⟨x', rfl⟩ := List.length_eq_one_iff.1 k3'
  refine ⟨T, n, out, out', x, x', h1, hw, h2, h2', by simp [List.getD, k1, k2], by simp [List.getD, k1', k2'], ?_⟩
  have e := k4 0 (by omega)
  have e' := k4' 0 (by omega)
  simp only [List.getElem?_cons_zero, Option.some.injEq] at e e'
  have hW0 : (W : K) ≠ 0 := Nat.cast_ne_zero.2 (by omega)
  intro hx
  rw [e, e', div_left_inj' hW0] at hx
  have key : ∀ z : K, ((List.range W).map (fun s => (if s = 1 ∧ s % G = 1 then [z] else [c]).getD 0 0)).sum =
      z + ((List.range (W - 1)).map (fun _ => c)).sum := by
    intro z
    obtain ⟨W', rfl⟩ : ∃ W', W = W' + 2 := ⟨W - 2, by omega⟩
    have h1G : 1 % G = 1 := Nat.mod_eq_of_lt (by omega)
    rw [List.range_succ_eq_map, List.map_cons, List.sum_cons, List.map_map, List.range_succ_eq_map, List.map_cons, List.sum_cons, List.map_map]
    have e3 : ((List.range W').map (((fun s => (if s = 1 ∧ s % G = 1 then [z] else [c]).getD 0 0) ∘ Nat.succ) ∘ Nat.succ)).sum =
        ((List.range W').map (fun _ => c)).sum := by
      apply congrArg
      apply List.map_congr_left
      intro s _
      simp
    rw [e3]
    have e4 : W' + 2 - 1 = W' + 1 := by omega
    rw [e4, List.range_succ, List.map_append, List.sum_append]
    simp [h1G]
    ring
  rw [key a, key b] at hx
  exact hab (add_right_cancel hx)

/-- With fewer processes than groups, the number of groups being a multiple: process `r` traces the groups `r, W + r, 2 W + r, ...`, and the
synchronised gradient of group `g` is the average of the gradients of the `W` consecutive groups around it, each from another process. -/
theorem C58_blocks_mixed (W q m : Nat) (hW : 0 < W) (hq : 0 < q) (grad : Nat → Nat → List K)
    (hm : ∀ r n, r < W → n < q → (grad r (n * W + r)).length = m) :
    ∃ T out, distribute W (q * W) = .ok (T, false) ∧ aimGradients T W (q * W) grad = .ok out ∧
      ∀ r g, WorksOn T r g → r = g % W ∧ ∃ row v, out[r]? = some row ∧ row[g]? = some (some v) ∧
        ∀ i, i < m → v[i]? = some (((List.range W).map (fun s => (grad s (g / W * W + s)).getD i 0)).sum / (W : K)) := by
  obtain ⟨T, hT, hl, hrow⟩ := distribute_flat W (q * W) hW (Nat.le_mul_of_pos_left W hq)
  have hgetD : ∀ r, r < W → T.getD r [] = (List.range (q * W)).filter (fun g => g % W == r) := fun r hr => by
    simp [List.getD, hrow r hr]
  have hmem : ∀ r g, r < W → (g ∈ T.getD r [] ↔ g < q * W ∧ g % W = r) := by
    intro r g hr
    rw [hgetD r hr]; simp
  have hgrp : ∀ r, r < W → (List.range (q * W)).filter (fun g => decide (g ∈ T.getD r [])) = (List.range q).map (fun n => n * W + r) := by
    intro r hr
    have := filter_mod W r hr (q - 1) W (le_refl W)
    rw [if_pos hr, ← Nat.succ_mul, Nat.succ_eq_add_one, Nat.sub_add_cancel hq] at this
    rw [← this]
    apply List.filter_congr
    intro g hg
    rw [List.mem_range] at hg
    rw [Bool.eq_iff_iff]
    simp only [decide_eq_true_eq, beq_iff_eq]
    rw [hmem r g hr]
    exact ⟨fun h => h.2, fun h => ⟨hg, h⟩⟩
  have hidx : ∀ r n, r < W → n < q → (fun _ g => g / W) r ((fun r n => n * W + r) r n) = n := by
    intro r n hr _
    simp only
    rw [Nat.add_comm, Nat.add_mul_div_right _ _ hW, Nat.div_eq_of_lt hr, Nat.zero_add]
  refine ⟨T, _, hT, aim_eval T W (q * W) q m hW (fun r n => n * W + r) (fun _ g => g / W) grad hgrp hidx hm, ?_⟩
  rintro r g ⟨gs, h1, h2⟩
  have hr : r < W := by rw [← hl]; exact (List.getElem?_eq_some_iff.1 h1).1
  have hgs : T.getD r [] = gs := by simp [List.getD, h1]
  have hin : g ∈ T.getD r [] := by rw [hgs]; exact h2
  obtain ⟨hgG, hgr⟩ := (hmem r g hr).1 hin
  have hn : g / W < q := by rw [Nat.div_lt_iff_lt_mul hW]; exact hgG
  obtain ⟨a1, a2⟩ := avg_spec W m (fun r n => n * W + r) grad (g / W) (fun s hs => hm s (g / W) hs hn)
  refine ⟨hgr.symm, _, avg W m (fun r n => n * W + r) grad (g / W), by rw [List.getElem?_map, List.getElem?_range hr]; rfl, ?_, a2⟩
  rw [List.getElem?_map, List.getElem?_range hgG]
  simp only [Option.map_some]
  rw [if_pos hin]

/-- With fewer processes than groups and no equal shares the synchronisation never completes: some processes wait for the others. -/
theorem C58_hang (W G : Nat) (hW : 0 < W) (h : W ≤ G) (hd : ¬ W ∣ G) (grad : Nat → Nat → List K) :
    ∃ T, distribute W G = .ok (T, false) ∧ aimGradients T W G grad = .error .hang := by
  obtain ⟨T, hT, hl, hrow⟩ := distribute_flat W G hW h
  refine ⟨T, hT, ?_⟩
  have hW2 : 2 ≤ W := by
    rcases Nat.lt_or_ge W 2 with h2 | h2
    · have : W = 1 := by omega
      exact absurd (this ▸ Nat.one_dvd G) hd
    · exact h2
  have hk : 0 < G % W := Nat.pos_of_ne_zero (fun h0 => hd (Nat.dvd_of_mod_eq_zero h0))
  have hkW : G % W < W := Nat.mod_lt _ hW
  have hGe : G / W * W + G % W = G := by rw [Nat.mul_comm]; exact Nat.div_add_mod G W
  have hlen : ∀ r, r < W → ((List.range G).filter (fun g => decide (g ∈ T.getD r []))).length = G / W + if r < G % W then 1 else 0 := by
    intro r hr
    have := filter_mod W r hr (G / W) (G % W) (Nat.le_of_lt hkW)
    rw [hGe] at this
    have e : (List.range G).filter (fun g => decide (g ∈ T.getD r [])) = (List.range G).filter (fun g => g % W == r) := by
      apply List.filter_congr
      intro g hg
      have hgd : T.getD r [] = (List.range G).filter (fun g => g % W == r) := by simp [List.getD, hrow r hr]
      rw [hgd, Bool.eq_iff_iff]
      simp only [decide_eq_true_eq, List.mem_filter, hg, true_and]
    rw [e, this]; simp
  refine aim_hang T W G grad 0 (W - 1) hW (by omega) ?_
  rw [hlen 0 hW, hlen (W - 1) (by omega), if_pos hk, if_neg (by omega)]
  omega

/-- Two groups on two processes: both receive the same average of unrelated gradients; five groups on two processes hang. -/
example : aimGradients [[0], [1]] 2 2 (fun r g => [(10 * r + g : ℚ), 1]) = .ok [[some [11/2, 1], none], [none, some [11/2, 1]]] ∧
    aimGradients [[0, 2, 4], [1, 3]] 2 5 (fun r g => [(10 * r + g : ℚ), 1]) = .error .hang := by
  constructor <;> decide +kernel
example : distribute 2 5 = .ok ([[0, 2, 4], [1, 3]], false) ∧ distribute 2 2 = .ok ([[0], [1]], false) := by decide

/-- C58 for the reconstructions: if several processes share a heliostat group, each of them receives for every parameter the average of the
gradients of exactly the processes sharing that group, entry by entry. -/
theorem C58_reconstruction (members : List Nat) (shape : List Nat) (grad : Nat → List (List K))
    (hs : ∀ r ∈ members, (grad r).map List.length = shape) :
    ∃ out, groupGradients true members grad = .ok out ∧ out.length = members.length ∧
      ∀ row ∈ out, row.length = shape.length ∧ ∀ (p m : Nat), shape[p]? = some m → ∃ v, row[p]? = some (some v) ∧ v.length = m ∧
        ∀ i, i < m → v[i]? = some ((members.map (fun s => ((grad s).getD p []).getD i 0)).sum / (members.length : K)) := by
  unfold groupGradients
  simp only [if_true]
  rw [average_all members shape grad hs]
  refine ⟨_, rfl, by simp, ?_⟩
  intro row hrow
  obtain ⟨r, hr, rfl⟩ := List.mem_map.1 hrow
  refine ⟨by simp, ?_⟩
  intro p m hp
  have hpl : p < shape.length := (List.getElem?_eq_some_iff.1 hp).1
  obtain ⟨a1, a2⟩ := sumVectors_spec (members.map (fun s => (grad s).getD p [])) (List.replicate m 0) m (by simp) (by
    intro v hv
    obtain ⟨s, hsm, rfl⟩ := List.mem_map.1 hv
    have h := hs s hsm
    rw [← h, List.getElem?_map] at hp
    cases hg : (grad s)[p]? with
    | none => rw [hg] at hp; cases hp
    | some w => rw [hg] at hp; simpa [List.getD, hg] using hp)
  refine ⟨_, by rw [List.getElem?_map, List.getElem?_range hpl]; rfl, ?_, ?_⟩
  · have e : shape.getD p 0 = m := by simp [List.getD, hp]
    rw [e, List.length_map, a1]
  · intro i hi
    have e : shape.getD p 0 = m := by simp [List.getD, hp]
    rw [e, List.getElem?_map, a2 i hi]
    have : (List.replicate m (0:K)).getD i 0 = 0 := by simp [List.getD, hi]
    rw [this, zero_add, List.map_map]
    rfl

/-- C58 for the reconstructions: a process that has its groups for itself keeps its own gradients. -/
theorem C58_reconstruction_alone (members : List Nat) (grad : Nat → List (List K)) :
    groupGradients false members grad = .ok (members.map (fun r => (grad r).map some)) := rfl

/-- Three processes share a group; two parameters with two and one entries. -/
example : groupGradients true [1, 3, 5] (fun r => [[(r : ℚ), 2], [10 * r]]) =
    .ok (List.replicate 3 [some [3, 2], some [30]]) := by decide +kernel

/-! ## C60 -/

/-- C60 for the flux-driven reconstructions and the aim point optimisation: after the final synchronisation all processes hold, for every group,
the same parameters, and these were obtained by a process that worked on the group. -/
theorem C60_synchronised {P : Type} (W G : Nat) (hW : 0 < W) (hG : 0 < G) (loaded : Nat → P) (trained : Nat → Nat → P) :
    ∃ T n info inv out, setupInfo 0 W G = .ok (T, n, info, inv) ∧
      synchronise inv (localParams T W loaded trained) (List.range G) = .ok out ∧
      ∀ g, g < G → ∃ source, WorksOn T source g ∧ (∀ r, WorksOn T r g → source ≤ r) ∧
        out[g]? = some (List.replicate W (trained source g)) := by
  obtain ⟨T, n, hT, hl, -, hwork, hcov, -⟩ := C01_distribution_complete W G hW hG
  have hnd : ∀ gs ∈ T, gs.Nodup := by
    rcases Nat.lt_or_ge G W with h | h
    · obtain ⟨T', a, b, c⟩ := C01_nested_balanced W G hG h
      rw [hT] at a; cases a
      intro gs hgs
      obtain ⟨r, hr⟩ := List.getElem?_of_mem hgs
      obtain ⟨g, hg⟩ := b r (by rw [← hl]; exact (List.getElem?_eq_some_iff.1 hr).1)
      rw [hr] at hg; cases hg; simp
    · obtain ⟨T', a, b, c, d⟩ := C01_flat_balanced W G hW h
      rw [hT] at a; cases a
      intro gs hgs
      obtain ⟨r, hr⟩ := List.getElem?_of_mem hgs
      exact c r gs hr
  obtain ⟨i1, i2, i3⟩ := C02_inverse_table T hnd
  have hset : ∃ info, setupInfo 0 W G = .ok (T, n, info, invert T) := by
    unfold setupInfo
    rw [hT]
    cases n
    · exact ⟨_, rfl⟩
    · exact ⟨_, rfl⟩
  obtain ⟨info, hset⟩ := hset
  have key : ∀ gs : List Nat, (∀ g ∈ gs, g < G) → ∃ out, synchronise (invert T) (localParams T W loaded trained) gs = .ok out ∧
      ∀ (k g : Nat), gs[k]? = some g → ∃ source, WorksOn T source g ∧ (∀ r, WorksOn T r g → source ≤ r) ∧
        out[k]? = some (List.replicate W (trained source g)) := by
    intro gs
    induction gs with
    | nil => intro _; exact ⟨[], rfl, by simp⟩
    | cons g gs ih =>
      intro hgs
      obtain ⟨out, h1, h2⟩ := ih (fun x hx => hgs x (by simp [hx]))
      obtain ⟨r, hr⟩ := hcov g (hgs g (by simp))
      obtain ⟨rs, hrs⟩ := i3 r g hr
      obtain ⟨hne, hsorted, hmem⟩ := i2 g rs hrs
      have hget : dictGet (invert T) g = some rs := (dictGet_eq_some_iff _ i1 g rs).2 hrs
      cases rs with
      | nil => exact absurd rfl hne
      | cons source rest =>
        have hsw : WorksOn T source g := (hmem source).1 (by simp)
        have hsW := (hwork source g hsw).1
        have hmin : ∀ r, WorksOn T r g → source ≤ r := by
          intro r hr
          rcases List.mem_cons.1 ((hmem r).2 hr) with h | h
          · omega
          · have := (List.pairwise_cons.1 hsorted).1 r h; omega
        have hbc : broadcast source (localParams T W loaded trained g) = List.replicate W (trained source g) := by
          have hs : (localParams T W loaded trained g)[source]? = some (trained source g) := by
            unfold localParams
            rw [List.getElem?_map, List.getElem?_range hsW]
            obtain ⟨gs', k1, k2⟩ := hsw
            simp [List.getD, k1, k2]
          unfold broadcast
          rw [hs]
          simp only
          unfold localParams
          rw [List.map_map]
          apply List.ext_getElem?
          intro i
          by_cases hi : i < W
          · simp [hi]
          · rw [List.getElem?_eq_none (by simp; omega), List.getElem?_eq_none (by simp; omega)]
        refine ⟨List.replicate W (trained source g) :: out, by simp only [synchronise, hget, h1, hbc], ?_⟩
        intro k g' hk
        cases k with
        | zero =>
          simp only [List.getElem?_cons_zero, Option.some.injEq] at hk
          subst hk
          exact ⟨source, hsw, hmin, rfl⟩
        | succ k => simpa using h2 k g' (by simpa using hk)
  obtain ⟨out, h1, h2⟩ := key (List.range G) (fun g hg => List.mem_range.1 hg)
  exact ⟨T, n, info, invert T, out, hset, h1, fun g hg => h2 g g (List.getElem?_range hg)⟩

/-- C60 is false for alignment-driven reconstruction, which does not synchronise: whenever there are several processes and several groups,
every process that does not work on a group keeps the parameters it loaded, so it disagrees with the processes that do as soon as the
reconstruction changed anything. -/
theorem C60_alignment_disagrees {P : Type} (W G : Nat) (hW : 2 ≤ W) (hG : 2 ≤ G) (loaded : Nat → P) (trained : Nat → Nat → P) :
    ∃ T n, distribute W G = .ok (T, n) ∧ ∃ g r s, r < W ∧ s < W ∧ g < G ∧ WorksOn T r g ∧
      (localParams T W loaded trained g)[r]? = some (trained r g) ∧ (localParams T W loaded trained g)[s]? = some (loaded g) := by
  obtain ⟨T, n, hT, hl, -, hwork, hcov, hall⟩ := C01_distribution_complete W G (by omega) (by omega)
  refine ⟨T, n, hT, 0, ?_⟩
  obtain ⟨r, hr⟩ := hcov 0 (by omega)
  obtain ⟨s, hs, hns⟩ : ∃ s, s < W ∧ 0 ∉ T.getD s [] := by
    refine ⟨1, by omega, ?_⟩
    rcases Nat.lt_or_ge G W with h | h
    · obtain ⟨T', a, -, b⟩ := distribute_nested W G (by omega) h
      rw [hT] at a; cases a
      have : T.getD 1 [] = [1 % G] := by simp [List.getD, b 1 (by omega)]
      rw [this, Nat.mod_eq_of_lt (by omega)]; simp
    · obtain ⟨T', a, -, b⟩ := distribute_flat W G (by omega) h
      rw [hT] at a; cases a
      have : T.getD 1 [] = (List.range G).filter (fun g => g % W == 1) := by simp [List.getD, b 1 (by omega)]
      rw [this]
      simp
  have hrW := (hwork r 0 hr).1
  refine ⟨r, s, hrW, hs, by omega, hr, ?_, ?_⟩
  · obtain ⟨gs, k1, k2⟩ := hr
    unfold localParams
    rw [List.getElem?_map, List.getElem?_range hrW]
    simp [List.getD, k1, k2]
  · unfold localParams
    rw [List.getElem?_map, List.getElem?_range hs]
    simp only [Option.map_some]
    rw [if_neg hns]

example : synchronise [(0, [0, 2]), (1, [1])] (localParams [[0], [1], [0]] 3 (fun g => 100 + g) (fun r g => 10 * r + g)) [0, 1] =
    .ok [[0, 0, 0], [11, 11, 11]] ∧ localParams [[0], [1], [0]] 3 (fun g => 100 + g) (fun r g => 10 * r + g) 1 = [101, 11, 101] := by decide

end Artist.Collective
