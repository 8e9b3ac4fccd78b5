import Verif.Proofs.Sampler
/-! # C04, C05: the distributed sampler (`artist/raytracing/sampling.py`) -/
namespace Artist.Sampler
open Artist

/-- C04, no ray is traced twice: the ranks' lists contain no duplicates, only existing samples, and two
different ranks never share a sample (for all counts, also when they do not divide). -/
theorem C04_disjoint (n a w : Nat) :
    (∀ r, (rankIndices n a w r).Nodup ∧ ∀ s ∈ rankIndices n a w r, s < n) ∧
    (∀ r r' s, s ∈ rankIndices n a w r → s ∈ rankIndices n a w r' → r = r') := by
  refine ⟨fun r => ⟨(rankIndices_sorted n a w r).imp (fun h => Nat.ne_of_lt h), ?_⟩, ?_⟩
  · intro s hs
    rw [mem_rankIndices] at hs
    have := Nat.mul_div_le n a
    omega
  · intro r r' s h h'
    rw [mem_rankIndices] at h h'
    rw [← h.2.2.2, ← h'.2.2.2]

/-- C04, nothing is left out, exactly when the samples divide evenly: with at least one rank and one active heliostat, every
sample is on some rank `< w` if and only if the number of samples is a multiple of the number of
active heliostats. -/
theorem C04_cover_iff (n a w : Nat) (ha : 0 < a) (hw : 0 < w) :
    (∀ s, s < n → ∃ r, r < w ∧ s ∈ rankIndices n a w r) ↔ a ∣ n := by
  constructor
  · intro h
    by_contra hd
    have hlt : a * (n / a) < n := by
      have := Nat.mul_div_le n a
      rcases Nat.lt_or_ge (a * (n / a)) n with h' | h'
      · exact h'
      · exact absurd ⟨n / a, by omega⟩ hd
    obtain ⟨r, _, hr⟩ := h (a * (n / a)) hlt
    rw [mem_rankIndices] at hr
    omega
  · rintro ⟨k, rfl⟩ s hs
    have hk : a * k / a = k := Nat.mul_div_cancel_left k ha
    have hk0 : 0 < k := by
      rcases k with _ | k
      · simp at hs
      · omega
    have hm : 0 < min a w := by omega
    refine ⟨(s / k) % min a w, ?_, ?_⟩
    · have := Nat.mod_lt (s / k) hm; omega
    · rw [mem_rankIndices, hk]
      exact ⟨Nat.mod_lt _ hm, hk0, hs, rfl⟩

/-- C04 (the full claim, without the divisibility hypothesis, is false: `C04_lost_sample`): when the
number of samples is a multiple of the number of active heliostats, every sample is on exactly one
rank. Missing: unequal numbers of samples per heliostat. -/
theorem C04_exactly_once_partial (n a w : Nat) (ha : 0 < a) (hw : 0 < w) (hd : a ∣ n) (s : Nat)
    (hs : s < n) : ∃! r, r < w ∧ s ∈ rankIndices n a w r := by
  obtain ⟨r, hr⟩ := (C04_cover_iff n a w ha hw).2 hd s hs
  refine ⟨r, hr, ?_⟩
  rintro r' ⟨_, hr'⟩
  exact (C04_disjoint n a w).2 r' r s hr' hr.2

example : rankIndices 6 3 2 0 = [0, 1, 4, 5] ∧ rankIndices 6 3 2 1 = [2, 3] := by decide

/-- C04 for the ray tracer: if all active heliostats have the same number `k` of samples, then every
sample is on exactly one rank. -/
theorem C04_tracer_uniform (mask : List Nat) (k w : Nat) (hw : 0 < w)
    (hu : ∀ c ∈ mask, c = 0 ∨ c = k) (s : Nat) (hs : s < mask.sum) :
    ∃! r, r < w ∧ s ∈ tracerRankIndices mask w r := by
  have hsum : mask.sum = (mask.countP (fun c => decide (c > 0))) * k := by
    clear hs
    induction mask with
    | nil => simp
    | cons c cs ih =>
      have := ih (fun c hc => hu c (List.mem_cons_of_mem _ hc))
      rw [List.sum_cons, this, List.countP_cons, Nat.add_mul]
      rcases hu c List.mem_cons_self with h | h
      · subst h; simp
      · rcases Nat.eq_zero_or_pos c with h0 | h0
        · subst h0; subst h; simp
        · subst h
          simp only [gt_iff_lt, h0, decide_true, if_true, Nat.one_mul]; omega
  have ha : 0 < mask.countP (fun c => decide (c > 0)) := by
    rcases Nat.eq_zero_or_pos (mask.countP (fun c => decide (c > 0))) with h0 | h0
    · rw [hsum, h0] at hs; simp at hs
    · exact h0
  exact C04_exactly_once_partial _ _ w ha hw ⟨k, hsum⟩ s hs

example : (∀ c ∈ [2, 0, 2], c = 0 ∨ c = 2) ∧ tracerRankIndices [2, 0, 2] 2 1 = [2, 3] := by decide

/-- C04 is false for unequal sample counts: with activation mask `[2, 1]` (three samples) on a single
rank the last sample is never traced. -/
theorem C04_lost_sample : ∃ mask s, s < mask.sum ∧ ∀ w r, 0 < w → s ∉ tracerRankIndices mask w r := by
  refine ⟨[2, 1], 2, by decide, ?_⟩
  intro w r _ h
  rw [tracerRankIndices, mem_rankIndices] at h
  have h1 : [2, 1].sum / [2, 1].countP (fun c => decide (c > 0)) = 1 := by decide
  have h2 : [2, 1].countP (fun c => decide (c > 0)) = 2 := by decide
  rw [h1, h2] at h
  omega

/-- C05: a rank's list is strictly increasing; if it contains one sample of a heliostat (block of
`n / a` consecutive samples) it contains all of that heliostat's samples; ranks at or beyond the number of active
heliostats (or the world size) receive nothing. -/
theorem C05_blocks_together (n a w r : Nat) :
    (rankIndices n a w r).Pairwise (· < ·) ∧
    (∀ s s', s ∈ rankIndices n a w r → s' / (n / a) = s / (n / a) → s' ∈ rankIndices n a w r) ∧
    (min a w ≤ r → rankIndices n a w r = []) := by
  refine ⟨rankIndices_sorted n a w r, ?_, ?_⟩
  · intro s s' hs he
    rw [mem_rankIndices] at hs ⊢
    obtain ⟨h1, h2, h3, h4⟩ := hs
    refine ⟨h1, h2, ?_, by rw [he]; exact h4⟩
    rw [← Nat.div_lt_iff_lt_mul h2] at h3 ⊢
    omega
  · intro h
    simp [rankIndices, Nat.not_lt.2 h]

/-- C05, consequence used by the reconstructors: with `k ≥ 1` samples per heliostat, taking every `k`-th
entry of the rank's list and dividing by `k` enumerates exactly the heliostats the rank owns, in
order; all ranks together own every heliostat exactly once. -/
theorem C05_owned_heliostats (a k w r : Nat) (hk : 0 < k) :
    (stride k (rankIndices (a * k) a w r)).map (· / k) =
      (List.range a).filter (fun h => decide (r < min a w ∧ h % min a w = r)) := by
  rcases Nat.eq_zero_or_pos a with ha | ha
  · subst ha; simp [rankIndices, stride, strideFrom]
  unfold rankIndices
  simp only
  by_cases hr : r < min a w
  · rw [if_pos hr, Nat.mul_div_cancel_left k ha, flatMap_if_eq, stride_flatMap k hk]
    simp [hr]
  · rw [if_neg hr]
    simp [hr, stride, strideFrom]

/-- C05: every heliostat is owned by exactly one rank. -/
theorem C05_owner_unique (a k w h : Nat) (hk : 0 < k) (hw : 0 < w) (hh : h < a) :
    ∃! r, r < w ∧ h ∈ (stride k (rankIndices (a * k) a w r)).map (· / k) := by
  have hm : 0 < min a w := by omega
  have := Nat.mod_lt h hm
  refine ⟨h % min a w, ⟨by omega, ?_⟩, ?_⟩
  · rw [C05_owned_heliostats a k w _ hk]
    simp only [List.mem_filter, List.mem_range, decide_eq_true_eq]
    exact ⟨hh, this, trivial⟩
  · rintro r ⟨_, hr⟩
    rw [C05_owned_heliostats a k w _ hk] at hr
    simp only [List.mem_filter, List.mem_range, decide_eq_true_eq] at hr
    exact hr.2.2.symm

example : (stride 2 (rankIndices (3 * 2) 3 2 0)).map (· / 2) = [0, 2] := by decide

end Artist.Sampler
