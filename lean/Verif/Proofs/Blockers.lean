import Verif.Spec.Blockers
import Verif.Props.Trace
import Mathlib.Tactic.Linarith
import Mathlib.Algebra.Order.BigOperators.Group.List
/-! Helper lemmas for `Verif.Props.Blockers`. -/
namespace Artist.Blockers
open Artist

variable {P : Type} [Add P]

omit [Add P] in
theorem pointCount_of {c : Nat} {g : Group P} (h : Loaded c g) : pointCount g = c := by
  obtain ⟨h1, -, h3⟩ := h
  cases hs : g.surfaces with
  | nil => exact absurd hs h1
  | cons s l => simp [pointCount, hs, h3 s (by simp [hs])]

theorem lying_zipWith (g : Group P) (i : Nat) : (List.zipWith (fun s p => s.map (· + p)) g.surfaces g.positions)[i]? = lying g i := by
  rw [List.getElem?_zipWith]
  unfold lying
  cases g.surfaces[i]? <;> cases g.positions[i]? <;> rfl

theorem groupBlockers_spec {c : Nat} {g : Group P} (hl : Loaded c g) (hm : Masked c g) :
    ∃ L, groupBlockers g = .ok L ∧ L.length = g.surfaces.length ∧
      ∀ i m, g.mask[i]? = some m → L[i]? = if m = 0 then lying g i else g.active[(g.mask.take i).sum]? := by
  obtain ⟨h1, h2, h3⟩ := hl
  obtain ⟨m1, m2, m3⟩ := hm
  have hz : (List.zipWith (fun s p => s.map (· + p)) g.surfaces g.positions).length = g.surfaces.length := by simp [h2]
  by_cases hs : g.mask.sum = 0
  · have hall : ∀ m ∈ g.mask, m = 0 := fun m hm => by have := List.single_le_sum (fun x _ => Nat.zero_le x) m hm; omega
    have hany : ¬ (g.mask.any (fun c => decide (c ≠ 0)) = true) := by
      intro h
      obtain ⟨m, hm, hm'⟩ := List.any_eq_true.1 h
      simp at hm'
      exact hm' (hall m hm)
    have hany' : ¬ ((g.mask.map (fun c => decide (c ≠ 0))).any id = true) := by
      intro h
      obtain ⟨b, hb, hb'⟩ := List.any_eq_true.1 h
      obtain ⟨m, hm, rfl⟩ := List.mem_map.1 hb
      simp at hb'
      exact hb' (hall m hm)
    refine ⟨_, ?_, hz, ?_⟩
    · unfold groupBlockers
      rw [if_neg (fun h => hany h.1)]
      simp only [Trace.blockingSurfaces]
      rw [if_neg hany']
    · intro i m hi
      rw [if_pos (hall m (List.mem_of_getElem? hi)), lying_zipWith]
  · obtain ⟨ha, hc⟩ := m3 hs
    obtain ⟨L, hL, hlen, hspec⟩ := Trace.C51_surfaces (List.zipWith (fun s p => s.map (· + p)) g.surfaces g.positions) g.active g.mask (by rw [hz, m1]) m2 ha
    refine ⟨L, ?_, by rw [hlen, hz], ?_⟩
    · unfold groupBlockers
      rw [if_neg, hL]
      rintro ⟨-, h⟩
      obtain ⟨row, hr, hr'⟩ := List.any_eq_true.1 h
      simp only [ne_eq, decide_not, Bool.not_eq_true', decide_eq_false_iff_not] at hr'
      exact hr' (by rw [pointCount_of ⟨h1, h2, h3⟩, hc row hr])
    · intro i m hi
      rw [hspec i m hi, lying_zipWith]

theorem mapM_spec {c : Nat} : ∀ (field : List (Group P)), (∀ g ∈ field, Loaded c g ∧ Masked c g) →
    ∃ rows, field.mapM groupBlockers = .ok rows ∧ ∀ k g, field[k]? = some g → ∀ i m, g.mask[i]? = some m →
      rows.flatten[before field k + i]? = if m = 0 then lying g i else g.active[(g.mask.take i).sum]? := by
  intro field
  induction field with
  | nil => intro _; exact ⟨[], rfl, by simp⟩
  | cons g field ih =>
    intro h
    obtain ⟨L, hL, hlen, hspec⟩ := groupBlockers_spec (h g (by simp)).1 (h g (by simp)).2
    obtain ⟨rows, hr, hrs⟩ := ih (fun g hg => h g (by simp [hg]))
    refine ⟨L :: rows, by rw [List.mapM_cons, hL, hr]; rfl, ?_⟩
    intro k g' hk i m hi
    cases k with
    | zero =>
      obtain rfl : g = g' := by simpa using hk
      have hil : i < L.length := by
        rw [hlen, ← (h g (by simp)).2.1]; exact (List.getElem?_eq_some_iff.1 hi).1
      rw [List.flatten_cons, show before (g :: field) 0 + i = i by simp [before], List.getElem?_append_left hil]
      exact hspec i m hi
    | succ k =>
      have hb : before (g :: field) (k + 1) = L.length + before field k := by simp [before, hlen]
      rw [List.flatten_cons, hb, List.getElem?_append_right (by omega), show L.length + before field k + i - L.length = before field k + i by omega]
      exact hrs k g' (by simpa using hk) i m hi

/-- The row of a heliostat among the active rows. -/
theorem repeatInterleave_get {A : Type} : ∀ (rows : List A) (mask : List Nat), mask.length = rows.length → ∀ i m, mask[i]? = some m → m ≠ 0 →
    (repeatInterleave rows mask)[(mask.take i).sum]? = rows[i]?
  | [], [], _, i, m, h, _ => by simp at h
  | r :: rows, c :: mask, hl, 0, m, h, hm => by
    obtain rfl : c = m := by simpa using h
    obtain ⟨c, rfl⟩ := Nat.exists_eq_succ_of_ne_zero hm
    simp [repeatInterleave]
  | r :: rows, c :: mask, hl, i + 1, m, h, hm => by
    have ih := repeatInterleave_get rows mask (by simpa using hl) i m (by simpa using h) hm
    simp only [repeatInterleave, List.take_succ_cons, List.sum_cons, List.getElem?_cons_succ]
    rw [List.getElem?_append_right (by simp), List.length_replicate, Nat.add_sub_cancel_left, ih]

theorem repeatInterleave_length' {A : Type} : ∀ (rows : List A) (mask : List Nat), mask.length = rows.length → (repeatInterleave rows mask).length = mask.sum
  | [], [], _ => rfl
  | r :: rows, c :: mask, hl => by
    simp [repeatInterleave, repeatInterleave_length' rows mask (by simpa using hl)]

theorem repeatInterleave_mem {A : Type} : ∀ (rows : List A) (mask : List Nat) (x : A), x ∈ repeatInterleave rows mask → x ∈ rows
  | [], _, x, h => by simp [repeatInterleave] at h
  | r :: rows, [], x, h => by simp [repeatInterleave] at h
  | r :: rows, c :: mask, x, h => by
    simp only [repeatInterleave, List.mem_append, List.mem_replicate] at h
    rcases h with h | h
    · simp [h.2]
    · exact List.mem_cons_of_mem _ (repeatInterleave_mem rows mask x h)

omit [Add P] in
theorem run_append (field : List (Group P)) (a b : List (Op P)) : run field (a ++ b) = run (run field a) b := List.foldl_append

omit [Add P] in
theorem run_two (field : List (Group P)) (k : Nat) (mask : List Nat) (motion : Nat → P → P) (j : Nat) :
    (run field [.activate k mask, .align k motion])[j]? = field[j]?.map fun g => if j = k then (g.activate mask).align motion else g := by
  simp only [run, List.foldl_cons, List.foldl_nil, step, List.getElem?_modify]
  cases field[j]? with
  | none => rfl
  | some g =>
    by_cases h : k = j
    · simp [h]
    · simp [h, Ne.symm h]

omit [Add P] in
theorem run_zipIdx : ∀ (tasks : List (List Nat × (Nat → P → P))) (k : Nat) (field : List (Group P)) (j : Nat),
    (run field ((tasks.zipIdx k).flatMap fun t => [.activate t.2 t.1.1, .align t.2 t.1.2]))[j]? =
      field[j]?.map fun g => if k ≤ j then (match tasks[j - k]? with
        | some t => (g.activate t.1).align t.2
        | none => g) else g
  | [], k, field, j => by simp [run]
  | t :: tasks, k, field, j => by
    rw [List.zipIdx_cons, List.flatMap_cons, run_append, run_zipIdx tasks (k + 1), run_two]
    cases field[j]? with
    | none => rfl
    | some g =>
      simp only [Option.map_some, Option.some.injEq]
      rcases Nat.lt_trichotomy j k with h | h | h
      · simp [Nat.not_le.2 h, show ¬ k + 1 ≤ j by omega, show j ≠ k by omega]
      · subst h; simp
      · simp only [show j ≠ k by omega, if_false, show k + 1 ≤ j by omega, show k ≤ j by omega, if_true]
        rw [show j - k = (j - (k + 1)) + 1 by omega]
        simp

omit [Add P] in
theorem run_length (ops : List (Op P)) (field : List (Group P)) : (run field ops).length = field.length := by
  induction ops generalizing field with
  | nil => rfl
  | cons o ops ih =>
    rw [show run field (o :: ops) = run (step field o) ops from rfl, ih]
    cases o <;> simp [step]

/-- After activating and aligning a loaded group it is loaded, has the mask, and its active rows are the moved surfaces. -/
theorem prepared {c : Nat} {g : Group P} (hl : Loaded c g) (mask : List Nat) (motion : Nat → P → P) (hm : mask.length = g.surfaces.length) (h01 : ∀ m ∈ mask, m ≤ 1) :
    Loaded c ((g.activate mask).align motion) ∧ Masked c ((g.activate mask).align motion) ∧
      ∀ i m, mask[i]? = some m → m ≠ 0 → ((g.activate mask).align motion).active[(mask.take i).sum]? = g.surfaces[i]?.map (List.map (motion (mask.take i).sum)) := by
  refine ⟨hl, ⟨hm, h01, fun _ => ⟨?_, ?_⟩⟩, ?_⟩
  · simp [Group.align, Group.activate, repeatInterleave_length' _ _ hm]
  · intro s hs
    simp only [Group.align, Group.activate, List.mem_mapIdx] at hs
    obtain ⟨i, hi, rfl⟩ := hs
    rw [List.length_map]
    exact hl.2.2 _ (repeatInterleave_mem _ _ _ (List.getElem_mem hi))
  · intro i m hi hm0
    simp only [Group.align, Group.activate, List.getElem?_mapIdx]
    rw [repeatInterleave_get _ _ hm i m hi hm0]

end Artist.Blockers
