import Verif.Proofs.Blockers
/-!
# C87: rays are blocked by the mirrors where they stand
-/
namespace Artist.Blockers
open Artist

variable {P : Type} [Add P]

/-- C87, what blocks: when a tracer is created, heliostat `i` of group `k` is represented by the row that is active for it, if it is active, and otherwise by its mirror lying at its
position.  The groups follow one another in the order of the field. -/
theorem C87_created {c : Nat} (field : List (Group P)) (hne : field ≠ []) (h : ∀ g ∈ field, Loaded c g ∧ Masked c g) :
    ∃ t, create field = .ok t ∧ ∀ k g, field[k]? = some g → ∀ i m, g.mask[i]? = some m →
      t.blockers[before field k + i]? = if m = 0 then lying g i else g.active[(g.mask.take i).sum]? := by
  obtain ⟨rows, hr, hrs⟩ := mapM_spec field h
  cases field with
  | nil => exact absurd rfl hne
  | cons g field =>
    refine ⟨⟨rows.flatten⟩, ?_, hrs⟩
    simp only [create]
    rw [if_pos, hr]
    rw [List.all_eq_true]
    intro g' hg'
    rw [pointCount_of (h g' hg').1, pointCount_of (h g (by simp)).1]
    simp

/-- the two heliostats of the examples: squares with corners at (±1, ±1) standing at (10, 0) and (0, 10), on the integer grid -/
def square : List (Int × Int) := [(-1, -1), (-1, 1), (1, 1), (1, -1)]

/-- a group of one of them, never activated (the active rows are uninitialised) -/
def single (p : Int × Int) : Group (Int × Int) := ⟨[square], [p], [0], [[(7, 7), (7, 7), (7, 7), (7, 7)]]⟩

example : create [single (10, 0), (single (0, 10)).activate [1] |>.align fun _ q => (q.1, q.2 + 10)] =
    .ok ⟨[[(9, -1), (9, 1), (11, 1), (11, -1)], [(-1, 9), (-1, 11), (1, 11), (1, 9)]]⟩ := by decide

/-- C87 when all groups are activated and aligned before the tracer is created and nothing is moved afterwards: every active heliostat blocks with exactly the surface its own rays start from,
which is its surface moved by its last alignment; inactive heliostats block lying at their positions.  (The full claim, for any order of the calls, is false: see the theorems below.) -/
theorem C87_aligned_partial {c : Nat} (field : List (Group P)) (hne : field ≠ []) (h : ∀ g ∈ field, Loaded c g) (tasks : List (List Nat × (Nat → P → P)))
    (hfit : Fits field tasks) :
    ∃ tracer, create (run field (alignAll tasks)) = .ok tracer ∧ ∀ k g t, field[k]? = some g → tasks[k]? = some t →
      ∃ rows, trace tracer (run field (alignAll tasks)) k = .ok (rows, tracer.blockers) ∧ ∀ i m, t.1[i]? = some m →
        tracer.blockers[before field k + i]? = (if m = 0 then lying g i else rows[(t.1.take i).sum]?) ∧
        (m ≠ 0 → rows[(t.1.take i).sum]? = g.surfaces[i]?.map (List.map (t.2 (t.1.take i).sum))) := by
  obtain ⟨ht, hm⟩ := hfit
  have hget : ∀ (k : Nat) g t, field[k]? = some g → tasks[k]? = some t → (run field (alignAll tasks))[k]? = some ((g.activate t.1).align t.2) := by
    intro k g t hg hk
    rw [alignAll, run_zipIdx, hg]
    simp [hk]
  have hb : ∀ k, before (run field (alignAll tasks)) k = before field k := by
    intro k
    unfold before
    congr 1
    apply List.ext_getElem?
    intro j
    simp only [List.getElem?_map, List.getElem?_take]
    split
    · rw [alignAll, run_zipIdx]
      cases field[j]? with
      | none => rfl
      | some g =>
        simp only [Option.map_some, Nat.zero_le, if_true, Option.some.injEq]
        split <;> rfl
    · rfl
  have hall : ∀ g' ∈ run field (alignAll tasks), Loaded c g' ∧ Masked c g' := by
    intro g' hg'
    obtain ⟨k, hk⟩ := List.getElem?_of_mem hg'
    have hkl : k < field.length := by
      have := (List.getElem?_eq_some_iff.1 hk).1
      rwa [run_length] at this
    have hg : field[k]? = some field[k] := List.getElem?_eq_getElem hkl
    have htk : tasks[k]? = some (tasks[k]'(by omega)) := List.getElem?_eq_getElem (by omega)
    rw [hget k _ _ hg htk] at hk
    obtain rfl := Option.some.inj hk
    obtain ⟨p1, p2, -⟩ := prepared (h _ (List.getElem_mem hkl)) _ (tasks[k]'(by omega)).2 (hm k _ _ hg htk).1 (hm k _ _ hg htk).2
    exact ⟨p1, p2⟩
  have hne' : run field (alignAll tasks) ≠ [] := by
    intro h0
    have := run_length (alignAll tasks) field
    rw [h0] at this
    exact hne (List.length_eq_zero_iff.1 this.symm)
  obtain ⟨tracer, hc, hs⟩ := C87_created _ hne' hall
  refine ⟨tracer, hc, ?_⟩
  intro k g t hg hk
  obtain ⟨-, -, p3⟩ := prepared (h g (List.mem_of_getElem? hg)) t.1 t.2 (hm k g t hg hk).1 (hm k g t hg hk).2
  refine ⟨_, by rw [trace, hget k g t hg hk], ?_⟩
  intro i m hi
  refine ⟨?_, fun h0 => p3 i m hi h0⟩
  have := hs k _ (hget k g t hg hk) i m hi
  rw [hb] at this
  exact this

/-- C87 is false for a tracer that is used again: after the groups are activated and aligned anew, the rays start from the new surfaces, but every active heliostat still blocks where it
stood when the tracer was created. -/
theorem C87_stale {c : Nat} (field : List (Group P)) (hne : field ≠ []) (h : ∀ g ∈ field, Loaded c g) (tasks tasks' : List (List Nat × (Nat → P → P)))
    (hfit : Fits field tasks) (hfit' : Fits field tasks') :
    ∃ tracer, create (run field (alignAll tasks)) = .ok tracer ∧ ∀ k g t t', field[k]? = some g → tasks[k]? = some t → tasks'[k]? = some t' →
      ∃ rows, trace tracer (run (run field (alignAll tasks)) (alignAll tasks')) k = .ok (rows, tracer.blockers) ∧ ∀ i, t.1[i]? = some 1 → t'.1[i]? = some 1 →
        rows[(t'.1.take i).sum]? = g.surfaces[i]?.map (List.map (t'.2 (t'.1.take i).sum)) ∧
        tracer.blockers[before field k + i]? = g.surfaces[i]?.map (List.map (t.2 (t.1.take i).sum)) := by
  obtain ⟨tracer, hc, hs⟩ := C87_aligned_partial field hne h tasks hfit
  obtain ⟨-, hm⟩ := hfit
  obtain ⟨-, hm'⟩ := hfit'
  refine ⟨tracer, hc, ?_⟩
  intro k g t t' hg hk hk'
  have hget : (run (run field (alignAll tasks)) (alignAll tasks'))[k]? = some ((((g.activate t.1).align t.2).activate t'.1).align t'.2) := by
    rw [alignAll, alignAll, run_zipIdx, run_zipIdx, hg]
    simp [hk, hk']
  obtain ⟨p1, p2, -⟩ := prepared (h g (List.mem_of_getElem? hg)) t.1 t.2 (hm k g t hg hk).1 (hm k g t hg hk).2
  obtain ⟨-, -, q3⟩ := prepared p1 t'.1 t'.2 (hm' k g t' hg hk').1 (hm' k g t' hg hk').2
  refine ⟨_, by rw [trace, hget], ?_⟩
  intro i hi hi'
  obtain ⟨rows, -, hr⟩ := hs k g t hg hk
  obtain ⟨r1, r2⟩ := hr i 1 hi
  refine ⟨q3 i 1 hi' (by omega), ?_⟩
  rw [r1, if_neg (by omega), r2 (by omega)]

/-- one heliostat at (10, 0), aligned, traced, turned by a quarter, traced again with the same tracer and with a new one -/
example : let field := run [single (10, 0)] (alignAll [([1], fun _ q => (q.1 + 10, q.2))])
    let field' := run field (alignAll [([1], fun _ q => (10 - q.2, 2 * q.1))])
    ∃ t t', create field = .ok t ∧ create field' = .ok t' ∧
      trace t field' 0 = .ok ([[(11, -2), (9, -2), (9, 2), (11, 2)]], [[(9, -1), (9, 1), (11, 1), (11, -1)]]) ∧
      trace t' field' 0 = .ok ([[(11, -2), (9, -2), (9, 2), (11, 2)]], [[(11, -2), (9, -2), (9, 2), (11, 2)]]) :=
  ⟨_, _, rfl, rfl, rfl, rfl⟩

/-- C87 is false between activation and alignment: a heliostat that is active but not yet aligned blocks as if it stood at the origin of the field, wherever it is. -/
theorem C87_not_aligned {c : Nat} (field : List (Group P)) (h : ∀ g ∈ field, Loaded c g ∧ Masked c g) (k : Nat) (g : Group P) (hk : field[k]? = some g) (mask : List Nat)
    (hm : mask.length = g.surfaces.length) (h01 : ∀ m ∈ mask, m ≤ 1) :
    ∃ tracer, create (run field [.activate k mask]) = .ok tracer ∧ ∀ i, mask[i]? = some 1 → tracer.blockers[before field k + i]? = g.surfaces[i]? := by
  have hrun : ∀ j, (run field [.activate k mask])[j]? = field[j]?.map fun g => if k = j then g.activate mask else g := by
    intro j
    simp only [run, List.foldl_cons, List.foldl_nil, step, List.getElem?_modify]
    cases field[j]? with
    | none => rfl
    | some g => by_cases h : k = j <;> simp [h]
  have hg : Loaded c g := (h g (List.mem_of_getElem? hk)).1
  have hprep : Masked c (g.activate mask) := by
    refine ⟨hm, h01, fun _ => ⟨repeatInterleave_length' _ _ hm, ?_⟩⟩
    intro s hs
    exact hg.2.2 _ (repeatInterleave_mem _ _ _ hs)
  have hall : ∀ g' ∈ run field [.activate k mask], Loaded c g' ∧ Masked c g' := by
    intro g' hg'
    obtain ⟨j, hj⟩ := List.getElem?_of_mem hg'
    rw [hrun] at hj
    cases hf : field[j]? with
    | none => simp [hf] at hj
    | some g'' =>
      rw [hf] at hj
      simp only [Option.map_some, Option.some.injEq] at hj
      by_cases hjk : k = j
      · rw [if_pos hjk] at hj
        subst hjk
        obtain rfl : g = g'' := by rw [hk] at hf; exact Option.some.inj hf
        subst hj
        exact ⟨hg, hprep⟩
      · rw [if_neg hjk] at hj
        subst hj
        exact h _ (List.mem_of_getElem? hf)
  have hne : run field [.activate k mask] ≠ [] := by
    intro h0
    have := hrun k
    rw [h0, hk] at this
    simp at this
  obtain ⟨tracer, hc, hs⟩ := C87_created _ hne hall
  refine ⟨tracer, hc, ?_⟩
  intro i hi
  have := hs k (g.activate mask) (by rw [hrun, hk]; simp) i 1 hi
  have hb : before (run field [.activate k mask]) k = before field k := by
    unfold before
    congr 1
    apply List.ext_getElem?
    intro j
    simp only [List.getElem?_map, List.getElem?_take]
    split
    · rw [hrun]
      cases field[j]? with
      | none => rfl
      | some g => simp only [Option.map_some, Option.some.injEq]; split <;> rfl
    · rfl
  rw [hb] at this
  rw [this, if_neg (by omega)]
  exact repeatInterleave_get _ _ hm i 1 hi (by omega)

example : create (run [single (10, 0), single (0, 10)] [.activate 1 [1]]) = .ok ⟨[[(9, -1), (9, 1), (11, 1), (11, -1)], square]⟩ := by decide

/-- C87 is false if the groups are aligned and traced one after the other: when group `j` is traced, the heliostats of earlier groups block where they were aligned to, those of later groups
lying at their positions, although they are aligned and traced in the end as well. -/
theorem C87_one_by_one {c : Nat} (field : List (Group P)) (h : ∀ g ∈ field, Loaded c g ∧ g.mask = List.replicate g.surfaces.length 0)
    (tasks : List (List Nat × (Nat → P → P))) (hfit : Fits field tasks) :
    ∃ results, oneByOne tasks 0 field = .ok results ∧ results.length = field.length ∧ ∀ j rows blockers, results[j]? = some (rows, blockers) →
      ∀ k g t i, field[k]? = some g → tasks[k]? = some t → t.1[i]? = some 1 →
        blockers[before field k + i]? = if k ≤ j then g.surfaces[i]?.map (List.map (t.2 (t.1.take i).sum)) else lying g i := by
  obtain ⟨ht, hm⟩ := hfit
  -- the field after the first `j` groups have been treated
  let after : Nat → List (Group P) := fun j => run field (alignAll (tasks.take j))
  have hafter : ∀ j k, (after j)[k]? = field[k]?.map fun g => if k < j then (match tasks[k]? with
      | some t => (g.activate t.1).align t.2
      | none => g) else g := by
    intro j k
    simp only [after, alignAll]
    rw [run_zipIdx]
    cases field[k]? with
    | none => rfl
    | some g =>
      simp only [Option.map_some, Nat.zero_le, if_true, Option.some.injEq, Nat.sub_zero, List.getElem?_take]
      by_cases hkj : k < j
      · simp only [if_pos hkj]
        cases tasks[k]? <;> rfl
      · simp only [if_neg hkj]
  have hstep : ∀ j t, tasks[j]? = some t → run (after j) [.activate j t.1, .align j t.2] = after (j + 1) := by
    intro j t hj
    apply List.ext_getElem?
    intro k
    rw [run_two, hafter, hafter]
    cases field[k]? with
    | none => rfl
    | some g =>
      simp only [Option.map_some, Option.some.injEq]
      rcases Nat.lt_trichotomy k j with hk | hk | hk
      · simp [hk, show k < j + 1 by omega, show k ≠ j by omega]
      · subst hk; simp [hj]
      · simp [show ¬ k < j by omega, show ¬ k < j + 1 by omega, show k ≠ j by omega]
  have hcreate : ∀ j, j < field.length → ∃ tracer, create (after (j + 1)) = .ok tracer ∧ ∀ k g t i, field[k]? = some g → tasks[k]? = some t → t.1[i]? = some 1 →
      tracer.blockers[before field k + i]? = if k ≤ j then g.surfaces[i]?.map (List.map (t.2 (t.1.take i).sum)) else lying g i := by
    intro j hj
    have hfresh : ∀ g ∈ field, Masked c g := by
      intro g hg
      obtain ⟨-, h2⟩ := h g hg
      refine ⟨by simp [h2], fun m hm' => ?_, fun h0 => absurd ?_ h0⟩
      · rw [h2] at hm'; simp [List.eq_of_mem_replicate hm']
      · rw [h2]; simp
    have hall : ∀ g' ∈ after (j + 1), Loaded c g' ∧ Masked c g' := by
      intro g' hg'
      obtain ⟨k, hk⟩ := List.getElem?_of_mem hg'
      rw [hafter] at hk
      cases hf : field[k]? with
      | none => simp [hf] at hk
      | some g =>
        rw [hf] at hk
        simp only [Option.map_some, Option.some.injEq] at hk
        have hgm := List.mem_of_getElem? hf
        by_cases hkj : k < j + 1
        · rw [if_pos hkj] at hk
          have htk : tasks[k]? = some (tasks[k]'(by omega)) := List.getElem?_eq_getElem (by omega)
          rw [htk] at hk
          subst hk
          obtain ⟨p1, p2, -⟩ := prepared (h g hgm).1 _ (tasks[k]'(by omega)).2 (hm k g _ hf htk).1 (hm k g _ hf htk).2
          exact ⟨p1, p2⟩
        · rw [if_neg hkj] at hk
          subst hk
          exact ⟨(h g hgm).1, hfresh g hgm⟩
    have hne : after (j + 1) ≠ [] := by
      intro h0
      have := run_length (alignAll (tasks.take (j + 1))) field
      simp only [after] at h0
      rw [h0] at this
      simp at this; omega
    have hb : ∀ k, before (after (j + 1)) k = before field k := by
      intro k
      unfold before
      congr 1
      apply List.ext_getElem?
      intro l
      simp only [List.getElem?_map, List.getElem?_take]
      split
      · rw [hafter]
        cases field[l]? with
        | none => rfl
        | some g =>
          simp only [Option.map_some, Option.some.injEq]
          split
          · split <;> rfl
          · rfl
      · rfl
    obtain ⟨tracer, hc, hs⟩ := C87_created _ hne hall
    refine ⟨tracer, hc, ?_⟩
    intro k g t i hg hk hi
    have hgm := List.mem_of_getElem? hg
    by_cases hkj : k ≤ j
    · have := hs k ((g.activate t.1).align t.2) (by rw [hafter, hg]; simp [hk, Nat.lt_succ_of_le hkj]) i 1 hi
      rw [hb] at this
      rw [this, if_neg (by omega), if_pos hkj]
      exact (prepared (h g hgm).1 t.1 t.2 (hm k g t hg hk).1 (hm k g t hg hk).2).2.2 i 1 hi (by omega)
    · have hi0 : g.mask[i]? = some 0 := by
        rw [(h g hgm).2, List.getElem?_replicate, if_pos]
        rw [← (hm k g t hg hk).1]
        exact (List.getElem?_eq_some_iff.1 hi).1
      have := hs k g (by rw [hafter, hg]; simp [show ¬ k < j + 1 by omega]) i 0 hi0
      rw [hb] at this
      rw [this, if_pos rfl, if_neg hkj]
  have hloop : ∀ n j, n + j = tasks.length → ∃ results, oneByOne (tasks.drop j) j (after j) = .ok results ∧ results.length = n ∧
      ∀ l rows blockers, results[l]? = some (rows, blockers) → ∀ k g t i, field[k]? = some g → tasks[k]? = some t → t.1[i]? = some 1 →
        blockers[before field k + i]? = if k ≤ j + l then g.surfaces[i]?.map (List.map (t.2 (t.1.take i).sum)) else lying g i := by
    intro n
    induction n with
    | zero =>
      intro j hj
      rw [List.drop_eq_nil_of_le (by omega)]
      exact ⟨[], rfl, rfl, by simp⟩
    | succ n ih =>
      intro j hj
      have hjl : j < tasks.length := by omega
      rw [List.drop_eq_getElem_cons hjl]
      obtain ⟨rs, hr, hrl, hrs⟩ := ih (j + 1) (by omega)
      obtain ⟨tracer, hc, hcs⟩ := hcreate j (by omega)
      have hst := hstep j tasks[j] (List.getElem?_eq_getElem hjl)
      have hgj : (after (j + 1))[j]? ≠ none := by
        rw [hafter, List.getElem?_eq_getElem (by omega : j < field.length)]; simp
      obtain ⟨g', hg'⟩ := Option.ne_none_iff_exists'.1 hgj
      refine ⟨(g'.active, tracer.blockers) :: rs, ?_, by simp [hrl], ?_⟩
      · unfold oneByOne
        simp only [hst, hc, trace, hg', hr]
      · intro l rows blockers hl
        cases l with
        | zero =>
          obtain ⟨rfl, rfl⟩ : g'.active = rows ∧ tracer.blockers = blockers := by simpa using hl
          exact hcs
        | succ l =>
          have := hrs l rows blockers (by simpa using hl)
          intro k g t i a b d
          rw [this k g t i a b d, show j + 1 + l = j + (l + 1) by omega]
  obtain ⟨results, hr, hl, hs⟩ := hloop tasks.length 0 (by omega)
  refine ⟨results, ?_, by omega, ?_⟩
  · have h0 : after 0 = field := by simp [after, alignAll, run]
    rw [h0] at hr
    simpa using hr
  · intro j rows blockers hj k g t i a b d
    have := hs j rows blockers hj k g t i a b d
    rwa [Nat.zero_add] at this

example : oneByOne [([1], fun _ q => (10 - q.2, 2 * q.1)), ([1], fun _ q => (2 * q.1, 10 - q.2))] 0 [single (10, 0), single (0, 10)] =
    .ok [([[(11, -2), (9, -2), (9, 2), (11, 2)]], [[(11, -2), (9, -2), (9, 2), (11, 2)], [(-1, 9), (-1, 11), (1, 11), (1, 9)]]),
      ([[(-2, 11), (-2, 9), (2, 9), (2, 11)]], [[(11, -2), (9, -2), (9, 2), (11, 2)], [(-2, 11), (-2, 9), (2, 9), (2, 11)]])] := by decide

/-- C87: a tracer with blocking cannot be created for any group if two groups of the field have different numbers of surface points. -/
theorem C87_points (field : List (Group P)) (g g' : Group P) (hg : g ∈ field) (hg' : g' ∈ field) (c c' : Nat) (h : Loaded c g) (h' : Loaded c' g') (hc : c ≠ c') :
    create field = .error .runtimeError := by
  cases field with
  | nil => rfl
  | cons g₀ field =>
    simp only [create]
    rw [if_neg]
    intro hall
    rw [List.all_eq_true] at hall
    have h1 := of_decide_eq_true (hall g hg)
    have h2 := of_decide_eq_true (hall g' hg')
    rw [pointCount_of h] at h1
    rw [pointCount_of h'] at h2
    exact hc (h1.trans h2.symm)

example : create [single (10, 0), ⟨[[(0, 0)]], [(0, 10)], [0], [[(0, 0)]]⟩] = .error .runtimeError := by decide

end Artist.Blockers
