import Verif.Proofs.Env
import Verif.Spec.Env
/-! # C01-C03: distributed environment (`artist/util/env.py`) -/
namespace Artist.Env
open Artist

/-- C01, completeness: for at least one rank and one group the distribution succeeds; there is one row per rank,
the nested flag says whether there are more ranks than groups, only existing groups are assigned,
every group is assigned to some rank, and no rank is idle. -/
theorem C01_distribution_complete (W G : Nat) (hW : 0 < W) (hG : 0 < G) :
    ∃ T nested, distribute W G = .ok (T, nested) ∧ T.length = W ∧ (nested = true ↔ G < W) ∧
      (∀ r g, WorksOn T r g → r < W ∧ g < G) ∧
      (∀ g, g < G → ∃ r, WorksOn T r g) ∧
      (∀ r, r < W → ∃ g, WorksOn T r g) := by
  rcases Nat.lt_or_ge G W with h | h
  · obtain ⟨T, hT, hl, hr⟩ := distribute_nested W G hG h
    refine ⟨T, true, hT, hl, by simp [h], ?_, ?_, ?_⟩
    · rintro r g ⟨gs, h1, h2⟩
      have hrW : r < W := by rw [← hl]; exact (List.getElem?_eq_some_iff.1 h1).1
      rw [hr r hrW] at h1
      simp at h1; subst h1; simp at h2; subst h2
      exact ⟨hrW, Nat.mod_lt _ hG⟩
    · intro g hg
      exact ⟨g, [g % G], hr g (by omega), by simp [Nat.mod_eq_of_lt hg]⟩
    · intro r hrW
      exact ⟨r % G, [r % G], hr r hrW, by simp⟩
  · obtain ⟨T, hT, hl, hr⟩ := distribute_flat W G hW h
    refine ⟨T, false, hT, hl, by simp; omega, ?_, ?_, ?_⟩
    · rintro r g ⟨gs, h1, h2⟩
      have hrW : r < W := by rw [← hl]; exact (List.getElem?_eq_some_iff.1 h1).1
      rw [hr r hrW] at h1
      simp at h1; subst h1; simp at h2
      exact ⟨hrW, h2.1⟩
    · intro g hg
      exact ⟨g % W, _, hr (g % W) (Nat.mod_lt _ hW), by simp [hg]⟩
    · intro r hrW
      exact ⟨r, _, hr r hrW, by simp [Nat.mod_eq_of_lt hrW]; omega⟩

example : ∃ T, distribute 3 5 = .ok (T, false) ∧ T = [[0, 3], [1, 4], [2]] := ⟨_, by decide, rfl⟩

/-- C01, at most as many ranks as groups: no group is given twice, and loads differ by at most one. -/
theorem C01_flat_balanced (W G : Nat) (hW : 0 < W) (h : W ≤ G) :
    ∃ T, distribute W G = .ok (T, false) ∧
      (∀ g, g < G → ∃! r, WorksOn T r g) ∧
      (∀ (r : Nat) (gs : List Nat), T[r]? = some gs → gs.Nodup) ∧
      (∀ (r r' : Nat) (gs gs' : List Nat), T[r]? = some gs → T[r']? = some gs' → gs.length ≤ gs'.length + 1) := by
  obtain ⟨T, hT, hl, hr⟩ := distribute_flat W G hW h
  have hrW : ∀ (r : Nat) (gs : List Nat), T[r]? = some gs → r < W ∧ gs = (List.range G).filter (fun g => g % W == r) := by
    intro r gs h1
    have hrW : r < W := by rw [← hl]; exact (List.getElem?_eq_some_iff.1 h1).1
    rw [hr r hrW] at h1
    simp at h1; exact ⟨hrW, h1.symm⟩
  refine ⟨T, hT, ?_, ?_, ?_⟩
  · intro g hg
    refine ⟨g % W, ⟨_, hr (g % W) (Nat.mod_lt _ hW), by simp [hg]⟩, ?_⟩
    rintro r ⟨gs, h1, h2⟩
    obtain ⟨_, rfl⟩ := hrW r gs h1
    simp at h2; exact h2.2.symm
  · intro r gs h1
    obtain ⟨_, rfl⟩ := hrW r gs h1
    exact List.Nodup.filter _ List.nodup_range
  · intro r r' gs gs' h1 h2
    obtain ⟨a, rfl⟩ := hrW r gs h1
    obtain ⟨b, rfl⟩ := hrW r' gs' h2
    rw [← List.countP_eq_length_filter, ← List.countP_eq_length_filter, countP_residue W r a,
      countP_residue W r' b]
    exact div_close _ _ W hW (by omega)

example : (0 < 3) ∧ (3 ≤ 5) := by decide

/-- C01, more ranks than groups: every rank holds exactly one group, and the numbers of ranks per group
differ by at most one. -/
theorem C01_nested_balanced (W G : Nat) (hG : 0 < G) (h : G < W) :
    ∃ T, distribute W G = .ok (T, true) ∧
      (∀ r, r < W → ∃ g, T[r]? = some [g]) ∧
      (∀ g g', g < G → g' < G → ranksPerGroup T g ≤ ranksPerGroup T g' + 1) := by
  obtain ⟨T, hT, hl, hr⟩ := distribute_nested W G hG h
  refine ⟨T, hT, fun r hrW => ⟨_, hr r hrW⟩, ?_⟩
  have hTe : T = (List.range W).map (fun r => [r % G]) := by
    apply List.ext_getElem?
    intro r
    by_cases hrW : r < W
    · rw [hr r hrW]; simp [hrW]
    · rw [List.getElem?_eq_none (by omega), List.getElem?_eq_none (by simp; omega)]
  have hc : ∀ g, g < G → ranksPerGroup T g = (W + (G - 1 - g)) / G := by
    intro g hg
    rw [← countP_residue G g hg, hTe]
    unfold ranksPerGroup
    rw [List.countP_map]
    apply List.countP_congr
    intro x _
    simp only [Function.comp_apply, List.mem_singleton, decide_eq_true_eq, beq_iff_eq]
    exact eq_comm
  intro g g' hg hg'
  rw [hc g hg, hc g' hg']
  exact div_close _ _ G hG (by omega)

example : distribute 5 2 = .ok ([[0], [1], [0], [1], [0]], true) := by decide

/-- C01, degenerate sizes: without groups every rank is idle; without ranks (impossible in practice)
the code raises `StopIteration` as soon as there is a group. -/
theorem C01_degenerate (W G : Nat) :
    distribute W 0 = .ok (List.replicate W [], decide (0 < W)) ∧
    (0 < G → distribute 0 G = .error .stopIteration) := by
  constructor
  · unfold distribute
    cases W <;> simp [cycleTakeFrom, deal]
  · intro hG
    obtain ⟨m, rfl⟩ : ∃ m, G = m + 1 := ⟨G - 1, by omega⟩
    unfold distribute
    rw [List.range_succ_eq_map]
    simp [deal]

/-- C02, inverse table: for any rank table in which no rank lists a group twice, the derived
group → ranks table has unique keys, lists exactly the ranks that work on the group, in increasing
order without repetition, and has no empty entries. -/
theorem C02_inverse_table (T : List (List Nat)) (hn : ∀ gs ∈ T, gs.Nodup) :
    ((invert T).map Prod.fst).Nodup ∧
    (∀ g rs, (g, rs) ∈ invert T → rs ≠ [] ∧ rs.Pairwise (· < ·) ∧ ∀ r, r ∈ rs ↔ WorksOn T r g) ∧
    (∀ r g, WorksOn T r g → ∃ rs, (g, rs) ∈ invert T) := by
  refine ⟨invert_keys_nodup T, ?_, ?_⟩
  · intro g rs h
    rw [mem_invert T hn] at h
    obtain ⟨h1, h2⟩ := h
    refine ⟨h1, ?_, ?_⟩
    · rw [h2]; exact holders_sorted T g 0
    · intro r; rw [h2, mem_holders]; simp [WorksOn]
  · rintro r g h
    have hm : r ∈ holders 0 T g := by rw [mem_holders]; simpa [WorksOn] using h
    exact ⟨holders 0 T g, (mem_invert T hn g _).2 ⟨List.ne_nil_of_mem hm, rfl⟩⟩

example : invert [[0], [1], [0]] = [(0, [0, 2]), (1, [1])] ∧ ∀ gs ∈ [[0], [1], [0]], gs.Nodup := by decide

/-- C02, numbering: when every rank holds at most one group, all ranks of a group agree on the group's
process group `members`; `members` lists exactly the ranks working on the group (so its length is the
group world size every one of them reports), and each rank's own number is its position in it. -/
theorem C02_group_ranks (T : List (List Nat)) (h1 : ∀ gs ∈ T, gs.length ≤ 1) (g : Nat)
    (hg : ∃ r, WorksOn T r g) :
    ∃ members : List Nat, members.Nodup ∧ (∀ r, r ∈ members ↔ WorksOn T r g) ∧
      ∀ r, WorksOn T r g →
        let info := (createSubgroups r T).1
        info.processSubgroup = some members ∧ info.groupWorldSize = members.length ∧
        members[info.groupRank]? = some r := by
  have hn : ∀ gs ∈ T, gs.Nodup := by
    intro gs hgs
    have := h1 gs hgs
    rcases gs with _ | ⟨a, _ | ⟨b, l⟩⟩ <;> simp at this ⊢
  obtain ⟨r0, hr0⟩ := hg
  have hmem : ∀ r, r ∈ holders 0 T g ↔ WorksOn T r g := by
    intro r; rw [mem_holders]; simp [WorksOn]
  refine ⟨holders 0 T g, (holders_sorted T g 0).imp (fun h => Nat.ne_of_lt h), hmem, ?_⟩
  intro r hr
  have hin : (g, holders 0 T g) ∈ invert T :=
    (mem_invert T hn g _).2 ⟨List.ne_nil_of_mem ((hmem r).2 hr), rfl⟩
  have key := findSubgroup_unique r (invert T) (g, holders 0 T g) hin ((hmem r).2 hr) (by
    rintro ⟨g', rs'⟩ he' hr'
    obtain ⟨_, e2⟩ := (mem_invert T hn g' rs').1 he'
    simp only at hr' ⊢
    rw [e2, mem_holders] at hr'
    obtain ⟨_, gs', hgs', hg'⟩ := hr'
    obtain ⟨gs, hgs, hg2⟩ := hr
    simp only [Nat.sub_zero] at hgs'
    rw [hgs] at hgs'
    simp at hgs'; subst hgs'
    have := h1 gs (List.mem_of_getElem? hgs)
    have : g' = g := by
      rcases gs with _ | ⟨a, _ | ⟨b, l⟩⟩ <;> simp at this hg' hg2
      rw [hg', hg2]
    rw [e2, this])
  simp only [createSubgroups, key]
  refine ⟨trivial, trivial, ?_⟩
  have hm : r ∈ holders 0 T g := (hmem r).2 hr
  rw [List.getElem?_eq_some_iff]
  exact ⟨List.idxOf_lt_length_of_mem hm, List.getElem_idxOf _⟩

example : (∀ gs ∈ [[0], [1], [0]], gs.length ≤ 1) ∧
    (createSubgroups 2 [[0], [1], [0]]).1 = ⟨1, 2, some [0, 2]⟩ := by decide

/-- C02, different ranks of one group get different numbers below the common group world size. -/
theorem C02_group_ranks_bijective (T : List (List Nat)) (h1 : ∀ gs ∈ T, gs.length ≤ 1) (g r r' : Nat)
    (hr : WorksOn T r g) (hr' : WorksOn T r' g) :
    let i := (createSubgroups r T).1
    let i' := (createSubgroups r' T).1
    i.groupRank < i.groupWorldSize ∧ i.groupWorldSize = i'.groupWorldSize ∧
    i.groupWorldSize = ranksPerGroup T g ∧
    (i.groupRank = i'.groupRank → r = r') := by
  obtain ⟨m, hnd, hm, hk⟩ := C02_group_ranks T h1 g ⟨r, hr⟩
  obtain ⟨a1, a2, a3⟩ := hk r hr
  obtain ⟨b1, b2, b3⟩ := hk r' hr'
  refine ⟨?_, ?_, ?_, ?_⟩
  · rw [a2]; exact (List.getElem?_eq_some_iff.1 a3).1
  · rw [a2, b2]
  · rw [a2]
    have hc : ∀ (T : List (List Nat)) r0, (holders r0 T g).length = ranksPerGroup T g := by
      intro T
      induction T with
      | nil => intro r0; rfl
      | cons gs rest ih =>
        intro r0
        simp only [holders, List.length_append, ih, ranksPerGroup, List.countP_cons]
        split <;> simp_all <;> omega
    rw [← hc T 0]
    apply List.Perm.length_eq
    rw [List.perm_ext_iff_of_nodup hnd ((holders_sorted T g 0).imp (fun h => Nat.ne_of_lt h))]
    intro a; rw [hm, mem_holders]; simp [WorksOn]
  · intro he
    rw [he, b3] at a3
    simpa using a3.symm

/-- C02, a rank without group gets the documented defaults. -/
theorem C02_default (T : List (List Nat)) (hn : ∀ gs ∈ T, gs.Nodup) (r : Nat)
    (h : ∀ g, ¬ WorksOn T r g) : (createSubgroups r T).1 = ⟨0, 1, none⟩ := by
  apply findSubgroup_none
  rintro ⟨g, rs⟩ he hr
  obtain ⟨_, h2⟩ := (mem_invert T hn g rs).1 he
  simp only at hr
  rw [h2, mem_holders] at hr
  apply h g
  simpa [WorksOn] using hr

example : (createSubgroups 1 [[0], []]).1 = ⟨0, 1, none⟩ := by decide

/-- C01 and C02 together: in nested mode the numbers every process derives for itself are consistent
across all processes; in flat mode every process is alone in its groups. -/
theorem C02_setup_consistent (W G r r' : Nat) (hG : 0 < G) (hr : r < W) (_hr' : r' < W) :
    ∃ T n i i' inv, setupInfo r W G = .ok (T, n, i, inv) ∧ setupInfo r' W G = .ok (T, n, i', inv) ∧
      i.groupRank < i.groupWorldSize ∧
      (n = false → i.groupWorldSize = 1) ∧
      (n = true → ∀ g, WorksOn T r g → i.groupWorldSize = ranksPerGroup T g) ∧
      (∀ g, WorksOn T r g → WorksOn T r' g → i.groupRank = i'.groupRank → r = r') := by
  rcases Nat.lt_or_ge G W with h | h
  · obtain ⟨T, hT, hl, hrow⟩ := distribute_nested W G hG h
    have h1 : ∀ gs ∈ T, gs.length ≤ 1 := by
      intro gs hgs
      obtain ⟨k, hk, rfl⟩ := List.getElem_of_mem hgs
      have := hrow k (by omega)
      rw [List.getElem?_eq_getElem hk] at this
      simp at this; simp [this]
    refine ⟨T, true, (createSubgroups r T).1, (createSubgroups r' T).1, invert T, ?_, ?_, ?_, by simp, ?_, ?_⟩
    · simp [setupInfo, hT, createSubgroups]
    · simp [setupInfo, hT, createSubgroups]
    · have hw : WorksOn T r (r % G) := ⟨_, hrow r hr, by simp⟩
      exact (C02_group_ranks_bijective T h1 _ r r hw hw).1
    · intro _ g hw
      exact (C02_group_ranks_bijective T h1 g r r hw hw).2.2.1
    · intro g hw hw'
      exact (C02_group_ranks_bijective T h1 g r r' hw hw').2.2.2
  · obtain ⟨T, hT, hu, _, _⟩ := C01_flat_balanced W G (by omega) h
    refine ⟨T, false, defaultInfo, defaultInfo, invert T, ?_, ?_, ?_, by simp [defaultInfo], by simp, ?_⟩
    · simp [setupInfo, hT]
    · simp [setupInfo, hT]
    · simp [defaultInfo]
    · intro g hw hw' _
      have hg : g < G := by
        obtain ⟨T', n, hT', _, _, hlt, _⟩ := C01_distribution_complete W G (by omega) hG
        rw [hT] at hT'
        simp at hT'
        obtain ⟨rfl, _⟩ := hT'
        exact (hlt r g hw).2
      exact (hu g hg).unique hw hw'

example : setupInfo 2 3 2 = .ok ([[0], [1], [0]], true, ⟨1, 2, some [0, 2]⟩, [(0, [0, 2]), (1, [1])]) := by
  decide

/-- C03 (the full claim is false, see `C03_leak_counterexample`): once set-up has succeeded, whatever the body
does, a process group that was initialised is torn down (unless destroying it fails itself) and exactly
the body's exception (or none) reaches the caller.  Missing for the full claim: failures between
initialisation and the `try`. -/
theorem C03_cleanup_partial (f : Faults) (isNested isCuda : Bool) (hs : SetupSucceeds f)
    (hd : f.destroy = none) :
    let o := runWith f isNested isCuda
    o.bodyEntered = true ∧ o.stillInitialised = false ∧ o.raised = f.body ∧
    (o.wasInitialised = true ↔ f.initGroup = none) := by
  obtain ⟨h1, h2, h3, h4, h5, h6⟩ := hs
  simp only [runWith, h1, h2]
  cases hi : f.initGroup with
  | some e =>
    have := h5 e hi
    simp [this, afterInit, h3, h4, cleanup]
  | none =>
    cases hq : f.query with
    | some e => have := h6 e hq; simp [this, afterInit, h3, h4, cleanup, hd]
    | none => simp [afterInit, h3, h4, cleanup, hd]

/-- C03: an ordinary error during clean-up never masks the outcome of the body. -/
theorem C03_cleanup_error_swallowed (f : Faults) (isNested isCuda : Bool) (hs : SetupSucceeds f)
    (hd : OrdinaryCleanup f) :
    (runWith f isNested isCuda).raised = f.body := by
  obtain ⟨h1, h2, h3, h4, h5, h6⟩ := hs
  have hcl : ∀ d i, (cleanup f d i f.body).raised = f.body := by
    intro d i
    unfold cleanup
    cases d
    · rfl
    · cases hdd : f.destroy with
      | none => rfl
      | some e => simp [hd e hdd]
  simp only [runWith, h1, h2]
  cases hi : f.initGroup with
  | some e =>
    have := h5 e hi
    simp [this, afterInit, h3, h4, hcl]
  | none =>
    cases hq : f.query with
    | some e => have := h6 e hq; simp [this, afterInit, h3, h4, hcl]
    | none => simp [afterInit, h3, h4, hcl]

/-- C03, exactly when a process group leaks: it was initialised, and either destroying it failed or
set-up raised before the `try` was entered. -/
theorem C03_leak_iff (f : Faults) (isNested isCuda : Bool) :
    (runWith f isNested isCuda).stillInitialised = true ↔
      (runWith f isNested isCuda).wasInitialised = true ∧
      ((runWith f isNested isCuda).bodyEntered = false ∨ f.destroy ≠ none) := by
  rcases f with ⟨a, b, c, d, e, g, h, i⟩
  cases isNested <;> cases isCuda <;> rcases a with _ | a <;> rcases b with _ | ⟨_|_, b⟩ <;> rcases c with _ | ⟨_|_, c⟩ <;>
    rcases d with _ | d <;> rcases e with _ | e <;> rcases g with _ | g <;> rcases i with _ | ⟨_|_, i⟩ <;>
    simp [runWith, afterInit, cleanup]

/-- C03 is false as stated: creating the subgroups fails after the process group was initialised,
the body is never entered and the process group stays initialised. -/
theorem C03_leak_counterexample :
    ∃ (f : Faults) (isNested isCuda : Bool), f.destroy = none ∧
      (runWith f isNested isCuda).wasInitialised = true ∧
      (runWith f isNested isCuda).stillInitialised = true :=
  ⟨{ subgroups := some ⟨true, 1⟩ }, true, false, rfl, by decide, by decide⟩

example : SetupSucceeds { body := some ⟨true, 3⟩ } ∧
    runWith { body := some ⟨true, 3⟩ } true false = ⟨true, false, some ⟨true, 3⟩, true⟩ := by
  refine ⟨⟨rfl, rfl, rfl, rfl, by simp, by simp⟩, by decide⟩

end Artist.Env
