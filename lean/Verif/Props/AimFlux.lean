import Verif.Proofs.AimFlux
import Verif.Props.Flux
/-!
# C68: the aim point optimisation with several processes evaluates the same flux and fractions as one process
(`artist/optim/aim_point_optimizer.py`)
-/
namespace Artist.AimFlux
open Artist Artist.Report Artist.Env

section
variable {S B F : Type} [AddCommMonoid B]

theorem distribute_setup (W G : Nat) (T : List (List Nat)) (n : Bool) (hT : distribute W G = .ok (T, n)) (r : Nat) :
    ∃ info inv, setupInfo r W G = .ok (T, n, info, inv) ∧ (n = false → info = defaultInfo) := by
  unfold setupInfo
  rw [hT]
  cases n
  · exact ⟨_, _, rfl, fun _ => rfl⟩
  · exact ⟨_, _, rfl, fun h => by simp at h⟩

theorem rankFlux_flat (nT index bs : Nat) (hbs : 0 < bs) (hi : index < nT) (sizes : List Nat) (hs : ∀ n ∈ sizes, 0 < n)
    (initial current : Nat → S) (trace : (Nat → S) → Nat → Nat → Nat → B × F) (W : Nat) (T : List (List Nat))
    (hT : distribute W sizes.length = .ok (T, false)) (hlt : ∀ r g, WorksOn T r g → g < sizes.length) (r : Nat) (hr : r < T.length) :
    ∃ v, rankFlux nT index bs sizes initial current trace W r =
        .ok (some ((T.getD r []).map (fun g => ((List.range (sizes.getD g 0)).map
          (fun s => (trace (view T r initial current) 0 g s).1)).sum)).sum, v) ∧
      v.length = sizes.sum ∧
      ∀ g i, g < sizes.length → i < sizes.getD g 0 → v[startIndex sizes g + i]? =
        some (if g ∈ T.getD r [] then some (some (trace (view T r initial current) 0 g i).2) else none) := by
  obtain ⟨info, inv, hsetup, hinfo⟩ := distribute_setup W sizes.length T false hT r
  have hrow : T[r]? = some (T.getD r []) := by simp [List.getD, List.getElem?_eq_getElem hr]
  obtain ⟨v, h1, h2, h3⟩ := overGroups_alone nT index bs hbs hi sizes hs (trace (view T r initial current)) (T.getD r [])
    (fun g hg => hlt r g ⟨_, hrow, hg⟩) 0 (List.replicate sizes.sum none) (by simp)
  rw [zero_add] at h1
  refine ⟨v, ?_, by rw [h2]; simp, fun g i hg hi' => ?_⟩
  · unfold rankFlux
    rw [hsetup]
    simp only [hinfo rfl]
    exact h1
  · rw [h3 g i hg hi']
    split_ifs
    · rfl
    · have hsz : sizes[g]? = some (sizes.getD g 0) := by simp [List.getD, List.getElem?_eq_getElem hg]
      have hb := start_bound _ g _ hsz
      rw [List.getElem?_replicate, if_pos (by omega)]

/-- C68 for at most as many processes as groups: the flux on every process is the sum over all groups and heliostats of the bitmaps, each traced by the
process that works on the group, with the surfaces that this process sees: those of its own groups as they are now, those of other
groups as they were at the start.  The factors of a heliostat are only known to the process that works on its group; on all
others they are zero (`none`).  Missing from the full statement: `C68_stale_blocking`, `C68_nested_raises`. -/
theorem C68_flat_partial (nT index bs : Nat) (hbs : 0 < bs) (hi : index < nT) (sizes : List Nat) (hs : ∀ n ∈ sizes, 0 < n)
    (initial current : Nat → S) (trace : (Nat → S) → Nat → Nat → Nat → B × F) (W : Nat) (hW : 0 < W) (hflat : W ≤ sizes.length)
    (T : List (List Nat)) (hT : distribute W sizes.length = .ok (T, false)) (owner : Nat → Nat)
    (howner : ∀ g, g < sizes.length → WorksOn T (owner g) g) :
    ∃ vs, run nT index bs sizes initial current trace W =
        .ok (some (∑ g ∈ Finset.range sizes.length, ∑ s ∈ Finset.range (sizes.getD g 0),
          (trace (view T (owner g) initial current) 0 g s).1), vs) ∧
      vs.length = W ∧
      ∀ r g i, r < W → g < sizes.length → i < sizes.getD g 0 → ∃ v, vs[r]? = some v ∧ v.length = sizes.sum ∧
        (owner g = r → v[(sizes.take g).sum + i]? = some (some (some (trace (view T r initial current) 0 g i).2))) ∧
        (owner g ≠ r → v[(sizes.take g).sum + i]? = some none) := by
  classical
  obtain ⟨T', hT', hu, -, -⟩ := C01_flat_balanced W sizes.length hW hflat
  obtain ⟨T2, n2, hT2, hl, -, hlt, -⟩ := C01_distribution_complete W sizes.length hW (by omega)
  obtain ⟨T3, hT3, -, hrow⟩ := distribute_flat W sizes.length hW hflat
  rw [hT] at hT' hT2 hT3
  simp only [Except.ok.injEq, Prod.mk.injEq, and_true] at hT' hT2 hT3
  obtain rfl := hT'
  obtain ⟨rfl, rfl⟩ := hT2
  obtain rfl := hT3
  have hrowD : ∀ r, r < W → T.getD r [] = (List.range sizes.length).filter (fun g => g % W == r) := by
    intro r hr
    simp [List.getD, hrow r hr]
  have hown : ∀ g, g < sizes.length → owner g = g % W := by
    intro g hg
    refine (hu g hg).unique (howner g hg) ⟨_, hrow (g % W) (Nat.mod_lt _ hW), ?_⟩
    rw [List.mem_filter]
    exact ⟨List.mem_range.2 hg, by simp⟩
  have hall := fun r hr => rankFlux_flat nT index bs hbs hi sizes hs initial current trace W T hT (fun r g h => (hlt r g h).2) r hr
  obtain ⟨vec, hvec⟩ : ∃ vec : Nat → List (Option (Option F)), ∀ r, r < W →
      rankFlux nT index bs sizes initial current trace W r =
        .ok (some ((T.getD r []).map (fun g => ((List.range (sizes.getD g 0)).map
          (fun s => (trace (view T r initial current) 0 g s).1)).sum)).sum, vec r) ∧
      (vec r).length = sizes.sum ∧
      ∀ g i, g < sizes.length → i < sizes.getD g 0 → (vec r)[startIndex sizes g + i]? =
        some (if g ∈ T.getD r [] then some (some (trace (view T r initial current) 0 g i).2) else none) :=
    ⟨fun r => if h : r < T.length then (hall r h).choose else [], fun r hr => by
      have hr' : r < T.length := by omega
      simpa [hr'] using (hall r hr').choose_spec⟩
  have hcol := collect_ok (rankFlux nT index bs sizes initial current trace W) (fun r => (some ((T.getD r []).map (fun g =>
    ((List.range (sizes.getD g 0)).map (fun s => (trace (view T r initial current) 0 g s).1)).sum)).sum, vec r)) (List.range W)
    (fun r hr => (hvec r (List.mem_range.1 hr)).1)
  refine ⟨(List.range W).map vec, ?_, by simp, ?_⟩
  · unfold run
    rw [hcol]
    simp only [List.map_map, Function.comp_def]
    congr 2
    have h1 : (List.range W).map (fun r => some ((T.getD r []).map (fun g =>
          ((List.range (sizes.getD g 0)).map (fun s => (trace (view T r initial current) 0 g s).1)).sum)).sum) =
        ((List.range W).map (fun r => (((List.range sizes.length).filter (fun g => g % W == r)).map (fun g =>
          ((List.range (sizes.getD g 0)).map (fun s => (trace (view T r initial current) 0 g s).1)).sum)).sum)).map some := by
      rw [List.map_map]
      apply List.map_congr_left
      intro r hr
      simp only [Function.comp_apply]
      rw [hrowD r (List.mem_range.1 hr)]
    rw [h1, foldl_addOption, zero_add, sum_by_owner W sizes.length hW (fun r g =>
      ((List.range (sizes.getD g 0)).map (fun s => (trace (view T r initial current) 0 g s).1)).sum)]
    congr 1
    apply Finset.sum_congr rfl
    intro g hg
    rw [sum_range_list, hown g (Finset.mem_range.1 hg)]
  · intro r g i hr hg hi'
    obtain ⟨-, e2, e3⟩ := hvec r hr
    refine ⟨vec r, by simp [hr], e2, ?_, ?_⟩
    · intro h
      have := e3 g i hg hi'
      rw [if_pos] at this
      · exact this
      · rw [hrowD r hr, List.mem_filter]
        rw [hown g hg] at h
        exact ⟨List.mem_range.2 hg, by simp [h]⟩
    · intro h
      have := e3 g i hg hi'
      rw [if_neg] at this
      · exact this
      · rw [hrowD r hr, List.mem_filter]
        rw [hown g hg] at h
        rintro ⟨-, h'⟩
        exact h (by simpa using h')

/-- C68: a single process sees the present surfaces of all groups and returns the factors of all heliostats. -/
theorem C68_single (nT index bs : Nat) (hbs : 0 < bs) (hi : index < nT) (sizes : List Nat) (hs : ∀ n ∈ sizes, 0 < n) (hne : sizes ≠ [])
    (initial current : Nat → S) (trace : (Nat → S) → Nat → Nat → Nat → B × F)
    (hext : ∀ v v' : Nat → S, (∀ g, g < sizes.length → v g = v' g) → trace v = trace v') :
    ∃ v, run nT index bs sizes initial current trace 1 =
        .ok (some (∑ g ∈ Finset.range sizes.length, ∑ s ∈ Finset.range (sizes.getD g 0), (trace current 0 g s).1), [v]) ∧
      ∀ g i, g < sizes.length → i < sizes.getD g 0 → v[(sizes.take g).sum + i]? = some (some (some (trace current 0 g i).2)) := by
  have hpos : 0 < sizes.length := List.length_pos_of_ne_nil hne
  obtain ⟨T, hT, hl, hrow⟩ := distribute_flat 1 sizes.length (by omega) hpos
  have hrow0 : T[0]? = some (List.range sizes.length) := by
    rw [hrow 0 (by omega)]
    congr 1
    rw [List.filter_eq_self]
    intro g _
    simp [Nat.mod_one]
  have hview : trace (view T 0 initial current) = trace current := by
    apply hext
    intro g hg
    unfold view
    rw [if_pos]
    simp [List.getD, hrow0, hg]
  obtain ⟨vs, h1, h2, h3⟩ := C68_flat_partial nT index bs hbs hi sizes hs initial current trace 1 (by omega) hpos T hT (fun _ => 0)
    (fun g hg => ⟨_, hrow0, List.mem_range.2 hg⟩)
  obtain ⟨v, rfl⟩ := List.length_eq_one_iff.1 h2
  refine ⟨v, ?_, fun g i hg hi' => ?_⟩
  · rw [h1]
    simp only [hview]
  · obtain ⟨v', e1, -, e2, -⟩ := h3 0 g i (by omega) hg hi'
    simp only [List.getElem?_cons_zero, Option.some.injEq] at e1
    subst e1
    rw [e2 rfl, hview]

/-- C68: the flux does not depend on the number of processes (at most as many as groups) in the first epoch, when no heliostat has moved yet, or if
heliostats of different groups do not block each other. -/
theorem C68_same_flux_partial (nT index bs : Nat) (hbs : 0 < bs) (hi : index < nT) (sizes : List Nat) (hs : ∀ n ∈ sizes, 0 < n)
    (initial current : Nat → S) (trace : (Nat → S) → Nat → Nat → Nat → B × F) (W : Nat) (hW : 0 < W) (hflat : W ≤ sizes.length)
    (hext : ∀ v v' : Nat → S, (∀ g, g < sizes.length → v g = v' g) → trace v = trace v')
    (h : (∀ g, g < sizes.length → current g = initial g) ∨
      ∀ (v v' : Nat → S) (g : Nat), v g = v' g → trace v 0 g = trace v' 0 g) :
    ∃ flux vs vs', run nT index bs sizes initial current trace W = .ok (flux, vs) ∧
      run nT index bs sizes initial current trace 1 = .ok (flux, vs') ∧ flux ≠ none := by
  obtain ⟨T, hT, hu, -, -⟩ := C01_flat_balanced W sizes.length hW hflat
  have howner : ∀ g, ∃ r, g < sizes.length → WorksOn T r g := by
    intro g
    by_cases hg : g < sizes.length
    · obtain ⟨r, hr, -⟩ := hu g hg
      exact ⟨r, fun _ => hr⟩
    · exact ⟨0, fun h => absurd h hg⟩
  choose owner howner using howner
  obtain ⟨vs, h1, -⟩ := C68_flat_partial nT index bs hbs hi sizes hs initial current trace W hW hflat T hT owner howner
  obtain ⟨v, h2, -⟩ := C68_single nT index bs hbs hi sizes hs (by rintro rfl; simp at hflat; omega) initial current trace hext
  refine ⟨_, vs, [v], h1, ?_, by simp⟩
  rw [h2]
  congr 3
  apply Finset.sum_congr rfl
  intro g hg
  rw [Finset.mem_range] at hg
  have : trace (view T (owner g) initial current) 0 g = trace current 0 g := by
    rcases h with h | h
    · rw [hext (view T (owner g) initial current) current]
      intro g' hg'
      unfold view
      split_ifs
      · rfl
      · exact (h g' hg').symm
    · apply h
      unfold view
      obtain ⟨gs, e1, e2⟩ := howner g hg
      rw [if_pos (by simpa [List.getD, e1] using e2)]
  rw [this]

/-- On a process that shares a group, either the whole group is its share and the others have none, or it raises `IndexError`. -/
theorem groupStep_shared (nT index bs n offset : Nat) (hn : 0 < n) (hbs : 0 < bs) (hi : index < nT) (info : SubgroupInfo)
    (hw : 2 ≤ info.groupWorldSize) (h : 2 ≤ n ∨ 1 ≤ info.groupRank) (trace : Nat → Nat → B × F)
    (state : Option B × List (Option (Option F))) : groupStep nT index bs n offset info trace state = .error .indexError := by
  obtain ⟨rows, h1, h2, -⟩ := Trace.C06_rows_partial (fun (_ : Nat) s => trace info.groupRank s) id (List.range n) n info.groupWorldSize
    info.groupRank bs hbs
  unfold groupStep
  rw [List.length_range] at h1 h2
  simp only [indices_eq, Nat.mul_one, h1]
  unfold gatherOwn
  by_cases hidle : Sampler.rankIndices n n info.groupWorldSize info.groupRank = []
  · rw [if_pos hidle]
  · rw [if_neg hidle, gather_const n _ _ (fun i hi => ((Sampler.C04_disjoint n n _).1 _).2 i hi)]
    simp only
    have h2n : 2 ≤ n := by
      rcases h with h | h
      · exact h
      · by_contra hlt
        apply hidle
        have := rankIndices_idle n 1 info.groupWorldSize info.groupRank (by omega) (by omega)
        rw [Nat.mul_one] at this
        exact this
    have hlen := rankIndices_not_all n 1 info.groupWorldSize info.groupRank h2n hw (by omega)
    rw [Nat.mul_one] at hlen
    unfold bitmapOfTarget
    rw [if_pos ?_]
    refine ⟨?_, ?_⟩
    · rw [List.length_map, h2, List.length_replicate]
      exact fun h => hlen h.symm
    · rw [List.any_eq_true]
      refine ⟨index, List.mem_range.2 hi, ?_⟩
      rw [List.any_eq_true]
      refine ⟨index, List.mem_replicate.2 ⟨?_, rfl⟩, by simp⟩
      exact fun h => hidle (List.length_eq_zero_iff.1 h)

/-- C68 is false with more processes than groups: the first epoch raises `IndexError`. -/
theorem C68_nested_raises (nT index bs : Nat) (hbs : 0 < bs) (hi : index < nT) (sizes : List Nat) (hs : ∀ n ∈ sizes, 0 < n)
    (hne : sizes ≠ []) (initial current : Nat → S) (trace : (Nat → S) → Nat → Nat → Nat → B × F) (W : Nat) (hW : sizes.length < W) :
    run nT index bs sizes initial current trace W = .error .indexError := by
  have hG : 0 < sizes.length := List.length_pos_of_ne_nil hne
  obtain ⟨T, hT, hl, hrow⟩ := distribute_nested W sizes.length hG hW
  have hone : ∀ gs ∈ T, gs.length ≤ 1 := by
    intro gs hgs
    obtain ⟨k, hk, rfl⟩ := List.getElem_of_mem hgs
    have := hrow k (by omega)
    rw [List.getElem?_eq_getElem hk] at this
    simp at this; simp [this]
  have hsetup : ∀ r, setupInfo r W sizes.length = .ok (T, true, (createSubgroups r T).1, invert T) := by
    intro r; simp [setupInfo, hT, createSubgroups]
  have hsz : ∀ g, g < sizes.length → 0 < sizes.getD g 0 := by
    intro g hg
    apply hs
    simp [List.getD, List.getElem?_eq_getElem hg]
  have hworks : ∀ r, r < W → WorksOn T r (r % sizes.length) := fun r hr => ⟨_, hrow r hr, by simp⟩
  have heval : ∀ r, r < W → rankFlux nT index bs sizes initial current trace W r =
      groupStep nT index bs (sizes.getD (r % sizes.length) 0) (startIndex sizes (r % sizes.length)) (createSubgroups r T).1
        (fun seed s => trace (view T r initial current) seed (r % sizes.length) s) (some 0, List.replicate sizes.sum none) := by
    intro r hr
    unfold rankFlux
    rw [hsetup r]
    have : T.getD r [] = [r % sizes.length] := by simp [List.getD, hrow r hr]
    simp only [this, overGroups]
    split <;> (rename_i h; exact h.symm)
  -- every process succeeds or raises `IndexError`
  have hcases : ∀ r, r < W → (∃ v, rankFlux nT index bs sizes initial current trace W r = .ok v) ∨
      rankFlux nT index bs sizes initial current trace W r = .error .indexError := by
    intro r hr
    have hg : r % sizes.length < sizes.length := Nat.mod_lt _ hG
    obtain ⟨members, hnd, hmem, hallm⟩ := C02_group_ranks T hone (r % sizes.length) ⟨r, hworks r hr⟩
    obtain ⟨-, e2, e3⟩ := hallm r (hworks r hr)
    have hml : 0 < members.length := List.length_pos_of_mem ((hmem r).2 (hworks r hr))
    rw [heval r hr]
    by_cases hbad : 2 ≤ (createSubgroups r T).1.groupWorldSize ∧ (2 ≤ sizes.getD (r % sizes.length) 0 ∨ 1 ≤ (createSubgroups r T).1.groupRank)
    · right
      rw [groupStep_shared nT index bs _ _ (hsz _ hg) hbs hi _ hbad.1 hbad.2]
    · left
      -- the share is the whole group
      have hrank : (createSubgroups r T).1.groupRank < members.length := (List.getElem?_eq_some_iff.1 e3).1
      have hrank0 : (createSubgroups r T).1.groupRank = 0 := by
        by_contra h0
        apply hbad
        exact ⟨by omega, Or.inr (by omega)⟩
      have hidx : Sampler.tracerRankIndices (List.replicate (sizes.getD (r % sizes.length) 0) 1) (createSubgroups r T).1.groupWorldSize 0 =
          Sampler.tracerRankIndices (List.replicate (sizes.getD (r % sizes.length) 0) 1) 1 0 := by
        rw [indices_eq, indices_eq]
        have hmin : min (sizes.getD (r % sizes.length) 0) (createSubgroups r T).1.groupWorldSize = min (sizes.getD (r % sizes.length) 0) 1 := by
          have := hsz _ hg
          omega
        unfold Sampler.rankIndices
        simp only [hmin]
      have hb := start_bound _ (r % sizes.length) (sizes.getD (r % sizes.length) 0)
        (by simp [List.getD, List.getElem?_eq_getElem hg] : sizes[r % sizes.length]? = _)
      obtain ⟨v', k1, -⟩ := groupStep_alone nT index bs (sizes.getD (r % sizes.length) 0) (startIndex sizes (r % sizes.length)) (hsz _ hg) hbs hi
        (fun seed s => trace (view T r initial current) seed (r % sizes.length) s) 0 (List.replicate sizes.sum none) (by
          rw [List.length_replicate]; exact hb)
      have heq : groupStep nT index bs (sizes.getD (r % sizes.length) 0) (startIndex sizes (r % sizes.length)) (createSubgroups r T).1
          (fun seed s => trace (view T r initial current) seed (r % sizes.length) s) (some 0, List.replicate sizes.sum none) =
          groupStep nT index bs (sizes.getD (r % sizes.length) 0) (startIndex sizes (r % sizes.length)) defaultInfo
          (fun seed s => trace (view T r initial current) seed (r % sizes.length) s) (some 0, List.replicate sizes.sum none) := by
        unfold groupStep
        simp only [hrank0, hidx, defaultInfo]
      rw [heq, k1]
      exact ⟨_, rfl⟩
  -- some process raises
  have hsome : ∃ r, r < W ∧ rankFlux nT index bs sizes initial current trace W r = .error .indexError := by
    have hw0 : WorksOn T 0 0 := by have := hworks 0 (by omega); rwa [Nat.zero_mod] at this
    have hw1 : WorksOn T sizes.length 0 := by have := hworks sizes.length hW; rwa [Nat.mod_self] at this
    obtain ⟨members, hnd, hmem, hallm⟩ := C02_group_ranks T hone 0 ⟨0, hw0⟩
    have hml : 2 ≤ members.length := by
      have hsub : [0, sizes.length] ⊆ members := by
        intro x hx
        rcases List.mem_cons.1 hx with rfl | hx
        · exact (hmem _).2 hw0
        · rcases List.mem_cons.1 hx with rfl | hx
          · exact (hmem _).2 hw1
          · simp at hx
      have := (List.subperm_of_subset (l₁ := [0, sizes.length]) (by
        have : 0 ≠ sizes.length := by omega
        simpa using this) hsub).length_le
      simpa using this
    obtain ⟨r, hr⟩ : ∃ r, members[1]? = some r := ⟨_, List.getElem?_eq_getElem (by omega)⟩
    have hwr : WorksOn T r 0 := (hmem r).1 (List.mem_of_getElem? hr)
    obtain ⟨-, e2, e3⟩ := hallm r hwr
    have hrank1 : (createSubgroups r T).1.groupRank = 1 := by
      obtain ⟨l1, f1⟩ := List.getElem?_eq_some_iff.1 e3
      obtain ⟨l2, f2⟩ := List.getElem?_eq_some_iff.1 hr
      exact (List.Nodup.getElem_inj_iff hnd).1 (f1.trans f2.symm)
    obtain ⟨gs, hgs, hgm⟩ := hwr
    have hrW : r < W := by rw [← hl]; exact (List.getElem?_eq_some_iff.1 hgs).1
    have hmod : r % sizes.length = 0 := by
      rw [hrow r hrW] at hgs
      simp only [Option.some.injEq] at hgs
      subst hgs
      exact (List.mem_singleton.1 hgm).symm
    refine ⟨r, hrW, ?_⟩
    rw [heval r hrW, groupStep_shared nT index bs _ _ (hsz _ (by rw [hmod]; exact hG)) hbs hi _ (by omega)
      (Or.inr (by omega))]
  have hcollect : ∀ rs : List Nat, (∀ r ∈ rs, r < W) → (∃ r ∈ rs, rankFlux nT index bs sizes initial current trace W r = .error .indexError) →
      collect (rankFlux nT index bs sizes initial current trace W) rs = .error .indexError := by
    intro rs
    induction rs with
    | nil => rintro - ⟨r, hr, -⟩; simp at hr
    | cons x rs ih =>
      rintro hlt ⟨r, hr, he⟩
      unfold collect
      rcases hcases x (hlt x (by simp)) with ⟨v, hv⟩ | hv
      · rw [hv]
        simp only
        rcases List.mem_cons.1 hr with rfl | hr
        · rw [hv] at he; simp at he
        · rw [ih (fun r hr => hlt r (by simp [hr])) ⟨r, hr, he⟩]
      · rw [hv]
  obtain ⟨r, hr, he⟩ := hsome
  unfold run
  rw [hcollect (List.range W) (fun r hr => List.mem_range.1 hr) ⟨r, List.mem_range.2 hr, he⟩]

end

/-! ## Moved heliostats of other groups -/

section
open Flux SoftMask Splat
noncomputable section

/-- Two groups with one heliostat each.  The heliostat of group 0 sends one ray into the middle of the target and may be blocked by those rectangles of
group 1 that the filter keeps; the heliostat of group 1 sends its light elsewhere. -/
def twoGroups (surfaces : Nat → List Rect) (_seed group _heliostat : Nat) : (Nat → Nat → ℝ) × Unit :=
  if group = 0 then
    let blocked := fun ray : V3 ℝ × V3 ℝ => (softMask (1 / 10 ^ 12) 1000 100 (5 / 100) ray.1 ray.2 (surfaces 1)).getD 0
    match traceSample 2 2 1 0 1 (.planar southTarget) blocked [towardsTarget] with
    | .ok (bitmap, _) => (pixel bitmap, ())
    | .error _ => (0, ())
  else (0, ())

/-- A rectangle between the first heliostat and the target. -/
def obstacle : Rect := ⟨⟨-1, -20, 9⟩, ⟨2, 0, 0⟩, ⟨0, 0, 2⟩, ⟨0, -1, 0⟩⟩

theorem twoGroups_power (surfaces : Nat → List Rect) (m : ℝ)
    (h : softMask (1 / 10 ^ 12) 1000 100 (5 / 100) towardsTarget.1 towardsTarget.2 (surfaces 1) = some m) :
    ∑ r ∈ Finset.range 2, ∑ c ∈ Finset.range 2, (twoGroups surfaces 0 0 0).1 r c = 1 - m := by
  classical
  obtain ⟨bitmap, factors, h1, h2⟩ := C65_planar_total 2 2 (by omega) (by omega) 1 0 1 southTarget (by norm_num [southTarget])
    (by norm_num [southTarget]) (fun ray : V3 ℝ × V3 ℝ => (softMask (1 / 10 ^ 12) 1000 100 (5 / 100) ray.1 ray.2 (surfaces 1)).getD 0)
    [towardsTarget]
  unfold twoGroups
  rw [if_pos rfl]
  simp only [h1]
  unfold power at h2
  rw [h2]
  simp only [List.map_cons, List.map_nil, List.sum_cons, List.sum_nil, h, Option.getD_some]
  rw [if_pos towards_hits.2]
  have : V3.dot towardsTarget.2 southTarget.normal = -1 := by unfold V3.dot towardsTarget southTarget; norm_num
  rw [this]
  ring

theorem obstacle_blocks : ∃ m, 0 < m ∧ softMask (1 / 10 ^ 12) 1000 100 (5 / 100) towardsTarget.1 towardsTarget.2 [obstacle] = some m := by
  cases h : softMask (1 / 10 ^ 12) 1000 100 (5 / 100) towardsTarget.1 towardsTarget.2 [obstacle] with
  | none =>
    rw [C15_nan_iff _ _ _ _ (by positivity)] at h
    obtain ⟨r, hr, h0⟩ := h
    rw [List.mem_singleton] at hr
    subst hr
    have := congrArg V3.n h0
    unfold V3.cross obstacle at this
    norm_num at this
  | some m => exact ⟨m, C15_more_blockers _ _ _ _ (by norm_num) _ _ [] obstacle 0 m (C15_no_blockers _ _ _ _ _ _) h, rfl⟩

/-- C68 is false as soon as heliostats have moved: a process sees the heliostats of other groups where they were at the start.  Here the heliostat of group 1
has moved into the way; one process computes a darker flux than two processes. -/
theorem C68_stale_blocking : ∃ (initial current : Nat → List Rect) (one two : Nat → Nat → ℝ) (vs vs' : List (List (Option (Option Unit)))),
    run 1 0 1 [1, 1] initial current twoGroups 1 = .ok (some one, vs) ∧
    run 1 0 1 [1, 1] initial current twoGroups 2 = .ok (some two, vs') ∧
    ∑ r ∈ Finset.range 2, ∑ c ∈ Finset.range 2, one r c < ∑ r ∈ Finset.range 2, ∑ c ∈ Finset.range 2, two r c := by
  obtain ⟨m, hm, hmask⟩ := obstacle_blocks
  have hs : ∀ n ∈ [1, 1], 0 < n := by decide
  have hext : ∀ v v' : Nat → List Rect, (∀ g, g < [1, 1].length → v g = v' g) → twoGroups v = twoGroups v' := by
    intro v v' h
    unfold twoGroups
    rw [h 1 (by decide)]
  obtain ⟨v, h1, -⟩ := C68_single 1 0 1 (by omega) (by omega) [1, 1] hs (by simp) (fun _ => []) (fun _ => [obstacle]) twoGroups hext
  have hT : distribute 2 2 = .ok ([[0], [1]], false) := by decide
  obtain ⟨vs, h2, -⟩ := C68_flat_partial 1 0 1 (by omega) (by omega) [1, 1] hs (fun _ => []) (fun _ => [obstacle]) twoGroups 2 (by omega)
    (by simp) [[0], [1]] hT (fun g => g) (by
      intro g hg
      simp only [List.length_cons, List.length_nil] at hg
      obtain rfl | rfl : g = 0 ∨ g = 1 := by omega
      · exact ⟨[0], rfl, by simp⟩
      · exact ⟨[1], rfl, by simp⟩)
  refine ⟨_, _, _, _, _, _, h1, h2, ?_⟩
  have hzero : ∀ (w : Nat → List Rect), (twoGroups w 0 1 0).1 = 0 := by
    intro w; unfold twoGroups; rw [if_neg (by omega)]
  have e1 := twoGroups_power (fun _ => [obstacle]) m hmask
  have e2 := twoGroups_power (view [[0], [1]] 0 (fun _ => []) (fun _ => [obstacle])) 0 (by
    have : view [[0], [1]] 0 (fun _ => ([] : List Rect)) (fun _ => [obstacle]) 1 = [] := by simp [view]
    rw [this]
    exact C15_no_blockers _ _ _ _ _ _)
  simp only [List.length_cons, List.length_nil, Finset.sum_range_succ, Finset.sum_range_zero, zero_add, List.getD_cons_zero, List.getD_cons_succ,
    hzero, add_zero] at e1 e2 ⊢
  rw [e1, e2]
  linarith

end
end

/-- Two groups with two and one heliostats: what one process, two processes and three processes return; bitmaps and factors are numbers. -/
example : run 3 1 2 [2, 1] (fun g => g) (fun g => g + 5) (fun v seed g s => (v g + 10 * g + 100 * s + 1000 * seed, v g)) 1 =
      .ok (some 126, [[some (some 5), some (some 5), some (some 6)]]) ∧
    run 3 1 2 [2, 1] (fun g => g) (fun g => g + 5) (fun v seed g s => (v g + 10 * g + 100 * s + 1000 * seed, v g)) 2 =
      .ok (some 126, [[some (some 5), some (some 5), none], [none, none, some (some 6)]]) ∧
    run 3 1 2 [2, 1] (fun g => g) (fun g => g + 5) (fun v seed g s => (v g + 10 * g + 100 * s + 1000 * seed, v g)) 3 =
      .error .indexError := by
  refine ⟨by decide +kernel, by decide +kernel, by decide +kernel⟩
/-- the hypothesis of `C68_same_flux_partial` for this function -/
example : ∀ (v v' : Nat → Nat) (g : Nat), v g = v' g →
    (fun (v : Nat → Nat) seed g s => (v g + 10 * g + 100 * s + 1000 * seed, v g)) v 0 g =
      (fun (v : Nat → Nat) seed g s => (v g + 10 * g + 100 * s + 1000 * seed, v g)) v' 0 g := by
  intro v v' g h
  simp only [h]

end Artist.AimFlux
