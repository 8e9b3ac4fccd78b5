import Verif.Proofs.Requests
/-!
# C101: every request of the user contributes its own image to its own target area
-/
namespace Artist.Requests
open Artist Mapping

variable {N X A D B : Type} [DecidableEq N]

/-- Names in the group that occur in the requests. -/
def requested (names : List N) (mapping : List (Entry N D)) : List N := names.filter fun n => mapping.any fun e => decide (e.heliostat = n)

/-- Requests for heliostats of the group. -/
def ofGroup (names : List N) (mapping : List (Entry N D)) : List (Entry N D) := mapping.filter fun e => decide (e.heliostat ∈ names)

theorem requested_length (names : List N) (mapping : List (Entry N D)) :
    (requested names mapping).length = (counts names mapping).countP (fun c => decide (c > 0)) := by
  rw [countP_counts, requested, List.countP_eq_length_filter]

theorem order_length (names : List N) (hn : names.Nodup) (mapping : List (Entry N D)) :
    (order names mapping).length = (ofGroup names mapping).length := (order_perm names hn mapping).length_eq

theorem requested_pos (names : List N) (mapping : List (Entry N D)) (h : 0 < (order names mapping).length) :
    0 < (requested names mapping).length := by
  obtain ⟨e, he⟩ := List.length_pos_iff_exists_mem.1 h
  rw [mem_order] at he
  rw [List.length_pos_iff_exists_mem]
  exact ⟨e.heliostat, List.mem_filter.2 ⟨he.2, List.any_eq_true.2 ⟨e, he.1, by simp⟩⟩⟩

/-- What the sequence computes, whether all samples are traced or not. -/
theorem run_spec [AddCommMonoid B] (image : X → A → D → Int → B) (dist : Nat → X) (lightOk : D → Bool)
    (names : List N) (hn : names.Nodup) (data : N → A) (targetIndex : List (N × Nat)) (numberOfTargets : Nat) (mapping : List (Entry N D))
    (hv : ∀ e ∈ mapping, e.heliostat ∈ names → (∃ t, dictGet targetIndex e.target = some t) ∧ lightOk e.light = true)
    (bs : Nat) (hbs : 0 < bs) :
    run image dist lightOk names (names.map data) targetIndex numberOfTargets mapping bs =
      .ok (Trace.bitmapsPerTarget (some 0) AimFlux.addOption numberOfTargets
        ((order names mapping).mapIdx fun i e =>
          if i ∈ Sampler.rankIndices (order names mapping).length (requested names mapping).length 1 0 then
            some (image (dist i) (data e.heliostat) e.light (value targetIndex e).1) else none)
        ((order names mapping).map fun e => ((value targetIndex e).1 : Int))) := by
  have hsamples : (repeatInterleave (names.map data) (counts names mapping)).zip
      (((order names mapping).map fun e => some e.light).zip ((order names mapping).map fun e => some ((value targetIndex e).1 : Int))) =
      (order names mapping).map fun e => (data e.heliostat, some e.light, some ((value targetIndex e).1 : Int)) := by
    rw [repeat_counts]
    generalize order names mapping = l
    induction l with
    | nil => rfl
    | cons e l ih => simp only [List.map_cons, List.zip_cons_cons, ih]
  obtain ⟨rows, h1, h2, h3⟩ := Trace.C06_rows_partial (sample image) dist
    ((order names mapping).map fun e => (data e.heliostat, some e.light, some ((value targetIndex e).1 : Int)))
    (requested names mapping).length 1 0 bs hbs
  rw [List.length_map] at h1 h2 h3
  have hrows : rows.map Option.join = (order names mapping).mapIdx fun i e =>
      if i ∈ Sampler.rankIndices (order names mapping).length (requested names mapping).length 1 0 then
        some (image (dist i) (data e.heliostat) e.light (value targetIndex e).1) else none := by
    apply List.ext_getElem?
    intro i
    rw [List.getElem?_map, List.getElem?_mapIdx]
    by_cases hi : i < (order names mapping).length
    · have he := List.getElem?_eq_getElem hi
      rw [h3 i _ (by rw [List.getElem?_map, he]; rfl), he]
      simp only [Option.map_some, Option.some.injEq]
      split_ifs <;> rfl
    · rw [List.getElem?_eq_none (by omega), List.getElem?_eq_none (by omega)]; rfl
  unfold run
  rw [indexMapping_explicit lightOk names hn targetIndex mapping hv]
  simp only
  rw [hsamples, Sampler.tracerRankIndices, sum_counts, ← requested_length, h1]
  simp only
  rw [hrows, List.map_map]
  rfl

/-- C101: one process traces a group for a list of requests (heliostat, target area, light direction).  If the number of requested
heliostats divides the number of requests (for instance if every heliostat is requested equally often), then there is an order of the
requests for this group, position `i` with the distortions of sample `i`, such that every target area receives exactly the images of the requests
that name it: each computed for the requested heliostat under the requested light.  (Without the condition the claim is false: `C101_complete_iff`.) -/
theorem C101_requests_partial [AddCommMonoid B] (image : X → A → D → Int → B) (dist : Nat → X) (lightOk : D → Bool)
    (names : List N) (hn : names.Nodup) (data : N → A) (targetIndex : List (N × Nat)) (numberOfTargets : Nat) (mapping : List (Entry N D))
    (hv : ∀ e ∈ mapping, e.heliostat ∈ names → (∃ t, dictGet targetIndex e.target = some t) ∧ lightOk e.light = true)
    (hd : (requested names mapping).length ∣ (ofGroup names mapping).length) (bs : Nat) (hbs : 0 < bs) :
    ∃ (rows : List (Entry N D)) (bitmaps : List B), rows.Perm (ofGroup names mapping) ∧
      run image dist lightOk names (names.map data) targetIndex numberOfTargets mapping bs = .ok (bitmaps.map some) ∧
      bitmaps.length = numberOfTargets ∧
      ∀ t, t < numberOfTargets → bitmaps[t]? = some ((rows.zipIdx.filter fun p => decide (dictGet targetIndex p.1.target = some t)).map
        fun p => image (dist p.2) (data p.1.heliostat) p.1.light t).sum := by
  set l : List B := (order names mapping).mapIdx fun i e => image (dist i) (data e.heliostat) e.light (value targetIndex e).1 with hl
  have hall : ((order names mapping).mapIdx fun i e =>
      if i ∈ Sampler.rankIndices (order names mapping).length (requested names mapping).length 1 0 then
        some (image (dist i) (data e.heliostat) e.light (value targetIndex e).1) else none) = l.map some := by
    rw [hl]
    apply List.ext_getElem?
    intro i
    rw [List.getElem?_map, List.getElem?_mapIdx, List.getElem?_mapIdx]
    by_cases hi : i < (order names mapping).length
    · obtain ⟨r, ⟨hr, hr'⟩, -⟩ := Sampler.C04_exactly_once_partial (order names mapping).length (requested names mapping).length 1
        (requested_pos names mapping (by omega)) Nat.one_pos (by rw [order_length names hn]; exact hd) i hi
      have : r = 0 := by omega
      subst this
      rw [List.getElem?_eq_getElem hi]
      simp only [Option.map_some, if_pos hr']
    · rw [List.getElem?_eq_none (by omega)]; rfl
  have hspec := run_spec image dist lightOk names hn data targetIndex numberOfTargets mapping hv bs hbs
  rw [hall, AimFlux.bitmapsPerTarget_some] at hspec
  have hpt := Trace.C07_per_target numberOfTargets l ((order names mapping).map fun e => ((value targetIndex e).1 : Int))
  refine ⟨order names mapping, _, order_perm names hn mapping, hspec, hpt.1, ?_⟩
  intro t ht
  rw [hpt.2 t ht]
  congr 2
  have hz : l.zip ((order names mapping).map fun e => ((value targetIndex e).1 : Int)) =
      (order names mapping).zipIdx.map fun p =>
        (image (dist p.2) (data p.1.heliostat) p.1.light (value targetIndex p.1).1, ((value targetIndex p.1).1 : Int)) := by
    rw [hl, List.mapIdx_eq_zipIdx_map]
    apply List.ext_getElem?
    intro i
    simp only [List.getElem?_zip_eq_some, List.getElem?_map, List.getElem?_zipIdx, List.zip, List.getElem?_zipWith]
    cases (order names mapping)[i]? <;> simp
  rw [hz, List.filter_map, List.map_map]
  have hmem : ∀ p ∈ (order names mapping).zipIdx, p.1 ∈ order names mapping := by
    intro p hp
    have := List.mem_zipIdx' hp
    rw [this.2]; exact List.getElem_mem _
  have hval : ∀ p ∈ (order names mapping).zipIdx, dictGet targetIndex p.1.target = some (value targetIndex p.1).1 := by
    intro p hp
    have := (mem_order names mapping p.1).1 (hmem p hp)
    obtain ⟨⟨t, ht⟩, -⟩ := hv p.1 this.1 this.2
    unfold value
    rw [ht]; rfl
  have hfil : (order names mapping).zipIdx.filter ((fun p : B × Int => decide (p.2 = (t : Int))) ∘ fun p : Entry N D × Nat =>
        (image (dist p.2) (data p.1.heliostat) p.1.light (value targetIndex p.1).1, ((value targetIndex p.1).1 : Int))) =
      (order names mapping).zipIdx.filter fun p => decide (dictGet targetIndex p.1.target = some t) := by
    apply List.filter_congr
    intro p hp
    rw [hval p hp]
    simp only [Function.comp_apply, Nat.cast_inj, Option.some.injEq]
  rw [hfil]
  apply List.map_congr_left
  intro p hp
  have h1 := (List.mem_filter.1 hp)
  have h2 := of_decide_eq_true h1.2
  rw [hval p h1.1, Option.some.injEq] at h2
  simp only [Function.comp_apply, h2]

/-- C101, when the distortions do not matter (for instance without sun shape): every target area receives the sum of the images of the requests that
name it. -/
theorem C101_sum_partial [AddCommMonoid B] (image : A → D → Int → B) (dist : Nat → X) (lightOk : D → Bool)
    (names : List N) (hn : names.Nodup) (data : N → A) (targetIndex : List (N × Nat)) (numberOfTargets : Nat) (mapping : List (Entry N D))
    (hv : ∀ e ∈ mapping, e.heliostat ∈ names → (∃ t, dictGet targetIndex e.target = some t) ∧ lightOk e.light = true)
    (hd : (requested names mapping).length ∣ (ofGroup names mapping).length) (bs : Nat) (hbs : 0 < bs) :
    run (fun _ => image) dist lightOk names (names.map data) targetIndex numberOfTargets mapping bs =
      .ok ((List.range numberOfTargets).map fun t => some ((mapping.filter fun e => decide (e.heliostat ∈ names ∧ dictGet targetIndex e.target = some t)).map
        fun e => image (data e.heliostat) e.light t).sum) := by
  obtain ⟨rows, bitmaps, hp, hr, hlen, hb⟩ := C101_requests_partial (fun _ : X => image) dist lightOk names hn data targetIndex numberOfTargets mapping hv hd bs hbs
  rw [hr]
  congr 1
  apply List.ext_getElem?
  intro t
  rw [List.getElem?_map, List.getElem?_map]
  by_cases ht : t < numberOfTargets
  · rw [hb t ht, List.getElem?_range ht]
    simp only [Option.map_some, Option.some.injEq]
    have h1 : (rows.zipIdx.filter fun p => decide (dictGet targetIndex p.1.target = some t)).map
        (fun p => image (data p.1.heliostat) p.1.light t) =
        (rows.filter fun e => decide (dictGet targetIndex e.target = some t)).map fun e => image (data e.heliostat) e.light t := by
      conv_rhs => rw [← List.zipIdx_map_fst 0 rows, List.filter_map, List.map_map]
      rfl
    rw [h1]
    have h2 := ((hp.filter fun e => decide (dictGet targetIndex e.target = some t)).map fun e => image (data e.heliostat) e.light t).sum_eq
    rw [h2, ofGroup, List.filter_filter]
    congr 2
    apply List.filter_congr
    intro e _
    simp only [Bool.decide_and, Bool.and_comm]
  · rw [List.getElem?_eq_none (by omega), List.getElem?_eq_none (by simpa using ht)]; rfl

/-- C101, order: neither the order of the requests, nor that of the heliostats in the scenario, nor the size of the batches changes what the target areas receive. -/
theorem C101_order_partial [AddCommMonoid B] (image : A → D → Int → B) (dist : Nat → X) (lightOk : D → Bool)
    (names names' : List N) (hn : names.Nodup) (hnames : names.Perm names') (data : N → A) (targetIndex : List (N × Nat)) (numberOfTargets : Nat)
    (mapping mapping' : List (Entry N D)) (hmapping : mapping.Perm mapping')
    (hv : ∀ e ∈ mapping, e.heliostat ∈ names → (∃ t, dictGet targetIndex e.target = some t) ∧ lightOk e.light = true)
    (hd : (requested names mapping).length ∣ (ofGroup names mapping).length) (bs bs' : Nat) (hbs : 0 < bs) (hbs' : 0 < bs') :
    run (fun _ => image) dist lightOk names (names.map data) targetIndex numberOfTargets mapping bs =
      run (fun _ => image) dist lightOk names' (names'.map data) targetIndex numberOfTargets mapping' bs' := by
  have hm : ∀ n, n ∈ names' ↔ n ∈ names := fun n => hnames.mem_iff.symm
  have hreq : (requested names' mapping').length = (requested names mapping).length := by
    have e : ∀ n, (mapping'.any fun e => decide (e.heliostat = n)) = mapping.any fun e => decide (e.heliostat = n) := fun n => (hmapping.any_eq).symm
    unfold requested
    simp only [e]
    exact (hnames.filter _).length_eq.symm
  have hgrp : (ofGroup names' mapping').length = (ofGroup names mapping).length := by
    unfold ofGroup
    simp only [hm]
    exact (hmapping.filter _).length_eq.symm
  rw [C101_sum_partial image dist lightOk names hn data targetIndex numberOfTargets mapping hv hd bs hbs,
    C101_sum_partial image dist lightOk names' (hnames.nodup_iff.1 hn) data targetIndex numberOfTargets mapping'
      (fun e he hen => hv e (hmapping.mem_iff.2 he) ((hm _).1 hen)) (by rw [hreq, hgrp]; exact hd) bs' hbs']
  congr 1
  apply List.map_congr_left
  intro t _
  congr 1
  simp only [hm]
  exact ((hmapping.filter _).map _).sum_eq

/-- C101 fails exactly when the number of requested heliostats does not divide the number of requests: then some target area contains uninitialised
memory, because the samples at the end are never traced. -/
theorem C101_complete_iff [AddCommMonoid B] (image : X → A → D → Int → B) (dist : Nat → X) (lightOk : D → Bool)
    (names : List N) (hn : names.Nodup) (data : N → A) (targetIndex : List (N × Nat)) (numberOfTargets : Nat)
    (ht : ∀ name t, dictGet targetIndex name = some t → t < numberOfTargets) (mapping : List (Entry N D))
    (hv : ∀ e ∈ mapping, e.heliostat ∈ names → (∃ t, dictGet targetIndex e.target = some t) ∧ lightOk e.light = true)
    (bs : Nat) (hbs : 0 < bs) :
    (∃ bitmaps : List B, run image dist lightOk names (names.map data) targetIndex numberOfTargets mapping bs = .ok (bitmaps.map some)) ↔
      (requested names mapping).length ∣ (ofGroup names mapping).length := by
  constructor
  · rintro ⟨bitmaps, hb⟩
    by_contra hnd
    rw [← order_length names hn] at hnd
    have hpos : 0 < (order names mapping).length := by
      rcases Nat.eq_zero_or_pos (order names mapping).length with h | h
      · rw [h] at hnd; exact absurd (dvd_zero _) hnd
      · exact h
    have hcov := mt (Sampler.C04_cover_iff (order names mapping).length (requested names mapping).length 1
      (requested_pos names mapping hpos) Nat.one_pos).1 hnd
    push Not at hcov
    obtain ⟨i, hi, hno⟩ := hcov
    have hno := hno 0 Nat.one_pos
    rw [run_spec image dist lightOk names hn data targetIndex numberOfTargets mapping hv bs hbs, Except.ok.injEq] at hb
    have hmem := (mem_order names mapping (order names mapping)[i]).1 (List.getElem_mem hi)
    obtain ⟨⟨t, hte⟩, -⟩ := hv _ hmem.1 hmem.2
    have hval : (value targetIndex (order names mapping)[i]).1 = t := by unfold value; rw [hte]; rfl
    have htn := ht _ t hte
    have h1 := congrArg (·[t]?) hb
    simp only [Trace.bitmapsPerTarget, List.getElem?_map, List.getElem?_range htn, Option.map_some] at h1
    have hany : ((List.map (fun s => decide (s = (t : Int))) ((order names mapping).map fun e => ((value targetIndex e).1 : Int))).any id) = true := by
      rw [List.any_eq_true]
      refine ⟨true, ?_, rfl⟩
      simp only [List.mem_map, decide_eq_true_eq]
      exact ⟨_, ⟨_, List.getElem_mem hi, rfl⟩, by rw [hval]⟩
    rw [if_pos hany, foldl_none] at h1
    · cases hbt : bitmaps[t]? <;> simp [hbt] at h1
    · right
      have hsel := Trace.select_targets ((order names mapping).mapIdx fun i e =>
          if i ∈ Sampler.rankIndices (order names mapping).length (requested names mapping).length 1 0 then
            some (image (dist i) (data e.heliostat) e.light (value targetIndex e).1) else none)
          ((order names mapping).map fun e => ((value targetIndex e).1 : Int)) (t : Int)
      rw [hsel, List.mem_map]
      refine ⟨(none, (t : Int)), List.mem_filter.2 ⟨?_, by simp⟩, rfl⟩
      rw [List.mem_iff_getElem?]
      refine ⟨i, ?_⟩
      rw [List.zip, List.getElem?_zipWith, List.getElem?_mapIdx, List.getElem?_map, List.getElem?_eq_getElem hi]
      simp only [Option.map_some, if_neg hno, hval]
  · intro hd
    obtain ⟨_, bitmaps, -, h, -⟩ := C101_requests_partial image dist lightOk names hn data targetIndex numberOfTargets mapping hv hd bs hbs
    exact ⟨bitmaps, h⟩

/-- C101: requests for heliostats of other groups change nothing. -/
theorem C101_other_groups [AddCommMonoid B] (image : X → A → D → Int → B) (dist : Nat → X) (lightOk : D → Bool)
    (names : List N) (data : N → A) (targetIndex : List (N × Nat)) (numberOfTargets : Nat) (mapping : List (Entry N D)) (bs : Nat) :
    run image dist lightOk names (names.map data) targetIndex numberOfTargets (ofGroup names mapping) bs =
      run image dist lightOk names (names.map data) targetIndex numberOfTargets mapping bs := by
  unfold run indexMapping ofGroup
  rw [List.filter_filter]
  simp only [Bool.and_self]

theorem gather_cases {α : Type} (rows : List α) (idx : List Nat) :
    Report.gather rows idx = .error .indexError ∨ ∃ l, Report.gather rows idx = .ok l ∧ l.length = idx.length ∧ ∀ x ∈ l, x ∈ rows := by
  induction idx with
  | nil => exact Or.inr ⟨[], rfl, rfl, by simp⟩
  | cons i idx ih =>
    unfold Report.gather
    cases h : rows[i]? with
    | none => exact Or.inl rfl
    | some x =>
      rcases ih with h' | ⟨l, h1, h2, h3⟩
      · left; simp only [h']
      · right
        refine ⟨x :: l, by simp only [h1], by simp [h2], ?_⟩
        intro y hy
        rw [List.mem_cons] at hy
        rcases hy with rfl | hy
        · exact List.mem_of_getElem? h
        · exact h3 y hy

/-- C101 is false for processes that share a group: if two or more heliostats are requested, every one of them ends with an `IndexError`; if only one is, all but the
first do. -/
theorem C101_shared_raises [AddCommMonoid B] (image : X → A → D → Int → B) (dist : Nat → X) (lightOk : D → Bool)
    (names : List N) (hn : names.Nodup) (data : N → A) (targetIndex : List (N × Nat)) (numberOfTargets : Nat)
    (ht : ∀ name t, dictGet targetIndex name = some t → t < numberOfTargets) (mapping : List (Entry N D))
    (hv : ∀ e ∈ mapping, e.heliostat ∈ names → (∃ t, dictGet targetIndex e.target = some t) ∧ lightOk e.light = true)
    (bs : Nat) (hbs : 0 < bs) (w r : Nat) (hw : 2 ≤ w) (h : 2 ≤ (requested names mapping).length ∨ ((requested names mapping).length = 1 ∧ r ≠ 0)) :
    runShared image dist lightOk names (names.map data) targetIndex numberOfTargets mapping bs w r = .error .indexError := by
  set n := (order names mapping).length with hnn
  set a := (requested names mapping).length with haa
  have han : a ≤ n := by
    rw [haa, requested_length, hnn, ← sum_counts]
    generalize counts names mapping = l
    induction l with
    | nil => simp
    | cons c l ih =>
      rw [List.countP_cons, List.sum_cons]
      by_cases hc : c > 0
      · simp only [hc, decide_true, if_true]; omega
      · simp only [hc, decide_false, Bool.false_eq_true, if_false]; omega
  have hfewer : (Sampler.rankIndices n a w r).length ≠ n ∨ Sampler.rankIndices n a w r = [] := by
    by_cases hr : r < min a w
    · left
      intro hlen
      have hr' : ∃ r', r' ≠ r ∧ r' < min a w := by
        rcases h with h | h
        · by_cases h0 : r = 0
          · exact ⟨1, by omega, by omega⟩
          · exact ⟨0, by omega, by omega⟩
        · omega
      obtain ⟨r', hne, hlt⟩ := hr'
      have hk : 0 < n / a := Nat.div_pos han (by omega)
      have hin : r' * (n / a) ∈ Sampler.rankIndices n a w r' := by
        unfold Sampler.rankIndices
        rw [if_pos hlt, List.mem_flatMap]
        refine ⟨r', List.mem_range.2 (by omega), ?_⟩
        rw [if_pos (Nat.mod_eq_of_lt hlt), List.mem_range']
        exact ⟨0, hk, by omega⟩
      have hout : r' * (n / a) ∉ Sampler.rankIndices n a w r := fun hx => hne ((Sampler.C04_disjoint n a w).2 _ _ _ hin hx)
      have hnod := (Sampler.C04_disjoint n a w).1 r
      have hlt' := ((Sampler.C04_disjoint n a w).1 r').2 _ hin
      have hcons : (r' * (n / a) :: Sampler.rankIndices n a w r).Nodup := List.nodup_cons.2 ⟨hout, hnod.1⟩
      have hsub : (r' * (n / a) :: Sampler.rankIndices n a w r) ⊆ List.range n := by
        intro x hx
        rw [List.mem_cons] at hx
        rcases hx with rfl | hx
        · exact List.mem_range.2 hlt'
        · exact List.mem_range.2 (hnod.2 x hx)
      have := (hcons.subperm hsub).length_le
      rw [List.length_cons, List.length_range] at this
      omega
    · right
      unfold Sampler.rankIndices
      rw [if_neg hr]
  have hsamples : (repeatInterleave (names.map data) (counts names mapping)).zip
      (((order names mapping).map fun e => some e.light).zip ((order names mapping).map fun e => some ((value targetIndex e).1 : Int))) =
      (order names mapping).map fun e => (data e.heliostat, some e.light, some ((value targetIndex e).1 : Int)) := by
    rw [repeat_counts]
    generalize order names mapping = l
    induction l with
    | nil => rfl
    | cons e l ih => simp only [List.map_cons, List.zip_cons_cons, ih]
  obtain ⟨rows, h1, h2, -⟩ := Trace.C06_rows_partial (sample image) dist
    ((order names mapping).map fun e => (data e.heliostat, some e.light, some ((value targetIndex e).1 : Int))) a w r bs hbs
  rw [List.length_map] at h1 h2
  unfold runShared
  rw [indexMapping_explicit lightOk names hn targetIndex mapping hv]
  simp only
  rw [hsamples, Sampler.tracerRankIndices, sum_counts, ← requested_length, h1]
  simp only
  unfold Report.gatherOwn
  by_cases hempty : Sampler.rankIndices n a w r = []
  · rw [if_pos hempty]
  · rw [if_neg hempty]
    rcases gather_cases (((order names mapping).map fun e => some ((value targetIndex e).1 : Int)).map (·.getD (-1))) (Sampler.rankIndices n a w r)
      with hg | ⟨l, hg, hl, hm⟩
    · rw [hg]
    · rw [hg]
      simp only
      rw [if_pos]
      refine ⟨by rw [h2, hl]; exact fun hh => (hfewer.resolve_right hempty) hh.symm, ?_⟩
      have hpos : 0 < l.length := by rw [hl]; exact List.length_pos_iff.2 hempty
      obtain ⟨x, hx⟩ := List.length_pos_iff_exists_mem.1 hpos
      have hx' := hm x hx
      simp only [List.map_map, List.mem_map, Function.comp_apply, Option.getD_some] at hx'
      obtain ⟨e, he, rfl⟩ := hx'
      have hmem := (mem_order names mapping e).1 he
      obtain ⟨⟨t, hte⟩, -⟩ := hv e hmem.1 hmem.2
      have hval : (value targetIndex e).1 = t := by unfold value; rw [hte]; rfl
      rw [List.any_eq_true]
      refine ⟨t, List.mem_range.2 (ht _ t hte), ?_⟩
      rw [List.any_eq_true]
      exact ⟨_, hx, by simp [hval]⟩

theorem gather_range {α : Type} (rows : List α) : Report.gather rows (List.range rows.length) = .ok rows := by
  have key : ∀ (pre post : List α), Report.gather (pre ++ post) (List.range' pre.length post.length) = .ok post := by
    intro pre post
    induction post generalizing pre with
    | nil => rfl
    | cons x post ih =>
      have := ih (pre ++ [x])
      rw [List.append_assoc, List.singleton_append, List.length_append, List.length_singleton] at this
      rw [List.length_cons, List.range'_succ]
      unfold Report.gather
      rw [List.getElem?_append_right le_rfl, Nat.sub_self, List.getElem?_cons_zero]
      simp only [this]
  have := key [] rows
  rwa [List.length_nil, ← List.range_eq_range', List.nil_append] at this

theorem rankIndices_all (n a w : Nat) (ha : 0 < a) (hd : a ∣ n) (hw : w = 1 ∨ a = 1 ∧ 0 < w) : Sampler.rankIndices n a w 0 = List.range n := by
  obtain ⟨k, rfl⟩ := hd
  have hmin : min a w = 1 := by omega
  unfold Sampler.rankIndices
  simp only [hmin, Nat.mod_one, if_true, Nat.mul_div_cancel_left k ha]
  rw [if_pos Nat.zero_lt_one]
  clear ha hmin hw
  induction a with
  | zero => simp
  | succ a ih =>
    rw [List.range_succ, List.flatMap_append, ih, List.flatMap_cons, List.flatMap_nil, List.append_nil, Nat.succ_mul, List.range_add, List.range'_eq_map_range]

/-- C101 for the code that is written for processes that share a group, where it works: a single process, or the first of several if only one heliostat is requested, gets what it
would get with the code for one process. -/
theorem C101_shared_alone_partial [AddCommMonoid B] (image : X → A → D → Int → B) (dist : Nat → X) (lightOk : D → Bool)
    (names : List N) (hn : names.Nodup) (data : N → A) (targetIndex : List (N × Nat)) (numberOfTargets : Nat) (mapping : List (Entry N D))
    (hv : ∀ e ∈ mapping, e.heliostat ∈ names → (∃ t, dictGet targetIndex e.target = some t) ∧ lightOk e.light = true)
    (hne : requested names mapping ≠ []) (hd : (requested names mapping).length ∣ (ofGroup names mapping).length) (bs : Nat) (hbs : 0 < bs)
    (w : Nat) (hw : w = 1 ∨ (requested names mapping).length = 1 ∧ 0 < w) :
    runShared image dist lightOk names (names.map data) targetIndex numberOfTargets mapping bs w 0 =
      run image dist lightOk names (names.map data) targetIndex numberOfTargets mapping bs := by
  have hpos : 0 < (requested names mapping).length := List.length_pos_iff.2 hne
  rw [← order_length names hn] at hd
  have hn0 : (order names mapping).length ≠ 0 := by
    have := requested_length names mapping
    rw [this] at hpos
    intro h0
    rw [← sum_counts] at h0
    have : ∀ c ∈ counts names mapping, c = 0 := fun c hc => Nat.le_zero.1 (h0 ▸ List.le_sum_of_mem hc)
    rw [List.countP_pos_iff] at hpos
    obtain ⟨c, hc, hc'⟩ := hpos
    simp [this c hc] at hc'
  have hsamples : (repeatInterleave (names.map data) (counts names mapping)).zip
      (((order names mapping).map fun e => some e.light).zip ((order names mapping).map fun e => some ((value targetIndex e).1 : Int))) =
      (order names mapping).map fun e => (data e.heliostat, some e.light, some ((value targetIndex e).1 : Int)) := by
    rw [repeat_counts]
    generalize order names mapping = l
    induction l with
    | nil => rfl
    | cons e l ih => simp only [List.map_cons, List.zip_cons_cons, ih]
  obtain ⟨rows, h1, h2, -⟩ := Trace.C06_rows_partial (sample image) dist
    ((order names mapping).map fun e => (data e.heliostat, some e.light, some ((value targetIndex e).1 : Int))) (requested names mapping).length 1 0 bs hbs
  rw [List.length_map] at h1 h2
  unfold runShared run
  rw [indexMapping_explicit lightOk names hn targetIndex mapping hv]
  simp only
  rw [hsamples, Sampler.tracerRankIndices, Sampler.tracerRankIndices, sum_counts, ← requested_length, rankIndices_all _ _ w hpos hd hw, ← rankIndices_all _ _ 1 hpos hd (Or.inl rfl), h1,
    rankIndices_all _ _ 1 hpos hd (Or.inl rfl)]
  simp only
  unfold Report.gatherOwn
  rw [if_neg (by rw [List.range_eq_nil]; exact hn0)]
  have hg := gather_range (((order names mapping).map fun e => some ((value targetIndex e).1 : Int)).map (·.getD (-1)))
  rw [List.length_map, List.length_map] at hg
  rw [hg]
  simp only
  rw [if_neg (by rw [h2, List.length_map, List.length_map]; simp)]

/-- C101: two heliostats, requested in mixed order, one of them for two target areas: images `10 * heliostat + light` arrive where they were requested. -/
example : run (fun (_ : Unit) (a : Nat) (d : Nat) (_ : Int) => 10 * a + d) (fun _ => ()) (fun _ => true) ["A", "B"] [1, 2]
    [("tower", 0), ("receiver", 1)] 2 [⟨"B", "receiver", 3⟩, ⟨"A", "tower", 4⟩, ⟨"A", "receiver", 5⟩, ⟨"B", "receiver", 6⟩, ⟨"C", "tower", 7⟩] 3 =
      .ok [some 14, some (15 + 23 + 26)] := by decide +kernel

/-- C101: the same with requests and heliostats in another order. -/
example : run (fun (_ : Unit) (a : Nat) (d : Nat) (_ : Int) => 10 * a + d) (fun _ => ()) (fun _ => true) ["B", "A"] [2, 1]
    [("tower", 0), ("receiver", 1)] 2 [⟨"C", "tower", 7⟩, ⟨"A", "receiver", 5⟩, ⟨"A", "tower", 4⟩, ⟨"B", "receiver", 6⟩, ⟨"B", "receiver", 3⟩] 1 =
      .ok [some 14, some (15 + 23 + 26)] := by decide +kernel

/-- C101: heliostat `A` twice and `B` once: the request for `B` is never traced, its target area holds uninitialised memory. -/
example : run (fun (_ : Unit) (a : Nat) (d : Nat) (_ : Int) => 10 * a + d) (fun _ => ()) (fun _ => true) ["A", "B"] [1, 2]
    [("tower", 0), ("receiver", 1)] 2 [⟨"A", "tower", 4⟩, ⟨"A", "tower", 5⟩, ⟨"B", "receiver", 3⟩] 3 = .ok [some 29, none] := by decide +kernel

/-- C101: one heliostat, requested twice, on the first of three processes -/
example : runShared (fun (_ : Unit) (a : Nat) (d : Nat) (_ : Int) => 10 * a + d) (fun _ => ()) (fun _ => true) ["A", "B"] [1, 2]
    [("tower", 0), ("receiver", 1)] 2 [⟨"B", "receiver", 3⟩, ⟨"B", "tower", 4⟩] 3 3 0 = .ok [some 24, some 23] := by decide +kernel

/-- C101: the same requests on two processes. -/
example : ∀ rank, rank < 2 → runShared (fun (_ : Unit) (a : Nat) (d : Nat) (_ : Int) => 10 * a + d) (fun _ => ()) (fun _ => true) ["A", "B"] [1, 2]
    [("tower", 0), ("receiver", 1)] 2 [⟨"B", "receiver", 3⟩, ⟨"A", "tower", 4⟩, ⟨"A", "receiver", 5⟩, ⟨"B", "receiver", 6⟩, ⟨"C", "tower", 7⟩] 3 2 rank =
      .error .indexError := by decide +kernel

end Artist.Requests
