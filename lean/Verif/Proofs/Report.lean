import Verif.Spec.Report
import Verif.Props.Env
import Verif.Props.Sampler
import Verif.Proofs.Training
import Batteries.Data.List.Perm
/-! Helper lemmas for C33 and C52. -/
namespace Artist.Report
open Artist Artist.Training Artist.Env

/-! ### Active heliostats -/

theorem nonzero_eq (mask : List Nat) : Trace.nonzero mask = (List.range mask.length).filter (fun i => decide (mask.getD i 0 > 0)) := by
  unfold Trace.nonzero
  congr 1
  funext i
  apply Bool.decide_congr
  omega

theorem nonzero_cons (c : Nat) (mask : List Nat) :
    Trace.nonzero (c :: mask) = (if c > 0 then [0] else []) ++ (Trace.nonzero mask).map (· + 1) := by
  rw [nonzero_eq, nonzero_eq, List.length_cons, List.range_succ_eq_map, List.filter_cons, List.filter_map]
  by_cases h : c > 0
  · simp [h]
    rfl
  · simp [h]
    rfl

theorem nonzero_length (mask : List Nat) : (Trace.nonzero mask).length = numberActive mask := by
  induction mask with
  | nil => rfl
  | cons c mask ih =>
    rw [nonzero_cons, List.length_append, List.length_map, ih, numberActive, numberActive, List.countP_cons]
    by_cases h : c > 0 <;> simp [h, Nat.add_comm]

theorem nonzero_get (mask : List Nat) (i : Nat) (c : Nat) (h : mask[i]? = some c) (hc : 0 < c) :
    (Trace.nonzero mask)[activeBefore mask i]? = some i := by
  induction mask generalizing i with
  | nil => simp at h
  | cons d mask ih =>
    rw [nonzero_cons]
    cases i with
    | zero =>
      simp at h; subst h
      simp [activeBefore, numberActive, hc]
    | succ i =>
      rw [List.getElem?_cons_succ] at h
      have := ih i h
      unfold activeBefore numberActive at this ⊢
      rw [List.take_succ_cons, List.countP_cons]
      by_cases hd : d > 0
      · rw [if_pos hd, if_pos (by simpa using hd), List.getElem?_append_right (by simp)]
        simp [this]
      · rw [if_neg hd, if_neg (by simpa using hd)]
        simp [this]

theorem nonzero_inv (mask : List Nat) (q i : Nat) (h : (Trace.nonzero mask)[q]? = some i) :
    i < mask.length ∧ (∃ c, mask[i]? = some c ∧ 0 < c) ∧ activeBefore mask i = q := by
  have hm := List.mem_of_getElem? h
  rw [nonzero_eq, List.mem_filter, List.mem_range] at hm
  obtain ⟨h1, h2⟩ := hm
  have hc : mask[i]? = some mask[i] := List.getElem?_eq_getElem h1
  have h2' : 0 < mask[i] := by
    have : mask.getD i 0 = mask[i] := by simp [List.getD, hc]
    rw [this] at h2; simpa using h2
  refine ⟨h1, ⟨_, hc, h2'⟩, ?_⟩
  have h3 := nonzero_get mask i _ hc h2'
  have hnd : (Trace.nonzero mask).Nodup := by
    rw [nonzero_eq]; exact List.nodup_range.filter _
  obtain ⟨l1, e1⟩ := List.getElem?_eq_some_iff.1 h
  obtain ⟨l2, e2⟩ := List.getElem?_eq_some_iff.1 h3
  exact (List.Nodup.getElem_inj_iff hnd).1 (e2.trans e1.symm)

/-! ### Gathering and writing -/

theorem gather_map {α β : Type} (rows : List α) (own : List β) (pos : β → Nat) (val : β → α)
    (h : ∀ x ∈ own, rows[pos x]? = some (val x)) : gather rows (own.map pos) = .ok (own.map val) := by
  induction own with
  | nil => rfl
  | cons x own ih =>
    rw [List.map_cons, gather, h x (by simp), ih (fun y hy => h y (by simp [hy]))]
    rfl

theorem foldl_set_length {L : Type} (w : List (Nat × L)) (v : List (Option L)) :
    (w.foldl (fun v p => v.set p.1 (some p.2)) v).length = v.length := by
  induction w generalizing v with
  | nil => rfl
  | cons x w ih => rw [List.foldl_cons, ih, List.length_set]

theorem foldl_set_other {L : Type} (w : List (Nat × L)) (v : List (Option L)) (p : Nat) (hp : ∀ x ∈ w, x.1 ≠ p) :
    (w.foldl (fun v p => v.set p.1 (some p.2)) v)[p]? = v[p]? := by
  induction w generalizing v with
  | nil => rfl
  | cons x w ih =>
    rw [List.foldl_cons, ih _ (fun y hy => hp y (by simp [hy])), List.getElem?_set_ne (hp x (by simp))]

theorem foldl_set_mem {L : Type} (w : List (Nat × L)) (v : List (Option L)) (x : Nat × L) (hx : x ∈ w) (hl : x.1 < v.length)
    (hu : ∀ y ∈ w, y.1 = x.1 → y.2 = x.2) : (w.foldl (fun v p => v.set p.1 (some p.2)) v)[x.1]? = some (some x.2) := by
  induction w generalizing v with
  | nil => simp at hx
  | cons y w ih =>
    rw [List.foldl_cons]
    by_cases hw : ∃ z ∈ w, z.1 = x.1
    · obtain ⟨z, hz, he⟩ := hw
      have hz2 : z.2 = x.2 := hu z (by simp [hz]) he
      obtain rfl : z = x := Prod.ext he hz2
      exact ih _ hz (by rw [List.length_set]; exact hl) (fun y hy => hu y (by simp [hy]))
    · push Not at hw
      rw [foldl_set_other _ _ _ hw]
      have : y = x := by
        rcases List.mem_cons.1 hx with h | h
        · exact h.symm
        · exact absurd rfl (hw x h)
      rw [this, List.getElem?_set_self hl]

/-- Effect of the bookkeeping of one group on one rank: the owned active heliostats receive their losses, nothing else changes. -/
theorem record_spec {L : Type} (mask : List Nat) (t : Nat) (ht : 0 < t) (idx : List Nat) (own : List Nat)
    (hown : (stride t idx).map (· / t) = own) (hne : own ≠ []) (hlt : ∀ h ∈ own, h < numberActive mask) (start : Nat) (f : Nat → L)
    (vector : List (Option L)) (hlen : start + mask.length ≤ vector.length) :
    ∃ v', record mask t idx start (own.map f) vector = .ok v' ∧ v'.length = vector.length ∧
      (∀ p, p < start ∨ start + mask.length ≤ p → v'[p]? = vector[p]?) ∧
      ∀ i c, mask[i]? = some c →
        v'[start + i]? = if 0 < c ∧ activeBefore mask i ∈ own then some (some (f (activeBefore mask i))) else vector[start + i]? := by
  have hpos : ∀ h ∈ own, (Trace.nonzero mask)[h]? = some ((Trace.nonzero mask).getD h 0) := by
    intro h hh
    have : h < (Trace.nonzero mask).length := by rw [nonzero_length]; exact hlt h hh
    simp [List.getD, List.getElem?_eq_getElem this]
  have hg := gather_map (Trace.nonzero mask) own (fun h => h) (fun h => (Trace.nonzero mask).getD h 0) hpos
  have hinv : ∀ h ∈ own, (Trace.nonzero mask).getD h 0 < mask.length ∧
      activeBefore mask ((Trace.nonzero mask).getD h 0) = h := by
    intro h hh
    obtain ⟨h1, -, h3⟩ := nonzero_inv mask h _ (hpos h hh)
    exact ⟨h1, h3⟩
  obtain ⟨w, hwdef⟩ : ∃ w, w = own.map (fun h => ((Trace.nonzero mask).getD h 0 + start, f h)) := ⟨_, rfl⟩
  have hw : ((own.map (fun h => (Trace.nonzero mask).getD h 0)).map (· + start)).zip (own.map f) = w := by
    rw [hwdef, List.map_map, List.zip_map']
    rfl
  refine ⟨w.foldl (fun v p => v.set p.1 (some p.2)) vector, ?_, foldl_set_length _ _, ?_, ?_⟩
  · unfold record
    rw [if_neg (by omega)]
    simp only
    rw [hown]
    rw [List.map_id'] at hg
    unfold gatherOwn
    rw [if_neg hne, hg]
    simp only
    unfold writeAt
    rw [if_neg ?_, if_pos (by simp), hw]
    simp only [List.any_eq_true, List.mem_map, decide_eq_true_eq, not_exists, not_and]
    rintro p ⟨q, ⟨h, hh, rfl⟩, rfl⟩
    have := (hinv h hh).1
    omega
  · intro p hp
    apply foldl_set_other
    intro x hx
    rw [hwdef, List.mem_map] at hx
    obtain ⟨h, hh, rfl⟩ := hx
    have := (hinv h hh).1
    simp only
    omega
  · intro i c hc
    have hi : i < mask.length := (List.getElem?_eq_some_iff.1 hc).1
    by_cases hcond : 0 < c ∧ activeBefore mask i ∈ own
    · rw [if_pos hcond]
      have hgi := nonzero_get mask i c hc hcond.1
      have hgd : (Trace.nonzero mask).getD (activeBefore mask i) 0 = i := by simp [List.getD, hgi]
      have hmem : (start + i, f (activeBefore mask i)) ∈ w := by
        rw [hwdef, List.mem_map]
        exact ⟨activeBefore mask i, hcond.2, by rw [hgd, Nat.add_comm]⟩
      apply foldl_set_mem w vector (start + i, f (activeBefore mask i)) hmem (by simp only; omega)
      intro y hy he
      rw [hwdef, List.mem_map] at hy
      obtain ⟨h, hh, rfl⟩ := hy
      simp only at he ⊢
      have : (Trace.nonzero mask).getD h 0 = i := by omega
      rw [← (hinv h hh).2, this]
    · rw [if_neg hcond]
      apply foldl_set_other
      intro x hx he
      rw [hwdef, List.mem_map] at hx
      obtain ⟨h, hh, rfl⟩ := hx
      simp only at he
      have hi' : (Trace.nonzero mask).getD h 0 = i := by omega
      obtain ⟨-, ⟨c', hc', hpos'⟩, h3⟩ := nonzero_inv mask h _ (hpos h hh)
      rw [hi'] at hc' h3
      rw [hc] at hc'
      obtain rfl : c = c' := by simpa using hc'
      exact hcond ⟨hpos', by rw [h3]; exact hh⟩

/-! ### Segments -/

theorem start_succ (sizes : List Nat) (g n : Nat) (h : sizes[g]? = some n) : startIndex sizes (g + 1) = startIndex sizes g + n := by
  unfold startIndex
  rw [List.take_add_one, List.sum_append, h]
  simp

theorem start_mono (sizes : List Nat) (g g' : Nat) (h : g ≤ g') : startIndex sizes g ≤ startIndex sizes g' := by
  induction h with
  | refl => exact Nat.le_refl _
  | step _ ih =>
    refine ih.trans ?_
    unfold startIndex
    rw [List.take_add_one, List.sum_append]
    omega

theorem start_bound (sizes : List Nat) (g n : Nat) (h : sizes[g]? = some n) : startIndex sizes g + n ≤ sizes.sum := by
  rw [← start_succ sizes g n h]
  have : startIndex sizes sizes.length = sizes.sum := by simp [startIndex]
  rw [← this]
  exact start_mono sizes _ _ (List.getElem?_eq_some_iff.1 h).1

theorem segments_disjoint (sizes : List Nat) (g g' n n' i : Nat) (h : sizes[g]? = some n) (h' : sizes[g']? = some n') (hi : i < n')
    (hne : g ≠ g') : startIndex sizes g' + i < startIndex sizes g ∨ startIndex sizes g + n ≤ startIndex sizes g' + i := by
  rcases Nat.lt_or_gt_of_ne hne with hlt | hlt
  · right
    rw [← start_succ sizes g n h]
    exact Nat.le_add_right_of_le (start_mono sizes _ _ hlt)
  · left
    have := start_mono sizes _ _ (show g' + 1 ≤ g from hlt)
    rw [start_succ sizes g' n' h'] at this
    omega

/-- What a well-behaved step does for group `g`: it sets the entries of heliostats with a value `F g i` and leaves the rest. -/
def StepSpec {L : Type} (masks : List (List Nat)) (F : Nat → Nat → Option L)
    (step : Nat → List (Option L) → Except PyErr (List (Option L))) (g : Nat) : Prop :=
  ∀ vector : List (Option L), vector.length = (masks.map List.length).sum →
    ∃ v', step g vector = .ok v' ∧ v'.length = vector.length ∧
      (∀ p, p < startIndex (masks.map List.length) g ∨
        startIndex (masks.map List.length) g + (masks.getD g []).length ≤ p → v'[p]? = vector[p]?) ∧
      ∀ i, i < (masks.getD g []).length →
        v'[startIndex (masks.map List.length) g + i]? =
          match F g i with | some x => some (some x) | none => vector[startIndex (masks.map List.length) g + i]?

theorem overGroups_spec {L : Type} (masks : List (List Nat)) (F : Nat → Nat → Option L)
    (step : Nat → List (Option L) → Except PyErr (List (Option L))) (gs : List Nat) (hgs : ∀ g ∈ gs, g < masks.length)
    (hstep : ∀ g ∈ gs, StepSpec masks F step g) (vector : List (Option L)) (hv : vector.length = (masks.map List.length).sum) :
    ∃ v', overGroups step gs vector = .ok v' ∧ v'.length = vector.length ∧
      ∀ g i, g < masks.length → i < (masks.getD g []).length →
        v'[startIndex (masks.map List.length) g + i]? =
          if g ∈ gs then (match F g i with | some x => some (some x) | none => vector[startIndex (masks.map List.length) g + i]?)
          else vector[startIndex (masks.map List.length) g + i]? := by
  induction gs generalizing vector with
  | nil => exact ⟨vector, rfl, rfl, by simp⟩
  | cons g0 gs ih =>
    obtain ⟨v1, h1, h2, h3, h4⟩ := hstep g0 (by simp) vector hv
    obtain ⟨v2, k1, k2, k3⟩ := ih (fun g hg => hgs g (by simp [hg])) (fun g hg => hstep g (by simp [hg])) v1 (h2.trans hv)
    refine ⟨v2, by rw [overGroups, h1]; exact k1, k2.trans h2, fun g i hg hi => ?_⟩
    rw [k3 g i hg hi]
    have hsize : ∀ g, g < masks.length → (masks.map List.length)[g]? = some (masks.getD g []).length := by
      intro g hg
      simp [List.getD, List.getElem?_eq_getElem hg]
    by_cases he : g = g0
    · subst he
      rw [h4 i hi]
      by_cases hm : g ∈ gs
      · rw [if_pos hm, if_pos (by simp)]
        cases F g i <;> rfl
      · rw [if_neg hm, if_pos (by simp)]
    · have hne := segments_disjoint _ g0 g _ _ i (hsize g0 (hgs g0 (by simp))) (hsize g hg) hi (fun h => he h.symm)
      rw [h3 _ hne]
      simp [he]

/-! ### Merging -/

section
variable {L : Type} [LinearOrder L]

theorem collect_ok {A : Type} (f : Nat → Except PyErr A) (v : Nat → A) (rs : List Nat) (h : ∀ r ∈ rs, f r = .ok (v r)) :
    collect f rs = .ok (rs.map v) := by
  induction rs with
  | nil => rfl
  | cons r rs ih => rw [collect, h r (by simp), ih (fun r hr => h r (by simp [hr]))]; rfl

theorem minInf_none (x : Option L) : minInf x none = x := by cases x <;> rfl

theorem allReduceMin_get (rs : List Nat) (v : Nat → List (Option L)) (n p : Nat) (hn : ∀ r ∈ rs, (v r).length = n) (hp : p < n)
    (hne : rs ≠ []) (r0 : Nat) (x : Option L) (h0 : ∀ r ∈ rs, (v r)[p]? = some (if r = r0 then x else none))
    (hr0 : x = none ∨ (r0 ∈ rs ∧ rs.Nodup)) :
    (allReduceMin (rs.map v)).length = n ∧ (allReduceMin (rs.map v))[p]? = some x := by
  induction rs generalizing x with
  | nil => exact absurd rfl hne
  | cons r rs ih =>
    cases rs with
    | nil =>
      refine ⟨hn r (by simp), ?_⟩
      show (v r)[p]? = some x
      rw [h0 r (by simp)]
      rcases hr0 with h | h
      · subst h; simp
      · have : r0 = r := by simpa using h.1
        rw [if_pos this.symm]
    | cons s rs =>
      have hred : allReduceMin ((r :: s :: rs).map v) = List.zipWith minInf (v r) (allReduceMin ((s :: rs).map v)) := rfl
      rw [hred]
      rcases hr0 with h | ⟨hm, hnd⟩
      · subst h
        obtain ⟨l1, l2⟩ := ih (fun r hr => hn r (by simp [hr])) (by simp) none (fun r hr => h0 r (by simp [hr])) (Or.inl rfl)
        refine ⟨by rw [List.length_zipWith, l1, hn r (by simp)]; simp, ?_⟩
        rw [List.getElem?_zipWith, l2, h0 r (by simp)]
        simp [minInf]
      · by_cases he : r = r0
        · subst he
          have hnot : r ∉ s :: rs := (List.nodup_cons.1 hnd).1
          obtain ⟨l1, l2⟩ := ih (fun r hr => hn r (by simp [hr])) (by simp) none (fun q hq => by
            have hqr : q ≠ r := fun h => hnot (h ▸ hq)
            rw [h0 q (by simp [hq]), if_neg hqr]; simp) (Or.inl rfl)
          refine ⟨by rw [List.length_zipWith, l1, hn r (by simp)]; simp, ?_⟩
          rw [List.getElem?_zipWith, l2, h0 r (by simp), if_pos rfl]
          simp [minInf_none]
        · have hm' : r0 ∈ s :: rs := by
            rcases List.mem_cons.1 hm with h | h
            · exact absurd h.symm he
            · exact h
          obtain ⟨l1, l2⟩ := ih (fun r hr => hn r (by simp [hr])) (by simp) x (fun r hr => h0 r (by simp [hr]))
            (Or.inr ⟨hm', (List.nodup_cons.1 hnd).2⟩)
          refine ⟨by rw [List.length_zipWith, l1, hn r (by simp)]; simp, ?_⟩
          rw [List.getElem?_zipWith, l2, h0 r (by simp), if_neg he]
          simp [minInf]
end

/-! ### Ownership -/

theorem setup_all (W G : Nat) (hW : 0 < W) (hG : 0 < G) :
    ∃ T n inv, ∃ info : Nat → SubgroupInfo, (∀ r, r < W → setupInfo r W G = .ok (T, n, info r, inv)) ∧ T.length = W ∧
      (∀ r g, WorksOn T r g → r < W ∧ g < G) ∧ (∀ r, r < W → (info r).groupRank < (info r).groupWorldSize) ∧
      (∀ r, n = false → info r = defaultInfo) ∧ (n = true ↔ G < W) ∧
      ∀ g a h, g < G → h < a → ∃! r, WorksOn T r g ∧ h % min a (info r).groupWorldSize = (info r).groupRank := by
  rcases Nat.lt_or_ge G W with h | h
  · obtain ⟨T, hT, hl, hrow⟩ := distribute_nested W G hG h
    have h1 : ∀ gs ∈ T, gs.length ≤ 1 := by
      intro gs hgs
      obtain ⟨k, hk, rfl⟩ := List.getElem_of_mem hgs
      have := hrow k (by omega)
      rw [List.getElem?_eq_getElem hk] at this
      simp at this; simp [this]
    have hwork : ∀ r g, WorksOn T r g → r < W ∧ g < G := by
      rintro r g ⟨gs, e1, e2⟩
      have hr : r < W := by rw [← hl]; exact (List.getElem?_eq_some_iff.1 e1).1
      rw [hrow r hr] at e1
      simp at e1; subst e1; simp at e2; subst e2
      exact ⟨hr, Nat.mod_lt _ hG⟩
    refine ⟨T, true, invert T, fun r => (createSubgroups r T).1, ?_, hl, hwork, ?_, by simp, by simp [h], ?_⟩
    · intro r _; simp [setupInfo, hT, createSubgroups]
    · intro r hr
      have hw : WorksOn T r (r % G) := ⟨_, hrow r hr, by simp⟩
      exact (C02_group_ranks_bijective T h1 _ r r hw hw).1
    · intro g a j hg hj
      have hw0 : WorksOn T g g := ⟨_, hrow g (by omega), by simp [Nat.mod_eq_of_lt hg]⟩
      obtain ⟨members, hnd, hmem, hall⟩ := C02_group_ranks T h1 g ⟨g, hw0⟩
      have hml : 0 < members.length := List.length_pos_of_mem ((hmem g).2 hw0)
      have hq : j % min a members.length < members.length :=
        lt_of_lt_of_le (Nat.mod_lt _ (by omega)) (Nat.min_le_right _ _)
      refine ⟨members[j % min a members.length], ⟨(hmem _).1 (List.getElem_mem _), ?_⟩, ?_⟩
      · obtain ⟨-, e2, e3⟩ := hall _ ((hmem members[j % min a members.length]).1 (List.getElem_mem _))
        simp only [e2]
        obtain ⟨l, e4⟩ := List.getElem?_eq_some_iff.1 e3
        exact ((List.Nodup.getElem_inj_iff hnd).1 e4).symm
      · rintro r ⟨hr, he⟩
        obtain ⟨-, e2, e3⟩ := hall r hr
        simp only [e2] at he
        obtain ⟨l, e4⟩ := List.getElem?_eq_some_iff.1 e3
        rw [← e4]
        congr 1
        exact he.symm
  · obtain ⟨T, hT, hu, _, _⟩ := C01_flat_balanced W G hW h
    obtain ⟨T', n, hT', hl, -, hlt, -⟩ := C01_distribution_complete W G hW hG
    rw [hT] at hT'
    simp only [Except.ok.injEq, Prod.mk.injEq] at hT'
    obtain ⟨rfl, rfl⟩ := hT'
    refine ⟨T, false, invert T, fun _ => defaultInfo, ?_, hl, hlt, by simp [defaultInfo], by simp, by simpa using h, ?_⟩
    · intro r _; simp [setupInfo, hT]
    · intro g a j hg hj
      have hm : j % min a defaultInfo.groupWorldSize = defaultInfo.groupRank := by
        have : min a defaultInfo.groupWorldSize = 1 := by simp [defaultInfo]; omega
        rw [this]; simp [defaultInfo, Nat.mod_one]
      obtain ⟨r, hr, hur⟩ := hu g hg
      exact ⟨r, ⟨hr, hm⟩, fun r' hr' => hur r' hr'.1⟩

theorem mem_own (a k w r h : Nat) (hk : 0 < k) :
    h ∈ (stride k (Sampler.rankIndices (a * k) a w r)).map (· / k) ↔ h < a ∧ r < min a w ∧ h % min a w = r := by
  rw [Sampler.C05_owned_heliostats a k w r hk]
  simp

theorem owns_iff_samples (a k w r h : Nat) (hk : 0 < k) (hw : 0 < w) (hh : h < a) :
    (∀ j, j < k → h * k + j ∈ Sampler.rankIndices (a * k) a w r) ↔ h % min a w = r := by
  have ha : 0 < a := by omega
  have hd : a * k / a = k := Nat.mul_div_cancel_left k ha
  have hmod := Nat.mod_lt h (show 0 < min a w by omega)
  constructor
  · intro hj
    have := hj 0 hk
    rw [Sampler.mem_rankIndices, hd] at this
    have e : (h * k + 0) / k = h := by rw [Nat.add_zero]; exact Nat.mul_div_cancel _ hk
    rw [e] at this
    exact this.2.2.2
  · intro he j hj
    rw [Sampler.mem_rankIndices, hd]
    have e : (h * k + j) / k = h := by
      rw [Nat.add_comm, Nat.add_mul_div_right _ _ hk, Nat.div_eq_of_lt hj, Nat.zero_add]
    rw [e]
    refine ⟨by omega, hk, ?_, he⟩
    calc h * k + j < h * k + k := by omega
      _ = (h + 1) * k := by rw [Nat.succ_mul]
      _ ≤ a * k := Nat.mul_le_mul_right k hh

/-! ### Whole runs -/

section
variable {L : Type} [LinearOrder L]

theorem allReduceMin_length (rs : List Nat) (v : Nat → List (Option L)) (n : Nat) (hn : ∀ r ∈ rs, (v r).length = n) (hne : rs ≠ []) :
    (allReduceMin (rs.map v)).length = n := by
  induction rs with
  | nil => exact absurd rfl hne
  | cons r rs ih =>
    cases rs with
    | nil => exact hn r (by simp)
    | cons s rs =>
      have hred : allReduceMin ((r :: s :: rs).map v) = List.zipWith minInf (v r) (allReduceMin ((s :: rs).map v)) := rfl
      rw [hred, List.length_zipWith, ih (fun r hr => hn r (by simp [hr])) (by simp), hn r (by simp), Nat.min_self]
end

theorem rankVector_spec {L : Type} (masks : List (List Nat)) (W : Nat)
    (step : Nat → SubgroupInfo → Nat → List (Option L) → Except PyErr (List (Option L)))
    (T : List (List Nat)) (n : Bool) (inv : List (Nat × List Nat)) (info : Nat → SubgroupInfo)
    (hsetup : ∀ r, r < W → setupInfo r W masks.length = .ok (T, n, info r, inv)) (hlen : T.length = W)
    (hwork : ∀ r g, WorksOn T r g → r < W ∧ g < masks.length) (F : Nat → Nat → Nat → Option L)
    (hstep : ∀ r g, WorksOn T r g → StepSpec masks (F r) (step r (info r)) g) (r : Nat) (hr : r < W) :
    ∃ v, rankVector step (masks.map List.length).sum W masks.length r = .ok v ∧ v.length = (masks.map List.length).sum ∧
      ∀ g i, g < masks.length → i < (masks.getD g []).length →
        (WorksOn T r g → v[startIndex (masks.map List.length) g + i]? = some (F r g i)) ∧
        (¬ WorksOn T r g → v[startIndex (masks.map List.length) g + i]? = some none) := by
  have hrow : T[r]? = some (T.getD r []) := by
    simp [List.getD, List.getElem?_eq_getElem (show r < T.length by omega)]
  have hmem : ∀ g, g ∈ T.getD r [] ↔ WorksOn T r g := by
    intro g
    constructor
    · intro h; exact ⟨_, hrow, h⟩
    · rintro ⟨gs, h1, h2⟩
      rw [hrow] at h1
      simp only [Option.some.injEq] at h1
      rw [h1]; exact h2
  obtain ⟨v, h1, h2, h3⟩ := overGroups_spec masks (F r) (step r (info r)) (T.getD r [])
    (fun g hg => (hwork r g ((hmem g).1 hg)).2) (fun g hg => hstep r g ((hmem g).1 hg))
    (List.replicate (masks.map List.length).sum none) (by simp)
  refine ⟨v, ?_, by rw [h2]; simp, fun g i hg hi => ?_⟩
  · unfold rankVector
    rw [hsetup r hr]
    exact h1
  · have hsz : (masks.map List.length)[g]? = some (masks.getD g []).length := by
      simp [List.getD, List.getElem?_eq_getElem hg]
    have hb := start_bound _ g _ hsz
    have hnone : (List.replicate (masks.map List.length).sum (none : Option L))[startIndex (masks.map List.length) g + i]? = some none := by
      rw [List.getElem?_replicate, if_pos (by omega)]
    constructor
    · intro hw
      rw [h3 g i hg hi, if_pos ((hmem g).2 hw), hnone]
      cases F r g i <;> rfl
    · intro hw
      rw [h3 g i hg hi, if_neg (fun h => hw ((hmem g).1 h)), hnone]

theorem reported_spec {L : Type} [LinearOrder L] (masks : List (List Nat)) (W : Nat) (hW : 0 < W)
    (step : Nat → SubgroupInfo → Nat → List (Option L) → Except PyErr (List (Option L)))
    (T : List (List Nat)) (n : Bool) (inv : List (Nat × List Nat)) (info : Nat → SubgroupInfo)
    (hsetup : ∀ r, r < W → setupInfo r W masks.length = .ok (T, n, info r, inv)) (hlen : T.length = W)
    (hwork : ∀ r g, WorksOn T r g → r < W ∧ g < masks.length) (F : Nat → Nat → Nat → Option L)
    (hstep : ∀ r g, WorksOn T r g → StepSpec masks (F r) (step r (info r)) g) :
    ∃ v, reported step (masks.map List.length).sum W masks.length = .ok v ∧ v.length = (masks.map List.length).sum ∧
      ∀ g i r0 x, g < masks.length → i < (masks.getD g []).length →
        (∀ r, WorksOn T r g → F r g i = if r = r0 then x else none) → (x = none ∨ WorksOn T r0 g) →
        v[startIndex (masks.map List.length) g + i]? = some x := by
  classical
  have hall := rankVector_spec masks W step T n inv info hsetup hlen hwork F hstep
  obtain ⟨vec, hvec⟩ : ∃ vec : Nat → List (Option L), ∀ r, r < W →
      rankVector step (masks.map List.length).sum W masks.length r = .ok (vec r) ∧ (vec r).length = (masks.map List.length).sum ∧
      ∀ g i, g < masks.length → i < (masks.getD g []).length →
        (WorksOn T r g → (vec r)[startIndex (masks.map List.length) g + i]? = some (F r g i)) ∧
        (¬ WorksOn T r g → (vec r)[startIndex (masks.map List.length) g + i]? = some none) :=
    ⟨fun r => if h : r < W then (hall r h).choose else [], fun r hr => by simpa [hr] using (hall r hr).choose_spec⟩
  have hcol := collect_ok (rankVector step (masks.map List.length).sum W masks.length) vec (List.range W)
    (fun r hr => (hvec r (List.mem_range.1 hr)).1)
  have hne : List.range W ≠ [] := by simp; omega
  refine ⟨allReduceMin ((List.range W).map vec), by unfold reported; rw [hcol], ?_, ?_⟩
  · exact allReduceMin_length _ vec _ (fun r hr => (hvec r (List.mem_range.1 hr)).2.1) hne
  · intro g i r0 x hg hi hF hx
    have hsz : (masks.map List.length)[g]? = some (masks.getD g []).length := by
      simp [List.getD, List.getElem?_eq_getElem hg]
    have hb := start_bound _ g _ hsz
    refine (allReduceMin_get (List.range W) vec _ _ (fun r hr => (hvec r (List.mem_range.1 hr)).2.1)
      (show startIndex (masks.map List.length) g + i < (masks.map List.length).sum by omega) hne r0 x ?_ ?_).2
    · intro r hr
      obtain ⟨e1, e2⟩ := (hvec r (List.mem_range.1 hr)).2.2 g i hg hi
      by_cases hw : WorksOn T r g
      · rw [e1 hw, hF r hw]
      · rw [e2 hw]
        by_cases he : r = r0
        · subst he
          rcases hx with h | h
          · simp [h]
          · exact absurd h hw
        · simp [he]
    · rcases hx with h | h
      · exact Or.inl h
      · exact Or.inr ⟨List.mem_range.2 (hwork r0 g h).1, List.nodup_range⟩

/-! ### One group without sharing -/

theorem split_uniform (testOf : Nat → Int) (mask : List Nat) (k : Nat) (hk : 0 < k) (hu : ∀ c ∈ mask, c = 0 ∨ c = k)
    (ha : 0 < numberActive mask) (t : Nat) (ht : (k : Int) - max 1 (testOf k) = t) :
    ∃ s, split testOf mask = .ok s ∧ s.perHeliostat - s.numberOfTest = t ∧
      s.maskTrain.map Int.toNat = mask.map (fun c => if c = 0 then 0 else t) ∧
      s.trainIndices.map Int.toNat = (List.range (numberActive mask)).flatMap (fun b => (List.range t).map (fun o => b * k + o)) := by
  have hsum := uniform_sum mask k hk hu
  obtain ⟨h, hh⟩ : ∃ h, mask.countP (fun c => decide (c > 0)) = h := ⟨_, rfl⟩
  have hna : numberActive mask = h := hh
  rw [hna] at ha
  rw [hh] at hsum
  have hper : h * k / h = k := Nat.mul_div_cancel_left _ ha
  have htk : t < k := by omega
  have hblocks : (h * k + k - 1) / k = h := by
    rw [Nat.add_sub_assoc (by omega : 1 ≤ k), Nat.add_comm, Nat.add_mul_div_right _ _ hk, Nat.div_eq_of_lt (by omega), Nat.zero_add]
  have hbound : ∀ (f : Nat → Int) (m : Nat), (∀ o : Nat, o < m → f o < (k : Int)) → ∀ i ∈ (List.range h).flatMap
      (fun b => (List.range m).map (fun (o : Nat) => ((b * k : Nat) : Int) + f o)), ¬ i ≥ ((h * k : Nat) : Int) := by
    intro f m hf i hi
    rw [List.mem_flatMap] at hi
    obtain ⟨b, hb, hi⟩ := hi
    rw [List.mem_map] at hi
    obtain ⟨o, ho, rfl⟩ := hi
    rw [List.mem_range] at hb ho
    have h1 := hf o ho
    have h2 : (b + 1) * k ≤ h * k := Nat.mul_le_mul_right k hb
    have h3 : (b + 1) * k = b * k + k := Nat.succ_mul b k
    have h4 : ((b * k + k : Nat) : Int) ≤ ((h * k : Nat) : Int) := by rw [← h3]; exact_mod_cast h2
    push_cast at h4 ⊢
    omega
  unfold split
  simp only [hh, hsum, hper, hblocks, ht, Int.toNat_natCast]
  rw [if_neg (by omega), if_neg (by omega), if_neg]
  · refine ⟨_, rfl, ?_, ?_, ?_⟩
    · simp only; omega
    · simp only [List.map_map]
      apply List.map_congr_left
      intro c hc
      simp only [Function.comp]
      rcases hu c hc with rfl | rfl
      · simp
      · rw [if_neg (by omega)]; omega
    · rw [hna]
      simp only [List.map_flatMap, List.map_map]
      apply List.flatMap_congr
      intro b _
      apply List.map_congr_left
      intro o _
      simp only [Function.comp]
      omega
  · rw [Bool.not_eq_true, List.any_eq_false]
    intro i hi
    rw [decide_eq_true_eq]
    rcases List.mem_append.1 hi with hi | hi
    · exact hbound (fun o => (o : Int)) t (fun o ho => by omega) i hi
    · exact hbound (fun o => (t : Int) + (o : Int)) (k - t) (fun o ho => by omega) i hi

theorem maskTrain_active (mask : List Nat) (k t : Nat) (hu : ∀ c ∈ mask, c = 0 ∨ c = k) (ht : 0 < t) (hk : 0 < k) :
    (mask.map (fun c => if c = 0 then 0 else t)).countP (fun c => decide (c > 0)) = numberActive mask ∧
    (mask.map (fun c => if c = 0 then 0 else t)).sum = numberActive mask * t := by
  have h1 : (mask.map (fun c => if c = 0 then 0 else t)).countP (fun c => decide (c > 0)) = numberActive mask := by
    rw [List.countP_map]
    apply List.countP_congr
    intro c hc
    rcases hu c hc with rfl | rfl
    · simp
    · have : c ≠ 0 := by omega
      simp [this, ht, hk]
  refine ⟨h1, ?_⟩
  rw [uniform_sum _ t ht, h1]
  intro c hc
  rw [List.mem_map] at hc
  obtain ⟨d, _, rfl⟩ := hc
  split <;> simp

/-- Training samples in order: heliostat `h` contributes its first `t` of `k` samples. -/
def trainSamples (a k t : Nat) : List Nat := (List.range a).flatMap (fun b => (List.range t).map (fun o => b * k + o))

theorem trainSamples_length (a k t : Nat) : (trainSamples a k t).length = a * t := by
  induction a with
  | zero => simp [trainSamples]
  | succ a ih =>
    unfold trainSamples at ih ⊢
    rw [List.range_succ, List.flatMap_append, List.length_append, ih, Nat.succ_mul]
    simp

theorem trainSamples_get (a k t s : Nat) (hs : s < a * t) : (trainSamples a k t)[s]? = some (s / t * k + s % t) := by
  have ht : 0 < t := by
    rcases Nat.eq_zero_or_pos t with h | h
    · subst h; simp at hs
    · exact h
  induction a with
  | zero => simp at hs
  | succ a ih =>
    have hsplit : trainSamples (a + 1) k t = trainSamples a k t ++ (List.range t).map (fun o => a * k + o) := by
      unfold trainSamples
      rw [List.range_succ, List.flatMap_append]
      simp
    rw [hsplit]
    rcases Nat.lt_or_ge s (a * t) with h | h
    · rw [List.getElem?_append_left (by rw [trainSamples_length]; exact h)]
      exact ih h
    · rw [List.getElem?_append_right (by rw [trainSamples_length]; exact h), trainSamples_length]
      rw [Nat.succ_mul] at hs
      have hlt : s - a * t < t := by omega
      have hd : s / t = a := by
        rw [Nat.div_eq_of_lt_le] <;> [exact h; (rw [Nat.succ_mul]; exact hs)]
      have hm : s % t = s - a * t := by
        have := Nat.div_add_mod s t
        rw [hd, Nat.mul_comm] at this
        omega
      rw [hd, hm, List.getElem?_map, List.getElem?_range hlt]
      rfl


theorem sampleLosses_eval {P G L : Type} (testOf : Nat → Int) (loss : P → G → L) (mask : List Nat) (k t w r : Nat) (hk : 0 < k)
    (hu : ∀ c ∈ mask, c = 0 ∨ c = k) (ha : 0 < numberActive mask) (ht : (k : Int) - max 1 (testOf k) = t) (ht0 : 0 < t)
    (p : Nat → P) (q : Nat → G) :
    sampleLosses testOf loss mask (fun n => (List.range n).map p) ((List.range mask.sum).map q) w r =
      if Sampler.rankIndices (numberActive mask * t) (numberActive mask) w r = [] then .error .indexError else
      match pairLoss loss ((List.range (numberActive mask * t)).map p)
        ((Sampler.rankIndices (numberActive mask * t) (numberActive mask) w r).map (fun s => q (s / t * k + s % t))) with
      | .error e => .error e
      | .ok l => .ok (t, Sampler.rankIndices (numberActive mask * t) (numberActive mask) w r, l) := by
  obtain ⟨s, h1, h2, h3, h4⟩ := split_uniform testOf mask k hk hu ha t ht
  obtain ⟨m1, m2⟩ := maskTrain_active mask k t hu ht0 hk
  have hsum : mask.sum = numberActive mask * k := uniform_sum mask k hk hu
  have htk : t < k := by omega
  unfold sampleLosses
  rw [h1]
  simp only [h2, h3, h4]
  have hidx : Sampler.tracerRankIndices (mask.map (fun c => if c = 0 then 0 else t)) w r =
      Sampler.rankIndices (numberActive mask * t) (numberActive mask) w r := by
    unfold Sampler.tracerRankIndices
    rw [m1, m2]
  have hg1 : gather ((List.range mask.sum).map q)
      ((List.range (numberActive mask)).flatMap (fun b => (List.range t).map (fun o => b * k + o))) =
      .ok ((trainSamples (numberActive mask) k t).map q) := by
    have := gather_map ((List.range mask.sum).map q) (trainSamples (numberActive mask) k t) (fun s => s) q ?_
    · rw [List.map_id'] at this; exact this
    · intro x hx
      unfold trainSamples at hx
      rw [List.mem_flatMap] at hx
      obtain ⟨b, hb, hx⟩ := hx
      rw [List.mem_map] at hx
      obtain ⟨o, ho, rfl⟩ := hx
      rw [List.mem_range] at hb ho
      have e1 : (b + 1) * k ≤ numberActive mask * k := Nat.mul_le_mul_right k hb
      rw [Nat.succ_mul] at e1
      rw [List.getElem?_map, List.getElem?_range (by omega)]
      rfl
  rw [hg1, hidx]
  simp only
  have hg2 := gather_map ((trainSamples (numberActive mask) k t).map q)
    (Sampler.rankIndices (numberActive mask * t) (numberActive mask) w r) (fun s => s) (fun s => q (s / t * k + s % t)) (by
      intro x hx
      have hlt : x < numberActive mask * t := ((Sampler.C04_disjoint _ _ _).1 _).2 x hx
      rw [List.getElem?_map, trainSamples_get _ _ _ _ hlt]
      rfl)
  rw [List.map_id'] at hg2
  unfold gatherOwn
  by_cases hne : Sampler.rankIndices (numberActive mask * t) (numberActive mask) w r = []
  · rw [if_pos hne, if_pos hne]
  rw [if_neg hne, if_neg hne, hg2, m2]
  rfl

theorem rankIndices_alone (a t : Nat) (ha : 0 < a) : Sampler.rankIndices (a * t) a 1 0 = List.range (a * t) := by
  have hmin : min a 1 = 1 := by omega
  unfold Sampler.rankIndices
  simp only [hmin, Nat.mul_div_cancel_left t ha, Nat.mod_one]
  simp only [Nat.zero_lt_one, if_true]
  induction a with
  | zero => omega
  | succ a ih =>
    rcases Nat.eq_zero_or_pos a with h | h
    · subst h
      simp [List.range_eq_range']
    · rw [List.range_succ, List.flatMap_append, ih h (by omega), Nat.succ_mul, List.range_add]
      simp [List.range'_eq_map_range]

/-- The losses of heliostat `h`: its own predictions against its own measurements. -/
theorem reduce_own {P G L : Type} (loss : P → G → L) (reduction : List L → L) (a k t : Nat) (ht : 0 < t) (p : Nat → P) (q : Nat → G) :
    reduceLoss reduction t (List.zipWith loss ((List.range (a * t)).map p) ((List.range (a * t)).map (fun s => q (s / t * k + s % t)))) =
      .ok ((List.range a).map (fun h => reduction ((List.range t).map (fun j => loss (p (h * t + j)) (q (h * k + j)))))) := by
  have hz : List.zipWith loss ((List.range (a * t)).map p) ((List.range (a * t)).map (fun s => q (s / t * k + s % t))) =
      (List.range (a * t)).map (fun s => loss (p s) (q (s / t * k + s % t))) := by
    rw [List.zipWith_map, List.zipWith_self]
  rw [hz]
  unfold reduceLoss
  rw [if_neg (by omega)]
  congr 1
  rw [List.length_map, List.length_range, Nat.mul_div_cancel _ ht]
  apply List.map_congr_left
  intro h hh
  rw [List.mem_range] at hh
  congr 1
  apply List.ext_getElem?
  intro j
  have hb : (h + 1) * t ≤ a * t := Nat.mul_le_mul_right t hh
  rw [Nat.succ_mul] at hb
  rw [List.getElem?_take]
  split
  · rename_i hj
    rw [List.getElem?_drop, List.getElem?_map, List.getElem?_map, List.getElem?_range (by omega), List.getElem?_range hj]
    have e1 : (h * t + j) / t = h := by
      rw [Nat.add_comm, Nat.add_mul_div_right _ _ ht, Nat.div_eq_of_lt hj, Nat.zero_add]
    have e2 : (h * t + j) % t = j := by
      rw [Nat.add_comm, Nat.add_mul_mod_self_right, Nat.mod_eq_of_lt hj]
    simp [e1, e2]
  · rename_i hj
    rw [List.getElem?_eq_none]
    simp; omega


theorem le_sum (l : List Nat) (x : Nat) (h : x ∈ l) : x ≤ l.sum := by
  induction l with
  | nil => simp at h
  | cons y l ih =>
    rcases List.mem_cons.1 h with rfl | h
    · simp
    · have := ih h; simp; omega

theorem sum_zero (l : List Nat) (h : ∀ x ∈ l, x = 0) : l.sum = 0 := by
  induction l with
  | nil => rfl
  | cons y l ih =>
    have h1 := h y (by simp)
    have h2 := ih (fun x hx => h x (by simp [hx]))
    simp [h1, h2]

/-! ### Shared groups -/

theorem rankIndices_not_all (a t w r : Nat) (ha : 2 ≤ a) (hw : 2 ≤ w) (ht : 0 < t) :
    (Sampler.rankIndices (a * t) a w r).length ≠ a * t := by
  intro h
  obtain ⟨hnd, hlt⟩ := (Sampler.C04_disjoint (a * t) a w).1 r
  have hsub : Sampler.rankIndices (a * t) a w r ⊆ List.range (a * t) := fun s hs => List.mem_range.2 (hlt s hs)
  have hperm := (List.subperm_of_subset hnd hsub).perm_of_length_le (by rw [h, List.length_range])
  have hbound : 2 * t ≤ a * t := Nat.mul_le_mul_right t ha
  have hd : a * t / a = t := Nat.mul_div_cancel_left t (by omega)
  have m0 : 0 ∈ Sampler.rankIndices (a * t) a w r := hperm.mem_iff.2 (List.mem_range.2 (by omega))
  have m1 : t ∈ Sampler.rankIndices (a * t) a w r := hperm.mem_iff.2 (List.mem_range.2 (by omega))
  rw [Sampler.mem_rankIndices, hd] at m0 m1
  have e0 := m0.2.2.2
  have e1 := m1.2.2.2
  rw [Nat.div_self ht, Nat.mod_eq_of_lt (by omega)] at e1
  rw [Nat.zero_div, Nat.zero_mod] at e0
  omega

theorem rankIndices_idle (a t w r : Nat) (ht : 0 < t) (hr : min a w ≤ r) : Sampler.rankIndices (a * t) a w r = [] := by
  rw [List.eq_nil_iff_forall_not_mem]
  intro s hs
  rw [Sampler.mem_rankIndices] at hs
  omega

theorem rankIndices_busy (a t w r : Nat) (ht : 0 < t) (hr : r < min a w) : Sampler.rankIndices (a * t) a w r ≠ [] := by
  have hd : a * t / a = t := Nat.mul_div_cancel_left t (by omega)
  have : r * t ∈ Sampler.rankIndices (a * t) a w r := by
    rw [Sampler.mem_rankIndices, hd, Nat.mul_div_cancel _ ht]
    refine ⟨by omega, ht, ?_, Nat.mod_eq_of_lt hr⟩
    exact Nat.mul_lt_mul_of_pos_right (by omega) ht
  exact List.ne_nil_of_mem this

theorem collect_error {A : Type} (f : Nat → Except PyErr A) (rs : List Nat) (r : Nat) (hr : r ∈ rs) (h : ∃ e, f r = .error e) :
    ∃ e, collect f rs = .error e := by
  induction rs with
  | nil => simp at hr
  | cons x rs ih =>
    unfold collect
    cases hx : f x with
    | error e => exact ⟨e, rfl⟩
    | ok v =>
      simp only
      rcases List.mem_cons.1 hr with rfl | hr
      · obtain ⟨e, he⟩ := h; rw [hx] at he; simp at he
      · obtain ⟨e, he⟩ := ih hr
        rw [he]; exact ⟨e, rfl⟩

theorem rankIndices_single (a t w r x : Nat) (ha : 0 < a) (ht : 0 < t) (h : Sampler.rankIndices (a * t) a w r = [x]) :
    t = 1 ∧ x < a := by
  have hx : x ∈ Sampler.rankIndices (a * t) a w r := by rw [h]; simp
  have hd : a * t / a = t := Nat.mul_div_cancel_left t ha
  have hlt := ((Sampler.C04_disjoint (a * t) a w).1 r).2 x hx
  have hblock := (Sampler.C05_blocks_together (a * t) a w r).2.1
  rw [hd] at hblock
  have e : ∀ j, j < t → x / t * t + j = x := by
    intro j hj
    have := hblock x (x / t * t + j) hx (by
      rw [Nat.add_comm, Nat.add_mul_div_right _ _ ht, Nat.div_eq_of_lt hj, Nat.zero_add])
    rw [h] at this
    simpa using this
  have h0 := e 0 ht
  have h1 := e (t - 1) (by omega)
  have : t = 1 := by omega
  subst this
  exact ⟨rfl, by simpa using hlt⟩

theorem pairLoss_mismatch {P G L : Type} (loss : P → G → L) (ps : List P) (gs : List G) (h2 : 2 ≤ ps.length)
    (hne : gs.length ≠ ps.length) (h1 : gs.length ≠ 1) : pairLoss loss ps gs = .error .runtimeError := by
  unfold pairLoss
  rw [if_neg (fun h => hne h.symm)]
  match ps, gs, h2, h1 with
  | _ :: _ :: _, [], _, _ => rfl
  | _ :: _ :: _, _ :: _ :: _, _, _ => rfl
  | _ :: _ :: _, [_], _, h1 => exact absurd rfl h1

end Artist.Report
