import Verif.Proofs.Trace
import Verif.Props.Sampler
import Mathlib.Algebra.BigOperators.Group.List.Basic
/-! # C06, C07, C51: bookkeeping of the ray tracer (`artist/raytracing/heliostat_ray_tracer.py`) -/
namespace Artist.Trace
open Artist Artist.Sampler

/-- C06: for the index list of any rank and any positive batch size, tracing succeeds; a row owned by the rank
holds the result computed from that very sample's distortion and data, and every other row is left
unwritten. (`compute` covers scattering, intersection and splatting without blocking, which looks beyond one
sample; see `C06_blocking_depends_on_batch` in `Props/SoftMask.lean`.) -/
theorem C06_rows_partial {D S B : Type} (compute : D → S → B) (dist : Nat → D) (data : List S)
    (a w r bs : Nat) (hbs : 0 < bs) :
    ∃ rows, traceRays compute dist data (rankIndices data.length a w r) bs = .ok rows ∧
      rows.length = data.length ∧
      ∀ i x, data[i]? = some x →
        rows[i]? = some (if i ∈ rankIndices data.length a w r then some (compute (dist i) x) else none) := by
  rcases data with _ | ⟨d, ds⟩
  · have hnil : rankIndices ([] : List S).length a w r = [] := by
      rw [List.eq_nil_iff_forall_not_mem]; intro s hs
      have := ((C04_disjoint ([] : List S).length a w).1 r).2 s hs
      simp at this
    rw [hnil]
    have hb : ¬ bs = 0 := by omega
    exact ⟨[], by simp [traceRays, loader, chunks, batchLoop, hb], rfl, by simp⟩
  · refine ⟨_, traceRays_spec compute dist (d :: ds) d _ bs hbs (rankIndices_sorted _ a w r)
      ((C04_disjoint _ a w).1 r).2, by simp, ?_⟩
    intro i x hx
    have hi : i < (d :: ds).length := (List.getElem?_eq_some_iff.1 hx).1
    rw [List.getElem?_map, List.getElem?_range hi]
    simp only [Option.map_some, List.getD_eq_getElem?_getD, hx, Option.getD_some]

/-- C06: the result does not depend on the batch size (without blocking). -/
theorem C06_batch_size_irrelevant_partial {D S B : Type} (compute : D → S → B) (dist : Nat → D) (data : List S)
    (a w r bs bs' : Nat) (hbs : 0 < bs) (hbs' : 0 < bs') :
    traceRays compute dist data (rankIndices data.length a w r) bs
      = traceRays compute dist data (rankIndices data.length a w r) bs' := by
  obtain ⟨rows, h1, h2, h3⟩ := C06_rows_partial compute dist data a w r bs hbs
  obtain ⟨rows', h1', h2', h3'⟩ := C06_rows_partial compute dist data a w r bs' hbs'
  rw [h1, h1']
  congr 1
  apply List.ext_getElem?
  intro i
  by_cases hi : i < data.length
  · rw [h3 i _ (List.getElem?_eq_getElem hi), h3' i _ (List.getElem?_eq_getElem hi)]
  · rw [List.getElem?_eq_none (by omega), List.getElem?_eq_none (by omega)]

example : traceRays (fun (d : Nat) (s : Nat) => d + s) (fun i => 100 * i) [7, 8, 9, 5, 6, 4]
    (rankIndices 6 3 2 0) 3 = .ok [some 7, some 108, none, none, some 406, some 504] := by decide

/-- C06: the rejected batch size. -/
theorem C06_zero_batch_size {D S B : Type} (compute : D → S → B) (dist : Nat → D) (data : List S)
    (idx : List Nat) : traceRays compute dist data idx 0 = .error .valueError := by
  simp [traceRays]

/-- helper for C07: the masked selection picks exactly the bitmaps aimed at the target -/
theorem select_targets {B : Type} (bitmaps : List B) (targets : List Int) (t : Int) :
    select bitmaps (targets.map (fun x => decide (x = t)))
      = ((bitmaps.zip targets).filter (fun p => decide (p.2 = t))).map Prod.fst := by
  induction bitmaps generalizing targets with
  | nil => cases targets <;> simp [select]
  | cons b bs ih =>
    rcases targets with _ | ⟨x, xs⟩
    · simp [select]
    · simp only [List.map_cons, select, List.zip_cons_cons, List.filter_cons, ih xs]
      by_cases h : x = t <;> simp [h]

/-- C07: the bitmap of a target is the sum of exactly the bitmaps aimed at it (zero if there is none).
Targets with an out-of-range index therefore contribute nowhere. -/
theorem C07_per_target {B : Type} [AddCommMonoid B] (n : Nat) (bitmaps : List B) (targets : List Int) :
    (bitmapsPerTarget 0 (· + ·) n bitmaps targets).length = n ∧
    ∀ t : Nat, t < n → (bitmapsPerTarget 0 (· + ·) n bitmaps targets)[t]?
      = some (((bitmaps.zip targets).filter (fun p => decide (p.2 = (t : Int)))).map Prod.fst).sum := by
  refine ⟨by simp [bitmapsPerTarget], ?_⟩
  intro t ht
  simp only [bitmapsPerTarget, List.getElem?_map, List.getElem?_range ht, Option.map_some]
  congr 1
  split
  · rw [select_targets, List.sum_eq_foldl]
  · rename_i h
    have : (bitmaps.zip targets).filter (fun p => decide (p.2 = (t : Int))) = [] := by
      rw [List.filter_eq_nil_iff]
      rintro ⟨b, x⟩ hx hd
      apply h
      simp only [decide_eq_true_eq] at hd
      rw [List.any_eq_true]
      exact ⟨true, List.mem_map.2 ⟨x, (List.of_mem_zip hx).2, by simp [hd]⟩, rfl⟩
    rw [this]; simp

/-- C07, conservation: if every target index is valid, the bitmaps per target add up to the bitmaps per
heliostat. -/
theorem C07_conservation {B : Type} [AddCommMonoid B] (n : Nat) (bitmaps : List B) (targets : List Int)
    (hl : bitmaps.length = targets.length) (hv : ∀ t ∈ targets, 0 ≤ t ∧ t < n) :
    (bitmapsPerTarget 0 (· + ·) n bitmaps targets).sum = bitmaps.sum := by
  have hform : bitmapsPerTarget 0 (· + ·) n bitmaps targets = (List.range n).map (fun (t : Nat) =>
      (((bitmaps.zip targets).filter (fun p => decide (p.2 = (t : Int)))).map Prod.fst).sum) := by
    apply List.ext_getElem?
    intro t
    by_cases ht : t < n
    · rw [(C07_per_target n bitmaps targets).2 t ht]; simp [ht]
    · rw [List.getElem?_eq_none (by rw [(C07_per_target n bitmaps targets).1]; omega),
        List.getElem?_eq_none (by simp; omega)]
  rw [hform]
  have key : ∀ (l : List (B × Int)), (∀ p ∈ l, 0 ≤ p.2 ∧ p.2 < n) →
      ((List.range n).map (fun (t : Nat) => ((l.filter (fun p => decide (p.2 = (t : Int)))).map Prod.fst).sum)).sum
        = (l.map Prod.fst).sum := by
    intro l
    induction l with
    | nil => intro _; simp
    | cons p l ih =>
      intro h
      have hp := h p List.mem_cons_self
      obtain ⟨k, hk⟩ := Int.eq_ofNat_of_zero_le hp.1
      have hkn : k < n := by have := hp.2; rw [hk] at this; exact_mod_cast this
      rw [List.map_cons, List.sum_cons, ← ih (fun q hq => h q (List.mem_cons_of_mem _ hq))]
      have hstep : ∀ t : Nat, (((p :: l).filter (fun p => decide (p.2 = (t : Int)))).map Prod.fst).sum
          = (if t = k then p.1 else 0) + ((l.filter (fun p => decide (p.2 = (t : Int)))).map Prod.fst).sum := by
        intro t
        rw [List.filter_cons]
        by_cases ht : t = k
        · subst ht; simp [hk]
        · have : ¬ p.2 = (t : Int) := by rw [hk]; intro h; apply ht; exact_mod_cast h.symm
          simp [this, ht]
      simp only [hstep]
      rw [List.sum_map_add]
      congr 1
      clear hform ih hstep
      have : ∀ m, k < m → ((List.range m).map (fun t => if t = k then p.1 else 0)).sum = p.1 := by
        intro m
        induction m with
        | zero => intro h; omega
        | succ m ih =>
          intro hm
          rw [List.range_succ, List.map_append, List.sum_append]
          by_cases hkm : k = m
          · subst hkm
            have : ((List.range k).map (fun t => if t = k then p.1 else 0)) = (List.range k).map (fun _ => 0) := by
              apply List.map_congr_left; intro a ha; simp at ha; simp [show a ≠ k by omega]
            rw [this]; simp
          · rw [ih (by omega)]; simp [Ne.symm hkm]
      exact this n hkn
  rw [key (bitmaps.zip targets) (fun p hp => hv p.2 (List.of_mem_zip hp).2), List.map_fst_zip (by omega)]

example : bitmapsPerTarget 0 (· + ·) 3 [1, 10, 100] [2, 0, 2] = [10, 0, (101 : Nat)] ∧
    (∀ t ∈ [2, 0, (2 : Int)], 0 ≤ t ∧ t < ((3 : Nat) : Int)) := by decide

/-- C51 (false in general, see the counterexamples): for the first heliostat group of the scenario and a
0/1 activation mask, the heliostat excluded from blocking sample `s` is the one owning `s`.
Missing: further groups, repeated activations. -/
theorem C51_owner_first_group_partial (groupSizes mask : List Nat) (h01 : ∀ c ∈ mask, c ≤ 1) (s : Nat)
    (hs : s < mask.sum) :
    ∃ i, ownerIndex mask s = .ok i ∧ (trueOwner mask)[s]? = some i ∧
      primitiveIndex groupSizes 0 i = i := by
  have key : ∀ (m : List Nat) (o : Nat), (∀ c ∈ m, c ≤ 1) →
      (List.range' o m.length).filter (fun i => decide (m.getD (i - o) 0 ≠ 0))
        = repeatInterleave (List.range' o m.length) m ∧
      (repeatInterleave (List.range' o m.length) m).length = m.sum := by
    intro m
    induction m with
    | nil => intro o _; simp [repeatInterleave]
    | cons c cs ih =>
      intro o h
      obtain ⟨h1, h2⟩ := ih (o + 1) (fun c hc => h c (List.mem_cons_of_mem _ hc))
      have hc := h c List.mem_cons_self
      simp only [List.length_cons, List.range'_succ, repeatInterleave, List.sum_cons, List.length_append,
        List.length_replicate, h2, List.filter_cons]
      have hcongr : (List.range' (o+1) cs.length).filter (fun i => decide ((c :: cs).getD (i - o) 0 ≠ 0))
          = (List.range' (o+1) cs.length).filter (fun i => decide (cs.getD (i - (o + 1)) 0 ≠ 0)) := by
        apply List.filter_congr
        intro i hi
        simp at hi
        rw [show i - o = (i - (o + 1)) + 1 by omega]; simp
      rw [hcongr, h1]
      refine ⟨?_, trivial⟩
      rcases Nat.eq_zero_or_pos c with h0 | h0
      · subst h0; simp
      · have : c = 1 := by omega
        subst this; simp
  obtain ⟨h1, h2⟩ := key mask 0 h01
  have hnz : nonzero mask = trueOwner mask := by
    unfold nonzero trueOwner
    simpa [List.range_eq_range'] using h1
  have hlen : s < (trueOwner mask).length := by
    unfold trueOwner; rw [List.range_eq_range', h2]; exact hs
  refine ⟨(trueOwner mask)[s], ?_, List.getElem?_eq_getElem hlen, by simp [primitiveIndex]⟩
  unfold ownerIndex
  rw [hnz, List.getElem?_eq_getElem hlen]

example : (∀ c ∈ [1, 0, 1], c ≤ 1) ∧ 1 < [1, 0, 1].sum ∧ ownerIndex [1, 0, 1] 1 = .ok 2 := by decide

/-- C51 is false for further groups: in a field with groups of two heliostats each, the rays of the first
heliostat of the second group (blocking primitive 2) exclude primitive 0, a heliostat of the first group,
and do not exclude their own primitive. -/
theorem C51_wrong_owner_second_group :
    ∃ (groupSizes mask : List Nat) (group s i : Nat), (trueOwner mask)[s]? = some i ∧
      ownerIndex mask s = .ok 0 ∧ primitiveIndex groupSizes group i = 2 ∧
      groupSizes[group]? = some mask.length :=
  ⟨[2, 2], [1, 1], 1, 0, 0, by decide, by decide, by decide, by decide⟩

/-- In general: in any group behind a non-empty one, no ray ever excludes its own blocking primitive
(0/1 masks). -/
theorem C51_never_own_primitive (groupSizes mask : List Nat) (group s i : Nat) (h01 : ∀ c ∈ mask, c ≤ 1)
    (hs : s < mask.sum) (ho : (trueOwner mask)[s]? = some i) (hpos : 0 < (groupSizes.take group).sum) :
    ∃ j, ownerIndex mask s = .ok j ∧ j ≠ primitiveIndex groupSizes group i := by
  obtain ⟨j, h1, h2, _⟩ := C51_owner_first_group_partial groupSizes mask h01 s hs
  rw [ho] at h2
  simp at h2; subst h2
  exact ⟨i, h1, by unfold primitiveIndex; omega⟩

/-- C51, repeated activation: with a heliostat activated twice, the blocking set-up already fails
(`RuntimeError`), for any group in which some heliostat is active more often than once and every
heliostat has one aligned surface per activation. -/
theorem C51_repeated_activation_fails {α : Type} (surfaces active : List α) (mask : List Nat)
    (ha : active.length = mask.sum) (h2 : ∃ c ∈ mask, 2 ≤ c) :
    blockingSurfaces surfaces mask active = .error .runtimeError := by
  have hlt : ∀ m : List Nat, (m.map (fun c => decide (c ≠ 0))).countP (fun b => b) ≤ m.sum ∧
      ((∃ c ∈ m, 2 ≤ c) → (m.map (fun c => decide (c ≠ 0))).countP (fun b => b) < m.sum ∧ 2 ≤ m.sum) := by
    intro m
    induction m with
    | nil => simp
    | cons c cs ih =>
      obtain ⟨h1, h2⟩ := ih
      simp only [List.map_cons, List.countP_cons, List.sum_cons]
      have hc : (if (decide (c ≠ 0)) = true then 1 else 0) ≤ c := by
        split
        · rename_i h; simp at h; omega
        · omega
      refine ⟨by omega, ?_⟩
      rintro ⟨d, hd, hd2⟩
      rcases List.mem_cons.1 hd with h | h
      · subst h
        have : (if (decide (d ≠ 0)) = true then 1 else 0) ≤ 1 := by split <;> omega
        omega
      · have := h2 ⟨d, h, hd2⟩; omega
  obtain ⟨h3, h4⟩ := (hlt mask).2 h2
  unfold blockingSurfaces
  simp only
  have hany : ((mask.map (fun c => decide (c ≠ 0))).any id) = true := by
    obtain ⟨c, hc, hc2⟩ := h2
    rw [List.any_eq_true]
    exact ⟨true, List.mem_map.2 ⟨c, hc, by simp; omega⟩, rfl⟩
  rw [if_pos hany, if_neg (by omega)]
  rcases active with _ | ⟨a, _ | ⟨b, l⟩⟩
  · rfl
  · simp at ha; omega
  · rfl

example : blockingSurfaces [0, 1] [2, 1] [10, 11, 12] = .error .runtimeError := by decide

/-- C51: when every heliostat is activated at most once, the surface used for blocking of heliostat `i` is its aligned surface (the active row that belongs
to it) if it is active and its unaligned surface otherwise; nothing is added or lost. -/
theorem C51_surfaces {α : Type} (surfaces active : List α) (mask : List Nat) (hs : surfaces.length = mask.length)
    (h01 : ∀ c ∈ mask, c ≤ 1) (ha : active.length = mask.sum) :
    ∃ result, blockingSurfaces surfaces mask active = .ok result ∧ result.length = surfaces.length ∧
      ∀ i c, mask[i]? = some c → result[i]? = if c = 0 then surfaces[i]? else active[(mask.take i).sum]? := by
  have hcount : ∀ (l : List Nat), (∀ c ∈ l, c ≤ 1) → (l.map (fun c => decide (c ≠ 0))).countP (fun b => b) = l.sum := by
    intro l
    induction l with
    | nil => intro _; rfl
    | cons d ds ih =>
      intro h
      have hd := h d (by simp)
      have := ih (fun c hc => h c (by simp [hc]))
      rcases Nat.eq_zero_or_pos d with rfl | hp
      · simpa using this
      · obtain rfl : d = 1 := by omega
        rw [List.map_cons, List.countP_cons_of_pos (by simp), this, List.sum_cons, Nat.add_comm]
  have hlen : ∀ (rows : List α) (m : List Bool) (v : List α), (assign rows m v).length = rows.length := by
    intro rows
    induction rows with
    | nil => intro m v; cases m <;> simp [assign]
    | cons r rows ih =>
      intro m v
      cases m with
      | nil => simp [assign]
      | cons b m => cases b <;> cases v <;> simp [assign, ih]
  by_cases hany : (mask.map (fun c => decide (c ≠ 0))).any id = true
  · refine ⟨assign surfaces (mask.map (fun c => decide (c ≠ 0))) active, ?_, hlen _ _ _, ?_⟩
    · simp only [blockingSurfaces]
      rw [if_pos hany, if_pos (by rw [hcount mask h01, ha])]
    · exact fun i c hi => assign_spec surfaces active mask hs h01 ha i c hi
  · refine ⟨surfaces, ?_, rfl, ?_⟩
    · simp only [blockingSurfaces]
      rw [if_neg hany]
    · intro i c hi
      have : c = 0 := by
        by_contra hc
        exact hany (List.any_eq_true.2 ⟨true, List.mem_map.2 ⟨c, List.mem_of_getElem? hi, by simp [hc]⟩, rfl⟩)
      simp [this]

example : blockingSurfaces [10, 20, 30] [1, 0, 1] [11, 31] = .ok [11, 20, 31] := by decide

end Artist.Trace
