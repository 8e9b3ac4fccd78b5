import Verif.Model.LBVH
import Verif.Spec.LBVH
import Verif.Proofs.LBVHFilter
import Mathlib.Data.Rat.Floor
/-!
# Properties of the blocking filter (C09, C10, C11, C14)

Full statement of C09: for every field and all rays the filter returns `bruteForce`.  This is **false** for the
code (`C09_filter_drops_blockers`); what holds is stated in the `_partial` theorems.

Full statement of C10: for every non-empty field and all rays the filter finishes without an error.  This is
**false** for the code (`C10_hangs_coinciding`, `C10_hangs_cluster`).
-/
namespace Artist.LBVH
open Artist Artist.Morton

section
variable {K : Type} [Field K] [LinearOrder K] [IsStrictOrderedRing K] [FloorRing K]

/-! ## C09 -/

/-- Whatever the field (coinciding positions included): a returned primitive exists and its box is hit, before the
target, by a ray that it does not own. -/
theorem C09_no_false_blockers (corners : List (V3 K × V3 K × V3 K × V3 K)) (rays : List (Ray K)) (fuel : Nat)
    (res : List Nat) (h : lbvhFilter corners rays fuel = some (.ok res)) (p : Nat) (hp : p ∈ res) :
    ∃ c, corners[p]? = some c ∧ ∃ ray ∈ rays, ray.owner ≠ p ∧ hits ray (cornerBox c) = true := by
  by_cases hne : corners = []
  · subst hne; unfold lbvhFilter at h; simp only [List.map_nil] at h; split at h <;> simp at h
  obtain ⟨codes, hlen, _, heq, _⟩ := filter_codes corners hne
  rw [heq] at h
  obtain ⟨h1, h2⟩ := filter_sound codes _ rays fuel res h p hp
  rw [hlen] at h1
  rw [getD_corners corners p h1] at h2
  exact ⟨corners[p], List.getElem?_eq_getElem h1, h2⟩

/-- Partial: if no three centres share a grid cell, the result is ascending and holds exactly the primitives that
brute force reports *and* whose leaf can be reached from the root of the tree built for the field.  Missing for the full claim: every
leaf is reachable (false, see below), and three or more centres in a cell. -/
theorem C09_reported_iff_partial (corners : List (V3 K × V3 K × V3 K × V3 K)) (hne : corners ≠ [])
    (hcells : NoThree (gridCells corners)) :
    ∃ codes c cs, corners.map centroid = c :: cs ∧ mortonCodes (1 / 10 ^ 6) c cs = .ok codes ∧ ∀ rays : List (Ray K), ∃ F res, (∀ fuel, F ≤ fuel → lbvhFilter corners rays fuel = some (.ok res)) ∧
      res.Pairwise (· < ·) ∧
      ∀ p, p ∈ res ↔ p ∈ bruteForce (corners.map cornerBox) rays ∧ LeafReachable (buildFromCodes codes (corners.map cornerBox)) p := by
  obtain ⟨codes, hlen, h30, heq, hnd, _, c, cs, hc, hm⟩ := filter_codes corners hne
  have hcne : codes ≠ [] := by
    intro h; subst h; simp at hlen; exact hne (List.length_eq_zero_iff.1 hlen.symm)
  refine ⟨codes, c, cs, hc, hm, fun rays => ?_⟩
  obtain ⟨F, res, h1, h2, h3⟩ := filter_spec codes (corners.map cornerBox) (hnd hcells) h30 hcne (by
    intro p hp; rw [getD_corners corners p (by omega)]; exact cornerBox_proper _) rays
  refine ⟨F, res, fun fuel hf => by rw [heq]; exact h1 fuel hf, h2, ?_⟩
  intro p
  rw [h3 p]
  unfold bruteForce
  simp only [List.mem_filter, List.mem_range, List.any_eq_true, Bool.and_eq_true, decide_eq_true_eq, List.length_map, hlen]
  constructor
  · rintro ⟨a, b, c⟩; exact ⟨⟨a, c⟩, b⟩
  · rintro ⟨⟨a, c⟩, b⟩; exact ⟨a, b, c⟩

/-- Partial: with at most five primitives, no three in a cell, the filter is exactly brute force, for all rays. -/
theorem C09_exact_upto_five_partial (corners : List (V3 K × V3 K × V3 K × V3 K)) (hne : corners ≠ [])
    (hcells : NoThree (gridCells corners)) (h5 : corners.length ≤ 5) (rays : List (Ray K)) :
    ∃ F, ∀ fuel, F ≤ fuel → lbvhFilter corners rays fuel = some (.ok (bruteForce (corners.map cornerBox) rays)) := by
  obtain ⟨codes, hlen, h30, heq, hnd, _⟩ := filter_codes corners hne
  have hcne : codes ≠ [] := by
    intro h; subst h; simp at hlen; exact hne (List.length_eq_zero_iff.1 hlen.symm)
  obtain ⟨F, res, h1, h2, h3⟩ := filter_spec codes (corners.map cornerBox) (hnd hcells) h30 hcne (by
    intro p hp; rw [getD_corners corners p (by omega)]; exact cornerBox_proper _) rays
  have hex := exact_of_le_five (delta_of codes (hnd hcells) h30) (by omega)
  refine ⟨F, fun fuel hf => ?_⟩
  rw [heq, h1 fuel hf]
  congr 2
  apply eq_bruteForce _ _ _ h2
  intro p
  rw [h3 p, List.length_map, ← hlen]
  constructor
  · rintro ⟨a, _, c⟩; exact ⟨a, c⟩
  · rintro ⟨a, c⟩; exact ⟨a, leafReachable_of_exact codes _ (hnd hcells) h30 hex p a, c⟩

/-- Partial: any number of primitives, provided that for every inner node half of its (rounded up) number of
leaves is a power of two.  These are the lengths for which repeated floor-halving visits every power of two, so that the
split search cannot step over the right position. -/
theorem C09_exact_pow2_partial (codes : List (BitVec 32)) (boxes : List (Box K)) (hcne : codes ≠ [])
    (hnd : NoThree codes) (h30 : ∀ c ∈ codes, Is30Bit c) (hlen : boxes.length = codes.length)
    (hprop : ∀ b ∈ boxes, b.Proper)
    (hpow : ∀ i, i < codes.length - 1 → ∃ k,
      (rangeLength codes.length (lcp ((sortCodes codes).map Prod.fst)) i + 1) / 2 = 2 ^ k)
    (rays : List (Ray K)) :
    ∃ F, ∀ fuel, F ≤ fuel → filterFromCodes codes boxes rays fuel = some (.ok (bruteForce boxes rays)) := by
  obtain ⟨F, res, h1, h2, h3⟩ := filter_spec codes boxes hnd h30 hcne (by
    intro p hp
    rw [List.getD_eq_getElem?_getD, List.getElem?_eq_getElem (by omega)]
    exact hprop _ (List.getElem_mem _)) rays
  have hex := exact_of_pow2 (delta_of codes hnd h30) hpow
  refine ⟨F, fun fuel hf => ?_⟩
  rw [h1 fuel hf]
  congr 2
  apply eq_bruteForce _ _ _ h2
  intro p
  rw [h3 p, hlen]
  constructor
  · rintro ⟨a, _, c⟩; exact ⟨a, c⟩
  · rintro ⟨a, c⟩; exact ⟨a, leafReachable_of_exact codes _ hnd h30 hex p a, c⟩

theorem some_ray_hits {K : Type} [Field K] [LinearOrder K] [IsStrictOrderedRing K] (boxes : List (Box K)) (hprop : ∀ b ∈ boxes, b.Proper) (p : Nat) (hpb : p < boxes.length) :
    ∃ ray : Ray K, p ∈ bruteForce boxes [ray] := by
  have pr := hprop boxes[p] (List.getElem_mem hpb)
  set b := boxes[p] with hb
  let d : K := 1 - 1 / 10 ^ 12
  let ray : Ray K := ⟨⟨b.mn.e - 1, b.mn.n - 1, b.mn.u - 1⟩, ⟨d, d, d⟩, p + 1, 2⟩
  have hg : boxes.getD p zeroBox = b := by
    rw [List.getD_eq_getElem?_getD, List.getElem?_eq_getElem hpb]; rfl
  have hhit : hits ray b = true := by
    unfold Box.Proper at pr
    obtain ⟨p1, p2, p3⟩ := pr
    have e1 : (1 : K) / (d + 1 / 10 ^ 12) = 1 := by simp [d]
    have h6 : (1 : K) / 10 ^ 6 < 1 := by norm_num
    unfold hits rayAabb
    simp only [ray, e1, V3.map₂, mul_one, V3.sub_e, V3.sub_n, V3.sub_u, sub_sub_cancel]
    have q1 : (1 : K) ≤ b.mx.e - (b.mn.e - 1) := by linarith
    have q2 : (1 : K) ≤ b.mx.n - (b.mn.n - 1) := by linarith
    have q3 : (1 : K) ≤ b.mx.u - (b.mn.u - 1) := by linarith
    rw [min_eq_left q1, min_eq_left q2, min_eq_left q3, max_eq_right q1, max_eq_right q2, max_eq_right q3]
    simp only [max_self, ge_iff_le, gt_iff_lt, Bool.and_eq_true, decide_eq_true_eq]
    exact ⟨⟨le_min (le_min q1 q2) q3, lt_of_lt_of_le h6 (le_min (le_min q1 q2) q3)⟩, by norm_num⟩
  refine ⟨ray, ?_⟩
  unfold bruteForce
  simp only [List.mem_filter, List.mem_range, hpb, true_and, List.any_cons, List.any_nil, Bool.or_false,
    Bool.and_eq_true, decide_eq_true_eq]
  exact ⟨by simp [ray], by rw [hg]; exact hhit⟩

/-- The exact condition: for a field with no three centres in a cell the filter agrees with brute force for *all* rays if and
only if every primitive's leaf can be reached from the root. -/
theorem C09_exact_iff_all_reachable (codes : List (BitVec 32)) (boxes : List (Box K)) (hcne : codes ≠ [])
    (hnd : NoThree codes) (h30 : ∀ c ∈ codes, Is30Bit c) (hlen : boxes.length = codes.length)
    (hprop : ∀ b ∈ boxes, b.Proper) :
    (∀ rays : List (Ray K), ∃ F, ∀ fuel, F ≤ fuel →
      filterFromCodes codes boxes rays fuel = some (.ok (bruteForce boxes rays))) ↔
    ∀ p, p < codes.length → LeafReachable (buildFromCodes codes boxes) p := by
  have spec := filter_spec codes boxes hnd h30 hcne (by
    intro p hp
    rw [List.getD_eq_getElem?_getD, List.getElem?_eq_getElem (by omega)]
    exact hprop _ (List.getElem_mem _))
  constructor
  · intro hall p hp
    obtain ⟨ray, hmem⟩ := some_ray_hits boxes hprop p (by omega)
    obtain ⟨F, hF⟩ := hall [ray]
    obtain ⟨F', res, h1, _, h3⟩ := spec [ray]
    have e := h1 (max F F') (le_max_right _ _)
    rw [hF _ (le_max_left _ _)] at e
    simp only [Option.some.injEq, Except.ok.injEq] at e
    rw [e, h3] at hmem
    exact hmem.2.1
  · intro hreach rays
    obtain ⟨F, res, h1, h2, h3⟩ := spec rays
    refine ⟨F, fun fuel hf => ?_⟩
    rw [h1 fuel hf]
    congr 2
    apply eq_bruteForce _ _ _ h2
    intro p
    rw [h3 p, hlen]
    constructor
    · rintro ⟨a, _, c⟩; exact ⟨a, c⟩
    · rintro ⟨a, c⟩; exact ⟨a, hreach p a, c⟩

end

/-- A 2 m × 2 m rectangle standing at east `e`, north `n`. -/
def quad (e n : ℚ) : V3 ℚ × V3 ℚ × V3 ℚ × V3 ℚ := (⟨e - 1, n, 0⟩, ⟨e + 1, n, 0⟩, ⟨e - 1, n, 2⟩, ⟨e + 1, n, 2⟩)

/-- Two rows of three heliostats: east 0, 10, 20 in the rows north 0 and north 100. -/
def twoRows : List (V3 ℚ × V3 ℚ × V3 ℚ × V3 ℚ) :=
  [quad 0 0, quad 10 0, quad 20 0, quad 0 100, quad 10 100, quad 20 100]

/-- A ray from the middle heliostat of the front row straight at the middle heliostat of the back row. -/
def backRay : Ray ℚ := ⟨⟨10, 50, 1⟩, ⟨1 / 100, 1, 1 / 1000⟩, 1, 1000⟩

/-- C09 is false as stated: in an ordinary 2 × 3 field the filter returns nothing for a ray that runs straight
through heliostat 4. -/
theorem C09_filter_drops_blockers :
    (gridCells twoRows).Nodup ∧ bruteForce (twoRows.map cornerBox) [backRay] = [4] ∧
    lbvhFilter twoRows [backRay] 100 = some (.ok []) := by
  refine ⟨by decide +kernel, by decide +kernel, ?_⟩
  have hm : mortonCodes (1 / 10 ^ 6) (centroid (quad 0 0)) ((twoRows.map centroid).tail) =
      .ok [0#32, 589968#32, 4719744#32, 613566752#32, 614156720#32, 618286496#32] := by decide +kernel
  have hl : lbvhFilter twoRows [backRay] 100 = filterFromCodes
      [0#32, 589968#32, 4719744#32, 613566752#32, 614156720#32, 618286496#32] (twoRows.map cornerBox) [backRay] 100 := by
    unfold lbvhFilter
    simp only [twoRows, List.map_cons]
    simp only [twoRows, List.map_cons, List.tail_cons] at hm
    rw [hm]
  rw [hl]
  have hs := sortCodes_of_sorted [0#32, 589968#32, 4719744#32, 613566752#32, 614156720#32, 618286496#32] (by decide)
  unfold filterFromCodes filterWith buildFromCodes
  simp only
  rw [hs]
  decide +kernel

/-- hypotheses of the partial theorems: three heliostats with distinct cells -/
example : NoThree (gridCells [quad 0 0, quad 10 0, quad 0 100]) ∧ [quad 0 0, quad 10 0, quad 0 100] ≠ [] :=
  ⟨noThree_of_nodup (by decide +kernel), by decide +kernel⟩

/-- and three of which two lie in one cell of a field 10 km wide -/
example : NoThree (gridCells [quad 0 0, quad 2 0, quad 10000 0]) ∧ ¬ (gridCells [quad 0 0, quad 2 0, quad 10000 0]).Nodup := by
  refine ⟨?_, by decide +kernel⟩
  have e : gridCells [quad 0 0, quad 2 0, quad 10000 0] = [⟨0, 0, 0⟩, ⟨0, 0, 0⟩, ⟨1022, 0, 0⟩] := by decide +kernel
  rw [e]
  intro i j k x hij hjk hik hi hj hk
  have h1 := (List.getElem?_eq_some_iff.1 hi).1
  have h2 := (List.getElem?_eq_some_iff.1 hj).1
  have h3 := (List.getElem?_eq_some_iff.1 hk).1
  simp only [List.length_cons, List.length_nil] at h1 h2 h3
  have : i = 2 ∨ j = 2 ∨ k = 2 := by omega
  have : i = 0 ∨ j = 0 ∨ k = 0 := by omega
  have hx0 : x = ⟨0, 0, 0⟩ := by
    rcases this with rfl | rfl | rfl
    · simpa using hi.symm
    · simpa using hj.symm
    · simpa using hk.symm
  have hx2 : x = ⟨1022, 0, 0⟩ := by
    rcases ‹i = 2 ∨ j = 2 ∨ k = 2› with rfl | rfl | rfl
    · simpa using hi.symm
    · simpa using hj.symm
    · simpa using hk.symm
  rw [hx0] at hx2
  exact absurd hx2 (by decide)

/-! ## C10 -/

section
variable {K : Type} [Field K] [LinearOrder K] [IsStrictOrderedRing K] [FloorRing K]

/-- Partial: if no three centres share a grid cell the filter finishes, without `RuntimeError` or any other error, for
all rays.  Missing: fields with three or more centres in a cell, for which it is false. -/
theorem C10_terminates_partial (corners : List (V3 K × V3 K × V3 K × V3 K)) (hne : corners ≠ [])
    (hcells : NoThree (gridCells corners)) (rays : List (Ray K)) :
    ∃ F res, ∀ fuel, F ≤ fuel → lbvhFilter corners rays fuel = some (.ok res) := by
  obtain ⟨_, _, _, _, _, h⟩ := C09_reported_iff_partial corners hne hcells
  obtain ⟨F, res, h1, _⟩ := h rays
  exact ⟨F, res, h1⟩

/-- Partial (no three equal codes): the computed depth is the number of nodes on the longest downward path from the root. -/
theorem C10_depth_partial (codes : List (BitVec 32)) (boxes : List (Box K)) (hne : codes ≠ []) (hnd : NoThree codes)
    (h30 : ∀ c ∈ codes, Is30Bit c) :
    ∃ F depth, (∀ fuel, F ≤ fuel →
        maxDepth (buildFromCodes codes boxes).left (buildFromCodes codes boxes).right fuel = some (.ok depth)) ∧
      (∃ node k, Path (buildFromCodes codes boxes).left (buildFromCodes codes boxes).right 0 node k ∧ depth = k + 1) ∧
      ∀ node k, Path (buildFromCodes codes boxes).left (buildFromCodes codes boxes).right 0 node k → k + 1 ≤ depth :=
  tree_depth codes boxes hnd h30 hne

/-- C10 is false as stated: three or more primitives with the same centre make the depth computation run for ever,
whatever the rays. -/
theorem C10_hangs_coinciding (n : Nat) (hn : 3 ≤ n) (c : V3 K × V3 K × V3 K × V3 K) (rays : List (Ray K)) (fuel : Nat) :
    lbvhFilter (List.replicate n c) rays fuel = none := by
  obtain ⟨codes, hlen, _, heq, _, _, p, ps, hc, hm⟩ := filter_codes (List.replicate n c) (by simp; omega)
  rw [heq]
  have hall : ∃ v, codes = List.replicate n v := by
    obtain ⟨m, rfl⟩ : ∃ m, n = m + 1 := ⟨n - 1, by omega⟩
    rw [List.map_replicate, List.replicate_succ, List.cons.injEq] at hc
    obtain ⟨rfl, rfl⟩ := hc
    have hq : ∃ q, quantised (K := K) (1 / 10 ^ 6) (centroid c) (List.replicate m (centroid c)) = List.replicate (m + 1) q := by
      unfold quantised
      simp only [List.map_cons, List.map_replicate]
      exact ⟨_, (List.replicate_succ).symm⟩
    obtain ⟨q, hq⟩ := hq
    unfold mortonCodes at hm
    rw [hq] at hm
    have key : ∀ (k : Nat) (out : List (BitVec 32)) (f : V3 Int → Except PyErr (BitVec 32)),
        (List.replicate k q).mapM f = .ok out → ∃ v, out = List.replicate k v := by
      intro k out f
      induction k generalizing out with
      | zero => intro h; simp only [List.replicate_zero, List.mapM_nil] at h; cases h; exact ⟨0#32, rfl⟩
      | succ k ih =>
        intro h
        rw [List.replicate_succ, List.mapM_cons] at h
        cases hf : f q with
        | error e => rw [hf] at h; cases h
        | ok v =>
          rw [hf] at h
          cases hr : (List.replicate k q).mapM f with
          | error e => rw [hr] at h; cases h
          | ok o =>
            rw [hr] at h
            cases h
            refine ⟨v, ?_⟩
            rw [List.replicate_succ]
            congr 1
            cases k with
            | zero => obtain ⟨v', rfl⟩ := ih o hr; rfl
            | succ k =>
              obtain ⟨v', rfl⟩ := ih o hr
              rw [List.replicate_succ, List.mapM_cons, hf] at hr
              cases hr' : (List.replicate k q).mapM f with
              | error e => rw [hr'] at hr; cases hr
              | ok o' =>
                rw [hr'] at hr
                have : v :: o' = List.replicate (k + 1) v' := by cases hr; rfl
                rw [List.replicate_succ, List.cons.injEq] at this
                rw [this.1]
    exact key _ _ _ hm
  obtain ⟨v, rfl⟩ := hall
  unfold filterFromCodes filterWith
  simp only
  have : maxDepth (buildFromCodes (List.replicate n v) ((List.replicate n c).map cornerBox)).left
      (buildFromCodes (List.replicate n v) ((List.replicate n c).map cornerBox)).right fuel = none := by
    rw [tree_left, tree_right]
    have hs : sortedOf (List.replicate n v) = List.replicate n v := by
      unfold sortedOf
      rw [sortCodes_of_sorted _ (by rw [List.pairwise_replicate]; exact Or.inr (le_refl _)), List.zipIdx_map_fst]
    rw [hs, List.length_replicate]
    exact flat_cycle n _ hn (fun i j hi => lcp_replicate n v i hi j) fuel
  rw [this]

/-- Without any primitive the filter raises `IndexError`. -/
theorem C10_empty_field (rays : List (Ray K)) (fuel : Nat) (hf : 0 < fuel) :
    lbvhFilter ([] : List (V3 K × V3 K × V3 K × V3 K)) rays fuel = some (.error .indexError) := by
  unfold lbvhFilter
  simp; omega

end

/-- Three heliostats 3 m apart inside a field that extends 9.5 km to the east. -/
def clusterField : List (V3 ℚ × V3 ℚ × V3 ℚ × V3 ℚ) :=
  [quad 0 0, quad 3000 1000, quad 3003 1000, quad 3006 1000, quad 9500 2000]

/-- The positions need not coincide: a wide field with three neighbours in one cell of the 1024³ grid also makes
the filter run for ever. -/
theorem C10_hangs_cluster (rays : List (Ray ℚ)) (fuel : Nat) : lbvhFilter clusterField rays fuel = none := by
  have hm : mortonCodes (1 / 10 ^ 6) (centroid (quad 0 0)) ((clusterField.map centroid).tail) =
      .ok [0#32, 35260470#32, 35260470#32, 35260470#32, 316237236#32] := by decide +kernel
  have hl : lbvhFilter clusterField rays fuel = filterFromCodes
      [0#32, 35260470#32, 35260470#32, 35260470#32, 316237236#32] (clusterField.map cornerBox) rays fuel := by
    unfold lbvhFilter
    simp only [clusterField, List.map_cons]
    simp only [clusterField, List.map_cons, List.tail_cons] at hm
    rw [hm]
  rw [hl]
  have hs : sortedOf [0#32, 35260470#32, 35260470#32, 35260470#32, 316237236#32] =
      [0#32, 35260470#32, 35260470#32, 35260470#32, 316237236#32] := by
    unfold sortedOf
    rw [sortCodes_of_sorted _ (by decide)]; rfl
  have hL : leftArray 5 (lcp [0#32, 35260470#32, 35260470#32, 35260470#32, 316237236#32]) =
      [3, 5, 1, 4, -1, -1, -1, -1, -1] := by decide +kernel
  have hR : rightArray 5 (lcp [0#32, 35260470#32, 35260470#32, 35260470#32, 316237236#32]) =
      [8, 2, 6, 1, -1, -1, -1, -1, -1] := by decide +kernel
  unfold filterFromCodes filterWith
  simp only
  have : maxDepth (buildFromCodes [0#32, 35260470#32, 35260470#32, 35260470#32, 316237236#32] (clusterField.map cornerBox)).left
      (buildFromCodes [0#32, 35260470#32, 35260470#32, 35260470#32, 316237236#32] (clusterField.map cornerBox)).right fuel = none := by
    rw [tree_left, tree_right, hs]
    simp only [List.length_cons, List.length_nil, Nat.zero_add, Nat.reduceAdd]
    rw [hL, hR]
    apply depthLoop_cycle (N := 9) (wf_of_check _ _ _ rfl rfl (by decide) (by decide)) (by decide) 1 2 1
    · exact Path.step (c := 3) (Or.inl rfl) (Path.step (c := 1) (Or.inr rfl) (Path.refl 1))
    · exact Path.step (c := 2) (Or.inr rfl) (Path.step (c := 1) (Or.inl rfl) (Path.refl 1))
  rw [this]

/-! ## C11 -/

section
variable {K : Type} [Field K] [LinearOrder K]

/-- The box of a primitive contains its four corners and is contained in every box that does. -/
theorem C11_leaf_box_is_bounding (a b c d : V3 K) :
    let box := cornerBox (a, b, c, d)
    (∀ p ∈ [a, b, c, d], box.Contains p) ∧
    ∀ other : Box K, (∀ p ∈ [a, b, c, d], other.Contains p) →
      (other.mn.e ≤ box.mn.e ∧ box.mx.e ≤ other.mx.e) ∧ (other.mn.n ≤ box.mn.n ∧ box.mx.n ≤ other.mx.n) ∧
      (other.mn.u ≤ box.mn.u ∧ box.mx.u ≤ other.mx.u) := by
  simp only [List.mem_cons, List.not_mem_nil, or_false, forall_eq_or_imp, forall_eq, Box.Contains, cornerBox, V3.map₂]
  refine ⟨?_, ?_⟩
  · simp
  · intro other h
    simp only [le_min_iff, max_le_iff]
    tauto

/-- Each primitive sits in exactly one leaf, and each leaf holds exactly one primitive (all codes, coinciding ones
included); inner nodes hold none. -/
theorem C11_one_leaf_each (codes : List (BitVec 32)) (boxes : List (Box K)) :
    (∀ p, p < codes.length → ∃ node : Nat, (buildFromCodes codes boxes).isLeaf[node]? = some true ∧
      (buildFromCodes codes boxes).primitiveIndex[node]? = some (p : Int) ∧
      ∀ node' : Nat, (buildFromCodes codes boxes).primitiveIndex[node']? = some (p : Int) → node' = node) ∧
    (∀ node : Nat, (buildFromCodes codes boxes).isLeaf[node]? = some true →
      ∃ p : Nat, p < codes.length ∧ (buildFromCodes codes boxes).primitiveIndex[node]? = some (p : Int)) := by
  constructor
  · intro p hp
    obtain ⟨j, hj, hjp⟩ := perm_pos codes p hp
    refine ⟨codes.length - 1 + j, ?_, ?_, ?_⟩
    · rw [(isLeaf_get codes boxes _ (by omega)).2]; simp
    · obtain ⟨q, hq, _, hqp⟩ := prim_get codes boxes j hj
      rw [hjp] at hq; cases hq; exact hqp
    · intro node' h
      rw [tree_prim] at h
      rcases Nat.lt_or_ge node' (codes.length - 1) with hlt | hge
      · rw [List.getElem?_append_left (by simpa using hlt), List.getElem?_replicate, if_pos hlt] at h
        simp only [Option.some.injEq] at h
        omega
      · rw [List.getElem?_append_right (by simpa using hge)] at h
        simp only [List.length_replicate, List.getElem?_map, Option.map_eq_some_iff] at h
        obtain ⟨q, hq, hqp⟩ := h
        have : q = p := by exact_mod_cast hqp
        subst this
        have := perm_inj codes _ _ _ hq hjp
        omega
  · intro node h
    have hn : node < codes.length - 1 + codes.length := by
      have := (List.getElem?_eq_some_iff.1 h).1
      rw [tree_isLeaf] at this; simpa using this
    rw [(isLeaf_get codes boxes node hn).2] at h
    simp only [Option.some.injEq, decide_eq_true_eq] at h
    obtain ⟨q, hq, hql, hqp⟩ := prim_get codes boxes (node - (codes.length - 1)) (by omega)
    have e : codes.length - 1 + (node - (codes.length - 1)) = node := by omega
    rw [e] at hqp
    exact ⟨q, hql, hqp⟩

/-- The box of the leaf that holds primitive `p` is the box of `p` (all codes). -/
theorem C11_leaf_boxes (codes : List (BitVec 32)) (boxes : List (Box K)) (hlen : boxes.length = codes.length) (node p : Nat)
    (h : (buildFromCodes codes boxes).primitiveIndex[node]? = some (p : Int)) :
    p < boxes.length ∧ (buildFromCodes codes boxes).boxes[node]? = boxes[p]? := by
  rw [tree_prim] at h
  rcases Nat.lt_or_ge node (codes.length - 1) with hlt | hge
  · rw [List.getElem?_append_left (by simpa using hlt), List.getElem?_replicate, if_pos hlt] at h
    simp only [Option.some.injEq] at h
    omega
  · rw [List.getElem?_append_right (by simpa using hge)] at h
    simp only [List.length_replicate, List.getElem?_map, Option.map_eq_some_iff] at h
    obtain ⟨q, hq, hqp⟩ := h
    have : q = p := by exact_mod_cast hqp
    subst this
    have hql : q < codes.length := by
      have := (perm_perm codes).mem_iff.1 (List.mem_of_getElem? hq)
      simpa using this
    refine ⟨by omega, ?_⟩
    rw [tree_boxes]
    unfold nodeBoxes
    simp only [List.length_map, permOf_length]
    rw [boxRounds_leaf _ _ _ _ _ _ _ (by omega), List.getElem?_append_right (by simpa using hge)]
    simp only [List.length_replicate, List.getElem?_map, hq, Option.map_some]
    rw [List.getD_eq_getElem?_getD, List.getElem?_eq_getElem (by omega)]
    rfl

variable [IsStrictOrderedRing K]

/-- Every inner node has two children and its box is the union of theirs (no three equal codes). -/
theorem C11_inner_boxes (codes : List (BitVec 32)) (boxes : List (Box K)) (hne : codes ≠ []) (hnd : NoThree codes)
    (h30 : ∀ c ∈ codes, Is30Bit c) (node : Nat) (h : (buildFromCodes codes boxes).isLeaf[node]? = some false) :
    ∃ (l r : Nat) (bl br b : Box K), (buildFromCodes codes boxes).left[node]? = some (l : Int) ∧
      (buildFromCodes codes boxes).right[node]? = some (r : Int) ∧
      (buildFromCodes codes boxes).boxes[l]? = some bl ∧ (buildFromCodes codes boxes).boxes[r]? = some br ∧
      (buildFromCodes codes boxes).boxes[node]? = some b ∧
      (b.mn.e = min bl.mn.e br.mn.e ∧ b.mn.n = min bl.mn.n br.mn.n ∧ b.mn.u = min bl.mn.u br.mn.u) ∧
      (b.mx.e = max bl.mx.e br.mx.e ∧ b.mx.n = max bl.mx.n br.mx.n ∧ b.mx.u = max bl.mx.u br.mx.u) := by
  have hlen0 : 1 ≤ codes.length := List.length_pos_iff.2 hne
  obtain ⟨_, h2, h3⟩ := tree_box_spec codes boxes hnd h30 hne
  have hn : node < codes.length - 1 + codes.length := by
    have := (List.getElem?_eq_some_iff.1 h).1
    rw [tree_isLeaf] at this; simpa using this
  rw [(isLeaf_get codes boxes node hn).2] at h
  simp only [Option.some.injEq, decide_eq_false_iff_not] at h
  obtain ⟨l, r, e1, e2, e3⟩ := h2 node (by omega)
  have wf := delta_wf (delta_of codes hnd h30) hlen0
  have hl := wf.bound node l (Or.inl e1)
  have hr := wf.bound node r (Or.inr e2)
  have g : ∀ x, x < codes.length - 1 + codes.length → (buildFromCodes codes boxes).boxes[x]? =
      some ((buildFromCodes codes boxes).boxes.getD x zeroBox) := by
    intro x hx
    rw [List.getD_eq_getElem?_getD, List.getElem?_eq_getElem (by omega)]; rfl
  refine ⟨l, r, _, _, _, e1, e2, g l hl, g r hr, g node hn, ?_⟩
  rw [e3]
  exact ⟨⟨rfl, rfl, rfl⟩, ⟨rfl, rfl, rfl⟩⟩

/-- A ray that hits the box of a node hits the boxes of all its ancestors (no three equal codes). -/
theorem C11_hit_ancestors (codes : List (BitVec 32)) (boxes : List (Box K)) (hne : codes ≠ []) (hnd : NoThree codes)
    (h30 : ∀ c ∈ codes, Is30Bit c) (hlen : boxes.length = codes.length) (hprop : ∀ b ∈ boxes, b.Proper)
    (ray : Ray K) (a x k : Nat) (ba bx : Box K)
    (hpath : Path (buildFromCodes codes boxes).left (buildFromCodes codes boxes).right a x k)
    (ha : (buildFromCodes codes boxes).boxes[a]? = some ba) (hx : (buildFromCodes codes boxes).boxes[x]? = some bx)
    (hhit : hits ray bx = true) : hits ray ba = true := by
  have hup := (tree_hit_up codes boxes hnd h30 hne (by
    intro p hp
    rw [List.getD_eq_getElem?_getD, List.getElem?_eq_getElem (by omega)]
    exact hprop _ (List.getElem_mem _))).2 ray
  have hba : (buildFromCodes codes boxes).boxes.getD a zeroBox = ba := by rw [List.getD_eq_getElem?_getD, ha]; rfl
  have hbx : (buildFromCodes codes boxes).boxes.getD x zeroBox = bx := by rw [List.getD_eq_getElem?_getD, hx]; rfl
  rw [← hba]
  exact (hitPath_of_path (S := fun _ => True) (hit := fun node => hits ray ((buildFromCodes codes boxes).boxes.getD node zeroBox))
    (fun _ _ _ _ => trivial) (fun a c _ => hup a c) hpath trivial (by rw [hbx]; exact hhit)).2

end

/-- hypotheses of C11: three distinct codes with proper boxes -/
example : ([3#32, 9#32, 4#32] : List (BitVec 32)).Nodup ∧ (∀ c ∈ ([3#32, 9#32, 4#32] : List (BitVec 32)), Is30Bit c) ∧
    (∀ b ∈ [quad 0 0, quad 10 0, quad 0 100].map cornerBox, b.Proper) :=
  ⟨by decide, by
    intro c hc
    simp only [List.mem_cons, List.not_mem_nil, or_false] at hc
    rcases hc with rfl | rfl | rfl <;> (unfold Is30Bit; decide), by intro b hb; obtain ⟨c, _, rfl⟩ := List.mem_map.1 hb; exact cornerBox_proper c⟩

/-! ## C14 -/

section
variable {K : Type} [Field K] [LinearOrder K] [IsStrictOrderedRing K]

/-- With non-zero direction components the entry and exit distances enclose exactly the parameters at which the ray is
inside the box. -/
theorem C14_slab_exact (o d : V3 K) (he : d.e ≠ 0) (hn : d.n ≠ 0) (hu : d.u ≠ 0) (b : Box K) (hb : b.Proper) (t : K) :
    let r := rayAabb o ⟨1 / d.e, 1 / d.n, 1 / d.u⟩ b
    (r.1 ≤ t ∧ t ≤ r.2) ↔ b.Contains ⟨o.e + t * d.e, o.n + t * d.n, o.u + t * d.u⟩ := by
  have axis : ∀ (o d mn mx : K), d ≠ 0 → mn ≤ mx →
      ((min ((mn - o) * (1 / d)) ((mx - o) * (1 / d)) ≤ t ∧ t ≤ max ((mn - o) * (1 / d)) ((mx - o) * (1 / d))) ↔
        (mn ≤ o + t * d ∧ o + t * d ≤ mx)) := by
    intro o d mn mx hd hm
    rcases lt_or_gt_of_ne hd with h | h
    · have hle : (mx - o) * (1 / d) ≤ (mn - o) * (1 / d) := by
        rw [mul_one_div, mul_one_div]; exact div_le_div_of_nonpos_of_le h.le (by linarith)
      rw [min_eq_right hle, max_eq_left hle, mul_one_div, mul_one_div, div_le_iff_of_neg h, le_div_iff_of_neg h]
      constructor <;> rintro ⟨h1, h2⟩ <;> constructor <;> linarith
    · have hle : (mn - o) * (1 / d) ≤ (mx - o) * (1 / d) := by
        rw [mul_one_div, mul_one_div]; exact div_le_div_of_nonneg_right (by linarith) h.le
      rw [min_eq_left hle, max_eq_right hle, mul_one_div, mul_one_div, div_le_iff₀ h, le_div_iff₀ h]
      constructor <;> rintro ⟨h1, h2⟩ <;> constructor <;> linarith
  have a1 := axis o.e d.e b.mn.e b.mx.e he hb.1
  have a2 := axis o.n d.n b.mn.n b.mx.n hn hb.2.1
  have a3 := axis o.u d.u b.mn.u b.mx.u hu hb.2.2
  simp only [rayAabb, V3.map₂, V3.sub_e, V3.sub_n, V3.sub_u, max_le_iff, le_min_iff, Box.Contains]
  rw [← a1, ← a2, ← a3]
  tauto

/-- So the box is hit by the line exactly if entry does not exceed exit. -/
theorem C14_line_hits_iff (o d : V3 K) (he : d.e ≠ 0) (hn : d.n ≠ 0) (hu : d.u ≠ 0) (b : Box K) (hb : b.Proper) :
    let r := rayAabb o ⟨1 / d.e, 1 / d.n, 1 / d.u⟩ b
    r.1 ≤ r.2 ↔ ∃ t, b.Contains ⟨o.e + t * d.e, o.n + t * d.n, o.u + t * d.u⟩ := by
  intro r
  constructor
  · intro h; exact ⟨r.1, (C14_slab_exact o d he hn hu b hb r.1).1 ⟨le_refl _, h⟩⟩
  · rintro ⟨t, ht⟩
    have := (C14_slab_exact o d he hn hu b hb t).2 ht
    exact le_trans this.1 this.2

/-- The full hit test used by the filter, for a ray whose perturbed direction `direction + 1e-12` has no zero component:
hit exactly if some point of the box lies on the perturbed line beyond `1e-6`, and the line enters the box no later than at the
target distance. -/
theorem C14_hit_test (ray : Ray K) (b : Box K) (hb : b.Proper)
    (he : ray.dir.e + 1 / 10 ^ 12 ≠ 0) (hn : ray.dir.n + 1 / 10 ^ 12 ≠ 0) (hu : ray.dir.u + 1 / 10 ^ 12 ≠ 0) :
    let on := fun t : K => b.Contains ⟨ray.origin.e + t * (ray.dir.e + 1 / 10 ^ 12), ray.origin.n + t * (ray.dir.n + 1 / 10 ^ 12),
      ray.origin.u + t * (ray.dir.u + 1 / 10 ^ 12)⟩
    hits ray b = true ↔ (∃ t, on t ∧ 1 / 10 ^ 6 < t) ∧ (∃ t, on t ∧ t ≤ ray.targetDistance) := by
  intro on
  have hex := fun t => C14_slab_exact ray.origin ⟨ray.dir.e + 1 / 10 ^ 12, ray.dir.n + 1 / 10 ^ 12, ray.dir.u + 1 / 10 ^ 12⟩ he hn hu b hb t
  simp only at hex
  unfold hits
  simp only [ge_iff_le, gt_iff_lt, Bool.and_eq_true, decide_eq_true_eq]
  constructor
  · rintro ⟨⟨h1, h2⟩, h3⟩
    exact ⟨⟨_, (hex _).1 ⟨h1, le_refl _⟩, h2⟩, ⟨_, (hex _).1 ⟨le_refl _, h1⟩, h3⟩⟩
  · rintro ⟨⟨t, ht, h1⟩, ⟨s, hs, h2⟩⟩
    have e1 := (hex t).2 ht
    have e2 := (hex s).2 hs
    exact ⟨⟨le_trans e1.1 e1.2, lt_of_lt_of_le h1 e1.2⟩, le_trans e2.1 h2⟩

/-- Enlarging a box never loses a hit (zero components included). -/
theorem C14_enlarge (ray : Ray K) (small big : Box K) (hs : small.Proper)
    (h : ∀ p, small.Contains p → big.Contains p) (hhit : hits ray small = true) : hits ray big = true := by
  obtain ⟨h1, h2, h3⟩ := hs
  have a := h small.mn ⟨⟨le_refl _, h1⟩, ⟨le_refl _, h2⟩, ⟨le_refl _, h3⟩⟩
  have b := h small.mx ⟨⟨h1, le_refl _⟩, ⟨h2, le_refl _⟩, ⟨h3, le_refl _⟩⟩
  exact hits_mono ray small big ⟨h1, h2, h3⟩ ⟨a.1.1, a.2.1.1, a.2.2.1, b.1.2, b.2.1.2, b.2.2.2⟩ hhit

end

example : (cornerBox (quad 0 0)).Proper ∧ (⟨1, 2, 3⟩ : V3 ℚ).e ≠ 0 ∧
    hits ⟨⟨-5, -5, -5⟩, ⟨1, 1, 1⟩, 0, 100⟩ (cornerBox (quad 0 0)) = true :=
  ⟨cornerBox_proper _, by decide, by decide +kernel⟩

end Artist.LBVH
