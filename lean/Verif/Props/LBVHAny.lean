import Verif.Props.LBVHExact
import Verif.Proofs.LBVHTriple
import Verif.Proofs.LBVHFuel
/-!
# The blocking filter for every field (C09, C10)

`Props/LBVH.lean` and `Props/LBVHExact.lean` assume that no three centres share a cell of the grid.  Here nothing is assumed but that there is a heliostat.

* If the tree has a loop below its root, the filter never ends, whatever the rays.
* If it has none, the filter ends without an error for all rays, and reports exactly the blockers whose leaf can be reached.
* Three centres in a cell always mean a loop, or a heliostat that no ray can make the filter report.
* So the filter is exact for all rays if and only if no three centres share a cell and every group of codes divides at a place the search can find.
-/
namespace Artist.LBVH
open Artist Artist.Morton

section
variable {K : Type} [Field K] [LinearOrder K]

theorem filter_loop (codes : List (BitVec 32)) (boxes : List (Box K)) (h30 : ∀ c ∈ codes, Is30Bit c) (hne : codes ≠ [])
    (hl : HasLoop (buildFromCodes codes boxes)) (rays : List (Ray K)) (fuel : Nat) : filterFromCodes codes boxes rays fuel = none := by
  obtain ⟨a, k, m, h1, h2⟩ := hl
  have hn : 1 ≤ codes.length := List.length_pos_iff.2 hne
  unfold filterFromCodes filterWith
  simp only
  rw [depthLoop_cycle (tree_wf codes boxes h30) (by omega) a k m h1 h2 fuel]

theorem loop_of_crowded (codes : List (BitVec 32)) (boxes : List (Box K)) (h30 : ∀ c ∈ codes, Is30Bit c) (h3 : ¬ NoThree codes) :
    HasLoop (buildFromCodes codes boxes) ∨ ∃ p, p < codes.length ∧ ¬ LeafReachable (buildFromCodes codes boxes) p := by
  have hs := sortCodes_sorted codes h30
  obtain ⟨a, x, x0, x1, x2, hfirst⟩ := run_of_three (sortedOf codes) hs (fun h => h3 (noThree_of_sorted codes h))
  have hlen := sortedOf_length codes
  have ha2 := (List.getElem?_eq_some_iff.1 x2).1
  have h30' : ∀ c ∈ sortedOf codes, Is30Bit c := fun c hc => h30 c ((sorted_fst_perm codes).mem_iff.1 hc)
  have hx : Is30Bit x := h30' x (List.mem_of_getElem? x0)
  have pre := lcp_pre (sortedOf codes) hs h30'
  rw [hlen] at pre ha2
  have e1 := (C13_lcp_counts_leading_bits (sortedOf codes) a (a + 1) x x x0 x1 hx hx).2.2.2.2 rfl
  have e2 := (C13_lcp_counts_leading_bits (sortedOf codes) (a + 1) (a + 2) x x x1 x2 hx hx).2.2.2.2 rfl
  have e0 : lcp (sortedOf codes) a ((a : Int) - 1) < 30 := by
    rcases hfirst with h | ⟨y, hy, hyx⟩
    · rw [C13_lcp_outside _ _ _ (by omega)]; omega
    · rcases Nat.eq_zero_or_pos a with h | h
      · rw [C13_lcp_outside _ _ _ (by omega)]; omega
      · have hsp := C13_lcp_counts_leading_bits (sortedOf codes) a (a - 1) x y x0 hy hx (h30' y (List.mem_of_getElem? hy))
        have e : ((a : Int) - 1) = ((a - 1 : Nat) : Int) := by omega
        rw [e]
        refine lt_of_le_of_ne hsp.2.1 ?_
        intro hh
        exact hyx (hsp.2.2.2.1 hh).symm
  by_cases hloop : HasLoop (buildFromCodes codes boxes)
  · exact Or.inl hloop
  · right
    obtain ⟨p, hp, hpl, _⟩ := prim_get codes boxes a (by omega)
    refine ⟨p, hpl, ?_⟩
    rintro ⟨node, k, hpath, hleaf, hprim⟩
    have hlt : node < codes.length - 1 + codes.length := by
      have := (List.getElem?_eq_some_iff.1 hleaf).1
      rw [tree_isLeaf] at this; simpa using this
    have hge : codes.length - 1 ≤ node := by
      have := (isLeaf_get codes boxes node hlt).2
      rw [hleaf] at this
      simpa using this.symm
    obtain ⟨q, hq, _, hqp⟩ := prim_get codes boxes (node - (codes.length - 1)) (by omega)
    have e : codes.length - 1 + (node - (codes.length - 1)) = node := by omega
    rw [e, hprim] at hqp
    have : p = q := by simpa using hqp
    subst this
    have := perm_inj codes _ _ p hp hq
    have e2' : node = codes.length - 1 + a := by omega
    subst e2'
    exact hloop (cycle_of_first_leaf pre a ha2 e1 e2 e0 k hpath)

variable [IsStrictOrderedRing K]

theorem filter_no_loop (codes : List (BitVec 32)) (boxes : List (Box K)) (h30 : ∀ c ∈ codes, Is30Bit c) (hne : codes ≠ [])
    (hprop : ∀ p, p < codes.length → (boxes.getD p zeroBox).Proper) (hl : ¬ HasLoop (buildFromCodes codes boxes)) (rays : List (Ray K)) :
    ∃ F res, (∀ fuel, F ≤ fuel → filterFromCodes codes boxes rays fuel = some (.ok res)) ∧
      res.Pairwise (· < ·) ∧
      ∀ p, p ∈ res ↔ p < codes.length ∧ LeafReachable (buildFromCodes codes boxes) p ∧
        ∃ ray ∈ rays, ray.owner ≠ p ∧ hits ray (boxes.getD p zeroBox) = true := by
  have hn : 1 ≤ codes.length := List.length_pos_iff.2 hne
  obtain ⟨ρ, hρ⟩ := ranked_of_no_cycle (tree_wf codes boxes h30) (by omega) hl
  exact filter_any codes boxes hρ ⟨0, Path.refl 0⟩ h30 hne hprop rays
end

section
variable {K : Type} [Field K] [LinearOrder K] [IsStrictOrderedRing K] [FloorRing K]

/-- For every field: it ends, for one ray batch as for all, exactly if the tree has no loop; and when it ends it does so without an error. -/
theorem C10_ends_iff_no_loop (corners : List (V3 K × V3 K × V3 K × V3 K)) (hne : corners ≠ []) :
    ∃ codes c cs, corners.map centroid = c :: cs ∧ mortonCodes (1 / 10 ^ 6) c cs = .ok codes ∧ ∀ rays : List (Ray K),
      ((∃ fuel result, lbvhFilter corners rays fuel = some result) ↔ ¬ HasLoop (buildFromCodes codes (corners.map cornerBox))) ∧
      (¬ HasLoop (buildFromCodes codes (corners.map cornerBox)) → ∃ F res, ∀ fuel, F ≤ fuel → lbvhFilter corners rays fuel = some (.ok res)) := by
  obtain ⟨codes, hlen, h30, heq, hnd, _, c, cs, hc, hm⟩ := filter_codes corners hne
  have hcne : codes ≠ [] := by
    intro h; subst h; simp at hlen; exact hne (List.length_eq_zero_iff.1 hlen.symm)
  have hpr : ∀ p, p < codes.length → ((corners.map cornerBox).getD p zeroBox).Proper := by
    intro p hp; rw [getD_corners corners p (by omega)]; exact cornerBox_proper _
  refine ⟨codes, c, cs, hc, hm, fun rays => ?_⟩
  have hok : ¬ HasLoop (buildFromCodes codes (corners.map cornerBox)) → ∃ F res, ∀ fuel, F ≤ fuel → lbvhFilter corners rays fuel = some (.ok res) := by
    intro hl
    obtain ⟨F, res, h1, _⟩ := filter_no_loop codes _ h30 hcne hpr hl rays
    exact ⟨F, res, fun fuel hf => by rw [heq]; exact h1 fuel hf⟩
  refine ⟨⟨?_, ?_⟩, hok⟩
  · rintro ⟨fuel, result, hr⟩ hl
    rw [heq, filter_loop codes _ h30 hcne hl] at hr
    cases hr
  · intro hl
    obtain ⟨F, res, h⟩ := hok hl
    exact ⟨F, _, h F (le_refl _)⟩

/-- For every field and all rays: whenever the filter ends, it has found in ascending order exactly the primitives that brute force reports and whose leaf can be reached from the root. -/
theorem C09_reported_iff (corners : List (V3 K × V3 K × V3 K × V3 K)) (hne : corners ≠ []) :
    ∃ codes c cs, corners.map centroid = c :: cs ∧ mortonCodes (1 / 10 ^ 6) c cs = .ok codes ∧
      ∀ (rays : List (Ray K)) (fuel : Nat) (result : Except PyErr (List Nat)), lbvhFilter corners rays fuel = some result →
      ∃ res, result = .ok res ∧ res.Pairwise (· < ·) ∧
        ∀ p, p ∈ res ↔ p ∈ bruteForce (corners.map cornerBox) rays ∧ LeafReachable (buildFromCodes codes (corners.map cornerBox)) p := by
  obtain ⟨codes, hlen, h30, heq, hnd, _, c, cs, hc, hm⟩ := filter_codes corners hne
  have hcne : codes ≠ [] := by
    intro h; subst h; simp at hlen; exact hne (List.length_eq_zero_iff.1 hlen.symm)
  have hpr : ∀ p, p < codes.length → ((corners.map cornerBox).getD p zeroBox).Proper := by
    intro p hp; rw [getD_corners corners p (by omega)]; exact cornerBox_proper _
  refine ⟨codes, c, cs, hc, hm, fun rays fuel result hres => ?_⟩
  rw [heq] at hres
  have hl : ¬ HasLoop (buildFromCodes codes (corners.map cornerBox)) := by
    intro hl
    rw [filter_loop codes _ h30 hcne hl] at hres
    cases hres
  obtain ⟨F, res, h1, h2, h3⟩ := filter_no_loop codes _ h30 hcne hpr hl rays
  have e1 := filter_fuel codes (corners.map cornerBox) rays fuel F result hres
  rw [h1 (fuel + F) (by omega)] at e1
  refine ⟨res, (Option.some.inj e1).symm, h2, ?_⟩
  intro p
  rw [h3 p]
  unfold bruteForce
  simp only [List.mem_filter, List.mem_range, List.any_eq_true, Bool.and_eq_true, decide_eq_true_eq, List.length_map, hlen]
  constructor
  · rintro ⟨a, b, c⟩; exact ⟨⟨a, c⟩, b⟩
  · rintro ⟨⟨a, c⟩, b⟩; exact ⟨a, b, c⟩

theorem noThree_cells (corners : List (V3 K × V3 K × V3 K × V3 K)) (c : V3 K) (cs : List (V3 K)) (codes : List (BitVec 32))
    (hc : corners.map centroid = c :: cs) (hm : mortonCodes (1 / 10 ^ 6) c cs = .ok codes) (h : NoThree codes) : NoThree (gridCells corners) := by
  have heps : (0 : K) < 1 / 10 ^ 6 := by positivity
  unfold gridCells
  rw [hc]
  simp only
  have hql : (quantised (K := K) (1 / 10 ^ 6) c cs).length = cs.length + 1 := by simp [quantised]
  obtain ⟨codes', h1, hlen, _⟩ := C12_codes_lossless (1 / 10 ^ 6) heps c cs
  rw [hm, Except.ok.injEq] at h1
  subst h1
  intro i j k x hij hjk hik hi hj hk
  have li := (List.getElem?_eq_some_iff.1 hi).1
  have lj := (List.getElem?_eq_some_iff.1 hj).1
  have lk := (List.getElem?_eq_some_iff.1 hk).1
  have e1 := (C12_same_code_iff_same_cell (1 / 10 ^ 6) heps c cs codes hm i j (by omega) (by omega)).2 (hi.trans hj.symm)
  have e2 := (C12_same_code_iff_same_cell (1 / 10 ^ 6) heps c cs codes hm i k (by omega) (by omega)).2 (hi.trans hk.symm)
  have hv := List.getElem?_eq_getElem (l := codes) (i := i) (by omega)
  exact h i j k _ hij hjk hik hv (by rw [← e1]; exact hv) (by rw [← e2]; exact hv)

/-- Three centres in one cell are never handled: either the filter ends for no rays at all, or there is a heliostat which it reports for no rays at all (whatever they hit). -/
theorem C10_crowded_cell (corners : List (V3 K × V3 K × V3 K × V3 K)) (h3 : ¬ NoThree (gridCells corners)) :
    (∀ (rays : List (Ray K)) (fuel : Nat), lbvhFilter corners rays fuel = none) ∨
    ∃ p, p < corners.length ∧ ∀ (rays : List (Ray K)) (fuel : Nat) (result : Except PyErr (List Nat)), lbvhFilter corners rays fuel = some result →
      ∃ res, result = .ok res ∧ p ∉ res := by
  have hne : corners ≠ [] := by
    rintro rfl
    apply h3
    intro i j k x _ _ _ hi
    simp [gridCells] at hi
  obtain ⟨codes, hlen, h30, heq, _, _, c, cs, hc, hm⟩ := filter_codes corners hne
  obtain ⟨codes', c', cs', hc', hm', hrep⟩ := C09_reported_iff corners hne
  rw [hc, List.cons.injEq] at hc'
  obtain ⟨rfl, rfl⟩ := hc'
  rw [hm, Except.ok.injEq] at hm'
  subst hm'
  have hcne : codes ≠ [] := by
    intro h; subst h; simp at hlen; exact hne (List.length_eq_zero_iff.1 hlen.symm)
  rcases loop_of_crowded codes (corners.map cornerBox) h30 (fun h => h3 (noThree_cells corners c cs codes hc hm h)) with hl | ⟨p, hp, hlost⟩
  · left
    intro rays fuel
    rw [heq]
    exact filter_loop codes _ h30 hcne hl rays fuel
  · right
    refine ⟨p, by omega, ?_⟩
    intro rays fuel result hr
    obtain ⟨res, h1, _, h2⟩ := hrep rays fuel result hr
    exact ⟨res, h1, fun hp => hlost ((h2 p).1 hp).2⟩

/-- Exactly which fields are handled correctly, with no assumption on the field: the filter ends and agrees with brute force for all rays if and only if no three centres share a cell and every
group of the sorted codes `s` divides at a place whose distance from the end of the group is a sum of halves of its size. -/
theorem C09_exact_iff (c : V3 K × V3 K × V3 K × V3 K) (cs : List (V3 K × V3 K × V3 K × V3 K)) (codes s : List (BitVec 32))
    (hm : mortonCodes (1 / 10 ^ 6) (centroid c) (cs.map centroid) = .ok codes) (hp : s.Perm codes)
    (hs : s.Pairwise (fun a b => a.toNat ≤ b.toNat)) :
    (∀ rays : List (Ray K), ∃ F, ∀ fuel, F ≤ fuel →
      lbvhFilter (c :: cs) rays fuel = some (.ok (bruteForce ((c :: cs).map cornerBox) rays))) ↔
    NoThree (gridCells (c :: cs)) ∧ ∀ a k b, IsGroup s.length (lcp s) a k b → SumOfHalves (b - a + 1) (offset (lcp s) a k b) := by
  have hn3 : NoThree (gridCells (c :: cs)) → NoThree codes := by
    intro h
    obtain ⟨codes', _, _, _, hnd, _, c', cs', hcc, hm'⟩ := filter_codes (c :: cs) (by simp)
    rw [List.map_cons, List.cons.injEq] at hcc
    obtain ⟨rfl, rfl⟩ := hcc
    rw [hm] at hm'
    cases hm'
    exact hnd h
  constructor
  · intro hall
    have hno : NoThree (gridCells (c :: cs)) := by
      by_contra h3
      rcases C10_crowded_cell (c :: cs) h3 with h | ⟨p, hp, h⟩
      · obtain ⟨F, hF⟩ := hall []
        have := hF F (le_refl _)
        rw [h] at this
        cases this
      · obtain ⟨ray, hray⟩ := some_ray_hits ((c :: cs).map cornerBox) (by
          intro b hb
          obtain ⟨x, _, rfl⟩ := List.mem_map.1 hb
          exact cornerBox_proper x) p (by simpa using hp)
        obtain ⟨F, hF⟩ := hall [ray]
        obtain ⟨res, h1, h2⟩ := h [ray] F _ (hF F (le_refl _))
        cases h1
        exact h2 hray
    exact ⟨hno, (C09_field_exact_iff_groups c cs codes s hm (hn3 hno) hp hs).1 hall⟩
  · rintro ⟨hno, hg⟩
    exact (C09_field_exact_iff_groups c cs codes s hm (hn3 hno) hp hs).2 hg

end

/-- Six heliostats in a row 10 km long, the last three of them in one cell. -/
def crowdedEnd : List (V3 ℚ × V3 ℚ × V3 ℚ × V3 ℚ) := [quad 0 0, quad 2 0, quad 20 0, quad 9996 0, quad 9998 0, quad 10000 0]

theorem crowdedEnd_cells : ¬ NoThree (gridCells crowdedEnd) := by
  have e : gridCells crowdedEnd = [⟨0, 0, 0⟩, ⟨0, 0, 0⟩, ⟨2, 0, 0⟩, ⟨1022, 0, 0⟩, ⟨1022, 0, 0⟩, ⟨1022, 0, 0⟩] := by decide +kernel
  rw [e]
  intro h
  exact h 3 4 5 ⟨1022, 0, 0⟩ (by omega) (by omega) (by omega) rfl rfl rfl

/-- Both cases of `C10_crowded_cell` occur.  For three coinciding heliostats the filter never ends (`C10_hangs_coinciding`); for this field it ends, and the ray that runs straight through the
first of the three is reported as free. -/
theorem C10_crowded_but_ends : ¬ NoThree (gridCells crowdedEnd) ∧
    bruteForce (crowdedEnd.map cornerBox) [⟨⟨9996, -10, 1⟩, ⟨1 / 100, 1, 1 / 1000⟩, 0, 1000⟩] = [3] ∧
    lbvhFilter crowdedEnd [⟨⟨9996, -10, 1⟩, ⟨1 / 100, 1, 1 / 1000⟩, 0, 1000⟩] 100 = some (.ok []) := by
  refine ⟨crowdedEnd_cells, by decide +kernel, ?_⟩
  have hm : mortonCodes (1 / 10 ^ 6) (centroid (quad 0 0)) ((crowdedEnd.map centroid).tail) =
      .ok [0#32, 0#32, 16#32, 306783376#32, 306783376#32, 306783376#32] := by decide +kernel
  have hl : lbvhFilter crowdedEnd [⟨⟨9996, -10, 1⟩, ⟨1 / 100, 1, 1 / 1000⟩, 0, 1000⟩] 100 = filterFromCodes
      [0#32, 0#32, 16#32, 306783376#32, 306783376#32, 306783376#32] (crowdedEnd.map cornerBox) [⟨⟨9996, -10, 1⟩, ⟨1 / 100, 1, 1 / 1000⟩, 0, 1000⟩] 100 := by
    unfold lbvhFilter
    simp only [crowdedEnd, List.map_cons]
    simp only [crowdedEnd, List.map_cons, List.tail_cons] at hm
    rw [hm]
  rw [hl]
  have hs := sortCodes_of_sorted [0#32, 0#32, 16#32, 306783376#32, 306783376#32, 306783376#32] (by decide)
  unfold filterFromCodes filterWith buildFromCodes
  simp only
  rw [hs]
  decide +kernel

/-- hypotheses of `C09_exact_iff`: a field of three, its codes, already sorted; and the filter is exact for it -/
example : ∃ codes s : List (BitVec 32), mortonCodes (1 / 10 ^ 6) (centroid (quad 0 0)) ([quad 10 0, quad 0 100].map centroid) = .ok codes ∧ s.Perm codes ∧
    s.Pairwise (fun a b => a.toNat ≤ b.toNat) ∧ NoThree (gridCells [quad 0 0, quad 10 0, quad 0 100]) :=
  ⟨[0#32, 589968#32, 613566752#32], _, by decide +kernel, List.Perm.refl _, by decide, noThree_of_nodup (by decide +kernel)⟩

end Artist.LBVH
