import Verif.Props.LBVH
import Verif.Proofs.LBVHSplits
/-!
# Exactly which fields the blocking filter handles correctly (C09)

`Props/LBVH.lean` shows that the filter can lose blockers and that it is exact if and only if every leaf of the tree can be reached.  Here this is brought down to the positions of the heliostats:
sort the Morton codes, look at every group of consecutive codes with a common beginning, and at the place where it divides (`IsGroup`).  The search for this place adds up some of the numbers
`m / 2`, `m / 4`, … of a group of `m` codes; the filter is exact for all rays if and only if every place is such a sum (`SumOfHalves`).
-/
namespace Artist.LBVH
open Artist Artist.Morton

theorem leaf_path_of_reachable {K : Type} [Field K] [LinearOrder K] (codes : List (BitVec 32)) (boxes : List (Box K))
    (hall : ∀ p, p < codes.length → LeafReachable (buildFromCodes codes boxes) p) (j : Nat) (hj : j < codes.length) :
    ∃ k, Path (leftArray codes.length (lcp (sortedOf codes))) (rightArray codes.length (lcp (sortedOf codes))) 0 (codes.length - 1 + j) k := by
  obtain ⟨p, hp, hpn, _⟩ := prim_get codes boxes j hj
  obtain ⟨node, k, hpath, hleaf, hprim⟩ := hall p hpn
  have hlt : node < codes.length - 1 + codes.length := by
    have := (List.getElem?_eq_some_iff.1 hleaf).1
    rw [tree_isLeaf] at this; simpa using this
  have hge : codes.length - 1 ≤ node := by
    have := (isLeaf_get codes boxes node hlt).2
    rw [hleaf] at this
    simpa using this.symm
  obtain ⟨q, hq, _, hqp⟩ := prim_get codes boxes (node - (codes.length - 1)) (by omega)
  have e : codes.length - 1 + (node - (codes.length - 1)) = node := by omega
  rw [e, hprim] at hqp
  have : p = q := by simpa using hqp
  subst this
  have := perm_inj codes _ _ p hp hq
  refine ⟨k, ?_⟩
  have e2 : codes.length - 1 + j = node := by omega
  rw [e2]
  exact hpath

theorem sortedOf_eq (codes s : List (BitVec 32)) (h30 : ∀ c ∈ codes, Is30Bit c) (hp : s.Perm codes)
    (hs : s.Pairwise (fun a b => a.toNat ≤ b.toNat)) : sortedOf codes = s := by
  have h1 := sortCodes_sorted codes h30
  have h2 : (sortedOf codes).Perm s := (sorted_fst_perm codes).trans hp.symm
  refine h2.eq_of_pairwise ?_ h1 hs
  intro a b _ _ hab hba
  exact BitVec.eq_of_toNat_eq (le_antisymm hab hba)

section
variable {K : Type} [Field K] [LinearOrder K] [IsStrictOrderedRing K] [FloorRing K]

/-- The exact condition in terms of the sorted codes `s`, no three of which are equal: the filter agrees with brute force for all rays if and only if every group of codes divides at a place whose distance from the end
of the group is a sum of halves of its size. -/
theorem C09_exact_iff_groups (codes s : List (BitVec 32)) (boxes : List (Box K)) (hcne : codes ≠ []) (hnd : NoThree codes)
    (h30 : ∀ c ∈ codes, Is30Bit c) (hp : s.Perm codes) (hs : s.Pairwise (fun a b => a.toNat ≤ b.toNat))
    (hlen : boxes.length = codes.length) (hprop : ∀ b ∈ boxes, b.Proper) :
    (∀ rays : List (Ray K), ∃ F, ∀ fuel, F ≤ fuel →
      filterFromCodes codes boxes rays fuel = some (.ok (bruteForce boxes rays))) ↔
    ∀ a k b, IsGroup s.length (lcp s) a k b → SumOfHalves (b - a + 1) (offset (lcp s) a k b) := by
  rw [C09_exact_iff_all_reachable codes boxes hcne hnd h30 hlen hprop]
  have hD := delta_of codes hnd h30
  have e := sortedOf_eq codes s h30 hp hs
  have el : s.length = codes.length := hp.length_eq
  rw [el, ← e, ← exactSplits_iff hD]
  constructor
  · intro hall
    exact exact_of_all_reachable hD (leaf_path_of_reachable codes boxes hall)
  · intro hex p hp
    exact leafReachable_of_exact codes boxes hnd h30 hex p hp

/-- The same for the corners of a field: `codes` are the codes of its centres. -/
theorem C09_field_exact_iff_groups (c : V3 K × V3 K × V3 K × V3 K) (cs : List (V3 K × V3 K × V3 K × V3 K)) (codes s : List (BitVec 32))
    (hm : mortonCodes (1 / 10 ^ 6) (centroid c) (cs.map centroid) = .ok codes) (hnd : NoThree codes) (hp : s.Perm codes)
    (hs : s.Pairwise (fun a b => a.toNat ≤ b.toNat)) :
    (∀ rays : List (Ray K), ∃ F, ∀ fuel, F ≤ fuel →
      lbvhFilter (c :: cs) rays fuel = some (.ok (bruteForce ((c :: cs).map cornerBox) rays))) ↔
    ∀ a k b, IsGroup s.length (lcp s) a k b → SumOfHalves (b - a + 1) (offset (lcp s) a k b) := by
  obtain ⟨codes', hlen, h30, heq, _, _, c', cs', hcc, hm'⟩ := filter_codes (c :: cs) (by simp)
  rw [List.map_cons, List.cons.injEq] at hcc
  obtain ⟨rfl, rfl⟩ := hcc
  rw [hm] at hm'
  cases hm'
  have hcne : codes ≠ [] := by rintro rfl; simp at hlen
  rw [← C09_exact_iff_groups codes s ((c :: cs).map cornerBox) hcne hnd h30 hp hs (by simp [hlen]) (by
    intro b hb
    obtain ⟨x, _, rfl⟩ := List.mem_map.1 hb
    exact cornerBox_proper x)]
  simp only [heq]

end

/-- What the search can reach in a group of six: everything but a division into three and three. -/
theorem sums_six (o : Nat) : SumOfHalves 6 o ↔ o = 0 ∨ o = 1 ∨ o = 3 ∨ o = 4 := by
  rw [← rep_iff_sum]
  show Rep 3 o ↔ _
  rw [rep_cons, rep_cons (3 / 2), rep_cons (3 / 2) (o - 3)]
  simp only [show 3 / 2 / 2 = 0 from rfl, show 3 / 2 = 1 from rfl, rep_zero]
  omega

/-- `n` ascending codes: 0, 1, 2, 4, 5, 6 and then all from 8 on. -/
def threeAndThree (n : Nat) : List (BitVec 32) :=
  (List.range n).map fun j => BitVec.ofNat 32 (if j < 3 then j else if j < 6 then j + 1 else j + 2)

theorem threeAndThree_get (n j : Nat) (hj : j < n) :
    (threeAndThree n)[j]? = some (BitVec.ofNat 32 (if j < 3 then j else if j < 6 then j + 1 else j + 2)) := by
  unfold threeAndThree
  rw [List.getElem?_map, List.getElem?_range hj]; rfl

theorem threeAndThree_sorted (n : Nat) (hn : n ≤ 2 ^ 30 - 2) : (threeAndThree n).Pairwise (fun a b => a.toNat < b.toNat) := by
  unfold threeAndThree
  rw [List.pairwise_map]
  apply List.Pairwise.imp_of_mem _ (List.pairwise_lt_range (n := n))
  intro a b ha hb hab
  rw [List.mem_range] at ha hb
  rw [BitVec.toNat_ofNat, BitVec.toNat_ofNat, Nat.mod_eq_of_lt, Nat.mod_eq_of_lt]
  all_goals split_ifs <;> omega

theorem lcp_of_get (l : List (BitVec 32)) (i j : Nat) (x y : BitVec 32) (hi : l[i]? = some x) (hj : l[j]? = some y) :
    lcp l i j = lcp [x, y] 0 1 := by
  have hjl := (List.getElem?_eq_some_iff.1 hj).1
  have h1 : (0 : Int) ≤ (j : Int) ∧ (j : Int) < l.length := ⟨by omega, by omega⟩
  have ei : l.getD i 0#32 = x := by rw [List.getD_eq_getElem?_getD, hi]; rfl
  have ej : l.getD j 0#32 = y := by rw [List.getD_eq_getElem?_getD, hj]; rfl
  unfold lcp
  rw [if_pos h1, Int.toNat_natCast, ei, ej]
  rfl

section
variable {K : Type} [Field K] [LinearOrder K] [IsStrictOrderedRing K] [FloorRing K]

/-- Blockers are lost in fields of every size from six on (up to the number of cells of the grid): there are distinct codes for which, whatever the boxes, some rays make the filter return
something else than brute force. -/
theorem C09_loses_blockers_at_every_size (n : Nat) (h6 : 6 ≤ n) (hn : n ≤ 2 ^ 30 - 2) :
    ∃ codes : List (BitVec 32), codes.length = n ∧ codes.Nodup ∧ (∀ c ∈ codes, Is30Bit c) ∧
      ∀ boxes : List (Box K), boxes.length = n → (∀ b ∈ boxes, b.Proper) →
        ∃ (rays : List (Ray K)) (F : Nat) (res : List Nat), (∀ fuel, F ≤ fuel → filterFromCodes codes boxes rays fuel = some (.ok res)) ∧
          res ≠ bruteForce boxes rays := by
  have hlen : (threeAndThree n).length = n := by simp [threeAndThree]
  have hsort := threeAndThree_sorted n hn
  have hnd : (threeAndThree n).Nodup := hsort.imp (fun {a b} h => by rintro rfl; omega)
  have h30 : ∀ c ∈ threeAndThree n, Is30Bit c := by
    intro c hc
    unfold threeAndThree at hc
    obtain ⟨j, hj, rfl⟩ := List.mem_map.1 hc
    rw [List.mem_range] at hj
    unfold Is30Bit
    rw [BitVec.toNat_ofNat, Nat.mod_eq_of_lt] <;> split_ifs <;> omega
  have hne : threeAndThree n ≠ [] := by intro h; rw [h] at hlen; simp at hlen; omega
  refine ⟨threeAndThree n, hlen, hnd, h30, ?_⟩
  intro boxes hb hprop
  have g0 := threeAndThree_get n 0 (by omega)
  have g1 := threeAndThree_get n 1 (by omega)
  have g2 := threeAndThree_get n 2 (by omega)
  have g3 := threeAndThree_get n 3 (by omega)
  have g4 := threeAndThree_get n 4 (by omega)
  have g5 := threeAndThree_get n 5 (by omega)
  simp only [Nat.reduceLT, if_true, if_false, Nat.reduceAdd] at g0 g1 g2 g3 g4 g5
  have l01 : lcp (threeAndThree n) 0 ((1 : Nat) : Int) = 29 := by rw [lcp_of_get _ 0 1 _ _ g0 g1]; decide
  have l12 : lcp (threeAndThree n) 1 ((2 : Nat) : Int) = 28 := by rw [lcp_of_get _ 1 2 _ _ g1 g2]; decide
  have l23 : lcp (threeAndThree n) 2 ((3 : Nat) : Int) = 27 := by rw [lcp_of_get _ 2 3 _ _ g2 g3]; decide
  have l34 : lcp (threeAndThree n) 3 ((4 : Nat) : Int) = 29 := by rw [lcp_of_get _ 3 4 _ _ g3 g4]; decide
  have l45 : lcp (threeAndThree n) 4 ((5 : Nat) : Int) = 28 := by rw [lcp_of_get _ 4 5 _ _ g4 g5]; decide
  have l56 : 6 < n → lcp (threeAndThree n) 5 ((6 : Nat) : Int) = 26 := by
    intro h
    have g6 := threeAndThree_get n 6 h
    simp only [Nat.reduceLT, if_false, Nat.reduceAdd] at g6
    rw [lcp_of_get _ 5 6 _ _ g5 g6]; decide
  have hgroup : IsGroup (threeAndThree n).length (lcp (threeAndThree n)) 0 2 5 := by
    refine ⟨by omega, by omega, by omega, ?_, by omega, ?_⟩
    · intro j _ hj hne
      rw [l23]
      obtain rfl | rfl | rfl | rfl : j = 0 ∨ j = 1 ∨ j = 3 ∨ j = 4 := by omega
      · rw [l01]; decide
      · rw [l12]; decide
      · rw [l34]; decide
      · rw [l45]; decide
    · intro h
      rw [l56 (by omega), l23]; decide
  by_contra hcon
  have hall : ∀ rays : List (Ray K), ∃ F, ∀ fuel, F ≤ fuel →
      filterFromCodes (threeAndThree n) boxes rays fuel = some (.ok (bruteForce boxes rays)) := by
    intro rays
    obtain ⟨F, res, h1, _⟩ := filter_spec (threeAndThree n) boxes (noThree_of_nodup hnd) h30 hne (by
      intro p hp
      rw [List.getD_eq_getElem?_getD, List.getElem?_eq_getElem (by omega)]
      exact hprop _ (List.getElem_mem _)) rays
    refine ⟨F, fun fuel hf => ?_⟩
    rw [h1 fuel hf]
    by_contra hx
    exact hcon ⟨rays, F, res, h1, fun h => hx (by rw [h])⟩
  have := (C09_exact_iff_groups (threeAndThree n) (threeAndThree n) boxes hne (noThree_of_nodup hnd) h30 (List.Perm.refl _) (hsort.imp le_of_lt) (by omega) hprop).1 hall 0 2 5 hgroup
  have ho : offset (lcp (threeAndThree n)) 0 2 5 = 2 := by
    unfold offset; split <;> rfl
  rw [ho] at this
  have := (sums_six 2).1 this
  omega

end

/-- the two rows of three heliostats of `C09_filter_drops_blockers` form such a group of six -/
example : IsGroup 6 (lcp [0#32, 589968#32, 4719744#32, 613566752#32, 614156720#32, 618286496#32]) 0 2 5 ∧ ¬ SumOfHalves (5 - 0 + 1) 2 := by
  refine ⟨⟨by omega, by omega, by omega, ?_, by omega, by omega⟩, ?_⟩
  · intro j _ h2 h3
    obtain rfl | rfl | rfl | rfl : j = 0 ∨ j = 1 ∨ j = 3 ∨ j = 4 := by omega
    all_goals decide
  · rw [sums_six]; decide

/-- hypotheses of `C09_field_exact_iff_groups`: with it, the two rows are seen to lose blockers without looking at any ray -/
example : ¬ ∀ rays : List (Ray ℚ), ∃ F, ∀ fuel, F ≤ fuel →
    lbvhFilter twoRows rays fuel = some (.ok (bruteForce (twoRows.map cornerBox) rays)) := by
  have hm : mortonCodes (1 / 10 ^ 6) (centroid (quad 0 0)) (twoRows.tail.map centroid) =
      .ok [0#32, 589968#32, 4719744#32, 613566752#32, 614156720#32, 618286496#32] := by decide +kernel
  intro h
  have := (C09_field_exact_iff_groups (quad 0 0) twoRows.tail _ _ hm (noThree_of_nodup (by decide)) (List.Perm.refl _) (by decide)).1 h 0 2 5 (by
    refine ⟨by omega, by omega, by decide, ?_, by omega, by decide⟩
    intro j _ h2 h3
    obtain rfl | rfl | rfl | rfl : j = 0 ∨ j = 1 ∨ j = 3 ∨ j = 4 := by omega
    all_goals decide)
  have ho : offset (lcp [0#32, 589968#32, 4719744#32, 613566752#32, 614156720#32, 618286496#32]) 0 2 5 = 2 := by decide
  rw [ho, sums_six] at this
  omega

/-- a field of eight with every group a power of two: all groups divide at a sum of halves -/
example : SumOfHalves 8 3 ∧ SumOfHalves 4 1 ∧ SumOfHalves 2 0 := ⟨⟨{1, 2}, by decide⟩, ⟨{1}, by decide⟩, ⟨∅, by decide⟩⟩

end Artist.LBVH
