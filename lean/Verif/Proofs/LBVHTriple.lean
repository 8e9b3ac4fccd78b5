import Verif.Proofs.LBVHAny
/-! Helper lemmas: three equal codes.  The leaf of the first of them hangs below a cycle or below nothing at all. -/
namespace Artist.LBVH
open Artist Artist.Morton

/-- `dl` behaves like the common prefix length of sorted codes, equal ones allowed. -/
structure Pre (n : Nat) (dl : Nat → Int → Int) : Prop where
  out : ∀ (i : Nat) (j : Int), (j < 0 ∨ (n : Int) ≤ j) → dl i j = -1
  nonneg : ∀ i j : Nat, i < n → j < n → 0 ≤ dl i j
  le30 : ∀ i j : Nat, i < n → j < n → dl i j ≤ 30
  symm : ∀ i j : Nat, i < n → j < n → dl i j = dl j i
  ultra : ∀ i j k : Nat, i ≤ j → j ≤ k → k < n → dl i k = min (dl i j) (dl j k)

variable {n : Nat} {dl : Nat → Int → Int}

/-- a node that looks to the right -/
theorem up_range (h : Pre n dl) (i : Nat) (hi : i < n) (hd : dl i (i + 1 : Int) > dl i (i - 1 : Int)) :
    ∃ L, 1 ≤ L ∧ i + L < n ∧ rangeLength n dl i = L ∧ farthest n dl i = ((i + L : Nat) : Int) ∧ direction dl i = 1 ∧
      (∀ l : Nat, 1 ≤ l → (dl i ((i + l : Nat) : Int) > dl i (i - 1 : Int) ↔ l ≤ L)) := by
  have hdir : direction dl i = 1 := by unfold direction; rw [if_pos hd]
  have hmin : deltaMin dl i = dl i (i - 1 : Int) := by unfold deltaMin; exact min_eq_left (le_of_lt hd)
  have hm1 : -1 ≤ dl i (i - 1 : Int) := by
    by_cases h0 : i = 0
    · rw [h.out i _ (by omega)]
    · have e1 : ((i : Int) - 1) = ((i - 1 : Nat) : Int) := by omega
      rw [e1]; have := h.nonneg i (i - 1) hi (by omega); omega
  have hanti : ∀ l : Nat, 1 ≤ l → dl i ((i + (l + 1) : Nat) : Int) > dl i (i - 1 : Int) → dl i ((i + l : Nat) : Int) > dl i (i - 1 : Int) := by
    intro l hl hf
    by_cases hr : i + (l + 1) < n
    · have := h.ultra i (i + l) (i + (l + 1)) (by omega) (by omega) hr
      have := min_le_left (dl i ((i + l : Nat) : Int)) (dl (i + l) ((i + (l + 1) : Nat) : Int))
      omega
    · rw [h.out i _ (by omega)] at hf; omega
  obtain ⟨L, hLn, hL⟩ := threshold_exists (fun l : Nat => dl i ((i + l : Nat) : Int) > dl i (i - 1 : Int))
    (Classical.em _) hanti n (by rw [h.out i _ (by omega)]; omega) (by omega)
  have hL1 : 1 ≤ L := (hL 1 (le_refl _)).1 (by push_cast; exact hd)
  have hLin : i + L < n := by
    have := (hL L hL1).2 (le_refl _)
    by_contra hh
    rw [h.out i _ (by omega)] at this; omega
  have hlen : rangeLength n dl i = L := by
    apply rangeLength_eq n dl i L hLn
    intro l hl
    rw [hdir, hmin, ← hL l hl]
    push_cast; simp
  exact ⟨L, hL1, hLin, hlen, by unfold farthest; rw [hlen, hdir]; push_cast; ring, hdir, hL⟩

theorem split_facts (i : Nat) : split n dl i = 0 ∨
    (split n dl i < rangeLength n dl i ∧ dl i (i + (split n dl i : Int) * direction dl i) > dl i (farthest n dl i)) := by
  have h1 := searchLoop_le dl i (direction dl i) (dl i (farthest n dl i)) ((rangeLength n dl i + 1) / 2) 0 ((rangeLength n dl i + 1) / 2)
  have h2 := searchLoop_hit dl i (direction dl i) (dl i (farthest n dl i)) ((rangeLength n dl i + 1) / 2) 0 ((rangeLength n dl i + 1) / 2)
  rcases h2 with h2 | h2
  · exact Or.inl h2
  · refine Or.inr ⟨lt_of_le_of_ne (by unfold split; simp only; omega) ?_, h2⟩
    intro heq
    unfold split at heq
    simp only at heq
    rw [heq] at h2
    exact absurd h2 (by unfold farthest; exact lt_irrefl _)

section
variable (h : Pre n dl) (a : Nat) (ha : a + 2 < n) (e1 : dl a ((a + 1 : Nat) : Int) = 30) (e2 : dl (a + 1) ((a + 2 : Nat) : Int) = 30)
include h ha e1 e2

/-- the second of three equal codes points back to the first -/
theorem second_node : leftChild n dl (a + 1) = (a : Int) ∧ rangeLength n dl (a + 1) = 0 := by
  have e3 : dl (a + 1) (((a + 1 : Nat) : Int) + 1) = 30 := by rw [← e2]; congr 1
  have e4 : dl (a + 1) (((a + 1 : Nat) : Int) - 1) = 30 := by
    have : ((a + 1 : Nat) : Int) - 1 = ((a : Nat) : Int) := by push_cast; ring
    rw [this, h.symm _ _ (by omega) (by omega)]; exact e1
  have d1 : direction dl (a + 1) = -1 := by unfold direction; rw [e3, e4]; simp
  have d2 : deltaMin dl (a + 1) = 30 := by unfold deltaMin; rw [e3, e4]; simp
  have r : rangeLength n dl (a + 1) = 0 := by
    apply rangeLength_eq n dl (a + 1) 0 (by omega)
    intro l hl
    rw [d1, d2]
    constructor
    · intro hgt
      exfalso
      by_cases hla : l ≤ a + 1
      · have : ((a + 1 : Nat) : Int) + (l : Int) * (-1) = ((a + 1 - l : Nat) : Int) := by omega
        rw [this] at hgt
        have := h.le30 (a + 1) (a + 1 - l) (by omega) (by omega)
        omega
      · rw [h.out _ _ (by left; omega)] at hgt; omega
    · omega
  have f : farthest n dl (a + 1) = ((a + 1 : Nat) : Int) := by unfold farthest; rw [r]; simp
  have s : split n dl (a + 1) = 0 := by unfold split; rw [r]; rfl
  have g : gamma n dl (a + 1) = (a : Int) := by unfold gamma; rw [s, d1]; simp
  refine ⟨?_, r⟩
  unfold leftChild
  rw [f, g, min_self, if_neg (by push_cast; omega)]

/-- the only node above the leaf of the first of three equal codes is the node of the same number, whose other child is the next node -/
theorem first_leaf_parent (h0 : dl a (a - 1 : Int) < 30) (i : Nat) (hc : IsChild (leftArray n dl) (rightArray n dl) i (n - 1 + a)) :
    i = a ∧ rightChild n dl a = ((a + 1 : Nat) : Int) := by
  obtain ⟨hin, hc⟩ := (isChild_iff n dl i (n - 1 + a)).1 hc
  have hda : dl a ((a : Int) + 1) > dl a ((a : Int) - 1) := by
    have : ((a : Int) + 1) = ((a + 1 : Nat) : Int) := by push_cast; ring
    rw [this, e1]; exact h0
  obtain ⟨L, hL1, hLn, -, hfa, hdira, hLa⟩ := up_range h a (by omega) hda
  have hL2 : 2 ≤ L := by
    apply (hLa 2 (by omega)).1
    have := h.ultra a (a + 1) (a + 2) (by omega) (by omega) ha
    rw [e1, e2, min_self] at this
    rw [this]; exact h0
  obtain ⟨gb0, gb1⟩ := gamma_bounds h.out h.nonneg i hin
  -- gamma + 1 does not exceed the upper end of the range
  by_cases hd : dl i (i + 1 : Int) > dl i (i - 1 : Int)
  · obtain ⟨M, hM1, hMn, hlen, hfar, hdir, hM⟩ := up_range h i (by omega) hd
    have hg : gamma n dl i = (i : Int) + split n dl i := by unfold gamma; rw [hdir]; simp
    have hs : split n dl i < M := by
      rcases split_facts (n := n) (dl := dl) i with hs | hs
      · omega
      · rw [hlen] at hs; exact hs.1
    have hia : i = a := by
      rcases hc with hc | hc
      · unfold leftChild at hc
        rw [hfar] at hc
        split at hc
        · omega
        · omega
      · unfold rightChild at hc
        rw [hfar] at hc
        split at hc
        · rename_i hmax
          exfalso
          have hiM : i + M = a := by omega
          have hno : ¬ dl i ((i + (M + 1) : Nat) : Int) > dl i (i - 1 : Int) := fun hh => by
            have := (hM (M + 1) (by omega)).1 hh; omega
          have hyes := (hM M hM1).2 (le_refl _)
          apply hno
          have := h.ultra i a (a + 1) (by omega) (by omega) (by omega)
          rw [e1, min_eq_left (h.le30 i a (by omega) (by omega))] at this
          have ee : i + (M + 1) = a + 1 := by omega
          rw [ee, this, ← hiM]
          exact hyes
        · rename_i hmax
          omega
    subst hia
    refine ⟨rfl, ?_⟩
    have hML : M = L := by
      rw [hfar] at hfa
      omega
    have hga : gamma n dl i = (i : Int) := by
      rcases hc with hc | hc
      · unfold leftChild at hc
        rw [hfar] at hc
        split at hc
        · omega
        · omega
      · unfold rightChild at hc
        rw [hfar] at hc
        split at hc
        · omega
        · omega
    unfold rightChild
    rw [hfar, hga, if_neg (by omega)]
    push_cast; ring
  · exfalso
    have hdir : direction dl i = -1 := by unfold direction; rw [if_neg hd]
    have hne : i ≠ a := by rintro rfl; exact hd hda
    have hfar : farthest n dl i = (i : Int) - rangeLength n dl i := by unfold farthest; rw [hdir]; ring
    have hg : gamma n dl i = (i : Int) - split n dl i - 1 := by unfold gamma; rw [hdir]; simp; ring
    have hs := split_facts (n := n) (dl := dl) i
    rcases hc with hc | hc
    · unfold leftChild at hc
      rw [hfar] at hc
      split at hc
      · rename_i hmin
        have hr : rangeLength n dl i = i - a := by omega
        have hsp : split n dl i + 1 = i - a := by omega
        rcases hs with hs | ⟨hs1, hs2⟩
        · have : i = a + 1 := by omega
          subst this
          have := (second_node h a ha e1 e2).2
          omega
        · rw [hfar, hdir] at hs2
          have x1 : (i : Int) + (split n dl i : Int) * -1 = ((a + 1 : Nat) : Int) := by omega
          have x2 : (i : Int) - (rangeLength n dl i : Int) = ((a : Nat) : Int) := by omega
          rw [x1, x2, h.symm i (a + 1) (by omega) (by omega), h.symm i a (by omega) (by omega)] at hs2
          have := h.ultra a (a + 1) i (by omega) (by omega) (by omega)
          rw [e1, min_eq_right (h.le30 (a + 1) i (by omega) (by omega))] at this
          omega
      · omega
    · unfold rightChild at hc
      rw [hfar] at hc
      split at hc
      · omega
      · omega

theorem cycle_of_first_leaf (h0 : dl a (a - 1 : Int) < 30) (k : Nat)
    (hp : Path (leftArray n dl) (rightArray n dl) 0 (n - 1 + a) k) : HasCycle (leftArray n dl) (rightArray n dl) := by
  have hlast : ∀ x y k, Path (leftArray n dl) (rightArray n dl) x y k → x = y ∨ ∃ z k', Path (leftArray n dl) (rightArray n dl) x z k' ∧
      IsChild (leftArray n dl) (rightArray n dl) z y := by
    intro x y k hp
    induction hp with
    | refl => exact Or.inl rfl
    | step h1 _ ih =>
      right
      rcases ih with rfl | ⟨z, k', hz, hzy⟩
      · exact ⟨_, 0, Path.refl _, h1⟩
      · exact ⟨z, k' + 1, Path.step h1 hz, hzy⟩
  rcases hlast _ _ _ hp with hz | ⟨z, k', hz, hzy⟩
  · omega
  · obtain ⟨rfl, hr⟩ := first_leaf_parent h a ha e1 e2 h0 z hzy
    refine ⟨z, k', 1, hz, Path.step (c := z + 1) ?_ (Path.step (c := z) ?_ (Path.refl _))⟩
    · exact (isChild_iff n dl z (z + 1)).2 ⟨by omega, Or.inr hr.symm⟩
    · exact (isChild_iff n dl (z + 1) z).2 ⟨by omega, Or.inl (second_node h z ha e1 e2).1.symm⟩
end

theorem lcp_pre (codes : List (BitVec 32)) (hs' : codes.Pairwise (fun a b => a.toNat ≤ b.toNat))
    (h30 : ∀ c ∈ codes, Is30Bit c) : Pre codes.length (lcp codes) := by
  refine ⟨fun i j hj => C13_lcp_outside codes i j hj, fun i j hi hj => lcp_pos codes h30 i j hi hj, ?_, fun i j hi hj => C13_lcp_symm codes i j hi hj,
    fun i j k hij hjk hk => C13_lcp_ultrametric codes hs' h30 i j k hij hjk hk⟩
  intro i j hi hj
  exact (C13_lcp_counts_leading_bits codes i j _ _ (List.getElem?_eq_getElem hi) (List.getElem?_eq_getElem hj)
      (h30 _ (List.getElem_mem hi)) (h30 _ (List.getElem_mem hj))).2.1

/-- three equal entries of a sorted list: the first three of a run -/
theorem run_of_three (s : List (BitVec 32)) (hs : s.Pairwise (fun a b => a.toNat ≤ b.toNat)) (h3 : ¬ NoThree s) :
    ∃ (a : Nat) (x : BitVec 32), s[a]? = some x ∧ s[a + 1]? = some x ∧ s[a + 2]? = some x ∧ (a = 0 ∨ ∃ y, s[a - 1]? = some y ∧ y ≠ x) := by
  classical
  have hmono : ∀ i j : Nat, ∀ x y, i ≤ j → s[i]? = some x → s[j]? = some y → x.toNat ≤ y.toNat := by
    intro i j x y hij hx hy
    obtain ⟨hi, ex⟩ := List.getElem?_eq_some_iff.1 hx
    obtain ⟨hj, ey⟩ := List.getElem?_eq_some_iff.1 hy
    rcases Nat.lt_or_ge i j with hlt | hge
    · have := List.pairwise_iff_getElem.1 hs i j hi hj hlt
      rwa [ex, ey] at this
    · have : i = j := by omega
      subst this
      rw [hx] at hy; cases hy; exact le_refl _
  have hex : ∃ a x, s[a]? = some x ∧ s[a + 1]? = some x ∧ s[a + 2]? = some x := by
    unfold NoThree at h3
    push Not at h3
    obtain ⟨i, j, k, x, hij, hjk, hik, hi, hj, hk, -⟩ := h3
    -- the least and the greatest of the three are at least two apart
    obtain ⟨lo, hi', hlo, hhi, hgap⟩ : ∃ lo hi' : Nat, s[lo]? = some x ∧ s[hi']? = some x ∧ lo + 2 ≤ hi' := by
      by_cases c1 : i + 2 ≤ j
      · exact ⟨i, j, hi, hj, c1⟩
      by_cases c2 : j + 2 ≤ i
      · exact ⟨j, i, hj, hi, c2⟩
      by_cases c3 : i + 2 ≤ k
      · exact ⟨i, k, hi, hk, c3⟩
      by_cases c4 : k + 2 ≤ i
      · exact ⟨k, i, hk, hi, c4⟩
      by_cases c5 : j + 2 ≤ k
      · exact ⟨j, k, hj, hk, c5⟩
      by_cases c6 : k + 2 ≤ j
      · exact ⟨k, j, hk, hj, c6⟩
      omega
    have hlen := (List.getElem?_eq_some_iff.1 hhi).1
    have mid : ∀ m, lo ≤ m → m ≤ hi' → s[m]? = some x := by
      intro m h1 h2
      have hm : m < s.length := by omega
      have hm' := List.getElem?_eq_getElem hm
      have l1 := hmono lo m _ _ h1 hlo hm'
      have l2 := hmono m hi' _ _ h2 hm' hhi
      rw [hm']
      congr 1
      exact BitVec.eq_of_toNat_eq (by omega)
    exact ⟨lo, x, hlo, mid (lo + 1) (by omega) (by omega), mid (lo + 2) (by omega) (by omega)⟩
  have hspec := Nat.find_spec hex
  have hmin := fun m => Nat.find_min hex (m := m)
  set a := Nat.find hex with hadef
  obtain ⟨x, x0, x1, x2⟩ := hspec
  refine ⟨a, x, x0, x1, x2, ?_⟩
  rcases Nat.eq_zero_or_pos a with h | h
  · exact Or.inl h
  · right
    have hlen := (List.getElem?_eq_some_iff.1 x0).1
    have hy := List.getElem?_eq_getElem (l := s) (i := a - 1) (by omega)
    refine ⟨_, hy, ?_⟩
    intro heq
    rw [heq] at hy
    exact hmin (a - 1) (by omega) ⟨x, hy, by rw [show a - 1 + 1 = a by omega]; exact x0, by rw [show a - 1 + 2 = a + 1 by omega]; exact x1⟩

theorem noThree_of_sorted (codes : List (BitVec 32)) (h : NoThree (sortedOf codes)) : NoThree codes := by
  intro i j k x hij hjk hik hi hj hk
  have pos : ∀ p : Nat, codes[p]? = some x → ∃ q : Nat, (permOf codes)[q]? = some p ∧ (sortedOf codes)[q]? = some x := by
    intro p hp
    obtain ⟨q, hq, hqp⟩ := perm_pos codes p (List.getElem?_eq_some_iff.1 hp).1
    refine ⟨q, hqp, ?_⟩
    have hq' : q < (sortedOf codes).length := by rw [sortedOf_length]; exact hq
    obtain ⟨p', h1, h2⟩ := sortCodes_at codes q _ (List.getElem?_eq_getElem hq')
    have : p' = p := by
      have h3 : (permOf codes)[q]? = some p' := h1
      rw [hqp] at h3; cases h3; rfl
    subst this
    rw [List.getElem?_eq_getElem hq', ← h2, hp]
  obtain ⟨qi, a1, a2⟩ := pos i hi
  obtain ⟨qj, b1, b2⟩ := pos j hj
  obtain ⟨qk, c1, c2⟩ := pos k hk
  refine h qi qj qk x ?_ ?_ ?_ a2 b2 c2
  · rintro rfl; rw [a1] at b1; cases b1; exact hij rfl
  · rintro rfl; rw [b1] at c1; cases c1; exact hjk rfl
  · rintro rfl; rw [a1] at c1; cases c1; exact hik rfl

end Artist.LBVH
