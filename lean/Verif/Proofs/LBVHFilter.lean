import Verif.Proofs.LBVHBoxes
/-! Helper lemmas: the built tree and the filter as a whole. -/
namespace Artist.LBVH
open Artist Artist.Morton

/-! ### sorting -/

theorem sortCodes_perm (codes : List (BitVec 32)) : (sortCodes codes).Perm codes.zipIdx :=
  List.mergeSort_perm _ _

theorem sortCodes_length (codes : List (BitVec 32)) : (sortCodes codes).length = codes.length := by
  rw [(sortCodes_perm codes).length_eq]; simp

theorem perm_perm (codes : List (BitVec 32)) : ((sortCodes codes).map Prod.snd).Perm (List.range codes.length) := by
  have h := (sortCodes_perm codes).map Prod.snd
  rw [List.zipIdx_map_snd] at h
  rw [List.range_eq_range']
  exact h

theorem sorted_fst_perm (codes : List (BitVec 32)) : ((sortCodes codes).map Prod.fst).Perm codes := by
  have h := (sortCodes_perm codes).map Prod.fst
  rw [List.zipIdx_map_fst] at h
  exact h

theorem toInt_30 (a : BitVec 32) (h : Is30Bit a) : a.toInt = a.toNat := by
  unfold Is30Bit at h
  rw [BitVec.toInt_eq_toNat_of_lt]
  omega

theorem sortCodes_sorted (codes : List (BitVec 32)) (h30 : ∀ c ∈ codes, Is30Bit c) :
    ((sortCodes codes).map Prod.fst).Pairwise (fun a b => a.toNat ≤ b.toNat) := by
  have h1 : (sortCodes codes).Pairwise (fun a b => decide (a.1.toInt ≤ b.1.toInt) = true) := by
    unfold sortCodes
    apply List.pairwise_mergeSort
    · intro a b c hab hbc; simp only [decide_eq_true_eq] at *; omega
    · intro a b; simp only [Bool.or_eq_true, decide_eq_true_eq]; omega
  rw [List.pairwise_map]
  apply h1.imp_of_mem
  rintro a b ha hb hle
  simp only [decide_eq_true_eq] at hle
  have ha30 := h30 a.1 ((sorted_fst_perm codes).mem_iff.1 (List.mem_map_of_mem ha))
  have hb30 := h30 b.1 ((sorted_fst_perm codes).mem_iff.1 (List.mem_map_of_mem hb))
  rw [toInt_30 _ ha30, toInt_30 _ hb30] at hle
  omega

theorem noThree_of_nodup {α : Type} {l : List α} (h : l.Nodup) : NoThree l := by
  intro i j k x hij _ _ hi hj _
  obtain ⟨hi', ei⟩ := List.getElem?_eq_some_iff.1 hi
  obtain ⟨hj', ej⟩ := List.getElem?_eq_some_iff.1 hj
  exact hij ((List.Nodup.getElem_inj_iff h).1 (by rw [ei, ej]))

theorem sortCodes_at (codes : List (BitVec 32)) (i : Nat) (x : BitVec 32) (h : ((sortCodes codes).map Prod.fst)[i]? = some x) :
    ∃ p, ((sortCodes codes).map Prod.snd)[i]? = some p ∧ codes[p]? = some x := by
  rw [List.getElem?_map, Option.map_eq_some_iff] at h
  obtain ⟨⟨v, p⟩, h1, h2⟩ := h
  refine ⟨p, by rw [List.getElem?_map, h1]; rfl, ?_⟩
  have hm := (sortCodes_perm codes).mem_iff.1 (List.mem_of_getElem? h1)
  have := List.mem_zipIdx_iff_getElem?.1 hm
  dsimp only at h2 this
  rw [← h2]; exact this

theorem sorted_noThree (codes : List (BitVec 32)) (h3 : NoThree codes) : NoThree ((sortCodes codes).map Prod.fst) := by
  intro i j k x hij hjk hik hi hj hk
  obtain ⟨p, p1, p2⟩ := sortCodes_at codes i x hi
  obtain ⟨q, q1, q2⟩ := sortCodes_at codes j x hj
  obtain ⟨r, r1, r2⟩ := sortCodes_at codes k x hk
  have hnd : ((sortCodes codes).map Prod.snd).Nodup := (perm_perm codes).nodup_iff.2 List.nodup_range
  have inj : ∀ a b y : Nat, ((sortCodes codes).map Prod.snd)[a]? = some y → ((sortCodes codes).map Prod.snd)[b]? = some y → a = b := by
    intro a b y ha hb
    obtain ⟨ha', ea⟩ := List.getElem?_eq_some_iff.1 ha
    obtain ⟨hb', eb⟩ := List.getElem?_eq_some_iff.1 hb
    exact (List.Nodup.getElem_inj_iff hnd).1 (by rw [ea, eb])
  exact h3 p q r x (fun e => hij (inj i j p p1 (by rw [e]; exact q1))) (fun e => hjk (inj j k q q1 (by rw [e]; exact r1)))
    (fun e => hik (inj i k p p1 (by rw [e]; exact r1))) p2 q2 r2

section
variable {K : Type} [Field K] [LinearOrder K]

/-- the sorted codes the tree is built from -/
def sortedOf (codes : List (BitVec 32)) : List (BitVec 32) := (sortCodes codes).map Prod.fst
/-- the primitive in each leaf -/
def permOf (codes : List (BitVec 32)) : List Nat := (sortCodes codes).map Prod.snd

theorem sortedOf_length (codes : List (BitVec 32)) : (sortedOf codes).length = codes.length := by
  unfold sortedOf; rw [List.length_map, sortCodes_length]

theorem permOf_length (codes : List (BitVec 32)) : (permOf codes).length = codes.length := by
  unfold permOf; rw [List.length_map, sortCodes_length]

theorem delta_of (codes : List (BitVec 32)) (hnd : NoThree codes) (h30 : ∀ c ∈ codes, Is30Bit c) :
    Delta codes.length (lcp (sortedOf codes)) := by
  have := lcp_delta (sortedOf codes) (sortCodes_sorted codes h30) (fun c hc =>
    h30 c ((sorted_fst_perm codes).mem_iff.1 hc)) (sorted_noThree codes hnd)
  rwa [sortedOf_length] at this

theorem tree_left (codes : List (BitVec 32)) (boxes : List (Box K)) :
    (buildFromCodes codes boxes).left = leftArray codes.length (lcp (sortedOf codes)) := rfl
theorem tree_right (codes : List (BitVec 32)) (boxes : List (Box K)) :
    (buildFromCodes codes boxes).right = rightArray codes.length (lcp (sortedOf codes)) := rfl
theorem tree_isLeaf (codes : List (BitVec 32)) (boxes : List (Box K)) :
    (buildFromCodes codes boxes).isLeaf = List.replicate (codes.length - 1) false ++ List.replicate codes.length true := rfl
theorem tree_prim (codes : List (BitVec 32)) (boxes : List (Box K)) :
    (buildFromCodes codes boxes).primitiveIndex =
      List.replicate (codes.length - 1) (-1) ++ (permOf codes).map (fun (p : Nat) => (p : Int)) := rfl
theorem tree_boxes (codes : List (BitVec 32)) (boxes : List (Box K)) :
    (buildFromCodes codes boxes).boxes =
      nodeBoxes (leftArray codes.length (lcp (sortedOf codes))) (rightArray codes.length (lcp (sortedOf codes)))
        ((permOf codes).map (fun p => boxes.getD p zeroBox)) := rfl

theorem isLeaf_get (codes : List (BitVec 32)) (boxes : List (Box K)) (x : Nat) (hx : x < codes.length - 1 + codes.length) :
    (buildFromCodes codes boxes).isLeaf.getD x false = decide (codes.length - 1 ≤ x) ∧
    (buildFromCodes codes boxes).isLeaf[x]? = some (decide (codes.length - 1 ≤ x)) := by
  have : (buildFromCodes codes boxes).isLeaf[x]? = some (decide (codes.length - 1 ≤ x)) := by
    rw [tree_isLeaf]
    by_cases h : x < codes.length - 1
    · rw [List.getElem?_append_left (by simpa using h), List.getElem?_replicate, if_pos h]
      simp; omega
    · rw [List.getElem?_append_right (by simpa using h), List.getElem?_replicate, if_pos (by simp; omega)]
      simp; omega
  exact ⟨by rw [List.getD_eq_getElem?_getD, this]; rfl, this⟩

theorem prim_get (codes : List (BitVec 32)) (boxes : List (Box K)) (j : Nat) (hj : j < codes.length) :
    ∃ p, (permOf codes)[j]? = some p ∧ p < codes.length ∧
      (buildFromCodes codes boxes).primitiveIndex[codes.length - 1 + j]? = some (p : Int) := by
  have hjl : j < (permOf codes).length := by rw [permOf_length]; exact hj
  refine ⟨(permOf codes)[j], List.getElem?_eq_getElem hjl, ?_, ?_⟩
  · have : (permOf codes)[j] ∈ permOf codes := List.getElem_mem hjl
    have := (perm_perm codes).mem_iff.1 this
    simpa using this
  · rw [tree_prim, List.getElem?_append_right (by simp)]
    simp [List.getElem?_eq_getElem hjl]

theorem perm_pos (codes : List (BitVec 32)) (p : Nat) (hp : p < codes.length) :
    ∃ j, j < codes.length ∧ (permOf codes)[j]? = some p := by
  have : p ∈ permOf codes := (perm_perm codes).mem_iff.2 (by simpa using hp)
  obtain ⟨j, hj, h⟩ := List.mem_iff_getElem.1 this
  exact ⟨j, by rw [permOf_length] at hj; exact hj, by rw [List.getElem?_eq_getElem hj, h]⟩

theorem perm_inj (codes : List (BitVec 32)) (i j p : Nat) (hi : (permOf codes)[i]? = some p)
    (hj : (permOf codes)[j]? = some p) : i = j := by
  have hnd : (permOf codes).Nodup := (perm_perm codes).nodup_iff.2 List.nodup_range
  obtain ⟨hi', ei⟩ := List.getElem?_eq_some_iff.1 hi
  obtain ⟨hj', ej⟩ := List.getElem?_eq_some_iff.1 hj
  exact (List.Nodup.getElem_inj_iff hnd).1 (by rw [ei, ej])

/-- what is known of the tree of arbitrary codes -/
theorem tree_wf (codes : List (BitVec 32)) (boxes : List (Box K)) (h30 : ∀ c ∈ codes, Is30Bit c) :
    WF (buildFromCodes codes boxes).left (buildFromCodes codes boxes).right (codes.length - 1 + codes.length) := by
  have h := wf_any (n := codes.length) (dl := lcp (sortedOf codes))
    (by intro i j hj; exact C13_lcp_outside _ i j (by rw [sortedOf_length]; exact hj))
    (by intro i j hi hj; exact lcp_pos _ (fun c hc => h30 c ((sorted_fst_perm codes).mem_iff.1 hc)) i j (lt_of_lt_of_eq hi (sortedOf_length codes).symm) (lt_of_lt_of_eq hj (sortedOf_length codes).symm))
  exact h

theorem tree_kids (codes : List (BitVec 32)) (boxes : List (Box K)) (h30 : ∀ c ∈ codes, Is30Bit c) (i : Nat) (hi : i < codes.length - 1) :
    ∃ l r : Nat, (buildFromCodes codes boxes).left[i]? = some (l : Int) ∧ (buildFromCodes codes boxes).right[i]? = some (r : Int) ∧
      l < codes.length - 1 + codes.length ∧ r < codes.length - 1 + codes.length := by
  obtain ⟨l, r, hl, hr, h1, h2⟩ := children_any (n := codes.length) (dl := lcp (sortedOf codes))
    (by intro i j hj; exact C13_lcp_outside _ i j (by rw [sortedOf_length]; exact hj))
    (by intro i j hi hj; exact lcp_pos _ (fun c hc => h30 c ((sorted_fst_perm codes).mem_iff.1 hc)) i j (lt_of_lt_of_eq hi (sortedOf_length codes).symm) (lt_of_lt_of_eq hj (sortedOf_length codes).symm)) i hi
  refine ⟨l, r, ?_, ?_, h1, h2⟩
  · rw [tree_left, leftArray_get]; exact Or.inl ⟨hi, hl.symm⟩
  · rw [tree_right, rightArray_get]; exact Or.inl ⟨hi, hr.symm⟩

/-- `S` is a set of nodes of the tree that is closed under child links and free of cycles (`ρ` decreases). -/
abbrev TreeRanked (codes : List (BitVec 32)) (boxes : List (Box K)) (S : Nat → Prop) (ρ : Nat → Nat) : Prop :=
  RankedOn (buildFromCodes codes boxes).left (buildFromCodes codes boxes).right (codes.length - 1 + codes.length) S ρ

/-- with no three equal codes the whole tree is free of cycles -/
theorem tree_ranked (codes : List (BitVec 32)) (boxes : List (Box K)) (hnd : NoThree codes) (h30 : ∀ c ∈ codes, Is30Bit c) :
    TreeRanked codes boxes (fun x => x < codes.length - 1 + codes.length) (rank codes.length (lcp (sortedOf codes))) :=
  Ranked.on (tree_wf codes boxes h30) (delta_ranked (delta_of codes hnd h30))

/-- leaf and inner boxes of the built tree -/
theorem tree_box_any (codes : List (BitVec 32)) (boxes : List (Box K)) {S : Nat → Prop} {ρ : Nat → Nat} (hS : TreeRanked codes boxes S ρ)
    (h30 : ∀ c ∈ codes, Is30Bit c) (hne : codes ≠ []) :
    (∀ (j p : Nat), (permOf codes)[j]? = some p →
      (buildFromCodes codes boxes).boxes.getD (codes.length - 1 + j) zeroBox = boxes.getD p zeroBox) ∧
    (∀ i, i < codes.length - 1 → S i → ∃ l r : Nat,
      (buildFromCodes codes boxes).left[i]? = some (l : Int) ∧ (buildFromCodes codes boxes).right[i]? = some (r : Int) ∧
      (buildFromCodes codes boxes).boxes.getD i zeroBox =
        Box.union ((buildFromCodes codes boxes).boxes.getD l zeroBox) ((buildFromCodes codes boxes).boxes.getD r zeroBox)) ∧
    (buildFromCodes codes boxes).boxes.length = codes.length - 1 + codes.length := by
  have hn : 1 ≤ codes.length := by
    cases codes with
    | nil => exact absurd rfl hne
    | cons => simp
  have kids := tree_kids codes boxes h30
  have wf := tree_wf codes boxes h30
  rw [tree_left, tree_right] at wf
  simp only [tree_left, tree_right] at kids
  unfold TreeRanked at hS
  rw [tree_left, tree_right] at hS
  set n := codes.length with hnn
  set dl := lcp (sortedOf codes) with hdl
  set leafB := (permOf codes).map (fun p => boxes.getD p zeroBox) with hlb
  have hlbl : leafB.length = n := by rw [hlb, List.length_map, permOf_length]
  have inv0 : BoxInv (n - 1) (n - 1 + n) (leftArray n dl) (rightArray n dl)
      (List.replicate (n - 1) zeroBox ++ leafB) (List.replicate (n - 1) zeroBox ++ leafB) (List.replicate (n - 1) false) := by
    refine ⟨by simp [hlbl], by simp, fun _ _ _ => rfl, ?_⟩
    intro i hi hd
    rw [List.getD_eq_getElem?_getD, List.getElem?_replicate, if_pos hi] at hd
    simp at hd
  have hspec := boxRounds_spec (orig := List.replicate (n - 1) zeroBox ++ leafB) (N := n - 1 + n) (by omega) (by
      intro i hi
      obtain ⟨l, r, h1, h2, h3, h4⟩ := kids i hi
      rw [List.getD_eq_getElem?_getD, List.getD_eq_getElem?_getD, h1, h2]
      simp; omega)
    ((n - 1) * 2) _ _ inv0 (by
      unfold todo
      exact le_trans List.countP_le_length (by simp; omega))
  have hboxes : (buildFromCodes codes boxes).boxes = (boxRounds (n - 1) (leftArray n dl) (rightArray n dl) ((n - 1) * 2)
      (List.replicate (n - 1) zeroBox ++ leafB) (List.replicate (n - 1) false)).1 := by
    rw [tree_boxes]; unfold nodeBoxes; rw [← hlb, hlbl]
  rw [← hboxes] at hspec
  obtain ⟨inv, hready⟩ := hspec
  refine ⟨?_, ?_, inv.lenB⟩
  · intro j p hj
    have hjl : j < n := by
      have := (List.getElem?_eq_some_iff.1 hj).1
      rwa [permOf_length] at this
    rw [List.getD_eq_getElem?_getD, inv.leaf (n - 1 + j) (by omega) (by omega),
      List.getElem?_append_right (by simp)]
    simp [hlb, hj]
  · intro i hi hSi
    obtain ⟨l, r, h1, h2, _, _⟩ := kids i hi
    refine ⟨l, r, h1, h2, ?_⟩
    have hd := done_of_ranked wf (by omega) hS _ hready (ρ i) i (le_refl _) hSi hi
    have := (inv.inner i hi hd).2.2
    rw [List.getD_eq_getElem?_getD (l := leftArray n dl), List.getD_eq_getElem?_getD (l := rightArray n dl), h1, h2] at this
    simpa using this

theorem tree_box_spec (codes : List (BitVec 32)) (boxes : List (Box K)) (hnd : NoThree codes)
    (h30 : ∀ c ∈ codes, Is30Bit c) (hne : codes ≠ []) :
    (∀ (j p : Nat), (permOf codes)[j]? = some p →
      (buildFromCodes codes boxes).boxes.getD (codes.length - 1 + j) zeroBox = boxes.getD p zeroBox) ∧
    (∀ i, i < codes.length - 1 → ∃ l r : Nat,
      (buildFromCodes codes boxes).left[i]? = some (l : Int) ∧ (buildFromCodes codes boxes).right[i]? = some (r : Int) ∧
      (buildFromCodes codes boxes).boxes.getD i zeroBox =
        Box.union ((buildFromCodes codes boxes).boxes.getD l zeroBox) ((buildFromCodes codes boxes).boxes.getD r zeroBox)) ∧
    (buildFromCodes codes boxes).boxes.length = codes.length - 1 + codes.length := by
  obtain ⟨h1, h2, h3⟩ := tree_box_any codes boxes (tree_ranked codes boxes hnd h30) h30 hne
  exact ⟨h1, fun i hi => h2 i hi (by omega), h3⟩

variable [IsStrictOrderedRing K]

/-- all boxes are proper, and a hit child box means a hit parent box -/
theorem tree_hit_any (hit : Ray K → Box K → Bool) (hmono : ∀ (ray : Ray K) (a b : Box K), a.Proper → a.Inside b → hit ray a = true → hit ray b = true)
    (codes : List (BitVec 32)) (boxes : List (Box K)) {S : Nat → Prop} {ρ : Nat → Nat} (hS : TreeRanked codes boxes S ρ)
    (h30 : ∀ c ∈ codes, Is30Bit c) (hne : codes ≠ []) (hprop : ∀ p, p < codes.length → (boxes.getD p zeroBox).Proper) :
    (∀ x, S x → ((buildFromCodes codes boxes).boxes.getD x zeroBox).Proper) ∧
    ∀ (ray : Ray K) (a c : Nat), S a → IsChild (buildFromCodes codes boxes).left (buildFromCodes codes boxes).right a c →
      hit ray ((buildFromCodes codes boxes).boxes.getD c zeroBox) = true →
      hit ray ((buildFromCodes codes boxes).boxes.getD a zeroBox) = true := by
  obtain ⟨hleaf, hinner, _⟩ := tree_box_any codes boxes hS h30 hne
  have hproper : ∀ t x, ρ x ≤ t → S x →
      ((buildFromCodes codes boxes).boxes.getD x zeroBox).Proper := by
    have leafCase : ∀ x, codes.length - 1 ≤ x → x < codes.length - 1 + codes.length →
        ((buildFromCodes codes boxes).boxes.getD x zeroBox).Proper := by
      intro x h1 h2
      obtain ⟨p, hp, hpl, _⟩ := prim_get codes boxes (x - (codes.length - 1)) (by omega)
      have := hleaf _ p hp
      have e : codes.length - 1 + (x - (codes.length - 1)) = x := by omega
      rw [e] at this
      rw [this]; exact hprop p hpl
    intro t
    induction t with
    | zero =>
      intro x hx hxS
      rcases Nat.lt_or_ge x (codes.length - 1) with h | h
      · obtain ⟨l, r, h1, h2, h3⟩ := hinner x h hxS
        have := hS.rank x l hxS (Or.inl h1)
        omega
      · exact leafCase x h (hS.bound x hxS)
    | succ t ih =>
      intro x hx hxS
      rcases Nat.lt_or_ge x (codes.length - 1) with h | h
      · obtain ⟨l, r, h1, h2, h3⟩ := hinner x h hxS
        rw [h3]
        apply union_proper
        apply ih
        · have := hS.rank x l hxS (Or.inl h1); omega
        · exact hS.closed x l hxS (Or.inl h1)
      · exact leafCase x h (hS.bound x hxS)
  refine ⟨fun x hx => hproper _ x (le_refl _) hx, ?_⟩
  intro ray a c haS hch hh
  have ha : a < codes.length - 1 := ((isChild_iff _ _ a c).1 hch).1
  obtain ⟨l, r, h1, h2, h3⟩ := hinner a ha haS
  have hpc := hproper _ c (le_refl _) (hS.closed a c haS hch)
  rw [h3]
  rcases hch with hch | hch
  · rw [h1] at hch
    simp only [Option.some.injEq, Int.natCast_inj] at hch
    subst hch
    exact hmono ray _ _ hpc (inside_union_left _ _) hh
  · rw [h2] at hch
    simp only [Option.some.injEq, Int.natCast_inj] at hch
    subst hch
    exact hmono ray _ _ hpc (inside_union_right _ _) hh

theorem tree_hit_up (codes : List (BitVec 32)) (boxes : List (Box K)) (hnd : NoThree codes)
    (h30 : ∀ c ∈ codes, Is30Bit c) (hne : codes ≠ []) (hprop : ∀ p, p < codes.length → (boxes.getD p zeroBox).Proper) :
    (∀ x, x < codes.length - 1 + codes.length → ((buildFromCodes codes boxes).boxes.getD x zeroBox).Proper) ∧
    ∀ (ray : Ray K) (a c : Nat), IsChild (buildFromCodes codes boxes).left (buildFromCodes codes boxes).right a c →
      hits ray ((buildFromCodes codes boxes).boxes.getD c zeroBox) = true →
      hits ray ((buildFromCodes codes boxes).boxes.getD a zeroBox) = true := by
  obtain ⟨h1, h2⟩ := tree_hit_any hits hits_mono codes boxes (tree_ranked codes boxes hnd h30) h30 hne hprop
  refine ⟨h1, fun ray a c hch => h2 ray a c ?_ hch⟩
  have ha : a < codes.length - 1 := ((isChild_iff _ _ a c).1 hch).1
  omega

omit [Field K] [LinearOrder K] [IsStrictOrderedRing K] in
theorem hitPath_of_path {left right : List Int} {hit : Nat → Bool} {S : Nat → Prop} (hcl : ∀ a c, S a → IsChild left right a c → S c)
    (hup : ∀ a c, S a → IsChild left right a c → hit c = true → hit a = true) {a b k : Nat}
    (h : Path left right a b k) (ha : S a) (hb : hit b = true) : HitPath left right hit a b ∧ hit a = true := by
  induction h with
  | refl a => exact ⟨HitPath.refl hb, hb⟩
  | step h1 _ ih =>
    obtain ⟨i1, i2⟩ := ih (hcl _ _ ha h1) hb
    exact ⟨HitPath.step (hup _ _ ha h1 i2) h1 i1, hup _ _ ha h1 i2⟩

/-- depth of the built tree -/
theorem tree_depth_any (codes : List (BitVec 32)) (boxes : List (Box K)) {S : Nat → Prop} {ρ : Nat → Nat} (hS : TreeRanked codes boxes S ρ) (hS0 : S 0)
    (h30 : ∀ c ∈ codes, Is30Bit c) :
    ∃ F m, (∀ fuel, F ≤ fuel → maxDepth (buildFromCodes codes boxes).left (buildFromCodes codes boxes).right fuel = some (.ok m)) ∧
      (∃ y k, Path (buildFromCodes codes boxes).left (buildFromCodes codes boxes).right 0 y k ∧ m = k + 1) ∧
      ∀ y k, Path (buildFromCodes codes boxes).left (buildFromCodes codes boxes).right 0 y k → k + 1 ≤ m := by
  have wf := tree_wf codes boxes h30
  have spec := fun fuel => depthLoop_spec wf hS fuel [(0, 1)] 1 (by simpa using hS0)
  set F := stackCost ρ [0] + 1 with hF
  obtain ⟨m, h1, h2, h3, h4⟩ := spec F (by simp [hF])
  have h3' : ∀ y k, Path (buildFromCodes codes boxes).left (buildFromCodes codes boxes).right 0 y k → k + 1 ≤ m := by
    intro y k hp
    have := h3 (0, 1) (by simp) y k hp
    simp only at this; omega
  have h4' : ∃ y k, Path (buildFromCodes codes boxes).left (buildFromCodes codes boxes).right 0 y k ∧ m = k + 1 := by
    rcases h4 with h4 | ⟨x, hx, y, k, hp, he⟩
    · exact ⟨0, 0, Path.refl _, by omega⟩
    · simp only [List.mem_singleton] at hx
      subst hx
      exact ⟨y, k, hp, by simp only at he; omega⟩
  refine ⟨F, m, ?_, h4', h3'⟩
  intro fuel hfuel
  obtain ⟨m', g1, g2, g3, g4⟩ := spec fuel (by
    have h0 : F ≤ fuel := hfuel
    rw [hF] at h0
    simpa using Nat.lt_of_succ_le h0)
  have : m' = m := by
    obtain ⟨y, k, hp, he⟩ := h4'
    have e1 := g3 (0, 1) (by simp) y k hp
    simp only at e1
    rcases g4 with g4 | ⟨x, hx, y', k', hp', he'⟩
    · omega
    · simp only [List.mem_singleton] at hx
      subst hx
      have := h3' y' k' hp'
      simp only at he'; omega
  rw [← this]; exact g1

theorem tree_depth (codes : List (BitVec 32)) (boxes : List (Box K)) (hnd : NoThree codes)
    (h30 : ∀ c ∈ codes, Is30Bit c) (hne : codes ≠ []) :
    ∃ F m, (∀ fuel, F ≤ fuel → maxDepth (buildFromCodes codes boxes).left (buildFromCodes codes boxes).right fuel = some (.ok m)) ∧
      (∃ y k, Path (buildFromCodes codes boxes).left (buildFromCodes codes boxes).right 0 y k ∧ m = k + 1) ∧
      ∀ y k, Path (buildFromCodes codes boxes).left (buildFromCodes codes boxes).right 0 y k → k + 1 ≤ m := by
  have hn : 1 ≤ codes.length := by
    cases codes with
    | nil => exact absurd rfl hne
    | cons => simp
  exact tree_depth_any codes boxes (tree_ranked codes boxes hnd h30) (by omega) h30

/-- the filter: terminates and reports exactly the reachable hit primitives -/
theorem filterWith_any (hit : Ray K → Box K → Bool) (hmono : ∀ (ray : Ray K) (a b : Box K), a.Proper → a.Inside b → hit ray a = true → hit ray b = true)
    (codes : List (BitVec 32)) (boxes : List (Box K)) {S : Nat → Prop} {ρ : Nat → Nat} (hS : TreeRanked codes boxes S ρ) (hS0 : S 0)
    (h30 : ∀ c ∈ codes, Is30Bit c) (hne : codes ≠ []) (hprop : ∀ p, p < codes.length → (boxes.getD p zeroBox).Proper)
    (rays : List (Ray K)) :
    ∃ F res, (∀ fuel, F ≤ fuel → filterWith hit codes boxes rays fuel = some (.ok res)) ∧
      res.Pairwise (· < ·) ∧
      ∀ p, p ∈ res ↔ p < codes.length ∧ LeafReachable (buildFromCodes codes boxes) p ∧
        ∃ ray ∈ rays, ray.owner ≠ p ∧ hit ray (boxes.getD p zeroBox) = true := by
  have hn : 1 ≤ codes.length := by
    cases codes with
    | nil => exact absurd rfl hne
    | cons => simp
  have wf := tree_wf codes boxes h30
  obtain ⟨F1, m, hdepth, _, hmax⟩ := tree_depth_any codes boxes hS hS0 h30
  obtain ⟨hleaf, hinner, _⟩ := tree_box_any codes boxes hS h30 hne
  obtain ⟨_, hup⟩ := tree_hit_any hit hmono codes boxes hS h30 hne hprop
  set F2 := stackCost ρ [0] + 1 with hF2
  have reach_lt : ∀ a b k, Path (buildFromCodes codes boxes).left (buildFromCodes codes boxes).right a b k →
      a < codes.length - 1 + codes.length → b < codes.length - 1 + codes.length := by
    intro a b k h
    induction h with
    | refl => exact id
    | step h1 _ ih => intro _; exact ih (wf.bound _ _ h1)
  -- a single ray
  have single : ∀ ray : Ray K, ∀ fuel, F2 ≤ fuel → ∃ found,
      traverse (buildFromCodes codes boxes).left (buildFromCodes codes boxes).right (buildFromCodes codes boxes).isLeaf
        (buildFromCodes codes boxes).primitiveIndex
        (fun node => hit ray ((buildFromCodes codes boxes).boxes.getD node zeroBox)) ray.owner m fuel [0] [] = some (.ok found) ∧
      ∀ p, p ∈ found ↔ p < codes.length ∧ LeafReachable (buildFromCodes codes boxes) p ∧ ray.owner ≠ p ∧
        hit ray (boxes.getD p zeroBox) = true := by
    intro ray fuel hfuel
    obtain ⟨res, h1, h2⟩ := traverse_spec (prim := (buildFromCodes codes boxes).primitiveIndex)
      (isLeaf := (buildFromCodes codes boxes).isLeaf)
      (hit := fun node => hit ray ((buildFromCodes codes boxes).boxes.getD node zeroBox)) (owner := ray.owner) (capacity := m)
      wf hS (by
        intro a c hch
        have ha : a < codes.length - 1 := ((isChild_iff _ _ a c).1 hch).1
        rw [(isLeaf_get codes boxes a (by omega)).1]; simp; omega)
      hmax fuel [0] [] (by simpa using hS0) (by simp only [hF2] at hfuel; omega) ⟨⟨0, by simp, Path.refl _⟩, trivial⟩
    refine ⟨res, h1, ?_⟩
    intro p
    rw [h2 p]
    constructor
    · rintro (h | ⟨x, hx, y, hpath, hy1, hy2, hy3⟩)
      · simp at h
      · simp only [List.mem_singleton] at hx
        subst hx
        obtain ⟨k, hk⟩ := hpath.toPath
        have hyl := reach_lt _ _ _ hk (by omega)
        have hy1' := hy1
        rw [(isLeaf_get codes boxes y hyl).1] at hy1'
        simp only [decide_eq_true_eq] at hy1'
        obtain ⟨q, hq, hql, hqp⟩ := prim_get codes boxes (y - (codes.length - 1)) (by omega)
        have e : codes.length - 1 + (y - (codes.length - 1)) = y := by omega
        rw [e] at hqp
        have hg : (buildFromCodes codes boxes).primitiveIndex.getD y (-1) = (q : Int) := by
          rw [List.getD_eq_getElem?_getD, hqp]; rfl
        rw [hg] at hy2 hy3
        simp only [Int.toNat_natCast] at hy3
        subst hy3
        refine ⟨hql, ⟨y, k, hk, ?_, hqp⟩, by exact_mod_cast hy2, ?_⟩
        · rw [(isLeaf_get codes boxes y hyl).2]; simp [hy1']
        · have := hleaf _ p hq
          rw [e] at this
          rw [← this]; exact hpath.last
    · rintro ⟨hpl, ⟨y, k, hk, hyl, hyp⟩, ho, hh⟩
      right
      have hylt := reach_lt _ _ _ hk (by omega)
      rw [(isLeaf_get codes boxes y hylt).2] at hyl
      simp only [Option.some.injEq, decide_eq_true_eq] at hyl
      obtain ⟨q, hq, hql, hqp⟩ := prim_get codes boxes (y - (codes.length - 1)) (by omega)
      have e : codes.length - 1 + (y - (codes.length - 1)) = y := by omega
      rw [e] at hqp
      rw [hqp] at hyp
      simp only [Option.some.injEq, Int.natCast_inj] at hyp
      subst hyp
      have hbox := hleaf _ q hq
      rw [e] at hbox
      have hhy : (fun node => hit ray ((buildFromCodes codes boxes).boxes.getD node zeroBox)) y = true := by
        simp only; rw [hbox]; exact hh
      have hg : (buildFromCodes codes boxes).primitiveIndex.getD y (-1) = (q : Int) := by
        rw [List.getD_eq_getElem?_getD, hqp]; rfl
      refine ⟨0, by simp, y, (hitPath_of_path hS.closed (fun a c => hup ray a c) hk hS0 hhy).1, ?_, ?_, ?_⟩
      · rw [(isLeaf_get codes boxes y hylt).1]; simpa using hyl
      · rw [hg]; exact_mod_cast ho
      · rw [hg]; simp
  have all : ∀ rays : List (Ray K), ∀ fuel, F2 ≤ fuel → ∃ found,
      traverseAll hit (buildFromCodes codes boxes) m fuel rays = some (.ok found) ∧
      ∀ p, p ∈ found ↔ p < codes.length ∧ LeafReachable (buildFromCodes codes boxes) p ∧
        ∃ ray ∈ rays, ray.owner ≠ p ∧ hit ray (boxes.getD p zeroBox) = true := by
    intro rays fuel hfuel
    induction rays with
    | nil => exact ⟨[], rfl, by simp⟩
    | cons ray rays ih =>
      obtain ⟨f1, g1, g2⟩ := single ray fuel hfuel
      obtain ⟨f2, k1, k2⟩ := ih
      refine ⟨f1 ++ f2, ?_, ?_⟩
      · simp only [traverseAll]
        rw [g1, k1]
      · intro p
        rw [List.mem_append, g2 p, k2 p]
        constructor
        · rintro (⟨a, b, c, d⟩ | ⟨a, b, r, hr', c, d⟩)
          · exact ⟨a, b, ray, by simp, c, d⟩
          · exact ⟨a, b, r, by simp [hr'], c, d⟩
        · rintro ⟨a, b, r, hr', c, d⟩
          rcases List.mem_cons.1 hr' with rfl | hr'
          · exact Or.inl ⟨a, b, c, d⟩
          · exact Or.inr ⟨a, b, r, hr', c, d⟩
  have step : ∀ fuel, max F1 F2 ≤ fuel → ∃ found : List Nat,
      filterWith hit codes boxes rays fuel =
        some (.ok ((List.range codes.length).filter (fun p => decide (p ∈ found)))) ∧
      ∀ p, p ∈ found ↔ p < codes.length ∧ LeafReachable (buildFromCodes codes boxes) p ∧
        ∃ ray ∈ rays, ray.owner ≠ p ∧ hit ray (boxes.getD p zeroBox) = true := by
    intro fuel hfuel
    obtain ⟨found, h1, h2⟩ := all rays fuel (by omega)
    refine ⟨found, ?_, h2⟩
    unfold filterWith
    simp only
    rw [hdepth fuel (by omega)]
    simp only
    rw [h1]
  obtain ⟨found, h1, h2⟩ := step (max F1 F2) (le_refl _)
  refine ⟨max F1 F2, (List.range codes.length).filter (fun p => decide (p ∈ found)), ?_, ?_, ?_⟩
  · intro fuel hfuel
    obtain ⟨found', g1, g2⟩ := step fuel hfuel
    rw [g1]
    congr 2
    apply List.filter_congr
    intro p _
    rw [Bool.eq_iff_iff]
    simp only [decide_eq_true_eq]
    rw [g2 p, h2 p]
  · exact List.Pairwise.filter _ List.pairwise_lt_range
  · intro p
    rw [List.mem_filter]
    simp only [List.mem_range, decide_eq_true_eq]
    rw [h2 p]
    exact ⟨fun h => h.2, fun h => ⟨h.1, h⟩⟩

theorem filter_any (codes : List (BitVec 32)) (boxes : List (Box K)) {S : Nat → Prop} {ρ : Nat → Nat} (hS : TreeRanked codes boxes S ρ) (hS0 : S 0)
    (h30 : ∀ c ∈ codes, Is30Bit c) (hne : codes ≠ []) (hprop : ∀ p, p < codes.length → (boxes.getD p zeroBox).Proper)
    (rays : List (Ray K)) :
    ∃ F res, (∀ fuel, F ≤ fuel → filterFromCodes codes boxes rays fuel = some (.ok res)) ∧
      res.Pairwise (· < ·) ∧
      ∀ p, p ∈ res ↔ p < codes.length ∧ LeafReachable (buildFromCodes codes boxes) p ∧
        ∃ ray ∈ rays, ray.owner ≠ p ∧ hits ray (boxes.getD p zeroBox) = true :=
  filterWith_any hits hits_mono codes boxes hS hS0 h30 hne hprop rays

theorem filter_spec (codes : List (BitVec 32)) (boxes : List (Box K)) (hnd : NoThree codes)
    (h30 : ∀ c ∈ codes, Is30Bit c) (hne : codes ≠ []) (hprop : ∀ p, p < codes.length → (boxes.getD p zeroBox).Proper)
    (rays : List (Ray K)) :
    ∃ F res, (∀ fuel, F ≤ fuel → filterFromCodes codes boxes rays fuel = some (.ok res)) ∧
      res.Pairwise (· < ·) ∧
      ∀ p, p ∈ res ↔ p < codes.length ∧ LeafReachable (buildFromCodes codes boxes) p ∧
        ∃ ray ∈ rays, ray.owner ≠ p ∧ hits ray (boxes.getD p zeroBox) = true := by
  have hn : 1 ≤ codes.length := by
    cases codes with
    | nil => exact absurd rfl hne
    | cons => simp
  exact filter_any codes boxes (tree_ranked codes boxes hnd h30) (by omega) h30 hne hprop rays

/-- with exact splits every primitive's leaf is reachable -/
theorem leafReachable_of_exact (codes : List (BitVec 32)) (boxes : List (Box K)) (hnd : NoThree codes)
    (h30 : ∀ c ∈ codes, Is30Bit c) (hex : ExactSplits codes.length (lcp (sortedOf codes))) (p : Nat) (hp : p < codes.length) :
    LeafReachable (buildFromCodes codes boxes) p := by
  have hD := delta_of codes hnd h30
  obtain ⟨j, hj, hjp⟩ := perm_pos codes p hp
  obtain ⟨k, hk⟩ := all_leaves_reachable hD (by omega) hex j hj
  refine ⟨codes.length - 1 + j, k, hk, ?_, ?_⟩
  · rw [(isLeaf_get codes boxes _ (by omega)).2]; simp
  · obtain ⟨q, hq, _, hqp⟩ := prim_get codes boxes j hj
    rw [hjp] at hq; cases hq; exact hqp

omit [IsStrictOrderedRing K] in
theorem eq_bruteForce (boxes : List (Box K)) (rays : List (Ray K)) (res : List Nat) (hs : res.Pairwise (· < ·))
    (h : ∀ p, p ∈ res ↔ p < boxes.length ∧ ∃ ray ∈ rays, ray.owner ≠ p ∧ hits ray (boxes.getD p zeroBox) = true) :
    res = bruteForce boxes rays := by
  apply List.Perm.eq_of_pairwise' (r := (· ≤ ·)) (hs.imp (fun h => le_of_lt h))
  · exact (List.Pairwise.filter _ List.pairwise_lt_range).imp (fun h => le_of_lt h)
  · unfold bruteForce
    rw [List.perm_ext_iff_of_nodup (hs.imp (fun h => Nat.ne_of_lt h)) (List.nodup_range.filter _)]
    intro p
    rw [h p]
    simp only [List.mem_filter, List.mem_range, List.any_eq_true, Bool.and_eq_true, decide_eq_true_eq]

end
end Artist.LBVH

/-! ### the filter from corner points -/
namespace Artist.LBVH
open Artist Artist.Morton
section
variable {K : Type} [Field K] [LinearOrder K] [IsStrictOrderedRing K] [FloorRing K]

theorem filter_codes (corners : List (V3 K × V3 K × V3 K × V3 K)) (hne : corners ≠ []) :
    ∃ codes : List (BitVec 32), codes.length = corners.length ∧ (∀ c ∈ codes, Is30Bit c) ∧
      (∀ rays fuel, lbvhFilter corners rays fuel = filterFromCodes codes (corners.map cornerBox) rays fuel) ∧
      (NoThree (gridCells corners) → NoThree codes) ∧ ((gridCells corners).Nodup → codes.Nodup) ∧
      (∃ c cs, corners.map centroid = c :: cs ∧ mortonCodes (1 / 10 ^ 6) c cs = .ok codes) := by
  have heps : (0 : K) < 1 / 10 ^ 6 := by positivity
  cases hc : corners.map centroid with
  | nil => exact absurd (by simpa using hc) hne
  | cons c cs =>
    have hlen : cs.length + 1 = corners.length := by
      have := congrArg List.length hc; simpa using this.symm
    have hr := quantised_range (K := K) (1 / 10 ^ 6) heps c cs
    obtain ⟨codes, h1, h2, h3⟩ := mapM_ok
      (fun q : V3 Int => interleave (BitVec.ofInt 32 q.e) (BitVec.ofInt 32 q.n) (BitVec.ofInt 32 q.u))
      (quantised (K := K) (1 / 10 ^ 6) c cs) (fun q hq => by
        have := hr q hq
        obtain ⟨v, hv, _⟩ := interleave_int q (by omega) (by omega) (by omega)
        exact ⟨v, hv⟩)
    have hql : (quantised (K := K) (1 / 10 ^ 6) c cs).length = cs.length + 1 := by simp [quantised]
    have hm : mortonCodes (1 / 10 ^ 6) c cs = .ok codes := h1
    have at_ : ∀ (i : Nat) (v : BitVec 32), codes[i]? = some v → ∃ q, (quantised (K := K) (1 / 10 ^ 6) c cs)[i]? = some q ∧ v.toNat = codeNat q ∧ Is30Bit v := by
      intro i v hv
      have hi := (List.getElem?_eq_some_iff.1 hv).1
      obtain ⟨q, hq⟩ : ∃ q, (quantised (K := K) (1 / 10 ^ 6) c cs)[i]? = some q := ⟨_, List.getElem?_eq_getElem (by omega)⟩
      have hb := hr q (List.mem_of_getElem? hq)
      obtain ⟨v', hv', hn, h30, _⟩ := interleave_int q (by omega) (by omega) (by omega)
      have := h3 i q v hq hv
      rw [hv', Except.ok.injEq] at this
      subst this
      exact ⟨q, hq, hn, h30⟩
    refine ⟨codes, by omega, ?_, ?_, ?_, ?_, c, cs, rfl, hm⟩
    · intro v hv
      obtain ⟨i, hi, rfl⟩ := List.mem_iff_getElem.1 hv
      obtain ⟨_, _, _, h⟩ := at_ i _ (List.getElem?_eq_getElem hi)
      exact h
    · intro rays fuel
      unfold lbvhFilter
      rw [hc]
      simp only
      rw [hm]
    · intro hnd
      unfold gridCells at hnd
      rw [hc] at hnd
      simp only at hnd
      intro i j k x hij hjk hik hi hj hk
      obtain ⟨qi, a1, a2, _⟩ := at_ i _ hi
      obtain ⟨qj, b1, b2, _⟩ := at_ j _ hj
      obtain ⟨qk, c1, c2, _⟩ := at_ k _ hk
      have hb := hr qi (List.mem_of_getElem? a1)
      have hb' := hr qj (List.mem_of_getElem? b1)
      have hb'' := hr qk (List.mem_of_getElem? c1)
      have e1 : qi = qj := codeNat_inj qi qj (by rw [← a2, ← b2]) (by omega) (by omega) (by omega) (by omega) (by omega) (by omega)
      have e2 : qi = qk := codeNat_inj qi qk (by rw [← a2, ← c2]) (by omega) (by omega) (by omega) (by omega) (by omega) (by omega)
      subst e1
      subst e2
      exact hnd i j k qi hij hjk hik a1 b1 c1
    · intro hnd
      unfold gridCells at hnd
      rw [hc] at hnd
      simp only at hnd
      rw [List.nodup_iff_injective_getElem]
      intro i j hij
      obtain ⟨qi, a1, a2, _⟩ := at_ i _ (List.getElem?_eq_getElem i.2)
      obtain ⟨qj, b1, b2, _⟩ := at_ j _ (List.getElem?_eq_getElem j.2)
      have hb := hr qi (List.mem_of_getElem? a1)
      have hb' := hr qj (List.mem_of_getElem? b1)
      have hq : qi = qj := codeNat_inj qi qj (by rw [← a2, ← b2]; exact congrArg BitVec.toNat hij)
        (by omega) (by omega) (by omega) (by omega) (by omega) (by omega)
      subst hq
      obtain ⟨x1, e1⟩ := List.getElem?_eq_some_iff.1 a1
      obtain ⟨x2, e2⟩ := List.getElem?_eq_some_iff.1 b1
      exact Fin.ext ((List.Nodup.getElem_inj_iff hnd).1 (e1.trans e2.symm))

omit [IsStrictOrderedRing K] [FloorRing K] in
theorem getD_corners (corners : List (V3 K × V3 K × V3 K × V3 K)) (p : Nat) (hp : p < corners.length) :
    (corners.map cornerBox).getD p zeroBox = cornerBox corners[p] := by
  simp [List.getD_eq_getElem?_getD, hp]
end

/-! ### soundness for arbitrary codes -/
section
variable {K : Type} [Field K] [LinearOrder K]

theorem boxRounds_leaf (m : Nat) (left right : List Int) :
    ∀ (rounds : Nat) (boxes : List (Box K)) (done : List Bool) (x : Nat), m ≤ x →
      (boxRounds m left right rounds boxes done).1[x]? = boxes[x]? := by
  intro rounds
  induction rounds with
  | zero => intros; rfl
  | succ r ih =>
    intro boxes done x hx
    unfold boxRounds
    split
    · rfl
    · split
      · simp only
        rw [ih _ _ x hx, List.getElem?_mapIdx]
        cases boxes[x]? with
        | none => rfl
        | some b => simp only [Option.map_some]; rw [if_neg (by omega)]
      · rfl

theorem leaf_box_any (codes : List (BitVec 32)) (boxes : List (Box K)) (j p : Nat)
    (hj : (permOf codes)[j]? = some p) :
    (buildFromCodes codes boxes).boxes.getD (codes.length - 1 + j) zeroBox = boxes.getD p zeroBox := by
  rw [tree_boxes]
  unfold nodeBoxes
  simp only [List.length_map, permOf_length]
  rw [List.getD_eq_getElem?_getD, boxRounds_leaf _ _ _ _ _ _ _ (by omega), List.getElem?_append_right (by simp)]
  simp [hj]

theorem traverse_sound {left right : List Int} {isLeaf : List Bool} {prim : List Int} {hit : Nat → Bool}
    {owner capacity : Nat} : ∀ (fuel : Nat) (stack found res : List Nat),
    traverse left right isLeaf prim hit owner capacity fuel stack found = some (.ok res) →
    ∀ p ∈ res, p ∈ found ∨ ∃ node, isLeaf.getD node false = true ∧ hit node = true ∧
      (owner : Int) ≠ prim.getD node (-1) ∧ p = (prim.getD node (-1)).toNat := by
  intro fuel
  induction fuel with
  | zero => intro stack found res h; simp [traverse] at h
  | succ fuel ih =>
    intro stack found res h p hp
    cases stack with
    | nil => simp only [traverse, Option.some.injEq, Except.ok.injEq] at h; subst h; exact Or.inl hp
    | cons node rest =>
      simp only [traverse] at h
      split at h
      · rename_i hhit
        split at h
        · rename_i hleaf
          rcases ih _ _ _ h p hp with h' | h'
          · split at h'
            · rename_i ho
              rcases List.mem_append.1 h' with h'' | h''
              · exact Or.inl h''
              · exact Or.inr ⟨node, hleaf, hhit, ho, by simpa using h''⟩
            · exact Or.inl h'
          · exact Or.inr h'
        · by_cases hov : (decide (0 ≤ left.getD node (-1)) = true ∧ capacity ≤ rest.length) ∨
              (decide (0 ≤ right.getD node (-1)) = true ∧
                capacity ≤ rest.length + (if decide (0 ≤ left.getD node (-1)) = true then 1 else 0))
          · rw [if_pos hov] at h; simp at h
          · rw [if_neg hov] at h; exact ih _ _ _ h p hp
      · exact ih _ _ _ h p hp

theorem traverseAll_sound (hit : Ray K → Box K → Bool) (tree : Tree K) (capacity fuel : Nat) : ∀ (rays : List (Ray K)) (res : List Nat),
    traverseAll hit tree capacity fuel rays = some (.ok res) → ∀ p ∈ res, ∃ ray ∈ rays, ∃ node,
      tree.isLeaf.getD node false = true ∧ hit ray (tree.boxes.getD node zeroBox) = true ∧
      (ray.owner : Int) ≠ tree.primitiveIndex.getD node (-1) ∧ p = (tree.primitiveIndex.getD node (-1)).toNat := by
  intro rays
  induction rays with
  | nil => intro res h p hp; simp only [traverseAll, Option.some.injEq, Except.ok.injEq] at h; subst h; simp at hp
  | cons ray rays ih =>
    intro res h p hp
    simp only [traverseAll] at h
    split at h
    · simp at h
    · simp at h
    · rename_i found hf
      split at h
      · simp at h
      · simp at h
      · rename_i more hm
        simp only [Option.some.injEq, Except.ok.injEq] at h
        subst h
        rcases List.mem_append.1 hp with h' | h'
        · rcases traverse_sound _ _ _ _ hf p h' with h'' | ⟨node, a, b, c, d⟩
          · simp at h''
          · exact ⟨ray, by simp, node, a, b, c, d⟩
        · obtain ⟨r, hr, rest⟩ := ih more hm p h'
          exact ⟨r, by simp [hr], rest⟩

theorem filterWith_sound (hit : Ray K → Box K → Bool) (codes : List (BitVec 32)) (boxes : List (Box K)) (rays : List (Ray K)) (fuel : Nat) (res : List Nat)
    (h : filterWith hit codes boxes rays fuel = some (.ok res)) (p : Nat) (hp : p ∈ res) :
    p < codes.length ∧ ∃ ray ∈ rays, ray.owner ≠ p ∧ hit ray (boxes.getD p zeroBox) = true := by
  unfold filterWith at h
  simp only at h
  split at h
  · simp at h
  · simp at h
  · split at h
    · simp at h
    · simp at h
    · rename_i found hf
      simp only [Option.some.injEq, Except.ok.injEq] at h
      subst h
      simp only [List.mem_filter, List.mem_range, decide_eq_true_eq] at hp
      obtain ⟨hpl, hpf⟩ := hp
      obtain ⟨ray, hr, node, h1, h2, h3, h4⟩ := traverseAll_sound _ _ _ _ _ _ hf p hpf
      refine ⟨hpl, ray, hr, ?_⟩
      have hn : node < codes.length - 1 + codes.length := by
        by_contra hcon
        have : (buildFromCodes codes boxes).isLeaf[node]? = none := by
          rw [List.getElem?_eq_none_iff, tree_isLeaf]; simp; omega
        rw [List.getD_eq_getElem?_getD, this] at h1
        simp at h1
      rw [(isLeaf_get codes boxes node hn).1] at h1
      simp only [decide_eq_true_eq] at h1
      obtain ⟨q, hq, _, hqp⟩ := prim_get codes boxes (node - (codes.length - 1)) (by omega)
      have e : codes.length - 1 + (node - (codes.length - 1)) = node := by omega
      have hb := leaf_box_any codes boxes _ q hq
      rw [e] at hqp hb
      have hg : (buildFromCodes codes boxes).primitiveIndex.getD node (-1) = (q : Int) := by
        rw [List.getD_eq_getElem?_getD, hqp]; rfl
      rw [hg] at h3 h4
      simp only [Int.toNat_natCast] at h4
      subst h4
      rw [hb] at h2
      exact ⟨by exact_mod_cast h3, h2⟩
theorem filter_sound (codes : List (BitVec 32)) (boxes : List (Box K)) (rays : List (Ray K)) (fuel : Nat) (res : List Nat)
    (h : filterFromCodes codes boxes rays fuel = some (.ok res)) (p : Nat) (hp : p ∈ res) :
    p < codes.length ∧ ∃ ray ∈ rays, ray.owner ≠ p ∧ hits ray (boxes.getD p zeroBox) = true :=
  filterWith_sound hits codes boxes rays fuel res h p hp

end

/-! ### coinciding codes -/

theorem lcp_replicate (n : Nat) (c : BitVec 32) (i : Nat) (hi : i < n) (j : Int) :
    lcp (List.replicate n c) i j = if 0 ≤ j ∧ j < n then 30 else -1 := by
  unfold lcp
  simp only [List.length_replicate]
  split
  · rename_i h
    have e1 : (List.replicate n c).getD i 0#32 = c := by simp [List.getD_eq_getElem?_getD, List.getElem?_replicate, hi]
    have e2 : (List.replicate n c).getD j.toNat 0#32 = c := by
      rw [List.getD_eq_getElem?_getD, List.getElem?_replicate, if_pos (by omega)]; rfl
    rw [e1, e2]
    simp
  · rfl

section
variable (n : Nat) (dl : Nat → Int → Int) (hn : 3 ≤ n)
  (hdl : ∀ (i : Nat) (j : Int), i < n → dl i j = if 0 ≤ j ∧ j < n then 30 else -1)
include hn hdl

theorem flat_inner (i : Nat) (hi : 1 ≤ i) (hin : i < n - 1) :
    leftChild n dl i = (i : Int) - 1 ∧ rightChild n dl i = (n : Int) - 1 + i := by
  have d1 : direction dl i = -1 := by
    have e1 : dl i (i + 1) = 30 := by rw [hdl i _ (by omega), if_pos (by omega)]
    have e2 : dl i (i - 1) = 30 := by rw [hdl i _ (by omega), if_pos (by omega)]
    unfold direction
    rw [e1, e2]; simp
  have d2 : deltaMin dl i = 30 := by
    have e1 : dl i (i + 1) = 30 := by rw [hdl i _ (by omega), if_pos (by omega)]
    have e2 : dl i (i - 1) = 30 := by rw [hdl i _ (by omega), if_pos (by omega)]
    unfold deltaMin
    rw [e1, e2]; simp
  have r : rangeLength n dl i = 0 := by
    apply rangeLength_eq n dl i 0 (by omega)
    intro l hl
    rw [d1, d2, hdl i _ (by omega)]
    split <;> omega
  have f : farthest n dl i = i := by unfold farthest; rw [r]; simp
  have s : split n dl i = 0 := by unfold split; rw [r]; rfl
  have g : gamma n dl i = (i : Int) - 1 := by unfold gamma; rw [s, d1]; simp; omega
  unfold leftChild rightChild
  rw [f, g]
  simp only [min_self, max_self]
  rw [if_neg (by omega), if_pos (by omega)]
  constructor <;> omega

theorem flat_root : leftChild n dl 0 = (n : Int) - 1 ∧ rightChild n dl 0 = 1 := by
  have d1 : direction dl 0 = 1 := by
    have e1 : dl 0 ((0 : Nat) + 1) = 30 := by rw [hdl 0 _ (by omega), if_pos (by omega)]
    have e2 : dl 0 ((0 : Nat) - 1) = -1 := by rw [hdl 0 _ (by omega), if_neg (by omega)]
    unfold direction
    rw [e1, e2]; simp
  have d2 : deltaMin dl 0 = -1 := by
    have e1 : dl 0 ((0 : Nat) + 1) = 30 := by rw [hdl 0 _ (by omega), if_pos (by omega)]
    have e2 : dl 0 ((0 : Nat) - 1) = -1 := by rw [hdl 0 _ (by omega), if_neg (by omega)]
    unfold deltaMin
    rw [e1, e2]; simp
  have r : rangeLength n dl 0 = n - 1 := by
    apply rangeLength_eq n dl 0 (n - 1) (by omega)
    intro l hl
    rw [d1, d2, hdl 0 _ (by omega)]
    split <;> simp at * <;> omega
  have f : farthest n dl 0 = (n : Int) - 1 := by unfold farthest; rw [r, d1]; simp; omega
  have s : split n dl 0 = 0 := by
    unfold split
    simp only
    have hh := searchLoop_spec dl 0 (direction dl 0) (dl 0 (farthest n dl 0)) 0 (by
      intro l hl
      rw [f, d1, hdl 0 _ (by omega), hdl 0 _ (by omega)]
      split <;> split <;> omega) ((rangeLength n dl 0 + 1) / 2) 0 ((rangeLength n dl 0 + 1) / 2) (le_refl _) (le_refl _)
    omega
  have g : gamma n dl 0 = 0 := by unfold gamma; rw [s, d1]; simp
  unfold leftChild rightChild
  rw [f, g]
  have e1 : min ((0 : Nat) : Int) ((n : Int) - 1) = 0 := by simp; omega
  have e2 : max ((0 : Nat) : Int) ((n : Int) - 1) = (n : Int) - 1 := by simp; omega
  rw [e1, e2, if_pos rfl, if_neg (by omega)]
  constructor <;> omega

theorem flat_cycle (fuel : Nat) : maxDepth (leftArray n dl) (rightArray n dl) fuel = none := by
  have wf : WF (leftArray n dl) (rightArray n dl) (n - 1 + n) := by
    refine ⟨by simp [leftArray], by simp [rightArray], ?_⟩
    intro a c h
    rcases h with h | h
    · rcases (leftArray_get n dl a c).1 h with ⟨ha, hc⟩ | ⟨_, _, hc⟩
      · rcases Nat.eq_zero_or_pos a with rfl | hp
        · rw [(flat_root n dl hn hdl).1] at hc; omega
        · rw [(flat_inner n dl hn hdl a hp ha).1] at hc; omega
      · omega
    · rcases (rightArray_get n dl a c).1 h with ⟨ha, hc⟩ | ⟨_, _, hc⟩
      · rcases Nat.eq_zero_or_pos a with rfl | hp
        · rw [(flat_root n dl hn hdl).2] at hc; omega
        · rw [(flat_inner n dl hn hdl a hp ha).2] at hc; omega
      · omega
  apply depthLoop_cycle wf (by omega) 0 0 1 (Path.refl 0)
  refine Path.step (c := 1) ?_ (Path.step (c := 0) ?_ (Path.refl 0))
  · right; rw [rightArray_get]; left; exact ⟨by omega, by rw [(flat_root n dl hn hdl).2]; rfl⟩
  · left; rw [leftArray_get]; left
    refine ⟨by omega, ?_⟩
    rw [(flat_inner n dl hn hdl 1 (by omega) (by omega)).1]; simp
end

theorem sortCodes_of_sorted (codes : List (BitVec 32)) (h : codes.Pairwise (fun a b => a.toInt ≤ b.toInt)) :
    sortCodes codes = codes.zipIdx := by
  unfold sortCodes
  apply List.mergeSort_of_pairwise
  have : (codes.zipIdx.map Prod.fst).Pairwise (fun a b => a.toInt ≤ b.toInt) := by
    rw [List.zipIdx_map_fst]; exact h
  rw [List.pairwise_map] at this
  exact this.imp (fun h => by simpa using h)

theorem wf_of_check (left right : List Int) (N : Nat) (h1 : left.length = N) (h2 : right.length = N)
    (h3 : ∀ x ∈ left, x < (N : Int)) (h4 : ∀ x ∈ right, x < (N : Int)) : WF left right N := by
  refine ⟨h1, h2, ?_⟩
  intro a c h
  rcases h with h | h
  · have := h3 _ (List.mem_of_getElem? h); omega
  · have := h4 _ (List.mem_of_getElem? h); omega

end Artist.LBVH
