import Verif.Props.LBVHExact
import Verif.Props.Flux
/-!
# C93: a further heliostat in the field

A user who adds heliostats to a field expects that they can only take light away from the heliostats that were there before.
-/
namespace Artist.SoftMask
open Artist Artist.LBVH Artist.Morton

section
variable {K : Type} [Field K] [LinearOrder K] [IsStrictOrderedRing K] [FloorRing K]

/-- Partial, the filter: `more` heliostats are appended to `field`.  If no three codes of the larger field are equal and all its groups of codes divide at sums of halves (see `C09_field_exact_iff_groups`), every
heliostat the filter returns for the smaller field it also returns for the larger one.  Nothing is assumed of the smaller field but that the filter ends.  Missing for the full claim: larger fields without
this property, for which it is false (`C93_further_heliostat_unblocks`). -/
theorem C93_candidates_grow_partial (c : V3 K × V3 K × V3 K × V3 K) (cs more : List (V3 K × V3 K × V3 K × V3 K)) (codes s : List (BitVec 32))
    (hm : mortonCodes (1 / 10 ^ 6) (centroid c) ((cs ++ more).map centroid) = .ok codes) (hnd : NoThree codes) (hp : s.Perm codes)
    (hs : s.Pairwise (fun a b => a.toNat ≤ b.toNat))
    (hgroups : ∀ a k b, IsGroup s.length (lcp s) a k b → SumOfHalves (b - a + 1) (offset (lcp s) a k b))
    (rays : List (Ray K)) (fuel : Nat) (res : List Nat) (h : lbvhFilter (c :: cs) rays fuel = some (.ok res)) :
    ∃ F res', (∀ fuel', F ≤ fuel' → lbvhFilter (c :: (cs ++ more)) rays fuel' = some (.ok res')) ∧ res.Subset res' := by
  obtain ⟨F, hF⟩ := (C09_field_exact_iff_groups c (cs ++ more) codes s hm hnd hp hs).2 hgroups rays
  refine ⟨F, _, hF, ?_⟩
  intro p hpm
  obtain ⟨cc, hc, ray, hr, ho, hh⟩ := C09_no_false_blockers (c :: cs) rays fuel res h p hpm
  obtain ⟨hlt, hget⟩ := List.getElem?_eq_some_iff.1 hc
  have hc' : (c :: (cs ++ more))[p]? = some cc := by
    rw [← List.cons_append, List.getElem?_append_left hlt, hc]
  obtain ⟨hlt', -⟩ := List.getElem?_eq_some_iff.1 hc'
  unfold bruteForce
  simp only [List.mem_filter, List.mem_range, List.length_map, List.any_eq_true, Bool.and_eq_true, decide_eq_true_eq]
  refine ⟨hlt', ray, hr, ho, ?_⟩
  rw [List.getD_eq_getElem?_getD, List.getElem?_map, hc']
  exact hh

end

/-- The filter returns an ascending list, in particular no heliostat twice. -/
theorem filter_nodup {K : Type} [Field K] [LinearOrder K] [IsStrictOrderedRing K] [FloorRing K] (corners : List (V3 K × V3 K × V3 K × V3 K)) (rays : List (Ray K)) (fuel : Nat)
    (res : List Nat) (h : lbvhFilter corners rays fuel = some (.ok res)) : res.Nodup := by
  unfold lbvhFilter at h
  split at h
  · split_ifs at h
    simp at h
  · split at h
    · simp at h
    · unfold filterFromCodes filterWith at h
      simp only at h
      split at h <;> try simp at h
      split at h <;> try simp at h
      subst h
      exact List.Nodup.filter _ List.nodup_range

theorem sum_filterMap_le (rects : List Rect) (f : Rect → ℝ) (hf : ∀ r, 0 ≤ f r) (l l' : List Nat) (hl : l.Nodup) (hsub : l.Subset l') :
    ((l.filterMap (fun i => rects[i]?)).map f).sum ≤ ((l'.filterMap (fun i => rects[i]?)).map f).sum := by
  obtain ⟨l'', hperm, hsl⟩ := List.subperm_of_subset hl hsub
  have h1 : (l.filterMap (fun i => rects[i]?)).Perm (l''.filterMap (fun i => rects[i]?)) := hperm.symm.filterMap _
  rw [(h1.map f).sum_eq]
  have h2 := (hsl.filterMap (fun i => rects[i]?)).map f
  refine List.Sublist.sum_le_sum h2 ?_
  intro x hx
  obtain ⟨r, _, rfl⟩ := List.mem_map.1 hx
  exact hf r

/-- The blocking rectangle of a heliostat with the given corners. -/
noncomputable def rectOf (c : V3 ℝ × V3 ℝ × V3 ℝ × V3 ℝ) : Rect := rectOfCorners c.1 c.2.1 c.2.2.1 c.2.2.2

/-- The rectangles of the heliostats with the numbers `res`. -/
noncomputable def rectsOf (field : List (V3 ℝ × V3 ℝ × V3 ℝ × V3 ℝ)) (res : List Nat) : List Rect := res.filterMap fun i => (field.map rectOf)[i]?

/-- Do the four corners of every heliostat span an area? -/
def Spread (field : List (V3 ℝ × V3 ℝ × V3 ℝ × V3 ℝ)) : Prop := ∀ c ∈ field, V3.cross (c.2.1 - c.1) (c.2.2.2 - c.1) ≠ ⟨0, 0, 0⟩

theorem blockedOfBatch_eq (filter : List BRay → List Nat) (rects : List Rect) (batch : List BRay) :
    blockedOfBatch filter rects batch =
      batch.map (fun ray => softMask (1 / 10 ^ 12) 1000 100 (5 / 100) ray.origin ray.dir ((filter batch).filterMap fun i => rects[i]?)) := by
  unfold blockedOfBatch
  simp only
  split_ifs with h
  · rw [List.isEmpty_iff] at h
    rw [h]
    simp only [C15_no_blockers]
  · rfl

theorem rectsOf_append (field more : List (V3 ℝ × V3 ℝ × V3 ℝ × V3 ℝ)) (res : List Nat) (hlt : ∀ i ∈ res, i < field.length) :
    rectsOf (field ++ more) res = rectsOf field res := by
  unfold rectsOf
  apply List.filterMap_congr
  intro i hi
  rw [List.map_append, List.getElem?_append_left (by simpa using hlt i hi)]

/-- Every ray has a value of the mask if all heliostats are spread out. -/
theorem mask_some (field : List (V3 ℝ × V3 ℝ × V3 ℝ × V3 ℝ)) (hsp : Spread field) (res : List Nat) (o d : V3 ℝ) :
    softMask (1 / 10 ^ 12) 1000 100 (5 / 100) o d (rectsOf field res) =
      some (1 - Real.exp (-(100 * ((rectsOf field res).map (density (1 / 10 ^ 12) 1000 (5 / 100) o d)).sum))) := by
  rw [softMask_eq, if_neg]
  rintro ⟨r, hr, h0⟩
  rw [safeDet_zero_iff _ (by norm_num)] at h0
  unfold rectsOf at hr
  obtain ⟨i, _, hi⟩ := List.mem_filterMap.1 hr
  rw [List.getElem?_map] at hi
  obtain ⟨c, hc, rfl⟩ := Option.map_eq_some_iff.1 hi
  exact hsp c (List.mem_of_getElem? hc) h0

theorem mask_mono (field : List (V3 ℝ × V3 ℝ × V3 ℝ × V3 ℝ)) (hsp : Spread field) (res res' : List Nat) (hnd : res.Nodup) (hsub : res.Subset res') (o d : V3 ℝ) :
    ∃ a b, softMask (1 / 10 ^ 12) 1000 100 (5 / 100) o d (rectsOf field res) = some a ∧
      softMask (1 / 10 ^ 12) 1000 100 (5 / 100) o d (rectsOf field res') = some b ∧ a ≤ b := by
  refine ⟨_, _, mask_some field hsp res o d, mask_some field hsp res' o d, ?_⟩
  have := sum_filterMap_le (field.map rectOf) (density (1 / 10 ^ 12) 1000 (5 / 100) o d) (fun r => (density_bounds ..).1.le) res res' hnd hsub
  have h2 : Real.exp (-(100 * ((rectsOf field res').map (density (1 / 10 ^ 12) 1000 (5 / 100) o d)).sum)) ≤
      Real.exp (-(100 * ((rectsOf field res).map (density (1 / 10 ^ 12) 1000 (5 / 100) o d)).sum)) := by
    rw [Real.exp_le_exp]
    unfold rectsOf
    linarith
  linarith

/-- Partial, the light: under the condition of `C93_candidates_grow_partial` on the larger field, and if the corners of all heliostats span an area, no ray of a batch is blocked less after heliostats were appended. -/
theorem C93_blocking_grows_partial (c : V3 ℝ × V3 ℝ × V3 ℝ × V3 ℝ) (cs more : List (V3 ℝ × V3 ℝ × V3 ℝ × V3 ℝ)) (hsp : Spread (c :: (cs ++ more))) (codes s : List (BitVec 32))
    (hm : mortonCodes (1 / 10 ^ 6) (centroid c) ((cs ++ more).map centroid) = .ok codes) (hnd : NoThree codes) (hp : s.Perm codes)
    (hs : s.Pairwise (fun a b => a.toNat ≤ b.toNat))
    (hgroups : ∀ a k b, IsGroup s.length (lcp s) a k b → SumOfHalves (b - a + 1) (offset (lcp s) a k b))
    (batch : List BRay) (fuel : Nat) (res : List Nat) (h : lbvhFilter (c :: cs) batch fuel = some (.ok res)) :
    ∃ F res', (∀ fuel', F ≤ fuel' → lbvhFilter (c :: (cs ++ more)) batch fuel' = some (.ok res')) ∧
      List.Forall₂ (fun before after => ∃ a b, before = some a ∧ after = some b ∧ a ≤ b)
        (blockedOfBatch (fun _ => res) ((c :: cs).map rectOf) batch) (blockedOfBatch (fun _ => res') ((c :: (cs ++ more)).map rectOf) batch) := by
  obtain ⟨F, res', hF, hsub⟩ := C93_candidates_grow_partial c cs more codes s hm hnd hp hs hgroups batch fuel res h
  refine ⟨F, res', hF, ?_⟩
  rw [blockedOfBatch_eq, blockedOfBatch_eq, List.forall₂_map_left_iff, List.forall₂_map_right_iff, List.forall₂_same]
  intro ray _
  have := mask_mono (c :: (cs ++ more)) hsp res res' (filter_nodup _ _ _ _ h) hsub ray.origin ray.dir
  rwa [← List.cons_append, rectsOf_append (c :: cs) more res] at this
  intro i hi
  obtain ⟨cc, hc, _⟩ := C09_no_false_blockers (c :: cs) batch fuel res h i hi
  exact (List.getElem?_eq_some_iff.1 hc).1

/-- Partial, the bitmap: under the same condition every pixel of the image of every sample is at most as bright as before. -/
theorem C93_darker_partial (c : V3 ℝ × V3 ℝ × V3 ℝ × V3 ℝ) (cs more : List (V3 ℝ × V3 ℝ × V3 ℝ × V3 ℝ)) (hsp : Spread (c :: (cs ++ more))) (codes s : List (BitVec 32))
    (hm : mortonCodes (1 / 10 ^ 6) (centroid c) ((cs ++ more).map centroid) = .ok codes) (hnd : NoThree codes) (hp : s.Perm codes)
    (hs : s.Pairwise (fun a b => a.toNat ≤ b.toNat))
    (hgroups : ∀ a k b, IsGroup s.length (lcp s) a k b → SumOfHalves (b - a + 1) (offset (lcp s) a k b))
    (batch : List BRay) (fuel : Nat) (res : List Nat) (h : lbvhFilter (c :: cs) batch fuel = some (.ok res))
    (W H : Nat) (hW : 2 ≤ W) (hH : 2 ≤ H) (dni ext refl : ℝ) (hpow : 0 ≤ dni) (hext : ext ≤ 1) (hrefl : 0 ≤ refl) (t : Flux.Target) (ht : Artist.Target.Valid t)
    (rays : List (V3 ℝ × V3 ℝ)) (hd : ∀ ray ∈ rays, V3.normSq ray.2 ≤ 1) :
    ∃ F res', (∀ fuel', F ≤ fuel' → lbvhFilter (c :: (cs ++ more)) batch fuel' = some (.ok res')) ∧
      ∃ blocked blocked' bitmap bitmap' f f', (∀ ray ∈ rays, Flux.Blocks (rectsOf (c :: cs) res) blocked ray) ∧ (∀ ray ∈ rays, Flux.Blocks (rectsOf (c :: (cs ++ more)) res') blocked' ray) ∧
        Flux.traceSample W H dni ext refl t blocked rays = .ok (bitmap, f) ∧ Flux.traceSample W H dni ext refl t blocked' rays = .ok (bitmap', f') ∧
        ∀ r k, r < H → k < W → Splat.pixel bitmap' r k ≤ Splat.pixel bitmap r k := by
  obtain ⟨F, res', hF, hsub⟩ := C93_candidates_grow_partial c cs more codes s hm hnd hp hs hgroups batch fuel res h
  have hap : rectsOf (c :: (cs ++ more)) res = rectsOf (c :: cs) res := by
    rw [← List.cons_append]
    apply rectsOf_append (c :: cs) more res
    intro i hi
    obtain ⟨cc, hc, _⟩ := C09_no_false_blockers (c :: cs) batch fuel res h i hi
    exact (List.getElem?_eq_some_iff.1 hc).1
  have key := fun ray : V3 ℝ × V3 ℝ => mask_mono (c :: (cs ++ more)) hsp res res' (filter_nodup _ _ _ _ h) hsub ray.1 ray.2
  choose a b ha hb hab using key
  obtain ⟨bitmap, bitmap', f, f', h1, h2, h3⟩ := Artist.C65_blocking W H hW hH dni ext refl hpow hext hrefl t ht a b rays hd (fun ray _ => hab ray)
  refine ⟨F, res', hF, a, b, bitmap, bitmap', f, f', ?_, ?_, h1, h2, h3⟩
  · intro ray _
    have := ha ray
    rwa [hap] at this
  · intro ray _
    exact hb ray

/-! ## A further heliostat that takes another one's shadow away -/

/-- A 2 m × 2 m mirror standing upright at east `e`, north `n`. -/
noncomputable def upright (e n : ℝ) : V3 ℝ × V3 ℝ × V3 ℝ × V3 ℝ := (⟨e - 1, n, 0⟩, ⟨e - 1, n, 2⟩, ⟨e + 1, n, 2⟩, ⟨e + 1, n, 0⟩)

/-- five heliostats: three in the front row, two in the back row -/
noncomputable def fiveField : List (V3 ℝ × V3 ℝ × V3 ℝ × V3 ℝ) := [upright 0 0, upright 10 0, upright 20 0, upright 0 100, upright 10 100]

/-- the third of the back row is added -/
noncomputable def sixField : List (V3 ℝ × V3 ℝ × V3 ℝ × V3 ℝ) := fiveField ++ [upright 20 100]

/-- a ray from the middle of the front row through the middle of the back row -/
noncomputable def northRay : BRay := ⟨⟨10, 0, 1⟩, ⟨0, 1, 0⟩, 1, 1000⟩

theorem sixField_codes : mortonCodes (1 / 10 ^ 6) (centroid (upright 0 0)) ([upright 10 0, upright 20 0, upright 0 100, upright 10 100, upright 20 100].map centroid) =
    .ok [0#32, 589968#32, 4719744#32, 613566752#32, 614156720#32, 618286496#32] := by
  have : quantised (1 / 10 ^ 6) (centroid (upright 0 0)) ([upright 10 0, upright 20 0, upright 0 100, upright 10 100, upright 20 100].map centroid) =
      [⟨0, 0, 0⟩, ⟨102, 0, 0⟩, ⟨204, 0, 0⟩, ⟨0, 1022, 0⟩, ⟨102, 1022, 0⟩, ⟨204, 1022, 0⟩] := by
    simp only [List.map_cons, List.map_nil, quantised, extent, centroid, upright, Morton.minOf, Morton.maxOf, List.foldl_cons, List.foldl_nil,
      quantise]
    norm_num [truncToInt]
  unfold mortonCodes
  rw [this]
  decide +kernel

theorem sixField_noThree : NoThree [0#32, 589968#32, 4719744#32, 613566752#32, 614156720#32, 618286496#32] := noThree_of_nodup (by decide)

/-- the leaf of heliostat 4 cannot be reached in the tree of the six heliostats -/
theorem sixField_lost (boxes : List (Box ℝ)) : ¬ LeafReachable (buildFromCodes [0#32, 589968#32, 4719744#32, 613566752#32, 614156720#32, 618286496#32] boxes) 4 := by
  rintro ⟨node, k, hpath, -, hprim⟩
  have hs := sortCodes_of_sorted [0#32, 589968#32, 4719744#32, 613566752#32, 614156720#32, 618286496#32] (by decide)
  have hsort : sortedOf [0#32, 589968#32, 4719744#32, 613566752#32, 614156720#32, 618286496#32] = [0#32, 589968#32, 4719744#32, 613566752#32, 614156720#32, 618286496#32] := by
    unfold sortedOf; rw [hs]; decide
  rw [tree_prim, show permOf [0#32, 589968#32, 4719744#32, 613566752#32, 614156720#32, 618286496#32] = [0, 1, 2, 3, 4, 5] by unfold permOf; rw [hs]; decide] at hprim
  rw [tree_left, tree_right, hsort] at hpath
  have hl : leftArray 6 (lcp [0#32, 589968#32, 4719744#32, 613566752#32, 614156720#32, 618286496#32]) = [1, 5, 1, 4, 8, -1, -1, -1, -1, -1, -1] := by decide +kernel
  have hr : rightArray 6 (lcp [0#32, 589968#32, 4719744#32, 613566752#32, 614156720#32, 618286496#32]) = [2, 6, 7, 10, 9, -1, -1, -1, -1, -1, -1] := by decide +kernel
  simp only [List.length_cons, List.length_nil, Nat.reduceAdd] at hpath
  rw [hl, hr] at hpath
  have hclosed : ∀ a b k, Path [1, 5, 1, 4, 8, -1, -1, -1, -1, -1, -1] [2, 6, 7, 10, 9, -1, -1, -1, -1, -1, -1] a b k →
      a ∈ [0, 1, 2, 5, 6, 7] → b ∈ [0, 1, 2, 5, 6, 7] := by
    intro a b k hp
    induction hp with
    | refl => exact id
    | @step a c b k hc _ ih =>
      intro ha
      apply ih
      simp only [List.mem_cons, List.not_mem_nil, or_false] at ha
      rcases ha with rfl | rfl | rfl | rfl | rfl | rfl <;> simp [IsChild] at hc <;> simp <;> omega
  have := hclosed 0 node k hpath (by simp)
  simp only [List.mem_cons, List.not_mem_nil, or_false] at this
  rcases this with rfl | rfl | rfl | rfl | rfl | rfl <;> simp at hprim

theorem upright_box (e n : ℝ) : cornerBox (upright e n) = ⟨⟨e - 1, n, 0⟩, ⟨e + 1, n, 2⟩⟩ := by
  unfold upright cornerBox
  simp only [V3.map₂, Box.mk.injEq, V3.mk.injEq]
  have h : e - 1 ≤ e + 1 := by linarith
  simp [h]

theorem front_missed (e : ℝ) : hits northRay (cornerBox (upright e 0)) = false := by
  rw [upright_box, Bool.eq_false_iff, ne_eq, hit_iff northRay _ (by rw [← upright_box]; exact cornerBox_proper _) (by norm_num [northRay]) (by norm_num [northRay]) (by norm_num [northRay])]
  rintro ⟨⟨t, ⟨-, ⟨-, h1⟩, -⟩, h2⟩, -⟩
  simp only [northRay] at h1
  norm_num at h1 h2
  linarith

theorem side_missed (e : ℝ) (he : e ≤ 8 ∨ 12 ≤ e) : hits northRay (cornerBox (upright e 100)) = false := by
  rw [upright_box, Bool.eq_false_iff, ne_eq, hit_iff northRay _ (by rw [← upright_box]; exact cornerBox_proper _) (by norm_num [northRay]) (by norm_num [northRay]) (by norm_num [northRay])]
  rintro ⟨⟨t, ⟨⟨h3, h4⟩, ⟨h0, h1⟩, -⟩, h2⟩, -⟩
  simp only [northRay] at h0 h1 h3 h4
  norm_num at h0 h1 h2 h3 h4
  rcases he with he | he <;> linarith

theorem middle_hit : hits northRay (cornerBox (upright 10 100)) = true := by
  rw [upright_box, hit_iff northRay _ (by rw [← upright_box]; exact cornerBox_proper _) (by norm_num [northRay]) (by norm_num [northRay]) (by norm_num [northRay])]
  have h : Box.Contains (⟨⟨10 - 1, 100, 0⟩, ⟨10 + 1, 100, 2⟩⟩ : Box ℝ) ⟨northRay.origin.e + (100 / (1 + 1 / 10 ^ 12)) * (northRay.dir.e + 1 / 10 ^ 12),
      northRay.origin.n + (100 / (1 + 1 / 10 ^ 12)) * (northRay.dir.n + 1 / 10 ^ 12), northRay.origin.u + (100 / (1 + 1 / 10 ^ 12)) * (northRay.dir.u + 1 / 10 ^ 12)⟩ := by
    unfold Box.Contains northRay; norm_num
  exact ⟨⟨_, h, by norm_num⟩, ⟨_, h, by norm_num [northRay]⟩⟩

theorem northRay_owner : northRay.owner = 1 := rfl

theorem brute_five : bruteForce (fiveField.map cornerBox) [northRay] = [4] := by
  have h3 := side_missed 0 (by norm_num)
  unfold bruteForce fiveField
  simp [List.range_succ, front_missed, h3, middle_hit, northRay_owner]

theorem brute_six : bruteForce (sixField.map cornerBox) [northRay] = [4] := by
  have h3 := side_missed 0 (by norm_num)
  have h5 := side_missed 20 (by norm_num)
  unfold bruteForce sixField fiveField
  simp [List.range_succ, front_missed, h3, h5, middle_hit, northRay_owner]

theorem fiveField_cells : (gridCells fiveField).Nodup := by
  unfold gridCells fiveField
  simp only [List.map_cons, List.map_nil, quantised, extent, centroid, upright, Morton.minOf, Morton.maxOf, List.foldl_cons, List.foldl_nil,
      quantise]
  norm_num [truncToInt]

theorem sixField_30 : ∀ c ∈ ([0#32, 589968#32, 4719744#32, 613566752#32, 614156720#32, 618286496#32] : List (BitVec 32)), Is30Bit c := by
  intro c hc
  simp only [List.mem_cons, List.not_mem_nil, or_false] at hc
  rcases hc with rfl | rfl | rfl | rfl | rfl | rfl <;> (unfold Is30Bit; decide)

theorem filter_of_codes {K : Type} [Field K] [LinearOrder K] [IsStrictOrderedRing K] [FloorRing K] (corners : List (V3 K × V3 K × V3 K × V3 K)) (c : V3 K) (cs : List (V3 K))
    (codes : List (BitVec 32)) (h1 : corners.map centroid = c :: cs) (hm : mortonCodes (1 / 10 ^ 6) c cs = .ok codes) (rays : List (Ray K)) (fuel : Nat) :
    lbvhFilter corners rays fuel = filterFromCodes codes (corners.map cornerBox) rays fuel := by
  unfold lbvhFilter
  rw [h1]
  simp only
  rw [hm]

theorem sixField_filter : ∃ F, ∀ fuel, F ≤ fuel → lbvhFilter sixField [northRay] fuel = some (.ok []) := by
  have hm := sixField_codes
  have h1 : sixField.map centroid = centroid (upright 0 0) :: [upright 10 0, upright 20 0, upright 0 100, upright 10 100, upright 20 100].map centroid := by
    simp [sixField, fiveField]
  obtain ⟨F, res, hF, -, hres⟩ := filter_spec [0#32, 589968#32, 4719744#32, 613566752#32, 614156720#32, 618286496#32] (sixField.map cornerBox) sixField_noThree
    sixField_30 (by simp) (by
      intro p hp
      rw [getD_corners sixField p (by simpa [sixField, fiveField] using hp)]; exact cornerBox_proper _) [northRay]
  refine ⟨F, fun fuel hf => ?_⟩
  have : res = [] := by
    rw [List.eq_nil_iff_forall_not_mem]
    intro p hp
    have hh := (hres p).1 hp
    have hb : p ∈ bruteForce (sixField.map cornerBox) [northRay] := by
      unfold bruteForce
      simp only [List.mem_filter, List.mem_range, List.any_eq_true, Bool.and_eq_true, decide_eq_true_eq, List.length_map]
      exact ⟨hh.1, hh.2.2⟩
    rw [brute_six] at hb
    simp only [List.mem_cons, List.not_mem_nil, or_false] at hb
    subst hb
    exact sixField_lost _ hh.2.1
  subst this
  rw [filter_of_codes sixField _ _ _ h1 hm]
  exact hF fuel hf

/-- C93 is false as stated.  Five heliostats: heliostat 1 in the front row sends a ray north, heliostat 4 in the back row stands in its way and more than half of the ray is blocked.  A sixth
heliostat is added, away from the ray; now the same ray passes undiminished. -/
theorem C93_further_heliostat_unblocks :
    (∃ F, ∀ fuel, F ≤ fuel → lbvhFilter fiveField [northRay] fuel = some (.ok [4]) ∧ lbvhFilter (fiveField ++ [upright 20 100]) [northRay] fuel = some (.ok [])) ∧
    (∃ a, blockedOfBatch (fun _ => [4]) (fiveField.map rectOf) [northRay] = [some a] ∧ 1 / 2 ≤ a) ∧
    blockedOfBatch (fun _ => []) ((fiveField ++ [upright 20 100]).map rectOf) [northRay] = [some 0] := by
  refine ⟨?_, ?_, ?_⟩
  · obtain ⟨F, hF⟩ := C09_exact_upto_five_partial fiveField (by simp [fiveField]) (noThree_of_nodup fiveField_cells) (by simp [fiveField]) [northRay]
    obtain ⟨F', hF'⟩ := sixField_filter
    refine ⟨max F F', fun fuel hf => ⟨?_, hF' fuel (le_trans (le_max_right _ _) hf)⟩⟩
    rw [hF fuel (le_trans (le_max_left _ _) hf), brute_five]
  · rw [blockedOfBatch_eq]
    have hsel : [4].filterMap (fun i => (fiveField.map rectOf)[i]?) = [rectOf (upright 10 100)] := by
      simp [fiveField]
    simp only [hsel, List.map_cons, List.map_nil]
    generalize hr : rectOf (upright 10 100) = r
    have hsqrt : Real.sqrt 16 = 4 := by rw [show (16 : ℝ) = 4 ^ 2 by norm_num]; exact Real.sqrt_sq (by norm_num)
    have hn : V3.dot northRay.dir r.normal = 1 := by
      subst hr
      simp only [rectOf, upright, rectOfCorners, normalize, V3.dot, V3.cross, northRay, V3.sub_e, V3.sub_n, V3.sub_u]
      norm_num [hsqrt]
    have hperp := C54_normal (upright 10 100).1 (upright 10 100).2.1 (upright 10 100).2.2.1 (upright 10 100).2.2.2
    have hr' : rectOfCorners (upright 10 100).1 (upright 10 100).2.1 (upright 10 100).2.2.1 (upright 10 100).2.2.2 = r := hr
    simp only [hr'] at hperp
    have hgram : gram r = 16 := by
      subst hr; simp only [gram, rectOf, upright, rectOfCorners, V3.dot, V3.sub_e, V3.sub_n, V3.sub_u]; norm_num
    cases hm : softMask (1 / 10 ^ 12) 1000 100 (5 / 100) northRay.origin northRay.dir [r] with
    | none =>
      exfalso
      rw [C15_nan_iff _ _ _ _ (by norm_num)] at hm
      obtain ⟨r', hr', hc⟩ := hm
      simp only [List.mem_cons, List.not_mem_nil, or_false] at hr'
      subst hr'
      rw [gram_eq_cross, hc] at hgram
      simp [V3.dot] at hgram
    | some a =>
      refine ⟨a, rfl, ?_⟩
      have := C15_hit_blocks (1 / 10 ^ 12) 1000 100 (5 / 100) (1 / 2) (by norm_num) (by norm_num) (by norm_num) northRay.origin northRay.dir
        [r] r (by simp) 100 (1 / 2) (1 / 2) hperp.1 hperp.2.1 (by rw [hn]; norm_num) (by rw [hgram]; norm_num)
        (by subst hr; ext <;> simp [rectOf, upright, rectOfCorners, northRay] <;> norm_num) (by norm_num) (by norm_num) (by norm_num) a hm
      refine le_trans ?_ this
      have h1 : (1 / 2 : ℝ) ≤ sigmoid (1000 * (1 / 2)) := sigmoid_zero.symm.le.trans (sigmoid_mono (by norm_num))
      have h2 : (1 / 2 : ℝ) ^ 5 ≤ sigmoid (1000 * (1 / 2)) ^ 5 := pow_le_pow_left₀ (by norm_num) h1 5
      have h3 : Real.exp (-(100 * sigmoid (1000 * (1 / 2)) ^ 5)) ≤ Real.exp (-1) := by
        rw [Real.exp_le_exp]; norm_num at h2 ⊢; linarith
      have h4 : Real.exp (-1) < 1 / 2 := by
        rw [Real.exp_neg, inv_lt_comm₀ (Real.exp_pos 1) (by norm_num)]
        have := Real.exp_one_gt_d9
        norm_num at this ⊢; linarith
      linarith
  · rw [blockedOfBatch_eq]
    simp [C15_no_blockers]

/-- hypotheses of the partial theorems: the fifth heliostat is added to the first four of `fiveField`; all groups of the five codes divide at sums of halves -/
example : ∃ codes s : List (BitVec 32), Spread (upright 0 0 :: ([upright 10 0, upright 20 0, upright 0 100] ++ [upright 10 100])) ∧
    mortonCodes (1 / 10 ^ 6) (centroid (upright 0 0)) (([upright 10 0, upright 20 0, upright 0 100] ++ [upright 10 100]).map centroid) = .ok codes ∧
    NoThree codes ∧ s.Perm codes ∧ s.Pairwise (fun a b => a.toNat ≤ b.toNat) ∧
    (∀ a k b, IsGroup s.length (lcp s) a k b → SumOfHalves (b - a + 1) (offset (lcp s) a k b)) ∧
    ∃ fuel res, lbvhFilter [upright 0 0, upright 10 0, upright 20 0, upright 0 100] [northRay] fuel = some (.ok res) := by
  have hm : mortonCodes (1 / 10 ^ 6) (centroid (upright 0 0)) (([upright 10 0, upright 20 0, upright 0 100] ++ [upright 10 100]).map centroid) =
      .ok [0#32, 589968#32, 4719744#32, 613566752#32, 614156720#32] := by
    have : quantised (1 / 10 ^ 6) (centroid (upright 0 0)) (([upright 10 0, upright 20 0, upright 0 100] ++ [upright 10 100]).map centroid) =
        [⟨0, 0, 0⟩, ⟨102, 0, 0⟩, ⟨204, 0, 0⟩, ⟨0, 1022, 0⟩, ⟨102, 1022, 0⟩] := by
      simp only [List.cons_append, List.nil_append, List.map_cons, List.map_nil, quantised, extent, centroid, upright, Morton.minOf, Morton.maxOf, List.foldl_cons, List.foldl_nil,
        quantise]
      norm_num [truncToInt]
    unfold mortonCodes
    rw [this]
    decide +kernel
  have hnd : NoThree [0#32, 589968#32, 4719744#32, 613566752#32, 614156720#32] := noThree_of_nodup (by decide)
  refine ⟨_, _, ?_, hm, hnd, List.Perm.refl _, by decide, ?_, ?_⟩
  · intro c hc
    simp only [List.cons_append, List.nil_append, List.mem_cons, List.not_mem_nil, or_false] at hc
    have key : ∀ e n, V3.cross ((upright e n).2.1 - (upright e n).1) ((upright e n).2.2.2 - (upright e n).1) ≠ ⟨0, 0, 0⟩ := by
      intro e n h
      simp only [upright, V3.cross, V3.sub_e, V3.sub_n, V3.sub_u, V3.mk.injEq] at h
      have := h.2.1
      norm_num at this
    rcases hc with rfl | rfl | rfl | rfl | rfl <;> exact key _ _
  · exact (C09_field_exact_iff_groups (upright 0 0) _ _ _ hm hnd (List.Perm.refl _) (by decide)).1
      (C09_exact_upto_five_partial fiveField (by simp [fiveField]) (noThree_of_nodup fiveField_cells) (by simp [fiveField]))
  · have h4 : (gridCells [upright 0 0, upright 10 0, upright 20 0, upright 0 100]).Nodup := by
      unfold gridCells
      simp only [List.map_cons, List.map_nil, quantised, extent, centroid, upright, Morton.minOf, Morton.maxOf, List.foldl_cons, List.foldl_nil,
        quantise]
      norm_num [truncToInt]
    obtain ⟨F, hF⟩ := C09_exact_upto_five_partial _ (by simp) (noThree_of_nodup h4) (by simp) [northRay]
    exact ⟨F, _, hF F le_rfl⟩

end Artist.SoftMask
