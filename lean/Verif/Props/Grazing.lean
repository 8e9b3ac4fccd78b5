import Verif.Proofs.Grazing
/-!
# C118: does blocking set in gradually when a mirror moves into a beam?

The mask itself has a soft edge, but the mirrors it is applied to are chosen by a filter with a sharp edge.
-/
namespace Artist.Grazing
open Artist LBVH SoftMask Filter Topology
variable {X : Type} [TopologicalSpace X]

/-- C118: mirrors and rays follow a parameter.  As long as the filter returns the mirrors whose box is hit, no ray only just meets a box, no mirror is without area and no ray runs
along a mirror, the blocked part of every ray of the batch follows the parameter without a jump.

Partial: the property without the condition on grazing rays is false, see `C118_jump`. -/
theorem C118_steady_partial (x₀ : X) (rays : List (X → BRay)) (mirrors : List (X → Corners)) (hr : ∀ r ∈ rays, SmoothRay x₀ r) (hm : ∀ c ∈ mirrors, SmoothMirror x₀ c)
    (hd : ∀ r ∈ rays, (r x₀).dir.e + 1 / 10 ^ 12 ≠ 0 ∧ (r x₀).dir.n + 1 / 10 ^ 12 ≠ 0 ∧ (r x₀).dir.u + 1 / 10 ^ 12 ≠ 0)
    (hg : ∀ r ∈ rays, ∀ c ∈ mirrors, ¬ Grazes (r x₀) (cornerBox (c x₀)))
    (harea : ∀ c ∈ mirrors, gram (rectangle (c x₀)) ≠ 0) (hpar : ∀ r ∈ rays, ∀ c ∈ mirrors, V3.dot (r x₀).dir (rectangle (c x₀)).normal ≠ 0)
    (filter : X → List BRay → List Nat)
    (hf : ∀ᶠ x in 𝓝 x₀, filter x (rays.map fun r => r x) = bruteForce ((mirrors.map fun c => c x).map cornerBox) (rays.map fun r => r x))
    (i : Nat) (hi : i < rays.length) :
    ∃ blocked : X → ℝ, ContinuousAt blocked x₀ ∧
      ∀ᶠ x in 𝓝 x₀, (blockedOfBatch (filter x) ((mirrors.map fun c => c x).map rectangle) (rays.map fun r => r x))[i]? = some (some (blocked x)) := by
  have hb := brute_stable rays mirrors hr hm hd hg
  generalize bruteForce ((mirrors.map fun c => c x₀).map cornerBox) (rays.map fun r => r x₀) = sel at hb
  have hsel : ∀ x, sel.filterMap (fun k => ((mirrors.map fun c => c x).map rectangle)[k]?) = ((sel.filterMap fun k => mirrors[k]?).map fun c => fun x => rectangle (c x)).map fun q => q x := by
    intro x
    rw [List.map_filterMap, List.map_filterMap]
    congr 1
    funext k
    simp [Function.comp_def]
  have hmem : ∀ c ∈ sel.filterMap (fun k => mirrors[k]?), c ∈ mirrors := by
    intro c hc
    obtain ⟨k, -, hk⟩ := List.mem_filterMap.1 hc
    exact List.mem_of_getElem? hk
  have hri := hr rays[i] (List.getElem_mem hi)
  obtain ⟨blocked, hc, hv⟩ := MotorImage.C108_mask (1 / 10 ^ 12) 1000 100 (5 / 100) (by norm_num) (fun x => (rays[i] x).origin) (fun x => (rays[i] x).dir)
    ((sel.filterMap fun k => mirrors[k]?).map fun c => fun x => rectangle (c x)) x₀ hri.1 hri.2.1 (by
      intro q hq
      obtain ⟨c, hc, rfl⟩ := List.mem_map.1 hq
      exact rectangle_smooth (hm c (hmem c hc))) (by
      intro q hq
      obtain ⟨c, hc, rfl⟩ := List.mem_map.1 hq
      exact ⟨harea c (hmem c hc), hpar _ (List.getElem_mem hi) c (hmem c hc)⟩)
  by_cases he : (sel.filterMap fun k => mirrors[k]?) = []
  · refine ⟨fun _ => 0, continuousAt_const, ?_⟩
    filter_upwards [hf, hb] with x h1 h2
    unfold blockedOfBatch
    simp only [h1, h2, hsel x, he]
    simp [hi]
  · refine ⟨blocked, hc, ?_⟩
    filter_upwards [hf, hb, hv] with x h1 h2 h3
    unfold blockedOfBatch
    simp only [h1, h2, hsel x]
    rw [if_neg (by simpa using he), List.map_map, List.getElem?_map, List.getElem?_eq_getElem hi, Option.map_some, Function.comp_apply, h3]

/-- C118 for the filter of the library and up to five mirrors, no three of them in one cell of its grid. -/
theorem C118_five_partial (x₀ : X) (rays : List (X → BRay)) (mirrors : List (X → Corners)) (hne : mirrors ≠ []) (h5 : mirrors.length ≤ 5)
    (hcells : ∀ x, NoThree (gridCells (mirrors.map fun c => c x)))
    (hr : ∀ r ∈ rays, SmoothRay x₀ r) (hm : ∀ c ∈ mirrors, SmoothMirror x₀ c)
    (hd : ∀ r ∈ rays, (r x₀).dir.e + 1 / 10 ^ 12 ≠ 0 ∧ (r x₀).dir.n + 1 / 10 ^ 12 ≠ 0 ∧ (r x₀).dir.u + 1 / 10 ^ 12 ≠ 0)
    (hg : ∀ r ∈ rays, ∀ c ∈ mirrors, ¬ Grazes (r x₀) (cornerBox (c x₀)))
    (harea : ∀ c ∈ mirrors, gram (rectangle (c x₀)) ≠ 0) (hpar : ∀ r ∈ rays, ∀ c ∈ mirrors, V3.dot (r x₀).dir (rectangle (c x₀)).normal ≠ 0)
    (i : Nat) (hi : i < rays.length) :
    ∃ blocked : X → ℝ, ContinuousAt blocked x₀ ∧
      ∀ᶠ x in 𝓝 x₀, ∃ sel, (∃ F, ∀ fuel, F ≤ fuel → lbvhFilter (mirrors.map fun c => c x) (rays.map fun r => r x) fuel = some (.ok sel)) ∧
        (blockedOfBatch (fun _ => sel) ((mirrors.map fun c => c x).map rectangle) (rays.map fun r => r x))[i]? = some (some (blocked x)) := by
  obtain ⟨blocked, hc, hv⟩ := C118_steady_partial x₀ rays mirrors hr hm hd hg harea hpar
    (fun (x : X) (batch : List BRay) => bruteForce ((mirrors.map fun c => c x).map cornerBox) batch) (by filter_upwards with x; with_reducible rfl) i hi
  refine ⟨blocked, hc, ?_⟩
  filter_upwards [hv] with x hx
  refine ⟨bruteForce ((mirrors.map fun c => c x).map cornerBox) (rays.map fun r => r x), ?_, hx⟩
  exact C09_exact_upto_five_partial _ (by simpa using hne) (hcells x) (by simpa using h5) _

/-! ### The sharp edge -/

/-- a heliostat at the origin and one 100 m north of it whose western edge is `x` metres east of the first one's centre, both tilted by 45° -/
noncomputable def pair (x : ℝ) : List Corners :=
  [(⟨-1, -1, -1⟩, ⟨-1, 1, 1⟩, ⟨1, 1, 1⟩, ⟨1, -1, -1⟩), (⟨x, 99, -1⟩, ⟨x, 101, 1⟩, ⟨x + 2, 101, 1⟩, ⟨x + 2, 99, -1⟩)]

/-- the ray of the first heliostat, due north, to a target 500 m away -/
noncomputable def northward : BRay := ⟨⟨0, 0, 0⟩, ⟨0, 1, 0⟩, 0, 500⟩

/-- the position of the edge up to which the filter sees the second heliostat, about a tenth of a nanometre east of the ray -/
noncomputable def edge : ℝ := 101 * (1 / 10 ^ 12) / (1 + 1 / 10 ^ 12)

theorem pair_boxes (x : ℝ) : (pair x).map cornerBox = [⟨⟨-1, -1, -1⟩, ⟨1, 1, 1⟩⟩, ⟨⟨x, 99, -1⟩, ⟨x + 2, 101, 1⟩⟩] := by
  unfold pair cornerBox
  have h1 : x ≤ x + 2 := by linarith
  simp only [List.map_cons, List.map_nil, V3.map₂]
  norm_num

theorem pair_proper (x : ℝ) : Box.Proper (⟨⟨x, 99, -1⟩, ⟨x + 2, 101, 1⟩⟩ : Box ℝ) := by
  unfold Box.Proper
  norm_num

theorem pair_misses (x : ℝ) (h : edge < x) : hits northward ⟨⟨x, 99, -1⟩, ⟨x + 2, 101, 1⟩⟩ = false := by
  rw [Bool.eq_false_iff, ne_eq, hit_iff northward _ (pair_proper x) (by norm_num [northward]) (by norm_num [northward]) (by norm_num [northward])]
  rintro ⟨⟨t, ⟨⟨h1, -⟩, ⟨-, h2⟩, -⟩, -⟩, -⟩
  simp only [northward] at h1 h2
  unfold edge at h
  rw [div_lt_iff₀ (by norm_num)] at h
  norm_num at h h1 h2
  linarith

theorem pair_hits : hits northward ⟨⟨edge, 99, -1⟩, ⟨edge + 2, 101, 1⟩⟩ = true := by
  rw [hit_iff northward _ (pair_proper _) (by norm_num [northward]) (by norm_num [northward]) (by norm_num [northward])]
  have h : Box.Contains (⟨⟨edge, 99, -1⟩, ⟨edge + 2, 101, 1⟩⟩ : Box ℝ) ⟨northward.origin.e + (101 / (1 + 1 / 10 ^ 12)) * (northward.dir.e + 1 / 10 ^ 12),
      northward.origin.n + (101 / (1 + 1 / 10 ^ 12)) * (northward.dir.n + 1 / 10 ^ 12), northward.origin.u + (101 / (1 + 1 / 10 ^ 12)) * (northward.dir.u + 1 / 10 ^ 12)⟩ := by
    unfold Box.Contains northward edge
    norm_num
  exact ⟨⟨_, h, by norm_num⟩, ⟨_, h, by norm_num [northward]⟩⟩

theorem pair_noThree (x : ℝ) : NoThree (gridCells (pair x)) := by
  intro i j k y hij hjk hik hi hj hk
  have hl : (gridCells (pair x)).length = 2 := by simp [gridCells, Morton.quantised, pair]
  have := (List.getElem?_eq_some_iff.1 hi).1
  have := (List.getElem?_eq_some_iff.1 hj).1
  have := (List.getElem?_eq_some_iff.1 hk).1
  omega

/-- C118 is false: with its western edge at `edge` the second heliostat blocks more than half of the ray, and any bit further east it blocks nothing, although the mask itself would
still block almost the same part.  All of this for the mirrors that the filter of the library returns. -/
theorem C118_jump : ∃ sel : ℝ → List Nat,
    (∀ x, ∃ F, ∀ fuel, F ≤ fuel → lbvhFilter (pair x) [northward] fuel = some (.ok (sel x))) ∧
    (∀ x, edge < x → blockedOfBatch (fun _ => sel x) ((pair x).map rectangle) [northward] = [some 0]) ∧
    ∃ b, blockedOfBatch (fun _ => sel edge) ((pair edge).map rectangle) [northward] = [some b] ∧ 1 / 2 ≤ b := by
  refine ⟨fun x => bruteForce ((pair x).map cornerBox) [northward], ?_, ?_, ?_⟩
  · intro x
    exact C09_exact_upto_five_partial (pair x) (by simp [pair]) (pair_noThree x) (by simp [pair]) _
  · intro x hx
    have : bruteForce ((pair x).map cornerBox) [northward] = [] := by
      rw [pair_boxes]
      unfold bruteForce
      have ho : northward.owner = 0 := rfl
      simp [List.range_succ, List.filter_cons, ho, pair_misses x hx]
    unfold blockedOfBatch
    simp only [this]
    simp
  · have : bruteForce ((pair edge).map cornerBox) [northward] = [1] := by
      rw [pair_boxes]
      unfold bruteForce
      have ho : northward.owner = 0 := rfl
      simp [List.range_succ, List.filter_cons, ho, pair_hits]
    unfold blockedOfBatch
    simp only [this]
    have hsel : [1].filterMap (fun i => ((pair edge).map rectangle)[i]?) = [rectOfCorners ⟨edge, 99, -1⟩ ⟨edge, 101, 1⟩ ⟨edge + 2, 101, 1⟩ ⟨edge + 2, 99, -1⟩] := by
      simp [pair, rectangle]
    rw [hsel]
    simp only [List.isEmpty_cons, Bool.false_eq_true, if_false, List.map_cons, List.map_nil]
    have he0 : 0 < edge := by unfold edge; norm_num
    have he1 : edge < 1 / 10 ^ 9 := by unfold edge; norm_num
    generalize edge = w at he0 he1
    generalize hr : rectOfCorners (⟨w, 99, -1⟩ : V3 ℝ) ⟨w, 101, 1⟩ ⟨w + 2, 101, 1⟩ ⟨w + 2, 99, -1⟩ = r
    have hnormal : 1 / 10 ≤ |V3.dot northward.dir r.normal| := by
      subst hr
      simp only [rectOfCorners, SoftMask.normalize, V3.dot, V3.cross, northward, V3.sub_e, V3.sub_n, V3.sub_u]
      norm_num
      have h32 : Real.sqrt 32 ≤ 6 := by rw [Real.sqrt_le_left (by norm_num)]; norm_num
      have h32' : 1 ≤ Real.sqrt 32 := by rw [Real.one_le_sqrt]; norm_num
      have hm : max (Real.sqrt 32) (1 / 1000000000000) = Real.sqrt 32 := max_eq_left (by linarith)
      rw [hm, abs_of_nonneg (by positivity)]
      rw [le_div_iff₀ (by linarith)]; linarith
    have hperp := C54_normal (⟨w, 99, -1⟩ : V3 ℝ) ⟨w, 101, 1⟩ ⟨w + 2, 101, 1⟩ ⟨w + 2, 99, -1⟩
    simp only [hr] at hperp
    have hgram : gram r = 32 := by
      subst hr; simp only [gram, rectOfCorners, V3.dot, V3.sub_e, V3.sub_n, V3.sub_u]; ring
    cases hm : softMask (1 / 10 ^ 12) 1000 100 (5 / 100) northward.origin northward.dir [r] with
    | none =>
      exfalso
      rw [C15_nan_iff _ _ _ _ (by norm_num)] at hm
      obtain ⟨r', hr', hc⟩ := hm
      simp only [List.mem_cons, List.not_mem_nil, or_false] at hr'
      subst hr'
      rw [gram_eq_cross, hc] at hgram
      simp [V3.dot] at hgram
    | some a =>
      refine ⟨a, rfl, ?_⟩
      have := C15_hit_blocks (1 / 10 ^ 12) 1000 100 (5 / 100) (-(1 / 10 ^ 9)) (by norm_num) (by norm_num) (by norm_num) northward.origin northward.dir
        [r] r (by simp) 100 (1 / 2) (-(w / 2)) hperp.1 hperp.2.1 (by norm_num at hnormal ⊢; linarith) (by rw [hgram]; norm_num)
        (by subst hr; ext <;> simp [rectOfCorners, northward] <;> ring) (by norm_num) (by constructor <;> linarith) (by norm_num) a hm
      refine le_trans ?_ this
      have h1 : (2 / 5 : ℝ) ≤ sigmoid (1000 * -(1 / 10 ^ 9)) := by
        unfold sigmoid
        have hexp : Real.exp (-(1000 * -(1 / 10 ^ 9))) ≤ 3 / 2 := by
          have := Real.exp_bound_div_one_sub_of_interval (x := -(1000 * -(1 / 10 ^ 9))) (by norm_num) (by norm_num)
          refine this.trans (by norm_num)
        rw [le_div_iff₀ (by positivity)]
        linarith
      have h2 : (2 / 5 : ℝ) ^ 5 ≤ sigmoid (1000 * -(1 / 10 ^ 9)) ^ 5 := pow_le_pow_left₀ (by norm_num) h1 5
      have h3 : Real.exp (-(100 * sigmoid (1000 * -(1 / 10 ^ 9)) ^ 5)) ≤ Real.exp (-1) := by
        rw [Real.exp_le_exp]; norm_num at h2 ⊢; linarith
      have h4 : Real.exp (-1) < 1 / 2 := by
        rw [Real.exp_neg, inv_lt_comm₀ (Real.exp_pos 1) (by norm_num)]
        have := Real.exp_one_gt_d9
        norm_num at this ⊢; linarith
      linarith

/-- The conditions of `C118_five_partial` are met while the second heliostat stands in the middle of the beam: moving it sideways changes the blocked part without a jump. -/
example : ∃ blocked : ℝ → ℝ, ContinuousAt blocked (-1) ∧
    ∀ᶠ x in 𝓝 (-1 : ℝ), ∃ sel, (∃ F, ∀ fuel, F ≤ fuel → lbvhFilter (pair x) [northward] fuel = some (.ok sel)) ∧
      (blockedOfBatch (fun _ => sel) ((pair x).map rectangle) [northward])[0]? = some (some (blocked x)) := by
  have c : ∀ v : V3 ℝ, Smooth (-1 : ℝ) fun _ => v := fun v => ⟨continuousAt_const, continuousAt_const, continuousAt_const⟩
  have h := C118_five_partial (-1 : ℝ) [fun _ => northward]
    [fun _ => (⟨-1, -1, -1⟩, ⟨-1, 1, 1⟩, ⟨1, 1, 1⟩, ⟨1, -1, -1⟩), fun x => (⟨x, 99, -1⟩, ⟨x, 101, 1⟩, ⟨x + 2, 101, 1⟩, ⟨x + 2, 99, -1⟩)] (by simp) (by simp) pair_noThree
    (by
      intro r hr
      simp only [List.mem_singleton] at hr
      subst hr
      exact ⟨c _, c _, continuousAt_const, fun _ => rfl⟩) (by
      intro q hq
      simp only [List.mem_cons, List.not_mem_nil, or_false] at hq
      rcases hq with rfl | rfl
      · exact ⟨c _, c _, c _, c _⟩
      · exact ⟨⟨continuousAt_id, continuousAt_const, continuousAt_const⟩, ⟨continuousAt_id, continuousAt_const, continuousAt_const⟩,
          ⟨continuousAt_id.add continuousAt_const, continuousAt_const, continuousAt_const⟩, ⟨continuousAt_id.add continuousAt_const, continuousAt_const, continuousAt_const⟩⟩) (by
      intro r hr
      simp only [List.mem_singleton] at hr
      subst hr
      norm_num [northward]) (by
      intro r hr q hq
      simp only [List.mem_singleton] at hr
      subst hr
      simp only [List.mem_cons, List.not_mem_nil, or_false] at hq
      rcases hq with rfl | rfl <;> norm_num [Grazes, passage, rayAabb, cornerBox, V3.map₂, northward]) (by
      intro q hq
      simp only [List.mem_cons, List.not_mem_nil, or_false] at hq
      rcases hq with rfl | rfl <;> norm_num [rectangle, gram, rectOfCorners, V3.dot]) (by
      intro r hr q hq
      simp only [List.mem_singleton] at hr
      subst hr
      simp only [List.mem_cons, List.not_mem_nil, or_false] at hq
      rcases hq with rfl | rfl <;> norm_num [rectangle, rectOfCorners, SoftMask.normalize, V3.dot, V3.cross, northward] <;>
        exact (lt_of_lt_of_le (by norm_num) (le_max_right _ _)).ne') 0 (by simp)
  exact h

end Artist.Grazing
