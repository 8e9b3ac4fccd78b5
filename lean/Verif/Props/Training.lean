import Verif.Proofs.Training
import Mathlib.Data.Rat.Defs
import Mathlib.Algebra.Order.Ring.Rat
import Mathlib.Tactic.NormNum
/-! Properties C31 (early stopping) and C32 (train/test split). -/
namespace Artist.Training
open Artist

section
variable {K : Type} [Field K] [LinearOrder K] [IsStrictOrderedRing K]

/-- C31: for a window of at least one loss and a patience of at least one, no call raises, and the stopper fires at step `t`
(counted from 0) exactly if each of the last `patience` steps ended a full window without sufficient improvement. -/
theorem C31_fires_iff (c : Config K) (hw : 0 < c.windowSize) (hp : 0 < c.patience) (losses : List K) :
    ∃ bs s, flags c fresh losses = .ok (bs, s) ∧ bs.length = losses.length ∧
      ∀ t b, bs[t]? = some b →
        (b = true ↔ c.patience ≤ t + 1 ∧ ∀ j, j < c.patience → Stagnant c losses (t - j)) := by
  obtain ⟨bs, s, h1, h2, h3⟩ := flags_spec c hw [] losses fresh (inv_fresh c)
  refine ⟨bs, s, h1, h2, fun t b hb => ?_⟩
  rw [h3 t b hb]
  simp only [List.length_nil, Nat.zero_add, List.nil_append]
  constructor
  · exact fun h => h.2
  · intro h
    refine ⟨?_, h⟩
    simpa using (h.2 0 hp).1

/-- C31: the stopper never fires before `window_size + patience - 1` losses were seen. -/
theorem C31_never_early (c : Config K) (hw : 0 < c.windowSize) (hp : 0 < c.patience) (losses : List K) (bs : List Bool)
    (s : Stopper K) (h : flags c fresh losses = .ok (bs, s)) (t : Nat) (ht : bs[t]? = some true) :
    c.windowSize + c.patience - 1 ≤ t + 1 := by
  obtain ⟨bs', s', h1, -, h3⟩ := C31_fires_iff c hw hp losses
  obtain ⟨rfl, rfl⟩ := Prod.mk.inj (Except.ok.inj (h.symm.trans h1))
  obtain ⟨h4, h5⟩ := (h3 t true ht).1 rfl
  have := (h5 (c.patience - 1) (by omega)).1
  omega

/-- C31 (absolute improvement): a loss falling by at least `δ` per step never triggers the stopper if `δ`, accumulated over
the window, exceeds the threshold.  A window of one loss is excluded by the hypotheses for thresholds `≥ 0`: see `C31_window_one`. -/
theorem C31_steady_absolute_partial (c : Config K) (hw : 0 < c.windowSize) (hp : 0 < c.patience) (hr : c.relative = false)
    (losses : List K) (δ : K) (hδ : ∀ t a b, losses[t]? = some a → losses[t + 1]? = some b → b + δ ≤ a)
    (hm : c.minImprovement < (c.windowSize - 1 : Nat) * δ) (bs : List Bool) (s : Stopper K)
    (h : flags c fresh losses = .ok (bs, s)) : true ∉ bs := by
  intro hmem
  obtain ⟨t, ht⟩ := List.mem_iff_getElem?.1 hmem
  obtain ⟨bs', s', h1, -, h3⟩ := C31_fires_iff c hw hp losses
  obtain ⟨rfl, rfl⟩ := Prod.mk.inj (Except.ok.inj (h.symm.trans h1))
  obtain ⟨hfull, a, b, ha, hb, hi⟩ := ((h3 t true ht).1 rfl).2 0 hp
  have key : ∀ (n i : Nat) (a b : K), losses[i]? = some a → losses[i + n]? = some b → b + (n : K) * δ ≤ a := by
    intro n
    induction n with
    | zero => intro i a b h1 h2; rw [Nat.add_zero, h1] at h2; obtain rfl := Option.some.inj h2; simp
    | succ n ih =>
      intro i a b h1 h2
      obtain ⟨hlt, -⟩ := List.getElem?_eq_some_iff.1 h2
      have hm := List.getElem?_eq_getElem (show i + n < losses.length by omega)
      have e1 := ih i a _ h1 hm
      have e2 := hδ (i + n) _ b hm h2
      push_cast
      linarith
  have := key (c.windowSize - 1) _ a b ha (by rw [← hb]; congr 1; omega)
  unfold improvement at hi
  rw [hr] at hi
  simp only [Bool.false_eq_true, if_false] at hi
  linarith

/-- C31 (relative improvement): a loss shrinking at least by the factor `q` per step never triggers the stopper if the factor,
compounded over the window, exceeds the threshold.  Losses are at least `eps > 0`. -/
theorem C31_steady_relative_partial (c : Config K) (hw : 0 < c.windowSize) (hp : 0 < c.patience) (hr : c.relative = true)
    (losses : List K) (he : 0 < c.eps) (hpos : ∀ x ∈ losses, c.eps ≤ x) (q : K) (hq : 0 ≤ q)
    (hδ : ∀ t a b, losses[t]? = some a → losses[t + 1]? = some b → b ≤ q * a)
    (hm : c.minImprovement < 1 - q ^ (c.windowSize - 1)) (bs : List Bool) (s : Stopper K)
    (h : flags c fresh losses = .ok (bs, s)) : true ∉ bs := by
  intro hmem
  obtain ⟨t, ht⟩ := List.mem_iff_getElem?.1 hmem
  obtain ⟨bs', s', h1, -, h3⟩ := C31_fires_iff c hw hp losses
  obtain ⟨rfl, rfl⟩ := Prod.mk.inj (Except.ok.inj (h.symm.trans h1))
  obtain ⟨hfull, a, b, ha, hb, hi⟩ := ((h3 t true ht).1 rfl).2 0 hp
  have key : ∀ (n i : Nat) (a b : K), losses[i]? = some a → losses[i + n]? = some b → b ≤ q ^ n * a := by
    intro n
    induction n with
    | zero => intro i a b h1 h2; rw [Nat.add_zero, h1] at h2; obtain rfl := Option.some.inj h2; simp
    | succ n ih =>
      intro i a b h1 h2
      obtain ⟨hlt, -⟩ := List.getElem?_eq_some_iff.1 h2
      have hm := List.getElem?_eq_getElem (show i + n < losses.length by omega)
      have e1 := ih i a _ h1 hm
      have e2 := hδ (i + n) _ b hm h2
      calc b ≤ q * _ := e2
        _ ≤ q * (q ^ n * a) := mul_le_mul_of_nonneg_left e1 hq
        _ = q ^ (n + 1) * a := by ring
  have hk := key (c.windowSize - 1) _ a b ha (by rw [← hb]; congr 1; omega)
  have hae : c.eps ≤ a := hpos a (List.mem_of_getElem? ha)
  have ha0 : 0 < a := he.trans_le hae
  unfold improvement at hi
  rw [hr, if_pos rfl, abs_of_pos ha0, max_eq_left hae, div_le_iff₀ ha0] at hi
  have : c.minImprovement * a < (1 - q ^ (c.windowSize - 1)) * a := mul_lt_mul_of_pos_right hm ha0
  nlinarith

/-- C31 fails for a window of one loss: it is compared with itself, so that (threshold `≥ 0`) the stopper fires from step
`patience` on whatever the losses are, however fast they fall. -/
theorem C31_window_one (c : Config K) (hw : c.windowSize = 1) (hp : 0 < c.patience) (hm : 0 ≤ c.minImprovement)
    (losses : List K) : ∃ bs s, flags c fresh losses = .ok (bs, s) ∧ bs.length = losses.length ∧
      ∀ t b, bs[t]? = some b → (b = true ↔ c.patience ≤ t + 1) := by
  obtain ⟨bs, s, h1, h2, h3⟩ := C31_fires_iff c (by omega) hp losses
  refine ⟨bs, s, h1, h2, fun t b hb => ?_⟩
  rw [h3 t b hb]
  refine and_iff_left_of_imp fun hpt j hj => ?_
  obtain ⟨hlt, -⟩ := List.getElem?_eq_some_iff.1 hb
  have hg := List.getElem?_eq_getElem (show t - j < losses.length by omega)
  refine ⟨by omega, _, _, by rw [hw, Nat.add_sub_cancel]; exact hg, hg, ?_⟩
  unfold improvement
  split <;> simpa using hm

/-- With patience 0 the stopper fires as soon as the window is full, whatever the losses are. -/
theorem C31_zero_patience (c : Config K) (hw : 0 < c.windowSize) (hp : c.patience = 0) (losses : List K) :
    ∃ bs s, flags c fresh losses = .ok (bs, s) ∧ bs.length = losses.length ∧
      ∀ t b, bs[t]? = some b → (b = true ↔ c.windowSize ≤ t + 1) := by
  obtain ⟨bs, s, h1, h2, h3⟩ := flags_spec c hw [] losses fresh (inv_fresh c)
  refine ⟨bs, s, h1, h2, fun t b hb => ?_⟩
  rw [h3 t b hb, hp]
  simp

/-- With window size 0 the first call raises. -/
theorem C31_zero_window (c : Config K) (hw : c.windowSize = 0) (l : K) (ls : List K) :
    flags c fresh (l :: ls) = .error .indexError := by
  simp [flags, step, push, hw, fresh]

end

/-- Window 2, patience 2, absolute threshold 1. -/
def sample : Config ℚ := ⟨2, 2, 1, false, 1/100000000⟩

/-- Fires at the third loss, not at the second; a large drop resets the counter. -/
example : flags sample fresh [9, 9, 9, 4, 4, 4] =
    .ok ([false, false, true, false, false, true], ⟨[4, 4], 2⟩) := by decide +kernel
example : 0 < sample.windowSize ∧ 0 < sample.patience := by decide
/-- Hypotheses of `C31_steady_absolute_partial`: losses falling by 2 per step. -/
example : sample.minImprovement < (sample.windowSize - 1 : Nat) * (2 : ℚ) ∧
    flags sample fresh [8, 6, 4, 2] = .ok ([false, false, false, false], ⟨[4, 2], 0⟩) := by
  constructor <;> decide +kernel
/-- Hypotheses of `C31_steady_relative_partial`: losses halved every step, threshold one tenth. -/
example : flags (⟨3, 1, 1/10, true, 1/100⟩ : Config ℚ) fresh [8, 4, 2, 1] = .ok ([false, false, false, false], ⟨[4, 2, 1], 0⟩) ∧
    (1/10 : ℚ) < 1 - (1/2) ^ 2 := by constructor <;> decide +kernel
/-- `C31_window_one`: losses halved every step, yet the stopper fires. -/
example : flags (⟨1, 2, 1/10000, true, 1/100⟩ : Config ℚ) fresh [8, 4, 2] = .ok ([false, true, true], ⟨[2], 3⟩) := by decide +kernel
example : flags (⟨3, 0, 1, false, 1/100⟩ : Config ℚ) fresh [9, 5, 1] = .ok ([false, false, true], ⟨[9, 5, 1], 0⟩) := by decide +kernel
example : flags (⟨0, 2, 1, false, 1/100⟩ : Config ℚ) fresh [9] = .error .indexError := by decide +kernel

/-- C32 for heliostats that all have the same number `k` of samples (or none), and a fraction of at most one: the split
succeeds, every sample is in exactly one half exactly once, both halves keep the original order, the training samples are
the first and the test samples the last of each heliostat's block, the rows of both halves are
owned, under their own masks, by the heliostat whose sample they are, and every heliostat with data has
`max 1 (testOf k)` test samples.  Missing: unequal sample counts, for which the claim is false (`C32_unequal_counts`). -/
theorem C32_uniform_partial (testOf : Nat → Int) (mask : List Nat) (k : Nat) (hk : 0 < k) (hu : ∀ c ∈ mask, c = 0 ∨ c = k)
    (ha : k ∈ mask) (ht : testOf k ≤ k) :
    ∃ s, split testOf mask = .ok s ∧
      (s.trainIndices ++ s.testIndices).Perm ((List.range mask.sum).map Int.ofNat) ∧
      s.trainIndices.map (fun i => (owners mask).getD i.toNat 0) = owners (s.maskTrain.map Int.toNat) ∧
      s.testIndices.map (fun i => (owners mask).getD i.toNat 0) = owners (s.maskTest.map Int.toNat) ∧
      s.maskTest = mask.map (fun c => if c = 0 then 0 else max 1 (testOf k)) ∧
      s.maskTrain = mask.map (fun (c : Nat) => if c = 0 then 0 else (k : Int) - max 1 (testOf k)) ∧
      s.perHeliostat = k ∧ (s.numberOfTest : Int) = max 1 (testOf k) ∧
      s.trainIndices.Pairwise (· < ·) ∧ s.testIndices.Pairwise (· < ·) ∧
      (∀ i ∈ s.trainIndices, i % k < k - max 1 (testOf k)) ∧ (∀ i ∈ s.testIndices, k - max 1 (testOf k) ≤ i % k) := by
  have hsum := uniform_sum mask k hk hu
  obtain ⟨h, hh⟩ : ∃ h, mask.countP (fun c => decide (c > 0)) = h := ⟨_, rfl⟩
  have hpos : 0 < h := by
    rw [← hh]; exact List.countP_pos_iff.2 ⟨k, ha, by simpa using hk⟩
  rw [hh] at hsum
  have hper : h * k / h = k := Nat.mul_div_cancel_left _ hpos
  obtain ⟨t, htr⟩ : ∃ t : Nat, (k : Int) - max 1 (testOf k) = t := ⟨((k : Int) - max 1 (testOf k)).toNat, by omega⟩
  have htk : t < k := by omega
  have hblocks : (h * k + k - 1) / k = h := by
    rw [Nat.add_sub_assoc (by omega : 1 ≤ k), Nat.add_comm, Nat.add_mul_div_right _ _ hk, Nat.div_eq_of_lt (by omega), Nat.zero_add]
  have hperm : ((List.range h).flatMap (fun b => (List.range t).map (fun (o : Nat) => ((b * k : Nat) : Int) + (o : Int))) ++
      (List.range h).flatMap (fun b => (List.range (k - t)).map (fun (o : Nat) => ((b * k : Nat) : Int) + ((t : Int) + (o : Int))))).Perm
      ((List.range (h * k)).map Int.ofNat) := by
    refine (flatMap_append_perm _ _ _).trans ?_
    rw [← range_blocks]
    refine List.Perm.of_eq (List.flatMap_congr fun b _ => block_split b k t htk.le)
  unfold split
  simp only [hh, hsum, hper, htr, if_neg (Nat.pos_iff_ne_zero.1 hpos), hblocks, Int.toNat_natCast,
    if_neg (show ¬ ((t : Int) < 0) by omega)]
  rw [if_neg]
  · refine ⟨_, rfl, hperm, ?_, ?_, ?_, ?_, rfl, ?_, blocks_sorted k t h (fun o => (o : Int)) (by omega) (by intros; omega) (by intros; omega),
      blocks_sorted k (k - t) h (fun o => (t : Int) + o) (by omega) (by intros; omega) (by intros; omega), ?_, ?_⟩
    · have := owners_blocks k t hk (fun o => o) (fun o ho => by omega) mask hu 0
      rw [hh] at this
      simp only [owners, List.map_flatMap, List.map_map]
      refine Eq.trans ?_ (this.trans ?_)
      · refine List.flatMap_congr fun b _ => List.map_congr_left fun o _ => ?_
        simp only [Function.comp]; congr 1
      · congr 1
        refine List.map_congr_left fun c hc => ?_
        simp only [Function.comp]
        rcases hu c hc with rfl | rfl
        · rw [if_neg (by omega)]; omega
        · rw [if_pos rfl]; omega
    · have := owners_blocks k (k - t) hk (fun o => t + o) (fun o ho => by omega) mask hu 0
      rw [hh] at this
      simp only [owners, List.map_flatMap, List.map_map]
      refine Eq.trans ?_ (this.trans ?_)
      · refine List.flatMap_congr fun b _ => List.map_congr_left fun o _ => ?_
        simp only [Function.comp]; congr 1
      · congr 1
        refine List.map_congr_left fun c hc => ?_
        simp only [Function.comp]
        rcases hu c hc with rfl | rfl
        · rw [if_neg (by omega)]; omega
        · rw [if_pos rfl]; omega
    · refine List.map_congr_left fun c hc => ?_
      rcases hu c hc with rfl | rfl
      · simp
      · rw [if_neg (by omega)]; omega
    · refine List.map_congr_left fun c hc => ?_
      rcases hu c hc with rfl | rfl
      · rw [if_pos rfl]; omega
      · rw [if_neg (by omega)]; omega
    · simp only; omega
    · intro i hi
      simp only [List.mem_flatMap, List.mem_map, List.mem_range] at hi
      obtain ⟨b, -, o, ho, rfl⟩ := hi
      push_cast
      rw [Int.add_comm, Int.add_mul_emod_self_right, Int.emod_eq_of_lt (by omega) (by omega)]
      omega
    · intro i hi
      simp only [List.mem_flatMap, List.mem_map, List.mem_range] at hi
      obtain ⟨b, -, o, ho, rfl⟩ := hi
      push_cast
      rw [Int.add_comm, Int.add_mul_emod_self_right, Int.emod_eq_of_lt (by omega) (by omega)]
      omega
  · simp only [List.any_eq_true, decide_eq_true_eq, not_exists, not_and]
    intro i hi
    have := hperm.mem_iff.1 hi
    obtain ⟨n, hn, rfl⟩ := List.mem_map.1 this
    have := List.mem_range.1 hn
    simp only [Int.ofNat_eq_natCast]
    push_cast at *
    exact_mod_cast Nat.not_le.2 this

/-- `int(s * 0.25)`. -/
def quarter (s : Nat) : Int := ((s / 4 : Nat) : Int)

/-- Three heliostats, the second without data, four samples for the others. -/
example : (0 < 4) ∧ (∀ c ∈ [4, 0, 4], c = 0 ∨ c = 4) ∧ 4 ∈ [4, 0, 4] ∧ quarter 4 ≤ 4 ∧
    split quarter [4, 0, 4] = .ok ⟨[0, 1, 2, 4, 5, 6], [3, 7], [3, 0, 3], [1, 0, 1], 4, 1⟩ := by decide

/-- C32 is false for unequal counts.  One sample for heliostat 0 and three for heliostat 1 (fraction a quarter): the only
sample of heliostat 0 becomes the first training row, which the training mask gives to heliostat 1; and heliostat 0 has data
but gets no test sample. -/
theorem C32_unequal_counts : ∃ s, split quarter [1, 3] = .ok s ∧
    s.trainIndices = [0, 2] ∧ owners [1, 3] = [0, 1, 1, 1] ∧ owners (s.maskTrain.map Int.toNat) = [1, 1] ∧
    s.maskTest = [0, 2] :=
  ⟨⟨[0, 2], [1, 3], [0, 2], [0, 2], 2, 1⟩, by decide, by decide, by decide, by decide, by decide⟩

/-- Unequal counts can also lose samples: with one and two samples, sample 2 is in neither half, and the test mask counts
three rows for two test samples. -/
theorem C32_sample_lost : ∃ s, split quarter [1, 2] = .ok s ∧
    (2 : Int) ∉ s.trainIndices ++ s.testIndices ∧ s.maskTest.sum = 3 ∧ s.testIndices.length = 2 :=
  ⟨⟨[], [0, 1], [0, 1], [1, 2], 1, 1⟩, by decide, by decide, by decide, by decide⟩

/-- Or raise: three and four samples. -/
theorem C32_index_error : split quarter [3, 4] = .error .indexError := by decide

/-- Without any active heliostat the split raises, whatever the fraction. -/
theorem C32_nothing_active (testOf : Nat → Int) (mask : List Nat) (h : ∀ c ∈ mask, c = 0) :
    split testOf mask = .error .zeroDivision := by
  have : mask.countP (fun c => decide (c > 0)) = 0 := by
    rw [List.countP_eq_zero]; intro c hc; simp [h c hc]
  unfold split
  simp [this]

example : split quarter [0, 0] = .error .zeroDivision := C32_nothing_active _ _ (by decide)

end Artist.Training
