import Verif.Proofs.Mapping
import Verif.Spec.Group
/-! # C29: translation of the user's mapping (`artist/scenario/scenario.py`) -/
namespace Artist.Mapping
open Artist

/-- C29: for a group with distinct names and a mapping whose entries for this group have known targets and accepted directions, every
row of the outputs is written, the mask counts the entries of each heliostat, and the rows that belong to heliostat `i` when
rows are repeated by the mask are exactly the entries of that heliostat in the user's order, each with the index of its own
target and its own direction.  Entries of other groups have no influence. -/
theorem C29_faithful {N D : Type} [DecidableEq N] (lightOk : D → Bool) (names : List N) (hn : names.Nodup)
    (targetIndex : List (N × Nat)) (mapping : List (Entry N D))
    (hv : ∀ e ∈ mapping, e.heliostat ∈ names → (∃ t, dictGet targetIndex e.target = some t) ∧ lightOk e.light = true) :
    ∃ r, indexMapping lightOk names targetIndex mapping = .ok r ∧
      r.mask.length = names.length ∧ r.targets.length = r.mask.sum ∧ r.lights.length = r.mask.sum ∧
      ∀ i name, names[i]? = some name →
        r.mask[i]? = some (mapping.filter (fun e => decide (e.heliostat = name))).length ∧
        ((((Group.expand (List.range names.length) r.mask).zip (r.targets.zip r.lights)).filter
            (fun row => decide (row.1 = i))).map (·.2)) =
          (mapping.filter (fun e => decide (e.heliostat = name))).map
            (fun e => ((dictGet targetIndex e.target).map Int.ofNat, some e.light)) := by
  set filtered := mapping.filter (fun e => decide (e.heliostat ∈ names)) with hfil
  have hmem : ∀ e ∈ filtered, e.heliostat ∈ names ∧ (dictGet targetIndex e.target).isSome := by
    intro e he
    have h := List.mem_filter.1 he
    have h1 : e.heliostat ∈ names := by simpa using h.2
    obtain ⟨⟨t, ht⟩, _⟩ := hv e h.1 h1
    exact ⟨h1, by simp [ht]⟩
  have hnoerr : (filtered.any (fun e => (dictGet targetIndex e.target).isNone || !lightOk e.light)) = false := by
    rw [List.any_eq_false]
    intro e he
    have h := List.mem_filter.1 he
    obtain ⟨⟨t, ht⟩, hl⟩ := hv e h.1 (by simpa using h.2)
    simp [ht, hl]
  have hff : ∀ name ∈ names, filtered.filter (fun e => decide (e.heliostat = name)) =
      mapping.filter (fun e => decide (e.heliostat = name)) := by
    intro name hname
    rw [hfil, List.filter_filter]
    apply List.filter_congr
    intro e _
    by_cases h : e.heliostat = name
    · simp [h, hname]
    · simp [h]
  obtain ⟨mask, data, hc, hlen, hmask, hdata⟩ := collect_spec hn targetIndex filtered hmem (List.replicate names.length 0)
    (by simp) []
  have hdata' : ∀ name, (dictGet data name).getD [] =
      (filtered.filter (fun e => decide (e.heliostat = name))).map (value targetIndex) := by
    intro name; rw [hdata]; simp [dictGet]
  have hflat : names.flatMap (fun n => (dictGet data n).getD []) =
      (names.flatMap (fun n => filtered.filter (fun e => decide (e.heliostat = n)))).map (value targetIndex) := by
    rw [List.map_flatMap]
    exact List.flatMap_congr fun n _ => hdata' n
  have hcount : (names.flatMap (fun n => (dictGet data n).getD [])).length = filtered.length := by
    rw [hflat, List.length_map, length_flatMap_filter names hn filtered (fun e he => (hmem e he).1)]
  have hw := writeAll_spec data names (List.replicate filtered.length none) (List.replicate filtered.length none) [] [] rfl
    (by simp) (by rw [hcount]; simp)
  simp only [List.length_nil, List.nil_append] at hw
  have hmask' : mask = names.map (fun n => (filtered.filter (fun e => decide (e.heliostat = n))).length) := by
    apply List.ext_getElem?
    intro i
    by_cases hi : i < names.length
    · have := hmask i names[i] 0 (List.getElem?_eq_getElem hi) (by simp [hi])
      rw [this]; simp [hi]
    · rw [List.getElem?_eq_none (by omega), List.getElem?_eq_none (by simp; omega)]
  have hsum : mask.sum = filtered.length := by
    rw [hmask', ← length_flatMap_filter names hn filtered (fun e he => (hmem e he).1), List.length_flatMap]
  refine ⟨⟨mask, (names.flatMap (fun n => (dictGet data n).getD [])).map (fun v => some (v.1 : Int)),
    (names.flatMap (fun n => (dictGet data n).getD [])).map (fun v => some v.2)⟩, ?_, hlen, ?_, ?_, ?_⟩
  · simp only [indexMapping, ← hfil, hnoerr, hc, hw]
    simp
  · rw [List.length_map, hcount, hsum]
  · rw [List.length_map, hcount, hsum]
  · intro i name hi
    have hname : name ∈ names := List.mem_of_getElem? hi
    refine ⟨?_, ?_⟩
    · rw [hmask', List.getElem?_map, hi, Option.map_some, hff name hname]
    · simp only
      rw [List.zip_map', hmask']
      rw [rows_of_owner names (fun n => (dictGet data n).getD []) (fun v => (some (v.1 : Int), some v.2))
        (fun n => (filtered.filter (fun e => decide (e.heliostat = n))).length) (fun n _ => by rw [hdata', List.length_map]) i name hi]
      rw [hdata', hff name hname, List.map_map]
      apply List.map_congr_left
      intro e he
      have h := List.mem_filter.1 he
      obtain ⟨⟨t, ht⟩, _⟩ := hv e h.1 (by have : e.heliostat = name := by simpa using h.2
                                          rw [this]; exact hname)
      simp [value, ht]

/-- C29: an entry for a heliostat of the group with an unknown target or a rejected direction raises `ValueError`. -/
theorem C29_invalid_rejected {N D : Type} [DecidableEq N] (lightOk : D → Bool) (names : List N) (targetIndex : List (N × Nat))
    (mapping : List (Entry N D)) (e : Entry N D) (he : e ∈ mapping) (hg : e.heliostat ∈ names)
    (hbad : dictGet targetIndex e.target = none ∨ lightOk e.light = false) :
    indexMapping lightOk names targetIndex mapping = .error .valueError := by
  unfold indexMapping
  simp only
  rw [if_pos]
  refine List.any_eq_true.2 ⟨e, List.mem_filter.2 ⟨he, by simpa using hg⟩, ?_⟩
  rcases hbad with h | h <;> simp [h]

/-- C29: entries of other groups are ignored, even invalid ones. -/
theorem C29_other_groups_ignored {N D : Type} [DecidableEq N] (lightOk : D → Bool) (names : List N) (targetIndex : List (N × Nat))
    (m₁ m₂ : List (Entry N D)) (e : Entry N D) (h : e.heliostat ∉ names) :
    indexMapping lightOk names targetIndex (m₁ ++ e :: m₂) = indexMapping lightOk names targetIndex (m₁ ++ m₂) := by
  have : (m₁ ++ e :: m₂).filter (fun e => decide (e.heliostat ∈ names)) =
      (m₁ ++ m₂).filter (fun e => decide (e.heliostat ∈ names)) := by simp [List.filter_append, h]
  simp only [indexMapping, this]

/-- C29 without a mapping: every heliostat once, all with the given target and direction. -/
theorem C29_default {D : Type} (ok : D → Bool) (n numberOfTargets : Nat) (light : D) (target : Int) (hl : ok light = true)
    (ht : target < numberOfTargets) :
    ∃ r, defaultMapping ok n numberOfTargets light target = .ok r ∧ r.mask = List.replicate n 1 ∧
      r.targets = List.replicate n (some target) ∧ r.lights = List.replicate n (some light) := by
  refine ⟨⟨List.replicate n 1, List.replicate n (some target), List.replicate n (some light)⟩, ?_, rfl, rfl, rfl⟩
  simp only [defaultMapping, hl]
  rw [if_neg (by simp), if_neg (show ¬ target ≥ (numberOfTargets : Int) by omega)]

/-- A negative single target index is accepted although no target has it, also when there is no target at all: "invalid entries raise an error" fails for
the default mapping. -/
theorem C29_negative_index_accepted : ∃ r : Result Unit,
    defaultMapping (fun _ => true) 2 0 () (-1) = .ok r ∧ r.targets = [some (-1), some (-1)] := ⟨_, rfl, rfl⟩

/-- Distinct names are needed: with a repeated name the loop writes past the end (`IndexError`). -/
theorem C29_repeated_name_fails : indexMapping (N := Nat) (D := Nat) (fun _ => true) [7, 7] [(1, 0)] [⟨7, 1, 5⟩] = .error .indexError := by
  decide

/-- An accepted direction is a direction: its first three components have norm within 4e-4 of one. -/
theorem C29_accepted_light (d : List ℝ) (h : LightOk d) :
    |Real.sqrt ((d.take 3).map (· ^ 2)).sum - 1| ≤ 4 / 10 ^ 4 := by
  obtain ⟨hl, h3, hn⟩ := h
  match d, hl with
  | [a, b, c, e], _ =>
    simp only [allclose, List.getD_cons_succ, List.getD_cons_zero, sub_zero, abs_zero, mul_zero, add_zero, abs_one, mul_one] at h3 hn
    simp only [List.map_cons, List.map_nil, List.sum_cons, List.sum_nil, add_zero, List.take_succ_cons, List.take_zero] at hn ⊢
    set s := Real.sqrt (a ^ 2 + (b ^ 2 + (c ^ 2 + e ^ 2))) with hs
    set t := Real.sqrt (a ^ 2 + (b ^ 2 + c ^ 2)) with ht
    have hs2 : s ^ 2 = a ^ 2 + (b ^ 2 + (c ^ 2 + e ^ 2)) := Real.sq_sqrt (by positivity)
    have ht2 : t ^ 2 = a ^ 2 + (b ^ 2 + c ^ 2) := Real.sq_sqrt (by positivity)
    have ht0 : 0 ≤ t := Real.sqrt_nonneg _
    have hs0 : 0 ≤ s := Real.sqrt_nonneg _
    have he : e ^ 2 ≤ (1 / 10 ^ 2) ^ 2 := by rw [← sq_abs]; exact pow_le_pow_left₀ (abs_nonneg _) h3 2
    rw [abs_le] at hn ⊢
    constructor <;> nlinarith [sq_nonneg e]

/-- C29: which directions are accepted in a mapping: four components, the last at most 1e-2, the norm of all four within 2e-4 of one. -/
theorem C29_light_iff (d : List ℝ) : LightOk d ↔ ∃ e n u w, d = [e, n, u, w] ∧ |w| ≤ 1 / 100 ∧
    |Real.sqrt (e ^ 2 + n ^ 2 + u ^ 2 + w ^ 2) - 1| ≤ 2 / 10000 := by
  have key : ∀ e n u w : ℝ, LightOk [e, n, u, w] ↔ |w| ≤ 1 / 100 ∧ |Real.sqrt (e ^ 2 + n ^ 2 + u ^ 2 + w ^ 2) - 1| ≤ 2 / 10000 := by
    intro e n u w
    simp only [LightOk, allclose, List.length_cons, List.length_nil, List.getD_cons_succ, List.getD_cons_zero, sub_zero, abs_zero, mul_zero, add_zero, abs_one,
      mul_one, List.map_cons, List.map_nil, List.sum_cons, List.sum_nil, true_and]
    rw [show e ^ 2 + (n ^ 2 + (u ^ 2 + w ^ 2)) = e ^ 2 + n ^ 2 + u ^ 2 + w ^ 2 by ring, show (1 / 10 ^ 4 + 1 / 10 ^ 4 : ℝ) = 2 / 10000 by norm_num,
      show (1 / 10 ^ 2 : ℝ) = 1 / 100 by norm_num]
  constructor
  · intro h
    have hl := h.1
    match d, hl with
    | [e, n, u, w], _ => exact ⟨e, n, u, w, rfl, (key e n u w).1 h⟩
  · rintro ⟨e, n, u, w, rfl, h⟩
    exact (key e n u w).2 h

/-- C29: which directions are accepted without a mapping: four components, the last at most 1e-8, the norm of the first three within 1.001e-5 of one. -/
theorem C29_single_light_iff (d : List ℝ) : SingleLightOk d ↔ ∃ e n u w, d = [e, n, u, w] ∧ |w| ≤ 1 / 10 ^ 8 ∧
    |Real.sqrt (e ^ 2 + n ^ 2 + u ^ 2) - 1| ≤ 1001 / 10 ^ 8 := by
  have key : ∀ e n u w : ℝ, SingleLightOk [e, n, u, w] ↔ |w| ≤ 1 / 10 ^ 8 ∧ |Real.sqrt (e ^ 2 + n ^ 2 + u ^ 2) - 1| ≤ 1001 / 10 ^ 8 := by
    intro e n u w
    simp only [SingleLightOk, allclose, List.length_cons, List.length_nil, List.getD_cons_succ, List.getD_cons_zero, sub_zero, abs_zero, mul_zero, add_zero,
      abs_one, mul_one, List.map_cons, List.map_nil, List.sum_cons, List.sum_nil, true_and, List.take_succ_cons, List.take_zero]
    rw [show e ^ 2 + (n ^ 2 + u ^ 2) = e ^ 2 + n ^ 2 + u ^ 2 by ring, show (1 / 10 ^ 8 + 1 / 10 ^ 5 : ℝ) = 1001 / 10 ^ 8 by norm_num]
  constructor
  · intro h
    have hl := h.1
    match d, hl with
    | [e, n, u, w], _ => exact ⟨e, n, u, w, rfl, (key e n u w).1 h⟩
  · rintro ⟨e, n, u, w, rfl, h⟩
    exact (key e n u w).2 h

/-- Both kinds of direction exist, and the two checks differ. -/
example : SingleLightOk [0, 1, 0, 0] ∧ LightOk [0, 1.0001, 0, 0.001] ∧ ¬ SingleLightOk [0, 1.0001, 0, 0.001] := by
  refine ⟨(C29_single_light_iff _).2 ⟨0, 1, 0, 0, rfl, by norm_num, by norm_num⟩, (C29_light_iff _).2 ⟨0, 1.0001, 0, 0.001, rfl, by norm_num [abs_of_pos], ?_⟩, ?_⟩
  · rw [abs_le]
    constructor
    · linarith [Real.le_sqrt_of_sq_le (show (1 : ℝ) ^ 2 ≤ 0 ^ 2 + 1.0001 ^ 2 + 0 ^ 2 + 0.001 ^ 2 by norm_num)]
    · linarith [Real.sqrt_le_iff.2 ⟨by norm_num, (show (0 : ℝ) ^ 2 + 1.0001 ^ 2 + 0 ^ 2 + 0.001 ^ 2 ≤ 1.0002 ^ 2 by norm_num)⟩]
  · rintro ⟨-, h, -⟩
    norm_num [allclose, abs_of_pos] at h

/-- an interleaved mapping with a foreign entry that meets the hypotheses of `C29_faithful`, and its translation -/
example : indexMapping (N := Nat) (D := Nat) (fun _ => true) [1, 2, 3] [(8, 0), (9, 1)]
    [⟨3, 8, 100⟩, ⟨1, 9, 200⟩, ⟨5, 0, 0⟩, ⟨3, 9, 300⟩] =
    .ok ⟨[1, 0, 2], [some 1, some 0, some 1], [some 200, some 100, some 300]⟩ := by decide
/-- a direction that meets the hypothesis of `C29_accepted_light` -/
example : LightOk [0, 1, 0, 0] := by
  refine ⟨rfl, ?_, ?_⟩ <;> norm_num [allclose]

end Artist.Mapping
