import Verif.Proofs.Deflectometry
/-! Property C79: fitted surfaces use measured points together with their own normals. -/
namespace Artist.Deflectometry
open Artist
variable {V : Type}

/-- The facets of a file: facet `i` (from zero) is the group with the number `i + 1`. -/
def HasFacets (pre : String) (file : List (String × Measured V)) (facets : List (Measured V)) : Prop :=
  ∀ (i : Nat) (m : Measured V), facets[i]? = some m → dictGet file (pre ++ toString (i + 1)) = some m

/-- Evaluation for any file in which no facet has more normals than points. -/
theorem fittedData_ok (pre : String) (file : List (String × Measured V)) (facets : List (Measured V)) (h : HasFacets pre file facets)
    (hne : facets ≠ []) (hle : ∀ m ∈ facets, m.normals.length ≤ m.points.length) (step : Nat) (hs : 0 < step) :
    ∃ M, (∃ m ∈ facets, m.points.length = M) ∧ (∀ m ∈ facets, M ≤ m.points.length) ∧
      fittedData pre file facets.length step = .ok (facets.map fun m => (everyNth step ((m.points.map some).take M),
        everyNth step ((m.normals.map some ++ List.replicate (m.points.length - m.normals.length) none).take M))) := by
  have hx : extract pre file facets.length = .ok (facets.map fun m => (m.points.map some,
      m.normals.map some ++ List.replicate (m.points.length - m.normals.length) none)) := by
    refine extractFrom_ok pre file _ facets 0 ?_
    intro i m hi
    refine ⟨by simpa using h i m hi, extractFacet_ok m (hle m (List.mem_of_getElem? hi))⟩
  obtain ⟨M, hM, hmem, hmin⟩ := minimum_ok (facets.map fun m => m.points.length) (by simpa using hne)
  obtain ⟨m0, hm0, hM0⟩ := List.mem_map.1 hmem
  refine ⟨M, ⟨m0, hm0, hM0⟩, fun m hm => hmin _ (List.mem_map.2 ⟨m, hm, rfl⟩), ?_⟩
  unfold fittedData
  rw [hx]
  simp only
  unfold fitData reduce
  have e1 : ((facets.map fun m => (m.points.map some, m.normals.map some ++ List.replicate (m.points.length - m.normals.length) none)).map
      Prod.fst).map List.length = facets.map fun m => m.points.length := by
    rw [List.map_map, List.map_map]
    apply List.map_congr_left
    intro m _
    simp
  have e2 : ((facets.map fun m => (m.points.map some, m.normals.map some ++ List.replicate (m.points.length - m.normals.length) none)).map
      Prod.snd).map List.length = facets.map fun m => m.points.length := by
    rw [List.map_map, List.map_map]
    apply List.map_congr_left
    intro m hm
    have := hle m hm
    simp
    omega
  rw [e1, e2, hM]
  simp only
  rw [if_neg (by omega), if_neg (by omega)]
  simp only
  rw [List.map_map, List.map_map, List.map_map, List.map_map, List.zip_map']
  rfl

/-- C79 for files in which every point has a normal: the fit of every facet uses the measured points with the numbers `0, step, 2 step, ...` below the
smallest number of points `M` of any facet, each together with the normal measured at that point.  Missing from the full statement: files without a
normal for every point (`C79_undefined_normals`, `C79_more_normals`) and coverage of facets with more points than the smallest (`C79_end_not_used`). -/
theorem C79_pairs_partial (pre : String) (file : List (String × Measured V)) (facets : List (Measured V)) (h : HasFacets pre file facets)
    (hne : facets ≠ []) (heq : ∀ m ∈ facets, m.normals.length = m.points.length) (step : Nat) (hs : 0 < step) :
    ∃ M out, (∃ m ∈ facets, m.points.length = M) ∧ (∀ m ∈ facets, M ≤ m.points.length) ∧
      fittedData pre file facets.length step = .ok out ∧ out.length = facets.length ∧
      ∀ (i : Nat) (m : Measured V), facets[i]? = some m → ∃ points normals, out[i]? = some (points, normals) ∧
        (∀ k, k < points.length ↔ k * step < M) ∧ normals.length = points.length ∧
        ∀ k, k < points.length → ∃ p n, m.points[k * step]? = some p ∧ m.normals[k * step]? = some n ∧
          points[k]? = some (some p) ∧ normals[k]? = some (some n) := by
  obtain ⟨M, h1, h2, h3⟩ := fittedData_ok pre file facets h hne (fun m hm => Nat.le_of_eq (heq m hm)) step hs
  refine ⟨M, _, h1, h2, h3, by simp, ?_⟩
  intro i m hi
  have hm := List.mem_of_getElem? hi
  have hl := heq m hm
  have hM := h2 m hm
  rw [List.getElem?_map, hi]
  refine ⟨_, _, rfl, ?_, ?_, ?_⟩
  · intro k
    rw [(everyNth_eq step hs _).1, ceil_lt _ _ _ hs]
    simp [Nat.min_eq_left hM]
  · rw [(everyNth_eq step hs _).1, (everyNth_eq step hs _).1]
    simp [hl]
  · intro k hk
    rw [(everyNth_eq step hs _).1, ceil_lt _ _ _ hs] at hk
    simp only [List.length_take, List.length_map, Nat.min_eq_left hM] at hk
    have a1 : k * step < m.points.length := by omega
    have a2 : k * step < m.normals.length := by omega
    refine ⟨m.points[k * step], m.normals[k * step], List.getElem?_eq_getElem a1, List.getElem?_eq_getElem a2, ?_, ?_⟩
    · rw [(everyNth_eq step hs _).2, List.getElem?_take_of_lt hk, List.getElem?_map, List.getElem?_eq_getElem a1]; rfl
    · rw [(everyNth_eq step hs _).2, List.getElem?_take_of_lt hk, hl, Nat.sub_self, List.replicate_zero, List.append_nil, List.getElem?_map,
        List.getElem?_eq_getElem a2]; rfl

/-- C79 is false for files in which a facet has fewer normals than points: the facet is accepted, and every selected point beyond its last normal is
fitted to an undefined normal. -/
theorem C79_undefined_normals (pre : String) (file : List (String × Measured V)) (facets : List (Measured V)) (h : HasFacets pre file facets)
    (hle : ∀ m ∈ facets, m.normals.length ≤ m.points.length) (step : Nat) (hs : 0 < step)
    (i : Nat) (m : Measured V) (hi : facets[i]? = some m) (k : Nat) (hk : m.normals.length ≤ k * step)
    (hall : ∀ m' ∈ facets, k * step < m'.points.length) :
    ∃ out points normals, fittedData pre file facets.length step = .ok out ∧ out[i]? = some (points, normals) ∧
      points[k]? = some (m.points[k * step]?) ∧ normals[k]? = some none := by
  have hm := List.mem_of_getElem? hi
  obtain ⟨M, ⟨m0, hm0, hM0⟩, h2, h3⟩ := fittedData_ok pre file facets h (List.ne_nil_of_mem hm) hle step hs
  have hM : k * step < M := by rw [← hM0]; exact hall m0 hm0
  have a1 : k * step < m.points.length := hall m hm
  refine ⟨_, _, _, h3, by rw [List.getElem?_map, hi]; rfl, ?_, ?_⟩
  · rw [(everyNth_eq step hs _).2, List.getElem?_take_of_lt hM, List.getElem?_map, List.getElem?_eq_getElem a1]; rfl
  · rw [(everyNth_eq step hs _).2, List.getElem?_take_of_lt hM, List.getElem?_append_right (by simpa using hk), List.getElem?_replicate,
      if_pos (by simp; omega)]

/-- C79: a facet with more normals than points is rejected. -/
theorem C79_more_normals (pre : String) (file : List (String × Measured V)) (n step i : Nat) (hi : i < n) (m : Measured V)
    (hm : dictGet file (pre ++ toString (i + 1)) = some m) (hl : m.points.length < m.normals.length) :
    ∃ e, fittedData pre file n step = .error e := by
  obtain ⟨e, he⟩ := extractFrom_fails pre file n 0 i m hi (by simpa using hm) hl
  refine ⟨e, ?_⟩
  unfold fittedData extract
  rw [he]

/-- C79 is false for facets with more points than the smallest facet: whatever the step, only points with
numbers below the number of points of the smallest facet are used. -/
theorem C79_end_not_used (pre : String) (file : List (String × Measured V)) (facets : List (Measured V)) (h : HasFacets pre file facets)
    (heq : ∀ m ∈ facets, m.normals.length = m.points.length) (step : Nat) (hs : 0 < step) (small : Measured V) (hsm : small ∈ facets)
    (i : Nat) (m : Measured V) (hi : facets[i]? = some m) :
    ∃ out points normals, fittedData pre file facets.length step = .ok out ∧ out[i]? = some (points, normals) ∧
      ∀ p ∈ points, ∃ j, j < small.points.length ∧ p = m.points[j]? := by
  obtain ⟨M, out, -, h2, h3, -, h5⟩ := C79_pairs_partial pre file facets h (List.ne_nil_of_mem hsm) heq step hs
  obtain ⟨points, normals, a1, a2, -, a4⟩ := h5 i m hi
  refine ⟨out, points, normals, h3, a1, ?_⟩
  intro p hp
  obtain ⟨k, hk⟩ := List.getElem?_of_mem hp
  have hkl := (List.getElem?_eq_some_iff.1 hk).1
  obtain ⟨q, n, b1, -, b3, -⟩ := a4 k hkl
  refine ⟨k * step, lt_of_lt_of_le ((a2 k).1 hkl) (h2 small hsm), ?_⟩
  rw [b1]
  rw [hk] at b3
  exact Option.some.inj b3

/-- Two facets with five and three points, every second point: numbers 0 and 2 of both; the last two points of the first facet are not used. -/
example : fittedData "facet" [("facet1", ⟨[10, 11, 12, 13, 14], [20, 21, 22, 23, 24]⟩), ("facet2", ⟨[30, 31, 32], [40, 41, 42]⟩)] 2 2 =
    .ok [([some 10, some 12], [some 20, some 22]), ([some 30, some 32], [some 40, some 42])] := by decide +kernel

/-- One normal is missing. -/
example : fittedData "facet" [("facet1", ⟨[10, 11, 12], [20, 21]⟩)] 1 1 =
    .ok [([some 10, some 11, some 12], [some 20, some 21, none])] := by decide +kernel

end Artist.Deflectometry
