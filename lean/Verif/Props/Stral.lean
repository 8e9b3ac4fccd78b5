import Verif.Proofs.Stral
/-! Property C78: STRAL files are read as they were written. -/
namespace Artist.Stral

/-- C78 for complete files (followed by anything): the reader returns for every facet, in the order of the file, its position, its canting vectors,
and for every point its position and normal; nothing is undefined. -/
theorem C78_roundtrip (s : StralFormat.Surface) (h : StralFormat.Writable s) (rest : List Byte) :
    ∃ out, extract (StralFormat.file s ++ rest) = .ok out ∧ out.length = s.facets.length ∧
      ∀ (i : Nat) (f : StralFormat.Facet), s.facets[i]? = some f → ∃ g, out[i]? = some g ∧
        g.translation = [f.position.x, f.position.y, f.position.z, 0] ∧
        g.canting = [[f.cantingE.x, f.cantingE.y, f.cantingE.z, 0], [f.cantingN.x, f.cantingN.y, f.cantingN.z, 0]] ∧
        g.points = f.points.map (fun p => some [p.position.x, p.position.y, p.position.z]) ∧
        g.normals = f.points.map (fun p => some [p.normal.x, p.normal.y, p.normal.z]) := by
  obtain ⟨h1, h2⟩ := h
  refine ⟨s.facets.map (fun f => got f f.points.length), ?_, by simp, ?_⟩
  · unfold StralFormat.file
    rw [List.append_assoc, extract_head, ← h1, readFacets_whole s.facets h2]
  · intro i f hf
    refine ⟨got f f.points.length, by rw [List.getElem?_map, hf]; rfl, rfl, rfl, ?_, ?_⟩ <;> simp [got]

/-- C78: which incomplete files are rejected.  A file cut off after `m` bytes is read without an error exactly if the cut is between two points, or
before the first point, of the last facet. -/
theorem C78_cut_off (s : StralFormat.Surface) (h : StralFormat.Writable s) (m : Nat) (hm : m < (StralFormat.file s).length) :
    (extract ((StralFormat.file s).take m) = .error .structError) ↔
      ¬ ∃ last k, s.facets.getLast? = some last ∧ k < last.points.length ∧
        m + 28 * (last.points.length - k) = (StralFormat.file s).length := by
  obtain ⟨h1, h2⟩ := h
  have hlen : (StralFormat.file s).length = 36 + (s.facets.flatMap StralFormat.facet).length := by
    rw [StralFormat.file, List.length_append, head_length]
  by_cases h36 : m < 36
  · constructor
    · rintro - ⟨last, k, hl, hk, he⟩
      have : 44 + 28 * last.points.length ≤ (s.facets.flatMap StralFormat.facet).length := by
        obtain ⟨init, hi⟩ := List.getLast?_eq_some_iff.1 hl
        rw [hi, List.flatMap_append, List.length_append]
        simp [facet_length]
      omega
    · intro _
      unfold extract unpackFrom
      rw [if_pos (by rw [List.length_take, List.length_take]; omega)]
  · have e : (StralFormat.file s).take m = StralFormat.head s ++ (s.facets.flatMap StralFormat.facet).take (m - 36) := by
      rw [StralFormat.file, List.take_append, head_length, List.take_of_length_le (by rw [head_length]; omega)]
    rw [e, extract_head, ← h1, hlen]
    rcases readFacets_cut s.facets h2 (m - 36) (by omega) with ⟨init, last, k, a1, a2, a3, a4⟩ | ⟨a1, a2⟩
    · rw [a4]
      refine ⟨fun hc => (by cases hc), fun hc => absurd ⟨last, k, ?_, a2, by omega⟩ hc⟩
      rw [a1]; simp
    · rw [a2]
      refine ⟨fun _ => ?_, fun _ => rfl⟩
      rintro ⟨last, k, hl, hk, he⟩
      obtain ⟨init, hi⟩ := List.getLast?_eq_some_iff.1 hl
      exact a1 init last k hi hk (by omega)

/-- C78 is false for files that were cut off between two points of the last facet: they are read without an error, and the missing points and normals
are returned as undefined numbers. -/
theorem C78_undefined_points (s : StralFormat.Surface) (h : StralFormat.Writable s) (last : StralFormat.Facet) (k : Nat)
    (hl : s.facets.getLast? = some last) (hk : k < last.points.length) :
    ∃ out g, extract ((StralFormat.file s).take ((StralFormat.file s).length - 28 * (last.points.length - k))) = .ok out ∧
      out.getLast? = some g ∧ g.points.length = last.points.length ∧
      ∀ i, k ≤ i → i < last.points.length → g.points[i]? = some none ∧ g.normals[i]? = some none := by
  obtain ⟨h1, h2⟩ := h
  have hlen : (StralFormat.file s).length = 36 + (s.facets.flatMap StralFormat.facet).length := by
    rw [StralFormat.file, List.length_append, head_length]
  obtain ⟨init, hi⟩ := List.getLast?_eq_some_iff.1 hl
  have hlast : 44 + 28 * last.points.length ≤ (s.facets.flatMap StralFormat.facet).length := by
    rw [hi, List.flatMap_append, List.length_append]
    simp [facet_length]
  generalize hm : (StralFormat.file s).length - 28 * (last.points.length - k) = m
  have e : (StralFormat.file s).take m = StralFormat.head s ++ (s.facets.flatMap StralFormat.facet).take (m - 36) := by
    rw [StralFormat.file, List.take_append, head_length, List.take_of_length_le (by rw [head_length]; omega)]
  rw [e, extract_head, ← h1]
  rcases readFacets_cut s.facets h2 (m - 36) (by omega) with ⟨init', last', k', a1, a2, a3, a4⟩ | ⟨a1, a2⟩
  · rw [a4]
    have hll : last' = last := by
      have := hi ▸ a1
      exact (List.append_inj' this rfl).2 |> List.cons.inj |>.1.symm
    subst hll
    have hkk : k' = k := by omega
    subst hkk
    refine ⟨_, got last' k', rfl, by simp, by simp [got]; omega, ?_⟩
    intro i hi1 hi2
    unfold got
    constructor
    · rw [List.getElem?_append_right (by simp; omega), List.getElem?_replicate, if_pos (by simp; omega)]
    · rw [List.getElem?_append_right (by simp; omega), List.getElem?_replicate, if_pos (by simp; omega)]
  · exact absurd (by omega) (a1 init last k hi hk)

/-- One facet with two points. -/
def sample : StralFormat.Surface :=
  ⟨(1, 2, 3, 4, 5), 1, 1, (6, 7), [⟨0, ⟨10, 11, 12⟩, ⟨20, 21, 22⟩, ⟨30, 31, 32⟩,
    [⟨⟨0x3f800000, 41, 42⟩, ⟨43, 44, 45⟩, 46⟩, ⟨⟨50, 51, 52⟩, ⟨53, 54, 55⟩, 56⟩]⟩]⟩

example : StralFormat.Writable sample := by unfold StralFormat.Writable; decide

example : extract (StralFormat.file sample) = .ok [⟨[10, 11, 12, 0], [[20, 21, 22, 0], [30, 31, 32, 0]],
    [some [0x3f800000, 41, 42], some [50, 51, 52]], [some [43, 44, 45], some [53, 54, 55]]⟩] := by decide +kernel

/-- Without the last 28 bytes the second point is undefined; without the last 27 bytes the file is rejected. -/
example : (StralFormat.file sample).length = 136 ∧
    extract ((StralFormat.file sample).take 108) = .ok [⟨[10, 11, 12, 0], [[20, 21, 22, 0], [30, 31, 32, 0]],
      [some [0x3f800000, 41, 42], none], [some [43, 44, 45], none]⟩] ∧
    extract ((StralFormat.file sample).take 109) = .error .structError := by decide +kernel

end Artist.Stral
