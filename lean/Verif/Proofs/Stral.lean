import Verif.Model.Stral
import Verif.Spec.Stral
import Mathlib.Tactic.Linarith
/-! Helper lemmas for C78. -/
namespace Artist.Stral

theorem word_number (w : Word) (rest : List Byte) :
    words (StralFormat.number w ++ rest) = w :: words rest := by
  have h : word (w.extractLsb' 0 8) (w.extractLsb' 8 8) (w.extractLsb' 16 8) (w.extractLsb' 24 8) = w := by
    unfold word
    apply BitVec.eq_of_getLsbD_eq
    intro i hi
    simp only [BitVec.getLsbD_append, BitVec.getLsbD_extractLsb']
    by_cases h1 : i < 8
    · simp [h1]
    by_cases h2 : i - 8 < 8
    · simp [h1, h2, show 8 + (i - 8) = i by omega]
    by_cases h3 : i - 8 - 8 < 8
    · simp [h1, h2, h3, show 16 + (i - 8 - 8) = i by omega]
    have h4 : i - 8 - 8 - 8 < 8 := by omega
    simp [h1, h2, h3, h4, show 24 + (i - 8 - 8 - 8) = i by omega]
  simp only [StralFormat.number, List.cons_append, List.nil_append, words, h]

open StralFormat (number vector point facet)

theorem words_numbers (ws : List Word) : words (ws.flatMap number) = ws := by
  induction ws with
  | nil => rfl
  | cons w ws ih => rw [List.flatMap_cons, word_number, ih]

theorem length_numbers (ws : List Word) : (ws.flatMap number).length = 4 * ws.length := by
  induction ws with
  | nil => rfl
  | cons w ws ih => rw [List.flatMap_cons, List.length_append, ih, List.length_cons]; simp [number]; omega

/-- The numbers of one point. -/
def pointWords (p : StralFormat.Point) : List Word :=
  [p.position.x, p.position.y, p.position.z, p.normal.x, p.normal.y, p.normal.z, p.extra]

/-- The numbers of the header of a facet. -/
def headWords (f : StralFormat.Facet) : List Word :=
  [f.identifier, f.position.x, f.position.y, f.position.z, f.cantingE.x, f.cantingE.y, f.cantingE.z, f.cantingN.x, f.cantingN.y,
    f.cantingN.z, BitVec.ofNat 32 f.points.length]

theorem point_eq (p : StralFormat.Point) : point p = (pointWords p).flatMap number := by
  simp [point, vector, pointWords]

theorem facet_eq (f : StralFormat.Facet) : facet f = (headWords f).flatMap number ++ f.points.flatMap point := by
  simp [facet, vector, headWords]

theorem point_length (p : StralFormat.Point) : (point p).length = 28 := by
  rw [point_eq, length_numbers]; rfl

theorem points_length (ps : List StralFormat.Point) : (ps.flatMap point).length = 28 * ps.length := by
  induction ps with
  | nil => rfl
  | cons p ps ih => rw [List.flatMap_cons, List.length_append, ih, point_length, List.length_cons]; omega

theorem facet_length (f : StralFormat.Facet) : (facet f).length = 44 + 28 * f.points.length := by
  rw [facet_eq, List.length_append, length_numbers, points_length]; rfl

theorem points_groups (ps : List StralFormat.Point) : groups (words (ps.flatMap point)) = ps.map pointWords := by
  have h : ps.flatMap point = (ps.flatMap pointWords).flatMap number := by
    rw [List.flatMap_assoc, show point = fun p => (pointWords p).flatMap number from funext point_eq]
  rw [h, words_numbers]
  clear h
  induction ps with
  | nil => rfl
  | cons p ps ih =>
    simp only [List.flatMap_cons, pointWords, List.cons_append, List.nil_append, groups, List.map_cons] at ih ⊢
    rw [ih]

theorem points_take (ps : List StralFormat.Point) (k : Nat) : (ps.flatMap point).take (28 * k) = (ps.take k).flatMap point := by
  induction ps generalizing k with
  | nil => simp
  | cons p ps ih =>
    cases k with
    | zero => simp
    | succ k =>
      rw [List.flatMap_cons, List.take_succ_cons, List.flatMap_cons, List.take_append, List.take_of_length_le (by rw [point_length]; omega),
        point_length, show 28 * (k + 1) - 28 = 28 * k by omega, ih]

/-- What the reader returns for a facet of which the first `k` points could be read. -/
def got (f : StralFormat.Facet) (k : Nat) : Facet where
  translation := [f.position.x, f.position.y, f.position.z, 0]
  canting := [[f.cantingE.x, f.cantingE.y, f.cantingE.z, 0], [f.cantingN.x, f.cantingN.y, f.cantingN.z, 0]]
  points := (f.points.take k).map (fun p => some [p.position.x, p.position.y, p.position.z]) ++ List.replicate (f.points.length - k) none
  normals := (f.points.take k).map (fun p => some [p.normal.x, p.normal.y, p.normal.z]) ++ List.replicate (f.points.length - k) none

theorem range_fill {α β : Type} (l : List α) (g : α → β) (n k : Nat) (hk : k ≤ n) (hl : l.length = k) :
    (List.range n).map (fun i => l[i]?.map g) = l.map (fun x => some (g x)) ++ List.replicate (n - k) none := by
  apply List.ext_getElem?
  intro i
  rw [List.getElem?_map]
  by_cases hi : i < n
  · rw [List.getElem?_range hi]
    by_cases h : i < k
    · rw [List.getElem?_append_left (by simp; omega)]
      simp [List.getElem?_eq_getElem (show i < l.length by omega)]
    · have e : l[i]? = none := List.getElem?_eq_none (by omega)
      rw [List.getElem?_append_right (by simp; omega), List.getElem?_replicate, if_pos (by simp; omega)]
      simp [e]
  · rw [List.getElem?_eq_none (by simp; omega), List.getElem?_eq_none (by simp; omega)]
    rfl

/-- Reading a facet whose header is complete. -/
theorem readFacet_head (f : StralFormat.Facet) (h : f.points.length < 2 ^ 32) (body : List Byte) :
    readFacet ((headWords f).flatMap number ++ body) =
      match iterUnpack (body.take (28 * f.points.length)) with
      | .error e => .error e
      | .ok pd => .ok ({ got f 0 with
          points := (List.range f.points.length).map (fun i => pd[i]?.map (fun d => slice d 0 3))
          normals := (List.range f.points.length).map (fun i => pd[i]?.map (fun d => slice d 3 6)) }, body.drop (28 * f.points.length)) := by
  have hl : ((headWords f).flatMap number).length = 44 := by rw [length_numbers]; rfl
  have h1 : ((headWords f).flatMap number ++ body).take 44 = (headWords f).flatMap number := by
    rw [← hl, List.take_left]
  have h2 : ((headWords f).flatMap number ++ body).drop 44 = body := by
    rw [← hl, List.drop_left]
  have h3 : unpackFrom 11 ((headWords f).flatMap number) = .ok (headWords f) := by
    unfold unpackFrom
    rw [if_neg (by rw [hl]; omega), List.take_of_length_le (by rw [hl]), words_numbers]
  unfold readFacet
  rw [h1, h2, h3]
  have h4 : ((headWords f).getD 10 0).toNat = f.points.length := by
    show (BitVec.ofNat 32 f.points.length).toNat = _
    rw [BitVec.toNat_ofNat, Nat.mod_eq_of_lt h]
  simp only [h4]
  cases iterUnpack (body.take (28 * f.points.length)) <;> rfl

theorem iterUnpack_points (ps : List StralFormat.Point) : iterUnpack (ps.flatMap point) = .ok (ps.map pointWords) := by
  unfold iterUnpack
  rw [if_neg (by rw [points_length]; omega), points_groups]

theorem fill (f : StralFormat.Facet) (k : Nat) (hk : k ≤ f.points.length) :
    ({ got f 0 with
      points := (List.range f.points.length).map (fun i => ((f.points.take k).map pointWords)[i]?.map (fun d => slice d 0 3))
      normals := (List.range f.points.length).map (fun i => ((f.points.take k).map pointWords)[i]?.map (fun d => slice d 3 6)) } : Facet) =
      got f k := by
  unfold got
  simp only
  rw [range_fill _ _ _ k hk (by simp; omega), range_fill _ _ _ k hk (by simp; omega), List.map_map, List.map_map]
  rfl

/-- Reading a complete facet. -/
theorem readFacet_whole (f : StralFormat.Facet) (h : f.points.length < 2 ^ 32) (rest : List Byte) :
    readFacet (facet f ++ rest) = .ok (got f f.points.length, rest) := by
  rw [facet_eq, List.append_assoc, readFacet_head f h]
  have h1 : (f.points.flatMap point ++ rest).take (28 * f.points.length) = f.points.flatMap point := by
    rw [← points_length, List.take_left]
  have h2 : (f.points.flatMap point ++ rest).drop (28 * f.points.length) = rest := by
    rw [← points_length, List.drop_left]
  rw [h1, h2, iterUnpack_points]
  have := fill f f.points.length (le_refl _)
  rw [List.take_length] at this
  simp only [this]

/-- Reading a facet that is cut off. -/
theorem readFacet_cut (f : StralFormat.Facet) (h : f.points.length < 2 ^ 32) (m : Nat) (hm : m < (facet f).length) :
    (∃ k, k < f.points.length ∧ m = 44 + 28 * k ∧ readFacet ((facet f).take m) = .ok (got f k, [])) ∨
    ((∀ k, m ≠ 44 + 28 * k) ∧ readFacet ((facet f).take m) = .error .structError) := by
  rw [facet_length] at hm
  have hl : ((headWords f).flatMap number).length = 44 := by rw [length_numbers]; rfl
  by_cases h44 : m < 44
  · refine .inr ⟨fun k hk => by omega, ?_⟩
    unfold readFacet unpackFrom
    rw [if_pos (by rw [List.length_take, List.length_take, facet_length]; omega)]
  · have e : (facet f).take m = (headWords f).flatMap number ++ (f.points.flatMap point).take (m - 44) := by
      rw [facet_eq, List.take_append, hl, List.take_of_length_le (by rw [hl]; omega)]
    rw [e, readFacet_head f h, List.take_of_length_le (by rw [List.length_take, points_length]; omega)]
    by_cases hd : (m - 44) % 28 = 0
    · obtain ⟨k, hk⟩ : ∃ k, m - 44 = 28 * k := ⟨(m - 44) / 28, by omega⟩
      refine .inl ⟨k, by omega, by omega, ?_⟩
      rw [hk, points_take, iterUnpack_points]
      simp only [fill f k (by omega)]
      rw [List.drop_of_length_le (by rw [points_length, List.length_take]; omega)]
    · refine .inr ⟨fun k hk => hd (by omega), ?_⟩
      unfold iterUnpack
      rw [if_pos (by rw [List.length_take, points_length, Nat.min_eq_left (by omega)]; exact hd)]

theorem readFacets_whole (fs : List StralFormat.Facet) (h : ∀ f ∈ fs, f.points.length < 2 ^ 32) (rest : List Byte) :
    readFacets fs.length (fs.flatMap facet ++ rest) = .ok (fs.map (fun f => got f f.points.length)) := by
  induction fs with
  | nil => rfl
  | cons f fs ih =>
    rw [List.flatMap_cons, List.append_assoc, List.length_cons, readFacets, readFacet_whole f (h f (by simp))]
    simp only
    rw [ih (fun g hg => h g (by simp [hg]))]
    rfl

theorem readFacets_empty (n : Nat) : readFacets (n + 1) [] = .error .structError := rfl

theorem readFacets_cut (fs : List StralFormat.Facet) (h : ∀ f ∈ fs, f.points.length < 2 ^ 32) (m : Nat) (hm : m < (fs.flatMap facet).length) :
    (∃ init last k, fs = init ++ [last] ∧ k < last.points.length ∧ m + 28 * (last.points.length - k) = (fs.flatMap facet).length ∧
      readFacets fs.length ((fs.flatMap facet).take m) = .ok (init.map (fun f => got f f.points.length) ++ [got last k])) ∨
    ((∀ init last k, fs = init ++ [last] → k < last.points.length → m + 28 * (last.points.length - k) ≠ (fs.flatMap facet).length) ∧
      readFacets fs.length ((fs.flatMap facet).take m) = .error .structError) := by
  induction fs generalizing m with
  | nil => simp at hm
  | cons f fs ih =>
    have hf := h f (by simp)
    have hfs : ∀ g ∈ fs, g.points.length < 2 ^ 32 := fun g hg => h g (by simp [hg])
    rw [List.flatMap_cons, List.length_append] at hm
    by_cases hc : m < (facet f).length
    · have e : ((f :: fs).flatMap facet).take m = (facet f).take m := by
        rw [List.flatMap_cons, List.take_append, show m - (facet f).length = 0 by omega]; simp
      rw [e, List.length_cons, readFacets]
      rcases readFacet_cut f hf m hc with ⟨k, hk, hmk, hr⟩ | ⟨hk, hr⟩
      · rw [hr]
        cases fs with
        | nil =>
          refine .inl ⟨[], f, k, rfl, hk, ?_, rfl⟩
          simp [facet_length]; omega
        | cons g gs =>
          refine .inr ⟨?_, rfl⟩
          intro init last k' hi hk' he
          have hlast : 44 + 28 * last.points.length ≤ ((g :: gs).flatMap facet).length := by
            cases init with
            | nil => simp at hi
            | cons a init =>
              have : g :: gs = init ++ [last] := by simpa using (List.cons.inj hi).2
              rw [this, List.flatMap_append, List.length_append]
              simp [facet_length]
          rw [List.flatMap_cons, List.length_append] at he
          omega
      · rw [hr]
        refine .inr ⟨?_, rfl⟩
        intro init last k' hi hk' he
        rw [List.flatMap_cons, List.length_append] at he
        cases init with
        | nil =>
          have : f = last ∧ fs = [] := by simpa using hi
          obtain ⟨rfl, rfl⟩ := this
          rw [facet_length] at he
          simp at he
          exact hk k' (by omega)
        | cons a init =>
          have : fs = init ++ [last] := by simpa using (List.cons.inj hi).2
          have hlast : 44 + 28 * last.points.length ≤ (fs.flatMap facet).length := by
            rw [this, List.flatMap_append, List.length_append]
            simp [facet_length]
          omega
    · have e : ((f :: fs).flatMap facet).take m = facet f ++ (fs.flatMap facet).take (m - (facet f).length) := by
        rw [List.flatMap_cons, List.take_append, List.take_of_length_le (by omega)]
      rw [e, List.length_cons, readFacets, readFacet_whole f hf]
      simp only
      rcases ih hfs (m - (facet f).length) (by omega) with ⟨init, last, k, h1, h2, h3, h4⟩ | ⟨h1, h2⟩
      · rw [h4]
        refine .inl ⟨f :: init, last, k, by rw [h1]; rfl, h2, ?_, rfl⟩
        rw [List.flatMap_cons, List.length_append]; omega
      · rw [h2]
        refine .inr ⟨?_, rfl⟩
        intro init last k hi hk he
        cases init with
        | nil =>
          have : f = last ∧ fs = [] := by simpa using hi
          obtain ⟨rfl, rfl⟩ := this
          simp at hm
          omega
        | cons a init =>
          have : fs = init ++ [last] := by simpa using (List.cons.inj hi).2
          refine h1 init last k this hk ?_
          rw [List.flatMap_cons, List.length_append] at he
          omega

theorem head_eq (s : StralFormat.Surface) : StralFormat.head s =
    [s.header.1, s.header.2.1, s.header.2.2.1, s.header.2.2.2.1, s.header.2.2.2.2, s.facetsX, s.facetsY, s.more.1, s.more.2].flatMap number := by
  simp [StralFormat.head]

theorem head_length (s : StralFormat.Surface) : (StralFormat.head s).length = 36 := by
  rw [head_eq, length_numbers]; rfl

theorem extract_head (s : StralFormat.Surface) (body : List Byte) :
    extract (StralFormat.head s ++ body) = readFacets (s.facetsX.toNat * s.facetsY.toNat) body := by
  have h1 : (StralFormat.head s ++ body).take 36 = StralFormat.head s := by
    rw [← head_length s, List.take_left]
  have h2 : (StralFormat.head s ++ body).drop 36 = body := by
    rw [← head_length s, List.drop_left]
  unfold extract unpackFrom
  rw [h1, h2, if_neg (by rw [head_length]; omega), List.take_of_length_le (by rw [head_length]), head_eq, words_numbers]
  rfl

end Artist.Stral
