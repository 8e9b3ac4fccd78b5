import Verif.Proofs.Tower
import Mathlib.Data.Rat.Defs
import Mathlib.Algebra.Field.Rat
/-! # C30: names, indices and centers of target areas (`artist/field/solar_tower.py`) -/
namespace Artist.Tower
open Artist

/-- C30, for any list of kinds of target areas with distinct names: the index of a name is its position in the concatenation of
all names, every index has exactly one location, and the area at that location carries the name with that index. -/
theorem C30_index_maps {N A : Type} [DecidableEq N] (types : List (Areas N A)) (hn : (types.flatMap (·.names)).Nodup) :
    (∀ name k, dictGet (nameToIndex types) name = some k ↔ (types.flatMap (·.names))[k]? = some name) ∧
    (indexToArea types).length = (types.flatMap (·.names)).length ∧
    (∀ name k, dictGet (nameToIndex types) name = some k →
      ∃ t i a, (indexToArea types)[k]? = some (t, i) ∧ types[t]? = some a ∧ a.names[i]? = some name) := by
  refine ⟨fun name k => nameToIndexFrom_iff _ hn name k, indexToArea_length types 0, ?_⟩
  intro name k h
  have hk := (nameToIndexFrom_iff _ hn name k).1 h
  obtain ⟨hlt, _⟩ := List.getElem?_eq_some_iff.1 hk
  have hlt' : k < (indexToArea types).length := by
    have := indexToArea_length types 0
    unfold indexToArea; omega
  obtain ⟨a, _, h2, _, h4⟩ := indexToArea_from types 0 k _ _ (List.getElem?_eq_getElem hlt')
  exact ⟨_, _, a, List.getElem?_eq_getElem hlt', by simpa using h2, by rw [h4, hk]⟩

/-- C30 for planar areas: name, index, location and reported center belong to the same area. -/
theorem C30_planar {N K : Type} [DecidableEq N] [Field K] (planar : Areas N (Planar K)) (cyl : Areas N (Cylinder K))
    (hn : (planar.names ++ cyl.names).Nodup) (i : Nat) (name : N) (p : Planar K)
    (hname : planar.names[i]? = some name) (hp : planar.rows[i]? = some p) :
    dictGet (towerNames planar cyl) name = some i ∧ (towerAreas planar cyl)[i]? = some (0, i) ∧
    ∃ c, center planar cyl i = .ok c ∧ c 0 = p.center 0 ∧ c 1 = p.center 1 ∧ c 2 = p.center 2 ∧ c 3 = 1 := by
  obtain ⟨hlt, _⟩ := List.getElem?_eq_some_iff.1 hname
  refine ⟨?_, ?_, ?_⟩
  · refine (nameToIndexFrom_iff _ (by simpa using hn) name i).2 ?_
    simp only [List.flatMap_cons, List.flatMap_nil, List.append_nil]
    rw [List.getElem?_append_left hlt, hname]
  · simp only [towerAreas, indexToArea, List.zipIdx_cons, List.flatMap_cons]
    rw [List.getElem?_append_left (by simpa using hlt)]
    simp [hlt]
  · refine ⟨fun j => if j = 3 then 1 else p.center j, ?_, by simp, by simp, by simp, by simp⟩
    simp only [center]
    rw [if_pos (by omega), pyIndex_nat _ _ _ hp]

/-- C30 for cylindrical areas: their indices follow the planar ones, and the reported center is the point of the surface at
distance `radius` from the axis point in the direction of the (unit) normal. -/
theorem C30_cylindrical {N K : Type} [DecidableEq N] [Field K] (planar : Areas N (Planar K)) (cyl : Areas N (Cylinder K))
    (hn : (planar.names ++ cyl.names).Nodup) (j : Nat) (name : N) (y : Cylinder K)
    (hname : cyl.names[j]? = some name) (hy : cyl.rows[j]? = some y) :
    dictGet (towerNames planar cyl) name = some (planar.names.length + j) ∧
    (towerAreas planar cyl)[planar.names.length + j]? = some (1, j) ∧
    ∃ c, center planar cyl ((planar.names.length + j : Nat) : Int) = .ok c ∧ c 3 = 1 ∧
      (∀ k : Fin 4, k ≠ 3 → c k - y.center k = y.radius * y.normal k) ∧
      (y.normal 0 ^ 2 + y.normal 1 ^ 2 + y.normal 2 ^ 2 = 1 →
        (c 0 - y.center 0) ^ 2 + (c 1 - y.center 1) ^ 2 + (c 2 - y.center 2) ^ 2 = y.radius ^ 2) := by
  obtain ⟨hlt, _⟩ := List.getElem?_eq_some_iff.1 hname
  refine ⟨?_, ?_, ?_⟩
  · refine (nameToIndexFrom_iff _ (by simpa using hn) name _).2 ?_
    simp only [List.flatMap_cons, List.flatMap_nil, List.append_nil]
    rw [List.getElem?_append_right (by omega), Nat.add_sub_cancel_left, hname]
  · simp only [towerAreas, indexToArea, List.zipIdx_cons, List.flatMap_cons]
    rw [List.getElem?_append_right (by simp), List.getElem?_append_left (by simpa using hlt)]
    simp [hlt]
  · refine ⟨fun k => if k = 3 then 1 else y.center k + y.radius * y.normal k, ?_, by simp, ?_, ?_⟩
    · simp only [center]
      rw [if_neg (by omega)]
      have : ((planar.names.length + j : Nat) : Int) - (planar.names.length : Int) = (j : Int) := by push_cast; ring
      rw [this, pyIndex_nat _ _ _ hy]
    · intro k hk; simp [hk]
    · intro h
      simp only [show ((0 : Fin 4) = 3) = False by simp, show ((1 : Fin 4) = 3) = False by simp,
        show ((2 : Fin 4) = 3) = False by simp, if_false]
      linear_combination y.radius ^ 2 * h

/-- C30, an index past the last area raises `IndexError`. -/
theorem C30_out_of_range {N K : Type} [Field K] (planar : Areas N (Planar K)) (cyl : Areas N (Cylinder K))
    (hc : cyl.rows.length = cyl.names.length) (index : Int)
    (h : (planar.names.length + cyl.names.length : Nat) ≤ index) : center planar cyl index = .error .indexError := by
  simp only [center]
  rw [if_neg (by omega), pyIndex_out _ _ (by omega)]

/-- A negative index is not rejected: `-1` silently means the last planar area, although cylindrical areas come last. -/
theorem C30_negative_index {N K : Type} [Field K] (planar : Areas N (Planar K)) (cyl : Areas N (Cylinder K))
    (p : Planar K) (hp : planar.rows.getLast? = some p) :
    ∃ c, center planar cyl (-1) = .ok c ∧ c 0 = p.center 0 ∧ c 1 = p.center 1 ∧ c 2 = p.center 2 ∧ c 3 = 1 := by
  refine ⟨fun j => if j = 3 then 1 else p.center j, ?_, by simp, by simp, by simp, by simp⟩
  have hne : planar.rows ≠ [] := by intro h; simp [h] at hp
  have hpos := List.length_pos_iff.2 hne
  have : pyIndex planar.rows (-1) = .ok p := by
    have hj : (if (-1 : Int) < 0 then -1 + (planar.rows.length : Int) else -1) = -1 + planar.rows.length := if_pos (by decide)
    simp only [pyIndex, hj]
    rw [if_neg (show ¬ (-1 : Int) + planar.rows.length < 0 by omega)]
    have e : ((-1 : Int) + planar.rows.length).toNat = planar.rows.length - 1 := by omega
    rw [e, ← List.getLast?_eq_getElem?, hp]
  simp only [center]
  rw [if_pos (by omega), this]

/-- two planar and one cylindrical area: distinct names, one row per name -/
def samplePlanar : Areas String (Planar ℚ) := ⟨["a", "b"], [⟨![1, 2, 3, 1]⟩, ⟨![4, 5, 6, 1]⟩]⟩
/-- the cylindrical area of the sample tower -/
def sampleCyl : Areas String (Cylinder ℚ) := ⟨["c"], [⟨![0, 0, 10, 1], ![0, -1, 0, 0], 2⟩]⟩

example : (samplePlanar.names ++ sampleCyl.names).Nodup := by decide
example : dictGet (towerNames samplePlanar sampleCyl) "c" = some 2 ∧ (towerAreas samplePlanar sampleCyl)[2]? = some (1, 0) := by
  decide
example : (match center samplePlanar sampleCyl 2 with | .ok c => some (c 0, c 1, c 2, c 3) | .error _ => none)
    = some (0, -2, 10, 1) := by decide +kernel
/-- without cylindrical areas the tables are those of the planar ones -/
example : (towerAreas samplePlanar (⟨[], []⟩ : Areas String (Cylinder ℚ))) = [(0, 0), (0, 1)] := by decide

end Artist.Tower
