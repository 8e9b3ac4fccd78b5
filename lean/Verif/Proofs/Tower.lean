import Verif.Model.Tower
import Mathlib.Data.List.Nodup
import Mathlib.Tactic.Ring
import Mathlib.Tactic.LinearCombination
import Mathlib.Data.Fin.VecNotation
import Mathlib.Algebra.BigOperators.Fin
/-! Helper lemmas for C29 and C30. -/
namespace Artist

theorem dictGet_dictSet {K V : Type} [DecidableEq K] (d : List (K × V)) (k k' : K) (v : V) :
    dictGet (dictSet d k v) k' = if k' = k then some v else dictGet d k' := by
  induction d with
  | nil => by_cases h : k' = k
           · subst h; simp [dictSet, dictGet]
           · simp [dictSet, dictGet, h, Ne.symm h]
  | cons x xs ih =>
    obtain ⟨a, b⟩ := x
    by_cases ha : a = k
    · subst ha
      by_cases h : k' = a
      · subst h; simp [dictSet, dictGet]
      · simp [dictSet, dictGet, h, Ne.symm h]
    · by_cases h : k' = k
      · subst h
        simp only [dictSet, ha, if_false, dictGet, if_true] at ih ⊢
        exact ih
      · simp only [dictSet, ha, if_false, dictGet, h] at ih ⊢
        by_cases h2 : a = k'
        · simp [h2]
        · simp [h2, ih]

namespace Tower

theorem nameToIndexFrom_get {N : Type} [DecidableEq N] (names : List N) (hn : names.Nodup) (idx : Nat) (d : List (N × Nat))
    (name : N) :
    dictGet (nameToIndexFrom idx names d) name =
      if name ∈ names then some (idx + names.idxOf name) else dictGet d name := by
  induction names generalizing idx d with
  | nil => simp [nameToIndexFrom]
  | cons a as ih =>
    rw [nameToIndexFrom, ih (List.nodup_cons.1 hn).2, dictGet_dictSet]
    by_cases h : name = a
    · subst h
      simp [(List.nodup_cons.1 hn).1]
    · by_cases h2 : name ∈ as
      · simp only [h2, if_true, List.mem_cons, or_true]
        rw [List.idxOf_cons_ne _ (Ne.symm h)]
        congr 1; omega
      · simp [h, h2]

theorem nameToIndexFrom_iff {N : Type} [DecidableEq N] (names : List N) (hn : names.Nodup) (name : N) (k : Nat) :
    dictGet (nameToIndexFrom 0 names []) name = some k ↔ names[k]? = some name := by
  rw [nameToIndexFrom_get names hn]
  constructor
  · intro h
    split at h
    · rename_i hm
      obtain rfl : names.idxOf name = k := by simpa using h
      rw [List.getElem?_eq_getElem (List.idxOf_lt_length_iff.2 hm), List.getElem_idxOf]
    · simp [dictGet] at h
  · intro h
    obtain ⟨hk, he⟩ := List.getElem?_eq_some_iff.1 h
    rw [if_pos (List.mem_of_getElem? h)]
    subst he
    rw [hn.idxOf_getElem]; simp

theorem indexToArea_from {N A : Type} (types : List (Areas N A)) (off k t i : Nat)
    (h : ((types.zipIdx off).flatMap (fun t => (List.range t.1.names.length).map (fun i => (t.2, i))))[k]? = some (t, i)) :
    ∃ a, off ≤ t ∧ types[t - off]? = some a ∧ i < a.names.length ∧ a.names[i]? = (types.flatMap (·.names))[k]? := by
  induction types generalizing off k with
  | nil => simp at h
  | cons a as ih =>
    simp only [List.zipIdx_cons, List.flatMap_cons] at h
    by_cases hk : k < a.names.length
    · rw [List.getElem?_append_left (by simpa using hk)] at h
      simp [hk] at h
      obtain ⟨rfl, rfl⟩ := h
      refine ⟨a, le_refl _, by simp, hk, ?_⟩
      rw [List.flatMap_cons, List.getElem?_append_left hk]
    · rw [List.getElem?_append_right (by simpa using hk)] at h
      simp only [List.length_map, List.length_range] at h
      obtain ⟨b, h1, h2, h3, h4⟩ := ih (off + 1) _ h
      refine ⟨b, by omega, ?_, h3, ?_⟩
      · have : t - off = (t - (off + 1)) + 1 := by omega
        rw [this]; simpa using h2
      · rw [h4, List.flatMap_cons, List.getElem?_append_right (by omega)]

theorem indexToArea_length {N A : Type} (types : List (Areas N A)) (off : Nat) :
    ((types.zipIdx off).flatMap (fun t => (List.range t.1.names.length).map (fun i => (t.2, i)))).length
      = (types.flatMap (·.names)).length := by
  induction types generalizing off with
  | nil => rfl
  | cons a as ih => simp only [List.zipIdx_cons, List.flatMap_cons, List.length_append, ih]; simp

theorem pyIndex_nat {α : Type} (l : List α) (i : Nat) (x : α) (h : l[i]? = some x) : pyIndex l (i : Int) = .ok x := by
  simp only [pyIndex]
  rw [if_neg (show ¬ (i : Int) < 0 by omega), if_neg (show ¬ (i : Int) < 0 by omega)]
  simp [h]

theorem pyIndex_out {α : Type} (l : List α) (i : Int) (h : (l.length : Int) ≤ i) : pyIndex l i = .error .indexError := by
  simp only [pyIndex]
  rw [if_neg (show ¬ i < 0 by omega), if_neg (show ¬ i < 0 by omega)]
  have : l[i.toNat]? = none := List.getElem?_eq_none (by omega)
  simp [this]

end Tower
end Artist
