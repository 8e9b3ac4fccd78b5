import Verif.Proofs.Flatten
/-!
# C45: flattening a scenario dictionary loses nothing
-/
namespace Artist.Flatten
open Artist

variable {V : Type}

/-- The flattened dictionary contains, under the joined path, exactly the values of the nested dictionary: an entry `(key, v)` exists if and only if
`key` is a path of keys joined with the separator that leads to `v`; no key occurs twice. -/
theorem C45_entries (t : Tree V) (hp : t.Proper) :
    ((flatten t).map (·.1)).Nodup ∧
    ∀ (key : Key) (v : V), (key, v) ∈ flatten t ↔ ∃ path : List Key, t.lookup path = some v ∧ key = join path := by
  rw [flatten_eq t hp]
  constructor
  · rw [List.map_map]
    have : ((fun x : Key × V => x.1) ∘ fun x : List Key × V => (join x.1, x.2)) = join ∘ (fun x => x.1) := rfl
    rw [this, ← List.map_map]
    apply List.Nodup.map_on _ (leaves_nodup t hp)
    intro p hpm q hqm h
    obtain ⟨x, hx, rfl⟩ := List.mem_map.1 hpm
    obtain ⟨y, hy, rfl⟩ := List.mem_map.1 hqm
    exact join_inj (leaves_good t hp x hx) (leaves_good t hp y hy) h
  · intro key v
    rw [List.mem_map]
    constructor
    · rintro ⟨x, hx, h⟩
      cases h
      exact ⟨x.1, (mem_leaves t hp x.1 x.2).1 hx, rfl⟩
    · rintro ⟨path, h, rfl⟩
      exact ⟨(path, v), (mem_leaves t hp path v).2 h, rfl⟩

theorem dictGet_mem (d : List (Key × V)) (hd : (d.map (·.1)).Nodup) (key : Key) (v : V) : dictGet d key = some v ↔ (key, v) ∈ d := by
  induction d with
  | nil => simp [dictGet]
  | cons a as ih =>
    obtain ⟨k, w⟩ := a
    simp only [List.map_cons, List.nodup_cons] at hd
    simp only [dictGet, List.mem_cons, Prod.mk.injEq]
    split
    · rename_i he
      subst he
      constructor
      · intro h; cases h; left; exact ⟨rfl, rfl⟩
      · rintro (⟨_, h⟩ | h)
        · rw [h]
        · exact absurd (List.mem_map.2 ⟨_, h, rfl⟩) hd.1
    · rename_i he
      rw [ih hd.2]
      constructor
      · exact Or.inr
      · rintro (⟨h, _⟩ | h)
        · exact absurd h.symm he
        · exact h

/-- Looking up a joined path in the flattened dictionary gives what the keys of the path give one after the other in the nested dictionary, for every path
of usable keys, whether it exists or not. -/
theorem C45_lookup (t : Tree V) (hp : t.Proper) (path : List Key) (hg : ∀ k ∈ path, k ≠ [] ∧ '/' ∉ k) :
    dictGet (flatten t) (join path) = t.lookup path := by
  obtain ⟨hn, hm⟩ := C45_entries t hp
  apply Option.ext
  intro v
  rw [dictGet_mem _ hn, hm]
  constructor
  · rintro ⟨q, hq, he⟩
    have := join_inj hg (leaves_good t hp _ ((mem_leaves t hp q v).2 hq)) he
    rw [this]; exact hq
  · intro h; exact ⟨path, h, rfl⟩

/-- The nested dictionary can be recovered: two nested dictionaries without empty sub-dictionaries that are flattened to the same dictionary are equal,
including the order of their items. -/
theorem C45_recover (s t : Tree V) (hs : s.Proper) (ht : t.Proper) (hs' : s.NoEmpty) (ht' : t.NoEmpty) (h : flatten s = flatten t) : s = t := by
  apply leaves_inj s t hs ht hs' ht'
  rw [flatten_eq s hs, flatten_eq t ht] at h
  have aux : ∀ l m : List (List Key × V), (∀ x ∈ l, Good x.1) → (∀ x ∈ m, Good x.1) →
      l.map (fun x => (join x.1, x.2)) = m.map (fun x => (join x.1, x.2)) → l = m := by
    intro l
    induction l with
    | nil => intro m _ _ h; symm; simpa using h
    | cons a as ih =>
      intro m hl hm h
      cases m with
      | nil => simp at h
      | cons b bs =>
        simp only [List.map_cons, List.cons.injEq, Prod.mk.injEq] at h
        rw [ih bs (fun x hx => hl x (List.mem_cons_of_mem _ hx)) (fun x hx => hm x (List.mem_cons_of_mem _ hx)) h.2,
          Prod.ext (join_inj (hl a (by simp)) (hm b (by simp)) h.1.1) h.1.2]
  exact aux _ _ (leaves_good s hs) (leaves_good t ht) h

/-- `{"id": 1, "surface": {"facet1": {"u": 2, "v": 3}, "facet2": {"u": 4}}, "x": 5}`. -/
def treeExample : Tree Nat :=
  .leaf "id".toList 1 (.node "surface".toList
    (.node "facet1".toList (.leaf "u".toList 2 (.leaf "v".toList 3 .nil)) (.node "facet2".toList (.leaf "u".toList 4 .nil) .nil))
    (.leaf "x".toList 5 .nil))

/-- The hypotheses of the theorems hold for a dictionary of three levels. -/
theorem treeExample_proper : treeExample.Proper ∧ treeExample.NoEmpty := by
  simp [treeExample, Tree.Proper, Tree.NoEmpty, Tree.keys]

example : flatten treeExample = [("id".toList, 1), ("surface/facet1/u".toList, 2), ("surface/facet1/v".toList, 3), ("surface/facet2/u".toList, 4),
    ("x".toList, 5)] ∧
    treeExample.lookup ["surface".toList, "facet1".toList, "v".toList] = some 3 ∧ treeExample.lookup ["surface".toList] = none := by decide +kernel

/-- Without the conditions information is lost: a separator inside a key makes entries collide, an empty key at the top level does, too, and empty
sub-dictionaries vanish. -/
theorem C45_conditions_needed :
    flatten (.leaf "a/b".toList 1 (.node "a".toList (.leaf "b".toList 2 .nil) .nil)) = [("a/b".toList, 2)] ∧
    flatten (.leaf "b".toList 1 (.node [] (.leaf "b".toList 2 .nil) .nil)) = [("b".toList, 2)] ∧
    flatten (.leaf "b".toList 1 (.node "a".toList .nil .nil)) = flatten (.leaf "b".toList 1 .nil) := by decide +kernel

end Artist.Flatten
