import Verif.Model.TowerFile
import Verif.Props.Flatten
import Verif.Props.Field
import Verif.Proofs.PaintData
/-! Helper lemmas for C76. -/
namespace Artist.TowerFile
open Artist Flatten

/-- Names usable in the file. -/
def GoodKey (k : Key) : Prop := k ≠ [] ∧ '/' ∉ k

theorem toDict_eq {V : Type} (l : List (Key × V)) : Flatten.toDict l = Paint.toDict l := rfl

theorem dictSet_keys {V : Type} (d : List (Key × V)) (k : Key) (v : V) : ∀ x, x ∈ (dictSet d k v).map (·.1) ↔ x = k ∨ x ∈ d.map (·.1) := by
  induction d with
  | nil => intro x; simp [dictSet]
  | cons a d ih =>
    intro x
    obtain ⟨a, w⟩ := a
    unfold dictSet
    by_cases h : a = k
    · rw [if_pos h]; subst h; simp
    · rw [if_neg h, List.map_cons, List.mem_cons, ih, List.map_cons, List.mem_cons]; tauto

theorem dictSet_nodup {V : Type} (d : List (Key × V)) (k : Key) (v : V) (h : (d.map (·.1)).Nodup) : ((dictSet d k v).map (·.1)).Nodup := by
  induction d with
  | nil => simp [dictSet]
  | cons a d ih =>
    obtain ⟨a, w⟩ := a
    unfold dictSet
    rw [List.map_cons, List.nodup_cons] at h
    by_cases e : a = k
    · rw [if_pos e, List.map_cons, List.nodup_cons]; exact h
    · rw [if_neg e, List.map_cons, List.nodup_cons, dictSet_keys]
      exact ⟨by rintro (e' | e'); exacts [e e', h.1 e'], ih h.2⟩

theorem toDict_keys {V : Type} (l : List (Key × V)) : ((toDict l).map (·.1)).Nodup ∧ ∀ x, x ∈ (toDict l).map (·.1) ↔ x ∈ l.map (·.1) := by
  suffices ∀ (l d : List (Key × V)), (d.map (·.1)).Nodup → ((l.foldl (fun d p => dictSet d p.1 p.2) d).map (·.1)).Nodup ∧
      ∀ x, x ∈ (l.foldl (fun d p => dictSet d p.1 p.2) d).map (·.1) ↔ x ∈ l.map (·.1) ∨ x ∈ d.map (·.1) by
    obtain ⟨h1, h2⟩ := this l [] (by simp)
    exact ⟨h1, fun x => by rw [← or_false (x ∈ l.map (·.1)), ← show (x ∈ ([] : List (Key × V)).map (·.1)) = False by simp]; exact h2 x⟩
  intro l
  induction l with
  | nil => intro d h; exact ⟨h, fun x => by simp⟩
  | cons a l ih =>
    intro d h
    rw [List.foldl_cons]
    obtain ⟨h1, h2⟩ := ih _ (dictSet_nodup d a.1 a.2 h)
    refine ⟨h1, fun x => ?_⟩
    rw [h2, dictSet_keys, List.map_cons, List.mem_cons]; tauto

theorem toDict_ne_nil {V : Type} (l : List (Key × V)) (h : l ≠ []) : toDict l ≠ [] := by
  obtain ⟨a, l, rfl⟩ := List.exists_cons_of_ne_nil h
  intro e
  have := ((toDict_keys (a :: l)).2 a.1).2 (by simp)
  rw [e] at this
  simp at this

/-- A dictionary of numbers as in a configuration of a target area. -/
def GoodDict (d : List (Key × Val)) : Prop := d ≠ [] ∧ (d.map (·.1)).Nodup ∧ ∀ x ∈ d, GoodKey x.1

theorem leafs_keys (d : List (Key × Val)) : (leafs d).keys = d.map (·.1) := by
  induction d with
  | nil => rfl
  | cons a d ih => simp [leafs, Flatten.Tree.keys, ih]

theorem leafs_proper (d : List (Key × Val)) (hn : (d.map (·.1)).Nodup) (hg : ∀ x ∈ d, GoodKey x.1) : (leafs d).Proper := by
  induction d with
  | nil => trivial
  | cons a d ih =>
    rw [List.map_cons, List.nodup_cons] at hn
    have := hg a (by simp)
    exact ⟨this.1, this.2, by rw [leafs_keys]; exact hn.1, ih hn.2 fun x hx => hg x (List.mem_cons_of_mem _ hx)⟩

theorem leafs_lookup (d : List (Key × Val)) (p : Key) : (leafs d).lookup [p] = dictGet d p := by
  induction d with
  | nil => rfl
  | cons a d ih =>
    simp only [leafs, Flatten.Tree.lookup, dictGet, ih]
    by_cases h : p = a.1
    · rw [if_pos h, if_pos h.symm]
    · rw [if_neg h, if_neg (Ne.symm h)]

theorem nodes_keys (l : List (Key × List (Key × Val))) : (nodes l).keys = l.map (·.1) := by
  induction l with
  | nil => rfl
  | cons a l ih => simp [nodes, Flatten.Tree.keys, ih]

theorem nodes_proper (l : List (Key × List (Key × Val))) (hn : (l.map (·.1)).Nodup) (hg : ∀ x ∈ l, GoodKey x.1 ∧ GoodDict x.2) : (nodes l).Proper := by
  induction l with
  | nil => trivial
  | cons a l ih =>
    rw [List.map_cons, List.nodup_cons] at hn
    have := hg a (by simp)
    exact ⟨this.1.1, this.1.2, by rw [nodes_keys]; exact hn.1, leafs_proper a.2 this.2.2.1 this.2.2.2,
      ih hn.2 fun x hx => hg x (List.mem_cons_of_mem _ hx)⟩

theorem nodes_lookup (l : List (Key × List (Key × Val))) (k p : Key) : (nodes l).lookup [k, p] = (dictGet l k).bind fun d => dictGet d p := by
  induction l with
  | nil => rfl
  | cons a l ih =>
    simp only [nodes, Flatten.Tree.lookup, dictGet, ih]
    by_cases h : k = a.1
    · rw [if_pos h, if_pos h.symm, leafs_lookup]; rfl
    · rw [if_neg h, if_neg (Ne.symm h)]

theorem nodes_leaves (l : List (Key × List (Key × Val))) : leaves (nodes l) = l.flatMap fun a => a.2.map fun x => ([a.1, x.1], x.2) := by
  have h : ∀ d : List (Key × Val), leaves (leafs d) = d.map fun x => ([x.1], x.2) := by
    intro d
    induction d with
    | nil => rfl
    | cons a d ih => simp [leafs, leaves, ih]
  induction l with
  | nil => rfl
  | cons a l ih => simp [nodes, leaves, ih, h]

theorem takeWhile_join (k p : Key) (hk : '/' ∉ k) : (join [k, p]).takeWhile (· ≠ '/') = k := by
  show (k ++ '/' :: p).takeWhile (· ≠ '/') = k
  rw [List.takeWhile_append_of_pos]
  · simp
  · intro c hc
    have : c ≠ '/' := fun e => hk (e ▸ hc)
    simpa using this

theorem toDict_mem {V : Type} (l : List (Key × V)) : ∀ x ∈ toDict l, x ∈ l := by
  intro x hx
  have h1 : dictGet (toDict l) x.1 = some x.2 := (dictGet_mem _ (toDict_keys l).1 _ _).2 hx
  rw [toDict_eq, Paint.toDict_get] at h1
  have : ∀ (m : List (Key × V)) k v, dictGet m k = some v → (k, v) ∈ m := by
    intro m k v
    induction m with
    | nil => intro h; cases h
    | cons a m ih =>
      obtain ⟨a, w⟩ := a
      unfold dictGet
      split
      · rename_i e; intro h; cases h; subst e; simp
      · intro h; exact List.mem_cons_of_mem _ (ih h)
  exact List.mem_reverse.1 (this _ _ _ h1)

section
variable (l : List (Key × List (Key × Val))) (hg : ∀ x ∈ l, GoodKey x.1 ∧ GoodDict x.2)
include hg

theorem write_get (k p : Key) (hk : GoodKey k) (hp : GoodKey p) : dictGet (write l) (join [k, p]) = (dictGet (toDict l) k).bind fun d => dictGet d p := by
  unfold write
  rw [C45_lookup _ (nodes_proper _ (toDict_keys l).1 fun x hx => hg x (toDict_mem l x hx)) [k, p], nodes_lookup]
  intro q hq
  simp only [List.mem_cons, List.not_mem_nil, or_false] at hq
  rcases hq with rfl | rfl <;> assumption

theorem write_eq : write l = (toDict l).flatMap fun a => a.2.map fun x => (join [a.1, x.1], x.2) := by
  unfold write
  rw [flatten_eq _ (nodes_proper _ (toDict_keys l).1 fun x hx => hg x (toDict_mem l x hx)), nodes_leaves, List.map_flatMap]
  congr 1
  funext a
  rw [List.map_map]; rfl

theorem memberKeys_write : (memberKeys (write l)).Nodup ∧ (memberKeys (write l)).Pairwise (fun a b => Field.lexLe a b = true) ∧
    ∀ k, k ∈ memberKeys (write l) ↔ k ∈ l.map (·.1) := by
  unfold memberKeys
  set d := toDict ((write l).map fun x => (x.1.takeWhile (· ≠ '/'), ()))
  have hp := Field.h5order_perm Field.lexLe d
  have hd := toDict_keys ((write l).map fun x => (x.1.takeWhile (· ≠ '/'), ()))
  refine ⟨(hp.map (·.1)).nodup_iff.2 hd.1, ?_, fun k => ?_⟩
  · rw [List.pairwise_map]
    exact Field.h5order_sorted Field.lexLe_order d
  · rw [(hp.map (·.1)).mem_iff, hd.2, List.map_map, ← (toDict_keys l).2, write_eq l hg]
    simp only [List.mem_map, List.mem_flatMap, Function.comp]
    constructor
    · rintro ⟨x, ⟨a, ha, y, hy, rfl⟩, rfl⟩
      exact ⟨a, ha, (takeWhile_join a.1 y.1 (hg a (toDict_mem l a ha)).1.2).symm⟩
    · rintro ⟨a, ha, rfl⟩
      obtain ⟨h1, h2, -⟩ := hg a (toDict_mem l a ha)
      obtain ⟨y, d', he⟩ := List.exists_cons_of_ne_nil h2
      exact ⟨_, ⟨a, ha, y, by rw [he]; simp, rfl⟩, takeWhile_join a.1 y.1 h1.2⟩

theorem write_ne_nil (h : l ≠ []) : write l ≠ [] := by
  intro e
  obtain ⟨a, l', rfl⟩ := List.exists_cons_of_ne_nil h
  have := ((memberKeys_write _ hg).2.2 a.1).2 (by simp)
  rw [e] at this
  simp [memberKeys, toDict, Field.h5order] at this

theorem get_write (k p : Key) (hk : GoodKey k) (hp : GoodKey p) (d : List (Key × Val)) (hd : dictGet l.reverse k = some d) (v : Val) (hv : dictGet d p = some v) :
    get (write l) k p = .ok v := by
  unfold get
  rw [write_get l hg k p hk hp, toDict_eq, Paint.toDict_get, hd]
  simp [hv]

end

theorem loadAll_ok {A : Type} (load : Key → Except PyErr A) (ks : List Key) (h : ∀ k ∈ ks, ∃ a, load k = .ok a) :
    ∃ as, loadAll load ks = .ok as ∧ as.map (·.1) = ks ∧ ∀ x ∈ as, load x.1 = .ok x.2 := by
  induction ks with
  | nil => exact ⟨[], rfl, rfl, by simp⟩
  | cons k ks ih =>
    obtain ⟨a, ha⟩ := h k (by simp)
    obtain ⟨as, h1, h2, h3⟩ := ih fun x hx => h x (List.mem_cons_of_mem _ hx)
    refine ⟨(k, a) :: as, ?_, by simp [h2], ?_⟩
    · unfold loadAll
      simp only [ha, h1, bind, Except.bind]
      rfl
    · intro x hx
      rcases List.mem_cons.1 hx with rfl | hx
      · exact ha
      · exact h3 x hx

theorem loadAll_error {A : Type} (load : Key → Except PyErr A) (ks : List Key) (as : List (Key × A)) (h : loadAll load ks = .ok as) :
    as.map (·.1) = ks ∧ ∀ x ∈ as, load x.1 = .ok x.2 := by
  induction ks generalizing as with
  | nil => cases h; exact ⟨rfl, by simp⟩
  | cons k ks ih =>
    unfold loadAll at h
    cases h1 : load k with
    | error e => rw [h1] at h; cases h
    | ok a =>
      cases h2 : loadAll load ks with
      | error e => simp only [h1, h2, bind, Except.bind] at h; cases h
      | ok rest =>
        simp only [h1, h2, bind, Except.bind] at h
        cases h
        obtain ⟨i1, i2⟩ := ih rest h2
        refine ⟨by simp [i1], fun x hx => ?_⟩
        rcases List.mem_cons.1 hx with rfl | hx
        · exact h1
        · exact i2 x hx

end Artist.TowerFile
