import Verif.Model.FieldShapes
import Verif.Props.Field
/-! # Helper lemmas for the shapes of tensors when a field is loaded -/
namespace Artist.Field
open Artist

section
variable {G F D P : Type}

theorem stack_ok {S : Type} [DecidableEq S] (l : List S) (r : Nat × S) :
    stack l = .ok r ↔ l ≠ [] ∧ l.length = r.1 ∧ ∀ s ∈ l, s = r.2 := by
  obtain ⟨n, t⟩ := r
  cases l with
  | nil => simp [stack]
  | cons a as =>
    rw [stack]
    split
    · rename_i h
      simp only [List.all_eq_true, decide_eq_true_eq] at h
      simp only [Except.ok.injEq, Prod.mk.injEq, ne_eq, reduceCtorEq, not_false_eq_true, true_and, List.length_cons, List.mem_cons, forall_eq_or_imp]
      refine and_congr_right fun _ => ⟨fun e => ⟨e, fun s hs => (h s hs).trans e⟩, fun e => e.1⟩
    · rename_i h
      simp only [reduceCtorEq, false_iff]
      rintro ⟨_, _, h3⟩
      refine h (List.all_eq_true.2 fun s hs => ?_)
      simp only [decide_eq_true_eq]
      rw [h3 s (by simp [hs]), h3 a (by simp)]

theorem stack_exists {S : Type} [DecidableEq S] (l : List S) (hl : l ≠ []) : (∃ r, stack l = .ok r) ↔ ∀ s ∈ l, ∀ t ∈ l, s = t := by
  constructor
  · rintro ⟨r, hr⟩ s hs t ht
    obtain ⟨_, _, h⟩ := (stack_ok l r).1 hr
    rw [h s hs, h t ht]
  · intro h
    obtain ⟨a, as, rfl⟩ := List.exists_cons_of_ne_nil hl
    exact ⟨((a :: as).length, a), (stack_ok _ _).2 ⟨hl, rfl, fun s hs => h s hs a (by simp)⟩⟩

theorem surfaceShape_ok (size : F → Nat × Nat) (facets : List (Facet G F)) (r : Nat × Nat × Nat) :
    surfaceShape size facets = .ok r ↔ facets ≠ [] ∧ facets.length = r.1 ∧ ∀ f ∈ facets, size f.data = r.2 := by
  cases facets with
  | nil => simp [surfaceShape]
  | cons a as =>
    rw [surfaceShape, stack_ok]
    simp

/-- What is loaded and the shape that goes with it. -/
def Shaped (size : F → Nat × Nat) (change : Option (Nat × Nat)) (x : Loaded G F D P × (Nat × Nat × Nat)) : Prop :=
  ∃ r, surfaceShape size x.1.facets = .ok r ∧ x.2 = controlShape change r

theorem loadLoopShapes_ok (size : F → Nat × Nat) (change : Option (Nat × Nat)) (protos : Prototypes G F D P) :
    ∀ (file : List (Name × Entry G F D P)) (s s' : Locals G) (ys : List (Loaded G F D P × (Nat × Nat × Nat))),
      loadLoopShapes size change protos s file = .ok (s', ys) ↔ loadLoop protos s file = .ok (s', ys.map (·.1)) ∧ ∀ y ∈ ys, Shaped size change y := by
  intro file
  induction file with
  | nil =>
    intro s s' ys
    simp only [loadLoopShapes, loadLoop, Except.ok.injEq, Prod.mk.injEq]
    constructor
    · rintro ⟨rfl, rfl⟩; simp
    · rintro ⟨⟨rfl, h⟩, _⟩; exact ⟨rfl, (List.map_eq_nil_iff.1 h.symm).symm⟩
  | cons h rest ih =>
    intro s s' ys
    rw [loadLoopShapes, loadLoop]
    cases h1 : loadOne protos s h with
    | error e => simp
    | ok p =>
      obtain ⟨s1, x⟩ := p
      simp only
      constructor
      · intro hh
        split at hh
        · cases hh
        · rename_i r hr
          split at hh
          · cases hh
          · rename_i s2 zs hz
            cases hh
            obtain ⟨a, b⟩ := (ih _ _ _).1 hz
            rw [a]
            refine ⟨rfl, ?_⟩
            intro y hy
            rcases List.mem_cons.1 hy with rfl | hy
            · exact ⟨r, hr, rfl⟩
            · exact b y hy
      · rintro ⟨hh, hs⟩
        split at hh
        · cases hh
        · rename_i s2 zs hz
          simp only [Except.ok.injEq, Prod.mk.injEq] at hh
          obtain ⟨rfl, hm⟩ := hh
          cases ys with
          | nil => simp at hm
          | cons y ys =>
            rw [List.map_cons, List.cons.injEq] at hm
            obtain ⟨rfl, rfl⟩ := hm
            obtain ⟨r, hr, hy⟩ := hs y (by simp)
            rw [hr]
            have := (ih s1 s2 ys).2 ⟨hz, fun z hz => hs z (by simp [hz])⟩
            simp only [this, ← hy]

theorem dictAppend_map {K V W : Type} [DecidableEq K] (f : V → W) (d : List (K × List V)) (k : K) (x : V) :
    (dictAppend d k x).map (fun e => (e.1, e.2.map f)) = dictAppend (d.map fun e => (e.1, e.2.map f)) k (f x) := by
  induction d with
  | nil => rfl
  | cons e es ih =>
    obtain ⟨k', vs⟩ := e
    simp only [dictAppend, List.map_cons]
    split
    · simp
    · simp [ih]

theorem groupedShapes_map (ys : List (Loaded G F D P × (Nat × Nat × Nat))) :
    (groupedShapes ys).map (fun e => (e.1, e.2.map (·.1))) = grouped (ys.map (·.1)) := by
  have main : ∀ (ys : List (Loaded G F D P × (Nat × Nat × Nat))) (d : List (Name × List (Loaded G F D P × (Nat × Nat × Nat)))),
      (ys.foldl (fun d x => dictAppend d (groupKey x.1) x) d).map (fun e => (e.1, e.2.map (·.1))) =
        (ys.map (·.1)).foldl (fun d x => dictAppend d (groupKey x) x) (d.map fun e => (e.1, e.2.map (·.1))) := by
    intro ys
    induction ys with
    | nil => intro d; rfl
    | cons y ys ih =>
      intro d
      rw [List.foldl_cons, ih, dictAppend_map, List.map_cons, List.foldl_cons]
  simpa [groupedShapes, grouped] using main ys []

theorem dictAppend_mem {K V : Type} [DecidableEq K] (d : List (K × List V)) (k : K) (x : V) (e : K × List V) (he : e ∈ dictAppend d k x) :
    e.2 ≠ [] ∨ e ∈ d := by
  induction d with
  | nil => simp only [dictAppend, List.mem_singleton] at he; left; rw [he]; simp
  | cons a as ih =>
    obtain ⟨k', vs⟩ := a
    simp only [dictAppend] at he
    split at he
    · rcases List.mem_cons.1 he with rfl | he
      · left; simp
      · right; simp [he]
    · rcases List.mem_cons.1 he with rfl | he
      · right; simp
      · rcases ih he with h | h
        · exact .inl h
        · right; simp [h]

theorem dictAppend_from {K V : Type} [DecidableEq K] (d : List (K × List V)) (k : K) (x : V) (e : K × List V) (he : e ∈ dictAppend d k x) (y : V)
    (hy : y ∈ e.2) : y = x ∨ ∃ e' ∈ d, y ∈ e'.2 := by
  induction d with
  | nil => simp only [dictAppend, List.mem_singleton] at he; left; rw [he] at hy; simpa using hy
  | cons a as ih =>
    obtain ⟨k', vs⟩ := a
    simp only [dictAppend] at he
    split at he
    · rcases List.mem_cons.1 he with rfl | he
      · rcases List.mem_append.1 hy with hy | hy
        · exact .inr ⟨(k', vs), by simp, hy⟩
        · left; simpa using hy
      · exact .inr ⟨e, by simp [he], hy⟩
    · rcases List.mem_cons.1 he with rfl | he
      · exact .inr ⟨(k', vs), by simp, hy⟩
      · rcases ih he with h | ⟨e', h1, h2⟩
        · exact .inl h
        · exact .inr ⟨e', by simp [h1], h2⟩

theorem groupedShapes_from (ys : List (Loaded G F D P × (Nat × Nat × Nat))) (e : Name × List (Loaded G F D P × (Nat × Nat × Nat)))
    (he : e ∈ groupedShapes ys) : e.2 ≠ [] ∧ ∀ y ∈ e.2, y ∈ ys := by
  have main : ∀ (ys : List (Loaded G F D P × (Nat × Nat × Nat))) (d : List (Name × List (Loaded G F D P × (Nat × Nat × Nat)))) (p : Loaded G F D P × (Nat × Nat × Nat) → Prop),
      (∀ e ∈ d, e.2 ≠ [] ∧ ∀ y ∈ e.2, p y) → (∀ y ∈ ys, p y) →
      ∀ e ∈ ys.foldl (fun d x => dictAppend d (groupKey x.1) x) d, e.2 ≠ [] ∧ ∀ y ∈ e.2, p y := by
    intro ys
    induction ys with
    | nil => intro d p hd _; exact hd
    | cons y ys ih =>
      intro d p hd hp
      rw [List.foldl_cons]
      refine ih _ p ?_ fun z hz => hp z (by simp [hz])
      intro e he
      refine ⟨?_, ?_⟩
      · rcases dictAppend_mem _ _ _ _ he with h | h
        · exact h
        · exact (hd e h).1
      · intro z hz
        rcases dictAppend_from _ _ _ _ he z hz with rfl | ⟨e', h1, h2⟩
        · exact hp z (by simp)
        · exact (hd e' h1).2 z h2
  exact main ys [] (· ∈ ys) (by simp) (fun _ h => h) e he

theorem stackGroups_ok (d : List (Name × List (Loaded G F D P × (Nat × Nat × Nat)))) (hd : ∀ e ∈ d, e.2 ≠ []) :
    stackGroups d = .ok () ↔ ∀ e ∈ d, ∀ x ∈ e.2, ∀ y ∈ e.2, x.2 = y.2 := by
  induction d with
  | nil => simp [stackGroups]
  | cons e es ih =>
    obtain ⟨k, xs⟩ := e
    have hne := hd (k, xs) (by simp)
    have ih := ih fun e he => hd e (by simp [he])
    rw [stackGroups]
    have e1 := stack_exists (xs.map fun x => x.2.1) (by simpa using hne)
    have e2 := stack_exists (xs.map fun x => x.2) (by simpa using hne)
    constructor
    · intro h
      split at h
      · cases h
      · split at h
        · cases h
        · rename_i r hr
          have a := e2.1 ⟨r, hr⟩
          intro e he
          rcases List.mem_cons.1 he with rfl | he
          · intro x hx y hy
            exact a _ (List.mem_map.2 ⟨x, hx, rfl⟩) _ (List.mem_map.2 ⟨y, hy, rfl⟩)
          · exact ih.1 h e he
    · intro h
      have a := h (k, xs) (by simp)
      obtain ⟨r2, h2⟩ := e2.2 (by
        intro s hs t ht
        obtain ⟨x, hx, rfl⟩ := List.mem_map.1 hs
        obtain ⟨y, hy, rfl⟩ := List.mem_map.1 ht
        exact a x hx y hy)
      obtain ⟨r1, h1⟩ := e1.2 (by
        intro s hs t ht
        obtain ⟨x, hx, rfl⟩ := List.mem_map.1 hs
        obtain ⟨y, hy, rfl⟩ := List.mem_map.1 ht
        show x.2.1 = y.2.1
        rw [a x hx y hy])
      simp only [h1, h2]
      exact ih.2 fun e he => h e (by simp [he])

/-- In a loaded field, heliostats of the same types are in the same group. -/
theorem same_group {le : Name → Name → Bool} {proto : Prototype G F D P} {hs : List (Name × Entry G F D P)} {gs : List (Group G F D P)}
    (h : loadScenario le proto hs = .ok gs) {x y : Loaded G F D P} (hx : x ∈ gs.flatMap (·.heliostats)) (hy : y ∈ gs.flatMap (·.heliostats))
    (hk : x.kinematicsType = y.kinematicsType) (ha : x.actuatorType = y.actuatorType) : ∃ g ∈ gs, x ∈ g.heliostats ∧ y ∈ g.heliostats := by
  obtain ⟨protos, xs, hp, hown, hne, hgs, _, _⟩ := loadScenario_ok h
  obtain ⟨_, _, g3⟩ := grouped_spec xs
  rw [groups_flat hgs] at hy
  have hy' := (grouped_perm xs).mem_iff.1 hy
  obtain ⟨g, hg, hxg⟩ := List.mem_flatMap.1 hx
  refine ⟨g, hg, hxg, ?_⟩
  have : g.heliostats ∈ (grouped xs).map (·.2) := by rw [← hgs]; exact List.mem_map.2 ⟨g, hg, rfl⟩
  obtain ⟨e, he, heq⟩ := List.mem_map.1 this
  rw [← heq, g3 e he] at hxg ⊢
  rw [List.mem_filter] at hxg ⊢
  refine ⟨hy', ?_⟩
  have h2 := hxg.2
  simp only [decide_eq_true_eq] at h2 ⊢
  rw [← h2]; unfold groupKey; rw [hk, ha]

end
end Artist.Field
