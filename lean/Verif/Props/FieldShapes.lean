import Verif.Proofs.FieldShapes
import Verif.Props.FacetOrder
/-!
# C134: which heliostats can be in a field together
-/
namespace Artist.Field
open Artist

section
variable {G F D P : Type}

/-- A scenario loads exactly if it would load regardless of shapes and in addition all facets of a heliostat have equally many control points in both
directions, and heliostats in the same group (the same kinematics and actuator types) have equally many facets and, unless the number of control points
is changed on loading, equally many control points per facet.  What is loaded is then what `C44` and `C46` describe. -/
theorem C134_loads (size : F → Nat × Nat) (change : Option (Nat × Nat)) (le : Name → Name → Bool) (proto : Prototype G F D P)
    (hs : List (Name × Entry G F D P)) (gs : List (Group G F D P)) :
    loadScenarioShapes size change le proto hs = .ok gs ↔ loadScenario le proto hs = .ok gs ∧
      (∀ g ∈ gs, ∀ x ∈ g.heliostats, ∀ f ∈ x.facets, ∀ f' ∈ x.facets, size f.data = size f'.data) ∧
      ∀ g ∈ gs, ∀ x ∈ g.heliostats, ∀ y ∈ g.heliostats, x.facets.length = y.facets.length ∧
        (change = none → ∀ f ∈ x.facets, ∀ f' ∈ y.facets, size f.data = size f'.data) := by
  constructor
  · intro h
    unfold loadScenarioShapes at h
    split at h
    · cases h
    · rename_i protos hp
      unfold fromHdf5Shapes at h
      split at h
      · cases h
      · rename_i a as hfile
        split at h
        · cases h
        · rename_i s ys hloop
          split at h
          · cases h
          · rename_i u hst
            obtain ⟨l1, l2⟩ := (loadLoopShapes_ok size change protos _ _ _ _).1 hloop
            have hst := (stackGroups_ok _ fun e he => (groupedShapes_from ys e he).1).1 hst
            have hg := h
            rw [groupedShapes_map] at hg
            obtain ⟨c1, _, _⟩ := construct_ok hg
            have key : ∀ g ∈ gs, ∃ e ∈ groupedShapes ys, g.heliostats = e.2.map (·.1) := by
              intro g hg
              have : g.heliostats ∈ gs.map (·.heliostats) := List.mem_map.2 ⟨g, hg, rfl⟩
              rw [c1, ← groupedShapes_map, List.map_map] at this
              obtain ⟨e, he, heq⟩ := List.mem_map.1 this
              exact ⟨e, he, heq.symm⟩
            refine ⟨?_, ?_, ?_⟩
            · unfold loadScenario
              rw [hp]
              simp only
              rw [hfile]
              simp only [fromHdf5, l1]
              exact hg
            · intro g hg x hx f hf f' hf'
              obtain ⟨e, he, heq⟩ := key g hg
              rw [heq] at hx
              obtain ⟨y, hy, rfl⟩ := List.mem_map.1 hx
              obtain ⟨r, hr, _⟩ := l2 y ((groupedShapes_from ys e he).2 y hy)
              obtain ⟨_, _, h3⟩ := (surfaceShape_ok _ _ _).1 hr
              rw [h3 f hf, h3 f' hf']
            · intro g hg x hx y hy
              obtain ⟨e, he, heq⟩ := key g hg
              rw [heq] at hx hy
              obtain ⟨x, mx, rfl⟩ := List.mem_map.1 hx
              obtain ⟨y, my, rfl⟩ := List.mem_map.1 hy
              have hxy := hst e he x mx y my
              obtain ⟨r, hr, er⟩ := l2 x ((groupedShapes_from ys e he).2 x mx)
              obtain ⟨q, hq, eq⟩ := l2 y ((groupedShapes_from ys e he).2 y my)
              rw [er, eq] at hxy
              obtain ⟨_, r2, r3⟩ := (surfaceShape_ok _ _ _).1 hr
              obtain ⟨_, q2, q3⟩ := (surfaceShape_ok _ _ _).1 hq
              have hlen : r.1 = q.1 := by
                unfold controlShape at hxy
                split at hxy
                · rw [hxy]
                · exact (Prod.mk.inj hxy).1
              refine ⟨by rw [r2, q2, hlen], ?_⟩
              rintro rfl f hf f' hf'
              rw [r3 f hf, q3 f' hf']
              simp only [controlShape] at hxy
              rw [hxy]
  · rintro ⟨h, hin, hout⟩
    unfold loadScenario at h
    split at h
    · cases h
    · rename_i protos hp
      unfold loadScenarioShapes
      rw [hp]
      simp only
      unfold fromHdf5 at h
      split at h
      · cases h
      · rename_i a as hfile
        rw [hfile]
        split at h
        · cases h
        · rename_i s xs hloop
          obtain ⟨hk1, hk2, _⟩ := loadPrototypes_ok hp
          obtain ⟨own, _⟩ := loadLoop_own (protos := protos) (by intro k hk; rw [hk2] at hk; cases hk; exact hk1) _ _ _ _
            (by intro n hn; cases hn) hloop
          obtain ⟨c1, _, _⟩ := construct_ok h
          have hmem : ∀ x ∈ xs, x ∈ gs.flatMap (·.heliostats) := by
            intro x hx
            rw [groups_flat c1]; exact (grouped_perm xs).mem_iff.2 hx
          have hsh : ∀ x ∈ xs, ∃ r, surfaceShape size x.facets = .ok r := by
            intro x hx
            obtain ⟨g, hg, hxg⟩ := List.mem_flatMap.1 (hmem x hx)
            obtain ⟨a', _, ha'⟩ := forall₂_mem_right own x hx
            obtain ⟨f, fs, hf⟩ := List.exists_cons_of_ne_nil ha'.facets_ne
            refine ⟨(x.facets.length, size f.data), (surfaceShape_ok _ _ _).2 ⟨ha'.facets_ne, rfl, ?_⟩⟩
            intro f' hf'
            exact hin g hg x hxg f' hf' f (by rw [hf]; simp)
          obtain ⟨ys, hys, hshaped⟩ : ∃ ys : List (Loaded G F D P × (Nat × Nat × Nat)), ys.map (·.1) = xs ∧ ∀ y ∈ ys, Shaped size change y := by
            clear hmem own hloop h c1 hout hin
            revert hsh
            clear * -
            intro hsh
            induction xs with
            | nil => exact ⟨[], rfl, by simp⟩
            | cons x xs ih =>
              obtain ⟨ys, h1, h2⟩ := ih fun z hz => hsh z (by simp [hz])
              obtain ⟨r, hr⟩ := hsh x (by simp)
              refine ⟨(x, controlShape change r) :: ys, by simp [h1], ?_⟩
              intro y hy
              rcases List.mem_cons.1 hy with rfl | hy
              · exact ⟨r, hr, rfl⟩
              · exact h2 y hy
          have hl := (loadLoopShapes_ok size change protos (a :: as) ⟨none, none, none⟩ s ys).2 ⟨by rw [hys]; exact hloop, hshaped⟩
          have hst : stackGroups (groupedShapes ys) = .ok () := by
            refine (stackGroups_ok _ fun e he => (groupedShapes_from ys e he).1).2 ?_
            intro e he x hx y hy
            obtain ⟨r, hr, er⟩ := hshaped x ((groupedShapes_from ys e he).2 x hx)
            obtain ⟨q, hq, eq⟩ := hshaped y ((groupedShapes_from ys e he).2 y hy)
            have : e.2.map (·.1) ∈ gs.map (·.heliostats) := by
              rw [c1, ← hys, ← groupedShapes_map, List.map_map]
              exact List.mem_map.2 ⟨e, he, rfl⟩
            obtain ⟨g, hg, heq⟩ := List.mem_map.1 this
            obtain ⟨o1, o2⟩ := hout g hg x.1 (by rw [heq]; exact List.mem_map.2 ⟨x, hx, rfl⟩) y.1 (by rw [heq]; exact List.mem_map.2 ⟨y, hy, rfl⟩)
            obtain ⟨r1, r2, r3⟩ := (surfaceShape_ok _ _ _).1 hr
            obtain ⟨q1, q2, q3⟩ := (surfaceShape_ok _ _ _).1 hq
            have hlen : r.1 = q.1 := by rw [← r2, ← q2, o1]
            rw [er, eq]
            cases change with
            | some n => simp only [controlShape, hlen]
            | none =>
              simp only [controlShape]
              obtain ⟨f, fs, hf⟩ := List.exists_cons_of_ne_nil r1
              obtain ⟨f', fs', hf'⟩ := List.exists_cons_of_ne_nil q1
              have m1 : f ∈ x.1.facets := by rw [hf]; simp
              have m2 : f' ∈ y.1.facets := by rw [hf']; simp
              refine Prod.ext hlen ?_
              rw [← r3 f m1, ← q3 f' m2]
              exact o2 rfl f m1 f' m2
          simp only [fromHdf5Shapes, hl, hst, groupedShapes_map, hys]
          exact h

/-- Two heliostats with actuators of the same type but different numbers of facets cannot be in a scenario together: it never loads, with or without
changing the number of control points. -/
theorem C134_facets_differ (size : F → Nat × Nat) (change : Option (Nat × Nat)) (le : Name → Name → Bool) (proto : Prototype G F D P)
    (hs : List (Name × Entry G F D P)) (ho : Orderly proto hs) (h₁ h₂ : Name × Entry G F D P) (m₁ : h₁ ∈ hs) (m₂ : h₂ ∈ hs)
    (a₁ a₂ : Name × Act P) (ha₁ : a₁ ∈ h₁.2.actuators.getD proto.actuators) (ha₂ : a₂ ∈ h₂.2.actuators.getD proto.actuators)
    (ht : a₁.2.type = a₂.2.type) (l₁ l₂ : List (Name × Facet G F)) (hl₁ : h₁.2.surface.getD proto.surface = l₁)
    (hl₂ : h₂.2.surface.getD proto.surface = l₂) (n₁ : l₁ ≠ []) (n₂ : l₂ ≠ []) (k₁ : (l₁.map (·.1)).Nodup) (k₂ : (l₂.map (·.1)).Nodup)
    (hd : l₁.length ≠ l₂.length) (gs : List (Group G F D P)) : loadScenarioShapes size change le proto hs ≠ .ok gs := by
  intro hok
  obtain ⟨h, _, hout⟩ := (C134_loads _ _ _ _ _ _).1 hok
  obtain ⟨_, c2, _, _, _, c6⟩ := C44_count_partial le proto hs ho gs h
  have find : ∀ h' ∈ hs, ∃ x ∈ gs.flatMap (·.heliostats), x.name = h'.1 := by
    intro h' hm
    have : h'.1 ∈ (gs.flatMap (·.heliostats)).map (·.name) := c2.mem_iff.2 (List.mem_map.2 ⟨h', hm, rfl⟩)
    obtain ⟨x, hx, hn⟩ := List.mem_map.1 this
    exact ⟨x, hx, hn⟩
  have same : ∀ h' ∈ hs, ∀ n e, n = h'.1 → (n, e) ∈ hs → e = h'.2 := by
    rintro h' hm n e rfl he
    have := List.inj_on_of_nodup_map ho.names he hm rfl
    rw [← this]
  have facts : ∀ h' ∈ hs, ∀ l, h'.2.surface.getD proto.surface = l → l ≠ [] → (l.map (·.1)).Nodup →
      ∀ a ∈ h'.2.actuators.getD proto.actuators, ∃ x ∈ gs.flatMap (·.heliostats), x.facets.length = l.length ∧ x.actuatorType = a.2.type := by
    intro h' hm l hl hn hk a ha
    obtain ⟨x, hx, hname⟩ := find h' hm
    obtain ⟨e, he, _, hact⟩ := c6 x hx
    obtain ⟨e', he', _, _, hf⟩ := C46_contents le proto hs ho gs h x hx
    cases same h' hm _ _ hname he
    cases same h' hm _ _ hname he'
    refine ⟨x, hx, ?_, (hact a ha).symm⟩
    have := (hf l hl hn hk).length_eq
    simpa using this
  obtain ⟨x, hx, fx, ax⟩ := facts h₁ m₁ l₁ hl₁ n₁ k₁ a₁ ha₁
  obtain ⟨y, hy, fy, ay⟩ := facts h₂ m₂ l₂ hl₂ n₂ k₂ a₂ ha₂
  obtain ⟨_, _, hrigid⟩ := C44_at_most_two le proto hs gs h
  obtain ⟨g, hg, hxg, hyg⟩ := same_group h hx hy ((hrigid x hx).1.trans (hrigid y hy).1.symm) (by rw [ax, ay, ht])
  exact hd (by rw [← fx, ← fy]; exact (hout g hg x hxg y hyg).1)

/-- If all surfaces, individual and prototype, have `n` facets of one size, shapes are no obstacle. -/
theorem C134_uniform (size : F → Nat × Nat) (change : Option (Nat × Nat)) (le : Name → Name → Bool) (proto : Prototype G F D P)
    (hs : List (Name × Entry G F D P)) (ho : Orderly proto hs) (n : Nat) (net : Nat × Nat)
    (hu : ∀ h ∈ hs, h.2.surface.getD proto.surface ≠ [] ∧ ((h.2.surface.getD proto.surface).map (·.1)).Nodup ∧
      (h.2.surface.getD proto.surface).length = n ∧ ∀ f ∈ h.2.surface.getD proto.surface, size f.2.data = net) :
    ∀ gs, loadScenarioShapes size change le proto hs = .ok gs ↔ loadScenario le proto hs = .ok gs := by
  intro gs
  constructor
  · intro h; exact ((C134_loads _ _ _ _ _ _).1 h).1
  · intro h
    refine (C134_loads _ _ _ _ _ _).2 ⟨h, ?_⟩
    have key : ∀ g ∈ gs, ∀ x ∈ g.heliostats, x.facets.length = n ∧ ∀ f ∈ x.facets, size f.data = net := by
      intro g hg x hx
      obtain ⟨e, he, _, _, hf⟩ := C46_contents le proto hs ho gs h x (List.mem_flatMap.2 ⟨g, hg, hx⟩)
      obtain ⟨u1, u2, u3, u4⟩ := hu _ he
      have hp := hf _ rfl u1 u2
      refine ⟨by rw [hp.length_eq, List.length_map, u3], ?_⟩
      intro f hf
      obtain ⟨p, hp', rfl⟩ := List.mem_map.1 (hp.mem_iff.1 hf)
      exact u4 p hp'
    refine ⟨fun g hg x hx f hf f' hf' => ?_, fun g hg x hx y hy => ⟨?_, fun _ f hf f' hf' => ?_⟩⟩
    · rw [(key g hg x hx).2 f hf, (key g hg x hx).2 f' hf']
    · rw [(key g hg x hx).1, (key g hg y hy).1]
    · rw [(key g hg x hx).2 f hf, (key g hg y hy).2 f' hf']

/-- A scenario that the generator accepts, with distinct facet keys on every heliostat, meets the requirement on numbers of facets.  What the generator does
not check is the number of control points: that alone decides whether the shapes fit. -/
theorem C134_generated (size : F → Nat × Nat) (change : Option (Nat × Nat)) (le : Name → Name → Bool) (proto : Prototype G F D P)
    (hs : List (Name × Entry G F D P)) (ho : Orderly proto hs) (hc : checkFacets proto hs = .ok ())
    (hu : ∀ h ∈ hs, h.2.surface.getD proto.surface ≠ [] ∧ ((h.2.surface.getD proto.surface).map (·.1)).Nodup) (gs : List (Group G F D P)) :
    loadScenarioShapes size change le proto hs = .ok gs ↔ loadScenario le proto hs = .ok gs ∧
      (∀ h ∈ hs, ∀ f ∈ h.2.surface.getD proto.surface, ∀ f' ∈ h.2.surface.getD proto.surface, size f.2.data = size f'.2.data) ∧
      (change = none → ∀ g ∈ gs, ∀ x ∈ g.heliostats, ∀ y ∈ g.heliostats, ∀ f ∈ x.facets, ∀ f' ∈ y.facets, size f.data = size f'.data) := by
  have hget : ∀ e : Entry G F D P, facetsOf proto e = e.surface.getD proto.surface := by
    intro e; unfold facetsOf; cases e.surface <;> rfl
  have hc := (C82_check_iff proto hs).1 hc
  rw [C134_loads]
  refine and_congr_right fun h => ?_
  have own : ∀ x ∈ gs.flatMap (·.heliostats), ∃ e, (x.name, e) ∈ hs ∧ x.facets.Perm ((e.surface.getD proto.surface).map (·.2)) := by
    intro x hx
    obtain ⟨e, he, _, _, hf⟩ := C46_contents le proto hs ho gs h x hx
    exact ⟨e, he, hf _ rfl (hu _ he).1 (hu _ he).2⟩
  constructor
  · rintro ⟨h1, h2⟩
    refine ⟨?_, fun hch g hg x hx y hy => (h2 g hg x hx y hy).2 hch⟩
    intro h' hm f hf f' hf'
    obtain ⟨_, c2, _⟩ := C44_count_partial le proto hs ho gs h
    have : h'.1 ∈ (gs.flatMap (·.heliostats)).map (·.name) := c2.mem_iff.2 (List.mem_map.2 ⟨h', hm, rfl⟩)
    obtain ⟨x, hx, hn⟩ := List.mem_map.1 this
    obtain ⟨e, he, hp⟩ := own x hx
    have heq := List.inj_on_of_nodup_map ho.names he hm (by simpa using hn)
    subst heq
    obtain ⟨g, hg, hxg⟩ := List.mem_flatMap.1 hx
    exact h1 g hg x hxg f.2 (hp.mem_iff.2 (List.mem_map.2 ⟨f, hf, rfl⟩)) f'.2 (hp.mem_iff.2 (List.mem_map.2 ⟨f', hf', rfl⟩))
  · rintro ⟨h1, h2⟩
    have len : ∀ g ∈ gs, ∀ x ∈ g.heliostats, x.facets.length = proto.surface.length := by
      intro g hg x hx
      obtain ⟨e, he, hp⟩ := own x (List.mem_flatMap.2 ⟨g, hg, hx⟩)
      rw [hp.length_eq, List.length_map, ← hget]
      exact hc _ he
    refine ⟨?_, fun g hg x hx y hy => ⟨by rw [len g hg x hx, len g hg y hy], fun hch => h2 hch g hg x hx y hy⟩⟩
    intro g hg x hx f hf f' hf'
    obtain ⟨e, he, hp⟩ := own x (List.mem_flatMap.2 ⟨g, hg, hx⟩)
    obtain ⟨q, hq, rfl⟩ := List.mem_map.1 (hp.mem_iff.1 hf)
    obtain ⟨q', hq', rfl⟩ := List.mem_map.1 (hp.mem_iff.1 hf')
    exact h1 _ he q hq q' hq'

end

/-! ### Concrete fields: the data of a facet is its number of control points in both directions -/

/-- The size in the examples. -/
def squareSize (n : Nat) : Nat × Nat := (n, n)
/-- A surface of four facets with `n` by `n` control points. -/
def fourFacets (n : Nat) : List (Name × Facet Nat Nat) := [("1".toList, ⟨3, n⟩), ("2".toList, ⟨3, n⟩), ("3".toList, ⟨3, n⟩), ("4".toList, ⟨3, n⟩)]
/-- A prototype with four facets, 10 by 10 control points, linear actuators. -/
def protoFour : Prototype Nat Nat Nat Nat := ⟨fourFacets 10, ⟨rigidBody, 0⟩, pair linear⟩
/-- A heliostat from the prototype and one with its own surface, kinematics and actuators of type `t`. -/
def twoHeliostats (l : List (Name × Facet Nat Nat)) (t : Name) : List (Name × Entry Nat Nat Nat Nat) :=
  [("AA".toList, ⟨none, none, none⟩), ("AB".toList, ⟨some l, some ⟨rigidBody, 7⟩, some (pair t)⟩)]

/-- Same make: loads.  Other number of control points: fails, unless it is changed on loading or the actuators differ.  One facet: fails even if the number
is changed, but not if the actuators differ.  Facets of two sizes on one heliostat: always fails. -/
theorem C134_cases :
    summary (loadScenarioShapes squareSize none lexLe protoFour (twoHeliostats (fourFacets 10) linear)) = .ok [(["AA".toList, "AB".toList], 3)] ∧
    summary (loadScenarioShapes squareSize none lexLe protoFour (twoHeliostats (fourFacets 20) linear)) = .error .runtimeError ∧
    summary (loadScenarioShapes squareSize (some (7, 7)) lexLe protoFour (twoHeliostats (fourFacets 20) linear)) = .ok [(["AA".toList, "AB".toList], 3)] ∧
    summary (loadScenarioShapes squareSize none lexLe protoFour (twoHeliostats (fourFacets 20) ideal)) = .ok [(["AA".toList], 3), (["AB".toList], 3)] ∧
    summary (loadScenarioShapes squareSize (some (7, 7)) lexLe protoFour (twoHeliostats [("1".toList, ⟨3, 10⟩)] linear)) = .error .runtimeError ∧
    summary (loadScenarioShapes squareSize none lexLe protoFour (twoHeliostats [("1".toList, ⟨3, 10⟩)] ideal)) = .ok [(["AA".toList], 3), (["AB".toList], 3)] ∧
    summary (loadScenarioShapes squareSize (some (7, 7)) lexLe protoFour (twoHeliostats [("1".toList, ⟨3, 10⟩), ("2".toList, ⟨3, 11⟩)] ideal)) =
      .error .runtimeError := by
  refine ⟨?_, ?_, ?_, ?_, ?_, ?_, ?_⟩ <;> decide +kernel

/-- What the check of the generator lets through although it cannot be loaded: another number of control points, and four facets two of which share a key. -/
theorem C134_unchecked :
    checkFacets protoFour (twoHeliostats (fourFacets 20) linear) = .ok () ∧
    summary (loadScenarioShapes squareSize none lexLe protoFour (twoHeliostats (fourFacets 20) linear)) = .error .runtimeError ∧
    checkFacets protoFour (twoHeliostats (("1".toList, ⟨3, 10⟩) :: (fourFacets 10).take 3) linear) = .ok () ∧
    summary (loadScenarioShapes squareSize none lexLe protoFour (twoHeliostats (("1".toList, ⟨3, 10⟩) :: (fourFacets 10).take 3) linear)) =
      .error .runtimeError := by
  refine ⟨?_, ?_, ?_, ?_⟩ <;> decide +kernel

/-- The hypotheses of `C134_facets_differ`, `C134_generated` and `C134_uniform` hold for such fields. -/
theorem sample_orderly (l : List (Name × Facet Nat Nat)) (t : Name) : Orderly protoFour (twoHeliostats l t) := by
  refine ⟨?_, by decide +kernel, ?_⟩
  · simp only [twoHeliostats, List.map_cons, List.map_nil]; decide
  · intro h hm l' hl'
    simp only [twoHeliostats, List.mem_cons, List.not_mem_nil, or_false] at hm
    rcases hm with rfl | rfl
    · cases hl'
    · cases hl'; simp [pair]

example (gs : List (Group Nat Nat Nat Nat)) :
    loadScenarioShapes squareSize none lexLe protoFour (twoHeliostats [("1".toList, ⟨3, 10⟩)] linear) ≠ .ok gs :=
  C134_facets_differ squareSize none lexLe protoFour _ (sample_orderly _ _) ("AA".toList, ⟨none, none, none⟩)
    ("AB".toList, ⟨some [("1".toList, ⟨3, 10⟩)], some ⟨rigidBody, 7⟩, some (pair linear)⟩) (by simp [twoHeliostats]) (by simp [twoHeliostats])
    ("actuator_1".toList, ⟨linear, 1⟩) ("actuator_1".toList, ⟨linear, 1⟩) (by simp [protoFour, pair]) (by simp [pair]) rfl
    (fourFacets 10) [("1".toList, ⟨3, 10⟩)] rfl rfl (by decide) (by decide) (by decide +kernel) (by decide) (by decide) gs

example : ∀ gs, loadScenarioShapes squareSize none lexLe protoFour (twoHeliostats (fourFacets 10) linear) = .ok gs ↔
    loadScenario lexLe protoFour (twoHeliostats (fourFacets 10) linear) = .ok gs := by
  refine C134_uniform squareSize none lexLe protoFour _ (sample_orderly _ _) 4 (10, 10) ?_
  intro h hm
  simp only [twoHeliostats, List.mem_cons, List.not_mem_nil, or_false] at hm
  rcases hm with rfl | rfl
  · refine ⟨by decide, by decide +kernel, rfl, ?_⟩
    intro f hf; simp [protoFour, fourFacets] at hf; rcases hf with rfl | rfl | rfl | rfl <;> rfl
  · refine ⟨by decide, by decide +kernel, rfl, ?_⟩
    intro f hf; simp [fourFacets] at hf; rcases hf with rfl | rfl | rfl | rfl <;> rfl

example : ∃ gs, loadScenarioShapes squareSize (some (7, 7)) lexLe protoFour (twoHeliostats (fourFacets 20) linear) = .ok gs ∧
    Orderly protoFour (twoHeliostats (fourFacets 20) linear) ∧ checkFacets protoFour (twoHeliostats (fourFacets 20) linear) = .ok () ∧
    ∀ h ∈ twoHeliostats (fourFacets 20) linear, h.2.surface.getD protoFour.surface ≠ [] ∧ ((h.2.surface.getD protoFour.surface).map (·.1)).Nodup := by
  have hs := C134_cases.2.2.1
  unfold summary at hs
  split at hs
  · cases hs
  · rename_i gs hgs
    refine ⟨gs, hgs, sample_orderly _ _, C134_unchecked.1, ?_⟩
    intro h hm
    simp only [twoHeliostats, List.mem_cons, List.not_mem_nil, or_false] at hm
    rcases hm with rfl | rfl <;> exact ⟨by decide, by decide +kernel⟩

end Artist.Field
