import Verif.Proofs.Field
import Mathlib.Data.List.Sort
/-!
# C44, C46, C61: heliostat fields written to a file and loaded
-/
namespace Artist.Field
open Artist

section
variable {G F D P : Type}

theorem setAdd_spec {A : Type} [DecidableEq A] (s : List A) (a : A) (h : s.Nodup) :
    (setAdd s a).Nodup ∧ ∀ b, b ∈ setAdd s a ↔ b ∈ s ∨ b = a := by
  unfold setAdd
  split
  · rename_i hm
    refine ⟨h, fun b => ⟨Or.inl, ?_⟩⟩
    rintro (hb | rfl)
    · exact hb
    · exact hm
  · rename_i hm
    refine ⟨?_, by simp⟩
    rw [List.nodup_append]
    exact ⟨h, by simp, by intro x hx y hy; simp at hy; subst hy; rintro rfl; exact hm hx⟩

theorem fold_setAdd {A B : Type} [DecidableEq A] (f : B → A) (l : List B) (s : List A) (h : s.Nodup) :
    (l.foldl (fun s b => setAdd s (f b)) s).Nodup ∧ ∀ a, a ∈ l.foldl (fun s b => setAdd s (f b)) s ↔ a ∈ s ∨ ∃ b ∈ l, a = f b := by
  induction l generalizing s with
  | nil => exact ⟨h, by simp⟩
  | cons b bs ih =>
    rw [List.foldl_cons]
    obtain ⟨h1, h2⟩ := setAdd_spec s (f b) h
    obtain ⟨h3, h4⟩ := ih _ h1
    refine ⟨h3, fun a => ?_⟩
    rw [h4, h2]
    simp [or_assoc]

/-- The kinematics type of a heliostat: its own or that of the prototype. -/
def kinematicsOf (proto : Prototype G F D P) (e : Entry G F D P) : Kin D := e.kinematics.getD proto.kinematics
/-- The actuators of a heliostat: its own or those of the prototype. -/
def actuatorsOf (proto : Prototype G F D P) (e : Entry G F D P) : List (Name × Act P) := e.actuators.getD proto.actuators

/-- The stored number is the number of distinct pairs of kinematics type and actuator type. -/
theorem numberOfGroups_spec (proto : Prototype G F D P) (hs : List (Name × Entry G F D P)) :
    ∃ s : List (Name × Name), s.Nodup ∧ s.length = numberOfGroups proto hs ∧
      ∀ k a, (k, a) ∈ s ↔ ∃ h ∈ hs, k = (kinematicsOf proto h.2).type ∧ ∃ b ∈ actuatorsOf proto h.2, a = b.2.type := by
  refine ⟨hs.foldl (fun groups h => (actuatorsOf proto h.2).foldl (fun groups a => setAdd groups ((kinematicsOf proto h.2).type, a.2.type)) groups) [],
    ?_, ?_, ?_⟩
  rotate_left
  · unfold numberOfGroups
    congr 2
    funext groups h
    unfold kinematicsOf actuatorsOf
    cases h.2.kinematics <;> cases h.2.actuators <;> rfl
  all_goals
    have main : ∀ (hs : List (Name × Entry G F D P)) (s : List (Name × Name)), s.Nodup →
        (hs.foldl (fun groups h => (actuatorsOf proto h.2).foldl (fun groups a => setAdd groups ((kinematicsOf proto h.2).type, a.2.type)) groups) s).Nodup ∧
        ∀ k a, (k, a) ∈ hs.foldl (fun groups h => (actuatorsOf proto h.2).foldl
          (fun groups a => setAdd groups ((kinematicsOf proto h.2).type, a.2.type)) groups) s ↔
          (k, a) ∈ s ∨ ∃ h ∈ hs, k = (kinematicsOf proto h.2).type ∧ ∃ b ∈ actuatorsOf proto h.2, a = b.2.type := by
      intro hs
      induction hs with
      | nil => intro s h; exact ⟨h, by simp⟩
      | cons h hs ih =>
        intro s hn
        rw [List.foldl_cons]
        obtain ⟨h1, h2⟩ := fold_setAdd (fun b : Name × Act P => ((kinematicsOf proto h.2).type, b.2.type)) (actuatorsOf proto h.2) s hn
        obtain ⟨h3, h4⟩ := ih _ h1
        refine ⟨h3, fun k a => ?_⟩
        rw [h4, h2]
        simp only [Prod.mk.injEq, List.mem_cons, exists_eq_or_imp, or_assoc]
        constructor
        · rintro (h | ⟨b, hb, rfl, rfl⟩ | h)
          · exact Or.inl h
          · exact Or.inr (Or.inl ⟨rfl, b, hb, rfl⟩)
          · exact Or.inr (Or.inr h)
        · rintro (h | ⟨rfl, b, hb, rfl⟩ | h)
          · exact Or.inl h
          · exact Or.inr (Or.inl ⟨b, hb, rfl, rfl⟩)
          · exact Or.inr (Or.inr h)
  · intro k a
    rw [(main hs [] List.nodup_nil).2]
    simp
  · exact (main hs [] List.nodup_nil).1

/-- Files keep every heliostat, in some order. -/
theorem stored_perm (le : Name → Name → Bool) (hs : List (Name × Entry G F D P)) (hn : (hs.map (·.1)).Nodup) :
    (stored le hs).Perm (hs.map fun h => (h.1, storedEntry le h.2)) := by
  unfold stored
  rw [Flatten.toDict_nodup]
  · exact h5order_perm le _
  · rw [List.map_map]; exact hn

/-- A list of heliostats as a user would write it: names and keys are unambiguous and no list of actuators is empty. -/
structure Orderly (proto : Prototype G F D P) (hs : List (Name × Entry G F D P)) : Prop where
  names : (hs.map (·.1)).Nodup
  prototypeKeys : (proto.actuators.map (·.1)).Nodup
  keys : ∀ h ∈ hs, ∀ l, h.2.actuators = some l → l ≠ [] ∧ (l.map (·.1)).Nodup

/-- What is loaded has the types that the configuration says. -/
theorem own_types {le : Name → Name → Bool} {proto : Prototype G F D P} {protos : Prototypes G F D P} (hp : loadPrototypes le proto = .ok protos)
    (hkeys : (proto.actuators.map (·.1)).Nodup) {h : Name × Entry G F D P}
    (hl : ∀ l, h.2.actuators = some l → l ≠ [] ∧ (l.map (·.1)).Nodup) {x : Loaded G F D P} (ho : Own protos (h.1, storedEntry le h.2) x) :
    x.kinematicsType = (kinematicsOf proto h.2).type ∧ actuatorsOf proto h.2 ≠ [] ∧ ∀ a ∈ actuatorsOf proto h.2, a.2.type = x.actuatorType := by
  obtain ⟨hk1, hk2, _, l, t, hsl, htl, hlen, _, hpa⟩ := loadPrototypes_ok hp
  refine ⟨?_, ?_⟩
  · have := ho.kinematics
    unfold kinematicsOf
    simp only [storedEntry] at this
    cases hk : h.2.kinematics with
    | some k => rw [hk] at this; exact this.1
    | none => rw [hk, hk2] at this; rw [Option.some.inj this]; rfl
  · have := ho.actuators
    unfold actuatorsOf
    simp only [storedEntry] at this
    cases ha : h.2.actuators with
    | none =>
      rw [ha] at this
      simp only [Option.bind_none, hpa, Option.some.injEq, Prod.mk.injEq] at this
      have hne : proto.actuators ≠ [] := by
        intro he; rw [he] at hsl; cases hsl
      obtain ⟨m, hm, hperm⟩ := storedList_nodup le proto.actuators hkeys hne
      rw [hsl] at hm; cases hm
      refine ⟨hne, fun a ham => ?_⟩
      rw [← this.1]; exact htl a (hperm.mem_iff.2 ham)
    | some l' =>
      obtain ⟨hne, hnd⟩ := hl l' ha
      obtain ⟨m, hm, hperm⟩ := storedList_nodup le l' hnd hne
      rw [ha] at this
      simp only [Option.bind_some, hm] at this
      exact ⟨hne, fun a ham => this.2.2 a (hperm.mem_iff.2 ham)⟩

theorem forall₂_mem_left {A B : Type} {R : A → B → Prop} {l : List A} {m : List B} (h : List.Forall₂ R l m) : ∀ a ∈ l, ∃ b ∈ m, R a b := by
  induction h with
  | nil => intro a ha; cases ha
  | cons h1 _ ih =>
    intro a ha
    rcases List.mem_cons.1 ha with rfl | ha
    · exact ⟨_, by simp, h1⟩
    · obtain ⟨b, hb, hr⟩ := ih a ha; exact ⟨b, by simp [hb], hr⟩

theorem forall₂_mem_right {A B : Type} {R : A → B → Prop} {l : List A} {m : List B} (h : List.Forall₂ R l m) : ∀ b ∈ m, ∃ a ∈ l, R a b := by
  induction h with
  | nil => intro a ha; cases ha
  | cons h1 _ ih =>
    intro a ha
    rcases List.mem_cons.1 ha with rfl | ha
    · exact ⟨_, by simp, h1⟩
    · obtain ⟨b, hb, hr⟩ := ih a ha; exact ⟨b, by simp [hb], hr⟩

theorem own_names {protos : Prototypes G F D P} {file : List (Name × Entry G F D P)} {xs : List (Loaded G F D P)}
    (h : List.Forall₂ (Own protos) file xs) : xs.map (·.name) = file.map (·.1) := by
  induction h with
  | nil => rfl
  | cons h1 _ ih => simp [h1.name, ih]

theorem groups_flat {gs : List (Group G F D P)} {d : List (Name × List (Loaded G F D P))} (h : gs.map (·.heliostats) = d.map (·.2)) :
    gs.flatMap (·.heliostats) = d.flatMap (·.2) := by
  rw [List.flatMap_def, List.flatMap_def, h]

/-- If a generated scenario loads at all, and names and keys are unambiguous and no list of individual actuators is empty, then the stored number is the
number of groups loaded; every heliostat is in exactly one group (the names in all groups together are the names of the list); no group is
empty; heliostats of a group share both types; heliostats of different groups do not; and the types are those configured.  (Full claim: without the
hypothesis `Orderly`, and for all configurations the generator accepts; see `C44_empty_list`, `C44_same_name`, `C44_mixed_raises`.) -/
theorem C44_count_partial (le : Name → Name → Bool) (proto : Prototype G F D P) (hs : List (Name × Entry G F D P)) (ho : Orderly proto hs)
    (gs : List (Group G F D P)) (h : loadScenario le proto hs = .ok gs) :
    gs.length = numberOfGroups proto hs ∧
    ((gs.flatMap (·.heliostats)).map (·.name)).Perm (hs.map (·.1)) ∧
    (∀ g ∈ gs, g.heliostats ≠ []) ∧
    (∀ g ∈ gs, ∀ x ∈ g.heliostats, ∀ y ∈ g.heliostats, x.kinematicsType = y.kinematicsType ∧ x.actuatorType = y.actuatorType) ∧
    (gs.Pairwise fun g g' => ∀ x ∈ g.heliostats, ∀ y ∈ g'.heliostats, (x.kinematicsType, x.actuatorType) ≠ (y.kinematicsType, y.actuatorType)) ∧
    (∀ x ∈ gs.flatMap (·.heliostats), ∃ e, (x.name, e) ∈ hs ∧ x.kinematicsType = (kinematicsOf proto e).type ∧
      ∀ a ∈ actuatorsOf proto e, a.2.type = x.actuatorType) := by
  obtain ⟨protos, xs, hp, hown, hne, hgs, _, _⟩ := loadScenario_ok h
  obtain ⟨g1, g2, g3⟩ := grouped_spec xs
  have hperm := stored_perm le hs ho.names
  have hrigid : ∀ x ∈ xs, x.kinematicsType = rigidBody := by
    intro x hx; obtain ⟨a, _, hr⟩ := forall₂_mem_right hown x hx; exact hr.rigid
  have hkey : ∀ x ∈ xs, ∀ y ∈ xs, groupKey x = groupKey y → x.actuatorType = y.actuatorType := by
    intro x hx y hy he
    unfold groupKey at he
    rw [hrigid x hx, hrigid y hy] at he
    exact List.append_cancel_left he
  have hlen : gs.length = (grouped xs).length := by
    have := congrArg List.length hgs; simpa using this
  have hflat := groups_flat hgs
  have hmemg : ∀ g ∈ gs, ∃ e ∈ grouped xs, g.heliostats = e.2 := by
    intro g hg
    have : g.heliostats ∈ (grouped xs).map (·.2) := by rw [← hgs]; exact List.mem_map.2 ⟨g, hg, rfl⟩
    obtain ⟨e, he, h'⟩ := List.mem_map.1 this
    exact ⟨e, he, h'.symm⟩
  have hcfg : ∀ x ∈ xs, ∃ e, (x.name, e) ∈ hs ∧ x.kinematicsType = (kinematicsOf proto e).type ∧ actuatorsOf proto e ≠ [] ∧
      ∀ a ∈ actuatorsOf proto e, a.2.type = x.actuatorType := by
    intro x hx
    obtain ⟨a, ha, hr⟩ := forall₂_mem_right hown x hx
    obtain ⟨b, hb, rfl⟩ := List.mem_map.1 (hperm.mem_iff.1 ha)
    obtain ⟨t1, t2, t3⟩ := own_types hp ho.prototypeKeys (ho.keys b hb) hr
    refine ⟨b.2, ?_, t1, t2, t3⟩
    rw [hr.name]; exact hb
  refine ⟨?_, ?_, ?_, ?_, ?_, ?_⟩
  · obtain ⟨s, hs1, hs2, hs3⟩ := numberOfGroups_spec proto hs
    rw [hlen, ← hs2, ← List.length_map (f := (·.1)) (as := grouped xs), ← List.length_map (f := fun p : Name × Name => p.1 ++ ['_'] ++ p.2) (as := s)]
    have hsk : ∀ p ∈ s, ∃ x ∈ xs, x.kinematicsType = p.1 ∧ x.actuatorType = p.2 := by
      intro p hpm
      obtain ⟨b, hb, hk, c, hc, ha⟩ := (hs3 p.1 p.2).1 hpm
      obtain ⟨x, hx, hr⟩ := forall₂_mem_left hown _ (hperm.mem_iff.2 (List.mem_map.2 ⟨b, hb, rfl⟩))
      obtain ⟨t1, _, t3⟩ := own_types hp ho.prototypeKeys (ho.keys b hb) hr
      exact ⟨x, hx, t1.trans hk.symm, (t3 c hc).symm.trans ha.symm⟩
    apply List.Perm.length_eq
    rw [List.perm_ext_iff_of_nodup g1]
    · intro k
      rw [g2 k, List.mem_map, List.mem_map]
      constructor
      · rintro ⟨x, hx, rfl⟩
        obtain ⟨e, he, t1, t2, t3⟩ := hcfg x hx
        refine ⟨(x.kinematicsType, x.actuatorType), ?_, rfl⟩
        rw [hs3]
        cases hact : actuatorsOf proto e with
        | nil => exact absurd hact t2
        | cons a as => exact ⟨_, he, t1, a, by simp [hact], (t3 a (by simp [hact])).symm⟩
      · rintro ⟨p, hpm, rfl⟩
        obtain ⟨x, hx, h1, h2⟩ := hsk p hpm
        exact ⟨x, hx, by unfold groupKey; rw [h1, h2]⟩
    · apply List.Nodup.map_on _ hs1
      intro p hpm q hqm he
      obtain ⟨x, hx, h1, h2⟩ := hsk p hpm
      obtain ⟨y, hy, h3, h4⟩ := hsk q hqm
      rw [← h1, ← h2, ← h3, ← h4] at he
      have := hkey x hx y hy he
      exact Prod.ext (by rw [← h1, ← h3, hrigid x hx, hrigid y hy]) (by rw [← h2, ← h4, this])
  · rw [hflat]
    refine ((grouped_perm xs).map _).trans ?_
    rw [own_names hown]
    refine (hperm.map _).trans ?_
    rw [List.map_map]; exact .refl _
  · intro g hg
    obtain ⟨e, he, h'⟩ := hmemg g hg
    rw [h', g3 e he]
    obtain ⟨x, hx, hk⟩ := List.mem_map.1 ((g2 e.1).1 (List.mem_map.2 ⟨e, he, rfl⟩))
    exact List.ne_nil_of_mem (List.mem_filter.2 ⟨hx, by simpa using hk⟩)
  · intro g hg x hx y hy
    obtain ⟨e, he, h'⟩ := hmemg g hg
    rw [h', g3 e he, List.mem_filter] at hx hy
    refine ⟨by rw [hrigid x hx.1, hrigid y hy.1], hkey x hx.1 y hy.1 ?_⟩
    simp only [decide_eq_true_eq] at hx hy
    rw [hx.2, hy.2]
  · have hpw : (gs.map (·.heliostats)).Pairwise (fun l m => ∀ x ∈ l, ∀ y ∈ m, (x.kinematicsType, x.actuatorType) ≠ (y.kinematicsType, y.actuatorType)) := by
      rw [hgs]
      rw [List.pairwise_map]
      have hk' : (grouped xs).Pairwise (fun a b => a.1 ≠ b.1) := by
        have := g1; rw [List.Nodup, List.pairwise_map] at this; exact this
      refine List.Pairwise.imp_of_mem ?_ hk'
      intro a b ha hb hab x hx y hy heq
      rw [g3 a ha, List.mem_filter] at hx
      rw [g3 b hb, List.mem_filter] at hy
      simp only [decide_eq_true_eq] at hx hy
      apply hab
      rw [← hx.2, ← hy.2]
      unfold groupKey
      rw [(Prod.mk.inj heq).1, (Prod.mk.inj heq).2]
    rw [List.pairwise_map] at hpw
    exact hpw
  · intro x hx
    rw [hflat] at hx
    obtain ⟨e, he, t1, _, t3⟩ := hcfg x ((grouped_perm xs).mem_iff.1 hx)
    exact ⟨e, he, t1, t3⟩

/-- Whatever is configured, a loaded field has one or two groups: rigid body kinematics with linear or with ideal actuators. -/
theorem C44_at_most_two (le : Name → Name → Bool) (proto : Prototype G F D P) (hs : List (Name × Entry G F D P)) (gs : List (Group G F D P))
    (h : loadScenario le proto hs = .ok gs) : 1 ≤ gs.length ∧ gs.length ≤ 2 ∧
      ∀ x ∈ gs.flatMap (·.heliostats), x.kinematicsType = "rigid_body".toList ∧ (x.actuatorType = "linear".toList ∨ x.actuatorType = "ideal".toList) := by
  obtain ⟨protos, xs, hp, hown, hne, hgs, _, hreg⟩ := loadScenario_ok h
  obtain ⟨g1, g2, g3⟩ := grouped_spec xs
  have hlen : gs.length = (grouped xs).length := by
    have := congrArg List.length hgs; simpa using this
  refine ⟨?_, ?_, ?_⟩
  · rw [hlen]
    cases xs with
    | nil => exact absurd rfl hne
    | cons x xs =>
      have : groupKey x ∈ (grouped (x :: xs)).map (·.1) := (g2 _).2 (by simp)
      have := List.length_pos_of_mem this
      rw [List.length_map] at this
      omega
  · rw [hlen, ← List.length_map (f := (·.1)) (as := grouped xs)]
    have hsub : (grouped xs).map (·.1) ⊆ registry := by
      intro k hk; obtain ⟨e, he, rfl⟩ := List.mem_map.1 hk; exact hreg e he
    exact (List.subperm_of_subset g1 hsub).length_le
  · intro x hx
    rw [groups_flat hgs] at hx
    have hx' := (grouped_perm xs).mem_iff.1 hx
    obtain ⟨a, _, hr⟩ := forall₂_mem_right hown x hx'
    refine ⟨hr.rigid, ?_⟩
    obtain ⟨e, he, hek⟩ := List.mem_map.1 ((g2 (groupKey x)).2 (List.mem_map.2 ⟨x, hx', rfl⟩))
    have := hreg e he
    rw [hek] at this
    unfold groupKey registry at this
    rw [hr.rigid] at this
    simp only [List.mem_cons, List.not_mem_nil, or_false] at this
    rcases this with h | h
    · exact Or.inl (List.append_cancel_left h)
    · exact Or.inr (List.append_cancel_left h)

/-- A heliostat with actuators of different types makes the generator count each type, but the scenario cannot be loaded. -/
theorem C44_mixed_raises (le : Name → Name → Bool) (proto : Prototype G F D P) (hs : List (Name × Entry G F D P)) (ho : Orderly proto hs)
    (h : Name × Entry G F D P) (hm : h ∈ hs) (l : List (Name × Act P)) (hl : h.2.actuators = some l) (a b : Name × Act P) (ha : a ∈ l) (hb : b ∈ l)
    (hab : a.2.type ≠ b.2.type) (gs : List (Group G F D P)) : loadScenario le proto hs ≠ .ok gs := by
  intro hok
  obtain ⟨_, h2, _, _, _, h6⟩ := C44_count_partial le proto hs ho gs hok
  have : h.1 ∈ (gs.flatMap (·.heliostats)).map (·.name) := h2.mem_iff.2 (List.mem_map.2 ⟨h, hm, rfl⟩)
  obtain ⟨x, hx, hn⟩ := List.mem_map.1 this
  obtain ⟨e, he, _, ht⟩ := h6 x hx
  have heq : e = h.2 := by
    have hinj := List.inj_on_of_nodup_map ho.names he hm (by simp [hn])
    rw [← hinj]
  subst heq
  unfold actuatorsOf at ht
  rw [hl] at ht
  exact hab ((ht a ha).trans (ht b hb).symm)

end

/-! ### Concrete fields -/

/-- Two actuators of one type. -/
def pair (t : Name) : List (Name × Act Nat) := [("actuator_1".toList, ⟨t, 1⟩), ("actuator_2".toList, ⟨t, 2⟩)]
/-- A prototype: one facet of degree 3, rigid body, linear actuators. -/
def protoExample : Prototype Nat Nat Nat Nat := ⟨[("f".toList, ⟨3, 0⟩)], ⟨rigidBody, 0⟩, pair linear⟩
/-- Three heliostats: individual kinematics and ideal actuators, everything from the prototype, individual surface of degree 2. -/
def fieldExample : List (Name × Entry Nat Nat Nat Nat) :=
  [("AA".toList, ⟨none, some ⟨rigidBody, 7⟩, some (pair ideal)⟩), ("AB".toList, ⟨none, none, none⟩), ("AC".toList, ⟨some [("f".toList, ⟨2, 5⟩)], none, none⟩)]

/-- The names in the groups of a loaded field, with the degrees of the groups. -/
def summary (r : Except PyErr (List (Group Nat Nat Nat Nat))) : Except PyErr (List (List Name × Nat)) :=
  match r with
  | .error e => .error e
  | .ok gs => .ok (gs.map fun g => (g.heliostats.map (·.name), g.degrees))

example : Orderly protoExample fieldExample ∧ numberOfGroups protoExample fieldExample = 2 ∧
    summary (loadScenario lexLe protoExample fieldExample) = .ok [(["AA".toList], 2), (["AB".toList, "AC".toList], 2)] := by
  refine ⟨⟨by decide +kernel, by decide +kernel, ?_⟩, by decide +kernel, by decide +kernel⟩
  intro h hm l hl
  simp only [fieldExample, List.mem_cons, List.not_mem_nil, or_false] at hm
  rcases hm with rfl | rfl | rfl
  · cases hl; decide
  · cases hl
  · cases hl

/-- An empty list of individual actuators counts for no group, but is not stored, so the heliostat is loaded with the prototype's actuators: one group
advertised, two loaded. -/
theorem C44_empty_list :
    numberOfGroups protoExample [("AA".toList, ⟨none, some ⟨rigidBody, 7⟩, some (pair ideal)⟩), ("AB".toList, ⟨none, none, some []⟩)] = 1 ∧
    summary (loadScenario lexLe protoExample [("AA".toList, ⟨none, some ⟨rigidBody, 7⟩, some (pair ideal)⟩), ("AB".toList, ⟨none, none, some []⟩)])
      = .ok [(["AA".toList], 3), (["AB".toList], 3)] := by constructor <;> decide +kernel

/-- Two heliostats of one name count twice but only the last is stored: two groups advertised, one loaded. -/
theorem C44_same_name :
    numberOfGroups protoExample [("AA".toList, ⟨none, some ⟨rigidBody, 7⟩, some (pair ideal)⟩), ("AA".toList, ⟨none, none, none⟩)] = 2 ∧
    summary (loadScenario lexLe protoExample [("AA".toList, ⟨none, some ⟨rigidBody, 7⟩, some (pair ideal)⟩), ("AA".toList, ⟨none, none, none⟩)])
      = .ok [(["AA".toList], 3)] := by constructor <;> decide +kernel

example : numberOfGroups protoExample [("AA".toList, ⟨none, some ⟨rigidBody, 7⟩, some [("1".toList, ⟨linear, 1⟩), ("2".toList, ⟨ideal, 1⟩)]⟩)] = 2 ∧
    summary (loadScenario lexLe protoExample [("AA".toList, ⟨none, some ⟨rigidBody, 7⟩, some [("1".toList, ⟨linear, 1⟩), ("2".toList, ⟨ideal, 1⟩)]⟩)])
      = .error .valueError := by constructor <;> decide +kernel

/-! ### Independence -/
section
variable {G F D P : Type}

/-- If two scenarios with the same prototypes load, a heliostat with the same entry in both is loaded identically, once in each: name, types, kinematics,
actuators and facets do not depend on the other heliostats or their order.  (Full claim: also whether it loads at all, see `C46_needs_other`, and
the NURBS degrees, see `C46_degrees_shared`.) -/
theorem C46_same_partial (le : Name → Name → Bool) (proto : Prototype G F D P) (hs hs' : List (Name × Entry G F D P)) (hn : (hs.map (·.1)).Nodup)
    (hn' : (hs'.map (·.1)).Nodup) (gs gs' : List (Group G F D P)) (h : loadScenario le proto hs = .ok gs) (h' : loadScenario le proto hs' = .ok gs')
    (name : Name) (e : Entry G F D P) (hm : (name, e) ∈ hs) (hm' : (name, e) ∈ hs') :
    ∃ x, (∀ y ∈ gs.flatMap (·.heliostats), y.name = name → y = x) ∧ x ∈ gs.flatMap (·.heliostats) ∧
      (∀ y ∈ gs'.flatMap (·.heliostats), y.name = name → y = x) ∧ x ∈ gs'.flatMap (·.heliostats) ∧ x.name = name := by
  have key : ∀ (hs : List (Name × Entry G F D P)) (gs : List (Group G F D P)), (hs.map (·.1)).Nodup → loadScenario le proto hs = .ok gs → (name, e) ∈ hs →
      ∃ protos x, loadPrototypes le proto = .ok protos ∧ Own protos (name, storedEntry le e) x ∧ x ∈ gs.flatMap (·.heliostats) ∧
        ∀ y ∈ gs.flatMap (·.heliostats), y.name = name → y = x := by
    intro hs gs hn h hm
    obtain ⟨protos, xs, hp, hown, _, hgs, _, _⟩ := loadScenario_ok h
    have hperm := stored_perm le hs hn
    obtain ⟨x, hx, hr⟩ := forall₂_mem_left hown _ (hperm.mem_iff.2 (List.mem_map.2 ⟨_, hm, rfl⟩))
    refine ⟨protos, x, hp, hr, ?_, ?_⟩
    · rw [groups_flat hgs]; exact (grouped_perm xs).mem_iff.2 hx
    · intro y hy hyn
      rw [groups_flat hgs] at hy
      obtain ⟨a, ha, hry⟩ := forall₂_mem_right hown y ((grouped_perm xs).mem_iff.1 hy)
      obtain ⟨b, hb, rfl⟩ := List.mem_map.1 (hperm.mem_iff.1 ha)
      have hbn : b.1 = name := hry.name.symm.trans hyn
      have := List.inj_on_of_nodup_map hn hb hm hbn
      subst this
      exact hry.unique hr
  obtain ⟨p1, x, hp1, o1, m1, u1⟩ := key hs gs hn h hm
  obtain ⟨p2, y, hp2, o2, m2, u2⟩ := key hs' gs' hn' h' hm'
  rw [hp1] at hp2; cases hp2
  have := o1.unique o2
  subst this
  exact ⟨x, u1, m1, u2, m2, o1.name⟩

/-- What is loaded for a heliostat: its own facets, kinematics and actuators where its entry has them, otherwise those of the prototype.  Stated for
unambiguous keys; lists come back in some order (see C61). -/
theorem C46_contents (le : Name → Name → Bool) (proto : Prototype G F D P) (hs : List (Name × Entry G F D P)) (ho : Orderly proto hs)
    (gs : List (Group G F D P)) (h : loadScenario le proto hs = .ok gs) (x : Loaded G F D P) (hx : x ∈ gs.flatMap (·.heliostats)) :
    ∃ e, (x.name, e) ∈ hs ∧ x.kinematics = (e.kinematics.getD proto.kinematics).data ∧
      x.actuators.Perm ((e.actuators.getD proto.actuators).map (fun a => a.2.params)) ∧
      ∀ l, e.surface.getD proto.surface = l → l ≠ [] → (l.map (·.1)).Nodup → x.facets.Perm (l.map (·.2)) := by
  obtain ⟨protos, xs, hp, hown, _, hgs, _, _⟩ := loadScenario_ok h
  obtain ⟨hk1, hk2, ⟨fl, hfl, hps⟩, l, t, hsl, htl, hlen, _, hpa⟩ := loadPrototypes_ok hp
  rw [groups_flat hgs] at hx
  obtain ⟨a, ha, hr⟩ := forall₂_mem_right hown x ((grouped_perm xs).mem_iff.1 hx)
  obtain ⟨b, hb, rfl⟩ := List.mem_map.1 ((stored_perm le hs ho.names).mem_iff.1 ha)
  refine ⟨b.2, by rw [hr.name]; exact hb, ?_, ?_, ?_⟩
  · have := hr.kinematics
    simp only [storedEntry] at this
    cases hk : b.2.kinematics with
    | some k => rw [hk] at this; exact this.2
    | none => rw [hk, hk2] at this; rw [Option.some.inj this]; rfl
  · have := hr.actuators
    simp only [storedEntry] at this
    cases hact : b.2.actuators with
    | none =>
      rw [hact] at this
      simp only [Option.bind_none, hpa, Option.some.injEq, Prod.mk.injEq] at this
      have hne : proto.actuators ≠ [] := by intro he; rw [he] at hsl; cases hsl
      obtain ⟨m, hm, hperm⟩ := storedList_nodup le proto.actuators ho.prototypeKeys hne
      rw [hsl] at hm; cases hm
      rw [← this.2]
      exact hperm.map _
    | some l' =>
      obtain ⟨hne, hnd⟩ := ho.keys b hb l' hact
      obtain ⟨m, hm, hperm⟩ := storedList_nodup le l' hnd hne
      rw [hact] at this
      simp only [Option.bind_some, hm] at this
      rw [this.1]
      exact hperm.map _
  · intro l0 hl0 hne hnd
    have := hr.facets
    simp only [storedEntry] at this
    obtain ⟨m, hm, hperm⟩ := storedList_nodup le l0 hnd hne
    cases hsf : b.2.surface with
    | none =>
      rw [hsf] at this hl0
      simp only [Option.bind_none, hps, Option.some.injEq, Option.getD_none] at this hl0
      subst hl0
      rw [hfl] at hm; cases hm
      rw [← this]; exact hperm.map _
    | some l' =>
      rw [hsf] at this hl0
      simp only [Option.getD_some] at hl0
      subst hl0
      simp only [Option.bind_some, hm] at this
      rw [this]; exact hperm.map _

/-- The NURBS degrees of all groups come from the last facet of one and the same heliostat, whatever the degrees of the others are. -/
theorem C46_degrees_shared (le : Name → Name → Bool) (proto : Prototype G F D P) (hs : List (Name × Entry G F D P)) (gs : List (Group G F D P))
    (h : loadScenario le proto hs = .ok gs) :
    ∃ x ∈ gs.flatMap (·.heliostats), ∃ f, x.facets.getLast? = some f ∧ ∀ g ∈ gs, g.degrees = f.degrees := by
  obtain ⟨protos, xs, hp, hown, hne, hgs, hd, _⟩ := loadScenario_ok h
  have hl := List.getLast?_eq_some_getLast hne
  obtain ⟨a, _, hr⟩ := forall₂_mem_right hown _ (List.getLast_mem hne)
  refine ⟨xs.getLast hne, ?_, _, List.getLast?_eq_some_getLast hr.facets_ne, ?_⟩
  · rw [groups_flat hgs]; exact (grouped_perm xs).mem_iff.2 (List.getLast_mem hne)
  · intro g hg
    have := hd _ hl g hg
    rw [List.getLast?_eq_some_getLast hr.facets_ne] at this
    exact (Option.some.inj this).symm

/-- So degrees are wrong for some heliostat in every scenario in which two facets have different degrees. -/
theorem C46_degrees_wrong (le : Name → Name → Bool) (proto : Prototype G F D P) (hs : List (Name × Entry G F D P)) (gs : List (Group G F D P))
    (h : loadScenario le proto hs = .ok gs) (x y : Loaded G F D P) (hx : x ∈ gs.flatMap (·.heliostats)) (hy : y ∈ gs.flatMap (·.heliostats))
    (f f' : Facet G F) (hf : f ∈ x.facets) (hf' : f' ∈ y.facets) (hne : f.degrees ≠ f'.degrees) :
    ∃ g ∈ gs, ∃ z ∈ g.heliostats, ∃ k ∈ z.facets, k.degrees ≠ g.degrees := by
  obtain ⟨_, _, k, _, hd⟩ := C46_degrees_shared le proto hs gs h
  obtain ⟨g, hg, hxg⟩ := List.mem_flatMap.1 hx
  obtain ⟨g', hg', hyg⟩ := List.mem_flatMap.1 hy
  by_cases he : f.degrees = g.degrees
  · exact ⟨g', hg', y, hyg, f', hf', by rw [hd g' hg', ← hd g hg, ← he]; exact Ne.symm hne⟩
  · exact ⟨g, hg, x, hxg, f, hf, he⟩

/-- Degrees are right where all facets of all heliostats agree. -/
theorem C46_degrees_partial (le : Name → Name → Bool) (proto : Prototype G F D P) (hs : List (Name × Entry G F D P)) (gs : List (Group G F D P))
    (h : loadScenario le proto hs = .ok gs) (d : G) (hd : ∀ x ∈ gs.flatMap (·.heliostats), ∀ f ∈ x.facets, f.degrees = d) : ∀ g ∈ gs, g.degrees = d := by
  obtain ⟨x, hx, f, hf, hg⟩ := C46_degrees_shared le proto hs gs h
  intro g hgm
  rw [hg g hgm]
  exact hd x hx f (List.mem_of_getLast? hf)

/-- A heliostat with individual actuators but the kinematics of the prototype raises `UnboundLocalError` if it is loaded first, however correct its entry
is. -/
theorem C46_first_raises (le : Name → Name → Bool) (proto : Prototype G F D P) (protos : Prototypes G F D P) (hp : loadPrototypes le proto = .ok protos)
    (hs : List (Name × Entry G F D P)) (name : Name) (e : Entry G F D P)
    (hfirst : ∃ rest, stored le hs = (name, storedEntry le e) :: rest)
    (hk : e.kinematics = none) (l : List (Name × Act P)) (ha : e.actuators = some l) (hl : l ≠ []) (hnd : (l.map (·.1)).Nodup) (t : Name)
    (ht : ∀ a ∈ l, a.2.type = t) :
    loadScenario le proto hs = .error .unboundLocal := by
  obtain ⟨hk1, hk2, ⟨fl, hfl, hps⟩, _⟩ := loadPrototypes_ok hp
  obtain ⟨rest, hrest⟩ := hfirst
  obtain ⟨m, hm, hperm⟩ := storedList_nodup le l hnd hl
  have hkin : loadKinematics protos (storedEntry le e) none = .ok (proto.kinematics.type, proto.kinematics.data, none) := by
    unfold loadKinematics storedEntry; simp only [hk, hk2]
  have hact : loadActuators protos (storedEntry le e) proto.kinematics.type none none = .error .unboundLocal := by
    unfold loadActuators storedEntry
    simp only [ha, Option.bind_some, hm, if_pos hk1]
    cases m with
    | nil => exact absurd hperm.nil_eq.symm hl
    | cons a as =>
      have hno : as.any (fun b => decide (b.2.type ≠ a.2.type)) = false := by
        rw [List.any_eq_false]
        intro b hb
        rw [ht b (hperm.mem_iff.1 (by simp [hb])), ht a (hperm.mem_iff.1 (by simp))]
        simp
      simp only [hno]
      rfl
  have hsurf : ∃ facets, loadSurface protos (storedEntry le e) = .ok facets := by
    unfold loadSurface
    rw [hps]
    cases (storedEntry le e).surface with
    | some s => exact ⟨_, rfl⟩
    | none => exact ⟨_, rfl⟩
  obtain ⟨facets, hsurf⟩ := hsurf
  unfold loadScenario
  rw [hp]
  simp only [hrest]
  unfold fromHdf5
  simp only [loadLoop, loadOne, hsurf, hkin, hact]
end

/-- Whether a heliostat loads depends on the others: alone it raises, and after a heliostat with individual kinematics it loads. -/
theorem C46_needs_other :
    summary (loadScenario lexLe protoExample [("AB".toList, ⟨none, none, some (pair ideal)⟩)]) = .error .unboundLocal ∧
    summary (loadScenario lexLe protoExample [("AB".toList, ⟨none, none, some (pair ideal)⟩), ("AA".toList, ⟨none, some ⟨rigidBody, 7⟩, none⟩)])
      = .ok [(["AA".toList], 3), (["AB".toList], 3)] := by constructor <;> decide +kernel

/-- Degrees 3 of the first two heliostats are replaced by the degrees 2 of the last one. -/
example : summary (loadScenario lexLe protoExample fieldExample) = .ok [(["AA".toList], 2), (["AB".toList, "AC".toList], 2)] := by decide +kernel

/-! ### C61: order of actuators -/
section
variable {G F D P : Type} {A : Type}

/-- A total order on names. -/
structure IsOrder (le : Name → Name → Bool) : Prop where
  total : ∀ a b, le a b = true ∨ le b a = true
  trans : ∀ a b c, le a b = true → le b c = true → le a c = true
  antisymm : ∀ a b, le a b = true → le b a = true → a = b

theorem insertKey_sorted {le : Name → Name → Bool} (hle : IsOrder le) (x : Name × A) (l : List (Name × A)) (h : l.Pairwise fun a b => le a.1 b.1 = true) :
    (insertKey le x l).Pairwise fun a b => le a.1 b.1 = true := by
  induction l with
  | nil => simp [insertKey]
  | cons y ys ih =>
    rw [List.pairwise_cons] at h
    unfold insertKey
    split
    · rename_i hxy
      rw [List.pairwise_cons, List.pairwise_cons]
      refine ⟨?_, h⟩
      intro z hz
      rcases List.mem_cons.1 hz with rfl | hz
      · exact hxy
      · exact hle.trans _ _ _ hxy (h.1 z hz)
    · rename_i hxy
      rw [List.pairwise_cons]
      refine ⟨?_, ih h.2⟩
      intro z hz
      rcases List.mem_cons.1 ((insertKey_perm le x ys).mem_iff.1 hz) with rfl | hz
      · exact (hle.total _ _).resolve_left hxy
      · exact h.1 z hz

theorem h5order_sorted {le : Name → Name → Bool} (hle : IsOrder le) (l : List (Name × A)) : (h5order le l).Pairwise fun a b => le a.1 b.1 = true := by
  unfold h5order
  induction l with
  | nil => exact .nil
  | cons x xs ih => exact insertKey_sorted hle x _ ih

theorem lexLe_order : IsOrder lexLe := by
  refine ⟨?_, ?_, ?_⟩
  · intro a
    induction a with
    | nil => intro b; exact Or.inl rfl
    | cons x xs ih =>
      intro b
      cases b with
      | nil => exact Or.inr rfl
      | cons y ys =>
        unfold lexLe
        rcases lt_trichotomy x.toNat y.toNat with h | h | h
        · simp [h]
        · simp only [h, lt_irrefl, if_false]; exact ih ys
        · simp [h]
  · intro a
    induction a with
    | nil => intro b c _ _; rfl
    | cons x xs ih =>
      intro b c hab hbc
      cases b with
      | nil => cases hab
      | cons y ys =>
        cases c with
        | nil => cases hbc
        | cons z zs =>
          unfold lexLe at hab hbc ⊢
          split at hab
          · split at hbc
            · rw [if_pos (by omega)]
            · split at hbc
              · cases hbc
              · rw [if_pos (by omega)]
          · split at hab
            · cases hab
            · split at hbc
              · rw [if_pos (by omega)]
              · split at hbc
                · cases hbc
                · rw [if_neg (by omega), if_neg (by omega)]
                  exact ih _ _ hab hbc
  · intro a
    induction a with
    | nil =>
      intro b _ h
      cases b with
      | nil => rfl
      | cons y ys => cases h
    | cons x xs ih =>
      intro b hab hba
      cases b with
      | nil => cases hab
      | cons y ys =>
        unfold lexLe at hab hba
        have hxy : x.toNat = y.toNat := by
          by_contra hne
          rcases Nat.lt_or_gt_of_ne hne with h | h
          · rw [if_neg (by omega), if_pos h] at hba; cases hba
          · rw [if_neg (by omega), if_pos h] at hab; cases hab
        rw [if_neg (by omega), if_neg (by omega)] at hab hba
        rw [ih _ hab hba, Char.toNat_inj.1 hxy]

/-- The individual actuators of a heliostat come back sorted by their keys. -/
theorem C61_sorted (le : Name → Name → Bool) (hle : IsOrder le) (proto : Prototype G F D P) (hs : List (Name × Entry G F D P)) (ho : Orderly proto hs)
    (gs : List (Group G F D P)) (h : loadScenario le proto hs = .ok gs) (name : Name) (e : Entry G F D P) (hm : (name, e) ∈ hs)
    (l : List (Name × Act P)) (hl : e.actuators = some l) (x : Loaded G F D P) (hx : x ∈ gs.flatMap (·.heliostats)) (hn : x.name = name) :
    ∃ m : List (Name × Act P), m.Perm l ∧ (m.Pairwise fun a b => le a.1 b.1 = true) ∧ x.actuators = m.map (fun a => a.2.params) := by
  obtain ⟨protos, xs, hp, hown, _, hgs, _, _⟩ := loadScenario_ok h
  rw [groups_flat hgs] at hx
  obtain ⟨a, ha, hr⟩ := forall₂_mem_right hown x ((grouped_perm xs).mem_iff.1 hx)
  obtain ⟨b, hb, rfl⟩ := List.mem_map.1 ((stored_perm le hs ho.names).mem_iff.1 ha)
  have := List.inj_on_of_nodup_map ho.names hb hm (hr.name.symm.trans hn)
  subst this
  obtain ⟨hne, hnd⟩ := ho.keys _ hb l hl
  obtain ⟨m, hm', hperm⟩ := storedList_nodup le l hnd hne
  have hact := hr.actuators
  simp only [storedEntry, hl, Option.bind_some, hm'] at hact
  refine ⟨m, hperm, ?_, hact.1⟩
  rw [(storedList_some hm').1]
  exact h5order_sorted hle _

/-- If the keys are listed in ascending order the actuators keep their order: the first one listed is the first one loaded.  (Full claim: for all keys; it
is false, see `C61_swapped`.) -/
theorem C61_order_partial (le : Name → Name → Bool) (hle : IsOrder le) (proto : Prototype G F D P) (hs : List (Name × Entry G F D P))
    (ho : Orderly proto hs) (gs : List (Group G F D P)) (h : loadScenario le proto hs = .ok gs) (name : Name) (e : Entry G F D P) (hm : (name, e) ∈ hs)
    (l : List (Name × Act P)) (hl : e.actuators = some l) (hsorted : l.Pairwise fun a b => le a.1 b.1 = true) (x : Loaded G F D P)
    (hx : x ∈ gs.flatMap (·.heliostats)) (hn : x.name = name) : x.actuators = l.map (fun a => a.2.params) := by
  obtain ⟨m, hperm, hpw, hact⟩ := C61_sorted le hle proto hs ho gs h name e hm l hl x hx hn
  have hnd := (ho.keys _ hm l hl).2
  have : m = l := by
    refine hperm.eq_of_pairwise ?_ hpw hsorted
    intro a b ha hb hab hba
    exact List.inj_on_of_nodup_map hnd (hperm.mem_iff.1 ha) hb (hle.antisymm _ _ hab hba)
  rw [hact, this]

/-- Two actuators listed in descending order of their keys are always exchanged. -/
theorem C61_swapped (le : Name → Name → Bool) (hle : IsOrder le) (proto : Prototype G F D P) (hs : List (Name × Entry G F D P)) (ho : Orderly proto hs)
    (gs : List (Group G F D P)) (h : loadScenario le proto hs = .ok gs) (name : Name) (e : Entry G F D P) (hm : (name, e) ∈ hs)
    (a b : Name × Act P) (hl : e.actuators = some [a, b]) (hba : le b.1 a.1 = true) (x : Loaded G F D P)
    (hx : x ∈ gs.flatMap (·.heliostats)) (hn : x.name = name) : x.actuators = [b.2.params, a.2.params] := by
  obtain ⟨m, hperm, hpw, hact⟩ := C61_sorted le hle proto hs ho gs h name e hm _ hl x hx hn
  have hnd := (ho.keys _ hm _ hl).2
  have : m = [b, a] := by
    have hp' : m.Perm [b, a] := hperm.trans (.swap b a [])
    refine hp'.eq_of_pairwise ?_ hpw (by simpa using hba)
    intro c d hc hd hcd hdc
    exact List.inj_on_of_nodup_map hnd (hperm.mem_iff.1 hc) (((List.Perm.swap b a []).mem_iff).2 hd) (hle.antisymm _ _ hcd hdc)
  rw [hact, this]; rfl
end

/-- The actuators of the loaded heliostats. -/
def loadedActuators (r : Except PyErr (List (Group Nat Nat Nat Nat))) : Except PyErr (List (List Nat)) :=
  match r with
  | .error e => .error e
  | .ok gs => .ok ((gs.flatMap (·.heliostats)).map (·.actuators))

/-- Keys "elevation" and "azimuth": the second actuator is loaded as the first. -/
example : loadedActuators (loadScenario lexLe protoExample [("AA".toList, ⟨none, some ⟨rigidBody, 7⟩,
    some [("elevation".toList, ⟨linear, 1⟩), ("azimuth".toList, ⟨linear, 2⟩)]⟩)]) = .ok [[2, 1]] ∧
    lexLe "azimuth".toList "elevation".toList = true ∧ lexLe "actuator_1".toList "actuator_2".toList = true := by
  refine ⟨by decide +kernel, by decide +kernel, by decide +kernel⟩

end Artist.Field
