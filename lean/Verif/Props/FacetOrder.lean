import Verif.Model.FacetOrder
import Verif.Props.Field
import Verif.Proofs.TowerFile
/-!
# C82: facets keep their number and their order
-/
namespace Artist.Field
open Artist
section
variable {G F D P : Type}

/-- The facets configured for a heliostat: its own or those of the prototype. -/
def facetsOf (proto : Prototype G F D P) (e : Entry G F D P) : List (Name × Facet G F) :=
  match e.surface with
  | some l => l
  | none => proto.surface

/-- C82, check: a scenario is accepted if and only if every heliostat with its own surface has as many facets as the prototype. -/
theorem C82_check_iff (proto : Prototype G F D P) (hs : List (Name × Entry G F D P)) :
    checkFacets proto hs = .ok () ↔ ∀ h ∈ hs, (facetsOf proto h.2).length = proto.surface.length := by
  induction hs with
  | nil => simp [checkFacets]
  | cons h rest ih =>
    obtain ⟨n, e⟩ := h
    unfold checkFacets
    cases hs : e.surface with
    | none => simp [ih, facetsOf, hs]
    | some l =>
      by_cases hl : l.length = proto.surface.length
      · simp [ih, facetsOf, hs, hl]
      · simp [facetsOf, hs, hl]

theorem loaded_facets {le : Name → Name → Bool} {proto : Prototype G F D P} {hs : List (Name × Entry G F D P)} (hn : (hs.map (·.1)).Nodup)
    {gs : List (Group G F D P)} (h : loadScenario le proto hs = .ok gs) {name : Name} {e : Entry G F D P} (hm : (name, e) ∈ hs)
    (hne : facetsOf proto e ≠ []) {x : Loaded G F D P} (hx : x ∈ gs.flatMap (·.heliostats)) (hname : x.name = name) :
    x.facets = (h5order le (Flatten.toDict (facetsOf proto e))).map (·.2) := by
  obtain ⟨protos, xs, hp, hown, _, hgs, _, _⟩ := loadScenario_ok h
  rw [groups_flat hgs] at hx
  obtain ⟨a, ha, hr⟩ := forall₂_mem_right hown x ((grouped_perm xs).mem_iff.1 hx)
  obtain ⟨b, hb, rfl⟩ := List.mem_map.1 ((stored_perm le hs hn).mem_iff.1 ha)
  have := List.inj_on_of_nodup_map hn hb hm (hr.name.symm.trans hname)
  subst this
  have hf := hr.facets
  cases hsf : e.surface with
  | none =>
    obtain ⟨_, _, ⟨facets, h1, h2⟩, _⟩ := loadPrototypes_ok hp
    simp only [storedEntry, hsf, Option.bind_none] at hf
    rw [h2, Option.some.injEq] at hf
    rw [← hf, (storedList_some h1).1, facetsOf, hsf]
  | some l =>
    have hl : facetsOf proto e = l := by rw [facetsOf, hsf]
    rw [hl] at hne ⊢
    simp only [storedEntry, hsf, Option.bind_some] at hf
    have hd : h5order le (Flatten.toDict l) ≠ [] := by
      intro h0
      have hlen := (h5order_perm le (Flatten.toDict l)).length_eq
      rw [h0] at hlen
      have h1 : Flatten.toDict l = [] := List.length_eq_zero_iff.1 hlen.symm
      cases l with
      | nil => exact hne rfl
      | cons y ys =>
        have := ((TowerFile.toDict_keys (y :: ys)).2 y.1).2 (by simp)
        rw [h1] at this; simp at this
    unfold storedList at hf
    cases hc : h5order le (Flatten.toDict l) with
    | nil => exact absurd hc hd
    | cons y ys => rw [hc] at hf; exact hf

/-- C82: with distinct keys, all facets of a heliostat come back, sorted by their keys. -/
theorem C82_sorted (le : Name → Name → Bool) (hle : IsOrder le) (proto : Prototype G F D P) (hs : List (Name × Entry G F D P)) (hn : (hs.map (·.1)).Nodup)
    (gs : List (Group G F D P)) (h : generateAndLoad le proto hs = .ok gs) (name : Name) (e : Entry G F D P) (hm : (name, e) ∈ hs)
    (hne : facetsOf proto e ≠ []) (hd : ((facetsOf proto e).map (·.1)).Nodup) (x : Loaded G F D P) (hx : x ∈ gs.flatMap (·.heliostats)) (hname : x.name = name) :
    ∃ m : List (Name × Facet G F), m.Perm (facetsOf proto e) ∧ (m.Pairwise fun a b => le a.1 b.1 = true) ∧ x.facets = m.map (·.2) := by
  unfold generateAndLoad at h
  split at h
  · cases h
  · refine ⟨_, ?_, h5order_sorted hle _, loaded_facets hn h hm hne hx hname⟩
    rw [Flatten.toDict_nodup _ hd]
    exact h5order_perm le _

/-- C82: if the keys are ascending, the facets of every heliostat keep number and order.  (Full claim: for all keys; it is false, see `C82_ten` and
`C82_duplicate`.) -/
theorem C82_order_partial (le : Name → Name → Bool) (hle : IsOrder le) (proto : Prototype G F D P) (hs : List (Name × Entry G F D P))
    (hn : (hs.map (·.1)).Nodup) (gs : List (Group G F D P)) (h : generateAndLoad le proto hs = .ok gs) (name : Name) (e : Entry G F D P)
    (hm : (name, e) ∈ hs) (hne : facetsOf proto e ≠ []) (hd : ((facetsOf proto e).map (·.1)).Nodup)
    (hsorted : (facetsOf proto e).Pairwise fun a b => le a.1 b.1 = true) (x : Loaded G F D P) (hx : x ∈ gs.flatMap (·.heliostats)) (hname : x.name = name) :
    x.facets = (facetsOf proto e).map (·.2) := by
  obtain ⟨m, hperm, hpw, hf⟩ := C82_sorted le hle proto hs hn gs h name e hm hne hd x hx hname
  have : m = facetsOf proto e := by
    refine hperm.eq_of_pairwise ?_ hpw hsorted
    intro a b ha hb hab hba
    exact List.inj_on_of_nodup_map hd (hperm.mem_iff.1 ha) hb (hle.antisymm _ _ hab hba)
  rw [hf, this]

/-! ### Generated keys -/

theorem generatedKey_inj {i j : Nat} (h : generatedKey i = generatedKey j) : i = j := by
  have h1 := List.append_cancel_left h
  have h2 := congrArg (fun l => Nat.ofDigitChars 10 l 0) h1
  simp only [Nat.ofDigitChars_ten_toDigits] at h2
  omega

theorem generatedFrom_keys {A : Type} : ∀ (l : List A) (i : Nat) (k : Name), k ∈ (generatedFrom i l).map (·.1) → ∃ j, i ≤ j ∧ j < i + l.length ∧ k = generatedKey j
  | [], _, _, h => by cases h
  | a :: rest, i, k, h => by
    simp only [generatedFrom, List.map_cons, List.mem_cons] at h
    rcases h with rfl | h
    · exact ⟨i, le_refl _, by simp, rfl⟩
    · obtain ⟨j, h1, h2, h3⟩ := generatedFrom_keys rest (i + 1) k h
      exact ⟨j, by omega, by simp; omega, h3⟩

theorem generatedFrom_nodup {A : Type} : ∀ (l : List A) (i : Nat), ((generatedFrom i l).map (·.1)).Nodup
  | [], _ => .nil
  | a :: rest, i => by
    simp only [generatedFrom, List.map_cons, List.nodup_cons]
    refine ⟨?_, generatedFrom_nodup rest (i + 1)⟩
    intro h
    obtain ⟨j, h1, _, h3⟩ := generatedFrom_keys rest (i + 1) _ h
    have := generatedKey_inj h3
    omega

theorem generatedFrom_values {A : Type} : ∀ (l : List A) (i : Nat), (generatedFrom i l).map (·.2) = l
  | [], _ => rfl
  | a :: rest, i => by simp [generatedFrom, generatedFrom_values rest]

theorem generatedFrom_get {A : Type} : ∀ (l : List A) (i k : Nat) (a : A), l[k]? = some a → (generatedFrom i l)[k]? = some (generatedKey (i + k), a)
  | [], _, _, _, h => by simp at h
  | b :: rest, i, 0, a, h => by simp at h; simp [generatedFrom, h]
  | b :: rest, i, k + 1, a, h => by
    rw [List.getElem?_cons_succ] at h
    rw [generatedFrom, List.getElem?_cons_succ, generatedFrom_get rest (i + 1) k a h, show i + 1 + k = i + (k + 1) by omega]

theorem nine_keys : ∀ j : Fin 9, ∀ i : Fin 9, i ≤ j → lexLe (generatedKey i) (generatedKey j) = true := by decide +kernel

theorem generatedFrom_sorted {A : Type} : ∀ (l : List A) (i : Nat), i + l.length ≤ 9 → (generatedFrom i l).Pairwise fun a b => lexLe a.1 b.1 = true
  | [], _, _ => .nil
  | a :: rest, i, h => by
    simp only [List.length_cons] at h
    simp only [generatedFrom, List.pairwise_cons]
    refine ⟨?_, generatedFrom_sorted rest (i + 1) (by omega)⟩
    intro b hb
    obtain ⟨j, h1, h2, h3⟩ := generatedFrom_keys rest (i + 1) b.1 (List.mem_map_of_mem hb)
    rw [h3]
    exact nine_keys ⟨j, by omega⟩ ⟨i, by omega⟩ (by simp; omega)

/-- C82, generated surfaces: with pairwise different facets, the order is kept if and only if there are at most nine facets. -/
theorem C82_generated_iff (proto : Prototype G F D P) (hs : List (Name × Entry G F D P)) (hn : (hs.map (·.1)).Nodup) (gs : List (Group G F D P))
    (h : generateAndLoad lexLe proto hs = .ok gs) (name : Name) (e : Entry G F D P) (hm : (name, e) ∈ hs) (facets : List (Facet G F))
    (hne : facets ≠ []) (hf : facetsOf proto e = generatedFrom 0 facets) (hdiff : facets.Nodup) (x : Loaded G F D P)
    (hx : x ∈ gs.flatMap (·.heliostats)) (hname : x.name = name) : x.facets = facets ↔ facets.length ≤ 9 := by
  have hne' : facetsOf proto e ≠ [] := by
    rw [hf]; intro h0
    have := generatedFrom_values facets 0
    rw [h0] at this; exact hne this.symm
  have hd : ((facetsOf proto e).map (·.1)).Nodup := by rw [hf]; exact generatedFrom_nodup _ _
  constructor
  · intro heq
    by_contra hlt
    obtain ⟨m, hperm, hpw, hfm⟩ := C82_sorted lexLe lexLe_order proto hs hn gs h name e hm hne' hd x hx hname
    rw [hf] at hperm
    have hval : m.map (·.2) = (generatedFrom 0 facets).map (·.2) := by rw [← hfm, heq, generatedFrom_values]
    have hmm : m = generatedFrom 0 facets := by
      have hnd : ((generatedFrom 0 facets).map (·.2)).Nodup := by rw [generatedFrom_values]; exact hdiff
      apply List.ext_getElem?
      intro k
      have hk := congrArg (fun l => l[k]?) hval
      simp only [List.getElem?_map] at hk
      cases h1 : m[k]? with
      | none => rw [h1] at hk; cases h2 : (generatedFrom 0 facets)[k]? with
        | none => rfl
        | some b => rw [h2] at hk; cases hk
      | some a =>
        cases h2 : (generatedFrom 0 facets)[k]? with
        | none => rw [h1, h2] at hk; cases hk
        | some b =>
          rw [h1, h2] at hk
          exact congrArg some (List.inj_on_of_nodup_map hnd (hperm.mem_iff.1 (List.mem_of_getElem? h1)) (List.mem_of_getElem? h2) (Option.some.inj hk))
    rw [hmm] at hpw
    obtain ⟨a, ha⟩ : ∃ a, facets[1]? = some a := ⟨facets[1]'(by omega), List.getElem?_eq_getElem _⟩
    obtain ⟨b, hb⟩ : ∃ b, facets[9]? = some b := ⟨facets[9]'(by omega), List.getElem?_eq_getElem _⟩
    have ga := generatedFrom_get facets 0 1 a ha
    have gb := generatedFrom_get facets 0 9 b hb
    obtain ⟨i1, e1⟩ := List.getElem?_eq_some_iff.1 ga
    obtain ⟨i2, e2⟩ := List.getElem?_eq_some_iff.1 gb
    have := List.pairwise_iff_getElem.1 hpw 1 9 i1 i2 (by omega)
    rw [e1, e2] at this
    exact absurd this (by dsimp only; decide +kernel)
  · intro hle
    rw [C82_order_partial lexLe lexLe_order proto hs hn gs h name e hm hne' hd (by rw [hf]; exact generatedFrom_sorted _ _ (by omega)) x hx hname, hf,
      generatedFrom_values]

/-- C82, negation: with ten or more different facets the loaded facets are in another order. -/
theorem C82_ten (proto : Prototype G F D P) (hs : List (Name × Entry G F D P)) (hn : (hs.map (·.1)).Nodup) (gs : List (Group G F D P))
    (h : generateAndLoad lexLe proto hs = .ok gs) (name : Name) (e : Entry G F D P) (hm : (name, e) ∈ hs) (facets : List (Facet G F))
    (hf : facetsOf proto e = generatedFrom 0 facets) (hdiff : facets.Nodup) (hten : 10 ≤ facets.length) (x : Loaded G F D P)
    (hx : x ∈ gs.flatMap (·.heliostats)) (hname : x.name = name) : x.facets ≠ facets := by
  intro heq
  have hne : facets ≠ [] := by rintro rfl; simp at hten
  have := (C82_generated_iff proto hs hn gs h name e hm facets hne hf hdiff x hx hname).1 heq
  omega

/-- C82, negation: facets with equal keys are lost without an error: the number of facets was checked before. -/
theorem C82_duplicate (le : Name → Name → Bool) (proto : Prototype G F D P) (hs : List (Name × Entry G F D P)) (hn : (hs.map (·.1)).Nodup)
    (gs : List (Group G F D P)) (h : generateAndLoad le proto hs = .ok gs) (name : Name) (e : Entry G F D P) (hm : (name, e) ∈ hs)
    (hd : ¬ ((facetsOf proto e).map (·.1)).Nodup) (x : Loaded G F D P) (hx : x ∈ gs.flatMap (·.heliostats)) (hname : x.name = name) :
    x.facets.length < (facetsOf proto e).length := by
  have hne : facetsOf proto e ≠ [] := by intro h0; rw [h0] at hd; exact hd .nil
  unfold generateAndLoad at h
  split at h
  · cases h
  · rw [loaded_facets hn h hm hne hx hname, List.length_map, (h5order_perm le _).length_eq]
    obtain ⟨h1, h2⟩ := TowerFile.toDict_keys (facetsOf proto e)
    have hsub : (Flatten.toDict (facetsOf proto e)).map (·.1) ⊆ (facetsOf proto e).map (·.1) := fun k hk => (h2 k).1 hk
    have hsp := List.subperm_of_subset h1 hsub
    rcases Nat.lt_or_ge (Flatten.toDict (facetsOf proto e)).length (facetsOf proto e).length with hl | hl
    · exact hl
    · have hp := hsp.perm_of_length_le (by simpa using hl)
      exact absurd (hp.nodup_iff.1 h1) hd
end

/-! ### Examples -/

/-- The facets of the loaded heliostats. -/
def loadedFacets (r : Except PyErr (List (Group Nat Nat Nat Nat))) : Except PyErr (List (List Nat)) :=
  match r with
  | .error e => .error e
  | .ok gs => .ok ((gs.flatMap (·.heliostats)).map fun x => x.facets.map (·.data))

/-- A prototype with the given facets. -/
def protoWith (facets : List (Name × Facet Nat Nat)) : Prototype Nat Nat Nat Nat :=
  ⟨facets, ⟨rigidBody, 0⟩, [("actuator_1".toList, ⟨linear, 1⟩), ("actuator_2".toList, ⟨linear, 2⟩)]⟩

/-- Four generated facets keep their order, twelve do not, and two facets with the same key become one. -/
example : loadedFacets (generateAndLoad lexLe (protoWith (generatedFrom 0 ((List.range 4).map fun i => ⟨3, i⟩))) [("AA".toList, ⟨none, none, none⟩)]) =
      .ok [[0, 1, 2, 3]] ∧
    loadedFacets (generateAndLoad lexLe (protoWith (generatedFrom 0 ((List.range 12).map fun i => ⟨3, i⟩))) [("AA".toList, ⟨none, none, none⟩)]) =
      .ok [[0, 9, 10, 11, 1, 2, 3, 4, 5, 6, 7, 8]] ∧
    loadedFacets (generateAndLoad lexLe (protoWith [("f".toList, ⟨3, 1⟩), ("f".toList, ⟨3, 2⟩)]) [("AA".toList, ⟨none, none, none⟩)]) = .ok [[2]] := by
  refine ⟨by decide +kernel, by decide +kernel, by decide +kernel⟩

end Artist.Field
