import Verif.Model.Field
import Verif.Proofs.Flatten
import Verif.Proofs.Env
import Mathlib.Data.List.Forall2
import Mathlib.Data.List.Perm.Basic
/-! Helper lemmas on loading heliostat fields. -/
namespace Artist.Field
open Artist

section
variable {G F D P : Type} {A : Type}

theorem insertKey_perm (le : Name → Name → Bool) (x : Name × A) (l : List (Name × A)) : (insertKey le x l).Perm (x :: l) := by
  induction l with
  | nil => exact .refl _
  | cons y ys ih =>
    unfold insertKey
    split
    · exact .refl _
    · exact (ih.cons y).trans (.swap x y ys)

theorem h5order_perm (le : Name → Name → Bool) (l : List (Name × A)) : (h5order le l).Perm l := by
  unfold h5order
  induction l with
  | nil => exact .refl _
  | cons x xs ih => exact (insertKey_perm le x _).trans (ih.cons x)

theorem storedList_some {le : Name → Name → Bool} {l m : List (Name × A)} (h : storedList le l = some m) :
    m = h5order le (Flatten.toDict l) ∧ m ≠ [] := by
  unfold storedList at h
  split at h
  · cases h
  · rename_i hx; cases h; exact ⟨hx.symm, by simp⟩

theorem storedList_nodup (le : Name → Name → Bool) (l : List (Name × A)) (hn : (l.map (·.1)).Nodup) (hne : l ≠ []) :
    ∃ m, storedList le l = some m ∧ m.Perm l := by
  have hp : (h5order le (Flatten.toDict l)).Perm l := by
    rw [Flatten.toDict_nodup l hn]; exact h5order_perm le l
  unfold storedList
  cases h : h5order le (Flatten.toDict l) with
  | nil => rw [h] at hp; exact absurd (List.Perm.nil_eq hp).symm hne
  | cons x xs => exact ⟨x :: xs, rfl, h ▸ hp⟩

/-- What has to be loaded for a heliostat, from its own entry and the prototypes. -/
structure Own (protos : Prototypes G F D P) (h : Name × Entry G F D P) (x : Loaded G F D P) : Prop where
  name : x.name = h.1
  facets : match h.2.surface with
    | some l => x.facets = l.map (·.2)
    | none => protos.surface = some x.facets
  facets_ne : x.facets ≠ []
  kinematics : match h.2.kinematics with
    | some k => x.kinematicsType = k.type ∧ x.kinematics = k.data
    | none => protos.kinematics = some ⟨x.kinematicsType, x.kinematics⟩
  rigid : x.kinematicsType = rigidBody
  actuators : match h.2.actuators with
    | some l => x.actuators = l.map (fun a => a.2.params) ∧ l.length = 2 ∧ ∀ a ∈ l, a.2.type = x.actuatorType
    | none => protos.actuators = some (x.actuatorType, x.actuators)

theorem Own.unique {protos : Prototypes G F D P} {h : Name × Entry G F D P} {x y : Loaded G F D P} (hx : Own protos h x) (hy : Own protos h y) :
    x = y := by
  obtain ⟨n1, f1, _, k1, _, a1⟩ := hx
  obtain ⟨n2, f2, _, k2, _, a2⟩ := hy
  have hf : x.facets = y.facets := by
    cases hs : h.2.surface with
    | some l => rw [hs] at f1 f2; exact f1.trans f2.symm
    | none => rw [hs] at f1 f2; exact Option.some.inj (f1.symm.trans f2)
  have hk : x.kinematicsType = y.kinematicsType ∧ x.kinematics = y.kinematics := by
    cases hs : h.2.kinematics with
    | some l => rw [hs] at k1 k2; exact ⟨k1.1.trans k2.1.symm, k1.2.trans k2.2.symm⟩
    | none =>
      rw [hs] at k1 k2
      have := Option.some.inj (k1.symm.trans k2)
      exact Kin.mk.inj this
  have ha : x.actuatorType = y.actuatorType ∧ x.actuators = y.actuators := by
    cases hs : h.2.actuators with
    | some l =>
      rw [hs] at a1 a2
      match l, a1, a2 with
      | a :: b, a1, a2 => exact ⟨(a1.2.2 a (by simp)).symm.trans (a2.2.2 a (by simp)), a1.1.trans a2.1.symm⟩
    | none =>
      rw [hs] at a1 a2
      have := Option.some.inj (a1.symm.trans a2)
      exact Prod.ext_iff.1 this
  obtain ⟨xn, xk, xa, xd, xp, xf⟩ := x
  obtain ⟨yn, yk, ya, yd, yp, yf⟩ := y
  simp only [] at *
  subst n1 n2 hf
  obtain ⟨rfl, rfl⟩ := hk
  obtain ⟨rfl, rfl⟩ := ha
  rfl

/-- `number_of_actuators` is 2 as soon as it is assigned. -/
def NumberOk (s : Locals G) : Prop := ∀ n, s.number = some n → n = 2

theorem loadOne_own {protos : Prototypes G F D P} (hk : ∀ k, protos.kinematics = some k → k.type = rigidBody) {s s' : Locals G}
    {h : Name × Entry G F D P} {x : Loaded G F D P} (hs : NumberOk s) (hl : loadOne protos s h = .ok (s', x)) :
    Own protos h x ∧ NumberOk s' ∧ s'.degrees = x.facets.getLast?.map (·.degrees) ∧ s'.actuatorType = some x.actuatorType := by
  unfold loadOne at hl
  split at hl
  · cases hl
  · rename_i facets hfac
    split at hl
    · cases hl
    · rename_i kt data number hkin
      split at hl
      · cases hl
      · rename_i at' params hact
        split at hl
        · cases hl
        · rename_i facet hlast
          simp only [Except.ok.injEq, Prod.mk.injEq] at hl
          obtain ⟨rfl, rfl⟩ := hl
          have hnum : ∀ n, number = some n → n = 2 := by
            unfold loadKinematics at hkin
            split at hkin
            · split at hkin
              · cases hkin
              · rename_i d n hd
                unfold kinematicsDeviations at hd
                split at hd
                · cases hd; cases hkin
                  intro m hm; exact (Option.some.inj hm).symm
                · cases hd
            · split at hkin
              · cases hkin
              · cases hkin; exact hs
          have hrigid : kt = rigidBody := by
            unfold loadKinematics at hkin
            split at hkin
            · split at hkin
              · cases hkin
              · rename_i d n hd
                unfold kinematicsDeviations at hd
                split at hd
                · rename_i ht; cases hd; cases hkin; exact ht
                · cases hd
            · split at hkin
              · cases hkin
              · rename_i k hpk; cases hkin; exact hk _ hpk
          refine ⟨⟨rfl, ?_, ?_, ?_, hrigid, ?_⟩, hnum, ?_, rfl⟩
          · unfold loadSurface at hfac
            cases hsf : h.2.surface with
            | some l => rw [hsf] at hfac; cases hfac; rfl
            | none =>
              rw [hsf] at hfac
              simp only at hfac ⊢
              split at hfac
              · cases hfac
              · rename_i l hp; cases hfac; exact hp
          · simp only; rintro rfl; simp at hlast
          · unfold loadKinematics at hkin
            cases hkf : h.2.kinematics with
            | some k =>
              rw [hkf] at hkin
              simp only at hkin ⊢
              split at hkin
              · cases hkin
              · rename_i d n hd
                unfold kinematicsDeviations at hd
                split at hd
                · cases hd; cases hkin; exact ⟨rfl, rfl⟩
                · cases hd
            | none =>
              rw [hkf] at hkin
              simp only at hkin ⊢
              split at hkin
              · cases hkin
              · rename_i k hp; cases hkin; exact hp
          · unfold loadActuators at hact
            cases haf : h.2.actuators with
            | none =>
              rw [haf] at hact
              simp only at hact ⊢
              split at hact
              · cases hact
              · rename_i p hp; cases hact; exact hp
            | some l =>
              rw [haf] at hact
              simp only [if_pos hrigid] at hact ⊢
              cases l with
              | nil => simp at hact
              | cons a as =>
                simp only at hact
                by_cases hmix : as.any (fun b => decide (b.2.type ≠ a.2.type)) = true
                · rw [if_pos hmix] at hact; cases hact
                · rw [if_neg hmix] at hact
                  simp only at hact
                  cases hn : number with
                  | none => rw [hn] at hact; cases hact
                  | some n =>
                    rw [hn] at hact
                    have h2 := hnum n hn
                    subst h2
                    simp only at hact
                    split at hact
                    · cases hact
                    · rename_i ps hps
                      cases hact
                      unfold actuatorParameters at hps
                      split at hps
                      · split at hps
                        · cases hps
                        · rename_i hlen
                          cases hps
                          refine ⟨rfl, by simpa using hlen, ?_⟩
                          intro b hb
                          rcases List.mem_cons.1 hb with rfl | hb
                          · rfl
                          · by_contra hne
                            exact hmix (List.any_eq_true.2 ⟨b, hb, by simpa using hne⟩)
                      · cases hps
          · simp [hlast]

theorem loadLoop_own {protos : Prototypes G F D P} (hk : ∀ k, protos.kinematics = some k → k.type = rigidBody) :
    ∀ (file : List (Name × Entry G F D P)) (s s' : Locals G) (xs : List (Loaded G F D P)), NumberOk s → loadLoop protos s file = .ok (s', xs) →
      List.Forall₂ (Own protos) file xs ∧
      (∀ x, xs.getLast? = some x → s'.degrees = x.facets.getLast?.map (·.degrees)) := by
  intro file
  induction file with
  | nil =>
    intro s s' xs _ h
    cases h
    exact ⟨.nil, by simp⟩
  | cons a as ih =>
    intro s s' xs hs h
    rw [loadLoop] at h
    split at h
    · cases h
    · rename_i s1 x h1
      split at h
      · cases h
      · rename_i s2 ys h2
        cases h
        obtain ⟨o1, n1, d1, _⟩ := loadOne_own hk hs h1
        obtain ⟨o2, d2⟩ := ih s1 s' ys n1 h2
        refine ⟨.cons o1 o2, ?_⟩
        intro y hy
        cases ys with
        | nil =>
          simp only [List.getLast?_singleton, Option.some.injEq] at hy
          subst hy
          cases o2
          cases h2
          exact d1
        | cons z zs =>
          rw [List.getLast?_cons_cons] at hy
          exact d2 y hy

theorem construct_ok {degrees : Option G} : ∀ {d : List (Name × List (Loaded G F D P))} {gs : List (Group G F D P)}, construct degrees d = .ok gs →
    gs.map (·.heliostats) = d.map (·.2) ∧ (∀ g ∈ gs, degrees = some g.degrees) ∧ ∀ e ∈ d, e.1 ∈ registry := by
  intro d
  induction d with
  | nil => intro gs h; cases h; simp
  | cons e es ih =>
    intro gs h
    obtain ⟨key, xs⟩ := e
    unfold construct at h
    split at h
    · rename_i hkey
      split at h
      · cases h
      · rename_i g
        split at h
        · cases h
        · rename_i gs' h'
          cases h
          obtain ⟨h1, h2, h3⟩ := ih h'
          refine ⟨by simp [h1], ?_, ?_⟩
          · intro g' hg'
            rcases List.mem_cons.1 hg' with rfl | hg'
            · rfl
            · exact h2 g' hg'
          · intro e he
            rcases List.mem_cons.1 he with rfl | he
            · exact hkey
            · exact h3 e he
    · cases h

/-- Grouping keeps everything: keys are distinct and those of the heliostats, and each list is the sublist with that key. -/
theorem grouped_spec (xs : List (Loaded G F D P)) :
    ((grouped xs).map (·.1)).Nodup ∧ (∀ k, k ∈ (grouped xs).map (·.1) ↔ k ∈ xs.map groupKey) ∧
    ∀ e ∈ grouped xs, e.2 = xs.filter (fun x => groupKey x = e.1) := by
  unfold grouped
  have main : ∀ (rest done : List (Loaded G F D P)) (d : List (Name × List (Loaded G F D P))),
      ((d.map (·.1)).Nodup ∧ (∀ k, k ∈ d.map (·.1) ↔ k ∈ done.map groupKey) ∧ ∀ k, (dictGet d k).getD [] = done.filter (fun x => groupKey x = k)) →
      (((rest.foldl (fun d x => dictAppend d (groupKey x) x) d).map (·.1)).Nodup ∧
        (∀ k, k ∈ (rest.foldl (fun d x => dictAppend d (groupKey x) x) d).map (·.1) ↔ k ∈ (done ++ rest).map groupKey) ∧
        ∀ k, (dictGet (rest.foldl (fun d x => dictAppend d (groupKey x) x) d) k).getD [] = (done ++ rest).filter (fun x => groupKey x = k)) := by
    intro rest
    induction rest with
    | nil => intro done d h; simpa using h
    | cons x xs ih =>
      intro done d ⟨h1, h2, h3⟩
      rw [List.foldl_cons]
      have := ih (done ++ [x]) (dictAppend d (groupKey x) x) ⟨?_, ?_, ?_⟩
      · simpa using this
      · exact Artist.Env.dictAppend_keys_nodup d _ x h1
      · intro k
        have hkeys := Artist.Env.dictAppend_keys d (groupKey x) x
        show k ∈ (dictAppend d (groupKey x) x).map Prod.fst ↔ _
        rw [hkeys]
        split
        · rename_i hm
          rw [List.map_append, List.mem_append]
          constructor
          · intro hk; exact Or.inl ((h2 k).1 hk)
          · rintro (hk | hk)
            · exact (h2 k).2 hk
            · simp only [List.map_cons, List.map_nil, List.mem_singleton] at hk
              rw [hk]; exact hm
        · rw [List.map_append, List.mem_append, List.mem_append]
          exact or_congr (h2 k) (by simp)
      · intro k
        rw [Artist.Env.dictGet_dictAppend, List.filter_append]
        by_cases hk : k = groupKey x
        · subst hk
          rw [if_pos rfl]
          simp [h3]
        · rw [if_neg hk, h3]
          simp [Ne.symm hk]
  obtain ⟨h1, h2, h3⟩ := main xs [] [] ⟨by simp, by simp, by simp [dictGet]⟩
  refine ⟨h1, by simpa using h2, ?_⟩
  intro e he
  have := h3 e.1
  rw [(Artist.Env.dictGet_eq_some_iff _ h1 e.1 e.2).2 he] at this
  simpa using this

theorem filter_perm {K B : Type} [DecidableEq K] (key : B → K) (ks : List K) (hn : ks.Nodup) (xs : List B) (hx : ∀ x ∈ xs, key x ∈ ks) :
    (ks.flatMap (fun k => xs.filter (fun x => key x = k))).Perm xs := by
  induction ks generalizing xs with
  | nil =>
    cases xs with
    | nil => exact .refl _
    | cons x xs => exact absurd (hx x (by simp)) (by simp)
  | cons k ks ih =>
    rw [List.nodup_cons] at hn
    rw [List.flatMap_cons]
    have hcongr : ks.flatMap (fun k => xs.filter (fun x => key x = k))
        = ks.flatMap (fun k' => (xs.filter (fun x => ¬ key x = k)).filter (fun x => key x = k')) := by
      apply List.flatMap_congr
      intro k' hk'
      rw [List.filter_filter]
      apply List.filter_congr
      intro x _
      by_cases h : key x = k'
      · have hne : ¬ key x = k := by rintro rfl; exact hn.1 (h ▸ hk')
        simp [h, show ¬ k' = k from h ▸ hne]
      · simp [h]
    rw [hcongr]
    refine ((ih hn.2 (xs.filter (fun x => ¬ key x = k)) ?_).append_left _).trans ?_
    · intro x hx'
      rw [List.mem_filter] at hx'
      have := hx x hx'.1
      rcases List.mem_cons.1 this with h | h
      · simp [h] at hx'
      · exact h
    · have := List.filter_append_perm (fun x => decide (key x = k)) xs
      simpa using this

theorem grouped_perm (xs : List (Loaded G F D P)) : ((grouped xs).flatMap (·.2)).Perm xs := by
  obtain ⟨h1, h2, h3⟩ := grouped_spec xs
  have : (grouped xs).flatMap (·.2) = ((grouped xs).map (·.1)).flatMap (fun k => xs.filter (fun x => groupKey x = k)) := by
    rw [List.flatMap_map]
    apply List.flatMap_congr
    intro e he
    exact h3 e he
  rw [this]
  apply filter_perm
  · exact h1
  · intro x hx; exact (h2 _).2 (List.mem_map.2 ⟨x, hx, rfl⟩)

theorem loadPrototypes_ok {le : Name → Name → Bool} {proto : Prototype G F D P} {protos : Prototypes G F D P}
    (h : loadPrototypes le proto = .ok protos) :
    proto.kinematics.type = rigidBody ∧ protos.kinematics = some proto.kinematics ∧
    (∃ facets, storedList le proto.surface = some facets ∧ protos.surface = some (facets.map (·.2))) ∧
    ∃ l t, storedList le proto.actuators = some l ∧ (∀ a ∈ l, a.2.type = t) ∧ l.length = 2 ∧ (t = linear ∨ t = ideal) ∧
      protos.actuators = some (t, l.map (fun a => a.2.params)) := by
  unfold loadPrototypes at h
  split at h
  · cases h
  · rename_i facets hf
    split at h
    · cases h
    · rename_i d number hd
      unfold kinematicsDeviations at hd
      split at hd
      · rename_i ht
        cases hd
        split at h
        · cases h
        · cases h
        · rename_i key first rest hl
          split at h
          · cases h
          · rename_i hmix
            split at h
            · cases h
            · rename_i params hps
              cases h
              unfold actuatorParameters at hps
              split at hps
              · rename_i htype
                split at hps
                · cases hps
                · rename_i hlen
                  cases hps
                  refine ⟨ht, rfl, ⟨facets, hf, rfl⟩, _, first.type, hl, ?_, by simpa using hlen, htype, rfl⟩
                  intro a ha
                  rcases List.mem_cons.1 ha with rfl | ha
                  · rfl
                  · by_contra hne
                    exact hmix (List.any_eq_true.2 ⟨a, ha, by simpa using hne⟩)
              · cases hps
      · cases hd

/-- Everything a successful load says. -/
theorem loadScenario_ok {le : Name → Name → Bool} {proto : Prototype G F D P} {hs : List (Name × Entry G F D P)} {gs : List (Group G F D P)}
    (h : loadScenario le proto hs = .ok gs) :
    ∃ protos xs, loadPrototypes le proto = .ok protos ∧ List.Forall₂ (Own protos) (stored le hs) xs ∧ xs ≠ [] ∧
      gs.map (·.heliostats) = (grouped xs).map (·.2) ∧
      (∀ x, xs.getLast? = some x → ∀ g ∈ gs, x.facets.getLast?.map (·.degrees) = some g.degrees) ∧ ∀ e ∈ grouped xs, e.1 ∈ registry := by
  unfold loadScenario at h
  split at h
  · cases h
  · rename_i protos hp
    unfold fromHdf5 at h
    split at h
    · cases h
    · rename_i a as hfile
      split at h
      · cases h
      · rename_i s xs hloop
        obtain ⟨hk1, hk2, _⟩ := loadPrototypes_ok hp
        obtain ⟨o, d⟩ := loadLoop_own (protos := protos) (by intro k hk; rw [hk2] at hk; cases hk; exact hk1) _ _ _ _
          (by intro n hn; cases hn) hloop
        obtain ⟨c1, c2, c3⟩ := construct_ok h
        refine ⟨protos, xs, hp, hfile ▸ o, ?_, c1, ?_, c3⟩
        · rintro rfl; cases o
        · intro x hx g hg
          rw [← d x hx]; exact c2 g hg

end
end Artist.Field
