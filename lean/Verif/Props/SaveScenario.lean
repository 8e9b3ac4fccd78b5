import Verif.Model.SaveScenario
import Verif.Proofs.Flatten
import Mathlib.Data.List.Infix
import Mathlib.Data.List.TakeWhile
import Mathlib.Data.List.Pairwise
/-!
# C95: a scenario is saved completely and under the name asked for, or the old one is kept
-/
namespace Artist.SaveScenario
open Artist Flatten

variable {V : Type}

/-! ## Names -/

theorem suffix_dot (stem ext : List Char) (hs : stem ≠ []) (he : ext ≠ []) (hd : '.' ∉ ext) : suffix (stem ++ '.' :: ext) = '.' :: ext := by
  have htail : (stem ++ '.' :: ext).reverse.takeWhile (· ≠ '.') = ext.reverse := by
    rw [List.reverse_append, List.reverse_cons, List.append_assoc, List.takeWhile_append_of_pos]
    · simp
    · intro c hc
      simp only [ne_eq, decide_not, Bool.not_eq_eq_eq_not, Bool.not_true, decide_eq_false_iff_not]
      rintro rfl
      exact hd (List.mem_reverse.1 hc)
  unfold suffix
  simp only [htail]
  rw [if_pos]
  · simp
  · refine ⟨?_, by simpa using he⟩
    have := List.length_pos_iff.2 hs
    simp; omega

theorem suffix_none (name : List Char) (h : ∀ stem ext, stem ≠ [] → ext ≠ [] → '.' ∉ ext → name ≠ stem ++ '.' :: ext) : suffix name = [] := by
  unfold suffix
  simp only
  split
  · rename_i hc
    exfalso
    have hne : name.reverse.dropWhile (· ≠ '.') ≠ [] := by
      intro h0
      have := List.takeWhile_append_dropWhile (p := fun c : Char => decide (c ≠ '.')) (l := name.reverse)
      rw [h0, List.append_nil] at this
      rw [this] at hc
      simp at hc
      omega
    obtain ⟨c, cs, hcs⟩ := List.exists_cons_of_ne_nil hne
    have hdot : c = '.' := by
      have := List.head_dropWhile_not (fun c : Char => decide (c ≠ '.')) hne
      simp only [hcs, List.head_cons] at this
      simpa using this
    subst hdot
    have hname : name = cs.reverse ++ '.' :: (name.reverse.takeWhile (· ≠ '.')).reverse := by
      have := List.takeWhile_append_dropWhile (p := fun c : Char => decide (c ≠ '.')) (l := name.reverse)
      rw [hcs] at this
      have h2 := congrArg List.reverse this
      simpa using h2.symm
    have hnd : '.' ∉ (name.reverse.takeWhile (· ≠ '.')).reverse := by
      intro hm
      have := List.mem_takeWhile_imp (List.mem_reverse.1 hm)
      simp at this
    refine h _ _ ?_ (by simpa using hc.2) hnd hname
    intro h0
    have hl := congrArg List.length hname
    rw [h0] at hl
    simp only [List.nil_append, List.length_cons, List.length_reverse] at hl
    omega
  · rfl

/-- C95, names.  A name with a dot in it, neither at the beginning nor at the end, is cut at the last dot and gets the ending `.h5`; every other name gets `.h5` appended. -/
theorem C95_name (name : List Char) :
    (∀ stem ext, stem ≠ [] → ext ≠ [] → '.' ∉ ext → name = stem ++ '.' :: ext → saveName name = stem ++ ".h5".toList) ∧
    ((∀ stem ext, stem ≠ [] → ext ≠ [] → '.' ∉ ext → name ≠ stem ++ '.' :: ext) → saveName name = name ++ ".h5".toList) := by
  constructor
  · rintro stem ext hs he hd rfl
    unfold saveName withH5
    rw [suffix_dot stem ext hs he hd]
    split
    · rename_i h; rw [h]
    · have : (stem ++ '.' :: ext).take ((stem ++ '.' :: ext).length - ('.' :: ext).length) = stem := by
        rw [List.length_append, Nat.add_sub_cancel, List.take_left']; rfl
      rw [this]
      split <;> rfl
  · intro h
    unfold saveName withH5
    rw [suffix_none name h]
    simp

/-- C95 is false for names: scenarios whose names differ only after their last dot, such as version numbers, are saved to the same file. -/
theorem C95_names_collide (stem ext ext' : List Char) (hs : stem ≠ []) (he : ext ≠ []) (he' : ext' ≠ []) (hd : '.' ∉ ext) (hd' : '.' ∉ ext') :
    saveName (stem ++ '.' :: ext) = saveName (stem ++ '.' :: ext') := by
  rw [(C95_name _).1 stem ext hs he hd rfl, (C95_name _).1 stem ext' hs he' hd' rfl]

/-- Partial: names without a dot are saved to different files.  Missing: names with dots, for which it is false. -/
theorem C95_names_distinct_partial (a b : List Char) (ha : '.' ∉ a) (hb : '.' ∉ b) (h : saveName a = saveName b) : a = b := by
  have key : ∀ n : List Char, '.' ∉ n → saveName n = n ++ ".h5".toList := by
    intro n hn
    apply (C95_name n).2
    rintro stem ext _ _ _ rfl
    exact hn (by simp)
  rw [key a ha, key b hb] at h
  exact List.append_cancel_right h

example : saveName "plant_1.5".toList = "plant_1.h5".toList ∧ saveName "plant_1.7".toList = "plant_1.h5".toList ∧ saveName "plant".toList = "plant.h5".toList ∧
    saveName "plant.h5".toList = "plant.h5".toList ∧ saveName ".plant".toList = ".plant.h5".toList ∧ saveName "plant.".toList = "plant..h5".toList := by decide +kernel

/-! ## Contents -/

theorem splitSep_word (k : Key) (hk : '/' ∉ k) : splitSep k = [k] := by
  induction k with
  | nil => rfl
  | cons c cs ih =>
    have hc : c ≠ '/' := fun h => hk (h ▸ List.mem_cons_self)
    rw [splitSep, if_neg hc, ih (fun h => hk (List.mem_cons_of_mem _ h))]

theorem splitSep_cons (k : Key) (hk : '/' ∉ k) (rest : List Char) : splitSep (k ++ '/' :: rest) = k :: splitSep rest := by
  induction k with
  | nil => rw [List.nil_append, splitSep, if_pos rfl]
  | cons c cs ih =>
    have hc : c ≠ '/' := fun h => hk (h ▸ List.mem_cons_self)
    rw [List.cons_append, splitSep, if_neg hc, ih (fun h => hk (List.mem_cons_of_mem _ h))]

theorem splitSep_join : ∀ (p : List Key), p ≠ [] → Good p → splitSep (join p) = p
  | [], h, _ => absurd rfl h
  | [k], _, hg => splitSep_word k (hg k (by simp)).2
  | k :: l :: ls, _, hg => by
    rw [join_cons (by simp), splitSep_cons k (hg k (by simp)).2, splitSep_join (l :: ls) (by simp) (fun x hx => hg x (List.mem_cons_of_mem _ hx))]

/-- No key is a single dot. -/
def NoDot : Flatten.Tree V → Prop
  | .nil => True
  | .leaf k _ rest => k ≠ ['.'] ∧ NoDot rest
  | .node k sub rest => k ≠ ['.'] ∧ NoDot sub ∧ NoDot rest

theorem leaves_noDot (t : Flatten.Tree V) (h : NoDot t) : ∀ x ∈ leaves t, ∀ k ∈ x.1, k ≠ ['.'] := by
  induction t with
  | nil => intro x hx; cases hx
  | leaf k v rest ih =>
    intro x hx
    rcases List.mem_cons.1 hx with rfl | hx
    · intro k' hk'; rw [List.mem_singleton] at hk'; subst hk'; exact h.1
    · exact ih h.2 x hx
  | node k sub rest ih1 ih2 =>
    intro x hx
    rcases List.mem_append.1 hx with hx | hx
    · obtain ⟨y, hy, rfl⟩ := List.mem_map.1 hx
      intro k' hk'
      rcases List.mem_cons.1 hk' with rfl | hk'
      · exact h.1
      · exact ih1 h.2.1 y hy k' hk'
    · exact ih2 h.2.2 x hx

theorem components_join (p : List Key) (hne : p ≠ []) (hg : Good p) (hd : ∀ k ∈ p, k ≠ ['.']) : components (join p) = p := by
  unfold components
  rw [splitSep_join p hne hg, List.filter_eq_self]
  intro k hk
  simpa using ⟨(hg k hk).1, hd k hk⟩

/-- one path does not lead through the other -/
def Apart (p q : List Key) : Prop := ¬ p <+: q ∧ ¬ q <+: p

theorem apart_heads {k l : Key} (h : k ≠ l) (p q : List Key) : Apart (k :: p) (l :: q) :=
  ⟨fun hp => h (List.cons_prefix_cons.1 hp).1, fun hp => h (List.cons_prefix_cons.1 hp).1.symm⟩

theorem apart_cons {k : Key} {p q : List Key} (h : Apart p q) : Apart (k :: p) (k :: q) :=
  ⟨fun hp => h.1 (List.cons_prefix_cons.1 hp).2, fun hp => h.2 (List.cons_prefix_cons.1 hp).2⟩

theorem leaves_apart (t : Flatten.Tree V) (hp : t.Proper) : (leaves t).Pairwise (fun x y => Apart x.1 y.1) := by
  induction t with
  | nil => exact List.Pairwise.nil
  | leaf k v rest ih =>
    refine List.pairwise_cons.2 ⟨?_, ih hp.2.2.2⟩
    intro y hy
    obtain ⟨l, q, hl, hm⟩ := head_mem_keys rest y hy
    rw [hl]
    refine apart_heads ?_ _ _
    rintro rfl
    exact hp.2.2.1 hm
  | node k sub rest ih1 ih2 =>
    refine List.pairwise_append.2 ⟨?_, ih2 hp.2.2.2.2, ?_⟩
    · rw [List.pairwise_map]
      exact (ih1 hp.2.2.2.1).imp (fun h => apart_cons h)
    · intro x hx y hy
      obtain ⟨z, _, rfl⟩ := List.mem_map.1 hx
      obtain ⟨l, q, hl, hm⟩ := head_mem_keys rest y hy
      rw [hl]
      refine apart_heads ?_ _ _
      rintro rfl
      exact hp.2.2.1 hm

/-- the assignments by path -/
def leavesOf (c : Config V) : List (List Key × Option V) :=
  ([numberKey], some c.groups) :: (sections c).flatMap fun s => (leaves s.2).map fun x => (s.1 :: x.1, x.2)

/-- What is asked of a configuration: keys are distinct within each dictionary, not empty, without slashes, and not a single dot. -/
def Regular (c : Config V) : Prop := ∀ s ∈ sections c, s.2.Proper ∧ NoDot s.2

theorem section_names (c : Config V) : ∀ s ∈ sections c, s.1 ≠ [] ∧ '/' ∉ s.1 ∧ s.1 ≠ ['.'] ∧ s.1 ≠ numberKey := by
  intro s hs
  simp only [sections, List.mem_cons, List.not_mem_nil, or_false] at hs
  rcases hs with rfl | rfl | rfl | rfl | rfl | rfl <;> (dsimp only; decide +kernel)

theorem assignments_eq (c : Config V) (h : Regular c) : assignments c = (leavesOf c).map fun x => (join x.1, x.2) := by
  unfold assignments leavesOf
  rw [List.map_cons, List.map_flatMap]
  refine congrArg₂ List.cons rfl ?_
  apply List.flatMap_congr
  intro s hs
  rw [flatten_eq _ (h s hs).1, List.map_map, List.map_map]
  apply List.map_congr_left
  intro x hx
  simp only [Function.comp_apply]
  rw [join_cons (path_ne_nil _ x hx)]

theorem leavesOf_good (c : Config V) (h : Regular c) : ∀ x ∈ leavesOf c, x.1 ≠ [] ∧ components (join x.1) = x.1 := by
  intro x hx
  rcases List.mem_cons.1 hx with rfl | hx
  · exact ⟨by simp, (by decide +kernel : components (join [numberKey]) = [numberKey])⟩
  · obtain ⟨s, hs, hx⟩ := List.mem_flatMap.1 hx
    obtain ⟨y, hy, rfl⟩ := List.mem_map.1 hx
    obtain ⟨n1, n2, n3, _⟩ := section_names c s hs
    refine ⟨by simp, components_join _ (by simp) ?_ ?_⟩
    · intro k hk
      rcases List.mem_cons.1 hk with rfl | hk
      · exact ⟨n1, n2⟩
      · exact leaves_good _ (h s hs).1 y hy k hk
    · intro k hk
      rcases List.mem_cons.1 hk with rfl | hk
      · exact n3
      · exact leaves_noDot _ (h s hs).2 y hy k hk

theorem leavesOf_apart (c : Config V) (h : Regular c) : (leavesOf c).Pairwise (fun x y => Apart x.1 y.1) := by
  refine List.pairwise_cons.2 ⟨?_, ?_⟩
  · intro y hy
    obtain ⟨s, hs, hy⟩ := List.mem_flatMap.1 hy
    obtain ⟨z, _, rfl⟩ := List.mem_map.1 hy
    exact apart_heads (section_names c s hs).2.2.2.symm _ _
  · rw [List.pairwise_flatMap]
    constructor
    · intro s hs
      rw [List.pairwise_map]
      exact (leaves_apart _ (h s hs).1).imp (fun h => apart_cons h)
    · have : (sections c).Pairwise (fun s s' => s.1 ≠ s'.1) := by
        rw [← List.pairwise_map (f := fun s : Key × Flatten.Tree (Option V) => s.1) (R := fun a b => a ≠ b)]
        simp only [sections, List.map_cons, List.map_nil]
        decide +kernel
      refine this.imp ?_
      intro s s' hne x hx y hy
      obtain ⟨z, _, rfl⟩ := List.mem_map.1 hx
      obtain ⟨w, _, rfl⟩ := List.mem_map.1 hy
      exact apart_heads hne _ _

theorem putAll_eq (es : List (List Key × Option V)) : ∀ f : File V, (∀ x ∈ es, x.1 ≠ [] ∧ components (join x.1) = x.1) → es.Pairwise (fun x y => Apart x.1 y.1) →
    (∀ e ∈ f, ∀ x ∈ es, Apart e.1 x.1) →
    putAll f (es.map fun x => (join x.1, x.2)) =
      (f ++ (es.takeWhile (·.2.isSome)).filterMap (fun x => x.2.map fun v => (x.1, v)), if es.all (·.2.isSome) then .ok () else .error .typeError) := by
  induction es with
  | nil => intro f _ _ _; simp [putAll]
  | cons a as ih =>
    intro f hg hp hf
    obtain ⟨p, v⟩ := a
    obtain ⟨hne, hc⟩ := hg (p, v) (by simp)
    simp only at hne hc
    cases v with
    | none => simp [putAll, put]
    | some x =>
      have hany : ¬ (components (join p) = [] ∨ f.any (fun e => e.1.isPrefixOf (components (join p)) || (components (join p)).isPrefixOf e.1) = true) := by
        rw [hc]
        rintro (h | h)
        · exact hne h
        · rw [List.any_eq_true] at h
          obtain ⟨e, he, hor⟩ := h
          have := hf e he (p, some x) (by simp)
          rw [Bool.or_eq_true, List.isPrefixOf_iff_prefix, List.isPrefixOf_iff_prefix] at hor
          rcases hor with h | h
          · exact this.1 h
          · exact this.2 h
      rw [List.map_cons, putAll]
      unfold put
      simp only [if_neg hany]
      rw [ih _ (fun x hx => hg x (List.mem_cons_of_mem _ hx)) (List.pairwise_cons.1 hp).2, hc]
      · simp only [List.takeWhile_cons, Option.isSome_some, if_true, List.filterMap_cons, Option.map_some, List.append_assoc, List.singleton_append, List.all_cons, Bool.true_and]
      · intro e he y hy
        rcases List.mem_append.1 he with he | he
        · exact hf e he y (List.mem_cons_of_mem _ hy)
        · rw [List.mem_singleton] at he
          subst he
          rw [hc]
          exact (List.pairwise_cons.1 hp).1 y hy

theorem generate_eq (disk : Disk V) (name : List Char) (c : Config V) (h : Regular c) :
    generate disk name c = (fun other => if other = saveName name then some (((leavesOf c).takeWhile (·.2.isSome)).filterMap (fun x => x.2.map fun v => (x.1, v))) else disk other,
      if (leavesOf c).all (·.2.isSome) then .ok () else .error .typeError) := by
  unfold generate
  simp only [assignments_eq c h]
  rw [putAll_eq _ [] (leavesOf_good c h) (leavesOf_apart c h) (by simp)]
  simp

theorem mem_leavesOf (c : Config V) (h : Regular c) (path : List Key) (v : Option V) :
    (path, v) ∈ leavesOf c ↔ (path = [numberKey] ∧ v = some c.groups) ∨ ∃ s ∈ sections c, ∃ q, path = s.1 :: q ∧ s.2.lookup q = some v := by
  unfold leavesOf
  simp only [List.mem_cons, Prod.mk.injEq, List.mem_flatMap, List.mem_map]
  apply or_congr Iff.rfl
  constructor
  · rintro ⟨s, hs, x, hx, rfl, rfl⟩
    exact ⟨s, hs, x.1, rfl, (mem_leaves _ (h s hs).1 _ _).1 hx⟩
  · rintro ⟨s, hs, q, rfl, hq⟩
    exact ⟨s, hs, (q, v), (mem_leaves _ (h s hs).1 _ _).2 hq, rfl, rfl⟩

/-- C95, when it succeeds: a scenario is generated without an error exactly if no value was left `None`. -/
theorem C95_succeeds_iff (disk : Disk V) (name : List Char) (c : Config V) (h : Regular c) :
    (generate disk name c).2 = .ok () ↔ ∀ s ∈ sections c, ∀ q, s.2.lookup q ≠ some none := by
  rw [generate_eq disk name c h]
  have : (leavesOf c).all (·.2.isSome) = true ↔ ∀ s ∈ sections c, ∀ q, s.2.lookup q ≠ some none := by
    rw [List.all_eq_true]
    constructor
    · intro ha s hs q hq
      have := ha (s.1 :: q, none) ((mem_leavesOf c h _ _).2 (Or.inr ⟨s, hs, q, rfl, hq⟩))
      simp at this
    · rintro ha ⟨p, v⟩ hx
      rcases (mem_leavesOf c h _ _).1 hx with ⟨_, rfl⟩ | ⟨s, hs, q, _, hq⟩
      · rfl
      · cases v with
        | none => exact absurd hq (ha s hs q)
        | some x => rfl
  simp only
  rw [← this]
  split
  · rename_i hc; simp [hc]
  · rename_i hc; simp [hc]

/-- C95, what is saved: after a generation without an error, the file has a dataset for the number of groups and one for every value of every dictionary, under the keys that lead to it,
and no other; no other file is touched. -/
theorem C95_complete (disk : Disk V) (name : List Char) (c : Config V) (h : Regular c) (hok : (generate disk name c).2 = .ok ()) :
    (∃ f, (generate disk name c).1 (saveName name) = some f ∧ (f.map (·.1)).Nodup ∧ ∀ path x, (path, x) ∈ f ↔
      (path = [numberKey] ∧ x = c.groups) ∨ ∃ s ∈ sections c, ∃ q, path = s.1 :: q ∧ s.2.lookup q = some (some x)) ∧
    ∀ other, other ≠ saveName name → (generate disk name c).1 other = disk other := by
  rw [generate_eq disk name c h] at hok ⊢
  have hall : (leavesOf c).all (·.2.isSome) = true := by
    by_contra hc
    simp [hc] at hok
  have htake : (leavesOf c).takeWhile (·.2.isSome) = leavesOf c := by
    rw [List.takeWhile_eq_self_iff]
    exact List.all_eq_true.1 hall
  refine ⟨⟨_, if_pos rfl, ?_, ?_⟩, fun other ho => if_neg ho⟩
  · rw [htake]
    have hnd : (leavesOf c).Pairwise (fun x y => x.1 ≠ y.1) := (leavesOf_apart c h).imp (fun {x y} hap (he : x.1 = y.1) => hap.1 (by rw [he]))
    rw [List.Nodup, List.pairwise_map, List.pairwise_filterMap]
    refine hnd.imp ?_
    rintro ⟨p, v⟩ ⟨q, w⟩ hne b hb b' hb'
    cases v <;> cases w <;> simp at hb hb'
    subst hb hb'
    exact hne
  · intro path x
    rw [htake, List.mem_filterMap]
    constructor
    · rintro ⟨⟨p, v⟩, hm, he⟩
      cases v with
      | none => simp at he
      | some y =>
        simp at he
        obtain ⟨rfl, rfl⟩ := he
        rcases (mem_leavesOf c h _ _).1 hm with ⟨h1, h2⟩ | h2
        · exact Or.inl ⟨h1, by simpa using h2⟩
        · exact Or.inr h2
    · rintro (⟨rfl, rfl⟩ | h2)
      · exact ⟨([numberKey], some c.groups), (mem_leavesOf c h _ _).2 (Or.inl ⟨rfl, rfl⟩), by simp⟩
      · exact ⟨(path, some x), (mem_leavesOf c h _ _).2 (Or.inr h2), by simp⟩

/-- C95 is false when generation fails: whatever the file held before is gone.  What is left of the file depends on the new configuration only, and it lacks everything from the first
`None` on; in particular a light source without a mean leaves a file without prototypes and heliostats. -/
theorem C95_failure_destroys (disk : Disk V) (name : List Char) (c : Config V) (h : Regular c) (q : List Key) (hq : c.lightSources.lookup q = some none) :
    (generate disk name c).2 = .error .typeError ∧ ∃ f, (∀ disk', (generate disk' name c).1 (saveName name) = some f) ∧
      ∀ path x, (path, x) ∈ f → path.head? ≠ some "prototypes".toList ∧ path.head? ≠ some "heliostats".toList := by
  simp only [generate_eq _ name c h]
  have hsec : ("lightsources".toList, c.lightSources) ∈ sections c := by simp [sections]
  have hm : (q, none) ∈ leaves c.lightSources := (mem_leaves _ (h _ hsec).1 _ _).2 hq
  have hmem := (mem_leavesOf c h ("lightsources".toList :: q) none).2 (Or.inr ⟨_, hsec, q, rfl, hq⟩)
  refine ⟨?_, _, fun _ => if_pos trivial, ?_⟩
  · have : ¬ ((leavesOf c).all (·.2.isSome) = true) := by
      intro ha
      have := List.all_eq_true.1 ha _ hmem
      simp at this
    simp only [this]
    rfl
  · intro path x hx
    rw [List.mem_filterMap] at hx
    obtain ⟨⟨p, v⟩, hin, he⟩ := hx
    have hp : p = path := by
      cases v <;> simp at he
      exact he.1
    subst hp
    have hsplit : leavesOf c = (([numberKey], some c.groups) :: (([("power_plant".toList, c.powerPlant), ("target_areas_planar".toList, c.planar),
        ("target_areas_cylindrical".toList, c.cylindrical), ("lightsources".toList, c.lightSources)] : List (Key × Flatten.Tree (Option V))).flatMap
          fun s => (leaves s.2).map fun x => (s.1 :: x.1, x.2))) ++
        (([("prototypes".toList, c.prototypes), ("heliostats".toList, c.heliostats)] : List (Key × Flatten.Tree (Option V))).flatMap
          fun s => (leaves s.2).map fun x => (s.1 :: x.1, x.2)) := by
      unfold leavesOf sections
      rw [List.cons_append, ← List.flatMap_append]
      rfl
    rw [hsplit, List.takeWhile_append] at hin
    split at hin
    · rename_i hlen
      exfalso
      have hself := (List.takeWhile_prefix (fun x : List Key × Option V => x.2.isSome)).eq_of_length hlen
      rw [List.takeWhile_eq_self_iff] at hself
      have := hself ("lightsources".toList :: q, none) (by
        refine List.mem_cons_of_mem _ (List.mem_flatMap.2 ⟨("lightsources".toList, c.lightSources), by simp, List.mem_map.2 ⟨_, hm, rfl⟩⟩))
      simp at this
    · have hin := (List.takeWhile_sublist _).mem hin
      rcases List.mem_cons.1 hin with h1 | h1
      · cases h1
        exact ⟨by decide +kernel, by decide +kernel⟩
      · obtain ⟨s, hs, hx⟩ := List.mem_flatMap.1 h1
        obtain ⟨y, _, hy⟩ := List.mem_map.1 hx
        cases hy
        simp only [List.mem_cons, List.not_mem_nil, or_false] at hs
        rcases hs with rfl | rfl | rfl | rfl <;> simp only [List.head?_cons] <;> exact ⟨by decide +kernel, by decide +kernel⟩

/-- C95 is false for names, on disk: a scenario is generated without an error under one name, then another under a name that differs after the last dot only.  The file of the first now
holds the second. -/
theorem C95_second_version_replaces_first (disk : Disk V) (stem ext ext' : List Char) (hs : stem ≠ []) (he : ext ≠ []) (he' : ext' ≠ []) (hd : '.' ∉ ext) (hd' : '.' ∉ ext')
    (c c' : Config V) :
    (generate (generate disk (stem ++ '.' :: ext) c).1 (stem ++ '.' :: ext') c').1 = (generate disk (stem ++ '.' :: ext') c').1 := by
  funext other
  unfold generate
  simp only
  rw [C95_names_collide stem ext ext' hs he he' hd hd']
  split
  · rfl
  · rfl

/-! ## Cases -/

/-- one light source, one heliostat; `mean` is the mean of the light source -/
def small (mean : Option Nat) : Config Nat where
  groups := 1
  powerPlant := .leaf "position".toList (some 7) .nil
  planar := .nil
  cylindrical := .nil
  lightSources := .node "sun_1".toList (.leaf "number_of_rays".toList (some 10) (.leaf "mean".toList mean .nil)) .nil
  prototypes := .leaf "surface".toList (some 3) .nil
  heliostats := .node "AA39".toList (.leaf "id".toList (some 5) .nil) .nil

theorem small_regular (mean : Option Nat) : Regular (small mean) := by
  intro s hs
  simp only [sections, small, List.mem_cons, List.not_mem_nil, or_false] at hs
  rcases hs with rfl | rfl | rfl | rfl | rfl | rfl <;> simp [Flatten.Tree.Proper, NoDot, Flatten.Tree.keys]

example : (generate (fun _ => none) "plant_1.5".toList (small (some 0))).2 = .ok () ∧
    ((generate (fun _ => none) "plant_1.5".toList (small (some 0))).1 "plant_1.h5".toList).map (·.length) = some 6 ∧
    (small none).lightSources.lookup ["sun_1".toList, "mean".toList] = some none ∧
    (generate (generate (fun _ => none) "plant.h5".toList (small (some 0))).1 "plant".toList (small none)).2 = .error .typeError ∧
    (generate (generate (fun _ => none) "plant.h5".toList (small (some 0))).1 "plant".toList (small none)).1 "plant.h5".toList =
      some [(["number_of_heliostat_groups".toList], 1), (["power_plant".toList, "position".toList], 7), (["lightsources".toList, "sun_1".toList, "number_of_rays".toList], 10)] := by
  decide +kernel

end Artist.SaveScenario
