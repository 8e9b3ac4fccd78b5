import Verif.Proofs.LightSources
/-!
# C73: the light sources of a scenario are those configured; C74: the distortions of the sun
-/
namespace Artist.LightSources
open Artist Flatten

section
variable (cs : List SourceCfg) (hn : (cs.map (·.key)).Nodup) (hg : ∀ c ∈ cs, GoodKey c.key)
include hn hg

theorem write_ok (hv : ∀ c ∈ cs, c.mean ≠ none ∧ c.covariance ≠ none) :
    ∃ f, write cs = .ok f ∧ ∀ c ∈ cs, ∀ path, (∀ k ∈ path, GoodKey k) → dictGet f (join (c.key :: path)) = ((sourceDict c).lookup path).join := by
  obtain ⟨f, hf, hget⟩ := store_ok (flatten (listDict cs)) (by
    rw [flatten_eq _ (list_proper cs hn hg)]
    intro x hx
    obtain ⟨y, hy, rfl⟩ := List.mem_map.1 hx
    obtain ⟨c, hc, z, hz, rfl⟩ := (list_leaves_mem cs y).1 hy
    rw [source_leaves] at hz
    simp only [List.mem_cons, List.not_mem_nil, or_false] at hz
    rcases hz with rfl | rfl | rfl | rfl | rfl
    · simp
    · simp
    · simp
    · simpa using (hv c hc).1
    · simpa using (hv c hc).2)
  refine ⟨f, hf, fun c hc path hp => ?_⟩
  rw [hget, get_source cs hn hg c hc path hp]

omit hn hg in
/-- The entries of a written source. -/
theorem loadOne_eq (f : File) (c : SourceCfg)
    (h : ∀ path, (∀ k ∈ path, GoodKey k) → dictGet f (join (c.key :: path)) = ((sourceDict c).lookup path).join) :
    loadOne f c.key = if c.type = sunKey then
      (match sunInit c.rays c.distribution c.mean c.covariance with
        | .ok s => .ok s
        | .error .keyError => .error (.unsupported c.type)
        | .error e => .error (.py e)) else .error (.unsupported c.type) := by
  have n1 : "number_of_rays".toList ≠ "type".toList := by decide +kernel
  have n2 : "distribution_parameters".toList ≠ "type".toList := by decide +kernel
  have n3 : "distribution_parameters".toList ≠ "number_of_rays".toList := by decide +kernel
  have n4 : "mean".toList ≠ "distribution_type".toList := by decide +kernel
  have n5 : "covariance".toList ≠ "distribution_type".toList := by decide +kernel
  have n6 : "covariance".toList ≠ "mean".toList := by decide +kernel
  have e1 : dictGet f (join [c.key, "type".toList]) = some (.text c.type) := by
    rw [h _ (by unfold GoodKey; decide +kernel)]
    unfold sourceDict
    rw [Flatten.Tree.lookup, if_pos rfl]; rfl
  have e2 : dictGet f (join [c.key, "number_of_rays".toList]) = some (.count c.rays) := by
    rw [h _ (by unfold GoodKey; decide +kernel)]
    unfold sourceDict
    rw [Flatten.Tree.lookup, if_neg n1, Flatten.Tree.lookup, if_pos rfl]; rfl
  have e3 : dictGet f (join [c.key, "distribution_parameters".toList, "distribution_type".toList]) = some (.text c.distribution) := by
    rw [h _ (by unfold GoodKey; decide +kernel)]
    unfold sourceDict
    rw [Flatten.Tree.lookup, if_neg n2, Flatten.Tree.lookup, if_neg n3, Flatten.Tree.lookup, if_pos rfl, Flatten.Tree.lookup, if_pos rfl]; rfl
  have e4 : dictGet f (join [c.key, "distribution_parameters".toList, "mean".toList]) = c.mean.map .num := by
    rw [h _ (by unfold GoodKey; decide +kernel)]
    unfold sourceDict
    rw [Flatten.Tree.lookup, if_neg n2, Flatten.Tree.lookup, if_neg n3, Flatten.Tree.lookup, if_pos rfl, Flatten.Tree.lookup, if_neg n4,
      Flatten.Tree.lookup, if_pos rfl]; rfl
  have e5 : dictGet f (join [c.key, "distribution_parameters".toList, "covariance".toList]) = c.covariance.map .num := by
    rw [h _ (by unfold GoodKey; decide +kernel)]
    unfold sourceDict
    rw [Flatten.Tree.lookup, if_neg n2, Flatten.Tree.lookup, if_neg n3, Flatten.Tree.lookup, if_pos rfl, Flatten.Tree.lookup, if_neg n5,
      Flatten.Tree.lookup, if_neg n6, Flatten.Tree.lookup, if_pos rfl]; rfl
  have e6 : readOptional f [c.key, "distribution_parameters".toList, "mean".toList] = .ok c.mean := by
    unfold readOptional; rw [e4]; cases c.mean <;> rfl
  have e7 : readOptional f [c.key, "distribution_parameters".toList, "covariance".toList] = .ok c.covariance := by
    unfold readOptional; rw [e5]; cases c.covariance <;> rfl
  unfold loadOne sunFromFile
  simp only [e1, e2, e3, e6, e7]
  rfl

omit hn hg in
theorem loadAll_ok (f : File) (ks : List Key) (suns : List Sun) : loadAll f ks = .ok suns ↔ List.Forall₂ (fun k s => loadOne f k = .ok s) ks suns := by
  induction ks generalizing suns with
  | nil =>
    rw [List.forall₂_nil_left_iff]
    simp [loadAll, eq_comm]
  | cons k ks ih =>
    unfold loadAll
    cases h1 : loadOne f k with
    | error e =>
      constructor
      · intro h; cases h
      · intro h; cases h with
        | cons h _ => rw [h1] at h; cases h
    | ok s =>
      cases h2 : loadAll f ks with
      | error e =>
        constructor
        · intro h; cases h
        · intro h; cases h with
          | cons _ h => rw [← ih, h2] at h; cases h
      | ok rest =>
        constructor
        · intro h
          cases h
          exact .cons h1 ((ih rest).1 h2)
        · intro h
          cases h with
          | cons h h' =>
            rw [h1] at h
            rw [← ih, h2] at h'
            cases h; cases h'; rfl

/-- A configuration that the file format and the sun can represent. -/
def Complete (c : SourceCfg) : Prop := c.type = sunKey ∧ c.distribution = normal ∧ (∃ m, c.mean = some m) ∧ ∃ v, c.covariance = some v ∧ 0 < v

omit hn hg in
theorem sorted_keys : ∀ x ∈ Field.h5order Field.lexLe (cs.map fun c => (c.key, c)), x.2 ∈ cs ∧ x.1 = x.2.key := by
  intro x hx
  obtain ⟨c, hc, rfl⟩ := List.mem_map.1 ((Field.h5order_perm Field.lexLe _).mem_iff.1 hx)
  exact ⟨hc, rfl⟩

/-- C73, full statement for complete configurations: after writing and loading there is one sun for each configured light source, with its number of rays, mean
and covariance, in the order of the names.  Missing: configurations that leave out mean or covariance or have no spread (`C73_left_out`,
`C73_loadable_iff`). -/
theorem C73_roundtrip_partial (hv : ∀ c ∈ cs, Complete c) :
    ∃ f sorted suns, write cs = .ok f ∧ loadAll f (sourceKeys cs) = .ok suns ∧
      sorted.Perm cs ∧ sorted.Pairwise (fun a b => Field.lexLe a.key b.key = true) ∧
      List.Forall₂ (fun (c : SourceCfg) (s : Sun) => s.rays = c.rays ∧ c.mean = some s.mean ∧ c.covariance = some s.covariance) sorted suns := by
  obtain ⟨f, hf, hget⟩ := write_ok cs hn hg (fun c hc => by
    obtain ⟨-, -, ⟨m, hm⟩, v, hv, -⟩ := hv c hc
    simp [hm, hv])
  have hone : ∀ c ∈ cs, ∃ s, loadOne f c.key = .ok s ∧ s.rays = c.rays ∧ c.mean = some s.mean ∧ c.covariance = some s.covariance := by
    intro c hc
    obtain ⟨ht, hd, ⟨m, hm⟩, v, hv, hpos⟩ := hv c hc
    refine ⟨⟨c.rays, m, v⟩, ?_, rfl, hm, hv⟩
    rw [loadOne_eq f c (hget c hc), if_pos ht, hd, hm, hv]
    simp only [sunInit]
    rw [if_neg (by simp), if_pos hpos]
  have key : ∀ l : List (Key × SourceCfg), (∀ x ∈ l, x.2 ∈ cs ∧ x.1 = x.2.key) →
      ∃ suns, List.Forall₂ (fun k s => loadOne f k = .ok s) (l.map (·.1)) suns ∧
        List.Forall₂ (fun (c : SourceCfg) (s : Sun) => s.rays = c.rays ∧ c.mean = some s.mean ∧ c.covariance = some s.covariance) (l.map (·.2)) suns := by
    intro l
    induction l with
    | nil => intro _; exact ⟨[], .nil, .nil⟩
    | cons x xs ih =>
      intro hx
      obtain ⟨suns, h1, h2⟩ := ih (fun y hy => hx y (List.mem_cons_of_mem _ hy))
      obtain ⟨hc, hk⟩ := hx x (by simp)
      obtain ⟨s, hs, hr⟩ := hone x.2 hc
      exact ⟨s :: suns, .cons (by dsimp only; rw [hk]; exact hs) h1, .cons hr h2⟩
  obtain ⟨suns, h1, h2⟩ := key _ (sorted_keys cs)
  refine ⟨f, (Field.h5order Field.lexLe (cs.map fun c => (c.key, c))).map (·.2), suns, hf, (loadAll_ok f _ suns).2 h1, ?_, ?_, h2⟩
  · have := (Field.h5order_perm Field.lexLe (cs.map fun c => (c.key, c))).map (·.2)
    rw [List.map_map] at this
    have hid : (((fun x : Key × SourceCfg => x.2) ∘ fun c => (c.key, c)) : SourceCfg → SourceCfg) = id := rfl
    rw [hid, List.map_id] at this
    exact this
  · rw [List.pairwise_map]
    refine (Field.h5order_sorted Field.lexLe_order _).imp_of_mem ?_
    intro a b ha hb h
    rw [← (sorted_keys cs a ha).2, ← (sorted_keys cs b hb).2]
    exact h

/-- C73: a configuration that leaves out the mean or the covariance, as `LightSourceConfig` allows, cannot be written: `TypeError`. -/
theorem C73_left_out (c : SourceCfg) (hc : c ∈ cs) (h : c.mean = none ∨ c.covariance = none) : write cs = .error .typeError := by
  refine store_none _ ?_
  rw [flatten_eq _ (list_proper cs hn hg)]
  rcases h with h | h
  · refine ⟨(join (c.key :: ["distribution_parameters".toList, "mean".toList]), c.mean.map .num), List.mem_map.2 ⟨(_, _), (list_leaves_mem cs _).2
      ⟨c, hc, (["distribution_parameters".toList, "mean".toList], c.mean.map .num), ?_, rfl⟩, rfl⟩, by simp [h]⟩
    rw [source_leaves]; simp
  · refine ⟨(join (c.key :: ["distribution_parameters".toList, "covariance".toList]), c.covariance.map .num), List.mem_map.2 ⟨(_, _), (list_leaves_mem cs _).2
      ⟨c, hc, (["distribution_parameters".toList, "covariance".toList], c.covariance.map .num), ?_, rfl⟩, rfl⟩, by simp [h]⟩
    rw [source_leaves]; simp

/-- C73: exactly the complete configurations survive writing and loading. -/
theorem C73_loadable_iff : (∃ f suns, write cs = .ok f ∧ loadAll f (sourceKeys cs) = .ok suns) ↔ ∀ c ∈ cs, Complete c := by
  constructor
  · rintro ⟨f, suns, hf, hl⟩ c hc
    have hv : ∀ c ∈ cs, c.mean ≠ none ∧ c.covariance ≠ none := by
      intro d hd
      by_contra hcon
      have : d.mean = none ∨ d.covariance = none := by tauto
      rw [C73_left_out cs hn hg d hd this] at hf
      cases hf
    obtain ⟨f', hf', hget⟩ := write_ok cs hn hg hv
    obtain rfl : f' = f := by rw [hf] at hf'; cases hf'; rfl
    have hmem : c.key ∈ sourceKeys cs := by
      unfold sourceKeys
      exact List.mem_map.2 ⟨(c.key, c), (Field.h5order_perm Field.lexLe _).mem_iff.2 (List.mem_map.2 ⟨c, hc, rfl⟩), rfl⟩
    obtain ⟨s, -, hs⟩ := Field.forall₂_mem_left ((loadAll_ok f' _ suns).1 hl) c.key hmem
    rw [loadOne_eq f' c (hget c hc)] at hs
    by_cases ht : c.type = sunKey
    · rw [if_pos ht] at hs
      by_cases hd : c.distribution = normal
      · obtain ⟨m, hm⟩ := Option.ne_none_iff_exists'.1 (hv c hc).1
        obtain ⟨v, hcov⟩ := Option.ne_none_iff_exists'.1 (hv c hc).2
        refine ⟨ht, hd, ⟨m, hm⟩, v, hcov, ?_⟩
        by_contra hpos
        rw [hd, hm, hcov] at hs
        simp only [sunInit] at hs
        rw [if_neg (by simp), if_neg hpos] at hs
        cases hs
      · simp only [sunInit] at hs
        rw [if_pos hd] at hs
        cases hs
    · rw [if_neg ht] at hs; cases hs
  · intro hv
    obtain ⟨f, _, suns, hf, hl, -⟩ := C73_roundtrip_partial cs hn hg hv
    exact ⟨f, suns, hf, hl⟩
end

/-- C73: a file in which a sun has no mean or no covariance is rejected with the message that suns are not supported. -/
theorem C73_misleading (f : File) (key : Key) (n : Int) (ht : dictGet f (join [key, "type".toList]) = some (.text sunKey))
    (hr : dictGet f (join [key, "number_of_rays".toList]) = some (.count n))
    (hd : dictGet f (join [key, "distribution_parameters".toList, "distribution_type".toList]) = some (.text normal))
    (hm : ∀ v, dictGet f (join [key, "distribution_parameters".toList, "mean".toList]) = some v → ∃ x, v = .num x)
    (hc : dictGet f (join [key, "distribution_parameters".toList, "covariance".toList]) = none) :
    loadOne f key = .error (.unsupported sunKey) := by
  have e7 : readOptional f [key, "distribution_parameters".toList, "covariance".toList] = .ok none := by
    unfold readOptional; rw [hc]
  have e6 : ∃ m, readOptional f [key, "distribution_parameters".toList, "mean".toList] = .ok m := by
    unfold readOptional
    cases h : dictGet f (join [key, "distribution_parameters".toList, "mean".toList]) with
    | none => exact ⟨none, rfl⟩
    | some v => obtain ⟨x, rfl⟩ := hm v h; exact ⟨some x, rfl⟩
  obtain ⟨m, e6⟩ := e6
  unfold loadOne sunFromFile
  simp only [ht, hr, hd, e6, e7, sunInit]
  cases m <;> simp

/-- C73: `set_number_of_rays` changes the light source that is traced, and no other. -/
theorem C73_set_rays (n : Int) (s : Sun) (rest : List Sun) :
    ∃ suns, setNumberOfRays n (s :: rest) = .ok suns ∧ suns.tail = rest ∧ traced suns = .ok ⟨n, s.mean, s.covariance⟩ := ⟨_, rfl, rfl, rfl⟩

/-- Two suns configured in the order `b`, `a` meet the hypotheses, and so does a list with a sun without covariance. -/
noncomputable def sunsExample : List SourceCfg :=
  [⟨"sun_2".toList, sunKey, 10, normal, some 0, some (4 / 10 ^ 6)⟩, ⟨"sun_1".toList, sunKey, 200, normal, some 0, some (1 / 10 ^ 6)⟩]

example : (sunsExample.map (·.key)).Nodup ∧ (∀ c ∈ sunsExample, GoodKey c.key) ∧ (∀ c ∈ sunsExample, Complete c) ∧
    sourceKeys sunsExample = ["sun_1".toList, "sun_2".toList] := by
  refine ⟨?_, ?_, ?_, ?_⟩
  · simp only [sunsExample, List.map]; decide +kernel
  · intro c hc
    simp only [sunsExample, List.mem_cons, List.not_mem_nil, or_false] at hc
    rcases hc with rfl | rfl <;> unfold GoodKey <;> decide +kernel
  · intro c hc
    simp only [sunsExample, List.mem_cons, List.not_mem_nil, or_false] at hc
    rcases hc with rfl | rfl
    · exact ⟨rfl, rfl, ⟨_, rfl⟩, _, rfl, by norm_num⟩
    · exact ⟨rfl, rfl, ⟨_, rfl⟩, _, rfl, by norm_num⟩
  · rfl

/-- A sun without covariance, and one without spread. -/
example : ∃ c : SourceCfg, construct c = .ok c ∧ c.covariance = none ∧ GoodKey c.key :=
  ⟨⟨"sun".toList, sunKey, 1, normal, some 0, none⟩, by simp [construct], rfl, by unfold GoodKey; decide +kernel⟩
example : ∃ c : SourceCfg, construct c = .ok c ∧ c.covariance = some 0 ∧ ¬ Complete c :=
  ⟨⟨"sun".toList, sunKey, 1, normal, some 0, some 0⟩, by simp [construct], rfl, by
    rintro ⟨-, -, -, v, hv, hp⟩
    simp only [Option.some.injEq] at hv
    exact absurd hp (by simp [← hv])⟩

/-- A file without covariance that meets the hypotheses of `C73_misleading`. -/
example : ∃ (f : File) (key : Key) (n : Int), dictGet f (join [key, "type".toList]) = some (.text sunKey) ∧
    dictGet f (join [key, "number_of_rays".toList]) = some (.count n) ∧
    dictGet f (join [key, "distribution_parameters".toList, "distribution_type".toList]) = some (.text normal) ∧
    (∀ v, dictGet f (join [key, "distribution_parameters".toList, "mean".toList]) = some v → ∃ x, v = .num x) ∧
    dictGet f (join [key, "distribution_parameters".toList, "covariance".toList]) = none := by
  refine ⟨[("sun_1/type".toList, .text sunKey), ("sun_1/number_of_rays".toList, .count 3), ("sun_1/distribution_parameters/distribution_type".toList, .text normal),
    ("sun_1/distribution_parameters/mean".toList, .num 0)], "sun_1".toList, 3, rfl, rfl, rfl, ?_, rfl⟩
  intro v hv
  obtain rfl : Val.num 0 = v := by simpa using (show some (Val.num 0) = some v from hv)
  exact ⟨0, rfl⟩

/-! ## C74 -/

/-- C74: the distortions are `mean + √covariance · z` with standard normal numbers `z`, each ray and direction with its own. -/
theorem C74_values (g : Generator) (s : Sun) (points heliostats : Nat) (seed : Int) (st : g.State) : ∃ z : List Nat → ℝ,
    z = (g.normals (g.seeded seed) [heliostats, s.rays.toNat, points, 2]).1 ∧
    ∀ h r p, (getDistortions g s points heliostats seed st).1 h r p = s.mean + √s.covariance * z [h, r, p, 0] ∧
      (getDistortions g s points heliostats seed st).2.1 h r p = s.mean + √s.covariance * z [h, r, p, 1] :=
  ⟨_, rfl, fun _ _ _ => ⟨rfl, rfl⟩⟩

/-- C74, reproducibility: whatever the program did before, a ray tracer with the same sun, seed and sizes gets the same distortions. -/
theorem C74_reproducible (g : Generator) (s : Sun) (points heliostats : Nat) (seed : Int) (st st' : g.State) (before before' : List Event) :
    (getDistortions g s points heliostats seed (before.foldl (after g) st)).1 = (getDistortions g s points heliostats seed (before'.foldl (after g) st')).1 ∧
    (getDistortions g s points heliostats seed (before.foldl (after g) st)).2.1 =
      (getDistortions g s points heliostats seed (before'.foldl (after g) st')).2.1 := ⟨rfl, rfl⟩

/-- C74, negation of "every heliostat has distortions of its own": when two groups with equally many active heliostats and points are traced one after the other
with the same seed, heliostat `h` of the second scatters its rays exactly as heliostat `h` of the first, whatever happens in between. -/
theorem C74_groups_share (g : Generator) (s : Sun) (points heliostats : Nat) (seed : Int) (st : g.State) (between : List Event) :
    let first := getDistortions g s points heliostats seed st
    let second := getDistortions g s points heliostats seed (between.foldl (after g) first.2.2)
    ∀ h r p, second.1 h r p = first.1 h r p ∧ second.2.1 h r p = first.2.1 h r p := fun _ _ _ => ⟨rfl, rfl⟩

/-- C74: the optimisers use the rank of the process as seed, so that a heliostat has the same distortions on two processes (or in a run with another number of
processes that moves it to another rank) only where the two seeds happen to give the same random numbers. -/
theorem C74_ranks (g : Generator) (s : Sun) (hc : 0 < s.covariance) (points heliostats : Nat) (rank rank' : Int) (st st' : g.State) (h r p : Nat) :
    (getDistortions g s points heliostats rank st).1 h r p = (getDistortions g s points heliostats rank' st').1 h r p ↔
    (g.normals (g.seeded rank) [heliostats, s.rays.toNat, points, 2]).1 [h, r, p, 0] =
      (g.normals (g.seeded rank') [heliostats, s.rays.toNat, points, 2]).1 [h, r, p, 0] := by
  have : √s.covariance ≠ 0 := (Real.sqrt_pos.2 hc).ne'
  simp [getDistortions, manualSeed, this]

/-- C74: creating a ray tracer replaces the state of the global generator: what the user draws afterwards does not depend on any seed they have set before, only
on what happens from the ray tracer on. -/
theorem C74_user_seed_lost (g : Generator) (st st' : g.State) (before before' between : List Event) (s : Sun) (points heliostats : Nat) (seed : Int)
    (shape : List Nat) :
    (g.normals ((before ++ Event.tracer s points heliostats seed :: between).foldl (after g) st) shape).1 =
      (g.normals ((before' ++ Event.tracer s points heliostats seed :: between).foldl (after g) st') shape).1 := by
  simp only [List.foldl_append, List.foldl_cons]
  rfl

/-- A generator in which seeds matter: drawing after different seeds gives different numbers, unless a ray tracer is created in between. -/
def counter : Generator := ⟨Int, id, fun st shape => (fun i => (st : ℝ) + (i.sum : ℝ), st + shape.prod)⟩

example (s : Sun) : (counter.normals ([Event.seed 1].foldl (after counter) (0 : Int)) [3]).1 [0] ≠ (counter.normals ([Event.seed 2].foldl (after counter) (0 : Int)) [3]).1 [0] ∧
    (counter.normals ([Event.seed 1, .tracer s 5 2 7].foldl (after counter) (0 : Int)) [3]).1 [0] =
      (counter.normals ([Event.seed 2, .tracer s 5 2 7].foldl (after counter) (0 : Int)) [3]).1 [0] := by
  refine ⟨?_, rfl⟩
  show ((1 : Int) : ℝ) + (([0] : List Nat).sum : ℝ) ≠ ((2 : Int) : ℝ) + (([0] : List Nat).sum : ℝ)
  norm_num

end Artist.LightSources
