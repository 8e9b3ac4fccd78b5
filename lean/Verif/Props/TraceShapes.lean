import Verif.Model.TraceShapes
import Mathlib.Tactic.Linarith
import Mathlib.Tactic.FieldSimp
/-!
# C83: every ray of every surface point is traced once
-/
namespace Artist.TraceShapes
open Artist

/-- C83: if numbers of rays and points stay as they were when the tracer was created and the active surfaces have as many points as the stored ones, then every
entry of the result belongs to its own ray and its own point.  (Full claim: for all numbers; it is false, see `C83_points_changed`, `C83_more_rays`.) -/
theorem C83_each_once_partial {A : Type} (rays points : Nat) (dni area : ℝ) (compute : Nat × Nat → Nat → A) :
    ∃ f, trace (create rays points points dni area) rays points points compute = .ok f ∧ ∀ i j, i < rays → j < points → f i j = compute (i, j) j := by
  have hb : broadcast points points = .ok points := by simp [broadcast]
  refine ⟨fun i j => compute (at' rays i, at' points (at' points j)) (at' points (at' points j)), ?_, ?_⟩
  · unfold trace create store
    simp only [hb]
    simp
  · intro i j hi hj
    have h1 : at' rays i = i := by unfold at'; split <;> omega
    have h2 : at' points j = j := by unfold at'; split <;> omega
    simp only [h1, h2]

/-- C83: with unchanged numbers the power of all rays together is the power received by the heliostat. -/
theorem C83_power (rays points : Nat) (hr : 0 < rays) (hp : 0 < points) (dni area : ℝ) :
    ∃ f, trace (create rays points points dni area) rays points points (fun _ _ => (create rays points points dni area).magnitude) = .ok f ∧
      total rays points f = dni * area := by
  obtain ⟨f, hf, hv⟩ := C83_each_once_partial rays points dni area (fun _ _ => (create rays points points dni area).magnitude)
  refine ⟨f, hf, ?_⟩
  unfold total
  rw [Finset.sum_congr rfl fun (i : Fin rays) _ => Finset.sum_congr rfl fun (j : Fin points) _ => hv i j i.2 j.2]
  have h1 : (rays : ℝ) ≠ 0 := by positivity
  have h2 : (points : ℝ) ≠ 0 := by positivity
  simp only [create, Finset.sum_const, Finset.card_univ, Fintype.card_fin, nsmul_eq_mul, Nat.cast_mul]
  field_simp

/-- C83, which numbers work: a tracer created for `rays₀` rays and `points₀` points runs with `rays` rays, `active` points per active heliostat and `stored` points per
stored heliostat if and only if all dimensions agree or have size one. -/
theorem C83_runs_iff {A : Type} (t : Tracer) (rays active stored : Nat) (compute : Nat × Nat → Nat → A) :
    (∃ f, trace t rays active stored compute = .ok f) ↔
      (t.rays = rays ∨ t.rays = 1) ∧ ((t.points = stored ∨ t.points = 1) ∧ (active = stored ∨ active = 1)) := by
  unfold trace broadcast store
  by_cases h1 : t.points = active
  · simp only [if_pos h1]
    split
    · rename_i h; exact ⟨fun _ => ⟨h.1, h.2, h1 ▸ h.2⟩, fun _ => ⟨_, rfl⟩⟩
    · rename_i h; exact ⟨fun ⟨_, hf⟩ => by simp at hf, fun h' => absurd ⟨h'.1, h'.2.1⟩ h⟩
  · by_cases h2 : t.points = 1
    · simp only [if_neg h1, if_pos h2]
      split
      · rename_i h; exact ⟨fun _ => ⟨h.1, .inr h2, h.2⟩, fun _ => ⟨_, rfl⟩⟩
      · rename_i h; exact ⟨fun ⟨_, hf⟩ => by simp at hf, fun h' => absurd ⟨h'.1, h'.2.2⟩ h⟩
    · by_cases h3 : active = 1
      · simp only [if_neg h1, if_neg h2, if_pos h3]
        split
        · rename_i h; exact ⟨fun _ => ⟨h.1, h.2, .inr h3⟩, fun _ => ⟨_, rfl⟩⟩
        · rename_i h; exact ⟨fun ⟨_, hf⟩ => by simp at hf, fun h' => absurd ⟨h'.1, h'.2.1⟩ h⟩
      · simp only [if_neg h1, if_neg h2, if_neg h3]
        constructor
        · rintro ⟨f, hf⟩; cases hf
        · rintro ⟨-, (h | h), (h' | h')⟩ <;> omega

/-- C83, negation: a surface reconstruction whose number of surface points (`ne` times `nn` on each facet) differs from that of the loaded scenario fails while tracing, whatever the number of
rays. -/
theorem C83_points_changed {A : Type} (ne nn facets stored rays : Nat) (dni area : ℝ) (compute : Nat × Nat → Nat → A)
    (h : ne * nn * facets ≠ stored) (h1 : ne * nn * facets ≠ 1) :
    trace (create rays (reconstructedPoints ne nn facets) stored dni area) rays (reconstructedPoints ne nn facets) stored compute = .error .runtimeError := by
  have e : reconstructedPoints ne nn facets = ne * nn * facets := Nat.mul_comm _ _
  rw [e]
  unfold trace create broadcast store
  simp only [if_true]
  rw [if_neg (by rintro ⟨-, h' | h'⟩ <;> contradiction)]

/-- C83, negation: if the number of rays is set after the ray tracer was created, tracing fails, except for a tracer created for a single ray. -/
theorem C83_rays_changed {A : Type} (rays₀ rays points : Nat) (dni area : ℝ) (compute : Nat × Nat → Nat → A) (h : rays₀ ≠ rays) (h1 : rays₀ ≠ 1) :
    trace (create rays₀ points points dni area) rays points points compute = .error .runtimeError := by
  unfold trace create broadcast store
  simp only [if_true]
  rw [if_neg (by rintro ⟨h' | h', -⟩ <;> contradiction)]

/-- C83, negation: for a tracer created for a single ray it silently multiplies the power: with `rays` rays the heliostat reflects `rays` times the power it
receives. -/
theorem C83_more_rays (rays points : Nat) (hp : 0 < points) (dni area : ℝ) :
    ∃ f, trace (create 1 points points dni area) rays points points (fun _ _ => (create 1 points points dni area).magnitude) = .ok f ∧
      total rays points f = rays * (dni * area) := by
  have hb : broadcast points points = .ok points := by simp [broadcast]
  refine ⟨fun _ _ => (create 1 points points dni area).magnitude, ?_, ?_⟩
  · unfold trace store
    simp only [create, hb]
    simp
  · unfold total
    have h2 : (points : ℝ) ≠ 0 := by positivity
    simp only [create, Finset.sum_const, Finset.card_univ, Fintype.card_fin, nsmul_eq_mul, Nat.cast_mul, Nat.cast_one, mul_one]
    field_simp

/-- 50 × 50 points on each of four facets instead of 30 × 30: the hypotheses of `C83_points_changed` hold. -/
example : 50 * 50 * 4 ≠ 30 * 30 * 4 ∧ 50 * 50 * 4 ≠ 1 := by decide

/-- Ten rays instead of one: ten times the power. -/
example : ∃ f, trace (create 1 100 100 800 16) 10 100 100 (fun _ _ => (create 1 100 100 800 16).magnitude) = .ok f ∧ total 10 100 f = 10 * 12800 := by
  obtain ⟨f, hf, h⟩ := C83_more_rays 10 100 (by norm_num) 800 16
  exact ⟨f, hf, by rw [h]; norm_num⟩

end Artist.TraceShapes
