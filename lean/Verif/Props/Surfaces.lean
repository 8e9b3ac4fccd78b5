import Verif.Proofs.Surfaces
import Verif.Props.Nurbs
import Verif.Props.Transforms
/-!
# C62, C63: recomputing surfaces, and changing the number of control points
-/
namespace Artist.Surfaces
open Artist Nurbs Transforms
variable {p q : Nat}

/-- Recomputing the surface of a freshly loaded ideal (flat) heliostat with as many sampling points in both directions changes nothing.
Missing: curved surfaces and different numbers of sampling points, where it is false (see below). -/
theorem C62_flat_partial (n : Nat) (facets : List Facet) (flat : Flat facets) (h : Loaded)
    (loaded : load p q n n none facets = .ok h) : update p q h = .ok h := by
  classical
  obtain ⟨hne, hs, hf, hlen⟩ := load_ok loaded
  have h0 : 0 < facets.length := List.length_pos_iff.2 hne
  simp only [kept] at hf
  obtain ⟨fs, ss⟩ := h
  simp only at hf hlen hs
  subst hf
  unfold update
  rw [if_neg (by simp only; omega)]
  simp only [hlen, sqrt_points h0]
  rw [surfaceSamples, decide_eq_true_iff.2 flat] at hs
  rw [hs]

/-- Recomputing the surface of a freshly loaded curved heliostat cants and translates every facet once more. -/
theorem C62_curved (n : Nat) (facets : List Facet) (curved : ¬ Flat facets) (h : Loaded)
    (loaded : load p q n n none facets = .ok h) :
    ∃ h', update p q h = .ok h' ∧ h'.samples.length = h.samples.length ∧
      ∀ (k j : Nat) (f : Facet) (s : Sample), facets[k]? = some f → j < n * n → h.samples[k * (n * n) + j]? = some s →
        h'.samples[k * (n * n) + j]? =
          some (performCanting f.cantE f.cantN s.1 + f.translation, performCanting f.cantE f.cantN s.2) := by
  classical
  obtain ⟨hne, hs, hf, hlen⟩ := load_ok loaded
  have h0 : 0 < facets.length := List.length_pos_iff.2 hne
  simp only [kept] at hf
  rw [surfaceSamples, decide_eq_false_iff_not.2 curved, sampleAll] at hs
  have hg : (evaluationGrid n n gridEps).length = n * n := grid_length ..
  have key := mapM_map_ok (g := fun a => sampleAt p q true a.1 a.2) (h := fun a s => place a.1 s) _ h.samples (by
    intro a _ b hb
    unfold sampleAt at hb ⊢
    split at hb
    · cases hb
    · simp only [Bool.false_eq_true, if_false, Except.ok.injEq] at hb
      simp [hb]) hs
  refine ⟨⟨h.facets, List.zipWith (fun a s => place a.1 s)
    (facets.flatMap fun f => (evaluationGrid n n gridEps).map fun xy => (f, xy)) h.samples⟩, ?_, ?_, ?_⟩
  · unfold update
    rw [hf, if_neg (by omega), hlen]
    simp only [sqrt_points h0]
    rw [sampleAll, key]
  · simp [mapM_length _ _ hs]
  · intro k j f s hk hj hsj
    have hp := points_get (evaluationGrid n n gridEps) facets k j f hk (by omega)
    rw [hg, List.getElem?_eq_getElem (by omega : j < (evaluationGrid n n gridEps).length)] at hp
    rw [List.getElem?_zipWith, hp, hsj]
    rfl

/-- the grid points are admissible parameters -/
theorem grid_valid {net : Net ℝ} {m m' : Nat} (hp : 1 ≤ p) (hq : 1 ≤ q) (hu : p < net.nu) (hv : q < net.nv) {xy : ℝ × ℝ}
    (h : xy ∈ evaluationGrid m m' gridEps) : Valid net p q xy.1 xy.2 := by
  obtain ⟨a, b, c, d⟩ := (C23_grid m m' gridEps (by norm_num [gridEps]) (by norm_num [gridEps])).2 xy h
  exact ⟨hp, hq, hu, hv, a.le, b, c.le, d⟩

theorem sampleAll_exists {m m' : Nat} {placed : Bool} {facets : List Facet} (hp : 1 ≤ p) (hq : 1 ≤ q)
    (big : ∀ f ∈ facets, p < f.net.nu ∧ q < f.net.nv) :
    ∃ r, sampleAll p q placed (evaluationGrid m m' gridEps) facets = .ok r := by
  apply mapM_exists
  intro a ha
  simp only [List.mem_flatMap, List.mem_map] at ha
  obtain ⟨f, hf, xy, hxy, rfl⟩ := ha
  obtain ⟨pt, cr, he, -⟩ := C23_surface (grid_valid (net := f.net) hp hq (big f hf).1 (big f hf).2 hxy)
  simp only [sampleAt, he]
  exact ⟨_, rfl⟩

theorem load_exists {m m' : Nat} {change : Option (Nat × Nat)} {facets : List Facet} (hne : facets ≠ []) (hp : 1 ≤ p) (hq : 1 ≤ q)
    (big : ∀ f ∈ facets, p < f.net.nu ∧ q < f.net.nv) : ∃ h, load p q m m' change facets = .ok h := by
  classical
  obtain ⟨r, hr⟩ := sampleAll_exists (m := m) (m' := m') (placed := decide (Flat facets)) hp hq big
  refine ⟨⟨kept change facets, r⟩, ?_⟩
  unfold load
  rw [if_neg hne, surfaceSamples, hr]

/-- two flat cubic facets of a heliostat, side by side -/
noncomputable def pair : List Facet :=
  [idealFacet 4 5 ![-1, 0, 0, 0] ![1, 0, 0, 0] ![0, 2, 0, 0], idealFacet 4 5 ![1, 0, 0, 0] ![1, 0, 0, 0] ![0, 2, 0, 0]]

theorem pair_flat : Flat pair := by
  intro f hf i j _ _
  simp only [pair, List.mem_cons, List.not_mem_nil, or_false] at hf
  rcases hf with rfl | rfl <;> rfl

theorem pair_big : ∀ f ∈ pair, 3 < f.net.nu ∧ 3 < f.net.nv := by
  intro f hf
  simp only [pair, List.mem_cons, List.not_mem_nil, or_false] at hf
  rcases hf with rfl | rfl <;> exact ⟨by simp [idealFacet, planarNet], by simp [idealFacet, planarNet]⟩

/-- `C62_flat_partial` applies to two flat facets sampled with 50 × 50 points. -/
example : ∃ h, load 3 3 50 50 none pair = .ok h ∧ h.samples.length = 5000 ∧ update 3 3 h = .ok h := by
  obtain ⟨h, hl⟩ := load_exists (p := 3) (q := 3) (m := 50) (m' := 50) (change := none) (facets := pair) (by simp [pair]) (by omega)
    (by omega) pair_big
  exact ⟨h, hl, (load_ok hl).2.2.2, C62_flat_partial 50 pair pair_flat h hl⟩

/-- A surface fitted to measured normals: after loading, every facet sits at its position, as fitted; after recomputing, its points
have been canted about the centre of the heliostat and shifted by the facet position a second time. -/
theorem C62_fitted_moves (n : Nat) (fits : List Facet) (hne : fits ≠ []) (hp : 1 ≤ p) (hq : 1 ≤ q)
    (big : ∀ f ∈ fits, p < f.net.nu ∧ q < f.net.nv) (curved : ¬ Flat (fits.map (fittedFacet false))) :
    ∃ h h', load p q n n none (fits.map (fittedFacet false)) = .ok h ∧ update p q h = .ok h' ∧
      ∀ (k j : Nat) (f : Facet) (xy : ℝ × ℝ) (pt : H ℝ) (cr : Fin 3 → ℝ), fits[k]? = some f →
        (evaluationGrid n n gridEps)[j]? = some xy → evaluate f.net p q xy.1 xy.2 = .ok (pt, cr) →
        ∃ s s', h.samples[k * (n * n) + j]? = some s ∧ h'.samples[k * (n * n) + j]? = some s' ∧
          (∀ c : Fin 3, s.1 c.castSucc = pt c.castSucc + f.translation c.castSucc) ∧
          s'.1 = performCanting f.cantE f.cantN s.1 + f.translation := by
  classical
  have hg : (evaluationGrid n n gridEps).length = n * n := grid_length ..
  obtain ⟨r, hr⟩ := sampleAll_exists (p := p) (q := q) (m := n) (m' := n) (placed := false) (facets := fits.map (fittedFacet false)) hp hq (by
    intro f hf
    obtain ⟨g, hg, rfl⟩ := List.mem_map.1 hf
    exact big g hg)
  have hl : load p q n n none (fits.map (fittedFacet false)) = .ok ⟨fits.map (fittedFacet false), r⟩ := by
    unfold load
    rw [if_neg (by simpa using hne), surfaceSamples, decide_eq_false_iff_not.2 curved, hr]
    rfl
  obtain ⟨h', hu, -, hall⟩ := C62_curved n _ curved _ hl
  refine ⟨_, h', hl, hu, ?_⟩
  intro k j f xy pt cr hk hj he
  have hj' : j < n * n := by
    have := (List.getElem?_eq_some_iff.1 hj).1
    omega
  have hk' : (fits.map (fittedFacet false))[k]? = some (fittedFacet false f) := by simp [hk]
  have hpt := points_get (evaluationGrid n n gridEps) _ k j _ hk' (by omega)
  rw [hg, hj] at hpt
  obtain ⟨s, hs, hsv⟩ := mapM_get _ _ hr _ _ hpt
  refine ⟨s, _, hs, hall k j _ s hk' hj' hs, ?_, rfl⟩
  have hfm : f ∈ fits := List.mem_of_getElem? hk
  have hv := grid_valid (net := f.net) hp hq (big f hfm).1 (big f hfm).2 (List.mem_of_getElem? hj)
  obtain ⟨pt', cr', he', hc⟩ := C23_affine hv (fun c d => if c = d then 1 else 0) (fun c => f.translation c.castSucc) pt cr he
  have hnet : (fittedFacet false f).net =
      ⟨f.net.nu, f.net.nv, fun i j c => ∑ d, (if c = d then 1 else 0) * f.net.at' i j d + f.translation c.castSucc⟩ := by
    simp [fittedFacet]
  simp only [sampleAt, hnet, he', Bool.false_eq_true, if_false, Except.ok.injEq] at hsv
  subst hsv
  intro c
  simpa using hc c

/-- A surface fitted to measured points: after loading it is the fitted surface; the file has no facet positions, and after recomputing
the points have been canted once more, with no shift. -/
theorem C62_from_points (n : Nat) (fits : List Facet) (hne : fits ≠ []) (hp : 1 ≤ p) (hq : 1 ≤ q)
    (big : ∀ f ∈ fits, p < f.net.nu ∧ q < f.net.nv) (curved : ¬ Flat fits) :
    ∃ h h', load p q n n none (fits.map (fittedFacet true)) = .ok h ∧ update p q h = .ok h' ∧
      ∀ (k j : Nat) (f : Facet) (xy : ℝ × ℝ) (pt : H ℝ) (cr : Fin 3 → ℝ), fits[k]? = some f →
        (evaluationGrid n n gridEps)[j]? = some xy → evaluate f.net p q xy.1 xy.2 = .ok (pt, cr) →
        h.samples[k * (n * n) + j]? = some (pt, unitNormal cr) ∧
        h'.samples[k * (n * n) + j]? = some (performCanting f.cantE f.cantN pt, performCanting f.cantE f.cantN (unitNormal cr)) := by
  classical
  have hg : (evaluationGrid n n gridEps).length = n * n := grid_length ..
  have hnet : ∀ f, (fittedFacet true f).net = f.net := by intro f; simp [fittedFacet]
  have curved' : ¬ Flat (fits.map (fittedFacet true)) := by
    intro h
    apply curved
    intro f hf i j hi hj
    have := h (fittedFacet true f) (List.mem_map_of_mem hf) i j
    rw [hnet] at this
    exact this hi hj
  obtain ⟨r, hr⟩ := sampleAll_exists (p := p) (q := q) (m := n) (m' := n) (placed := false) (facets := fits.map (fittedFacet true)) hp hq (by
    intro f hf
    obtain ⟨g, hg, rfl⟩ := List.mem_map.1 hf
    rw [hnet]
    exact big g hg)
  have hl : load p q n n none (fits.map (fittedFacet true)) = .ok ⟨fits.map (fittedFacet true), r⟩ := by
    unfold load
    rw [if_neg (by simpa using hne), surfaceSamples, decide_eq_false_iff_not.2 curved', hr]
    rfl
  obtain ⟨h', hu, -, hall⟩ := C62_curved n _ curved' _ hl
  refine ⟨_, h', hl, hu, ?_⟩
  intro k j f xy pt cr hk hj he
  have hj' : j < n * n := by
    have := (List.getElem?_eq_some_iff.1 hj).1
    omega
  have hk' : (fits.map (fittedFacet true))[k]? = some (fittedFacet true f) := by simp [hk]
  have hpt := points_get (evaluationGrid n n gridEps) _ k j _ hk' (by omega)
  rw [hg, hj] at hpt
  obtain ⟨s, hs, hsv⟩ := mapM_get _ _ hr _ _ hpt
  simp only [sampleAt, hnet, he, Bool.false_eq_true, if_false, Except.ok.injEq] at hsv
  subst hsv
  refine ⟨hs, ?_⟩
  rw [hall k j _ _ hk' hj' hs]
  simp [fittedFacet]

/-- With facets canted along the axes the recomputed facets sit at twice their distance from the centre of the heliostat. -/
theorem C62_fitted_twice (n : Nat) (fits : List Facet) (hne : fits ≠ []) (hp : 1 ≤ p) (hq : 1 ≤ q)
    (big : ∀ f ∈ fits, p < f.net.nu ∧ q < f.net.nv) (curved : ¬ Flat (fits.map (fittedFacet false)))
    (axes : ∀ f ∈ fits, ∃ w h, 1 / 10 ^ 8 ≤ w ∧ 1 / 10 ^ 8 ≤ h ∧ f.cantE = ![w, 0, 0, 0] ∧ f.cantN = ![0, h, 0, 0]) :
    ∃ h h', load p q n n none (fits.map (fittedFacet false)) = .ok h ∧ update p q h = .ok h' ∧
      ∀ (k j : Nat) (f : Facet) (xy : ℝ × ℝ) (pt : H ℝ) (cr : Fin 3 → ℝ), fits[k]? = some f →
        (evaluationGrid n n gridEps)[j]? = some xy → evaluate f.net p q xy.1 xy.2 = .ok (pt, cr) →
        ∃ s s', h.samples[k * (n * n) + j]? = some s ∧ h'.samples[k * (n * n) + j]? = some s' ∧
          ∀ c : Fin 3, s.1 c.castSucc = pt c.castSucc + f.translation c.castSucc ∧
            s'.1 c.castSucc = pt c.castSucc + 2 * f.translation c.castSucc := by
  obtain ⟨h, h', h1, h2, h3⟩ := C62_fitted_moves n fits hne hp hq big curved
  refine ⟨h, h', h1, h2, ?_⟩
  intro k j f xy pt cr hk hj he
  obtain ⟨s, s', e1, e2, e3, e4⟩ := h3 k j f xy pt cr hk hj he
  obtain ⟨w, hh, hw, hhh, ew, eh⟩ := axes f (List.mem_of_getElem? hk)
  rw [ew, eh, canting_axes hw hhh] at e4
  refine ⟨s, s', e1, e2, fun c => ⟨e3 c, ?_⟩⟩
  rw [e4, Pi.add_apply, e3 c]; ring

/-- a bent facet one metre east of the centre of the heliostat -/
noncomputable def bent : Facet :=
  ⟨⟨2, 2, fun i j => ![(i : ℝ), (j : ℝ), (i : ℝ) * (j : ℝ)]⟩, ![1, 0, 0, 0], ![1, 0, 0, 0], ![0, 1, 0, 0]⟩

theorem bent_curved : ¬ Flat ([bent].map (fittedFacet false)) := by
  intro h
  have := h (fittedFacet false bent) (by simp) 1 1 (by simp [fittedFacet, bent]) (by simp [fittedFacet, bent])
  simp [fittedFacet, bent] at this

/-- The bent facet meets the hypotheses of `C62_from_points`. -/
example : ¬ Flat [bent] ∧ ∀ f ∈ [bent], 1 < f.net.nu ∧ 1 < f.net.nv := by
  refine ⟨fun h => ?_, by simp [bent]⟩
  have := h bent (by simp) 1 1 (by simp [bent]) (by simp [bent])
  simp [bent] at this

/-- The bent facet meets the hypotheses of `C62_curved`, `C62_fitted_moves` and `C62_fitted_twice`. -/
example : ¬ Flat ([bent].map (fittedFacet false)) ∧ (∃ h, load 1 1 20 20 none ([bent].map (fittedFacet false)) = .ok h) ∧
    (∀ f ∈ [bent], 1 < f.net.nu ∧ 1 < f.net.nv) ∧
    ∀ f ∈ [bent], ∃ w h, 1 / 10 ^ 8 ≤ w ∧ 1 / 10 ^ 8 ≤ h ∧ f.cantE = ![w, 0, 0, 0] ∧ f.cantN = ![0, h, 0, 0] := by
  refine ⟨bent_curved, load_exists (by simp) le_rfl le_rfl (by simp [fittedFacet, bent]), by simp [bent], ?_⟩
  intro f hf
  simp only [List.mem_singleton] at hf
  subst hf
  exact ⟨1, 1, by norm_num, by norm_num, rfl, rfl⟩

/-- Recomputing a freshly loaded surface does not always keep it. -/
theorem C62_not_kept : ¬ ∀ (n : Nat) (facets : List Facet) (h : Loaded), load 1 1 n n none facets = .ok h → update 1 1 h = .ok h := by
  intro hall
  obtain ⟨h, h', h1, h2, h3⟩ := C62_fitted_twice 1 [bent] (by simp) le_rfl le_rfl (by simp [bent]) bent_curved (by
    intro f hf
    simp only [List.mem_singleton] at hf
    subst hf
    exact ⟨1, 1, by norm_num, by norm_num, rfl, rfl⟩)
  have := hall _ _ _ h1
  rw [h2] at this
  cases this
  have hxy : (evaluationGrid 1 1 gridEps)[0]? = some (gridEps, gridEps) := by
    simp [evaluationGrid, linspace]
  obtain ⟨pt, cr, he, -⟩ := C23_surface (grid_valid (net := bent.net) (p := 1) (q := 1) le_rfl le_rfl
    (by simp [bent]) (by simp [bent]) (List.mem_of_getElem? hxy))
  obtain ⟨s, s', e1, e2, e3⟩ := h3 0 0 bent _ pt cr rfl hxy he
  rw [e1] at e2
  cases e2
  obtain ⟨a, b⟩ := e3 0
  rw [a] at b
  simp [bent] at b

/-- With as many sampling points in both directions wanted but a non-square number of points per facet, recomputing changes the number
of points. -/
theorem C62_non_square (ne nn : Nat) (facets : List Facet) (h h' : Loaded)
    (loaded : load p q ne nn none facets = .ok h) (updated : update p q h = .ok h') :
    h'.samples.length = facets.length * (Nat.sqrt (ne * nn) * Nat.sqrt (ne * nn)) ∧
    (¬ IsSquare (ne * nn) → h'.samples.length < h.samples.length) := by
  obtain ⟨hne, -, hf, hlen⟩ := load_ok loaded
  obtain ⟨-, -, hs⟩ := update_ok updated
  have h0 : 0 < facets.length := List.length_pos_iff.2 hne
  simp only [kept] at hf
  rw [hlen, hf, Nat.mul_div_cancel_left _ h0] at hs
  have e : h'.samples.length = facets.length * (Nat.sqrt (ne * nn) * Nat.sqrt (ne * nn)) := by
    rw [mapM_length _ _ hs, points_length, grid_length]
  refine ⟨e, fun hsq => ?_⟩
  rw [e, hlen]
  apply Nat.mul_lt_mul_of_pos_left _ h0
  refine lt_of_le_of_ne (Nat.sqrt_le _) ?_
  intro hc
  exact hsq ⟨_, hc.symm⟩

/-- With 50 × 40 points per facet, two facets have 4000 points after loading and 3872 after recomputing. -/
example : ∃ h h', load 3 3 50 40 none pair = .ok h ∧ update 3 3 h = .ok h' ∧ h.samples.length = 4000 ∧ h'.samples.length = 3872 := by
  obtain ⟨h, hl⟩ := load_exists (p := 3) (q := 3) (m := 50) (m' := 40) (change := none) (facets := pair) (by simp [pair]) (by omega)
    (by omega) pair_big
  obtain ⟨-, -, hf, hlen⟩ := load_ok hl
  obtain ⟨r, hr⟩ := sampleAll_exists (p := 3) (q := 3) (m := 44) (m' := 44) (placed := true) (facets := pair) (by omega) (by omega) pair_big
  have h44 : Nat.sqrt (50 * 40) = 44 := by
    symm; rw [Nat.eq_sqrt]; omega
  have hu : update 3 3 h = .ok { h with samples := r } := by
    unfold update
    have e : h.samples.length / h.facets.length = 50 * 40 := by rw [hlen, hf]; rfl
    rw [if_neg (by rw [hf]; decide)]
    simp only [e, h44]
    rw [hf, kept, hr]
  exact ⟨h, _, hl, hu, hlen, by rw [(C62_non_square 50 40 pair h _ hl hu).1, h44]; rfl⟩

/-! ## Changing the number of control points -/

/-- Facets that agree in position and canting. -/
def SamePlaces (a b : List Facet) : Prop :=
  List.Forall₂ (fun f g => f.translation = g.translation ∧ f.cantE = g.cantE ∧ f.cantN = g.cantN) a b

/-- When the number of control points is changed on loading, the surface recomputed afterwards does not depend on the control points in
the file at all; the surface held until then is the one of the file. -/
theorem C63_forgets (n : Nat) (c : Nat × Nat) (a b : List Facet) (same : SamePlaces a b) (ha hb : Loaded)
    (la : load p q n n (some c) a = .ok ha) (lb : load p q n n (some c) b = .ok hb) :
    update p q ha = update p q hb ∧
    load p q n n none a = .ok ⟨a, ha.samples⟩ ∧ load p q n n none b = .ok ⟨b, hb.samples⟩ := by
  obtain ⟨na, sa, fa, lena⟩ := load_ok la
  obtain ⟨nb, sb, fb, lenb⟩ := load_ok lb
  have hlen : a.length = b.length := same.length_eq
  have hk : kept (some c) a = kept (some c) b := by
    simp only [kept]
    clear fa fb lena lenb na nb sa sb la lb hlen
    induction same with
    | nil => rfl
    | cons h _ ih =>
      obtain ⟨h1, h2, h3⟩ := h
      simp only [List.map_cons, ih, flatten, h1, h2, h3]
  refine ⟨?_, ?_, ?_⟩
  · unfold update
    rw [fa, fb, hk, lena, lenb, hlen]
  · unfold load
    rw [if_neg na, sa]; rfl
  · unfold load
    rw [if_neg nb, sb]; rfl

/-- `C63_forgets` applies to the bent facet and its ideal counterpart. -/
example : SamePlaces [bent] [idealFacet 2 2 ![1, 0, 0, 0] ![1, 0, 0, 0] ![0, 1, 0, 0]] ∧
    (∃ h, load 1 1 20 20 (some (5, 5)) [bent] = .ok h) ∧
    ∃ h, load 1 1 20 20 (some (5, 5)) [idealFacet 2 2 ![1, 0, 0, 0] ![1, 0, 0, 0] ![0, 1, 0, 0]] = .ok h :=
  ⟨by constructor; exact ⟨rfl, rfl, rfl⟩; constructor, load_exists (by simp) le_rfl le_rfl (by simp [bent]),
    load_exists (by simp) le_rfl le_rfl (by simp [idealFacet, planarNet])⟩

theorem ideal_keeps (n nu nv nu' nv' : Nat) (hp : 1 ≤ p) (hq : 1 ≤ q) (hu : p < nu) (hv : q < nv) (hu' : p < nu') (hv' : q < nv')
    (places : List (H ℝ × H ℝ × H ℝ)) (hne : places ≠ [])
    (size : ∀ a ∈ places, 0 < norm4 a.2.1 ∧ 0 < norm4 a.2.2 ∧
      1 / 10 ^ 12 ≤ (p * (2 * norm4 a.2.1 / ((nu - 1 : Nat) : ℝ))) * (q * (2 * norm4 a.2.2 / ((nv - 1 : Nat) : ℝ))) ∧
      1 / 10 ^ 12 ≤ (p * (2 * norm4 a.2.1 / ((nu' - 1 : Nat) : ℝ))) * (q * (2 * norm4 a.2.2 / ((nv' - 1 : Nat) : ℝ)))) :
    ∃ h h', load p q n n (some (nu', nv')) (places.map fun a => idealFacet nu nv a.1 a.2.1 a.2.2) = .ok h ∧ update p q h = .ok h' ∧
      h'.samples.length = h.samples.length ∧
      ∀ (k j : Nat) (a : H ℝ × H ℝ × H ℝ), places[k]? = some a → j < n * n →
        ∃ s s', h.samples[k * (n * n) + j]? = some s ∧ h'.samples[k * (n * n) + j]? = some s' ∧
          s.2 = performCanting a.2.1 a.2.2 ![0, 0, 1, 0] ∧ s'.2 = s.2 ∧
          ∃ x y x' y', |x| ≤ norm4 a.2.1 ∧ |y| ≤ norm4 a.2.2 ∧ |x'| ≤ norm4 a.2.1 ∧ |y'| ≤ norm4 a.2.2 ∧
            s.1 = performCanting a.2.1 a.2.2 ![x, y, 0, 1] + a.1 ∧ s'.1 = performCanting a.2.1 a.2.2 ![x', y', 0, 1] + a.1 := by
  classical
  have hg : (evaluationGrid n n gridEps).length = n * n := grid_length ..
  have key : ∀ mu mv, p < mu → q < mv → (∀ a ∈ places, 1 / 10 ^ 12 ≤ (p * (2 * norm4 a.2.1 / ((mu - 1 : Nat) : ℝ))) *
        (q * (2 * norm4 a.2.2 / ((mv - 1 : Nat) : ℝ)))) →
      ∃ r, sampleAll p q true (evaluationGrid n n gridEps) (places.map fun a => idealFacet mu mv a.1 a.2.1 a.2.2) = .ok r ∧
      r.length = places.length * (n * n) ∧
      ∀ (k j : Nat) (a : H ℝ × H ℝ × H ℝ), places[k]? = some a → j < n * n →
        ∃ s x y, r[k * (n * n) + j]? = some s ∧ s.2 = performCanting a.2.1 a.2.2 ![0, 0, 1, 0] ∧ |x| ≤ norm4 a.2.1 ∧ |y| ≤ norm4 a.2.2 ∧
          s.1 = performCanting a.2.1 a.2.2 ![x, y, 0, 1] + a.1 := by
    intro mu mv hmu hmv hbig
    obtain ⟨r, hr⟩ := sampleAll_exists (p := p) (q := q) (m := n) (m' := n) (placed := true)
      (facets := places.map fun a => idealFacet mu mv a.1 a.2.1 a.2.2) hp hq (by
        intro f hf
        obtain ⟨g, _, rfl⟩ := List.mem_map.1 hf
        exact ⟨hmu, hmv⟩)
    refine ⟨r, hr, ?_, ?_⟩
    · rw [mapM_length _ _ hr, points_length, grid_length, List.length_map]
    intro k j a hk hj
    have hk' : (places.map fun a => idealFacet mu mv a.1 a.2.1 a.2.2)[k]? = some (idealFacet mu mv a.1 a.2.1 a.2.2) := by simp [hk]
    have hpt := points_get (evaluationGrid n n gridEps) _ k j _ hk' (by omega)
    obtain ⟨xy, hxy⟩ : ∃ xy, (evaluationGrid n n gridEps)[j]? = some xy := ⟨_, List.getElem?_eq_getElem (by omega)⟩
    rw [hg, hxy] at hpt
    obtain ⟨s, hs, hsv⟩ := mapM_get _ _ hr _ _ hpt
    have ham := List.mem_of_getElem? hk
    obtain ⟨s1, s2, -⟩ := size a ham
    obtain ⟨pt, cr, he, b1, b2, b3, b4, b5⟩ := C23_planar mu mv (norm4 a.2.1) (norm4 a.2.2) s1 s2
      (grid_valid (net := planarNet mu mv (norm4 a.2.1) (norm4 a.2.2)) hp hq hmu hmv (List.mem_of_getElem? hxy)) (hbig a ham)
    simp only [sampleAt, idealFacet, he, if_true, Except.ok.injEq, place] at hsv
    subst hsv
    refine ⟨_, pt 0, pt 1, hs, by simp only [b5], b1, b2, ?_⟩
    have : pt = ![pt 0, pt 1, 0, 1] := by
      ext i; fin_cases i <;> simp [b3, b4]
    conv_lhs => rw [this]
  obtain ⟨r, hr, lr, gr⟩ := key nu nv hu hv fun a ha => (size a ha).2.2.1
  obtain ⟨r', hr', lr', gr'⟩ := key nu' nv' hu' hv' fun a ha => (size a ha).2.2.2
  have flat : Flat (places.map fun a => idealFacet nu nv a.1 a.2.1 a.2.2) := by
    intro f hf i j _ _
    obtain ⟨g, _, rfl⟩ := List.mem_map.1 hf
    rfl
  have h0 : 0 < places.length := List.length_pos_iff.2 hne
  have hk : kept (some (nu', nv')) (places.map fun a => idealFacet nu nv a.1 a.2.1 a.2.2) =
      places.map fun a => idealFacet nu' nv' a.1 a.2.1 a.2.2 := by
    simp [kept, flatten, idealFacet, Function.comp_def]
  refine ⟨⟨places.map fun a => idealFacet nu' nv' a.1 a.2.1 a.2.2, r⟩, ⟨places.map fun a => idealFacet nu' nv' a.1 a.2.1 a.2.2, r'⟩,
    ?_, ?_, ?_, ?_⟩
  · unfold load
    rw [if_neg (by simpa using hne), surfaceSamples, decide_eq_true_iff.2 flat, hr, hk]
  · unfold update
    simp only [List.length_map, lr, sqrt_points h0, hr']
    rw [if_neg (by omega)]
  · simp only [lr, lr']
  · intro k j a hka hj
    obtain ⟨s, x, y, e1, e2, e3, e4, e5⟩ := gr k j a hka hj
    obtain ⟨s', x', y', f1, f2, f3, f4, f5⟩ := gr' k j a hka hj
    exact ⟨s, s', e1, f1, e2, f2.trans e2.symm, x, y, x', y', e3, e4, f3, f4, e5, f5⟩

/-- Euclidean length -/
noncomputable def euclid (v : H ℝ) : ℝ := Real.sqrt (v ⬝ᵥ v)

theorem norm4_eq (v : H ℝ) : norm4 v = euclid v := by
  unfold norm4 euclid
  congr 1
  simp only [dotProduct, Fin.sum_univ_four]
  ring

/-- For an ideal heliostat, changing the number of control points keeps every facet in its plane and rectangle and keeps all normals.
Missing: the sampling points move within the facet (`C63_ideal_points_move`), and surfaces that are not ideal are replaced by ideal
ones (`C63_forgets`, `C63_not_kept`). -/
theorem C63_ideal_partial (n nu nv nu' nv' : Nat) (hp : 1 ≤ p) (hq : 1 ≤ q) (hu : p < nu) (hv : q < nv) (hu' : p < nu') (hv' : q < nv')
    (places : List (H ℝ × H ℝ × H ℝ)) (hne : places ≠ [])
    (size : ∀ a ∈ places, 0 < euclid a.2.1 ∧ 0 < euclid a.2.2 ∧
      1 / 10 ^ 12 ≤ (p * (2 * euclid a.2.1 / ((nu - 1 : Nat) : ℝ))) * (q * (2 * euclid a.2.2 / ((nv - 1 : Nat) : ℝ))) ∧
      1 / 10 ^ 12 ≤ (p * (2 * euclid a.2.1 / ((nu' - 1 : Nat) : ℝ))) * (q * (2 * euclid a.2.2 / ((nv' - 1 : Nat) : ℝ)))) :
    ∃ h h', load p q n n (some (nu', nv')) (places.map fun a => idealFacet nu nv a.1 a.2.1 a.2.2) = .ok h ∧ update p q h = .ok h' ∧
      h'.samples.length = h.samples.length ∧
      ∀ (k j : Nat) (a : H ℝ × H ℝ × H ℝ), places[k]? = some a → j < n * n →
        ∃ s s', h.samples[k * (n * n) + j]? = some s ∧ h'.samples[k * (n * n) + j]? = some s' ∧
          s.2 = performCanting a.2.1 a.2.2 ![0, 0, 1, 0] ∧ s'.2 = s.2 ∧
          ∃ x y x' y', |x| ≤ euclid a.2.1 ∧ |y| ≤ euclid a.2.2 ∧ |x'| ≤ euclid a.2.1 ∧ |y'| ≤ euclid a.2.2 ∧
            s.1 = performCanting a.2.1 a.2.2 ![x, y, 0, 1] + a.1 ∧ s'.1 = performCanting a.2.1 a.2.2 ![x', y', 0, 1] + a.1 := by
  simp only [← norm4_eq] at size ⊢
  exact ideal_keeps n nu nv nu' nv' hp hq hu hv hu' hv' places hne size

/-- Facets two by four metres with cubic surfaces meet the hypotheses of `C63_ideal_partial`: from 10 to 7 control points. -/
example : ∀ a ∈ [((![1, 0, 0, 0], ![1, 0, 0, 0], ![0, 2, 0, 0]) : H ℝ × H ℝ × H ℝ)], 0 < euclid a.2.1 ∧ 0 < euclid a.2.2 ∧
    (1 / 10 ^ 12 : ℝ) ≤ ((3 : Nat) * (2 * euclid a.2.1 / ((10 - 1 : Nat) : ℝ))) * ((3 : Nat) * (2 * euclid a.2.2 / ((10 - 1 : Nat) : ℝ))) ∧
    (1 / 10 ^ 12 : ℝ) ≤ ((3 : Nat) * (2 * euclid a.2.1 / ((7 - 1 : Nat) : ℝ))) * ((3 : Nat) * (2 * euclid a.2.2 / ((7 - 1 : Nat) : ℝ))) := by
  intro a ha
  simp only [List.mem_singleton] at ha
  subst ha
  have e1 : euclid ![1, 0, 0, 0] = 1 := by rw [← norm4_eq]; simp [norm4]
  have e2 : euclid ![0, 2, 0, 0] = 2 := by
    rw [← norm4_eq]; simp [norm4]
  simp only [e1, e2]
  norm_num

/-- Changing the number of control points does not always keep the mirror: the recomputed surface differs from the loaded one. -/
theorem C63_not_kept : ¬ ∀ (n : Nat) (c : Nat × Nat) (facets : List Facet) (h : Loaded), 1 < c.1 → 1 < c.2 →
    load 1 1 n n (some c) facets = .ok h → update 1 1 h = .ok h := by
  intro hall
  have go : ∀ z : ℝ, z ≠ 0 → ∃ h, load 1 1 1 1 (some (2, 2))
      [(⟨⟨2, 2, fun i j => ![(i : ℝ), (j : ℝ), z]⟩, 0, ![1, 0, 0, 0], ![0, 1, 0, 0]⟩ : Facet)] = .ok h ∧
      ∃ s, h.samples[0]? = some s ∧ s.1 2 = z := by
    classical
    intro z hz
    set f : Facet := ⟨⟨2, 2, fun i j => ![(i : ℝ), (j : ℝ), z]⟩, 0, ![1, 0, 0, 0], ![0, 1, 0, 0]⟩ with hf
    have hc : ¬ Flat [f] := by
      intro h
      have := h f (by simp) 0 0 (by simp [hf]) (by simp [hf])
      simp [hf] at this
      exact hz this
    obtain ⟨r, hr⟩ := sampleAll_exists (p := 1) (q := 1) (m := 1) (m' := 1) (placed := false) (facets := [f]) le_rfl le_rfl (by simp [hf])
    have hxy : (evaluationGrid 1 1 gridEps)[0]? = some (gridEps, gridEps) := by
      simp [evaluationGrid, linspace]
    have hv := grid_valid (net := f.net) (p := 1) (q := 1) le_rfl le_rfl (by simp [hf]) (by simp [hf]) (List.mem_of_getElem? hxy)
    obtain ⟨pt, cr, he, -⟩ := C23_surface hv
    have hz' := (C23_flat hv ![0, 0, 1] z (by intro i j _ _; simp [hf, Fin.sum_univ_three]) pt cr he).1
    have hpt := points_get (evaluationGrid 1 1 gridEps) [f] 0 0 f rfl (by simp [grid_length])
    rw [hxy] at hpt
    obtain ⟨s, hs, hsv⟩ := mapM_get _ _ hr _ _ hpt
    simp only [sampleAt, he, Bool.false_eq_true, if_false, Except.ok.injEq] at hsv
    refine ⟨⟨kept (some (2, 2)) [f], r⟩, ?_, s, by simpa using hs, ?_⟩
    · unfold load
      rw [if_neg (by simp), surfaceSamples, decide_eq_false_iff_not.2 hc, hr]
    · rw [← hsv]
      simpa [Fin.sum_univ_three] using hz'
  obtain ⟨h1, l1, s1, e1, z1⟩ := go 1 one_ne_zero
  obtain ⟨h2, l2, s2, e2, z2⟩ := go 2 two_ne_zero
  have u1 := hall _ _ _ _ (by simp) (by simp) l1
  have u2 := hall _ _ _ _ (by simp) (by simp) l2
  have := (C63_forgets 1 (2, 2) _ _ (by constructor; exact ⟨rfl, rfl, rfl⟩; constructor) h1 h2 l1 l2).1
  rw [u1, u2] at this
  cases this
  rw [e1] at e2
  cases e2
  rw [z1] at z2
  norm_num at z2

/-- Even for an ideal facet the sampling points move within the facet: at a quarter of the facet, three and four control points of
degree two give different positions. -/
theorem C63_ideal_points_move : ∃ x y : ℚ,
    (evaluate (planarNet 3 3 1 1) 2 2 (1 / 4) (1 / 4)).toOption.map (fun r => r.1 0) = some x ∧
    (evaluate (planarNet 4 4 1 1) 2 2 (1 / 4) (1 / 4)).toOption.map (fun r => r.1 0) = some y ∧ x ≠ y :=
  ⟨-1 / 2, -5 / 12, by decide +kernel, by decide +kernel, by decide +kernel⟩

end Artist.Surfaces
