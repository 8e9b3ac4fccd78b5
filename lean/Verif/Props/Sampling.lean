import Verif.Spec.Sampling
import Verif.Proofs.Sampling
import Verif.Props.Surfaces
/-!
# C117: a control point acts where it belongs, and the sampled mirror determines the control points
-/
namespace Artist.Sampling
open Artist Nurbs Surfaces Transforms BSpline

section local'
variable {K : Type} [Field K] [LinearOrder K] [IsStrictOrderedRing K] [FloorSemiring K] {net net' : Net K} {p q : Nat} {x y : K}

theorem dN_outside {U : Nat → K} {L : Nat} (mono : ∀ a b, a ≤ b → b ≤ L → U a ≤ U b) (x : K) (p i : Nat) (hi : i + p + 1 ≤ L)
    (h : x < U i ∨ U (i + p + 1) ≤ x) : dN U p i x = 0 := by
  cases p with
  | zero => rfl
  | succ p =>
    have h1 : N U p i x = 0 := N_outside mono x p i (by omega) (h.imp id fun h => (mono _ _ (by omega) hi).trans h)
    have h2 : N U p (i + 1) x = 0 := N_outside mono x p (i + 1) (by omega) (h.imp (fun h => h.trans_le (mono _ _ (by omega) (by omega))) fun h => by
      rw [show i + 1 + p + 1 = i + (p + 1) + 1 by omega]; exact h)
    rw [dN, h1, h2]
    simp

/-- sums over nets that differ in one control point differ by one term -/
theorem sum_one {n m : Nat} (w P Q : Nat → Nat → K) {i j : Nat} (hi : i < n) (hj : j < m) (h : ∀ a b, a < n → b < m → ¬ (a = i ∧ b = j) → Q a b = P a b) :
    ∑ a ∈ Finset.range n, ∑ b ∈ Finset.range m, w a b * Q a b = ∑ a ∈ Finset.range n, ∑ b ∈ Finset.range m, w a b * P a b + w i j * (Q i j - P i j) := by
  rw [← sub_eq_iff_eq_add', ← Finset.sum_sub_distrib, Finset.sum_eq_single i]
  · rw [← Finset.sum_sub_distrib, Finset.sum_eq_single j]
    · ring
    · intro b hb hbj
      rw [Finset.mem_range] at hb
      rw [h i b hi hb (fun e => hbj e.2), sub_self]
    · intro hb
      exact absurd (Finset.mem_range.2 hj) hb
  · intro a ha hai
    rw [Finset.mem_range] at ha
    rw [sub_eq_zero]
    refine Finset.sum_congr rfl fun b hb => ?_
    rw [Finset.mem_range] at hb
    rw [h a b ha hb fun e => hai e.1]
  · intro ha
    exact absurd (Finset.mem_range.2 hi) ha

/-- A control point acts only between its own knots: everywhere else points and normals of the mirror stay the same when it is moved. -/
theorem C117_local (size : SameSize net net') (h : Valid net p q x y) (i j : Nat) (hi : i < net.nu) (hj : j < net.nv)
    (others : ∀ a b, a < net.nu → b < net.nv → ¬ (a = i ∧ b = j) → net'.at' a b = net.at' a b)
    (outside : (x < clampedUniform net.nu p i ∨ clampedUniform net.nu p (i + p + 1) ≤ x) ∨ (y < clampedUniform net.nv q j ∨ clampedUniform net.nv q (j + q + 1) ≤ y)) :
    evaluate net' p q x y = evaluate net p q x y := by
  obtain ⟨s1, s2⟩ := size
  have h' : Valid net' p q x y := ⟨h.p_pos, h.q_pos, by rw [s1]; exact h.nu, by rw [s2]; exact h.nv, h.x0, h.x1, h.y0, h.y1⟩
  obtain ⟨d, e, p0, p3, d1, d2⟩ := evaluate_spec h
  obtain ⟨d', e', p0', p3', d1', d2'⟩ := evaluate_spec h'
  rw [s1, s2] at p0' d1' d2'
  have mu : ∀ a b, a ≤ b → b ≤ net.nu + p → (clampedUniform net.nu p a : K) ≤ clampedUniform net.nu p b := fun a b hab _ => clamped_mono h.nu hab
  have mv : ∀ a b, a ≤ b → b ≤ net.nv + q → (clampedUniform net.nv q a : K) ≤ clampedUniform net.nv q b := fun a b hab _ => clamped_mono h.nv hab
  have z0 : N (clampedUniform net.nu p) p i x * N (clampedUniform net.nv q) q j y = 0 := by
    rcases outside with o | o
    · rw [N_outside mu x p i (by omega) o, zero_mul]
    · rw [N_outside mv y q j (by omega) o, mul_zero]
  have z1 : dN (clampedUniform net.nu p) p i x * N (clampedUniform net.nv q) q j y = 0 := by
    rcases outside with o | o
    · rw [dN_outside mu x p i (by omega) o, zero_mul]
    · rw [N_outside mv y q j (by omega) o, mul_zero]
  have z2 : N (clampedUniform net.nu p) p i x * dN (clampedUniform net.nv q) q j y = 0 := by
    rcases outside with o | o
    · rw [N_outside mu x p i (by omega) o, zero_mul]
    · rw [dN_outside mv y q j (by omega) o, mul_zero]
  have key : ∀ (w : Nat → Nat → K) (c : Fin 3), w i j = 0 →
      ∑ a ∈ Finset.range net.nu, ∑ b ∈ Finset.range net.nv, w a b * net'.at' a b c = ∑ a ∈ Finset.range net.nu, ∑ b ∈ Finset.range net.nv, w a b * net.at' a b c := by
    intro w c hw
    rw [sum_one w (fun a b => net.at' a b c) (fun a b => net'.at' a b c) hi hj (fun a b ha hb hab => by simp only [others a b ha hb hab]), hw, zero_mul, add_zero]
  have e0 : ∀ c : Fin 3, pointOf d' c.castSucc = pointOf d c.castSucc := fun c => by
    rw [p0', p0]; exact key (fun a b => N (clampedUniform net.nu p) p a x * N (clampedUniform net.nv q) q b y) c z0
  have e1 : ∀ c : Fin 3, d' 1 0 c.castSucc = d 1 0 c.castSucc := fun c => by
    rw [d1', d1]; exact key (fun a b => dN (clampedUniform net.nu p) p a x * N (clampedUniform net.nv q) q b y) c z1
  have e2 : ∀ c : Fin 3, d' 0 1 c.castSucc = d 0 1 c.castSucc := fun c => by
    rw [d2', d2]; exact key (fun a b => N (clampedUniform net.nu p) p a x * dN (clampedUniform net.nv q) q b y) c z2
  have ep : pointOf d' = pointOf d := by
    funext c
    refine Fin.lastCases ?_ (fun c => e0 c) c
    show pointOf d' 3 = pointOf d 3
    rw [p3, p3']
  have ec : crossOf d' = crossOf d := by
    have a0 := e1 0; have a1 := e1 1; have a2 := e1 2; have b0 := e2 0; have b1 := e2 1; have b2 := e2 2
    change d' 1 0 0 = d 1 0 0 at a0; change d' 1 0 1 = d 1 0 1 at a1; change d' 1 0 2 = d 1 0 2 at a2
    change d' 0 1 0 = d 0 1 0 at b0; change d' 0 1 1 = d 0 1 1 at b1; change d' 0 1 2 = d 0 1 2 at b2
    unfold crossOf
    rw [a0, a1, a2, b0, b1, b2]
  rw [e, e', ep, ec]

/-- Between its own knots it does act: all points there follow a control point, in its direction and by a positive fraction of its way. -/
theorem C117_acts (size : SameSize net net') (h : Valid net p q x y) (i j : Nat) (hi : i < net.nu) (hj : j < net.nv)
    (others : ∀ a b, a < net.nu → b < net.nv → ¬ (a = i ∧ b = j) → net'.at' a b = net.at' a b)
    (x0 : clampedUniform net.nu p i < x) (x1 : x < clampedUniform net.nu p (i + p + 1)) (y0 : clampedUniform net.nv q j < y) (y1 : y < clampedUniform net.nv q (j + q + 1)) :
    ∃ w pt pt' cr cr', 0 < w ∧ w ≤ 1 ∧ evaluate net p q x y = .ok (pt, cr) ∧ evaluate net' p q x y = .ok (pt', cr') ∧
      ∀ c : Fin 3, pt' c.castSucc = pt c.castSucc + w * (net'.at' i j c - net.at' i j c) := by
  obtain ⟨s1, s2⟩ := size
  have h' : Valid net' p q x y := ⟨h.p_pos, h.q_pos, by rw [s1]; exact h.nu, by rw [s2]; exact h.nv, h.x0, h.x1, h.y0, h.y1⟩
  obtain ⟨pt, cr, e, -, p0⟩ := C23_surface h
  obtain ⟨pt', cr', e', -, p0'⟩ := C23_surface h'
  rw [s1, s2] at p0'
  have mu : ∀ a b, a ≤ b → b ≤ net.nu + p → (clampedUniform net.nu p a : K) ≤ clampedUniform net.nu p b := fun a b hab _ => clamped_mono h.nu hab
  have mv : ∀ a b, a ≤ b → b ≤ net.nv + q → (clampedUniform net.nv q a : K) ≤ clampedUniform net.nv q b := fun a b hab _ => clamped_mono h.nv hab
  have le1 : ∀ {n r : Nat} {z : K}, 1 ≤ r → r < n → 0 ≤ z → z < 1 → ∀ k < n, N (clampedUniform n r) r k z ≤ 1 := by
    intro n r z hr hn h0 h1 k hk
    obtain ⟨a, b, -⟩ := N_nonneg_sum hr hn h0 h1
    rw [← b]
    exact Finset.single_le_sum (fun m hm => a m (Finset.mem_range.1 hm)) (Finset.mem_range.2 hk)
  have b1 := le1 h.p_pos h.nu h.x0 h.x1 i hi
  have b2 := le1 h.q_pos h.nv h.y0 h.y1 j hj
  have g1 := N_pos mu x p i (by omega) x0.le x1 (Or.inl x0)
  have g2 := N_pos mv y q j (by omega) y0.le y1 (Or.inl y0)
  refine ⟨N (clampedUniform net.nu p) p i x * N (clampedUniform net.nv q) q j y, pt, pt', cr, cr', mul_pos g1 g2, mul_le_one₀ b1 g2.le b2, e, e', fun c => ?_⟩
  rw [p0', p0]
  exact sum_one (fun a b => N (clampedUniform net.nu p) p a x * N (clampedUniform net.nv q) q b y) (fun a b => net.at' a b c) (fun a b => net'.at' a b c) hi hj
    (fun a b ha hb hab => by simp only [others a b ha hb hab])

end local'

/-- Two facets with the same points at all points of a grid that is fine enough have the same control points. -/
theorem C117_determined {net net' : Net ℝ} {p q ne nn : Nat} {eps : ℝ} (size : SameSize net net') (hp : 1 ≤ p) (hq : 1 ≤ q) (hu : p < net.nu) (hv : q < net.nv)
    (h0 : 0 < eps) (h1 : eps < 1 / 2) (fe : Fine eps ne net.nu p) (fn : Fine eps nn net.nv q)
    (same : ∀ a ∈ evaluationGrid ne nn eps, ∃ pt cr cr', evaluate net p q a.1 a.2 = .ok (pt, cr) ∧ evaluate net' p q a.1 a.2 = .ok (pt, cr')) :
    SamePoints net net' := by
  have inside := (C23_grid ne nn eps h0 h1).2
  suffices ∀ c : Fin 3, ∀ i j, i < net.nu → j < net.nv → net'.at' i j c - net.at' i j c = 0 by
    intro i j hi hj
    funext c
    exact sub_eq_zero.1 (this c i j hi hj)
  intro c
  refine determined2 hp hu hq hv (fun i j => net'.at' i j c - net.at' i j c) {x | ∃ k < ne, x = linspace eps (1 - eps) ne k} {y | ∃ k < nn, y = linspace eps (1 - eps) nn k}
    (fun s hs hsn => grid_dense hu eps h0.le h1 fe.1 fe.2 s hs hsn) (fun s hs hsn => grid_dense hv eps h0.le h1 fn.1 fn.2 s hs hsn) ?_
  rintro x ⟨k, hk, rfl⟩ y ⟨l, hl, rfl⟩
  have mem : (linspace eps (1 - eps) ne k, linspace eps (1 - eps) nn l) ∈ evaluationGrid ne nn eps := by
    unfold evaluationGrid
    rw [List.mem_flatMap]
    refine ⟨_, List.mem_map.2 ⟨k, List.mem_range.2 hk, rfl⟩, List.mem_map.2 ⟨_, List.mem_map.2 ⟨l, List.mem_range.2 hl, rfl⟩, rfl⟩⟩
  obtain ⟨i1, i2, i3, i4⟩ := inside _ mem
  obtain ⟨pt, cr, cr', e, e'⟩ := same _ mem
  simp only at i1 i2 i3 i4 e e'
  obtain ⟨pt1, cr1, e1, -, p1⟩ := C23_surface (net := net) (p := p) (q := q) ⟨hp, hq, hu, hv, i1.le, i2, i3.le, i4⟩
  obtain ⟨pt2, cr2, e2, -, p2⟩ := C23_surface (net := net') (p := p) (q := q) ⟨hp, hq, by rw [size.1]; exact hu, by rw [size.2]; exact hv, i1.le, i2, i3.le, i4⟩
  rw [e, Except.ok.injEq, Prod.mk.injEq] at e1
  rw [e', Except.ok.injEq, Prod.mk.injEq] at e2
  have a1 := p1 c
  have a2 := p2 c
  rw [← e1.1] at a1
  rw [← e2.1, size.1, size.2, a1] at a2
  have : ∀ (U V : Nat → ℝ) (n m : Nat) (P Q : Nat → Nat → ℝ) (x y : ℝ), surface U V p q n m (fun i j => Q i j - P i j) x y = surface U V p q n m Q x y - surface U V p q n m P x y := by
    intro U V n m P Q x y
    unfold surface
    simp only [mul_sub, Finset.sum_sub_distrib]
  rw [this, ← a2, sub_self]

theorem sameMount_get {facets facets' : List Facet} (h : List.Forall₂ SameMount facets facets') (k : Nat) (f f' : Facet) (hk : facets[k]? = some f) (hk' : facets'[k]? = some f') :
    SameMount f f' := by
  induction h generalizing k with
  | nil => simp at hk
  | cons h _ ih =>
    cases k with
    | zero =>
      simp only [List.getElem?_cons_zero, Option.some.injEq] at hk hk'
      subst hk; subst hk'; exact h
    | succ k => exact ih k (by simpa using hk) (by simpa using hk')

/-- The whole mirror, in the field or as it lies in the scenario: two heliostats whose facets are mounted in the same way and whose sampled points agree have the same control points on
every facet.  The normals do not have to be compared. -/
theorem C117_mirror {facets facets' : List Facet} {p q ne nn : Nat} {placed : Bool} (hp : 1 ≤ p) (hq : 1 ≤ q) (mount : List.Forall₂ SameMount facets facets')
    (big : ∀ f ∈ facets, p < f.net.nu ∧ q < f.net.nv) (spread : placed = true → ∀ f ∈ facets, Spread f)
    (fine : ∀ f ∈ facets, Fine gridEps ne f.net.nu p ∧ Fine gridEps nn f.net.nv q) (samples samples' : List Sample)
    (hs : sampleAll p q placed (evaluationGrid ne nn gridEps) facets = .ok samples) (hs' : sampleAll p q placed (evaluationGrid ne nn gridEps) facets' = .ok samples')
    (same : samples'.map Prod.fst = samples.map Prod.fst) : ∀ (k : Nat) (f f' : Facet), facets[k]? = some f → facets'[k]? = some f' → SamePoints f.net f'.net := by
  intro k f f' hk hk'
  have hf : f ∈ facets := List.mem_of_getElem? hk
  obtain ⟨hu, hv⟩ := big f hf
  have m := sameMount_get mount k f f' hk hk'
  refine C117_determined m.size hp hq hu hv (eps := gridEps) (by unfold gridEps; norm_num) (by unfold gridEps; norm_num) (fine f hf).1 (fine f hf).2 ?_
  intro a ha
  obtain ⟨j, hj, hja⟩ := List.getElem_of_mem ha
  have hja' : (evaluationGrid ne nn gridEps)[j]? = some a := by rw [List.getElem?_eq_getElem hj, hja]
  have g := points_get _ facets k j f hk hj
  have g' := points_get _ facets' k j f' hk' hj
  rw [hja', Option.map_some] at g g'
  obtain ⟨b, hb, sb⟩ := mapM_get _ _ hs _ _ g
  obtain ⟨b', hb', sb'⟩ := mapM_get _ _ hs' _ _ g'
  have eq : b'.1 = b.1 := by
    have := congrArg (fun l => l[k * (evaluationGrid ne nn gridEps).length + j]?) same
    simp only [List.getElem?_map, hb, hb', Option.map_some, Option.some.injEq] at this
    exact this
  simp only [sampleAt] at sb sb'
  match he : evaluate f.net p q a.1 a.2, sb with
  | .error e, sb => simp at sb
  | .ok (pt, cr), sb =>
    match he' : evaluate f'.net p q a.1 a.2, sb' with
    | .error e, sb' => simp at sb'
    | .ok (pt', cr'), sb' =>
      simp only [Except.ok.injEq] at sb sb'
      refine ⟨pt, cr, cr', rfl, ?_⟩
      have : pt' = pt := by
        subst sb; subst sb'
        cases placed with
        | false => simpa using eq
        | true =>
          simp only [if_true, place, m.translation, m.cantE, m.cantN] at eq
          have eq := add_right_cancel eq
          obtain ⟨c1, c2⟩ := spread rfl f hf
          rw [← (C20_inverse f.cantE f.cantN pt' c1 c2).1, eq, (C20_inverse f.cantE f.cantN pt c1 c2).1]
      rw [this]

/-- With too few samples deformations stay hidden: against more than twice as many control points as grid points in one direction every facet can be deformed such that all points and all
normals of the grid stay as they are. -/
theorem C117_hidden (net : Net ℝ) {p q ne nn : Nat} {eps : ℝ} (hp : 1 ≤ p) (hq : 1 ≤ q) (hu : p < net.nu) (hv : q < net.nv) (h0 : 0 < eps) (h1 : eps < 1 / 2) (few : 2 * ne < net.nu) :
    ∃ net', SameSize net net' ∧ ¬ SamePoints net net' ∧ ∀ a ∈ evaluationGrid ne nn eps, evaluate net' p q a.1 a.2 = evaluate net p q a.1 a.2 := by
  obtain ⟨c, ⟨i, hi, hc⟩, hz⟩ := hidden few fun a i =>
    if a < ne then N (clampedUniform net.nu p) p i (linspace eps (1 - eps) ne a) else dN (clampedUniform net.nu p) p i (linspace eps (1 - eps) ne (a - ne))
  refine ⟨⟨net.nu, net.nv, fun i j => net.at' i j + ![0, 0, c i]⟩, ⟨rfl, rfl⟩, ?_, ?_⟩
  · intro h
    have := congrFun (h i 0 hi (by omega)) 2
    simp at this
    exact hc this
  · intro a ha
    obtain ⟨i1, i2, i3, i4⟩ := (C23_grid ne nn eps h0 h1).2 a ha
    obtain ⟨d, e, p0, p3, d1, d2⟩ := evaluate_spec (net := net) (p := p) (q := q) ⟨hp, hq, hu, hv, i1.le, i2, i3.le, i4⟩
    obtain ⟨d', e', p0', p3', d1', d2'⟩ := evaluate_spec (net := ⟨net.nu, net.nv, fun i j => net.at' i j + ![0, 0, c i]⟩) (p := p) (q := q) ⟨hp, hq, hu, hv, i1.le, i2, i3.le, i4⟩
    simp only at p0' d1' d2'
    obtain ⟨k, hk, hka⟩ : ∃ k < ne, a.1 = linspace eps (1 - eps) ne k := by
      unfold evaluationGrid at ha
      rw [List.mem_flatMap] at ha
      obtain ⟨u, hu', ha⟩ := ha
      rw [List.mem_map] at ha hu'
      obtain ⟨v, -, rfl⟩ := ha
      obtain ⟨k, hk, rfl⟩ := hu'
      exact ⟨k, List.mem_range.1 hk, rfl⟩
    have n0 : ∑ i ∈ Finset.range net.nu, N (clampedUniform net.nu p) p i a.1 * c i = 0 := by
      have := hz k (by omega)
      simp only [if_pos hk, ← hka] at this
      exact this
    have n1 : ∑ i ∈ Finset.range net.nu, dN (clampedUniform net.nu p) p i a.1 * c i = 0 := by
      have := hz (ne + k) (by omega)
      simp only [if_neg (show ¬ ne + k < ne by omega), Nat.add_sub_cancel_left, ← hka] at this
      exact this
    have key : ∀ (f g : Nat → ℝ) (r : Fin 3), ∑ i ∈ Finset.range net.nu, f i * c i = 0 →
        ∑ i ∈ Finset.range net.nu, ∑ j ∈ Finset.range net.nv, f i * g j * (net.at' i j + ![0, 0, c i]) r = ∑ i ∈ Finset.range net.nu, ∑ j ∈ Finset.range net.nv, f i * g j * net.at' i j r := by
      intro f g r hf
      have split : ∀ i j, f i * g j * (net.at' i j + ![0, 0, c i]) r = f i * g j * net.at' i j r + (if r = 2 then g j * (f i * c i) else 0) := by
        intro i j
        fin_cases r <;> simp
        ring
      simp only [split, Finset.sum_add_distrib]
      rw [add_eq_left]
      by_cases hr : r = 2
      · simp only [if_pos hr]
        rw [Finset.sum_comm]
        refine Finset.sum_eq_zero fun j _ => ?_
        rw [← Finset.mul_sum, hf, mul_zero]
      · simp [hr]
    have e0 : ∀ r : Fin 3, pointOf d' r.castSucc = pointOf d r.castSucc := fun r => by
      rw [p0', p0]; exact key _ _ r n0
    have e1 : ∀ r : Fin 3, d' 1 0 r.castSucc = d 1 0 r.castSucc := fun r => by
      rw [d1', d1]; exact key _ _ r n1
    have e2 : ∀ r : Fin 3, d' 0 1 r.castSucc = d 0 1 r.castSucc := fun r => by
      rw [d2', d2]; exact key _ _ r n0
    have ep : pointOf d' = pointOf d := by
      funext r
      refine Fin.lastCases ?_ (fun r => e0 r) r
      show pointOf d' 3 = pointOf d 3
      rw [p3, p3']
    have ec : crossOf d' = crossOf d := by
      have a0 := e1 0; have a1 := e1 1; have a2 := e1 2; have b0 := e2 0; have b1 := e2 1; have b2 := e2 2
      change d' 1 0 0 = d 1 0 0 at a0; change d' 1 0 1 = d 1 0 1 at a1; change d' 1 0 2 = d 1 0 2 at a2
      change d' 0 1 0 = d 0 1 0 at b0; change d' 0 1 1 = d 0 1 1 at b1; change d' 0 1 2 = d 0 1 2 at b2
      unfold crossOf
      rw [a0, a1, a2, b0, b1, b2]
    rw [e, e', ep, ec]

/-! ## Cases -/

/-- 50 by 50 samples are enough for ten by ten control points of a cubic facet, and those of the 7 by 7 control points of the tutorials. -/
theorem fine_example : Fine gridEps 50 10 3 ∧ Fine gridEps 50 7 3 := by
  unfold Fine gridEps
  norm_num

/-- a flat facet of two by two metres and the same facet with one control point lifted by a millimetre -/
noncomputable def flatNet : Net ℝ := planarNet 10 10 1 1

noncomputable def dented : Net ℝ := ⟨10, 10, fun a b => if a = 4 ∧ b = 6 then (planarNet 10 10 1 1 : Net ℝ).at' a b + ![0, 0, 1 / 1000] else (planarNet 10 10 1 1 : Net ℝ).at' a b⟩

theorem dented_others : ∀ a b, a < flatNet.nu → b < flatNet.nv → ¬ (a = 4 ∧ b = 6) → dented.at' a b = flatNet.at' a b := by
  intro a b _ _ h
  simp only [dented, flatNet, if_neg h]

/-- The dent shows in the 50 by 50 samples ... -/
example : ∃ a ∈ evaluationGrid 50 50 gridEps, ∀ pt cr cr', evaluate flatNet 3 3 a.1 a.2 = .ok (pt, cr) → evaluate dented 3 3 a.1 a.2 ≠ .ok (pt, cr') := by
  by_contra h
  push Not at h
  have := C117_determined (net := flatNet) (net' := dented) (p := 3) (q := 3) (ne := 50) (nn := 50) (eps := gridEps) ⟨rfl, rfl⟩ (by norm_num) (by norm_num)
    (by show 3 < 10; norm_num) (by show 3 < 10; norm_num) (by unfold gridEps; norm_num) (by unfold gridEps; norm_num) fine_example.1 fine_example.1 (by
      intro a ha
      obtain ⟨pt, cr, cr', h1, h2⟩ := h a ha
      exact ⟨pt, cr, cr', h1, h2⟩)
  have := congrFun (this 4 6 (by show 4 < 10; norm_num) (by show 6 < 10; norm_num)) 2
  simp [dented, flatNet, planarNet] at this

/-- ... but not in the lower quarter of the facet, ... -/
example (x y : ℝ) (hx0 : 0 ≤ x) (hx1 : x < 1 / 7) (hy0 : 0 ≤ y) (hy1 : y < 1) : evaluate dented 3 3 x y = evaluate flatNet 3 3 x y := by
  refine C117_local ⟨rfl, rfl⟩ ⟨by norm_num, by norm_num, by show 3 < 10; norm_num, by show 3 < 10; norm_num, hx0, by linarith, hy0, hy1⟩ 4 6
    (by show 4 < 10; norm_num) (by show 6 < 10; norm_num) dented_others (Or.inl (Or.inl ?_))
  show x < clampedUniform 10 3 4
  unfold clampedUniform
  norm_num
  exact hx1

/-- ... and in its middle, where the point is higher. -/
example : ∃ pt pt' cr cr', evaluate flatNet 3 3 (1 / 2) (1 / 2) = .ok (pt, cr) ∧ evaluate dented 3 3 (1 / 2) (1 / 2) = .ok (pt', cr') ∧ pt 2 < pt' 2 := by
  have U : ∀ k, (clampedUniform 10 3 k : ℝ) = max 0 (min 1 (((k : ℝ) - 3) / (10 - 3))) := fun k => by unfold clampedUniform; norm_num
  obtain ⟨w, pt, pt', cr, cr', w0, -, e, e', h⟩ := C117_acts (net := flatNet) (net' := dented) (p := 3) (q := 3) (x := 1 / 2) (y := 1 / 2) ⟨rfl, rfl⟩
    ⟨by norm_num, by norm_num, by show 3 < 10; norm_num, by show 3 < 10; norm_num, by norm_num, by norm_num, by norm_num, by norm_num⟩ 4 6
    (by show 4 < 10; norm_num) (by show 6 < 10; norm_num) dented_others (by show clampedUniform 10 3 4 < _; rw [U]; norm_num) (by show _ < clampedUniform 10 3 8; rw [U]; norm_num)
    (by show clampedUniform 10 3 6 < _; rw [U]; norm_num) (by show _ < clampedUniform 10 3 10; rw [U]; norm_num)
  refine ⟨pt, pt', cr, cr', e, e', ?_⟩
  have := h 2
  simp only [dented, flatNet] at this
  simp at this
  linarith

/-- a facet of a heliostat, canted and mounted above the ground -/
noncomputable def mounted (net : Net ℝ) : Facet := ⟨net, ![0, 0, 2, 0], ![1, 0, 1 / 100, 0], ![0, 1, 0, 0]⟩

/-- The samples in place show the dent as well. -/
example : ∃ samples samples', sampleAll 3 3 true (evaluationGrid 50 50 gridEps) [mounted flatNet] = .ok samples ∧
    sampleAll 3 3 true (evaluationGrid 50 50 gridEps) [mounted dented] = .ok samples' ∧ samples'.map Prod.fst ≠ samples.map Prod.fst := by
  obtain ⟨r, hr⟩ := sampleAll_exists (p := 3) (q := 3) (m := 50) (m' := 50) (placed := true) (facets := [mounted flatNet]) (by norm_num) (by norm_num)
    (by intro f hf; rw [List.mem_singleton] at hf; subst hf; exact ⟨by show 3 < 10; norm_num, by show 3 < 10; norm_num⟩)
  obtain ⟨r', hr'⟩ := sampleAll_exists (p := 3) (q := 3) (m := 50) (m' := 50) (placed := true) (facets := [mounted dented]) (by norm_num) (by norm_num)
    (by intro f hf; rw [List.mem_singleton] at hf; subst hf; exact ⟨by show 3 < 10; norm_num, by show 3 < 10; norm_num⟩)
  refine ⟨r, r', hr, hr', fun same => ?_⟩
  have := C117_mirror (facets := [mounted flatNet]) (facets' := [mounted dented]) (p := 3) (q := 3) (by norm_num) (by norm_num)
    (List.Forall₂.cons ⟨⟨rfl, rfl⟩, rfl, rfl, rfl⟩ List.Forall₂.nil)
    (by intro f hf; rw [List.mem_singleton] at hf; subst hf; exact ⟨by show 3 < 10; norm_num, by show 3 < 10; norm_num⟩)
    (by
      intro _ f hf
      rw [List.mem_singleton] at hf
      subst hf
      have n : ∀ v : Fin 3 → ℝ, norm3 v = √(v 0 ^ 2 + v 1 ^ 2 + v 2 ^ 2) := fun v => by
        unfold norm3; congr 1; simp [dotProduct, Fin.sum_univ_succ]; ring
      have a1 : (1 : ℝ) ≤ norm3 (axis ![1, 0, 1 / 100, 0]) := by
        rw [n]; apply Real.le_sqrt_of_sq_le; simp [axis]
      have a2 : norm3 (axis ![1, 0, 1 / 100, 0]) ≤ 2 := by
        rw [n]; apply Real.sqrt_le_iff.2; simp [axis]; norm_num
      have a3 : (1 : ℝ) ≤ norm3 (crossProduct (axis ![1, 0, 1 / 100, 0]) (axis ![0, 1, 0, 0])) := by
        rw [n]; apply Real.le_sqrt_of_sq_le; simp [axis, cross_apply]
      show 1 / 10 ^ 12 ≤ norm3 (axis ![1, 0, 1 / 100, 0]) ∧ _ * norm3 (axis ![1, 0, 1 / 100, 0]) ≤ norm3 (crossProduct (axis ![1, 0, 1 / 100, 0]) (axis ![0, 1, 0, 0]))
      constructor
      · linarith [show (1 / 10 ^ 12 : ℝ) ≤ 1 by norm_num]
      · linarith)
    (by intro f hf; rw [List.mem_singleton] at hf; subst hf; exact ⟨fine_example.1, fine_example.1⟩) r r' hr hr' same 0 _ _ rfl rfl
  have := congrFun (this 4 6 (by show 4 < 10; norm_num) (by show 6 < 10; norm_num)) 2
  simp [mounted, dented, flatNet, planarNet] at this

end Artist.Sampling
