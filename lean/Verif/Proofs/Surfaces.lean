import Verif.Model.Surfaces
import Mathlib.Tactic.Ring
import Mathlib.Algebra.BigOperators.Group.List.Basic
namespace Artist.Surfaces
open Artist Nurbs Transforms Matrix
variable {p q : Nat}

theorem mapM_map_ok {α β : Type} {f g : α → Except PyErr β} {h : α → β → β} :
    ∀ (l : List α) (r : List β), (∀ a ∈ l, ∀ b, f a = .ok b → g a = .ok (h a b)) → l.mapM f = .ok r →
      l.mapM g = .ok (l.zipWith h r)
  | [], r, _, hr => by
      simp only [List.mapM_nil, pure, Except.pure, Except.ok.injEq] at hr ⊢
      subst hr; rfl
  | a :: l, r, hf, hr => by
      rw [List.mapM_cons] at hr ⊢
      match hfa : f a, hr with
      | .error e, hr => cases hr
      | .ok b, hr =>
        match hl : l.mapM f, hr with
        | .error e, hr => simp [hl, bind, Except.bind] at hr
        | .ok s, hr =>
          simp only [hl, bind, Except.bind, pure, Except.pure, Except.ok.injEq] at hr
          subst hr
          rw [hf a (List.mem_cons_self ..) b hfa,
            mapM_map_ok l s (fun a ha => hf a (List.mem_cons_of_mem _ ha)) hl]
          rfl

theorem mapM_length {α β : Type} {f : α → Except PyErr β} :
    ∀ (l : List α) (r : List β), l.mapM f = .ok r → r.length = l.length
  | [], r, hr => by
      simp only [List.mapM_nil, pure, Except.pure, Except.ok.injEq] at hr
      subst hr; rfl
  | a :: l, r, hr => by
      rw [List.mapM_cons] at hr
      match hfa : f a, hr with
      | .error e, hr => cases hr
      | .ok b, hr =>
        match hl : l.mapM f, hr with
        | .error e, hr => simp [hl, bind, Except.bind] at hr
        | .ok s, hr =>
          simp only [hl, bind, Except.bind, pure, Except.pure, Except.ok.injEq] at hr
          subst hr
          simp [mapM_length l s hl]

theorem points_length (grid : List (ℝ × ℝ)) (facets : List Facet) :
    (facets.flatMap fun f => grid.map fun xy => (f, xy)).length = facets.length * grid.length := by
  induction facets with
  | nil => simp
  | cons f l ih => simp [ih]; ring

theorem grid_length {K : Type} [Field K] [LinearOrder K] (ne nn : Nat) (eps : K) : (evaluationGrid ne nn eps).length = ne * nn := by
  simp [evaluationGrid, Function.comp_def, List.map_const']

theorem load_ok {ne nn : Nat} {change : Option (Nat × Nat)} {facets : List Facet} {h : Loaded}
    (hl : load p q ne nn change facets = .ok h) :
    facets ≠ [] ∧ surfaceSamples p q ne nn facets = .ok h.samples ∧
      h.facets = kept change facets ∧
      h.samples.length = facets.length * (ne * nn) := by
  unfold load at hl
  split at hl
  · cases hl
  · rename_i hne
    split at hl
    · cases hl
    · rename_i s hs
      cases hl
      refine ⟨hne, hs, rfl, ?_⟩
      have := mapM_length _ _ hs
      rw [this, points_length]
      rw [grid_length]

theorem mapM_get {α β : Type} {f : α → Except PyErr β} :
    ∀ (l : List α) (r : List β), l.mapM f = .ok r → ∀ (i : Nat) (a : α), l[i]? = some a → ∃ b, r[i]? = some b ∧ f a = .ok b
  | [], r, _, i, a, ha => by simp at ha
  | x :: l, r, hr, i, a, ha => by
      rw [List.mapM_cons] at hr
      match hfa : f x, hr with
      | .error e, hr => cases hr
      | .ok b, hr =>
        match hl : l.mapM f, hr with
        | .error e, hr => simp [hl, bind, Except.bind] at hr
        | .ok s, hr =>
          simp only [hl, bind, Except.bind, pure, Except.pure, Except.ok.injEq] at hr
          subst hr
          cases i with
          | zero =>
            simp only [List.getElem?_cons_zero, Option.some.injEq] at ha
            subst ha
            exact ⟨b, rfl, hfa⟩
          | succ i =>
            simp only [List.getElem?_cons_succ] at ha ⊢
            exact mapM_get l s hl i a ha

theorem mapM_exists {α β : Type} {f : α → Except PyErr β} :
    ∀ (l : List α), (∀ a ∈ l, ∃ b, f a = .ok b) → ∃ r, l.mapM f = .ok r
  | [], _ => ⟨[], rfl⟩
  | x :: l, h => by
      obtain ⟨b, hb⟩ := h x (List.mem_cons_self ..)
      obtain ⟨r, hr⟩ := mapM_exists l fun a ha => h a (List.mem_cons_of_mem _ ha)
      exact ⟨b :: r, by rw [List.mapM_cons, hb, hr]; rfl⟩

/-- position of the `j`-th grid point of the `k`-th facet -/
theorem points_get (grid : List (ℝ × ℝ)) (facets : List Facet) (k j : Nat) (f : Facet) (hk : facets[k]? = some f)
    (hj : j < grid.length) :
    (facets.flatMap fun f => grid.map fun xy => (f, xy))[k * grid.length + j]? = (grid[j]?).map fun xy => (f, xy) := by
  induction facets generalizing k with
  | nil => simp at hk
  | cons g l ih =>
    cases k with
    | zero =>
      simp only [List.getElem?_cons_zero, Option.some.injEq] at hk
      subst hk
      rw [List.flatMap_cons, List.getElem?_append_left (by simp; omega)]
      simp
    | succ k =>
      have e : (k + 1) * grid.length + j = grid.length + (k * grid.length + j) := by ring
      rw [List.flatMap_cons, List.getElem?_append_right (by simp; omega)]
      have := ih k (by simpa using hk)
      rw [← this]
      congr 1
      simp only [List.length_map]
      omega

theorem update_ok {h h' : Loaded} (hu : update p q h = .ok h') :
    h.facets ≠ [] ∧ h'.facets = h.facets ∧
      sampleAll p q true (evaluationGrid (Nat.sqrt (h.samples.length / h.facets.length))
        (Nat.sqrt (h.samples.length / h.facets.length)) gridEps) h.facets = .ok h'.samples := by
  unfold update at hu
  split at hu
  · cases hu
  · rename_i hne
    simp only at hu
    split at hu
    · cases hu
    · rename_i s hs
      cases hu
      exact ⟨by rintro h; simp [h] at hne, rfl, hs⟩

theorem sqrt_points {n m : Nat} (hm : 0 < m) : Nat.sqrt (m * (n * n) / m) = n := by
  rw [Nat.mul_div_cancel_left _ hm, Nat.sqrt_eq]

/-- canting vectors along the east and north axes do not rotate -/
theorem canting_axes {w h : ℝ} (hw : 1 / 10 ^ 8 ≤ w) (hh : 1 / 10 ^ 8 ≤ h) (v : H ℝ) :
    performCanting ![w, 0, 0, 0] ![0, h, 0, 0] v = v := by
  have hw0 : 0 < w := lt_of_lt_of_le (by norm_num) hw
  have hh0 : 0 < h := lt_of_lt_of_le (by norm_num) hh
  have n1 : norm3 ![w, 0, 0] = w := by
    simp [norm3, dotProduct, Fin.sum_univ_three, Real.sqrt_mul_self hw0.le]
  have e1 : normalizeEps (1 / 10 ^ 12) ![w, 0, 0] = ![1, 0, 0] := by
    rw [normalizeEps, n1, max_eq_left (le_trans (by norm_num) hw)]
    ext i; fin_cases i <;> simp [hw0.ne']
  have e2 : crossProduct ![1, 0, 0] ![0, h, 0] = ![0, 0, h] := by
    simp [cross_apply]
  have n2 : norm3 ![0, 0, h] = h := by
    simp [norm3, dotProduct, Fin.sum_univ_three, Real.sqrt_mul_self hh0.le]
  have e3 : normalizeEps (1 / 10 ^ 8) ![0, 0, h] = ![0, 0, 1] := by
    rw [normalizeEps, n2, max_eq_left hh]
    ext i; fin_cases i <;> simp [hh0.ne']
  have e4 : crossProduct ![(0 : ℝ), 0, 1] ![1, 0, 0] = ![0, 1, 0] := by
    simp [cross_apply]
  have n3 : norm3 ![0, 1, 0] = 1 := by
    simp [norm3, dotProduct, Fin.sum_univ_three]
  have e5 : normalizeEps (1 / 10 ^ 8) ![0, 1, 0] = ![0, 1, 0] := by
    rw [normalizeEps, n3, max_eq_left (by norm_num)]; simp
  have hm : cantingMatrix ![w, 0, 0, 0] ![0, h, 0, 0] = 1 := by
    unfold cantingMatrix
    simp only [Matrix.cons_val_zero, Matrix.cons_val_one, Matrix.cons_val]
    rw [e1, e2, e3, e4, e5]
    ext i j; fin_cases i <;> fin_cases j <;> simp
  simp [performCanting, hm]

end Artist.Surfaces
