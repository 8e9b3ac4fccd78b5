import Verif.Model.Lock
import Verif.Props.Nurbs
/-!
# C41: reconstruction keeps facets rectangular
-/
namespace Artist.Lock
open Artist

/-- The control point lies on the border of a net of `height × width` control points. -/
def OnBorder (height width : Nat) (x : Ix) : Prop := x.u = 0 ∨ x.u + 1 = height ∨ x.v = 0 ∨ x.v + 1 = width

theorem edge_iff (height width : Nat) (x : Ix) : edge height width x = true ↔ OnBorder height width x := by
  unfold edge OnBorder
  simp only [Bool.or_eq_true, decide_eq_true_eq, or_assoc]
  constructor
  · rintro (h | h | h | h)
    · exact .inl h
    · exact .inr (.inl (by omega))
    · exact .inr (.inr (.inl h))
    · exact .inr (.inr (.inr (by omega)))
  · rintro (h | h | h | h)
    · exact .inl h
    · exact .inr (.inl (by omega))
    · exact .inr (.inr (.inl h))
    · exact .inr (.inr (.inr (by omega)))

theorem finalGradient_border {height width : Nat} {x : Ix} (hx : OnBorder height width x) (hc : x.coord < 2) (nested : Bool) (own : Ix → ℝ)
    (ranks : List (Ix → ℝ)) : finalGradient height width nested own ranks x = 0 := by
  unfold finalGradient lock
  rw [if_pos hc, if_pos ((edge_iff _ _ _).2 hx)]

theorem finalGradient_free {height width : Nat} {x : Ix} (hx : ¬ (OnBorder height width x ∧ x.coord < 2)) (nested : Bool) (own : Ix → ℝ)
    (ranks : List (Ix → ℝ)) : finalGradient height width nested own ranks x = if nested then average ranks x else own x := by
  unfold finalGradient lock
  by_cases hc : x.coord < 2
  · rw [if_pos hc, if_neg (fun h => hx ⟨(edge_iff _ _ _).1 h, hc⟩)]
    split <;> rfl
  · rw [if_neg hc]
    split <;> rfl

/-- In-plane coordinates of border control points keep their value through any number of reconstructions with any number of epochs, whatever the
gradients (of all processes), learning rates and moment factors are. -/
theorem C41_locked (height width : Nat) (nested : Bool) (beta2 eps : ℝ) (param : Ix → ℝ) (runs : List (List Epoch)) (x : Ix)
    (hx : OnBorder height width x) (hc : x.coord < 2) :
    reconstructAll height width nested beta2 eps param runs x = param x := by
  have one : ∀ (epochs : List Epoch) (s : Adam), s.m x = 0 →
      ((epochs.foldl (epochStep height width nested beta2 eps) s).param x = s.param x) := by
    intro epochs
    induction epochs with
    | nil => intro s _; rfl
    | cons e es ih =>
      intro s h1
      rw [List.foldl_cons]
      have g0 := finalGradient_border hx hc nested e.own e.ranks
      have m0 : (epochStep height width nested beta2 eps s e).m x = 0 := by
        simp only [epochStep, Adam.step, g0, h1]; ring
      rw [ih _ m0]
      simp only [epochStep, Adam.step, g0, h1]
      simp
  unfold reconstructAll
  induction runs generalizing param with
  | nil => rfl
  | cons r rs ih =>
    rw [List.foldl_cons, ih]
    exact one r _ rfl

/-- Adam for a single number (Kingma and Ba): parameter, the two moments and the number of steps. -/
noncomputable def scalarAdam (beta2 eps : ℝ) : ℝ → ℝ → ℝ → Nat → List (ℝ × ℝ × ℝ) → ℝ
  | p, _, _, _, [] => p
  | p, m, v, t, (lr, beta1, g) :: rest =>
    let m' := beta1 * m + (1 - beta1) * g
    let v' := beta2 * v + (1 - beta2) * g ^ 2
    let mHat := m' / (1 - beta1 ^ (t + 1))
    let root := Real.sqrt v' / Real.sqrt (1 - beta2 ^ (t + 1))
    scalarAdam beta2 eps (p - lr * mHat / (root + eps)) m' v' (t + 1) rest

/-- All other coordinates (interior control points, and all heights) are optimised as if nothing were locked: they follow plain Adam for their own
gradient, which in a shared group is the mean over the processes of the group. -/
theorem C41_free (height width : Nat) (nested : Bool) (beta2 eps : ℝ) (param : Ix → ℝ) (epochs : List Epoch) (x : Ix)
    (hx : ¬ (OnBorder height width x ∧ x.coord < 2)) :
    reconstruct height width nested beta2 eps param epochs x =
      scalarAdam beta2 eps (param x) 0 0 0
        (epochs.map fun e => (e.lr, e.beta1, if nested then (e.ranks.map (fun g => g x)).sum / (e.ranks.length : ℝ) else e.own x)) := by
  have gen : ∀ (epochs : List Epoch) (s : Adam),
      (epochs.foldl (epochStep height width nested beta2 eps) s).param x =
        scalarAdam beta2 eps (s.param x) (s.m x) (s.v x) s.count
          (epochs.map fun e => (e.lr, e.beta1, if nested then (e.ranks.map (fun g => g x)).sum / (e.ranks.length : ℝ) else e.own x)) := by
    intro epochs
    induction epochs with
    | nil => intro s; rfl
    | cons e es ih =>
      intro s
      rw [List.foldl_cons, ih, List.map_cons]
      have g := finalGradient_free hx nested e.own e.ranks
      unfold average at g
      rw [scalarAdam]
      simp only [epochStep, Adam.step, g]
      have hm : ∀ a : ℝ, s.m x + (1 - e.beta1) * (a - s.m x) = e.beta1 * s.m x + (1 - e.beta1) * a := by intro a; ring
      rw [hm]
      congr 1
      ring
  exact gen epochs (Adam.init param)

/-- In particular every free coordinate with a non-zero gradient moves in the first epoch, against the gradient and by at most the learning rate. -/
theorem C41_moves (height width : Nat) (beta2 eps : ℝ) (h2 : 0 ≤ beta2) (h2' : beta2 < 1) (he : 0 < eps) (param : Ix → ℝ) (e : Epoch)
    (h1 : e.beta1 ≠ 1) (x : Ix) (hx : ¬ (OnBorder height width x ∧ x.coord < 2)) :
    reconstruct height width false beta2 eps param [e] x = param x - e.lr * (e.own x / (|e.own x| + eps)) ∧
    (e.own x ≠ 0 → e.lr ≠ 0 → reconstruct height width false beta2 eps param [e] x ≠ param x) := by
  have key : reconstruct height width false beta2 eps param [e] x = param x - e.lr * (e.own x / (|e.own x| + eps)) := by
    rw [C41_free _ _ _ _ _ _ _ _ hx]
    simp only [List.map_cons, List.map_nil, scalarAdam, mul_zero, zero_add, pow_one, Bool.false_eq_true, if_false]
    have hb : (1 - e.beta1) ≠ 0 := sub_ne_zero.2 (Ne.symm h1)
    have hs : Real.sqrt (1 - beta2) ≠ 0 := (Real.sqrt_pos.2 (by linarith)).ne'
    rw [Real.sqrt_mul (by linarith), Real.sqrt_sq_eq_abs, mul_div_cancel_left₀ _ hs, mul_div_cancel_left₀ _ hb, mul_div_assoc]
  refine ⟨key, fun hg hl => ?_⟩
  rw [key]
  intro h
  have hp : 0 < |e.own x| + eps := by positivity
  have : e.lr * (e.own x / (|e.own x| + eps)) ≠ 0 := mul_ne_zero hl (div_ne_zero hg hp.ne')
  exact this (by linarith)

/-! ## The surface -/
section
open BSpline Nurbs

theorem near_row {K : Type} [Field K] [LinearOrder K] [IsStrictOrderedRing K] {n m : Nat} (a b : Nat → K) (D : Nat → Nat → K) (k : Nat) (hk : k < n)
    (ha : ∀ i, i < n → 0 ≤ a i) (hb : ∀ j, j < m → 0 ≤ b j) (sa : ∑ i ∈ Finset.range n, a i = 1) (sb : ∑ j ∈ Finset.range m, b j = 1)
    (M : K) (hM : ∀ i j, i < n → j < m → |D i j| ≤ M) (h0 : ∀ j, j < m → D k j = 0) :
    |∑ i ∈ Finset.range n, ∑ j ∈ Finset.range m, a i * b j * D i j| ≤ M * (1 - a k) := by
  have hrow : ∀ i ∈ Finset.range n, |∑ j ∈ Finset.range m, a i * b j * D i j| ≤ if i = k then 0 else a i * M := by
    intro i hi
    split
    · rename_i h
      subst h
      rw [Finset.sum_eq_zero (fun j hj => by rw [h0 j (Finset.mem_range.1 hj), mul_zero]), abs_zero]
    · calc |∑ j ∈ Finset.range m, a i * b j * D i j| ≤ ∑ j ∈ Finset.range m, |a i * b j * D i j| := Finset.abs_sum_le_sum_abs _ _
        _ ≤ ∑ j ∈ Finset.range m, a i * b j * M := by
          apply Finset.sum_le_sum
          intro j hj
          have p := mul_nonneg (ha i (Finset.mem_range.1 hi)) (hb j (Finset.mem_range.1 hj))
          rw [abs_mul, abs_of_nonneg p]
          exact mul_le_mul_of_nonneg_left (hM i j (Finset.mem_range.1 hi) (Finset.mem_range.1 hj)) p
        _ = a i * M := by rw [← Finset.sum_mul, ← Finset.mul_sum, sb, mul_one]
  calc |∑ i ∈ Finset.range n, ∑ j ∈ Finset.range m, a i * b j * D i j|
      ≤ ∑ i ∈ Finset.range n, |∑ j ∈ Finset.range m, a i * b j * D i j| := Finset.abs_sum_le_sum_abs _ _
    _ ≤ ∑ i ∈ Finset.range n, if i = k then 0 else a i * M := Finset.sum_le_sum hrow
    _ = M * (1 - a k) := by
      have : ∀ i ∈ Finset.range n, (if i = k then (0 : K) else a i * M) = a i * M - if i = k then a i * M else 0 := by
        intro i _; split <;> simp
      rw [Finset.sum_congr rfl this, Finset.sum_sub_distrib, ← Finset.sum_mul, sa, Finset.sum_ite_eq' , if_pos (Finset.mem_range.2 hk)]
      ring

/-- The control net of one facet. -/
def netOf (height width : Nat) (param : Ix → ℝ) (heliostat facet : Nat) : Net ℝ :=
  ⟨height, width, fun i j c => param ⟨heliostat, facet, i, j, c.val⟩⟩

/-- The border of the surface keeps its outline: for points towards any of the four borders of the parameter square the in-plane coordinates of the
reconstructed surface approach those of the original surface, at a linear rate, however far interior control points (at most `M`) have moved. On
the borders `x = 0` and `y = 0` they are equal. -/
theorem C41_outline (height width p q : Nat) (nested : Bool) (beta2 eps : ℝ) (param : Ix → ℝ) (runs : List (List Epoch)) (heliostat facet : Nat)
    (x y : ℝ) (hp : 1 ≤ p) (hq : 1 ≤ q) (hh : p < height) (hw : q < width) (hx0 : 0 ≤ x) (hx1 : x < 1) (hy0 : 0 ≤ y) (hy1 : y < 1)
    (c : Fin 3) (hc : c.val < 2) (M : ℝ)
    (hM : ∀ i j, i < height → j < width → |reconstructAll height width nested beta2 eps param runs ⟨heliostat, facet, i, j, c.val⟩ -
      param ⟨heliostat, facet, i, j, c.val⟩| ≤ M)
    (before after : H ℝ) (cr cr' : Fin 3 → ℝ)
    (hbefore : evaluate (netOf height width param heliostat facet) p q x y = .ok (before, cr))
    (hafter : evaluate (netOf height width (reconstructAll height width nested beta2 eps param runs) heliostat facet) p q x y = .ok (after, cr')) :
    (x < 1 / ((height - p : Nat) : ℝ) → |after c.castSucc - before c.castSucc| ≤ M * ((p : ℝ) * ((height - p : Nat) : ℝ) * x)) ∧
    (1 - 1 / ((height - p : Nat) : ℝ) ≤ x → |after c.castSucc - before c.castSucc| ≤ M * ((p : ℝ) * ((height - p : Nat) : ℝ) * (1 - x))) ∧
    (y < 1 / ((width - q : Nat) : ℝ) → |after c.castSucc - before c.castSucc| ≤ M * ((q : ℝ) * ((width - q : Nat) : ℝ) * y)) ∧
    (1 - 1 / ((width - q : Nat) : ℝ) ≤ y → |after c.castSucc - before c.castSucc| ≤ M * ((q : ℝ) * ((width - q : Nat) : ℝ) * (1 - y))) := by
  set new := reconstructAll height width nested beta2 eps param runs with hnew
  have v1 : Valid (netOf height width param heliostat facet) p q x y := ⟨hp, hq, hh, hw, hx0, hx1, hy0, hy1⟩
  have v2 : Valid (netOf height width new heliostat facet) p q x y := ⟨hp, hq, hh, hw, hx0, hx1, hy0, hy1⟩
  obtain ⟨pt, cr1, e1, -, s1⟩ := C23_surface v1
  obtain ⟨pt', cr2, e2, -, s2⟩ := C23_surface v2
  rw [e1] at hbefore
  rw [e2] at hafter
  obtain ⟨rfl, rfl⟩ := Prod.mk.inj (Except.ok.inj hbefore)
  obtain ⟨rfl, rfl⟩ := Prod.mk.inj (Except.ok.inj hafter)
  obtain ⟨px, nx, -⟩ := N_nonneg_sum hp hh hx0 hx1
  obtain ⟨py, ny, -⟩ := N_nonneg_sum hq hw hy0 hy1
  have hM0 : 0 ≤ M := (abs_nonneg _).trans (hM 0 0 (by omega) (by omega))
  set D : Nat → Nat → ℝ := fun i j => new ⟨heliostat, facet, i, j, c.val⟩ - param ⟨heliostat, facet, i, j, c.val⟩ with hD
  have hdiff : pt' c.castSucc - pt c.castSucc =
      ∑ i ∈ Finset.range height, ∑ j ∈ Finset.range width, N (clampedUniform height p) p i x * N (clampedUniform width q) q j y * D i j := by
    rw [s1, s2]
    unfold surface
    simp only [netOf, hD, mul_sub, Finset.sum_sub_distrib]
  have hdiff' : pt' c.castSucc - pt c.castSucc =
      ∑ j ∈ Finset.range width, ∑ i ∈ Finset.range height, N (clampedUniform width q) q j y * N (clampedUniform height p) p i x * D i j := by
    rw [hdiff, Finset.sum_comm]
    apply Finset.sum_congr rfl; intro j _
    apply Finset.sum_congr rfl; intro i _
    ring
  have hz : ∀ i j, OnBorder height width ⟨heliostat, facet, i, j, c.val⟩ → D i j = 0 := by
    intro i j hb
    rw [hD]
    simp only
    rw [hnew, C41_locked _ _ _ _ _ _ _ _ hb hc, sub_self]
  have close : ∀ a u : ℝ, 1 - u ≤ a → M * (1 - a) ≤ M * u := fun a u h => mul_le_mul_of_nonneg_left (by linarith) hM0
  refine ⟨fun h => ?_, fun h => ?_, fun h => ?_, fun h => ?_⟩
  · rw [hdiff]
    exact (near_row _ _ D 0 (by omega) px py nx ny M hM (fun j _ => hz 0 j (.inl rfl))).trans (close _ _ (N_first_ge hp hh hx0 h))
  · rw [hdiff]
    exact (near_row _ _ D (height - 1) (by omega) px py nx ny M hM
      (fun j _ => hz _ j (.inr (.inl (by simp only; omega))))).trans (close _ _ (N_last_ge hp hh h hx1))
  · rw [hdiff']
    exact (near_row _ _ (fun j i => D i j) 0 (by omega) py px ny nx M (fun j i hj hi => hM i j hi hj)
      (fun i _ => hz i 0 (.inr (.inr (.inl rfl))))).trans (close _ _ (N_first_ge hq hw hy0 h))
  · rw [hdiff']
    exact (near_row _ _ (fun j i => D i j) (width - 1) (by omega) py px ny nx M (fun j i hj hi => hM i j hi hj)
      (fun i _ => hz i _ (.inr (.inr (.inr (by simp only; omega)))))).trans (close _ _ (N_last_ge hq hw h hy1))
end

/-- A 4 × 5 net: the corner and the last column are on the border, control point (1, 3) is not. -/
example : OnBorder 4 5 ⟨0, 2, 0, 0, 1⟩ ∧ OnBorder 4 5 ⟨0, 2, 1, 4, 1⟩ ∧ ¬ OnBorder 4 5 ⟨0, 2, 1, 3, 1⟩ := by
  simp [OnBorder]
/-- With unit gradients everywhere one epoch moves the interior point and the border height, not the border's in-plane coordinate. -/
example : let e : Epoch := ⟨1 / 10, 9 / 10, fun _ => 1, []⟩
    reconstruct 4 5 false (999 / 1000) (1 / 100) (fun _ => 3) [e] ⟨0, 0, 1, 3, 0⟩ = 3 - 1 / 10 * (1 / (1 + 1 / 100)) ∧
    reconstruct 4 5 false (999 / 1000) (1 / 100) (fun _ => 3) [e] ⟨0, 0, 0, 3, 2⟩ = 3 - 1 / 10 * (1 / (1 + 1 / 100)) ∧
    reconstructAll 4 5 false (999 / 1000) (1 / 100) (fun _ => 3) [[e, e], [e]] ⟨0, 0, 0, 3, 1⟩ = 3 := by
  intro e
  refine ⟨?_, ?_, ?_⟩
  · rw [(C41_moves 4 5 _ _ (by norm_num) (by norm_num) (by norm_num) _ e (by norm_num [e]) _ (by simp [OnBorder])).1]
    norm_num [e]
  · rw [(C41_moves 4 5 _ _ (by norm_num) (by norm_num) (by norm_num) _ e (by norm_num [e]) _ (by simp)).1]
    norm_num [e]
  · exact C41_locked 4 5 _ _ _ _ _ _ (.inl rfl) (by norm_num)

end Artist.Lock
