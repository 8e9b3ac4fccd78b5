import Verif.Proofs.LBVHFilter
import Mathlib.Algebra.BigOperators.Group.Finset.Basic
import Mathlib.Algebra.Order.BigOperators.Group.Finset
import Mathlib.Algebra.BigOperators.Intervals
import Verif.Spec.LBVH
/-! Helper lemmas: which splits the search finds, and that every leaf is reachable only if all of them are right. -/
namespace Artist.LBVH
open Artist Artist.Morton

/-! ### sums of halves -/

/-- `o` is a sum of some of `t`, `t / 2`, `t / 4`, … -/
def Rep (t o : Nat) : Prop := ∃ (N : Nat) (p : Nat → Bool), o = ∑ k ∈ Finset.range N, if p k then t / 2 ^ k else 0

theorem rep_zero (o : Nat) : Rep 0 o ↔ o = 0 := by
  constructor
  · rintro ⟨N, p, h⟩; simpa using h
  · rintro rfl; exact ⟨0, fun _ => false, by simp⟩

theorem half_pow (t k : Nat) : t / 2 ^ (k + 1) = t / 2 / 2 ^ k := by
  rw [Nat.pow_succ, Nat.mul_comm, Nat.div_div_eq_div_mul]

theorem rep_cons (t o : Nat) : Rep t o ↔ Rep (t / 2) o ∨ (t ≤ o ∧ Rep (t / 2) (o - t)) := by
  constructor
  · rintro ⟨N, p, h⟩
    cases N with
    | zero => left; exact ⟨0, p, by simpa using h⟩
    | succ N =>
      rw [Finset.sum_range_succ'] at h
      simp only [half_pow, pow_zero, Nat.div_one] at h
      by_cases hp : p 0 = true
      · rw [if_pos hp] at h
        right
        exact ⟨by omega, N, fun k => p (k + 1), by rw [h]; exact Nat.add_sub_cancel _ _⟩
      · rw [if_neg hp] at h
        left
        exact ⟨N, fun k => p (k + 1), by rw [h]; exact Nat.add_zero _⟩
  · rintro (⟨N, p, h⟩ | ⟨hle, N, p, h⟩)
    · refine ⟨N + 1, fun k => match k with | 0 => false | k + 1 => p k, ?_⟩
      rw [Finset.sum_range_succ']
      simp only [half_pow]
      simpa using h
    · refine ⟨N + 1, fun k => match k with | 0 => true | k + 1 => p k, ?_⟩
      rw [Finset.sum_range_succ']
      simp only [half_pow, pow_zero, Nat.div_one, if_true]
      omega

theorem halves_lt (N : Nat) : ∀ t, 1 ≤ t → ∑ k ∈ Finset.range N, t / 2 ^ (k + 1) < t := by
  induction N with
  | zero => intro t ht; simp; omega
  | succ N ih =>
    intro t ht
    rw [Finset.sum_range_succ']
    simp only [zero_add, pow_one]
    have e : ∀ k, t / 2 ^ (k + 1 + 1) = (t / 2) / 2 ^ (k + 1) := fun k => half_pow t (k + 1)
    simp only [e]
    rcases Nat.eq_zero_or_pos (t / 2) with h0 | h0
    · rw [h0]; simp; omega
    · have := ih (t / 2) h0
      omega

theorem rep_lt (t o : Nat) (ht : 1 ≤ t) (h : Rep (t / 2) o) : o < t := by
  obtain ⟨N, p, rfl⟩ := h
  refine lt_of_le_of_lt (Finset.sum_le_sum ?_) (halves_lt N t ht)
  intro k _
  rw [half_pow]
  split
  · exact le_refl _
  · exact Nat.zero_le _

theorem rep_iff_sum (m o : Nat) : Rep (m / 2) o ↔ SumOfHalves m o := by
  unfold SumOfHalves
  constructor
  · rintro ⟨N, p, h⟩
    refine ⟨(Finset.range N).filter (fun k => p k = true), ?_⟩
    rw [h, Finset.sum_filter]
    simp only [half_pow]
  · rintro ⟨S, h⟩
    refine ⟨S.sup id + 1, fun k => decide (k ∈ S), ?_⟩
    rw [h]
    simp only [half_pow, decide_eq_true_eq]
    rw [← Finset.sum_filter]
    apply Finset.sum_congr _ (fun _ _ => rfl)
    ext k
    simp only [Finset.mem_filter, Finset.mem_range]
    constructor
    · intro hk
      have : k ≤ S.sup id := Finset.le_sup (f := id) hk
      exact ⟨by omega, hk⟩
    · exact fun hk => hk.2

theorem searchLoop_iff (dl : Nat → Int → Int) (i : Nat) (d thr : Int) (L : Nat)
    (hL : ∀ l : Nat, 1 ≤ l → (dl i (i + (l : Int) * d) > thr ↔ l ≤ L)) :
    ∀ (fuel l t : Nat), t ≤ fuel → l ≤ L →
      (searchLoop dl i d thr fuel l t = L ↔ Rep t (L - l)) := by
  intro fuel
  induction fuel with
  | zero =>
    intro l t ht hl
    have : t = 0 := by omega
    subst this
    rw [rep_zero]
    unfold searchLoop
    omega
  | succ fuel ih =>
    intro l t ht hl
    unfold searchLoop
    by_cases h1 : 1 ≤ t
    · rw [if_pos h1, rep_cons]
      have hq := hL (l + t) (by omega)
      by_cases h2 : dl i (i + ((l + t : Nat) : Int) * d) > thr
      · rw [if_pos h2]
        have hlt := hq.1 h2
        rw [ih (l + t) (t / 2) (by omega) hlt, Nat.sub_add_eq]
        constructor
        · intro h; exact Or.inr ⟨by omega, h⟩
        · rintro (h | ⟨_, h⟩)
          · have := rep_lt t _ h1 h; omega
          · exact h
      · rw [if_neg h2, ih l (t / 2) (by omega) hl]
        have hnot : ¬ (l + t ≤ L) := fun h => h2 (hq.2 h)
        constructor
        · exact Or.inl
        · rintro (h | ⟨h, _⟩)
          · exact h
          · omega
    · rw [if_neg h1]
      have : t = 0 := by omega
      subst this
      rw [rep_zero]
      omega

/-! ### the right split -/

variable {n : Nat} {dl : Nat → Int → Int}

theorem true_split (h : Delta n dl) (a b : Nat) (hab : a < b) (hb : b < n) :
    ∃ s, a ≤ s ∧ s < b ∧ dl s (s + 1 : Nat) = dl a b := by
  obtain ⟨d, rfl⟩ : ∃ d, b = a + 1 + d := ⟨b - a - 1, by omega⟩
  induction d with
  | zero => exact ⟨a, le_refl _, by omega, rfl⟩
  | succ d ih =>
    obtain ⟨s, h1, h2, h3⟩ := ih (by omega) (by omega)
    have hu := h.ultra a (a + 1 + d) (a + 1 + d + 1) (by omega) (by omega) (by omega)
    have e : a + 1 + (d + 1) = a + 1 + d + 1 := by omega
    rw [e]
    rcases min_choice (dl a ((a + 1 + d : Nat) : Int)) (dl (a + 1 + d) ((a + 1 + d + 1 : Nat) : Int)) with hm | hm
    · exact ⟨s, h1, by omega, by rw [h3, hu, hm]⟩
    · exact ⟨a + 1 + d, by omega, by omega, by rw [hu, hm]⟩

theorem interval_le (h : Delta n dl) (a b j : Nat) (h1 : a ≤ j) (h2 : j < b) (hb : b < n) :
    dl a (b : Int) ≤ dl j (j + 1 : Nat) := by
  have e1 := h.mono_left a j b h1 (by omega) hb
  have e2 := h.mono_right j (j + 1) b (by omega) (by omega) hb
  omega

theorem split_unique (h : Delta n dl) (a b s t : Nat) (hb : b < n) (hs1 : a ≤ s) (hs2 : s < b) (ht1 : a ≤ t) (ht2 : t < b)
    (es : dl s (s + 1 : Nat) = dl a b) (et : dl t (t + 1 : Nat) = dl a b) : s = t := by
  rcases Nat.lt_trichotomy s t with hlt | heq | hlt
  · have hu := h.uniq s t hlt (by omega) (by omega)
    have e1 := h.mono_left a s (t + 1) hs1 (by omega) (by omega)
    have e2 := h.mono_right a (t + 1) b (by omega) (by omega) hb
    omega
  · exact heq
  · have hu := h.uniq t s hlt (by omega) (by omega)
    have e1 := h.mono_left a t (s + 1) ht1 (by omega) (by omega)
    have e2 := h.mono_right a (s + 1) b (by omega) (by omega) hb
    omega

/-- beyond the ends of a range the similarity is smaller -/
theorem outside_lt (h : Delta n dl) (i a b : Nat) (hr : NodeRange n dl i a b) :
    (0 < a → dl (a - 1) (a : Int) < dl a (b : Int)) ∧ (b + 1 < n → dl b ((b + 1 : Nat) : Int) < dl a (b : Int)) := by
  obtain ⟨hab, hbn, hcase⟩ := hr
  constructor
  · intro h0
    have e : ((a : Int) - 1) = ((a - 1 : Nat) : Int) := by omega
    rcases hcase with ⟨_, hgt, _⟩ | ⟨_, hgt, hend⟩
    · rw [e, h.symm a (a - 1) (by omega) (by omega)] at hgt; exact hgt
    · rw [e, h.symm b (a - 1) hbn (by omega)] at hend
      rw [h.symm b a hbn (by omega)] at hgt
      have := h.ultra (a - 1) a b (by omega) (by omega) hbn
      omega
  · intro h0
    have e : ((b : Int) + 1) = ((b + 1 : Nat) : Int) := by omega
    rcases hcase with ⟨_, hgt, hend⟩ | ⟨_, hgt, _⟩
    · rw [e] at hend
      have := h.ultra a b (b + 1) (by omega) (by omega) h0
      omega
    · rw [e, h.symm b a hbn (by omega)] at hgt; exact hgt

/-- which of the two ends carries the node -/
theorem nodeRange_iff (h : Delta n dl) (i a b : Nat) (hab : a < b) (hb : b < n)
    (hL : 0 < a → dl (a - 1) (a : Int) < dl a (b : Int)) (hR : b + 1 < n → dl b ((b + 1 : Nat) : Int) < dl a (b : Int))
    (hi : i < n - 1) :
    NodeRange n dl i a b ↔ i = if dl b ((b : Int) + 1) ≤ dl a ((a : Int) - 1) then a else b := by
  have hD := h.nonneg a b (by omega) hb
  have hL' : dl a ((a : Int) - 1) < dl a (b : Int) := by
    by_cases h0 : 0 < a
    · have e : ((a : Int) - 1) = ((a - 1 : Nat) : Int) := by omega
      rw [e, h.symm a (a - 1) (by omega) (by omega)]; exact hL h0
    · rw [h.out a _ (by omega)]; omega
  have hR' : dl b ((b : Int) + 1) < dl a (b : Int) := by
    by_cases h0 : b + 1 < n
    · have := hR h0; push_cast at this; exact this
    · rw [h.out b _ (by omega)]; omega
  have hab1 : dl a ((b : Int) + 1) = dl b ((b : Int) + 1) := by
    by_cases h0 : b + 1 < n
    · have := h.ultra a b (b + 1) (by omega) (by omega) h0
      push_cast at this; omega
    · rw [h.out b _ (by omega), h.out a _ (by omega)]
  have hba1 : dl b ((a : Int) - 1) = dl a ((a : Int) - 1) := by
    by_cases h0 : 0 < a
    · have e : ((a : Int) - 1) = ((a - 1 : Nat) : Int) := by omega
      rw [e] at hL' ⊢
      rw [h.symm a (a - 1) (by omega) (by omega)] at hL' ⊢
      rw [h.symm b (a - 1) (by omega) (by omega)]
      have := h.ultra (a - 1) a b (by omega) (by omega) hb
      omega
    · rw [h.out a _ (by omega), h.out b _ (by omega)]
  have hsym : dl b (a : Int) = dl a (b : Int) := h.symm b a hb (by omega)
  have hne : i = b → dl b ((b : Int) + 1) ≠ dl a ((a : Int) - 1) := by
    rintro rfl heq
    have hb1 : i + 1 < n := by omega
    have en := h.nonneg i (i + 1) hb hb1
    push_cast at en
    by_cases h0 : 0 < a
    · have e : ((a : Int) - 1) = ((a - 1 : Nat) : Int) := by omega
      rw [e, h.symm a (a - 1) (by omega) (by omega)] at heq
      have e1 : a - 1 + 1 = a := by omega
      have hu := h.uniq (a - 1) i (by omega) hb1 (by rw [e1]; push_cast; exact heq.symm)
      rw [e1] at hu
      have u1 := h.ultra (a - 1) a (i + 1) (by omega) (by omega) hb1
      have u2 := h.ultra a i (i + 1) (by omega) (by omega) hb1
      push_cast at u1 u2 hu
      omega
    · rw [h.out a _ (by omega)] at heq
      omega
  unfold NodeRange
  rw [hab1, hba1, hsym]
  split
  · rename_i hc
    constructor
    · rintro ⟨_, _, ⟨h1, _⟩ | ⟨h1, _, h3⟩⟩
      · exact h1
      · exact absurd (le_antisymm hc h3) (hne h1)
    · intro h1; exact ⟨hab, hb, Or.inl ⟨h1, hL', hc⟩⟩
  · rename_i hc
    constructor
    · rintro ⟨_, _, ⟨_, _, h3⟩ | ⟨h1, _, h3⟩⟩
      · exact absurd h3 hc
      · exact h1
    · intro h1; exact ⟨hab, hb, Or.inr ⟨h1, hR', by omega⟩⟩

/-- the range of an inner child stays on one side of the right split -/
theorem child_side (h : Delta n dl) (a b s c a' b' : Nat) (hb : b < n) (hL : 0 < a → dl (a - 1) (a : Int) < dl a (b : Int))
    (hR : b + 1 < n → dl b ((b + 1 : Nat) : Int) < dl a (b : Int)) (hs : dl s (s + 1 : Nat) = dl a b)
    (hb' : b' < n) (h1 : a' ≤ c) (h2 : c ≤ b') (h3 : a ≤ c) (h4 : c ≤ b) (hlt : dl a (b : Int) < dl a' (b' : Int)) :
    a ≤ a' ∧ b' ≤ b ∧ (b' ≤ s ∨ s + 1 ≤ a') := by
  refine ⟨?_, ?_, ?_⟩
  · by_contra hc
    have := interval_le h a' b' (a - 1) (by omega) (by omega) hb'
    have e : a - 1 + 1 = a := by omega
    rw [e] at this
    have := hL (by omega)
    omega
  · by_contra hc
    have := interval_le h a' b' b (by omega) (by omega) hb'
    have := hR (by omega)
    omega
  · by_contra hc
    have := interval_le h a' b' s (by omega) (by omega) hb'
    omega

theorem child_deeper (h : Delta n dl) (i a b c a' b' : Nat) (hr : NodeRange n dl i a b) (h1 : a < c) (h2 : c < b)
    (hr' : NodeRange n dl c a' b') : dl a (b : Int) < dl a' (b' : Int) := by
  have hb := hr.2.1
  have g1 := interval_le h a b (c - 1) (by omega) (by omega) hb
  have g2 := interval_le h a b c (by omega) (by omega) hb
  have e0 : c - 1 + 1 = c := by omega
  rw [e0] at g1
  obtain ⟨x1, x2⟩ := outside_lt h c a' b' hr'
  rcases hr'.2.2 with ⟨rfl, _⟩ | ⟨rfl, _⟩
  · have := x1 (by omega); omega
  · have := x2 (by omega); omega

/-- leaves below a node lie in its range -/
theorem reach_in_range (h : Delta n dl) : ∀ (k i j a b : Nat), i < n - 1 → NodeRange n dl i a b →
    Path (leftArray n dl) (rightArray n dl) i (n - 1 + j) k → a ≤ j ∧ j ≤ b := by
  intro k
  induction k with
  | zero =>
    intro i j a b hi hr hp
    cases hp
    omega
  | succ k ih =>
    intro i j a b hi hr hp
    cases hp with
    | step hc hp =>
      rename_i c
      obtain ⟨hi', hc⟩ := (isChild_iff n dl i c).1 hc
      obtain ⟨a0, b0, info⟩ := node_range h i (by omega) (by omega)
      obtain ⟨rfl, rfl⟩ := nodeRange_unique h i a b a0 b0 hr info.range
      have hb := hr.2.1
      rcases child_cases h i a b c (by omega) info hc with ⟨j', hj1, hj2, rfl⟩ | ⟨h1, h2⟩
      · generalize hx : n - 1 + j' = x at hp
        generalize hy : n - 1 + j = y at hp
        cases hp with
        | refl => omega
        | step hc' _ =>
          have := ((isChild_iff n dl _ _).1 hc').1
          omega
      · obtain ⟨a', b', info'⟩ := node_range h c (by omega) (by omega)
        have := ih c j a' b' (by omega) info'.range hp
        obtain ⟨s, _, _, hs⟩ := true_split h a b hr.1 hb
        obtain ⟨x1, x2⟩ := outside_lt h i a b hr
        have hin := info'.range
        have hc2 := hin.2.2
        have := child_side h a b s c a' b' hb x1 x2 hs hin.2.1 (by omega) (by omega) (by omega) (by omega)
          (child_deeper h i a b c a' b' hr h1 h2 hin)
        omega

/-- all leaves of the range of a node can be reached from it -/
def FullNode (n : Nat) (dl : Nat → Int → Int) (i a b : Nat) : Prop :=
  ∀ j, a ≤ j → j ≤ b → ∃ k, Path (leftArray n dl) (rightArray n dl) i (n - 1 + j) k

/-- what can be reached through a child: only positions on its side of the right split -/
theorem via_child (h : Delta n dl) (i a b s c j k : Nat) (hi : i < n - 1) (hr : NodeRange n dl i a b)
    (hs : dl s (s + 1 : Nat) = dl a b) (hc : IsChild (leftArray n dl) (rightArray n dl) i c)
    (hp : Path (leftArray n dl) (rightArray n dl) c (n - 1 + j) k) :
    (∃ j', c = n - 1 + j' ∧ j' = j) ∨
    (c < n - 1 ∧ a < c ∧ c < b ∧ (c ≤ s → j ≤ s) ∧ (s + 1 ≤ c → s + 1 ≤ j)) := by
  obtain ⟨_, hc⟩ := (isChild_iff n dl i c).1 hc
  obtain ⟨a0, b0, info⟩ := node_range h i (by omega) (by omega)
  obtain ⟨rfl, rfl⟩ := nodeRange_unique h i a b a0 b0 hr info.range
  have hb := hr.2.1
  rcases child_cases h i a b c (by omega) info hc with ⟨j', hj1, hj2, rfl⟩ | ⟨h1, h2⟩
  · left
    refine ⟨j', rfl, ?_⟩
    generalize hx : n - 1 + j' = x at hp
    generalize hy : n - 1 + j = y at hp
    cases hp with
    | refl => omega
    | step hc' _ => have := ((isChild_iff n dl _ _).1 hc').1; omega
  · right
    obtain ⟨a', b', info'⟩ := node_range h c (by omega) (by omega)
    have hj := reach_in_range h k c j a' b' (by omega) info'.range hp
    obtain ⟨x1, x2⟩ := outside_lt h i a b hr
    have hin := info'.range
    have hc2 := hin.2.2
    have := child_side h a b s c a' b' hb x1 x2 hs hin.2.1 (by omega) (by omega) (by omega) (by omega)
      (child_deeper h i a b c a' b' hr h1 h2 hin)
    exact ⟨by omega, h1, h2, by omega, by omega⟩

theorem full_exact (h : Delta n dl) (i a b s γ : Nat) (hi : i < n - 1) (hr : NodeRange n dl i a b)
    (hs1 : a ≤ s) (hs2 : s < b) (hs : dl s (s + 1 : Nat) = dl a b) (hg : gamma n dl i = γ) (hf : FullNode n dl i a b) :
    γ = s ∧ (a < s → FullNode n dl s a s) ∧ (s + 1 < b → FullNode n dl (s + 1) (s + 1) b) := by
  obtain ⟨a0, b0, info⟩ := node_range h i (by omega) (by omega)
  obtain ⟨rfl, rfl⟩ := nodeRange_unique h i a b a0 b0 hr info.range
  have hb := hr.2.1
  obtain ⟨γ', h1, h2, hγ, hl, hrr, _⟩ := node_children h i a b (by omega) info
  have eγ : γ' = γ := by rw [hg] at hγ; exact_mod_cast hγ.symm
  subst eγ
  -- every reachable leaf is reached through a child
  have step : ∀ j, a ≤ j → j ≤ b → ∃ c k : Nat, ((c : Int) = leftChild n dl i ∨ (c : Int) = rightChild n dl i) ∧
      Path (leftArray n dl) (rightArray n dl) c (n - 1 + j) k ∧
      ((∃ j', c = n - 1 + j' ∧ j' = j) ∨ (c < n - 1 ∧ a < c ∧ c < b ∧ (c ≤ s → j ≤ s) ∧ (s + 1 ≤ c → s + 1 ≤ j))) := by
    intro j hj1 hj2
    obtain ⟨k, hp⟩ := hf j hj1 hj2
    generalize hy : n - 1 + j = y at hp
    cases hp with
    | refl => omega
    | step hc hp =>
      subst hy
      exact ⟨_, _, ((isChild_iff n dl i _).1 hc).2, hp, via_child h i a b s _ j _ hi hr hs hc hp⟩
  have hcases : ∀ c : Nat, ((c : Int) = leftChild n dl i ∨ (c : Int) = rightChild n dl i) →
      (c = n - 1 + γ' ∧ a = γ') ∨ (c = γ' ∧ a ≠ γ') ∨ (c = n - 1 + (γ' + 1) ∧ b = γ' + 1) ∨ (c = γ' + 1 ∧ b ≠ γ' + 1) := by
    intro c hc
    rw [hl, hrr] at hc
    rcases hc with hc | hc
    · split at hc
      · rename_i e; exact Or.inl ⟨by exact_mod_cast hc, e⟩
      · rename_i e; exact Or.inr (Or.inl ⟨by exact_mod_cast hc, e⟩)
    · split at hc
      · rename_i e; exact Or.inr (Or.inr (Or.inl ⟨by exact_mod_cast hc, e⟩))
      · rename_i e; exact Or.inr (Or.inr (Or.inr ⟨by exact_mod_cast hc, e⟩))
  have hγs : γ' = s := by
    rcases Nat.lt_trichotomy γ' s with hlt | heq | hlt
    · exfalso
      obtain ⟨c, k, hc, _, hx⟩ := step b (by omega) (le_refl _)
      have hcc := hcases c hc
      rcases hx with ⟨j', e1, e2⟩ | ⟨e1, e2, e3, e4, e5⟩ <;> omega
    · exact heq
    · exfalso
      obtain ⟨c, k, hc, _, hx⟩ := step s (by omega) (by omega)
      have hcc := hcases c hc
      rcases hx with ⟨j', e1, e2⟩ | ⟨e1, e2, e3, e4, e5⟩ <;> omega
  subst hγs
  refine ⟨rfl, ?_, ?_⟩
  · intro hlt j hj1 hj2
    obtain ⟨c, k, hc, hp, hx⟩ := step j hj1 (by omega)
    have hcc := hcases c hc
    have : c = γ' := by
      rcases hx with ⟨j', e1, e2⟩ | ⟨e1, e2, e3, e4, e5⟩ <;> omega
    subst this
    exact ⟨k, hp⟩
  · intro hlt j hj1 hj2
    obtain ⟨c, k, hc, hp, hx⟩ := step j (by omega) hj2
    have hcc := hcases c hc
    have : c = γ' + 1 := by
      rcases hx with ⟨j', e1, e2⟩ | ⟨e1, e2, e3, e4, e5⟩ <;> omega
    subst this
    exact ⟨k, hp⟩

theorem full_all_exact (h : Delta n dl) : ∀ (len i a b : Nat), b - a ≤ len → i < n - 1 → NodeRange n dl i a b → FullNode n dl i a b →
    ∀ c a' b' γ : Nat, c < n - 1 → NodeRange n dl c a' b' → a ≤ a' → b' ≤ b → gamma n dl c = γ →
      dl γ (γ + 1 : Nat) = dl a' b' := by
  intro len
  induction len with
  | zero => intro i a b hle _ hr; have := hr.1; omega
  | succ len ih =>
    intro i a b hle hi hr hf c a' b' γ hc hr' ha hb' hg
    have hbn := hr.2.1
    have hab := hr.1
    have hab' := hr'.1
    obtain ⟨s, hs1, hs2, hs⟩ := true_split h a b hr.1 hbn
    obtain ⟨a0, b0, info⟩ := node_range h i (by omega) (by omega)
    obtain ⟨rfl, rfl⟩ := nodeRange_unique h i a b a0 b0 hr info.range
    obtain ⟨γi, _, _, hγi, _, _, _⟩ := node_children h i a b (by omega) info
    obtain ⟨e, fL, fR⟩ := full_exact h i a b s γi hi hr hs1 hs2 hs hγi hf
    subst e
    obtain ⟨cL, cR⟩ := exact_child_ranges h i a b γi info hs1 hs2 hs
    rcases Nat.lt_or_ge γi b' with h1 | h1
    · rcases Nat.lt_or_ge γi a' with h2 | h2
      · exact ih (γi + 1) (γi + 1) b (by omega) (by omega) (cR (by omega)) (fR (by omega)) c a' b' γ hc hr' (by omega) hb' hg
      · -- same range
        have q := interval_le h a' b' γi h2 h1 hr'.2.1
        have m1 := h.mono_left a a' b (by omega) (by omega) hbn
        have m2 := h.mono_right a' b' b (by omega) (by omega) hbn
        obtain ⟨x1, x2⟩ := outside_lt h c a' b' hr'
        have ea : a = a' := by
          by_contra hne
          have := interval_le h a b (a' - 1) (by omega) (by omega) hbn
          have e0 : a' - 1 + 1 = a' := by omega
          rw [e0] at this
          have := x1 (by omega); omega
        have eb : b' = b := by
          by_contra hne
          have := interval_le h a b b' (by omega) (by omega) hbn
          have := x2 (by omega); omega
        subst ea eb
        have ci : c = i := by
          rw [(nodeRange_iff h c a b' hab hbn x1 x2 hc).1 hr', (nodeRange_iff h i a b' hab hbn x1 x2 hi).1 hr]
        subst ci
        rw [hg] at hγi
        have : γ = γi := by exact_mod_cast hγi
        rw [this]; exact hs
    · exact ih γi a γi (by omega) (by omega) (cL (by omega)) (fL (by omega)) c a' b' γ hc hr' ha h1 hg

/-- If every leaf can be reached from the root, all splits are right. -/
theorem exact_of_all_reachable (h : Delta n dl) (hall : ∀ j, j < n → ∃ k, Path (leftArray n dl) (rightArray n dl) 0 (n - 1 + j) k) :
    ExactSplits n dl := by
  intro i hi a b info γ hγ
  have hbn := info.range.2.1
  exact full_all_exact h (n - 1) 0 0 (n - 1) (by omega) (by omega) (root_range h (by omega))
    (fun j _ hj => hall j (by omega)) i a b γ hi info.range (by omega) (by omega) hγ

/-! ### when the search finds the right split -/

theorem gamma_eq_iff (h : Delta n dl) (i a b s : Nat) (hi : i < n) (info : NodeInfo n dl i a b)
    (hs1 : a ≤ s) (hs2 : s < b) (hs : dl s (s + 1 : Nat) = dl a b) :
    gamma n dl i = s ↔ SumOfHalves (b - a + 1) (if i = a then s - a else b - (s + 1)) := by
  obtain ⟨hab, hbn, hcase⟩ := info.range
  obtain ⟨x1, x2⟩ := outside_lt h i a b info.range
  -- positions on the left part are closer to each other
  have left : ∀ j : Nat, a ≤ j → j < b → (dl a (b : Int) < dl a (j : Int) ↔ j ≤ s) ∨ j = a := by
    intro j h1 h2
    rcases Nat.eq_or_lt_of_le h1 with e | hlt
    · exact Or.inr e.symm
    · left
      constructor
      · intro hl
        by_contra hn
        have := interval_le h a j s hs1 (by omega) (by omega)
        omega
      · intro hle
        obtain ⟨t, t1, t2, t3⟩ := true_split h a j hlt (by omega)
        have := interval_le h a b t t1 (by omega) hbn
        rcases lt_or_eq_of_le this with hl | he
        · omega
        · exfalso
          have := split_unique h a b s t hbn hs1 hs2 t1 (by omega) hs he.symm
          omega
  have right : ∀ j : Nat, a < j → j ≤ b → (dl a (b : Int) < dl j (b : Int) ↔ s + 1 ≤ j) ∨ j = b := by
    intro j h1 h2
    rcases Nat.eq_or_lt_of_le h2 with e | hlt
    · exact Or.inr e
    · left
      constructor
      · intro hl
        by_contra hn
        have := interval_le h j b s (by omega) hs2 hbn
        omega
      · intro hle
        obtain ⟨t, t1, t2, t3⟩ := true_split h j b hlt hbn
        have := interval_le h a b t (by omega) t2 hbn
        rcases lt_or_eq_of_le this with hl | he
        · omega
        · exfalso
          have := split_unique h a b s t hbn hs1 hs2 (by omega) t2 hs he.symm
          omega
  rcases hcase with ⟨rfl, _, _⟩ | ⟨rfl, _, _⟩
  · have hdir := info.dirA rfl
    rw [if_pos rfl]
    have hL : ∀ l : Nat, 1 ≤ l → (dl i (i + (l : Int) * 1) > dl i (b : Int) ↔ l ≤ s - i) := by
      intro l hl
      have e2 : (i : Int) + (l : Int) * 1 = ((i + l : Nat) : Int) := by push_cast; ring
      rw [e2]
      by_cases hlb : i + l < b
      · rcases left (i + l) (by omega) hlb with hx | hx
        · rw [gt_iff_lt, hx]; omega
        · omega
      · constructor
        · intro hgt
          exfalso
          by_cases hln : i + l < n
          · have := h.mono_right i b (i + l) (by omega) (by omega) hln; omega
          · rw [h.out i _ (by omega)] at hgt
            have := h.nonneg i b hi hbn; omega
        · intro _; omega
    have hsplit : split n dl i = searchLoop dl i 1 (dl i (b : Int)) ((b - i + 1) / 2) 0 ((b - i + 1) / 2) := by
      unfold split; rw [info.lenEq, hdir, info.farD]
    have hγ : gamma n dl i = ((i + split n dl i : Nat) : Int) := by
      unfold gamma; rw [hdir]; push_cast
      have : min (1 : Int) 0 = 0 := by norm_num
      rw [this]; ring
    have key := searchLoop_iff dl i 1 (dl i (b : Int)) (s - i) hL ((b - i + 1) / 2) 0 ((b - i + 1) / 2) (le_refl _) (by omega)
    rw [← hsplit, Nat.sub_zero, rep_iff_sum] at key
    rw [← key, hγ]
    omega
  · have hdir := info.dirB rfl
    rw [if_neg (by omega)]
    have hL : ∀ l : Nat, 1 ≤ l → (dl i (i + (l : Int) * (-1)) > dl a (i : Int) ↔ l ≤ i - (s + 1)) := by
      intro l hl
      by_cases hlb : a + l < i
      · have e2 : (i : Int) + (l : Int) * (-1) = ((i - l : Nat) : Int) := by omega
        rw [e2, h.symm i (i - l) hi (by omega)]
        rcases right (i - l) (by omega) (by omega) with hx | hx
        · rw [gt_iff_lt, hx]; omega
        · omega
      · constructor
        · intro hgt
          exfalso
          by_cases hln : l ≤ i
          · have e2 : (i : Int) + (l : Int) * (-1) = ((i - l : Nat) : Int) := by omega
            rw [e2, h.symm i (i - l) hi (by omega)] at hgt
            have := h.mono_left (i - l) a i (by omega) (by omega) hi; omega
          · rw [h.out i (i + (l : Int) * (-1)) (by omega)] at hgt
            have := h.nonneg a i (by omega) hbn; omega
        · intro _; omega
    have hsplit : split n dl i = searchLoop dl i (-1) (dl a (i : Int)) ((i - a + 1) / 2) 0 ((i - a + 1) / 2) := by
      unfold split; rw [info.lenEq, hdir, info.farD]
    have hle : split n dl i ≤ i - (s + 1) := by
      rw [hsplit]
      exact (searchLoop_spec dl i (-1) (dl a (i : Int)) _ hL ((i - a + 1) / 2) 0 ((i - a + 1) / 2) (le_refl _) (by omega)).2.1
    have hγ : gamma n dl i = ((i - split n dl i - 1 : Nat) : Int) := by
      unfold gamma; rw [hdir]
      have : min (-1 : Int) 0 = -1 := by norm_num
      rw [this]; omega
    have key := searchLoop_iff dl i (-1) (dl a (i : Int)) (i - (s + 1)) hL ((i - a + 1) / 2) 0 ((i - a + 1) / 2) (le_refl _) (by omega)
    rw [← hsplit, Nat.sub_zero, rep_iff_sum] at key
    rw [← key, hγ]
    omega

/-- The splits are right if and only if all groups can be split by the search. -/
theorem exactSplits_iff (h : Delta n dl) :
    ExactSplits n dl ↔ ∀ a s b, IsGroup n dl a s b → SumOfHalves (b - a + 1) (offset dl a s b) := by
  have core : ∀ i a b s, i < n - 1 → NodeInfo n dl i a b → a ≤ s → s < b → dl s (s + 1 : Nat) = dl a b →
      ((if i = a then s - a else b - (s + 1)) = offset dl a s b) := by
    intro i a b s hi info hs1 hs2 hs
    obtain ⟨x1, x2⟩ := outside_lt h i a b info.range
    have hi' := (nodeRange_iff h i a b info.range.1 info.range.2.1 x1 x2 hi).1 info.range
    unfold offset
    by_cases hc : dl b ((b : Int) + 1) ≤ dl a ((a : Int) - 1)
    · rw [if_pos hc] at hi' ⊢; rw [if_pos hi']
    · rw [if_neg hc] at hi' ⊢; rw [if_neg (by have := info.range.1; omega)]
  constructor
  · intro hex a s b hg
    have hb := hg.bound
    have has := hg.le
    have hsb := hg.lt
    -- the group is the range of a node
    have hmin : dl s (s + 1 : Nat) = dl a (b : Int) := by
      obtain ⟨t, t1, t2, t3⟩ := true_split h a b (by omega) hb
      by_cases hts : t = s
      · rw [← hts]; exact t3
      · have := hg.inside t t1 t2 hts
        have := interval_le h a b s has hsb hb
        omega
    have x1 : 0 < a → dl (a - 1) (a : Int) < dl a (b : Int) := fun h0 => by rw [← hmin]; exact hg.before h0
    have x2 : b + 1 < n → dl b ((b + 1 : Nat) : Int) < dl a (b : Int) := fun h0 => by rw [← hmin]; exact hg.after h0
    set i := if dl b ((b : Int) + 1) ≤ dl a ((a : Int) - 1) then a else b with hi
    have hin : i < n - 1 := by
      by_cases hc : dl b ((b : Int) + 1) ≤ dl a ((a : Int) - 1)
      · rw [hi, if_pos hc]; omega
      · rw [hi, if_neg hc]
        by_contra hn
        rw [h.out b _ (by omega)] at hc
        apply hc
        by_cases h0 : 0 < a
        · have e : ((a : Int) - 1) = ((a - 1 : Nat) : Int) := by omega
          rw [e]; have := h.nonneg a (a - 1) (by omega) (by omega); omega
        · rw [h.out a _ (by omega)]
    have hr := (nodeRange_iff h i a b (by omega) hb x1 x2 hin).2 hi
    obtain ⟨a0, b0, info⟩ := node_range h i (by omega) (by omega)
    obtain ⟨rfl, rfl⟩ := nodeRange_unique h i a b a0 b0 hr info.range
    obtain ⟨γ, g1, g2, hγ, _, _, _⟩ := node_children h i a b (by omega) info
    have := split_unique h a b γ s hb g1 g2 has hsb (hex i hin a b info γ hγ) hmin
    subst this
    rw [← core i a b γ hin info has hsb hmin]
    exact (gamma_eq_iff h i a b γ (by omega) info has hsb hmin).1 hγ
  · intro hall i hi a b info γ hγ
    have hb := info.range.2.1
    obtain ⟨s, s1, s2, hs⟩ := true_split h a b info.range.1 hb
    obtain ⟨x1, x2⟩ := outside_lt h i a b info.range
    have hg : IsGroup n dl a s b := by
      refine ⟨s1, s2, hb, ?_, fun h0 => by rw [hs]; exact x1 h0, fun h0 => by rw [hs]; exact x2 h0⟩
      intro j j1 j2 hne
      have := interval_le h a b j j1 j2 hb
      rw [hs]
      rcases lt_or_eq_of_le this with hl | he
      · exact hl
      · exact absurd (split_unique h a b j s hb j1 j2 s1 s2 he.symm hs) hne
    have := hall a s b hg
    rw [← core i a b s hi info s1 s2 hs] at this
    have := (gamma_eq_iff h i a b s (by omega) info s1 s2 hs).2 this
    rw [hγ] at this
    have : γ = s := by exact_mod_cast this
    rw [this]; exact hs

end Artist.LBVH
