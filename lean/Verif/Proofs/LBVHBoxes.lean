import Verif.Proofs.LBVHTopology
import Mathlib.Tactic.Positivity
/-! Helper lemmas: box rounds, monotonicity of the slab test. -/
namespace Artist.LBVH
open Artist Artist.Morton

variable {K : Type} [Field K] [LinearOrder K]

/-- number of unfinished nodes -/
def todo (done : List Bool) : Nat := done.countP (fun b => !b)

/-- Invariant of the rounds. -/
structure BoxInv (m N : Nat) (left right : List Int) (orig : List (Box K)) (boxes : List (Box K)) (done : List Bool) : Prop where
  lenB : boxes.length = N
  lenD : done.length = m
  leaf : ∀ j, m ≤ j → j < N → boxes[j]? = orig[j]?
  inner : ∀ i, i < m → done.getD i false = true →
    childDone m done (left.getD i (-1)) = true ∧ childDone m done (right.getD i (-1)) = true ∧
    boxes.getD i zeroBox = Box.union (boxes.getD (left.getD i (-1)).toNat zeroBox) (boxes.getD (right.getD i (-1)).toNat zeroBox)

theorem getD_range_map {α : Type} (f : Nat → α) (m i : Nat) (d : α) (hi : i < m) :
    ((List.range m).map f).getD i d = f i := by
  rw [List.getD_eq_getElem?_getD, List.getElem?_map, List.getElem?_range hi]; rfl

theorem getD_mapIdx {α : Type} (f : Nat → α → α) (l : List α) (i : Nat) (d : α) (hi : i < l.length) :
    (l.mapIdx f).getD i d = f i (l.getD i d) := by
  rw [List.getD_eq_getElem?_getD, List.getElem?_mapIdx, List.getD_eq_getElem?_getD, List.getElem?_eq_getElem hi]; rfl

theorem childDone_mono {m : Nat} {d1 d2 : List Bool} (h : ∀ i, i < m → d1.getD i false = true → d2.getD i false = true)
    (c : Int) (hc : childDone m d1 c = true) : childDone m d2 c = true := by
  unfold childDone at hc ⊢
  split
  · rw [if_pos ‹_›] at hc
    exact h _ (by omega) hc
  · rfl

theorem todo_lt_aux (f : Nat → Bool) (g : Nat → Bool) : ∀ (l : List Nat),
    (∀ i ∈ l, f i = true → g i = true) → (∃ i ∈ l, f i = false ∧ g i = true) →
    (l.map g).countP (fun b => !b) < (l.map f).countP (fun b => !b) := by
  have weak : ∀ (l : List Nat), (∀ i ∈ l, f i = true → g i = true) →
      (l.map g).countP (fun b => !b) ≤ (l.map f).countP (fun b => !b) := by
    intro l
    induction l with
    | nil => simp
    | cons a l ih =>
      intro h
      have h1 := ih (fun i hi => h i (by simp [hi]))
      have h2 := h a (by simp)
      simp only [List.map_cons, List.countP_cons]
      cases hf : f a <;> cases hg : g a <;> simp_all <;> omega
  intro l
  induction l with
  | nil => simp
  | cons a l ih =>
    intro h hex
    have h2 := h a (by simp)
    have hw := weak l (fun i hi => h i (by simp [hi]))
    simp only [List.map_cons, List.countP_cons]
    obtain ⟨i, hi, hf, hg⟩ := hex
    rcases List.mem_cons.1 hi with rfl | hi
    · simp [-List.countP_map, hf, hg]; omega
    · have h1 := ih (fun i hi => h i (by simp [hi])) ⟨i, hi, hf, hg⟩
      cases hf' : f a <;> cases hg' : g a <;> simp_all <;> omega

theorem list_eq_range_map (done : List Bool) (m : Nat) (h : done.length = m) :
    done = (List.range m).map (fun i => done.getD i false) := by
  apply List.ext_getElem
  · simp [h]
  · intro i h1 h2
    simp [List.getElem?_eq_getElem h1]

/-- The rounds end with no node left that could be finished. -/
theorem boxRounds_spec {m N : Nat} {left right : List Int} {orig : List (Box K)} (hmN : m ≤ N)
    (hcb : ∀ i, i < m → (0 ≤ left.getD i (-1) ∧ (left.getD i (-1)).toNat < N) ∧
      (0 ≤ right.getD i (-1) ∧ (right.getD i (-1)).toNat < N)) :
    ∀ (rounds : Nat) (boxes : List (Box K)) (done : List Bool), BoxInv m N left right orig boxes done →
      todo done ≤ rounds →
      BoxInv m N left right orig (boxRounds m left right rounds boxes done).1 (boxRounds m left right rounds boxes done).2 ∧
      ∀ i, i < m → ready m left right (boxRounds m left right rounds boxes done).2 i = false := by
  have of_all : ∀ done : List Bool, done.length = m → done.all id = true → ∀ i, i < m → ready m left right done i = false := by
    intro done hl hall i hi
    have : done.getD i false = true := by
      rw [List.getD_eq_getElem?_getD, List.getElem?_eq_getElem (by omega)]
      simpa using List.all_eq_true.1 hall _ (List.getElem_mem (by omega))
    unfold ready
    rw [this]; rfl
  intro rounds
  induction rounds with
  | zero =>
    intro boxes done inv htodo
    refine ⟨inv, ?_⟩
    unfold boxRounds
    simp only
    apply of_all done inv.lenD
    rw [List.all_eq_true]
    intro b hb
    have : todo done = 0 := by omega
    unfold todo at this
    rw [List.countP_eq_zero] at this
    have := this b hb
    simpa using this
  | succ rounds ih =>
    intro boxes done inv htodo
    unfold boxRounds
    by_cases hall : done.all id = true
    · rw [if_pos hall]; exact ⟨inv, of_all done inv.lenD hall⟩
    · rw [if_neg hall]
      by_cases hany : (List.range m).any (ready m left right done) = true
      swap
      · rw [if_neg hany]
        refine ⟨inv, fun i hi => ?_⟩
        rw [Bool.eq_false_iff]
        intro h
        exact hany (List.any_eq_true.2 ⟨i, by simpa using hi, h⟩)
      rw [if_pos hany]
      simp only
      set boxes' := boxes.mapIdx (fun i b =>
        if i < m ∧ ready m left right done i = true then
          Box.union (boxes.getD (left.getD i (-1)).toNat zeroBox)
            (boxes.getD (right.getD i (-1)).toNat zeroBox)
        else b) with hb'
      set done' := (List.range m).map (fun i => done.getD i false || ready m left right done i) with hd'
      have gd' : ∀ i, i < m → done'.getD i false = (done.getD i false || ready m left right done i) := by
        intro i hi; rw [hd']; exact getD_range_map _ m i false hi
      have gb' : ∀ i, i < N → boxes'.getD i zeroBox = (if i < m ∧ ready m left right done i = true then
          Box.union (boxes.getD (left.getD i (-1)).toNat zeroBox) (boxes.getD (right.getD i (-1)).toNat zeroBox)
        else boxes.getD i zeroBox) := by
        intro i hi; rw [hb']; exact getD_mapIdx _ boxes i zeroBox (by rw [inv.lenB]; exact hi)
      have mono : ∀ i, i < m → done.getD i false = true → done'.getD i false = true := by
        intro i hi h; rw [gd' i hi, h]; rfl
      -- boxes of finished children do not change
      have keep : ∀ c : Int, 0 ≤ c → c.toNat < N → childDone m done c = true →
          boxes'.getD c.toNat zeroBox = boxes.getD c.toNat zeroBox := by
        intro c hc0 hcN hcd
        rw [gb' _ hcN]
        rw [if_neg]
        rintro ⟨h1, h2⟩
        unfold childDone at hcd
        rw [if_pos ⟨hc0, by omega⟩] at hcd
        unfold ready at h2
        rw [hcd] at h2
        simp at h2
      have inv' : BoxInv m N left right orig boxes' done' := by
        refine ⟨by rw [hb']; simp [inv.lenB], by rw [hd']; simp, ?_, ?_⟩
        · intro j h1 h2
          rw [← inv.leaf j h1 h2]
          rw [hb', List.getElem?_mapIdx]
          rw [List.getElem?_eq_getElem (by rw [inv.lenB]; exact h2)]
          simp only [Option.map_some]
          rw [if_neg (by omega)]
        · intro i hi hdi
          rw [gd' i hi] at hdi
          obtain ⟨⟨hl0, hlN⟩, ⟨hr0, hrN⟩⟩ := hcb i hi
          by_cases hrd : ready m left right done i = true
          · have hrd' := hrd
            unfold ready at hrd'
            simp only [Bool.and_eq_true] at hrd'
            refine ⟨childDone_mono mono _ hrd'.1.2, childDone_mono mono _ hrd'.2, ?_⟩
            rw [gb' i (by omega), if_pos ⟨hi, hrd⟩, keep _ hl0 hlN hrd'.1.2, keep _ hr0 hrN hrd'.2]
          · have hold : done.getD i false = true := by
              simp only [Bool.not_eq_true] at hrd
              rw [hrd] at hdi; simpa using hdi
            obtain ⟨h1, h2, h3⟩ := inv.inner i hi hold
            refine ⟨childDone_mono mono _ h1, childDone_mono mono _ h2, ?_⟩
            rw [gb' i (by omega), if_neg (fun h => hrd h.2), keep _ hl0 hlN h1, keep _ hr0 hrN h2, h3]
      apply ih boxes' done' inv'
      have hlt : todo done' < todo done := by
        unfold todo
        conv_rhs => rw [list_eq_range_map done m inv.lenD]
        rw [hd']
        apply todo_lt_aux
        · intro i _ h; simp only [h, Bool.true_or]
        · obtain ⟨i, hi, hri⟩ := List.any_eq_true.1 hany
          refine ⟨i, hi, ?_, by rw [hri]; simp⟩
          unfold ready at hri
          simp only [Bool.and_eq_true, Bool.not_eq_true'] at hri
          exact hri.1.1
      omega

/-- Then every node of a ranked set is finished. -/
theorem done_of_ranked {m N : Nat} {left right : List Int} {S : Nat → Prop} {ρ : Nat → Nat} (wf : WF left right N) (hmN : m ≤ N)
    (hr : RankedOn left right N S ρ) (done : List Bool) (hready : ∀ i, i < m → ready m left right done i = false) :
    ∀ (t i : Nat), ρ i ≤ t → S i → i < m → done.getD i false = true := by
  have step : ∀ i, S i → i < m → (∀ c, IsChild left right i c → c < m → done.getD c false = true) → done.getD i false = true := by
    intro i hS hi hkids
    have h := hready i hi
    unfold ready at h
    by_contra hnd
    rw [Bool.not_eq_true] at hnd
    have cd : ∀ c : Int, (left.getD i (-1) = c ∨ right.getD i (-1) = c) → childDone m done c = true := by
      intro c hc
      unfold childDone
      split
      · rename_i hcm
        apply hkids c.toNat _ (by omega)
        rcases hc with hc | hc
        · left
          rw [List.getD_eq_getElem?_getD, List.getElem?_eq_getElem (by rw [wf.lenL]; omega)] at hc
          rw [List.getElem?_eq_getElem (by rw [wf.lenL]; omega)]
          simp only [Option.getD_some] at hc
          rw [hc]; simp [hcm.1]
        · right
          rw [List.getD_eq_getElem?_getD, List.getElem?_eq_getElem (by rw [wf.lenR]; omega)] at hc
          rw [List.getElem?_eq_getElem (by rw [wf.lenR]; omega)]
          simp only [Option.getD_some] at hc
          rw [hc]; simp [hcm.1]
      · rfl
    rw [hnd, cd _ (Or.inl rfl), cd _ (Or.inr rfl)] at h
    simp at h
  intro t
  induction t with
  | zero =>
    intro i hρ hS hi
    apply step i hS hi
    intro c hc _
    have := hr.rank i c hS hc
    omega
  | succ t ih =>
    intro i hρ hS hi
    apply step i hS hi
    intro c hc hcm
    exact ih c (by have := hr.rank i c hS hc; omega) (hr.closed i c hS hc) hcm

/-! ### slab test -/

variable [IsStrictOrderedRing K]

theorem slab_lo_mono (mn mx mn' mx' o inv : K) (h : mn ≤ mx) (h1 : mn' ≤ mn) (h2 : mx ≤ mx') :
    min ((mn' - o) * inv) ((mx' - o) * inv) ≤ min ((mn - o) * inv) ((mx - o) * inv) := by
  rcases le_total 0 inv with hi | hi
  · refine le_trans (min_le_left _ _) (le_min ?_ ?_)
    · exact mul_le_mul_of_nonneg_right (by linarith) hi
    · exact mul_le_mul_of_nonneg_right (by linarith) hi
  · refine le_trans (min_le_right _ _) (le_min ?_ ?_)
    · exact mul_le_mul_of_nonpos_right (by linarith) hi
    · exact mul_le_mul_of_nonpos_right (by linarith) hi

theorem slab_hi_mono (mn mx mn' mx' o inv : K) (h : mn ≤ mx) (h1 : mn' ≤ mn) (h2 : mx ≤ mx') :
    max ((mn - o) * inv) ((mx - o) * inv) ≤ max ((mn' - o) * inv) ((mx' - o) * inv) := by
  rcases le_total 0 inv with hi | hi
  · refine le_trans (max_le ?_ ?_) (le_max_right _ _)
    · exact mul_le_mul_of_nonneg_right (by linarith) hi
    · exact mul_le_mul_of_nonneg_right (by linarith) hi
  · refine le_trans (max_le ?_ ?_) (le_max_left _ _)
    · exact mul_le_mul_of_nonpos_right (by linarith) hi
    · exact mul_le_mul_of_nonpos_right (by linarith) hi

/-- `a` lies inside `b` -/
def Box.Inside (a b : Box K) : Prop :=
  b.mn.e ≤ a.mn.e ∧ b.mn.n ≤ a.mn.n ∧ b.mn.u ≤ a.mn.u ∧ a.mx.e ≤ b.mx.e ∧ a.mx.n ≤ b.mx.n ∧ a.mx.u ≤ b.mx.u

theorem rayAabb_mono (o inv : V3 K) (a b : Box K) (hp : a.Proper) (h : a.Inside b) :
    (rayAabb o inv b).1 ≤ (rayAabb o inv a).1 ∧ (rayAabb o inv a).2 ≤ (rayAabb o inv b).2 := by
  obtain ⟨p1, p2, p3⟩ := hp
  obtain ⟨h1, h2, h3, h4, h5, h6⟩ := h
  unfold rayAabb V3.map₂
  simp only [V3.sub_e, V3.sub_n, V3.sub_u]
  exact ⟨max_le_max (max_le_max (slab_lo_mono _ _ _ _ _ _ p1 h1 h4) (slab_lo_mono _ _ _ _ _ _ p2 h2 h5))
      (slab_lo_mono _ _ _ _ _ _ p3 h3 h6),
    min_le_min (min_le_min (slab_hi_mono _ _ _ _ _ _ p1 h1 h4) (slab_hi_mono _ _ _ _ _ _ p2 h2 h5))
      (slab_hi_mono _ _ _ _ _ _ p3 h3 h6)⟩

theorem hits_mono (ray : Ray K) (a b : Box K) (hp : a.Proper) (h : a.Inside b) (hh : hits ray a = true) :
    hits ray b = true := by
  unfold hits at hh ⊢
  simp only [Bool.and_eq_true, decide_eq_true_eq, ge_iff_le] at hh ⊢
  obtain ⟨m1, m2⟩ := rayAabb_mono ray.origin
    ⟨1 / (ray.dir.e + 1 / 10 ^ 12), 1 / (ray.dir.n + 1 / 10 ^ 12), 1 / (ray.dir.u + 1 / 10 ^ 12)⟩ a b hp h
  obtain ⟨⟨g1, g2⟩, g3⟩ := hh
  exact ⟨⟨le_trans m1 (le_trans g1 m2), lt_of_lt_of_le g2 m2⟩, le_trans m1 g3⟩

omit [IsStrictOrderedRing K] in
theorem union_proper (a b : Box K) (ha : a.Proper) : (Box.union a b).Proper := by
  obtain ⟨p1, p2, p3⟩ := ha
  unfold Box.Proper Box.union V3.map₂
  exact ⟨le_trans (min_le_left _ _) (le_trans p1 (le_max_left _ _)),
    le_trans (min_le_left _ _) (le_trans p2 (le_max_left _ _)),
    le_trans (min_le_left _ _) (le_trans p3 (le_max_left _ _))⟩

omit [IsStrictOrderedRing K] in
theorem inside_union_left (a b : Box K) : a.Inside (Box.union a b) := by
  unfold Box.Inside Box.union V3.map₂
  exact ⟨min_le_left _ _, min_le_left _ _, min_le_left _ _, le_max_left _ _, le_max_left _ _, le_max_left _ _⟩

omit [IsStrictOrderedRing K] in
theorem inside_union_right (a b : Box K) : b.Inside (Box.union a b) := by
  unfold Box.Inside Box.union V3.map₂
  exact ⟨min_le_right _ _, min_le_right _ _, min_le_right _ _, le_max_right _ _, le_max_right _ _, le_max_right _ _⟩

omit [IsStrictOrderedRing K] in
theorem cornerBox_proper (c : V3 K × V3 K × V3 K × V3 K) : (cornerBox c).Proper := by
  unfold Box.Proper cornerBox V3.map₂
  refine ⟨?_, ?_, ?_⟩ <;>
    exact le_trans (le_trans (le_trans (min_le_left _ _) (min_le_left _ _)) (min_le_left _ _))
      (le_trans (le_max_left _ _) (le_trans (le_max_left _ _) (le_max_left _ _)))

end Artist.LBVH
