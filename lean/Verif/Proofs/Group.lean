import Verif.Spec.Group
import Mathlib.Algebra.Order.BigOperators.Group.List
import Mathlib.Tactic.FinCases
/-! Helper lemmas for C28. -/
namespace Artist.Group
open Artist

theorem repeatInterleave_eq_expand {R : Type} (rows : List R) (mask : List Nat) :
    repeatInterleave rows mask = expand rows mask := by
  induction rows generalizing mask with
  | nil => simp [repeatInterleave, expand]
  | cons x xs ih =>
    cases mask with
    | nil => simp [repeatInterleave, expand]
    | cons c cs => simpa [repeatInterleave, expand] using ih cs

/-- A mask that tensors with `n` rows accept. -/
def Accepted (n : Nat) (m : List Int) : Prop := (∀ c ∈ m, 0 ≤ c) ∧ (m.length = n ∨ m.length = 1)

/-- The mask after broadcasting. -/
def counts (n : Nat) (m : List Int) : List Nat :=
  (if m.length = 1 then List.replicate n (m.headD 0) else m).map Int.toNat

theorem repeatRows_ok {R : Type} {n : Nat} {rows : List R} {m : List Int} (h : Accepted n m) (hr : rows.length = n) :
    repeatRows rows m = .ok (expand rows (counts n m)) := by
  unfold repeatRows
  have h1 : (m.any fun c => decide (c < 0)) = false := by
    simp only [List.any_eq_false, decide_eq_true_eq, not_lt]
    exact h.1
  rw [h1]
  simp only [Bool.false_eq_true, if_false]
  rw [if_pos, repeatInterleave_eq_expand, counts, hr]
  split
  · simp
  · rename_i hm; rcases h.2 with h2 | h2
    · omega
    · exact absurd h2 hm

theorem repeatRows_error {R : Type} {n : Nat} {rows : List R} {m : List Int} (h : ¬ Accepted n m) (hr : rows.length = n) :
    repeatRows rows m = .error .runtimeError := by
  unfold repeatRows
  split
  · rfl
  · rename_i h1
    simp only [Bool.not_eq_true, List.any_eq_false, decide_eq_true_eq, not_lt] at h1
    have h2 : ¬ (m.length = n ∨ m.length = 1) := fun h2 => h ⟨h1, h2⟩
    rw [not_or] at h2
    simp only [if_neg h2.2]
    rw [if_neg (show ¬ m.length = rows.length by omega)]

theorem assignAll_ok {R : Type} {n : Nat} {m : List Int} (h : Accepted n m) (qs : List Quantity) (s : State R)
    (hr : ∀ q ∈ qs, (s.full q).length = n) :
    assignAll m qs s = (.ok (), { s with active := fun q => if q ∈ qs then expand (s.full q) (counts n m) else s.active q }) := by
  induction qs generalizing s with
  | nil => simp [assignAll]
  | cons q qs ih =>
    rw [assignAll, repeatRows_ok h (hr q (by simp))]
    simp only
    refine (ih { s with active := fun q' => if q' = q then expand (s.full q) (counts n m) else s.active q' }
      (fun q' hq' => hr q' (by simp [hq']))).trans ?_
    congr 2
    funext q'
    by_cases h1 : q' ∈ qs <;> by_cases h2 : q' = q <;> simp [h1, h2]

/-- The mask meant by the argument. -/
def theMask (n : Nat) (m? : Option (List Int)) : List Int := m?.getD (List.replicate n 1)

theorem activate_error {R : Type} {n k : Nat} {s : State R} (hs : Rows n k s.full) (m? : Option (List Int))
    (h : ¬ Accepted n (theMask s.numberOfHeliostats m?)) :
    activate s m? = (.error .runtimeError,
      { s with numberOfActive := (theMask s.numberOfHeliostats m?).sum, mask := theMask s.numberOfHeliostats m? }) := by
  have e := repeatRows_error h (show (s.full .surfacePoints).length = n by simpa using hs .surfacePoints)
  unfold theMask at *
  simp only [activate, assignAll, e]

theorem activate_ok {R : Type} {n k : Nat} {s : State R} (hs : Rows n k s.full) (m? : Option (List Int))
    (h : Accepted n (theMask s.numberOfHeliostats m?))
    (ho : (s.active .optimizable).length > 0 → k = n) :
    activate s m? = (.ok (),
      { s with
        active := fun q =>
          if q = .optimizable ∧ (s.active .optimizable).length = 0 then []
          else expand (s.full q) (counts n (theMask s.numberOfHeliostats m?))
        numberOfActive := (theMask s.numberOfHeliostats m?).sum
        kinematicsNumberOfActive := (theMask s.numberOfHeliostats m?).sum
        mask := theMask s.numberOfHeliostats m? }) := by
  unfold theMask at *
  unfold activate
  simp only
  rw [assignAll_ok h _ _ (by intro q hq; have := hs q; fin_cases hq <;> simpa using this)]
  simp only
  rw [assignAll_ok h _ _ (by intro q hq; have := hs q; fin_cases hq <;> simpa using this)]
  simp only [List.mem_cons, reduceCtorEq, List.not_mem_nil, or_self, if_false]
  by_cases hp : (s.active .optimizable).length > 0
  · rw [if_pos hp, assignAll_ok h _ _ (by
      intro q hq; have := hs q; fin_cases hq; simp only [if_true] at this; simpa [ho hp] using this)]
    congr 2
    funext q
    have h0 : ¬ (s.active .optimizable).length = 0 := by omega
    cases q <;> simp [h0]
  · rw [if_neg hp]
    congr 2
    funext q
    have h0 : (s.active .optimizable).length = 0 := by omega
    cases q <;> simp [h0]

theorem counts_natMask {n : Nat} {mask : List Nat} (hl : mask.length = n) : counts n (mask.map Int.ofNat) = mask := by
  have hid : (mask.map Int.ofNat).map Int.toNat = mask := by
    rw [List.map_map]
    conv_rhs => rw [← List.map_id mask]
    rfl
  unfold counts
  split
  · rename_i h1
    obtain ⟨c, rfl⟩ : ∃ c, mask = [c] := List.length_eq_one_iff.1 (by simpa using h1)
    simp at hl
    subst hl
    simp
  · exact hid

theorem accepted_natMask {n : Nat} {mask : List Nat} (hl : mask.length = n) : Accepted n (mask.map Int.ofNat) :=
  ⟨by intro c hc; obtain ⟨d, _, rfl⟩ := List.mem_map.1 hc; exact Int.natCast_nonneg d, .inl (by simpa using hl)⟩

/-- Facts that hold after every ordinary history: shapes of the full tensors, and the previously active optimizable
parameters are non-empty only if there are any. -/
structure Inv {R : Type} (n k : Nat) (s : State R) : Prop where
  rows : Rows n k s.full
  num : s.numberOfHeliostats = n
  opt : (s.active .optimizable).length > 0 → k = n

theorem inv_step {R : Type} {n k : Nat} {s : State R} (h : Inv n k s) (op : Op R)
    (ho : ∀ f, op = .update f → Rows n k f) : Inv n k (step s op) := by
  cases op with
  | update f => exact ⟨ho f rfl, h.num, h.opt⟩
  | activate m =>
    by_cases ha : Accepted n (theMask s.numberOfHeliostats m)
    · simp only [step, activate_ok h.rows m ha h.opt]
      refine ⟨h.rows, h.num, ?_⟩
      intro hp
      by_cases h0 : (s.active .optimizable).length = 0
      · simp [h0] at hp
      · exact h.opt (by omega)
    · simp only [step, activate_error h.rows m ha]
      exact ⟨h.rows, h.num, h.opt⟩

theorem inv_run {R : Type} {n k : Nat} (ops : List (Op R)) {s : State R} (h : Inv n k s) (ho : Ordinary n k ops) :
    Inv n k (run s ops) := by
  induction ops generalizing s with
  | nil => exact h
  | cons op ops ih =>
    exact ih (inv_step h op (fun f hf => ho f (by simp [hf]))) (fun f hf => ho f (by simp [hf]))

theorem inv_init {R : Type} (junk : R → R) {n k : Nat} (hk : k = 0 ∨ k = n) {full : Tensors R} (hf : Rows n k full) :
    Inv n k (init junk n full) := by
  refine ⟨hf, rfl, ?_⟩
  have := hf .optimizable
  simp only [if_true] at this
  simp only [init, List.length_map, this]
  omega

theorem expand_ne_nil {R : Type} {rows : List R} {mask : List Nat} (hl : mask.length = rows.length)
    (h : ∃ c ∈ mask, c ≠ 0) : expand rows mask ≠ [] := by
  induction rows generalizing mask with
  | nil => obtain ⟨c, hc, _⟩ := h; simp at hl; subst hl; simp at hc
  | cons x xs ih =>
    cases mask with
    | nil => obtain ⟨c, hc, _⟩ := h; simp at hc
    | cons c cs =>
      by_cases hc : c = 0
      · have : expand xs cs ≠ [] := by
          refine ih (by simpa using hl) ?_
          obtain ⟨d, hd, hd0⟩ := h
          rcases List.mem_cons.1 hd with rfl | hd
          · exact absurd hc hd0
          · exact ⟨d, hd, hd0⟩
        simpa [expand, hc] using this
      · intro h0
        simp [expand, hc] at h0

theorem opt_alive_step {R : Type} {n : Nat} {s : State R} (h : Inv n n s) (hn : 0 < n) (op : Op R)
    (hz : ∀ m, op = .activate (some m) → ∃ c ∈ m, c ≠ 0) (ha : (s.active .optimizable).length > 0) :
    ((step s op).active .optimizable).length > 0 := by
  cases op with
  | update f => exact ha
  | activate m =>
    by_cases hc : Accepted n (theMask s.numberOfHeliostats m)
    · simp only [step, activate_ok h.rows m hc h.opt]
      rw [if_neg (by omega), gt_iff_lt, List.length_pos_iff]
      have hnz : ∃ c ∈ theMask s.numberOfHeliostats m, c ≠ 0 := by
        cases m with
        | none => exact ⟨1, by simp [theMask, h.num]; omega, by decide⟩
        | some m => exact hz m rfl
      have hr : (s.full .optimizable).length = n := by simpa using h.rows .optimizable
      generalize theMask s.numberOfHeliostats m = mm at hc hnz
      obtain ⟨c, hcm, hc0⟩ := hnz
      have hpos := hc.1 c hcm
      refine expand_ne_nil ?_ ⟨c.toNat, ?_, by omega⟩
      · rw [hr]; unfold counts; split
        · simp
        · rename_i h1; rcases hc.2 with h2 | h2
          · simpa using h2
          · exact absurd h2 h1
      · unfold counts; split
        · rename_i h1
          obtain ⟨d, rfl⟩ := List.length_eq_one_iff.1 h1
          simp only [List.mem_singleton] at hcm
          subst hcm
          simp only [List.headD_cons, List.map_replicate, List.mem_replicate]
          exact ⟨by omega, trivial⟩
        · exact List.mem_map.2 ⟨c, hcm, rfl⟩
    · simp only [step, activate_error h.rows m hc]
      exact ha

end Artist.Group
