import Verif.Spec.Training
import Mathlib.Tactic.Linarith
import Mathlib.Tactic.Ring
import Mathlib.Data.List.Basic
/-! Helper lemmas for C31 and C32. -/
namespace Artist.Training
open Artist
variable {K : Type} [Field K] [LinearOrder K] [IsStrictOrderedRing K]

theorem stagnant_append (c : Config K) (hw : 0 < c.windowSize) (l m : List K) (t : Nat) (ht : t < l.length) :
    Stagnant c (l ++ m) t ↔ Stagnant c l t := by
  unfold Stagnant
  rw [List.getElem?_append_left ht, List.getElem?_append_left (show t + 1 - c.windowSize < l.length by omega)]

/-- State after the losses `past`. -/
structure Inv (c : Config K) (past : List K) (s : Stopper K) : Prop where
  history : s.history = past.drop (past.length - c.windowSize)
  le : s.counter ≤ past.length
  all : ∀ j, j < s.counter → Stagnant c past (past.length - 1 - j)
  stop : s.counter < past.length → ¬ Stagnant c past (past.length - 1 - s.counter)

theorem push_spec (n : Nat) (past : List K) (x : K) :
    push n (past.drop (past.length - n)) x = (past ++ [x]).drop ((past ++ [x]).length - n) := by
  unfold push
  rcases Nat.lt_or_ge past.length n with h | h
  · have e : past.length - n = 0 := by omega
    rw [e]
    simp
  · rcases Nat.eq_zero_or_pos n with rfl | hn
    · simp
    · rw [List.length_drop, show past.length - (past.length - n) + 1 - n = 1 by omega,
        ← List.drop_append_of_le_length (show past.length - n ≤ past.length by omega), List.drop_drop]
      congr 1
      simp; omega

theorem step_spec (c : Config K) (hw : 0 < c.windowSize) (past : List K) (s : Stopper K) (h : Inv c past s) (l : K) :
    ∃ b s', step c s l = .ok (b, s') ∧ Inv c (past ++ [l]) s' ∧
      (b = true ↔ c.windowSize ≤ past.length + 1 ∧ c.patience ≤ s'.counter) := by
  have hp : push c.windowSize s.history l = (past ++ [l]).drop ((past ++ [l]).length - c.windowSize) := by
    rw [h.history, push_spec]
  have hlen : (push c.windowSize s.history l).length = min (past.length + 1) c.windowSize := by
    rw [hp, List.length_drop]; simp; omega
  have old : ∀ t, t < past.length → (Stagnant c (past ++ [l]) t ↔ Stagnant c past t) :=
    fun t ht => stagnant_append c hw past [l] t ht
  unfold step
  simp only
  by_cases hfull : (push c.windowSize s.history l).length < c.windowSize
  · rw [if_pos hfull]
    have hsmall : past.length + 1 < c.windowSize := by omega
    have hc0 : s.counter = 0 := by
      by_contra hne
      have := (h.all 0 (by omega)).1
      omega
    refine ⟨false, _, rfl, ⟨hp, by simp [hc0], by simp [hc0], ?_⟩, ?_⟩
    · intro _ hst
      have := hst.1
      simp at this
      omega
    · simp; omega
  · rw [if_neg hfull]
    have hbig : c.windowSize ≤ past.length + 1 := by omega
    have hfirst : (push c.windowSize s.history l).head? = (past ++ [l])[past.length + 1 - c.windowSize]? := by
      rw [hp, List.head?_drop]; simp
    have hlast : (push c.windowSize s.history l).getLast? = some l := by
      rw [hp, List.getLast?_drop]
      rw [if_neg (by simp; omega)]; simp
    obtain ⟨a, ha⟩ : ∃ a, (past ++ [l])[past.length + 1 - c.windowSize]? = some a :=
      ⟨_, List.getElem?_eq_getElem (by simp; omega)⟩
    rw [hfirst, ha, hlast]
    simp only
    have himp : (if c.relative = true then (a - l) / max |a| c.eps else a - l) = improvement c a l := rfl
    rw [himp]
    have hstag : Stagnant c (past ++ [l]) past.length ↔ ¬ improvement c a l > c.minImprovement := by
      constructor
      · rintro ⟨_, a', b', h1, h2, h3⟩
        rw [ha] at h1
        obtain rfl := Option.some.inj h1
        obtain rfl : l = b' := by simpa using h2
        exact not_lt.2 h3
      · intro hn
        exact ⟨hbig, a, l, ha, by simp, not_lt.1 hn⟩
    by_cases hi : improvement c a l > c.minImprovement
    · rw [if_pos hi]
      refine ⟨_, _, rfl, ⟨hp, by simp, by simp, ?_⟩, by simp [hbig]⟩
      intro _ hst
      simp only [List.length_append, List.length_singleton, Nat.add_sub_cancel, Nat.sub_zero] at hst
      exact hstag.1 hst hi
    · rw [if_neg hi]
      refine ⟨_, _, rfl, ⟨hp, by simpa using h.le, ?_, ?_⟩, by simp [hbig]⟩
      · intro j hj
        simp only [List.length_append, List.length_singleton, Nat.add_sub_cancel]
        rcases Nat.eq_zero_or_pos j with rfl | hj0
        · exact hstag.2 hi
        · have hle := h.le
          simp only at hj
          rw [old _ (by omega)]
          have := h.all (j - 1) (by omega)
          rwa [show past.length - 1 - (j - 1) = past.length - j by omega] at this
      · intro hlt
        simp only [List.length_append, List.length_singleton, Nat.add_sub_cancel] at hlt ⊢
        rw [old _ (by omega)]
        have := h.stop (by omega)
        rwa [show past.length - 1 - s.counter = past.length - (s.counter + 1) by omega] at this

/-- Meaning of the counter. -/
theorem counter_ge_iff (c : Config K) (past : List K) (s : Stopper K) (h : Inv c past s) (p : Nat) :
    p ≤ s.counter ↔ p ≤ past.length ∧ ∀ j, j < p → Stagnant c past (past.length - 1 - j) := by
  constructor
  · exact fun hp => ⟨hp.trans h.le, fun j hj => h.all j (by omega)⟩
  · rintro ⟨h1, h2⟩
    by_contra hlt
    exact h.stop (by omega) (h2 s.counter (by omega))

theorem flags_spec (c : Config K) (hw : 0 < c.windowSize) (past ls : List K) (s : Stopper K) (h : Inv c past s) :
    ∃ bs s', flags c s ls = .ok (bs, s') ∧ bs.length = ls.length ∧
      ∀ t b, bs[t]? = some b → (b = true ↔ c.windowSize ≤ past.length + t + 1 ∧ c.patience ≤ past.length + t + 1 ∧
        ∀ j, j < c.patience → Stagnant c (past ++ ls) (past.length + t - j)) := by
  induction ls generalizing past s with
  | nil => exact ⟨[], s, rfl, rfl, by simp⟩
  | cons l ls ih =>
    obtain ⟨b, s', hs, hi, hb⟩ := step_spec c hw past s h l
    obtain ⟨bs, s'', hf, hl, hbs⟩ := ih (past ++ [l]) s' hi
    refine ⟨b :: bs, s'', ?_, by simp [hl], ?_⟩
    · simp only [flags, hs, hf]
    · intro t b' ht
      cases t with
      | zero =>
        obtain rfl : b = b' := by simpa using ht
        rw [hb, counter_ge_iff c _ _ hi]
        simp only [List.length_append, List.length_singleton, Nat.add_sub_cancel, Nat.add_zero]
        refine and_congr_right fun _ => and_congr_right fun hpl => forall_congr' fun j => imp_congr_right fun hj => ?_
        rw [show past ++ l :: ls = (past ++ [l]) ++ ls by simp]
        exact (stagnant_append c hw (past ++ [l]) ls _ (by simp; omega)).symm
      | succ t =>
        have := hbs t b' (by simpa using ht)
        rw [this]
        simp only [List.length_append, List.length_singleton, List.append_assoc, List.cons_append, List.nil_append]
        rw [show past.length + 1 + t = past.length + (t + 1) by omega]

theorem inv_fresh (c : Config K) : Inv c [] (fresh : Stopper K) :=
  ⟨by simp [fresh], by simp [fresh], by simp [fresh], by simp [fresh]⟩

/-! ### Train/test split -/

theorem uniform_sum (mask : List Nat) (k : Nat) (hk : 0 < k) (hu : ∀ c ∈ mask, c = 0 ∨ c = k) :
    mask.sum = mask.countP (fun c => decide (c > 0)) * k := by
  induction mask with
  | nil => simp
  | cons c cs ih =>
    have := ih (fun x hx => hu x (List.mem_cons_of_mem _ hx))
    rcases hu c (by simp) with rfl | rfl
    · simpa using this
    · rw [List.sum_cons, List.countP_cons_of_pos (by simpa using hk), this]; ring

theorem range_blocks (h k : Nat) :
    (List.range h).flatMap (fun b => (List.range k).map (fun (o : Nat) => ((b * k : Nat) : Int) + (o : Int))) =
      (List.range (h * k)).map Int.ofNat := by
  induction h with
  | zero => simp
  | succ h ih =>
    rw [List.range_succ, List.flatMap_append, ih, Nat.succ_mul, List.range_add, List.map_append]
    simp

theorem flatMap_append_perm {α β : Type} (l : List α) (f g : α → List β) :
    (l.flatMap f ++ l.flatMap g).Perm (l.flatMap (fun x => f x ++ g x)) := by
  induction l with
  | nil => simp
  | cons x l ih =>
    simp only [List.flatMap_cons, List.append_assoc]
    refine List.Perm.append_left _ (((List.perm_append_comm_assoc _ _ _)).trans ?_)
    exact List.Perm.append_left _ ih

theorem blocks_sorted (k t h : Nat) (f : Nat → Int) (htk : t ≤ k) (hf : ∀ o, o < t → 0 ≤ f o ∧ f o < k)
    (hmono : ∀ o o', o < o' → f o < f o') :
    ((List.range h).flatMap (fun b => (List.range t).map (fun (o : Nat) => ((b * k : Nat) : Int) + f o))).Pairwise (· < ·) := by
  rw [List.pairwise_flatMap]
  constructor
  · intro b _
    rw [List.pairwise_map]
    refine List.pairwise_lt_range.imp fun {o o'} ho => ?_
    have := hmono o o' ho
    omega
  · refine List.pairwise_lt_range.imp fun {b b'} hb => ?_
    simp only [List.mem_map, List.mem_range]
    rintro _ ⟨o, ho, rfl⟩ _ ⟨o', ho', rfl⟩
    have h1 := hf o ho
    have h2 := hf o' ho'
    have : ((b + 1) * k : Nat) ≤ b' * k := Nat.mul_le_mul_right k hb
    rw [Nat.succ_mul] at this
    omega

theorem block_split (b k t : Nat) (ht : t ≤ k) :
    (List.range t).map (fun (o : Nat) => ((b * k : Nat) : Int) + (o : Int)) ++
      (List.range (k - t)).map (fun (o : Nat) => ((b * k : Nat) : Int) + ((t : Int) + (o : Int))) =
      (List.range k).map (fun (o : Nat) => ((b * k : Nat) : Int) + (o : Int)) := by
  obtain ⟨d, rfl⟩ := Nat.exists_eq_add_of_le ht
  rw [Nat.add_sub_cancel_left, List.range_add, List.map_append]
  simp

theorem owners_blocks (k t : Nat) (hk : 0 < k) (f : Nat → Nat) (hf : ∀ o, o < t → f o < k) (mask : List Nat)
    (hu : ∀ c ∈ mask, c = 0 ∨ c = k) (i : Nat) :
    (List.range (mask.countP (fun c => decide (c > 0)))).flatMap
        (fun b => (List.range t).map (fun o => (ownersFrom i mask).getD (b * k + f o) 0)) =
      ownersFrom i (mask.map (fun c => if c = k then t else 0)) := by
  induction mask generalizing i with
  | nil => simp [ownersFrom]
  | cons c cs ih =>
    have ih' := ih (fun x hx => hu x (List.mem_cons_of_mem _ hx)) (i + 1)
    rcases hu c (by simp) with rfl | rfl
    · rw [List.countP_cons_of_neg (by simp)]
      simp only [List.map_cons, if_neg (Nat.ne_of_lt hk), ownersFrom, List.replicate_zero, List.nil_append]
      exact ih'
    · rw [List.countP_cons_of_pos (by simpa using hk), List.range_succ_eq_map, List.flatMap_cons, List.flatMap_map]
      simp only [List.map_cons, if_true, ownersFrom]
      rw [← ih']
      congr 1
      · rw [List.eq_replicate_iff]
        refine ⟨by simp, fun x hx => ?_⟩
        obtain ⟨o, ho, rfl⟩ := List.mem_map.1 hx
        have := hf o (List.mem_range.1 ho)
        rw [Nat.zero_mul, Nat.zero_add, List.getD_eq_getElem?_getD, List.getElem?_append_left (by simpa using this),
          List.getElem?_replicate, if_pos this]
        rfl
      · refine List.flatMap_congr fun b _ => List.map_congr_left fun o _ => ?_
        rw [List.getD_eq_getElem?_getD, List.getD_eq_getElem?_getD, List.getElem?_append_right (by simp; nlinarith)]
        congr 2
        simp [Nat.succ_mul]; omega

end Artist.Training
