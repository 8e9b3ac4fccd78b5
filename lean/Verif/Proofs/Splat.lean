import Verif.Spec.Splat
import Mathlib.Tactic.Linarith
import Mathlib.Tactic.Ring
import Mathlib.Algebra.BigOperators.Group.Finset.Basic
import Mathlib.Algebra.BigOperators.Ring.Finset
import Mathlib.Data.Rat.Floor
/-! Helper lemmas for C08. -/
namespace Artist.Splat
open Artist Finset
section
variable {K : Type} [Field K] [LinearOrder K] [IsStrictOrderedRing K] [FloorRing K]

theorem scatterAdd_spec : ∀ (entries : List (Int × K)) (bm : List K), (∀ p ∈ entries, 0 ≤ p.1 ∧ p.1 < bm.length) →
    ∃ out, scatterAdd bm entries = .ok out ∧ out.length = bm.length ∧
      ∀ j : Nat, j < bm.length → out.getD j 0 = bm.getD j 0 + (entries.map (fun p => if p.1 = (j : Int) then p.2 else 0)).sum := by
  intro entries
  induction entries with
  | nil => intro bm _; exact ⟨bm, rfl, rfl, by simp⟩
  | cons p rest ih =>
    intro bm h
    obtain ⟨i, v⟩ := p
    have hi := h (i, v) List.mem_cons_self
    obtain ⟨out, h1, h2, h3⟩ := ih (bm.set i.toNat (bm.getD i.toNat 0 + v)) (by
      intro q hq; rw [List.length_set]; exact h q (List.mem_cons_of_mem _ hq))
    refine ⟨out, ?_, by rw [h2, List.length_set], ?_⟩
    · unfold scatterAdd; rw [if_pos hi, h1]
    · intro j hj
      rw [h3 j (by rw [List.length_set]; exact hj), List.map_cons, List.sum_cons, ← add_assoc]
      congr 1
      simp only at hi ⊢
      by_cases hij : i = (j : Int)
      · subst hij
        simp [List.getD_eq_getElem?_getD, hj]
      · rw [if_neg hij, add_zero]
        have : i.toNat ≠ j := by omega
        simp [List.getD_eq_getElem?_getD, List.getElem?_set, this]

theorem getD_rows (W H : Nat) (flat : List K) (hl : flat.length = H * W) (r c : Nat) (hr : r < H) (hc : c < W) :
    ((rows W H flat).getD r []).getD c 0 = flat.getD (r * W + c) 0 := by
  unfold rows
  simp [List.getD_eq_getElem?_getD, hr, List.getElem?_take, hc, List.getElem?_drop]

theorem onTarget_iff (W H : Nat) (h : Hit K) : onTarget W H h = true ↔
    0 ≤ long h.e ∧ long h.e + 1 < W ∧ 0 ≤ long h.u ∧ long h.u + 1 < H := by
  unfold onTarget; simp only [Bool.and_eq_true, decide_eq_true_eq]; tauto

theorem entry_bounds (W H : Nat) (hW : 0 < W) (hH : 0 < H) (h : Hit K) :
    ∀ p ∈ [entry1 W H h, entry2 W H h, entry3 W H h, entry4 W H h], 0 ≤ p.1 ∧ p.1 < ((H * W : Nat) : Int) := by
  intro p hp
  simp only [List.mem_cons, List.not_mem_nil, or_false] at hp
  unfold entry1 entry2 entry3 entry4 at hp
  have hpos : (0 : Int) < ((H * W : Nat) : Int) := by exact_mod_cast Nat.mul_pos hH hW
  by_cases ht : onTarget W H h = true
  · rw [onTarget_iff] at ht
    obtain ⟨h1, h2, h3, h4⟩ := ht
    have ht' : onTarget W H h = true := (onTarget_iff W H h).2 ⟨h1, h2, h3, h4⟩
    simp only [ht', if_true] at hp
    have hw0 : (0 : Int) ≤ W := by omega
    have k1 : 0 ≤ long h.u * W := mul_nonneg h3 hw0
    have k2 : (long h.u + 1) * (W : Int) + W ≤ H * W := by
      have : (long h.u + 1 + 1) * (W : Int) ≤ H * W := mul_le_mul_of_nonneg_right (by omega) hw0
      linarith
    have k3 : (long h.u + 1) * (W : Int) = long h.u * W + W := by ring
    push_cast
    rcases hp with rfl | rfl | rfl | rfl <;> simp only <;> constructor <;> omega
  · simp only [ht] at hp
    rcases hp with rfl | rfl | rfl | rfl <;> exact ⟨le_refl _, hpos⟩

/-- what one ray adds to the pixel in (unflipped) row `r`, column `c` -/
def contrib (W H : Nat) (r c : Nat) (h : Hit K) : K :=
  (if (entry1 W H h).1 = ((r * W + c : Nat) : Int) then (entry1 W H h).2 else 0) +
  (if (entry2 W H h).1 = ((r * W + c : Nat) : Int) then (entry2 W H h).2 else 0) +
  (if (entry3 W H h).1 = ((r * W + c : Nat) : Int) then (entry3 W H h).2 else 0) +
  (if (entry4 W H h).1 = ((r * W + c : Nat) : Int) then (entry4 W H h).2 else 0)

theorem splat_spec (W H : Nat) (hW : 0 < W) (hH : 0 < H) (rays : List (Hit K)) :
    ∃ img, splat W H rays = .ok img ∧ img.length = H ∧ (∀ row ∈ img, row.length = W) ∧
      ∀ r c, r < H → c < W → pixel img (H - 1 - r) c = (rays.map (contrib W H r c)).sum := by
  have hb : ∀ h ∈ rays, ∀ p ∈ [entry1 W H h, entry2 W H h, entry3 W H h, entry4 W H h], 0 ≤ p.1 ∧ p.1 < ((H * W : Nat) : Int) :=
    fun h _ => entry_bounds W H hW hH h
  have mk : ∀ (bm : List K) (f : Hit K → Int × K), bm.length = H * W →
      (∀ h, f h ∈ [entry1 W H h, entry2 W H h, entry3 W H h, entry4 W H h]) →
      ∃ out, scatterAdd bm (rays.map f) = .ok out ∧ out.length = H * W ∧
      ∀ j : Nat, j < H * W → out.getD j 0 = bm.getD j 0 + (rays.map (fun h => if (f h).1 = (j : Int) then (f h).2 else 0)).sum := by
    intro bm f hl hf
    obtain ⟨out, h1, h2, h3⟩ := scatterAdd_spec (rays.map f) bm (by
      intro p hp
      rw [List.mem_map] at hp
      obtain ⟨h, hh, rfl⟩ := hp
      rw [hl]; exact hb h hh _ (hf h))
    refine ⟨out, h1, by rw [h2, hl], ?_⟩
    intro j hj
    rw [h3 j (by omega), List.map_map]; rfl
  obtain ⟨b1, e1, l1, g1⟩ := mk (List.replicate (H * W) 0) (entry1 W H) (by simp) (by simp)
  obtain ⟨b2, e2, l2, g2⟩ := mk b1 (entry2 W H) l1 (by simp)
  obtain ⟨b3, e3, l3, g3⟩ := mk b2 (entry3 W H) l2 (by simp)
  obtain ⟨b4, e4, l4, g4⟩ := mk b3 (entry4 W H) l3 (by simp)
  refine ⟨(rows W H b4).reverse, ?_, by simp [rows], ?_, ?_⟩
  · unfold splat; rw [e1]; simp only [bind, Except.bind]; rw [e2]; simp only; rw [e3]; simp only; rw [e4]; rfl
  · intro row hrow
    rw [List.mem_reverse] at hrow
    unfold rows at hrow
    rw [List.mem_map] at hrow
    obtain ⟨r, hr, rfl⟩ := hrow
    rw [List.mem_range] at hr
    rw [List.length_take, List.length_drop, l4]
    have : (r + 1) * W ≤ H * W := Nat.mul_le_mul_right _ hr
    have e : (r + 1) * W = r * W + W := by ring
    omega
  · intro r c hr hc
    have hlen : (rows W H b4).length = H := by simp [rows]
    have hrev : (rows W H b4).reverse.getD (H - 1 - r) [] = (rows W H b4).getD r [] := by
      rw [List.getD_eq_getElem?_getD, List.getD_eq_getElem?_getD, List.getElem?_reverse (by omega), hlen]
      congr 2; omega
    unfold pixel
    rw [hrev, getD_rows W H b4 l4 r c hr hc]
    have hj : r * W + c < H * W := by
      have : (r + 1) * W ≤ H * W := Nat.mul_le_mul_right _ hr
      have e : (r + 1) * W = r * W + W := by ring
      omega
    rw [g4 _ hj, g3 _ hj, g2 _ hj, g1 _ hj]
    have h0 : (List.replicate (H * W) (0 : K)).getD (r * W + c) 0 = 0 := by
      simp [List.getD_eq_getElem?_getD, List.getElem?_replicate, hj]
    rw [h0, zero_add]
    have hs : ∀ (l : List (Hit K)) (f1 f2 f3 f4 : Hit K → K), (l.map f1).sum + (l.map f2).sum + (l.map f3).sum + (l.map f4).sum
        = (l.map (fun h => f1 h + f2 h + f3 h + f4 h)).sum := by
      intro l f1 f2 f3 f4
      induction l with
      | nil => simp
      | cons a l ih => simp only [List.map_cons, List.sum_cons]; rw [← ih]; ring
    rw [hs]; rfl

/-- column and row of a flat index are determined by the index -/
theorem flat_inj (W : Int) (a b c d : Int) (ha : 0 ≤ a) (haW : a < W) (hb : 0 ≤ b) (hbW : b < W) :
    c * W + a = d * W + b ↔ c = d ∧ a = b := by
  constructor
  · intro h
    have : c = d := by
      rcases lt_trichotomy c d with hl | he | hg
      · have : (c + 1) * W ≤ d * W := mul_le_mul_of_nonneg_right (by omega) (by omega)
        nlinarith
      · exact he
      · have : (d + 1) * W ≤ c * W := mul_le_mul_of_nonneg_right (by omega) (by omega)
        nlinarith
    subst this
    exact ⟨rfl, by omega⟩
  · rintro ⟨rfl, rfl⟩; rfl

/-- the weight of a coordinate `x` for grid position `c` -/
theorem tent_eq (x : K) (hx : 0 ≤ x) (c : Nat) :
    tent (x - (c : K)) = (if long x = (c : Int) then low x else 0) + (if long x + 1 = (c : Int) then high x else 0) := by
  have hl : long x = ⌊x⌋ := by unfold long; rw [if_pos hx]
  have h1 : ((⌊x⌋ : Int) : K) ≤ x := Int.floor_le x
  have h2 : x < ((⌊x⌋ : Int) : K) + 1 := Int.lt_floor_add_one x
  unfold low high
  rw [hl]
  unfold tent
  rcases lt_trichotomy (⌊x⌋ : Int) (c : Int) with h | h | h
  · rcases lt_or_eq_of_le (show ⌊x⌋ + 1 ≤ (c : Int) by omega) with h' | h'
    · rw [if_neg (by omega), if_neg (by omega)]
      have hc : ((⌊x⌋ : Int) : K) + 2 ≤ (c : K) := by
        have : ⌊x⌋ + 2 ≤ (c : Int) := by omega
        have := (Int.cast_le (R := K)).2 this
        push_cast at this; exact this
      rw [abs_of_nonpos (by linarith), max_eq_left (by linarith)]; ring
    · rw [if_neg (by omega), if_pos h']
      have hc : ((⌊x⌋ : Int) : K) + 1 = (c : K) := by
        have := congrArg (Int.cast (R := K)) h'
        push_cast at this; exact this
      rw [← hc, abs_of_nonpos (by linarith), max_eq_right (by linarith)]; ring
  · rw [if_pos h, if_neg (by omega)]
    have hc : ((⌊x⌋ : Int) : K) = (c : K) := by
      have := congrArg (Int.cast (R := K)) h
      push_cast at this; exact this
    rw [← hc, abs_of_nonneg (by linarith), max_eq_right (by linarith)]; ring
  · rw [if_neg (by omega), if_neg (by omega)]
    have hc : (c : K) + 1 ≤ ((⌊x⌋ : Int) : K) := by
      have : (c : Int) + 1 ≤ ⌊x⌋ := by omega
      have := (Int.cast_le (R := K)).2 this
      push_cast at this; exact this
    rw [abs_of_nonneg (by linarith), max_eq_left (by linarith)]; ring

theorem onTarget_inside (W H : Nat) (h : Hit K) (he : 0 ≤ h.e) (hu : 0 ≤ h.u) : onTarget W H h = true ↔ Inside W H h := by
  rw [onTarget_iff]
  have key : ∀ (x : K) (n : Nat), 0 ≤ x → (0 ≤ long x ∧ long x + 1 < (n : Int) ↔ 0 ≤ x ∧ x < (n : K) - 1) := by
    intro x n hx
    have hl : long x = ⌊x⌋ := by unfold long; rw [if_pos hx]
    rw [hl]
    have h0 : 0 ≤ ⌊x⌋ := Int.floor_nonneg.2 hx
    have : ⌊x⌋ + 1 < (n : Int) ↔ x < (n : K) - 1 := by
      rw [show (⌊x⌋ + 1 < (n : Int)) ↔ ⌊x⌋ < (n : Int) - 1 by omega, Int.floor_lt]
      push_cast; rfl
    rw [this]; simp [hx, h0]
  unfold Inside
  rw [← key h.e W he, ← key h.u H hu]
  tauto

theorem contrib_eq (W H : Nat) (r c : Nat) (hc : c < W) (h : Hit K) (he : 0 ≤ h.e) (hu : 0 ≤ h.u) :
    contrib W H r c h = if Inside W H h then h.w * (tent (h.e - (c : K)) * tent (h.u - (r : K))) else 0 := by
  by_cases hin : Inside W H h
  · have ht := (onTarget_inside W H h he hu).2 hin
    have htt := (onTarget_iff W H h).1 ht
    rw [if_pos hin, tent_eq h.e he, tent_eq h.u hu]
    unfold contrib entry1 entry2 entry3 entry4
    simp only [ht, if_true]
    push_cast
    have f1 := flat_inj (W : Int) (long h.e) c (long h.u + 1) r (by omega) (by omega) (by omega) (by omega)
    have f2 := flat_inj (W : Int) (long h.e + 1) c (long h.u + 1) r (by omega) (by omega) (by omega) (by omega)
    have f3 := flat_inj (W : Int) (long h.e + 1) c (long h.u) r (by omega) (by omega) (by omega) (by omega)
    have f4 := flat_inj (W : Int) (long h.e) c (long h.u) r (by omega) (by omega) (by omega) (by omega)
    rw [← add_assoc] at f2 f3
    simp only [f1, f2, f3, f4]
    split_ifs <;> first | (exfalso; omega) | ring
  · have ht : onTarget W H h = false := by
      rw [Bool.eq_false_iff]; intro hh; exact hin ((onTarget_inside W H h he hu).1 hh)
    rw [if_neg hin]
    unfold contrib entry1 entry2 entry3 entry4
    simp [ht]

/-- weights of one coordinate sum to one and have the coordinate as their mean -/
theorem tent_sum (W : Nat) (x : K) (h0 : 0 ≤ x) (h1 : x < (W : K) - 1) (f : Nat → K) :
    ∑ c ∈ range W, tent (x - (c : K)) * f c = low x * f (long x).toNat + high x * f ((long x).toNat + 1) := by
  have hl : long x = ⌊x⌋ := by unfold long; rw [if_pos h0]
  have hf0 : 0 ≤ ⌊x⌋ := Int.floor_nonneg.2 h0
  have hf1 : ⌊x⌋ + 1 < (W : Int) := by
    rw [show (⌊x⌋ + 1 < (W : Int)) ↔ ⌊x⌋ < (W : Int) - 1 by omega, Int.floor_lt]; push_cast; exact h1
  obtain ⟨k, hk⟩ : ∃ k : Nat, long x = (k : Int) := ⟨(long x).toNat, by omega⟩
  have hkW : k + 1 < W := by omega
  rw [hk]
  have hterm : ∀ c ∈ range W, tent (x - (c : K)) * f c = (if k = c then low x * f c else 0) + (if k + 1 = c then high x * f c else 0) := by
    intro c _
    rw [tent_eq x h0 c, hk]
    have a1 : ((k : Int) = (c : Int)) ↔ k = c := by omega
    have a2 : ((k : Int) + 1 = (c : Int)) ↔ k + 1 = c := by omega
    simp only [a1, a2]
    rw [add_mul, ite_mul, ite_mul, zero_mul]
  rw [Finset.sum_congr rfl hterm, Finset.sum_add_distrib, Finset.sum_ite_eq, Finset.sum_ite_eq,
    if_pos (by simp; omega), if_pos (by simp; omega)]
  simp

theorem tent_nonneg (z : K) : 0 ≤ tent z := le_max_left _ _

end
end Artist.Splat
