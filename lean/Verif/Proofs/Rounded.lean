import Verif.Proofs.Binary
import Verif.Proofs.Splat
/-! Helper lemmas for C103. -/
namespace Artist.Rounded
open Artist Splat

section
variable {rnd : ℝ → ℝ} {u η : ℝ} {M : Nat} (A : Arithmetic rnd u η M)
include A

theorem Arithmetic.zero : rnd 0 = 0 := by have := A.nat 0 (Nat.zero_le _); simpa using this

theorem Arithmetic.nonneg {x : ℝ} (hx : 0 ≤ x) : 0 ≤ rnd x := by
  have := A.mono hx; rwa [A.zero] at this

theorem Arithmetic.sub {x y : ℝ} (hx : rnd x = x) (hy : rnd y = y) : |rnd (x - y) - (x - y)| ≤ u * |x - y| := by
  have := A.add x (-y) hx (by rw [A.odd, hy])
  simpa [sub_eq_add_neg] using this

/-- relative error of a difference that is not negative -/
theorem Arithmetic.sub_bounds {x y : ℝ} (hx : rnd x = x) (hy : rnd y = y) (h : y ≤ x) :
    (1 - u) * (x - y) ≤ rnd (x - y) ∧ rnd (x - y) ≤ (1 + u) * (x - y) := by
  have := A.sub hx hy
  rw [abs_le, abs_of_nonneg (sub_nonneg.2 h)] at this
  constructor <;> linarith [this.1, this.2]

/-- summing up numbers that are not negative -/
theorem fold_bounds (vs : List ℝ) : ∀ s, rnd s = s → 0 ≤ s → (∀ v ∈ vs, rnd v = v ∧ 0 ≤ v) → ∀ k, (vs.filter (· ≠ 0)).length ≤ k →
    rnd (vs.foldl (fun s v => rnd (s + v)) s) = vs.foldl (fun s v => rnd (s + v)) s ∧
    (1 - u) ^ k * (s + vs.sum) ≤ vs.foldl (fun s v => rnd (s + v)) s ∧ vs.foldl (fun s v => rnd (s + v)) s ≤ (1 + u) ^ k * (s + vs.sum) := by
  have hu := A.u_nonneg
  have hu1 : 0 ≤ 1 - u := by linarith [A.u_lt_one]
  induction vs with
  | nil =>
    intro s hs h0 _ k _
    refine ⟨hs, ?_, ?_⟩
    · simp only [List.sum_nil, add_zero, List.foldl_nil]
      exact mul_le_of_le_one_left h0 (pow_le_one₀ hu1 (by linarith))
    · simp only [List.sum_nil, add_zero, List.foldl_nil]
      exact le_mul_of_one_le_left h0 (one_le_pow₀ (by linarith))
  | cons v vs ih =>
    intro s hs h0 hv k hk
    have hvv := hv v (by simp)
    have hsum : 0 ≤ vs.sum := List.sum_nonneg fun w hw => (hv w (by simp [hw])).2
    simp only [List.foldl_cons, List.sum_cons]
    by_cases hz : v = 0
    · subst hz
      rw [add_zero, hs]
      rw [zero_add]
      exact ih s hs h0 (fun w hw => hv w (by simp [hw])) k (by simpa using hk)
    · have hk' : (vs.filter (· ≠ 0)).length + 1 ≤ k := by
        rw [List.filter_cons_of_pos (by simp [hz])] at hk
        exact hk
      obtain ⟨j, rfl⟩ : ∃ j, k = j + 1 := ⟨k - 1, by omega⟩
      have hadd := A.add s v hs hvv.1
      rw [abs_of_nonneg (add_nonneg h0 hvv.2), abs_le] at hadd
      have hnn : 0 ≤ rnd (s + v) := A.nonneg (add_nonneg h0 hvv.2)
      obtain ⟨h1, h2, h3⟩ := ih (rnd (s + v)) (A.idem _) hnn (fun w hw => hv w (by simp [hw])) j (by omega)
      refine ⟨h1, ?_, ?_⟩
      · refine le_trans ?_ h2
        rw [pow_succ, mul_assoc]
        refine mul_le_mul_of_nonneg_left ?_ (pow_nonneg hu1 _)
        nlinarith [hadd.1]
      · refine le_trans h3 ?_
        rw [pow_succ, mul_assoc]
        refine mul_le_mul_of_nonneg_left ?_ (by positivity)
        nlinarith [hadd.2]

/-- scatter-add, pixel by pixel -/
theorem scatterAdd_spec : ∀ (entries : List (Int × ℝ)) (bm : List ℝ), (∀ p ∈ entries, 0 ≤ p.1 ∧ p.1 < bm.length) →
    ∃ out, scatterAdd rnd bm entries = .ok out ∧ out.length = bm.length ∧
      ∀ j : Nat, j < bm.length → out.getD j 0 = ((entries.filter fun p => decide (p.1 = (j : Int))).map (·.2)).foldl (fun s v => rnd (s + v)) (bm.getD j 0) := by
  intro entries
  induction entries with
  | nil => intro bm _; exact ⟨bm, rfl, rfl, by simp⟩
  | cons p rest ih =>
    intro bm h
    obtain ⟨i, v⟩ := p
    have hi := h (i, v) List.mem_cons_self
    obtain ⟨out, h1, h2, h3⟩ := ih (bm.set i.toNat (rnd (bm.getD i.toNat 0 + v))) (by
      intro q hq; rw [List.length_set]; exact h q (List.mem_cons_of_mem _ hq))
    refine ⟨out, ?_, by rw [h2, List.length_set], ?_⟩
    · unfold scatterAdd; rw [if_pos hi, h1]
    · intro j hj
      rw [h3 j (by rw [List.length_set]; exact hj)]
      simp only at hi
      by_cases hij : i = (j : Int)
      · subst hij
        rw [List.filter_cons_of_pos (by simp)]
        simp [List.getD_eq_getElem?_getD, hj]
      · rw [List.filter_cons_of_neg (by simpa using hij)]
        have : i.toNat ≠ j := by omega
        simp [List.getD_eq_getElem?_getD, List.getElem?_set, this]

/-- the value of one share: `a`, `b` are rounded differences with exact values `a₀`, `b₀` -/
theorem share_bounds {a b a₀ b₀ w : ℝ} (ha0 : 0 ≤ a₀) (hb0 : 0 ≤ b₀) (hw : 0 ≤ w)
    (ha : (1 - u) * a₀ ≤ a ∧ a ≤ (1 + u) * a₀) (hb : (1 - u) * b₀ ≤ b ∧ b ≤ (1 + u) * b₀) :
    (0 ≤ share rnd a b w ∧ rnd (share rnd a b w) = share rnd a b w) ∧ (a₀ * b₀ * w = 0 → share rnd a b w = 0) ∧
    (1 - u) ^ 4 * (a₀ * b₀ * w) - η * ((1 + u) * w + 1) ≤ share rnd a b w ∧
    share rnd a b w ≤ (1 + u) ^ 4 * (a₀ * b₀ * w) + η * ((1 + u) * w + 1) := by
  have hu := A.u_nonneg
  have hη := A.η_nonneg
  have hu1 : 0 ≤ 1 - u := by linarith [A.u_lt_one]
  have hann : 0 ≤ a := le_trans (mul_nonneg hu1 ha0) ha.1
  have hbnn : 0 ≤ b := le_trans (mul_nonneg hu1 hb0) hb.1
  have habnn : 0 ≤ a * b := mul_nonneg hann hbnn
  have hq : 0 ≤ rnd (a * b) := A.nonneg habnn
  have hqw : 0 ≤ rnd (a * b) * w := mul_nonneg hq hw
  unfold share
  refine ⟨⟨A.nonneg hqw, A.idem _⟩, ?_, ?_, ?_⟩
  · intro h
    have : rnd (a * b) * w = 0 := by
      rcases mul_eq_zero.1 h with h | h
      · rcases mul_eq_zero.1 h with h | h
        · have : a = 0 := le_antisymm (by have := ha.2; rw [h, mul_zero] at this; exact this) hann
          rw [this, zero_mul, A.zero, zero_mul]
        · have : b = 0 := le_antisymm (by have := hb.2; rw [h, mul_zero] at this; exact this) hbnn
          rw [this, mul_zero, A.zero, zero_mul]
      · rw [h, mul_zero]
    rw [this, A.zero]
  · have h1 := A.close (a * b)
    have h2 := A.close (rnd (a * b) * w)
    rw [abs_of_nonneg habnn, abs_le] at h1
    rw [abs_of_nonneg hqw, abs_le] at h2
    have hlo : (1 - u) ^ 2 * (a₀ * b₀) ≤ a * b := by
      have := mul_le_mul ha.1 hb.1 (mul_nonneg hu1 hb0) hann
      nlinarith
    have hp : (1 - u) * (a * b) - η ≤ rnd (a * b) := by linarith [h1.1]
    have hpw : ((1 - u) * (a * b) - η) * w ≤ rnd (a * b) * w := mul_le_mul_of_nonneg_right hp hw
    have h3 : (1 - u) * (((1 - u) * (a * b) - η) * w) ≤ (1 - u) * (rnd (a * b) * w) := mul_le_mul_of_nonneg_left hpw hu1
    have h4 : (1 - u) ^ 2 * w * ((1 - u) ^ 2 * (a₀ * b₀)) ≤ (1 - u) ^ 2 * w * (a * b) := mul_le_mul_of_nonneg_left hlo (by positivity)
    have h5 : (1 - u) * (η * w) ≤ (1 + u) * (η * w) := mul_le_mul_of_nonneg_right (by linarith) (by positivity)
    nlinarith [h2.1]
  · have h1 := A.close (a * b)
    have h2 := A.close (rnd (a * b) * w)
    rw [abs_of_nonneg habnn, abs_le] at h1
    rw [abs_of_nonneg hqw, abs_le] at h2
    have hhi : a * b ≤ (1 + u) ^ 2 * (a₀ * b₀) := by
      have := mul_le_mul ha.2 hb.2 hbnn (mul_nonneg (by linarith) ha0)
      nlinarith
    have hp : rnd (a * b) ≤ (1 + u) * (a * b) + η := by linarith [h1.2]
    have hpw : rnd (a * b) * w ≤ ((1 + u) * (a * b) + η) * w := mul_le_mul_of_nonneg_right hp hw
    have h3 : (1 + u) * (rnd (a * b) * w) ≤ (1 + u) * (((1 + u) * (a * b) + η) * w) := mul_le_mul_of_nonneg_left hpw (by linarith)
    have h4 : (1 + u) ^ 2 * w * (a * b) ≤ (1 + u) ^ 2 * w * ((1 + u) ^ 2 * (a₀ * b₀)) := mul_le_mul_of_nonneg_left hhi (by positivity)
    nlinarith [h2.2]

theorem low_bounds {x : ℝ} (hx : rnd x = x) (h0 : 0 ≤ x) (hM : long x + 1 ≤ M) : (1 - u) * Splat.low x ≤ low rnd x ∧ low rnd x ≤ (1 + u) * Splat.low x := by
  have hl : long x = ⌊x⌋ := by unfold long; rw [if_pos h0]
  have hf0 : 0 ≤ ⌊x⌋ := Int.floor_nonneg.2 h0
  have hk : rnd ((long x + 1 : Int) : ℝ) = ((long x + 1 : Int) : ℝ) := by
    obtain ⟨n, hn⟩ : ∃ n : Nat, long x + 1 = n := ⟨(long x + 1).toNat, by omega⟩
    rw [hn]
    have := A.nat n (by omega)
    exact_mod_cast this
  have h := A.sub_bounds hk hx (by rw [hl]; push_cast; exact (Int.lt_floor_add_one x).le)
  unfold low Splat.low
  rw [hk]
  push_cast at h ⊢
  exact h

theorem high_bounds {x : ℝ} (hx : rnd x = x) (h0 : 0 ≤ x) (hM : long x ≤ M) : (1 - u) * Splat.high x ≤ high rnd x ∧ high rnd x ≤ (1 + u) * Splat.high x := by
  have hl : long x = ⌊x⌋ := by unfold long; rw [if_pos h0]
  have hf0 : 0 ≤ ⌊x⌋ := Int.floor_nonneg.2 h0
  have hk : rnd ((long x : Int) : ℝ) = ((long x : Int) : ℝ) := by
    obtain ⟨n, hn⟩ : ∃ n : Nat, long x = n := ⟨(long x).toNat, by omega⟩
    rw [hn]
    have := A.nat n (by omega)
    exact_mod_cast this
  have h := A.sub_bounds hx hk (by rw [hl]; exact Int.floor_le x)
  unfold high Splat.high
  rw [hk]
  exact h

/-- a rounded entry against the exact one -/
def Near (rnd : ℝ → ℝ) (u η w : ℝ) (e e₀ : Int × ℝ) : Prop :=
  e.1 = e₀.1 ∧ (0 ≤ e.2 ∧ rnd e.2 = e.2) ∧ 0 ≤ e₀.2 ∧ (e₀.2 = 0 → e.2 = 0) ∧
    (1 - u) ^ 4 * e₀.2 - η * ((1 + u) * w + 1) ≤ e.2 ∧ e.2 ≤ (1 + u) ^ 4 * e₀.2 + η * ((1 + u) * w + 1)

theorem entries_near (W H : Nat) (hW : W ≤ M) (hH : H ≤ M) (h : Hit ℝ) (hf : IsFloat rnd h) :
    Near rnd u η h.w (entry1 rnd W H h) (Splat.entry1 W H h) ∧ Near rnd u η h.w (entry2 rnd W H h) (Splat.entry2 W H h) ∧
    Near rnd u η h.w (entry3 rnd W H h) (Splat.entry3 W H h) ∧ Near rnd u η h.w (entry4 rnd W H h) (Splat.entry4 W H h) := by
  obtain ⟨⟨fe, fu, fw⟩, he, hu0, hw⟩ := hf
  have hz : Near rnd u η h.w ((0 : Int), (0 : ℝ)) (0, 0) := by
    refine ⟨rfl, ⟨le_refl _, A.zero⟩, le_refl _, fun _ => rfl, ?_, ?_⟩ <;>
    · have := A.u_nonneg
      have := A.η_nonneg
      have : 0 ≤ η * ((1 + u) * h.w + 1) := by positivity
      simp only [mul_zero]; linarith
  unfold entry1 entry2 entry3 entry4 Splat.entry1 Splat.entry2 Splat.entry3 Splat.entry4
  by_cases ht : onTarget W H h = true
  · simp only [ht, if_true]
    obtain ⟨h1, h2, h3, h4⟩ := (onTarget_iff W H h).1 ht
    have le := low_bounds A fe he (by omega)
    have lu := low_bounds A fu hu0 (by omega)
    have ge := high_bounds A fe he (by omega)
    have gu := high_bounds A fu hu0 (by omega)
    have le0 : 0 ≤ Splat.low h.e := by
      have hl : long h.e = ⌊h.e⌋ := by unfold long; rw [if_pos he]
      unfold Splat.low; rw [hl]; linarith [Int.lt_floor_add_one h.e]
    have lu0 : 0 ≤ Splat.low h.u := by
      have hl : long h.u = ⌊h.u⌋ := by unfold long; rw [if_pos hu0]
      unfold Splat.low; rw [hl]; linarith [Int.lt_floor_add_one h.u]
    have ge0 : 0 ≤ Splat.high h.e := by
      have hl : long h.e = ⌊h.e⌋ := by unfold long; rw [if_pos he]
      unfold Splat.high; rw [hl]; linarith [Int.floor_le h.e]
    have gu0 : 0 ≤ Splat.high h.u := by
      have hl : long h.u = ⌊h.u⌋ := by unfold long; rw [if_pos hu0]
      unfold Splat.high; rw [hl]; linarith [Int.floor_le h.u]
    have s1 := share_bounds A le0 gu0 hw le gu
    have s2 := share_bounds A ge0 gu0 hw ge gu
    have s3 := share_bounds A ge0 lu0 hw ge lu
    have s4 := share_bounds A le0 lu0 hw le lu
    exact ⟨⟨rfl, s1.1, by positivity, s1.2⟩, ⟨rfl, s2.1, by positivity, s2.2⟩, ⟨rfl, s3.1, by positivity, s3.2⟩, ⟨rfl, s4.1, by positivity, s4.2⟩⟩
  · simp only [ht]
    exact ⟨hz, hz, hz, hz⟩

/-- what one pass adds to pixel `j` -/
def added (j : Nat) (f : Hit ℝ → Int × ℝ) (l : List (Hit ℝ)) : List ℝ := ((l.map f).filter fun p => decide (p.1 = (j : Int))).map (·.2)

open scoped Classical in
theorem added_bounds (j : Nat) (f f₀ : Hit ℝ → Int × ℝ) (l : List (Hit ℝ)) (hn : ∀ h ∈ l, Near rnd u η h.w (f h) (f₀ h)) :
    (∀ v ∈ added j f l, rnd v = v ∧ 0 ≤ v) ∧
    ((added j f l).filter (· ≠ 0)).length ≤ (l.map fun h => if (f₀ h).1 = (j : Int) then (if (f₀ h).2 = 0 then 0 else 1) else 0).sum ∧
    (1 - u) ^ 4 * (l.map fun h => if (f₀ h).1 = (j : Int) then (f₀ h).2 else 0).sum -
      (l.map fun h => if (f₀ h).1 = (j : Int) then (if (f₀ h).2 = 0 then 0 else η * ((1 + u) * h.w + 1)) else 0).sum ≤ (added j f l).sum ∧
    (added j f l).sum ≤ (1 + u) ^ 4 * (l.map fun h => if (f₀ h).1 = (j : Int) then (f₀ h).2 else 0).sum +
      (l.map fun h => if (f₀ h).1 = (j : Int) then (if (f₀ h).2 = 0 then 0 else η * ((1 + u) * h.w + 1)) else 0).sum := by
  induction l with
  | nil => simp [added]
  | cons h t ih =>
    obtain ⟨i1, i2, i3, i4⟩ := ih fun h hh => hn h (by simp [hh])
    obtain ⟨n1, n2, n3, n4, n5, n6⟩ := hn h (by simp)
    simp only [List.map_cons, List.sum_cons]
    by_cases hj : (f₀ h).1 = (j : Int)
    · have ha : added j f (h :: t) = (f h).2 :: added j f t := by
        unfold added
        rw [List.map_cons, List.filter_cons_of_pos (by rw [n1]; simpa using hj), List.map_cons]
      rw [ha]
      simp only [if_pos hj]
      refine ⟨?_, ?_, ?_, ?_⟩
      · intro v hv
        rcases List.mem_cons.1 hv with rfl | hv
        · exact ⟨n2.2, n2.1⟩
        · exact i1 v hv
      · by_cases hz : (f₀ h).2 = 0
        · rw [if_pos hz, List.filter_cons_of_neg (by simp [n4 hz])]
          omega
        · rw [if_neg hz]
          have : (((f h).2 :: added j f t).filter (· ≠ 0)).length ≤ 1 + ((added j f t).filter (· ≠ 0)).length := by
            rw [List.filter_cons]; split_ifs <;> simp <;> omega
          omega
      · rw [List.sum_cons]
        by_cases hz : (f₀ h).2 = 0
        · rw [if_pos hz, hz, n4 hz]; linarith
        · rw [if_neg hz]; linarith
      · rw [List.sum_cons]
        by_cases hz : (f₀ h).2 = 0
        · rw [if_pos hz, hz, n4 hz]; linarith
        · rw [if_neg hz]; linarith
    · have ha : added j f (h :: t) = added j f t := by
        unfold added
        rw [List.map_cons, List.filter_cons_of_neg (by rw [n1]; simpa using hj)]
      rw [ha]
      simp only [if_neg hj, zero_add]
      exact ⟨i1, i2, i3, i4⟩
omit A in
open scoped Classical in
/-- at most one of the four entries of a ray belongs to a pixel, and its value is the ray's part -/
theorem entries_part {B : Type} [AddCommMonoid B] (W H r c : Nat) (hc : c < W) (h : Hit ℝ) (he : 0 ≤ h.e) (hu : 0 ≤ h.u) (φ : ℝ → B) (hφ : φ 0 = 0) :
    (if (Splat.entry1 W H h).1 = ((r * W + c : Nat) : Int) then φ (Splat.entry1 W H h).2 else 0) +
    (if (Splat.entry2 W H h).1 = ((r * W + c : Nat) : Int) then φ (Splat.entry2 W H h).2 else 0) +
    (if (Splat.entry3 W H h).1 = ((r * W + c : Nat) : Int) then φ (Splat.entry3 W H h).2 else 0) +
    (if (Splat.entry4 W H h).1 = ((r * W + c : Nat) : Int) then φ (Splat.entry4 W H h).2 else 0) = φ (part W H r c h) := by
  unfold part
  by_cases hin : Inside W H h
  · have ht := (onTarget_inside W H h he hu).2 hin
    have htt := (onTarget_iff W H h).1 ht
    rw [if_pos hin, tent_eq h.e he, tent_eq h.u hu]
    unfold Splat.entry1 Splat.entry2 Splat.entry3 Splat.entry4
    simp only [ht, if_true]
    push_cast
    have f1 := flat_inj (W : Int) (long h.e) c (long h.u + 1) r (by omega) (by omega) (by omega) (by omega)
    have f2 := flat_inj (W : Int) (long h.e + 1) c (long h.u + 1) r (by omega) (by omega) (by omega) (by omega)
    have f3 := flat_inj (W : Int) (long h.e + 1) c (long h.u) r (by omega) (by omega) (by omega) (by omega)
    have f4 := flat_inj (W : Int) (long h.e) c (long h.u) r (by omega) (by omega) (by omega) (by omega)
    rw [← add_assoc] at f2 f3
    simp only [f1, f2, f3, f4]
    split_ifs <;> first | (exfalso; omega) | (simp only [add_zero, zero_add, mul_zero, zero_mul, hφ]; try (congr 1; ring))
  · have ht : onTarget W H h = false := by
      rw [Bool.eq_false_iff]; intro hh; exact hin ((onTarget_inside W H h he hu).1 hh)
    rw [if_neg hin]
    unfold Splat.entry1 Splat.entry2 Splat.entry3 Splat.entry4
    simp [ht, hφ]

omit A in
theorem entry_index (W H : Nat) (h : Hit ℝ) : (entry1 rnd W H h).1 = (Splat.entry1 W H h).1 ∧ (entry2 rnd W H h).1 = (Splat.entry2 W H h).1 ∧
    (entry3 rnd W H h).1 = (Splat.entry3 W H h).1 ∧ (entry4 rnd W H h).1 = (Splat.entry4 W H h).1 := by
  unfold entry1 entry2 entry3 entry4 Splat.entry1 Splat.entry2 Splat.entry3 Splat.entry4
  refine ⟨?_, ?_, ?_, ?_⟩ <;> split_ifs <;> rfl

/-- the image, pixel by pixel -/
theorem splat_spec (order : Fin 4 → List (Hit ℝ) → List (Hit ℝ)) (W H : Nat) (hW : 0 < W) (hH : 0 < H) (rays : List (Hit ℝ)) :
    ∃ img, splat rnd order W H rays = .ok img ∧ img.length = H ∧ (∀ row ∈ img, row.length = W) ∧
      ∀ r c, r < H → c < W → pixel img (H - 1 - r) c =
        (added (r * W + c) (entry1 rnd W H) (order 0 rays) ++ added (r * W + c) (entry2 rnd W H) (order 1 rays) ++
          added (r * W + c) (entry3 rnd W H) (order 2 rays) ++ added (r * W + c) (entry4 rnd W H) (order 3 rays)).foldl (fun s v => rnd (s + v)) 0 := by
  have mk : ∀ (bm : List ℝ) (f : Hit ℝ → Int × ℝ) (l : List (Hit ℝ)), bm.length = H * W →
      (∀ h, (f h).1 ∈ [(Splat.entry1 W H h).1, (Splat.entry2 W H h).1, (Splat.entry3 W H h).1, (Splat.entry4 W H h).1]) →
      ∃ out, scatterAdd rnd bm (l.map f) = .ok out ∧ out.length = H * W ∧
      ∀ j : Nat, j < H * W → out.getD j 0 = (added j f l).foldl (fun s v => rnd (s + v)) (bm.getD j 0) := by
    intro bm f l hl hf
    obtain ⟨out, h1, h2, h3⟩ := scatterAdd_spec A (l.map f) bm (by
      intro p hp
      rw [List.mem_map] at hp
      obtain ⟨h, hh, rfl⟩ := hp
      rw [hl]
      have hb := entry_bounds (K := ℝ) W H hW hH h
      have := hf h
      simp only [List.mem_cons, List.not_mem_nil, or_false] at this hb
      rcases this with e | e | e | e <;> rw [e]
      · exact hb _ (Or.inl rfl)
      · exact hb _ (Or.inr (Or.inl rfl))
      · exact hb _ (Or.inr (Or.inr (Or.inl rfl)))
      · exact hb _ (Or.inr (Or.inr (Or.inr rfl))))
    exact ⟨out, h1, by rw [h2, hl], fun j hj => h3 j (by omega)⟩
  obtain ⟨b1, e1, l1, g1⟩ := mk (List.replicate (H * W) 0) (entry1 rnd W H) (order 0 rays) (by simp) (fun h => by simp [(entry_index W H h).1])
  obtain ⟨b2, e2, l2, g2⟩ := mk b1 (entry2 rnd W H) (order 1 rays) l1 (fun h => by simp [(entry_index W H h).2.1])
  obtain ⟨b3, e3, l3, g3⟩ := mk b2 (entry3 rnd W H) (order 2 rays) l2 (fun h => by simp [(entry_index W H h).2.2.1])
  obtain ⟨b4, e4, l4, g4⟩ := mk b3 (entry4 rnd W H) (order 3 rays) l3 (fun h => by simp [(entry_index W H h).2.2.2])
  refine ⟨(rows W H b4).reverse, ?_, by simp [rows], ?_, ?_⟩
  · unfold splat; rw [e1]; simp only [bind, Except.bind]; rw [e2]; simp only; rw [e3]; simp only; rw [e4]; rfl
  · intro row hrow
    rw [List.mem_reverse] at hrow
    unfold rows at hrow
    rw [List.mem_map] at hrow
    obtain ⟨r, hr, rfl⟩ := hrow
    rw [List.mem_range] at hr
    rw [List.length_take, List.length_drop, l4]
    have : (r + 1) * W ≤ H * W := Nat.mul_le_mul_right _ hr
    have e : (r + 1) * W = r * W + W := by ring
    omega
  · intro r c hr hc
    have hlen : (rows W H b4).length = H := by simp [rows]
    have hrev : (rows W H b4).reverse.getD (H - 1 - r) [] = (rows W H b4).getD r [] := by
      rw [List.getD_eq_getElem?_getD, List.getD_eq_getElem?_getD, List.getElem?_reverse (by omega), hlen]
      congr 2; omega
    unfold pixel
    rw [hrev, getD_rows W H b4 l4 r c hr hc]
    have hj : r * W + c < H * W := by
      have : (r + 1) * W ≤ H * W := Nat.mul_le_mul_right _ hr
      have e : (r + 1) * W = r * W + W := by ring
      omega
    have h0 : (List.replicate (H * W) (0 : ℝ)).getD (r * W + c) 0 = 0 := by
      simp [List.getD_eq_getElem?_getD, List.getElem?_replicate, hj]
    rw [g4 _ hj, g3 _ hj, g2 _ hj, g1 _ hj, h0, List.foldl_append, List.foldl_append, List.foldl_append]
end

end Artist.Rounded
