import Verif.Proofs.Rounded
import Verif.Props.Splat
import Mathlib.Analysis.Complex.ExponentialBounds
/-! C103: images in floating point arithmetic. -/
namespace Artist.Rounded
open Artist Splat

/-- float32 has the laws used below: relative error `2^-24`, absolute error `2^-150` of tiny results, whole numbers up to `2^24`. -/
theorem C103_float32 : Arithmetic float32 (1 / 2 ^ 24) (2 ^ (-149 : Int) / 2) (2 ^ 24) := binary_arithmetic 24 (-149) (by norm_num) (by norm_num)

section
variable {rnd : ℝ → ℝ} {u η : ℝ} {M : Nat}

theorem sum_four {B : Type} [AddCommMonoid B] (l : List (Hit ℝ)) (f1 f2 f3 f4 : Hit ℝ → B) :
    (l.map f1).sum + (l.map f2).sum + (l.map f3).sum + (l.map f4).sum = (l.map (fun h => f1 h + f2 h + f3 h + f4 h)).sum := by
  induction l with
  | nil => simp
  | cons a l ih =>
    simp only [List.map_cons, List.sum_cons]
    rw [← ih]
    abel

/-- C103: splatting in floating point arithmetic never fails and the image has the requested shape.  Whatever the order of the additions, no pixel is
negative, and a pixel that `k` rays reach differs from the exact sum of their parts by at most `k + 4` relative roundings (and the absolute error
of tiny products). -/
theorem C103_pixel (A : Arithmetic rnd u η M) (order : Fin 4 → List (Hit ℝ) → List (Hit ℝ)) (W H : Nat) (hW : 0 < W) (hH : 0 < H) (hWM : W ≤ M) (hHM : H ≤ M)
    (rays : List (Hit ℝ)) (horder : ∀ i, (order i rays).Perm rays) (hrays : ∀ h ∈ rays, IsFloat rnd h) :
    ∃ img, splat rnd order W H rays = .ok img ∧ img.length = H ∧ (∀ row ∈ img, row.length = W) ∧ ∀ r c, r < H → c < W →
      0 ≤ pixel img (H - 1 - r) c ∧
      (1 - u) ^ ((reaching W H r c rays).length + 4) * (rays.map (part W H r c)).sum - ((reaching W H r c rays).map fun h => η * ((1 + u) * h.w + 1)).sum
        ≤ pixel img (H - 1 - r) c ∧
      pixel img (H - 1 - r) c ≤ (1 + u) ^ ((reaching W H r c rays).length + 4) * (rays.map (part W H r c)).sum +
        (1 + u) ^ (reaching W H r c rays).length * ((reaching W H r c rays).map fun h => η * ((1 + u) * h.w + 1)).sum := by
  classical
  obtain ⟨img, h1, h2, h3, h4⟩ := splat_spec A order W H hW hH rays
  refine ⟨img, h1, h2, h3, fun r c hr hc => ?_⟩
  rw [h4 r c hr hc]
  have hu := A.u_nonneg
  have hη := A.η_nonneg
  have hu1 : 0 ≤ 1 - u := by linarith [A.u_lt_one]
  set j := r * W + c
  have near : ∀ i, ∀ h ∈ order i rays, IsFloat rnd h := fun i h hh => hrays h ((horder i).mem_iff.1 hh)
  have p1 := added_bounds A j (entry1 rnd W H) (Splat.entry1 W H) (order 0 rays) fun h hh => (entries_near A W H hWM hHM h (near 0 h hh)).1
  have p2 := added_bounds A j (entry2 rnd W H) (Splat.entry2 W H) (order 1 rays) fun h hh => (entries_near A W H hWM hHM h (near 1 h hh)).2.1
  have p3 := added_bounds A j (entry3 rnd W H) (Splat.entry3 W H) (order 2 rays) fun h hh => (entries_near A W H hWM hHM h (near 2 h hh)).2.2.1
  have p4 := added_bounds A j (entry4 rnd W H) (Splat.entry4 W H) (order 3 rays) fun h hh => (entries_near A W H hWM hHM h (near 3 h hh)).2.2.2
  -- the sums do not depend on the order
  rw [((horder 0).map _).sum_eq, ((horder 0).map _).sum_eq, ((horder 0).map _).sum_eq] at p1
  rw [((horder 1).map _).sum_eq, ((horder 1).map _).sum_eq, ((horder 1).map _).sum_eq] at p2
  rw [((horder 2).map _).sum_eq, ((horder 2).map _).sum_eq, ((horder 2).map _).sum_eq] at p3
  rw [((horder 3).map _).sum_eq, ((horder 3).map _).sum_eq, ((horder 3).map _).sum_eq] at p4
  have hpos : ∀ h ∈ rays, 0 ≤ h.e ∧ 0 ≤ h.u := fun h hh => ⟨(hrays h hh).2.1, (hrays h hh).2.2.1⟩
  have part_nonneg : ∀ h ∈ rays, 0 ≤ part W H r c h := by
    intro h hh
    unfold part
    split_ifs
    · exact mul_nonneg (hrays h hh).2.2.2 (mul_nonneg (tent_nonneg _) (tent_nonneg _))
    · exact le_refl _
  have sE : (rays.map (fun h => if (Splat.entry1 W H h).1 = (j : Int) then (Splat.entry1 W H h).2 else 0)).sum +
      (rays.map (fun h => if (Splat.entry2 W H h).1 = (j : Int) then (Splat.entry2 W H h).2 else 0)).sum +
      (rays.map (fun h => if (Splat.entry3 W H h).1 = (j : Int) then (Splat.entry3 W H h).2 else 0)).sum +
      (rays.map (fun h => if (Splat.entry4 W H h).1 = (j : Int) then (Splat.entry4 W H h).2 else 0)).sum = (rays.map (part W H r c)).sum := by
    rw [sum_four]
    congr 1
    exact List.map_congr_left fun h hh => entries_part W H r c hc h (hpos h hh).1 (hpos h hh).2 id rfl
  have sK : (rays.map (fun h => if (Splat.entry1 W H h).1 = (j : Int) then (if (Splat.entry1 W H h).2 = 0 then 0 else 1) else 0)).sum +
      (rays.map (fun h => if (Splat.entry2 W H h).1 = (j : Int) then (if (Splat.entry2 W H h).2 = 0 then 0 else 1) else 0)).sum +
      (rays.map (fun h => if (Splat.entry3 W H h).1 = (j : Int) then (if (Splat.entry3 W H h).2 = 0 then 0 else 1) else 0)).sum +
      (rays.map (fun h => if (Splat.entry4 W H h).1 = (j : Int) then (if (Splat.entry4 W H h).2 = 0 then 0 else 1) else 0)).sum = (reaching W H r c rays).length := by
    rw [sum_four]
    have e : (rays.map fun h => if part W H r c h = 0 then 0 else 1).sum = (reaching W H r c rays).length := by
      unfold reaching
      clear * -
      induction rays with
      | nil => rfl
      | cons h t ih =>
        rw [List.map_cons, List.sum_cons, ih, List.filter_cons]
        by_cases hz : part W H r c h = 0
        · simp [hz]
        · simp [hz]; omega
    rw [← e]
    congr 1
    exact List.map_congr_left fun h hh => entries_part W H r c hc h (hpos h hh).1 (hpos h hh).2 (fun v => if v = 0 then (0 : Nat) else 1) (by simp)
  have sZ : (rays.map (fun h => if (Splat.entry1 W H h).1 = (j : Int) then (if (Splat.entry1 W H h).2 = 0 then 0 else η * ((1 + u) * h.w + 1)) else 0)).sum +
      (rays.map (fun h => if (Splat.entry2 W H h).1 = (j : Int) then (if (Splat.entry2 W H h).2 = 0 then 0 else η * ((1 + u) * h.w + 1)) else 0)).sum +
      (rays.map (fun h => if (Splat.entry3 W H h).1 = (j : Int) then (if (Splat.entry3 W H h).2 = 0 then 0 else η * ((1 + u) * h.w + 1)) else 0)).sum +
      (rays.map (fun h => if (Splat.entry4 W H h).1 = (j : Int) then (if (Splat.entry4 W H h).2 = 0 then 0 else η * ((1 + u) * h.w + 1)) else 0)).sum =
      ((reaching W H r c rays).map fun h => η * ((1 + u) * h.w + 1)).sum := by
    rw [sum_four]
    have e : (rays.map fun h => if part W H r c h = 0 then 0 else η * ((1 + u) * h.w + 1)).sum = ((reaching W H r c rays).map fun h => η * ((1 + u) * h.w + 1)).sum := by
      unfold reaching
      clear * -
      induction rays with
      | nil => rfl
      | cons h t ih =>
        rw [List.map_cons, List.sum_cons, ih, List.filter_cons]
        by_cases hz : part W H r c h = 0
        · simp [hz]
        · simp [hz]
    rw [← e]
    congr 1
    exact List.map_congr_left fun h hh => entries_part W H r c hc h (hpos h hh).1 (hpos h hh).2 (fun v => if v = 0 then (0 : ℝ) else η * ((1 + u) * h.w + 1)) (by simp)
  set L := added j (entry1 rnd W H) (order 0 rays) ++ added j (entry2 rnd W H) (order 1 rays) ++ added j (entry3 rnd W H) (order 2 rays) ++
    added j (entry4 rnd W H) (order 3 rays) with hL
  have hLmem : ∀ v ∈ L, rnd v = v ∧ 0 ≤ v := by
    intro v hv
    rw [hL] at hv
    simp only [List.mem_append] at hv
    rcases hv with ((hv | hv) | hv) | hv
    · exact p1.1 v hv
    · exact p2.1 v hv
    · exact p3.1 v hv
    · exact p4.1 v hv
  have hLk : (L.filter (· ≠ 0)).length ≤ (reaching W H r c rays).length := by
    rw [hL, List.filter_append, List.filter_append, List.filter_append, List.length_append, List.length_append, List.length_append, ← sK]
    have := p1.2.1
    have := p2.2.1
    have := p3.2.1
    have := p4.2.1
    omega
  have hsum : L.sum = (added j (entry1 rnd W H) (order 0 rays)).sum + (added j (entry2 rnd W H) (order 1 rays)).sum +
      (added j (entry3 rnd W H) (order 2 rays)).sum + (added j (entry4 rnd W H) (order 3 rays)).sum := by
    rw [hL]; simp only [List.sum_append]
  have hlo : (1 - u) ^ 4 * (rays.map (part W H r c)).sum - ((reaching W H r c rays).map fun h => η * ((1 + u) * h.w + 1)).sum ≤ L.sum := by
    rw [hsum, ← sE, ← sZ]
    linarith [p1.2.2.1, p2.2.2.1, p3.2.2.1, p4.2.2.1]
  have hhi : L.sum ≤ (1 + u) ^ 4 * (rays.map (part W H r c)).sum + ((reaching W H r c rays).map fun h => η * ((1 + u) * h.w + 1)).sum := by
    rw [hsum, ← sE, ← sZ]
    linarith [p1.2.2.2, p2.2.2.2, p3.2.2.2, p4.2.2.2]
  have hZ : 0 ≤ ((reaching W H r c rays).map fun h => η * ((1 + u) * h.w + 1)).sum := by
    apply List.sum_nonneg
    intro x hx
    rw [List.mem_map] at hx
    obtain ⟨h, hh, rfl⟩ := hx
    have hw := (hrays h (List.mem_of_mem_filter hh)).2.2.2
    positivity
  obtain ⟨_, f2, f3⟩ := fold_bounds A L 0 A.zero le_rfl hLmem _ hLk
  rw [zero_add] at f2 f3
  have hL0 : 0 ≤ L.sum := List.sum_nonneg fun v hv => (hLmem v hv).2
  refine ⟨le_trans (mul_nonneg (pow_nonneg hu1 _) hL0) f2, le_trans ?_ f2, f3.trans ?_⟩
  · have ha := mul_le_mul_of_nonneg_left hlo (pow_nonneg hu1 (reaching W H r c rays).length)
    have hb : (1 - u) ^ (reaching W H r c rays).length * ((reaching W H r c rays).map fun h => η * ((1 + u) * h.w + 1)).sum ≤
        ((reaching W H r c rays).map fun h => η * ((1 + u) * h.w + 1)).sum :=
      mul_le_of_le_one_left hZ (pow_le_one₀ hu1 (by linarith))
    rw [mul_sub, ← mul_assoc, ← pow_add] at ha
    linarith
  · have ha := mul_le_mul_of_nonneg_left hhi (pow_nonneg (by linarith : (0 : ℝ) ≤ 1 + u) (reaching W H r c rays).length)
    rw [mul_add, ← mul_assoc, ← pow_add] at ha
    exact ha

open Finset in
/-- C103: the power of an image in floating point arithmetic is that of the rays on the target, up to `n + 4` relative roundings for `n` rays (and the
absolute error of tiny products). -/
theorem C103_total (A : Arithmetic rnd u η M) (order : Fin 4 → List (Hit ℝ) → List (Hit ℝ)) (W H : Nat) (hW : 0 < W) (hH : 0 < H) (hWM : W ≤ M) (hHM : H ≤ M)
    (rays : List (Hit ℝ)) (horder : ∀ i, (order i rays).Perm rays) (hrays : ∀ h ∈ rays, IsFloat rnd h) (img : List (List ℝ)) (himg : splat rnd order W H rays = .ok img) :
    (1 - u) ^ (rays.length + 4) * (rays.map (fun h => if Inside W H h then h.w else 0)).sum - H * W * (rays.map fun h => η * ((1 + u) * h.w + 1)).sum ≤
      ∑ r ∈ range H, ∑ c ∈ range W, pixel img r c ∧
    ∑ r ∈ range H, ∑ c ∈ range W, pixel img r c ≤
      (1 + u) ^ (rays.length + 4) * (rays.map (fun h => if Inside W H h then h.w else 0)).sum + H * W * ((1 + u) ^ rays.length * (rays.map fun h => η * ((1 + u) * h.w + 1)).sum) := by
  classical
  have hu := A.u_nonneg
  have hη := A.η_nonneg
  have hu1 : 0 ≤ 1 - u := by linarith [A.u_lt_one]
  obtain ⟨img', h1, _, _, h4⟩ := C103_pixel A order W H hW hH hWM hHM rays horder hrays
  rw [himg] at h1
  cases h1
  have hpos : ∀ h ∈ rays, 0 ≤ h.e ∧ 0 ≤ h.u := fun h hh => ⟨(hrays h hh).2.1, (hrays h hh).2.2.1⟩
  obtain ⟨ex, e1, _, _, e4⟩ := C08_pixel W H hW hH rays hpos
  have hen := C08_energy W H hW hH rays hpos ex e1
  have hpart : ∀ r c, r < H → c < W → (rays.map (part W H r c)).sum = pixel ex (H - 1 - r) c := by
    intro r c hr hc
    rw [e4 r c hr hc]
    congr 1
  have hsum : (rays.map (fun h => if Inside W H h then h.w else 0)).sum = ∑ r ∈ range H, ∑ c ∈ range W, (rays.map (part W H r c)).sum := by
    rw [← hen, ← Finset.sum_range_reflect]
    refine Finset.sum_congr rfl fun r hr => Finset.sum_congr rfl fun c hc => ?_
    rw [hpart r c (Finset.mem_range.1 hr) (Finset.mem_range.1 hc)]
  set Z := (rays.map fun h => η * ((1 + u) * h.w + 1)).sum with hZ
  have hζ : ∀ h ∈ rays, 0 ≤ η * ((1 + u) * h.w + 1) := by
    intro h hh
    have := (hrays h hh).2.2.2
    positivity
  have hsub : ∀ r c, ((reaching W H r c rays).map fun h => η * ((1 + u) * h.w + 1)).sum ≤ Z := by
    intro r c
    refine List.Sublist.sum_le_sum (List.Sublist.map _ List.filter_sublist) ?_
    intro x hx
    rw [List.mem_map] at hx
    obtain ⟨h, hh, rfl⟩ := hx
    exact hζ h hh
  have hZ0 : 0 ≤ Z := by
    apply List.sum_nonneg
    intro x hx
    rw [List.mem_map] at hx
    obtain ⟨h, hh, rfl⟩ := hx
    exact hζ h hh
  have hlen : ∀ r c, (reaching W H r c rays).length ≤ rays.length := fun r c => List.length_filter_le _ _
  have hE : ∀ r c, 0 ≤ (rays.map (part W H r c)).sum := by
    intro r c
    apply List.sum_nonneg
    intro x hx
    rw [List.mem_map] at hx
    obtain ⟨h, hh, rfl⟩ := hx
    unfold part
    split_ifs
    · exact mul_nonneg (hrays h hh).2.2.2 (mul_nonneg (tent_nonneg _) (tent_nonneg _))
    · exact le_refl _
  have lower : ∀ r ∈ range H, ∀ c ∈ range W, (1 - u) ^ (rays.length + 4) * (rays.map (part W H r c)).sum - Z ≤ pixel img (H - 1 - r) c := by
    intro r hr c hc
    have := (h4 r c (mem_range.1 hr) (mem_range.1 hc)).2.1
    have h5 : (1 - u) ^ (rays.length + 4) * (rays.map (part W H r c)).sum ≤ (1 - u) ^ ((reaching W H r c rays).length + 4) * (rays.map (part W H r c)).sum :=
      mul_le_mul_of_nonneg_right (pow_le_pow_of_le_one hu1 (by linarith) (by have := hlen r c; omega)) (hE r c)
    linarith [hsub r c]
  have upper : ∀ r ∈ range H, ∀ c ∈ range W, pixel img (H - 1 - r) c ≤ (1 + u) ^ (rays.length + 4) * (rays.map (part W H r c)).sum + (1 + u) ^ rays.length * Z := by
    intro r hr c hc
    have := (h4 r c (mem_range.1 hr) (mem_range.1 hc)).2.2
    have h5 : (1 + u) ^ ((reaching W H r c rays).length + 4) * (rays.map (part W H r c)).sum ≤ (1 + u) ^ (rays.length + 4) * (rays.map (part W H r c)).sum :=
      mul_le_mul_of_nonneg_right (pow_le_pow_right₀ (by linarith) (by have := hlen r c; omega)) (hE r c)
    have h6 : (1 + u) ^ (reaching W H r c rays).length * ((reaching W H r c rays).map fun h => η * ((1 + u) * h.w + 1)).sum ≤ (1 + u) ^ rays.length * Z :=
      (mul_le_mul_of_nonneg_left (hsub r c) (by positivity)).trans (mul_le_mul_of_nonneg_right (pow_le_pow_right₀ (by linarith) (hlen r c)) hZ0)
    linarith
  rw [hsum, ← Finset.sum_range_reflect (fun r => ∑ c ∈ range W, pixel img r c)]
  constructor
  · have := Finset.sum_le_sum fun r hr => Finset.sum_le_sum fun c hc => lower r hr c hc
    simp only [Finset.sum_sub_distrib, Finset.sum_const, Finset.card_range, nsmul_eq_mul, ← Finset.mul_sum] at this
    rw [mul_assoc]; exact this
  · have := Finset.sum_le_sum fun r hr => Finset.sum_le_sum fun c hc => upper r hr c hc
    simp only [Finset.sum_add_distrib, Finset.sum_const, Finset.card_range, nsmul_eq_mul, ← Finset.mul_sum] at this
    rw [mul_assoc]; exact this

/-- C103: adding up images (or the masks of blockers) in any order: the sum of `n` numbers of the format that are not negative has at most `n` relative roundings. -/
theorem C103_sum (A : Arithmetic rnd u η M) (t : SumTree) (ht : ∀ x ∈ t.leaves, rnd x = x ∧ 0 ≤ x) :
    rnd (t.eval rnd) = t.eval rnd ∧ (1 - u) ^ t.leaves.length * t.leaves.sum ≤ t.eval rnd ∧ t.eval rnd ≤ (1 + u) ^ t.leaves.length * t.leaves.sum := by
  have hu := A.u_nonneg
  have hu1 : 0 ≤ 1 - u := by linarith [A.u_lt_one]
  have empty : ∀ t : SumTree, t.leaves = [] → t.eval rnd = 0 := by
    intro t
    induction t with
    | zero => intro _; rfl
    | leaf x => intro h; cases h
    | add a b iha ihb =>
      intro h
      obtain ⟨h1, h2⟩ := List.append_eq_nil_iff.1 (show a.leaves ++ b.leaves = [] from h)
      change rnd (a.eval rnd + b.eval rnd) = 0
      rw [iha h1, ihb h2, add_zero, A.zero]
  induction t with
  | zero => refine ⟨A.zero, ?_, ?_⟩ <;> simp [SumTree.leaves, SumTree.eval]
  | leaf x =>
    obtain ⟨h1, h2⟩ := ht x (by simp [SumTree.leaves])
    refine ⟨h1, ?_, ?_⟩
    · simp only [SumTree.leaves, SumTree.eval, List.length_singleton, List.sum_singleton, pow_one]
      nlinarith
    · simp only [SumTree.leaves, SumTree.eval, List.length_singleton, List.sum_singleton, pow_one]
      nlinarith
  | add a b iha ihb =>
    obtain ⟨a1, a2, a3⟩ := iha fun x hx => ht x (by simp [SumTree.leaves, hx])
    obtain ⟨b1, b2, b3⟩ := ihb fun x hx => ht x (by simp [SumTree.leaves, hx])
    have sa : 0 ≤ a.leaves.sum := List.sum_nonneg fun x hx => (ht x (by simp [SumTree.leaves, hx])).2
    have sb : 0 ≤ b.leaves.sum := List.sum_nonneg fun x hx => (ht x (by simp [SumTree.leaves, hx])).2
    change rnd (rnd (a.eval rnd + b.eval rnd)) = rnd (a.eval rnd + b.eval rnd) ∧
      (1 - u) ^ (a.leaves ++ b.leaves).length * (a.leaves ++ b.leaves).sum ≤ rnd (a.eval rnd + b.eval rnd) ∧
      rnd (a.eval rnd + b.eval rnd) ≤ (1 + u) ^ (a.leaves ++ b.leaves).length * (a.leaves ++ b.leaves).sum
    refine ⟨A.idem _, ?_⟩
    rw [List.length_append, List.sum_append]
    by_cases ea : a.leaves = []
    · rw [empty a ea, ea, zero_add, b1]; simp only [List.length_nil, zero_add, List.sum_nil]; exact ⟨b2, b3⟩
    by_cases eb : b.leaves = []
    · rw [empty b eb, eb, add_zero, a1]; simp only [List.length_nil, add_zero, List.sum_nil]; exact ⟨a2, a3⟩
    have la : 1 ≤ a.leaves.length := List.length_pos_iff.2 ea
    have lb : 1 ≤ b.leaves.length := List.length_pos_iff.2 eb
    have hsum := A.add _ _ a1 b1
    have na : 0 ≤ a.eval rnd := le_trans (mul_nonneg (pow_nonneg hu1 _) sa) a2
    have nb : 0 ≤ b.eval rnd := le_trans (mul_nonneg (pow_nonneg hu1 _) sb) b2
    rw [abs_of_nonneg (add_nonneg na nb), abs_le] at hsum
    obtain ⟨k, hk⟩ : ∃ k, a.leaves.length + b.leaves.length = k + 1 := ⟨a.leaves.length + b.leaves.length - 1, by omega⟩
    rw [hk]
    constructor
    · have ha : (1 - u) ^ k * a.leaves.sum ≤ a.eval rnd := (mul_le_mul_of_nonneg_right (pow_le_pow_of_le_one hu1 (by linarith) (by omega)) sa).trans a2
      have hb : (1 - u) ^ k * b.leaves.sum ≤ b.eval rnd := (mul_le_mul_of_nonneg_right (pow_le_pow_of_le_one hu1 (by linarith) (by omega)) sb).trans b2
      rw [pow_succ]
      nlinarith [hsum.1]
    · have ha : a.eval rnd ≤ (1 + u) ^ k * a.leaves.sum := a3.trans (mul_le_mul_of_nonneg_right (pow_le_pow_right₀ (by linarith) (by omega)) sa)
      have hb : b.eval rnd ≤ (1 + u) ^ k * b.leaves.sum := b3.trans (mul_le_mul_of_nonneg_right (pow_le_pow_right₀ (by linarith) (by omega)) sb)
      rw [pow_succ]
      nlinarith [hsum.2]

/-- C103: rounding keeps the blocking mask between 0 and 1, whatever the order in which the blockers are summed up and whatever exponential function between 0 and 1
the library has for negative numbers. -/
theorem C103_blocked (A : Arithmetic rnd u η M) (hM : 1 ≤ M) (exp : ℝ → ℝ) (hexp : ∀ x ≤ 0, 0 ≤ exp x ∧ exp x ≤ 1) (alpha : ℝ) (ha : 0 ≤ alpha) (sigmas : SumTree)
    (hs : ∀ x ∈ sigmas.leaves, 0 ≤ x) : 0 ≤ blocked rnd exp alpha sigmas ∧ blocked rnd exp alpha sigmas ≤ 1 := by
  have he : 0 ≤ sigmas.eval rnd := by
    induction sigmas with
    | zero => exact le_refl _
    | leaf x => exact hs x (by simp [SumTree.leaves])
    | add a b iha ihb =>
      exact A.nonneg (add_nonneg (iha fun x hx => hs x (by simp [SumTree.leaves, hx])) (ihb fun x hx => hs x (by simp [SumTree.leaves, hx])))
  have h1 : rnd 1 = 1 := by have := A.nat 1 hM; simpa using this
  obtain ⟨h2, h3⟩ := hexp (-rnd (alpha * sigmas.eval rnd)) (by have := A.nonneg (mul_nonneg ha he); linarith)
  unfold blocked
  refine ⟨A.nonneg (by linarith), ?_⟩
  have := A.mono (show 1 - exp (-rnd (alpha * sigmas.eval rnd)) ≤ 1 by linarith)
  rwa [h1] at this

/-- C103: blocking, attenuation and mirror never make a ray brighter or its intensity negative, and more blocking never makes it brighter, also with rounding. -/
theorem C103_intensity (A : Arithmetic rnd u η M) (hM : 1 ≤ M) (a b b' ext refl : ℝ) (ha : 0 ≤ a) (hfa : rnd a = a) (hb : 0 ≤ b) (hbb : b ≤ b') (hb' : b' ≤ 1)
    (hext : 0 ≤ ext ∧ ext ≤ 1) (hrefl : 0 ≤ refl ∧ refl ≤ 1) :
    0 ≤ intensity rnd a b' ext refl ∧ intensity rnd a b' ext refl ≤ intensity rnd a b ext refl ∧ intensity rnd a b ext refl ≤ a := by
  have h1 : rnd 1 = 1 := by have := A.nat 1 hM; simpa using this
  have unit : ∀ x, 0 ≤ x → x ≤ 1 → 0 ≤ rnd x ∧ rnd x ≤ 1 := fun x h0 hx => ⟨A.nonneg h0, by have := A.mono hx; rwa [h1] at this⟩
  have e := unit (1 - ext) (by linarith [hext.2]) (by linarith [hext.1])
  have f := unit refl hrefl.1 hrefl.2
  have g := unit (1 - b) (by linarith) (by linarith)
  have g' := unit (1 - b') (by linarith) (by linarith)
  have shrink : ∀ x y, rnd x = x → 0 ≤ x → 0 ≤ y → y ≤ 1 → rnd (x * y) ≤ x := by
    intro x y hx h0 _ hy1
    have := A.mono (mul_le_of_le_one_right h0 hy1)
    rwa [hx] at this
  unfold intensity
  have k1 : 0 ≤ rnd (a * rnd (1 - b)) := A.nonneg (mul_nonneg ha g.1)
  have k1' : 0 ≤ rnd (a * rnd (1 - b')) := A.nonneg (mul_nonneg ha g'.1)
  have k2 : 0 ≤ rnd (rnd (a * rnd (1 - b)) * rnd (1 - ext)) := A.nonneg (mul_nonneg k1 e.1)
  refine ⟨A.nonneg (mul_nonneg (A.nonneg (mul_nonneg k1' e.1)) f.1), ?_, ?_⟩
  · refine A.mono (mul_le_mul_of_nonneg_right (A.mono (mul_le_mul_of_nonneg_right (A.mono (mul_le_mul_of_nonneg_left (A.mono ?_) ha)) e.1)) f.1)
    linarith
  · exact (shrink _ _ (A.idem _) k2 f.1 f.2).trans ((shrink _ _ (A.idem _) k1 e.1 e.2).trans (shrink a _ hfa ha g.1 g.2))

end

/-! ## The limits of float32 -/

theorem float32_multiple {x : ℝ} (hx : 0 ≤ x) (e : Int) (he : lastDigit 24 (-149) x ≤ e) (k : Int) (hk : x = k * 2 ^ e) : float32 x = x := by
  unfold float32 binary
  rw [if_pos hx]
  exact roundPos_multiple 24 (-149) e he k hk

/-- powers of two are not rounded -/
theorem float32_pow (e : Int) (he : -149 ≤ e) : float32 (2 ^ e) = 2 ^ e := by
  refine float32_multiple (by positivity) e ?_ 1 (by simp)
  unfold lastDigit
  have := Int.log_zpow (R := ℝ) (b := 2) (by norm_num) e
  push_cast at this
  rw [this]
  omega

theorem float32_stuck : float32 (2 ^ 24 + 1) = 2 ^ 24 := by
  unfold float32 binary
  rw [if_pos (by norm_num)]
  have hlog : Int.log 2 ((2 : ℝ) ^ 24 + 1) = 24 := by
    have h1 : (24 : Int) ≤ Int.log 2 ((2 : ℝ) ^ 24 + 1) := by
      rw [← Int.zpow_le_iff_le_log (by norm_num) (by norm_num)]
      norm_num
    have h2 : Int.log 2 ((2 : ℝ) ^ 24 + 1) < 25 := by
      rw [← Int.lt_zpow_iff_log_lt (by norm_num) (by norm_num)]
      norm_num
    omega
  have hd : lastDigit 24 (-149) ((2 : ℝ) ^ 24 + 1) = 1 := by unfold lastDigit; rw [hlog]; norm_num
  unfold roundPos
  rw [hd]
  have hf : ⌊((2 : ℝ) ^ 24 + 1) / 2 ^ (1 : Int)⌋ = 2 ^ 23 := by rw [Int.floor_eq_iff]; norm_num
  have hn : nearestEven (((2 : ℝ) ^ 24 + 1) / 2 ^ (1 : Int)) = 2 ^ 23 := by
    unfold nearestEven
    rw [hf, if_neg (by norm_num), if_neg (by norm_num), if_pos (by decide)]
  rw [hn]
  norm_num

/-- C103, the limit: a pixel that `2^24` or more equal rays hit in its centre stays at `2^24` of them; further rays are lost in float32. -/
theorem C103_stagnates (n : Nat) (hn : 2 ^ 24 ≤ n) :
    ∃ img, splat float32 (fun _ l => l) 2 2 (List.replicate n ⟨0, 0, 1⟩) = .ok img ∧ pixel img 1 0 = 2 ^ 24 := by
  obtain ⟨img, h1, _, _, h4⟩ := splat_spec C103_float32 (fun _ l => l) 2 2 (by norm_num) (by norm_num) (List.replicate n ⟨0, 0, 1⟩)
  refine ⟨img, h1, ?_⟩
  have := h4 0 0 (by norm_num) (by norm_num)
  simp only [Nat.sub_zero, Nat.zero_mul, Nat.add_zero, Nat.reduceSub] at this
  rw [this]
  have one : float32 1 = 1 := by have := C103_float32.nat 1 (by norm_num); simpa using this
  have zero : float32 0 = 0 := C103_float32.zero
  have hl : long (0 : ℝ) = 0 := by unfold long; simp
  have hon : onTarget 2 2 (⟨0, 0, 1⟩ : Hit ℝ) = true := by unfold onTarget; simp only [hl]; decide
  have hlow : low float32 0 = 1 := by unfold low; rw [hl]; simp [one]
  have a1 : added 0 (entry1 float32 2 2) (List.replicate n ⟨0, 0, 1⟩) = [] := by
    unfold added; simp [entry1, hon, hl]
  have a2 : added 0 (entry2 float32 2 2) (List.replicate n ⟨0, 0, 1⟩) = [] := by
    unfold added; simp [entry2, hon, hl]
  have a3 : added 0 (entry3 float32 2 2) (List.replicate n ⟨0, 0, 1⟩) = [] := by
    unfold added; simp [entry3, hon, hl]
  have a4 : added 0 (entry4 float32 2 2) (List.replicate n ⟨0, 0, 1⟩) = List.replicate n 1 := by
    unfold added; simp [entry4, hon, hl, hlow, share, one]
  rw [a1, a2, a3, a4]
  simp only [List.nil_append]
  have small : ∀ k, k ≤ 2 ^ 24 → (List.replicate k (1 : ℝ)).foldl (fun s v => float32 (s + v)) 0 = k := by
    intro k
    induction k with
    | zero => intro _; simp
    | succ k ih =>
      intro hk
      rw [List.replicate_succ', List.foldl_append, ih (by omega)]
      have := C103_float32.nat (k + 1) hk
      simpa using this
  obtain ⟨m, rfl⟩ : ∃ m, n = 2 ^ 24 + m := ⟨n - 2 ^ 24, by omega⟩
  rw [List.replicate_add, List.foldl_append, small _ le_rfl]
  clear small this h4 h1 a1 a2 a3 a4 hn
  induction m with
  | zero => norm_num
  | succ m ih =>
    rw [List.replicate_succ', List.foldl_append, ih]
    exact float32_stuck

/-- an exponential function that is accurate to 20 binary digits for negative numbers; results below `2^-100` may be anything below -/
def Accurate (exp : ℝ → ℝ) : Prop := ∀ x ≤ 0, |exp x - Real.exp x| ≤ 1 / 2 ^ 20 * Real.exp x + 1 / 2 ^ 100

theorem float32_almost_one : float32 (1 - 1 / 2 ^ 25) = 1 := by
  unfold float32 binary
  rw [if_pos (by norm_num)]
  have hlog : Int.log 2 (1 - 1 / (2 : ℝ) ^ 25) = -1 := by
    have h1 : (-1 : Int) ≤ Int.log 2 (1 - 1 / (2 : ℝ) ^ 25) := by
      rw [← Int.zpow_le_iff_le_log (by norm_num) (by norm_num)]
      norm_num
    have h2 : Int.log 2 (1 - 1 / (2 : ℝ) ^ 25) < 0 := by
      rw [← Int.lt_zpow_iff_log_lt (by norm_num) (by norm_num)]
      norm_num
    omega
  have hd : lastDigit 24 (-149) (1 - 1 / (2 : ℝ) ^ 25) = -24 := by unfold lastDigit; rw [hlog]; norm_num
  unfold roundPos
  rw [hd]
  have hf : ⌊(1 - 1 / (2 : ℝ) ^ 25) / 2 ^ (-24 : Int)⌋ = 2 ^ 24 - 1 := by rw [Int.floor_eq_iff]; norm_num
  have hn : nearestEven ((1 - 1 / (2 : ℝ) ^ 25) / 2 ^ (-24 : Int)) = 2 ^ 24 := by
    unfold nearestEven
    rw [hf, if_neg (by norm_num), if_neg (by norm_num), if_neg (by decide)]
    norm_num
  rw [hn]
  norm_num

/-- C66 in float32: as soon as a single blocker has a soft mask of 0.18 or more, the computed intensity is exactly 0 and the ray is not counted by the intercept factor.
(In exact arithmetic blocking has no influence on this factor, `C66_blocking_invisible`.) -/
theorem C66_float_dark (exp : ℝ → ℝ) (hexp : Accurate exp) (hpos : ∀ x ≤ 0, 0 ≤ exp x) (sigmas : SumTree) (hs : ∀ x ∈ sigmas.leaves, 0 ≤ x ∧ float32 x = x)
    (hdark : ∃ x ∈ sigmas.leaves, 18 / 100 ≤ x) (a ext refl : ℝ) :
    blocked float32 exp 100 sigmas = 1 ∧ intensity float32 a (blocked float32 exp 100 sigmas) ext refl = 0 := by
  have A := C103_float32
  have one : float32 1 = 1 := by have := A.nat 1 (by norm_num); simpa using this
  have zero : float32 0 = 0 := A.zero
  have big : ∀ t : SumTree, (∀ x ∈ t.leaves, 0 ≤ x ∧ float32 x = x) → 0 ≤ t.eval float32 ∧ float32 (t.eval float32) = t.eval float32 ∧ ∀ x ∈ t.leaves, x ≤ t.eval float32 := by
    intro t
    induction t with
    | zero => intro _; exact ⟨le_refl _, zero, by simp [SumTree.leaves]⟩
    | leaf x =>
      intro h
      have := h x (by simp [SumTree.leaves])
      exact ⟨this.1, this.2, by intro y hy; simp [SumTree.leaves] at hy; rw [hy]; exact le_refl _⟩
    | add p q ihp ihq =>
      intro h
      obtain ⟨p1, p2, p3⟩ := ihp fun x hx => h x (by simp [SumTree.leaves, hx])
      obtain ⟨q1, q2, q3⟩ := ihq fun x hx => h x (by simp [SumTree.leaves, hx])
      refine ⟨A.nonneg (add_nonneg p1 q1), A.idem _, ?_⟩
      intro x hx
      change x ≤ float32 (p.eval float32 + q.eval float32)
      simp only [SumTree.leaves, List.mem_append] at hx
      rcases hx with hx | hx
      · refine (p3 x hx).trans ?_
        have := A.mono (show p.eval float32 ≤ p.eval float32 + q.eval float32 by linarith)
        rwa [p2] at this
      · refine (q3 x hx).trans ?_
        have := A.mono (show q.eval float32 ≤ p.eval float32 + q.eval float32 by linarith)
        rwa [q2] at this
  obtain ⟨x, hx, hx18⟩ := hdark
  have hS := ((big sigmas hs).2.2 x hx).trans' hx18
  have h18 : (18 : ℝ) ≤ float32 (100 * sigmas.eval float32) := by
    have := A.mono (show (18 : ℝ) ≤ 100 * sigmas.eval float32 by linarith)
    have h := A.nat 18 (by norm_num)
    norm_num at h
    rwa [h] at this
  have hb : blocked float32 exp 100 sigmas = 1 := by
    unfold blocked
    set y := float32 (100 * sigmas.eval float32)
    have hacc := hexp (-y) (by linarith)
    have hnn := hpos (-y) (by linarith)
    have hE : Real.exp (-y) ≤ 1 / 2 ^ 25 * (3 / 4) := by
      have h1 : Real.exp (-y) ≤ Real.exp (-18) := Real.exp_le_exp.2 (by linarith)
      have h2 : Real.exp (-18) = (Real.exp 1 ^ 18)⁻¹ := by rw [Real.exp_neg, ← Real.exp_nat_mul]; norm_num
      have h3 : (2.7182818283 : ℝ) ^ 18 ≤ Real.exp 1 ^ 18 := pow_le_pow_left₀ (by norm_num) Real.exp_one_gt_d9.le 18
      have h4 : (Real.exp 1 ^ 18)⁻¹ ≤ ((2.7182818283 : ℝ) ^ 18)⁻¹ := inv_anti₀ (by positivity) h3
      have h5 : ((2.7182818283 : ℝ) ^ 18)⁻¹ ≤ 1 / 2 ^ 25 * (3 / 4) := by norm_num
      linarith
    have hle : exp (-y) ≤ 1 / 2 ^ 25 := by
      have := (abs_le.1 hacc).2
      norm_num at this hE ⊢
      linarith
    apply le_antisymm
    · have := A.mono (show 1 - exp (-y) ≤ 1 by linarith)
      rwa [one] at this
    · have := A.mono (show 1 - 1 / 2 ^ 25 ≤ 1 - exp (-y) by linarith)
      rwa [float32_almost_one] at this
  refine ⟨hb, ?_⟩
  unfold intensity
  rw [hb, sub_self, zero, mul_zero, zero, zero_mul, zero, zero_mul, zero]

/-- C66 in float32: while the soft masks sum up to 0.16 or less, the ray is counted by the intercept factor (if its intensity, the transmission of the air and the
reflectivity are not extremely small), although up to `1 - exp (-16)` of its power, all but a ten millionth, is blocked. -/
theorem C66_float_counted (exp : ℝ → ℝ) (hexp : Accurate exp) (hpos : ∀ x ≤ 0, 0 ≤ exp x) (sigmas : SumTree) (hs : 0 ≤ sigmas.eval float32) (hsmall : sigmas.eval float32 ≤ 16 / 100)
    (a ext refl : ℝ) (ha : 1 / 2 ^ 40 ≤ a) (hext : 1 / 2 ^ 20 ≤ 1 - ext) (hrefl : 1 / 2 ^ 20 ≤ refl) :
    0 < intensity float32 a (blocked float32 exp 100 sigmas) ext refl := by
  have A := C103_float32
  have hy16 : float32 (100 * sigmas.eval float32) ≤ 16 := by
    have := A.mono (show 100 * sigmas.eval float32 ≤ 16 by linarith)
    have h := A.nat 16 (by norm_num)
    norm_num at h
    rwa [h] at this
  have hy0 : 0 ≤ float32 (100 * sigmas.eval float32) := A.nonneg (by linarith)
  have power : ∀ (e : Int), -149 ≤ e → ∀ x : ℝ, 2 ^ e ≤ x → 2 ^ e ≤ float32 x := by
    intro e he x hx
    have := A.mono hx
    rwa [float32_pow e he] at this
  have hb : (2 : ℝ) ^ (-24 : Int) ≤ 1 - blocked float32 exp 100 sigmas := by
    unfold blocked
    set y := float32 (100 * sigmas.eval float32)
    have hacc := hexp (-y) (by linarith)
    have hE : 1 / 2 ^ 24 * (5 / 4) ≤ Real.exp (-y) := by
      have h1 : Real.exp (-16) ≤ Real.exp (-y) := Real.exp_le_exp.2 (by linarith)
      have h2 : Real.exp (-16) = (Real.exp 1 ^ 16)⁻¹ := by rw [Real.exp_neg, ← Real.exp_nat_mul]; norm_num
      have h3 : Real.exp 1 ^ 16 ≤ (2.7182818286 : ℝ) ^ 16 := pow_le_pow_left₀ (Real.exp_pos 1).le Real.exp_one_lt_d9.le 16
      have h4 : ((2.7182818286 : ℝ) ^ 16)⁻¹ ≤ (Real.exp 1 ^ 16)⁻¹ := inv_anti₀ (by positivity) h3
      have h5 : 1 / 2 ^ 24 * (5 / 4) ≤ ((2.7182818286 : ℝ) ^ 16)⁻¹ := by norm_num
      linarith
    have hge : 1 / 2 ^ 24 ≤ exp (-y) := by
      have := (abs_le.1 hacc).1
      norm_num at this hE ⊢
      linarith
    have hfix : float32 (1 - 1 / 2 ^ 24) = 1 - 1 / 2 ^ 24 := by
      refine float32_multiple (by norm_num) (-24) ?_ (2 ^ 24 - 1) (by norm_num)
      have hlog : Int.log 2 (1 - 1 / (2 : ℝ) ^ 24) < 0 := by
        rw [← Int.lt_zpow_iff_log_lt (by norm_num) (by norm_num)]
        norm_num
      unfold lastDigit
      omega
    have := A.mono (show 1 - exp (-y) ≤ 1 - 1 / 2 ^ 24 by linarith)
    rw [hfix] at this
    norm_num at this ⊢
    linarith
  unfold intensity
  have h1 := power (-24) (by norm_num) _ hb
  have h2 : (2 : ℝ) ^ (-64 : Int) ≤ float32 (a * float32 (1 - blocked float32 exp 100 sigmas)) := by
    apply power _ (by norm_num)
    calc (2 : ℝ) ^ (-64 : Int) = 1 / 2 ^ 40 * 2 ^ (-24 : Int) := by norm_num
      _ ≤ _ := mul_le_mul ha h1 (by positivity) (by linarith [show (0 : ℝ) < 1 / 2 ^ 40 by norm_num])
  have h3 : (2 : ℝ) ^ (-20 : Int) ≤ float32 (1 - ext) := power _ (by norm_num) _ (by norm_num at hext ⊢; linarith)
  have h4 : (2 : ℝ) ^ (-20 : Int) ≤ float32 refl := power _ (by norm_num) _ (by norm_num at hrefl ⊢; linarith)
  have h5 : (2 : ℝ) ^ (-84 : Int) ≤ float32 (float32 (a * float32 (1 - blocked float32 exp 100 sigmas)) * float32 (1 - ext)) := by
    apply power _ (by norm_num)
    calc (2 : ℝ) ^ (-84 : Int) = 2 ^ (-64 : Int) * 2 ^ (-20 : Int) := by norm_num
      _ ≤ _ := mul_le_mul h2 h3 (by positivity) (le_trans (by positivity) h2)
  have h6 : (2 : ℝ) ^ (-104 : Int) ≤ float32 (float32 (float32 (a * float32 (1 - blocked float32 exp 100 sigmas)) * float32 (1 - ext)) * float32 refl) := by
    apply power _ (by norm_num)
    calc (2 : ℝ) ^ (-104 : Int) = 2 ^ (-84 : Int) * 2 ^ (-20 : Int) := by norm_num
      _ ≤ _ := mul_le_mul h5 h4 (by positivity) (le_trans (by positivity) h5)
  exact lt_of_lt_of_le (by positivity) h6

/-- the exact exponential function is accurate; a rectangle that is hit in the middle has a mask of (almost) 1, and one half is dark too -/
example : Accurate Real.exp ∧ (∀ x ∈ (SumTree.add (.leaf (1 / 2)) (.leaf 0)).leaves, 0 ≤ x ∧ float32 x = x) ∧ ∃ x ∈ (SumTree.add (.leaf (1 / 2)) (.leaf 0)).leaves, (18 / 100 : ℝ) ≤ x := by
  have half : float32 (1 / 2) = 1 / 2 := by have := float32_pow (-1) (by norm_num); norm_num at this ⊢; exact this
  refine ⟨?_, ?_, ?_⟩
  · intro x _
    rw [sub_self, abs_zero]
    have := Real.exp_pos x
    positivity
  · intro x hx
    simp only [SumTree.leaves, List.cons_append, List.nil_append, List.mem_cons, List.not_mem_nil, or_false] at hx
    rcases hx with rfl | rfl
    · exact ⟨by norm_num, half⟩
    · exact ⟨le_refl _, C103_float32.zero⟩
  · exact ⟨1 / 2, by simp [SumTree.leaves], by norm_num⟩

/-- rays of float32 numbers; the second one is split among four pixels -/
example : ∀ h ∈ ([⟨0, 0, 1⟩, ⟨1 / 2, 3 / 2, 3⟩, ⟨2, 1, 4⟩] : List (Hit ℝ)), IsFloat float32 h := by
  have hn : ∀ n : Nat, n ≤ 2 ^ 24 → float32 n = n := C103_float32.nat
  have h1 := hn 1 (by norm_num)
  have h2 := hn 2 (by norm_num)
  have h3 := hn 3 (by norm_num)
  have h4 := hn 4 (by norm_num)
  have h0 := hn 0 (by norm_num)
  have half : float32 (1 / 2) = 1 / 2 := by have := float32_pow (-1) (by norm_num); norm_num at this ⊢; exact this
  have half3 : float32 (3 / 2) = 3 / 2 := by
    refine float32_multiple (by norm_num) (-1) ?_ 3 (by norm_num)
    have hlog : Int.log 2 ((3 : ℝ) / 2) < 1 := by
      rw [← Int.lt_zpow_iff_log_lt (by norm_num) (by norm_num)]
      norm_num
    unfold lastDigit
    omega
  norm_num at h0 h1 h2 h3 h4 half half3
  intro h hh
  simp only [List.mem_cons, List.not_mem_nil, or_false] at hh
  rcases hh with rfl | rfl | rfl <;> unfold IsFloat <;> norm_num [h0, h1, h2, h3, h4, half, half3]

end Artist.Rounded
