import Verif.Proofs.RoundedFilter
import Verif.Props.Rounded
import Verif.Props.LBVHAny
/-! C104: the filter for blocking planes in floating point arithmetic. -/
namespace Artist.RoundedFilter
open Artist LBVH Morton Rounded

section
variable {rnd : ℝ → ℝ} {u η : ℝ} {M : Nat}

theorem minOf_ge (B : ℝ) (x : ℝ) (xs : List ℝ) (h : ∀ y ∈ x :: xs, B ≤ y) : B ≤ minOf x xs := by
  unfold minOf
  induction xs generalizing x with
  | nil => exact h x (by simp)
  | cons a t ih =>
    rw [List.foldl_cons]
    apply ih
    intro y hy
    rcases List.mem_cons.1 hy with rfl | hy
    · exact le_min (h x (by simp)) (h a (by simp))
    · exact h y (by simp [hy])

theorem maxOf_le (B : ℝ) (x : ℝ) (xs : List ℝ) (h : ∀ y ∈ x :: xs, y ≤ B) : maxOf x xs ≤ B := by
  unfold maxOf
  induction xs generalizing x with
  | nil => exact h x (by simp)
  | cons a t ih =>
    rw [List.foldl_cons]
    apply ih
    intro y hy
    rcases List.mem_cons.1 hy with rfl | hy
    · exact max_le (h x (by simp)) (h a (by simp))
    · exact h y (by simp [hy])

/-- C104: the Morton codes of any points can be computed with rounding: no coordinate leaves the ten bits (although the `1e-6` that keeps the largest one below 1023 is lost to
rounding in a field of usual size), so nothing is raised, and centres in different cells get different codes.  Rounding does not change the order: along each axis a point further on never gets a smaller number. -/
theorem C104_codes (A : Arithmetic rnd u η M) (hu : u ≤ 1 / 2 ^ 12) (hη : η * 10 ^ 12 ≤ u) (B : ℝ) (hB : 1 ≤ B) (hBη : B * η ≤ 1 / 64) (p : V3 ℝ) (ps : List (V3 ℝ))
    (hp : ∀ c ∈ p :: ps, FloatPoint rnd B c) :
    (∃ codes, mortonCodes rnd (1 / 10 ^ 6) p ps = .ok codes ∧ codes.length = ps.length + 1 ∧ (∀ c ∈ codes, Is30Bit c) ∧
      (NoThree (quantised rnd (1 / 10 ^ 6) p ps) → NoThree codes)) ∧
    ∀ (i j : Nat) (x y : V3 ℝ) (q r : V3 Int), (p :: ps)[i]? = some x → (p :: ps)[j]? = some y →
      (quantised rnd (1 / 10 ^ 6) p ps)[i]? = some q → (quantised rnd (1 / 10 ^ 6) p ps)[j]? = some r →
      (x.e ≤ y.e → q.e ≤ r.e) ∧ (x.n ≤ y.n → q.n ≤ r.n) ∧ (x.u ≤ y.u → q.u ≤ r.u) := by
  have u0 := A.u_nonneg
  have η0 := A.η_nonneg
  have hη' : η ≤ 1 / 64 := le_trans (by nlinarith) hBη
  set c := rnd (1 / 10 ^ 6) with hc
  have hcb := abs_le.1 (A.close (1 / 10 ^ 6))
  rw [abs_of_pos (show (0 : ℝ) < 1 / 10 ^ 6 by norm_num), ← hc] at hcb
  have hc0 : 0 < c := by norm_num at *; linarith [hcb.1]
  have hc2 : c ≤ 2 := by norm_num at *; linarith [hcb.2]
  -- one axis
  have axis : ∀ f : V3 ℝ → ℝ, (∀ c ∈ p :: ps, |f c| ≤ B) → ∀ x ∈ p :: ps, minOf (f p) (ps.map f) ≤ f x ∧ rnd (f x - minOf (f p) (ps.map f)) ≤ rnd (maxOf (f p) (ps.map f) - minOf (f p) (ps.map f)) ∧
      rnd (maxOf (f p) (ps.map f) - minOf (f p) (ps.map f)) ≤ 3 * B := by
    intro f hf x hx
    have hm : f x ∈ f p :: ps.map f := by have := List.mem_map_of_mem (f := f) hx; simpa using this
    have hall : ∀ y ∈ f p :: ps.map f, -B ≤ y ∧ y ≤ B := by
      intro y hy
      rw [← List.map_cons, List.mem_map] at hy
      obtain ⟨z, hz, rfl⟩ := hy
      exact abs_le.1 (hf z hz)
    have h1 := minOf_le _ _ _ hm
    have h2 := le_maxOf _ _ _ hm
    have h3 := minOf_ge (-B) _ _ fun y hy => (hall y hy).1
    have h4 := maxOf_le B _ _ fun y hy => (hall y hy).2
    refine ⟨h1, A.mono (by linarith), ?_⟩
    have := (abs_le.1 (A.close (maxOf (f p) (ps.map f) - minOf (f p) (ps.map f)))).2
    rw [abs_of_nonneg (by linarith)] at this
    have h5 : u * (maxOf (f p) (ps.map f) - minOf (f p) (ps.map f)) ≤ 1 / 2 ^ 12 * (2 * B) := mul_le_mul hu (by linarith) (by linarith) (by norm_num)
    norm_num at *
    linarith
  have ae := axis V3.e fun c hc => (hp c hc 0).2
  have an := axis V3.n fun c hc => (hp c hc 1).2
  have au := axis V3.u fun c hc => (hp c hc 2).2
  set re := rnd (maxOf p.e (ps.map V3.e) - minOf p.e (ps.map V3.e)) with hre
  set rn := rnd (maxOf p.n (ps.map V3.n) - minOf p.n (ps.map V3.n)) with hrn
  set ru := rnd (maxOf p.u (ps.map V3.u) - minOf p.u (ps.map V3.u)) with hru
  set r0 := max (max re rn) ru with hr0
  have hfix : rnd r0 = r0 := by
    rw [hr0, A.mono.map_max, A.mono.map_max, hre, hrn, hru, A.idem, A.idem, A.idem]
  have hr0B : r0 ≤ 3 * B := max_le (max_le (ae p (by simp)).2.2 (an p (by simp)).2.2) (au p (by simp)).2.2
  have hr0n : 0 ≤ r0 := by
    refine le_trans ?_ (le_max_right _ _)
    have := au p (by simp)
    exact le_trans (A.nonneg (by linarith [this.1])) this.2.1
  set R := rnd (r0 + c) with hR
  have hRr : r0 ≤ R := by have := A.mono (show r0 ≤ r0 + c by linarith); rwa [hfix] at this
  have hRc : c ≤ R := by
    have h1 : rnd c = c := by rw [hc, A.idem]
    have := A.mono (show c ≤ r0 + c by linarith)
    rwa [h1] at this
  have hR0 : 0 < R := lt_of_lt_of_le hc0 hRc
  have hR8 : R ≤ 8 * B := by
    have := (abs_le.1 (A.close (r0 + c))).2
    rw [abs_of_nonneg (by linarith), ← hR] at this
    have h5 : u * (r0 + c) ≤ 1 / 2 ^ 12 * (3 * B + 2) := mul_le_mul hu (by linarith) (by linarith) (by norm_num)
    norm_num at *
    linarith
  have hRη : R * η ≤ 1 / 8 := by
    have := mul_le_mul_of_nonneg_right hR8 η0
    linarith
  have hq : quantised rnd (1 / 10 ^ 6) p ps = (p :: ps).map fun c =>
      ⟨quantise rnd R (minOf p.e (ps.map V3.e)) c.e, quantise rnd R (minOf p.n (ps.map V3.n)) c.n, quantise rnd R (minOf p.u (ps.map V3.u)) c.u⟩ := rfl
  have range : ∀ q ∈ quantised rnd (1 / 10 ^ 6) p ps, (0 ≤ q.e ∧ q.e ≤ 1023) ∧ (0 ≤ q.n ∧ q.n ≤ 1023) ∧ (0 ≤ q.u ∧ q.u ≤ 1023) := by
    intro q hqm
    rw [hq, List.mem_map] at hqm
    obtain ⟨x, hx, rfl⟩ := hqm
    have le : re ≤ R := le_trans (le_trans (le_max_left _ _) (le_max_left _ _)) hRr
    have ln : rn ≤ R := le_trans (le_trans (le_max_right _ _) (le_max_left _ _)) hRr
    have lu : ru ≤ R := le_trans (le_max_right _ _) hRr
    exact ⟨quantise_range A hu (ae x hx).1 (le_trans (ae x hx).2.1 le) hR0 hRη (by linarith),
      quantise_range A hu (an x hx).1 (le_trans (an x hx).2.1 ln) hR0 hRη (by linarith),
      quantise_range A hu (au x hx).1 (le_trans (au x hx).2.1 lu) hR0 hRη (by linarith)⟩
  constructor
  · obtain ⟨codes, h1, h2, h3⟩ := mapM_ok
      (fun q : V3 Int => interleave (BitVec.ofInt 32 q.e) (BitVec.ofInt 32 q.n) (BitVec.ofInt 32 q.u))
      (quantised rnd (1 / 10 ^ 6) p ps) (fun q hqm => by
        have := range q hqm
        obtain ⟨v, hv, _⟩ := interleave_int q this.1 this.2.1 this.2.2
        exact ⟨v, hv⟩)
    have hl : (quantised rnd (1 / 10 ^ 6) p ps).length = ps.length + 1 := by rw [hq]; simp
    have at_ : ∀ (i : Nat) (v : BitVec 32), codes[i]? = some v → ∃ q, (quantised rnd (1 / 10 ^ 6) p ps)[i]? = some q ∧ v.toNat = codeNat q ∧ Is30Bit v := by
      intro i v hv
      have hi := (List.getElem?_eq_some_iff.1 hv).1
      obtain ⟨q, hqi⟩ : ∃ q, (quantised rnd (1 / 10 ^ 6) p ps)[i]? = some q := ⟨_, List.getElem?_eq_getElem (by omega)⟩
      have hb := range q (List.mem_of_getElem? hqi)
      obtain ⟨v', hv', hn, h30, _⟩ := interleave_int q hb.1 hb.2.1 hb.2.2
      have := h3 i q v hqi hv
      rw [hv', Except.ok.injEq] at this
      subst this
      exact ⟨q, hqi, hn, h30⟩
    refine ⟨codes, h1, by omega, ?_, ?_⟩
    · intro v hv
      obtain ⟨i, hi, rfl⟩ := List.mem_iff_getElem.1 hv
      obtain ⟨_, _, _, h⟩ := at_ i _ (List.getElem?_eq_getElem hi)
      exact h
    · intro hnd i j k x hij hjk hik hi hj hk
      obtain ⟨qi, a1, a2, _⟩ := at_ i _ hi
      obtain ⟨qj, b1, b2, _⟩ := at_ j _ hj
      obtain ⟨qk, c1, c2, _⟩ := at_ k _ hk
      have hb := range qi (List.mem_of_getElem? a1)
      have hb' := range qj (List.mem_of_getElem? b1)
      have hb'' := range qk (List.mem_of_getElem? c1)
      have e1 : qi = qj := codeNat_inj qi qj (by rw [← a2, ← b2]) hb.1 hb.2.1 hb.2.2 hb'.1 hb'.2.1 hb'.2.2
      have e2 : qi = qk := codeNat_inj qi qk (by rw [← a2, ← c2]) hb.1 hb.2.1 hb.2.2 hb''.1 hb''.2.1 hb''.2.2
      subst e1
      subst e2
      exact hnd i j k qi hij hjk hik a1 b1 c1
  · intro i j x y q r hx hy hqi hrj
    have mx := List.mem_of_getElem? hx
    have my := List.mem_of_getElem? hy
    rw [hq, List.getElem?_map, hx] at hqi
    rw [hq, List.getElem?_map, hy] at hrj
    simp only [Option.map_some, Option.some.injEq] at hqi hrj
    subst hqi hrj
    exact ⟨quantise_mono A hR0 (ae x mx).1, quantise_mono A hR0 (an x mx).1, quantise_mono A hR0 (au x mx).1⟩

/-- C104: rounding errors in the tree lose nothing.  For any codes without a loop in the tree (however they were rounded) the filter with the rounded test ends without an error, and
reports exactly the primitives that testing every box with the rounded test would report and whose leaf hangs on the tree. -/
theorem C104_tree (A : Arithmetic rnd u η M) (codes : List (BitVec 32)) (boxes : List (Box ℝ)) (hlen : boxes.length = codes.length) (h30 : ∀ c ∈ codes, Is30Bit c) (hne : codes ≠ [])
    (hprop : ∀ b ∈ boxes, b.Proper) (hl : ¬ HasLoop (buildFromCodes codes boxes)) (rays : List (Ray ℝ)) :
    ∃ F res, (∀ fuel, F ≤ fuel → filterWith (hits rnd) codes boxes rays fuel = some (.ok res)) ∧
      ∀ p, p ∈ res ↔ p ∈ bruteForce rnd boxes rays ∧ LeafReachable (buildFromCodes codes boxes) p := by
  have hn : 1 ≤ codes.length := List.length_pos_iff.2 hne
  obtain ⟨ρ, hρ⟩ := ranked_of_no_cycle (tree_wf codes boxes h30) (by omega) hl
  obtain ⟨F, res, h1, _, h3⟩ := filterWith_any (hits rnd) (hits_mono A.mono) codes boxes hρ ⟨0, LBVH.Path.refl 0⟩ h30 hne (by
    intro p hp
    rw [List.getD_eq_getElem?_getD, List.getElem?_eq_getElem (by omega)]
    exact hprop _ (List.getElem_mem _)) rays
  refine ⟨F, res, h1, fun p => ?_⟩
  rw [h3 p]
  unfold bruteForce
  simp only [List.mem_filter, List.mem_range, List.any_eq_true, Bool.and_eq_true, decide_eq_true_eq, hlen]
  tauto

/-- C104: whatever the codes, a reported primitive passes the rounded test for a ray that it does not own. -/
theorem C104_no_false_blockers (codes : List (BitVec 32)) (boxes : List (Box ℝ)) (rays : List (Ray ℝ)) (fuel : Nat) (res : List Nat)
    (h : filterWith (hits rnd) codes boxes rays fuel = some (.ok res)) (p : Nat) (hp : p ∈ res) :
    p < codes.length ∧ ∃ ray ∈ rays, ray.owner ≠ p ∧ hits rnd ray (boxes.getD p zeroBox) = true :=
  filterWith_sound (hits rnd) codes boxes rays fuel res h p hp

/-- C104: a ray that passes a box by more than eight relative rounding errors (half a millimetre at a distance of one kilometre) passes the rounded test as well. -/
theorem C104_clear_hit (A : Arithmetic rnd u η M) (hu : u ≤ 1 / 2 ^ 12) (hη : η * 10 ^ 12 ≤ u) (ray : Ray ℝ) (b : Box ℝ) (hr : FloatRay rnd ray) (hb : FloatBox rnd b)
    (h : ClearHit (8 * u) η ray b) : hits rnd ray b = true := by
  have u0 := A.u_nonneg
  rw [hits_iff]
  refine ⟨fun i j => ?_, fun j => ?_, fun i => ?_⟩
  · by_cases hij : i = j
    · subst hij; exact min_le_max
    · exact le_trans (moment_near A hu hη hr hb i).1.2 (le_trans (h.cross i j hij) (moment_near A hu hη hr hb j).2.1)
  · refine lt_of_le_of_lt ?_ (lt_of_lt_of_le (h.ahead j) (moment_near A hu hη hr hb j).2.1)
    have := (abs_le.1 (A.close (1 / 10 ^ 6))).2
    unfold later
    rw [abs_of_pos (show (0 : ℝ) < 1 / 10 ^ 6 by norm_num)] at this ⊢
    norm_num at this ⊢
    linarith
  · exact le_trans (moment_near A hu hη hr hb i).1.2 (h.before i)

/-- C104: a ray that passes the rounded test passes the box up to eight relative rounding errors. -/
theorem C104_near_hit (A : Arithmetic rnd u η M) (hu : u ≤ 1 / 2 ^ 12) (hη : η * 10 ^ 12 ≤ u) (ray : Ray ℝ) (b : Box ℝ) (hr : FloatRay rnd ray) (hb : FloatBox rnd b)
    (h : hits rnd ray b = true) : NearHit (8 * u) η ray b := by
  have u0 := A.u_nonneg
  rw [hits_iff] at h
  obtain ⟨h1, h2, h3⟩ := h
  refine ⟨fun i j => ?_, fun j => ?_, fun i => ?_⟩
  · exact le_trans (moment_near A hu hη hr hb i).1.1 (le_trans (h1 i j) (moment_near A hu hη hr hb j).2.2)
  · refine lt_of_le_of_lt ?_ (lt_of_lt_of_le (h2 j) (moment_near A hu hη hr hb j).2.2)
    have := (abs_le.1 (A.close (1 / 10 ^ 6))).1
    unfold earlier
    rw [abs_of_pos (show (0 : ℝ) < 1 / 10 ^ 6 by norm_num)] at this ⊢
    norm_num at this ⊢
    linarith
  · exact le_trans (moment_near A hu hη hr hb i).1.1 (h3 i)

theorem cornerBox_float (hm : Monotone rnd) (c : V3 ℝ × V3 ℝ × V3 ℝ × V3 ℝ)
    (h : ∀ p ∈ [c.1, c.2.1, c.2.2.1, c.2.2.2], ∀ i, rnd (comp p i) = comp p i) : FloatBox rnd (cornerBox c) := by
  simp only [List.mem_cons, List.not_mem_nil, or_false, forall_eq_or_imp, forall_eq] at h
  obtain ⟨h1, h2, h3, h4⟩ := h
  constructor <;> intro i <;> have a1 := h1 i <;> have a2 := h2 i <;> have a3 := h3 i <;> have a4 := h4 i <;> fin_cases i <;>
    simp only [cornerBox, comp, V3.map₂, Fin.zero_eta, Fin.mk_one, Fin.reduceFinMk] at a1 a2 a3 a4 ⊢ <;>
    first
    | rw [hm.map_min, hm.map_min, hm.map_min, a1, a2, a3, a4]
    | rw [hm.map_max, hm.map_max, hm.map_max, a1, a2, a3, a4]

/-- C104: the whole filter with rounding, for up to five heliostats of which no three have their centres in one cell.  It ends without an error.  It reports every heliostat whose box some ray of another
heliostat passes by more than eight relative rounding errors, and none whose box all rays of others miss by more than that.  (For six or more heliostats it can leave out some, with or without
rounding, see C09.) -/
theorem C104_upto_five (A : Arithmetic rnd u η M) (hu : u ≤ 1 / 2 ^ 12) (hη : η * 10 ^ 12 ≤ u) (B : ℝ) (hB : 1 ≤ B) (hBη : B * η ≤ 1 / 64) (c : V3 ℝ) (cs : List (V3 ℝ))
    (hp : ∀ x ∈ c :: cs, FloatPoint rnd B x) (hcells : NoThree (quantised rnd (1 / 10 ^ 6) c cs)) (h5 : cs.length < 5)
    (corners : List (V3 ℝ × V3 ℝ × V3 ℝ × V3 ℝ)) (hlen : corners.length = cs.length + 1)
    (hcorners : ∀ x ∈ corners, ∀ p ∈ [x.1, x.2.1, x.2.2.1, x.2.2.2], ∀ i, rnd (comp p i) = comp p i) (rays : List (Ray ℝ)) (hrays : ∀ ray ∈ rays, FloatRay rnd ray) :
    ∃ F res, (∀ fuel, F ≤ fuel → lbvhFilter rnd (c :: cs) corners rays fuel = some (.ok res)) ∧ ∀ (p : Nat) (x : V3 ℝ × V3 ℝ × V3 ℝ × V3 ℝ), corners[p]? = some x →
      ((∃ ray ∈ rays, ray.owner ≠ p ∧ ClearHit (8 * u) η ray (cornerBox x)) → p ∈ res) ∧
      (p ∈ res → ∃ ray ∈ rays, ray.owner ≠ p ∧ NearHit (8 * u) η ray (cornerBox x)) := by
  obtain ⟨⟨codes, h1, h2, h30, hnd⟩, _⟩ := C104_codes A hu hη B hB hBη c cs hp
  have hcne : codes ≠ [] := by intro h; subst h; simp at h2
  have hNT := hnd hcells
  obtain ⟨F, res, g1, _, g3⟩ := filterWith_any (hits rnd) (hits_mono A.mono) codes (corners.map cornerBox) (tree_ranked codes (corners.map cornerBox) hNT h30) (by omega) h30 hcne (by
    intro p hp; rw [getD_corners corners p (by omega)]; exact cornerBox_proper _) rays
  have hex := exact_of_le_five (delta_of codes hNT h30) (by omega)
  refine ⟨F, res, fun fuel hf => ?_, fun p x hx => ?_⟩
  · unfold lbvhFilter
    simp only
    rw [h1]
    exact g1 fuel hf
  · obtain ⟨hpl, hxe⟩ := List.getElem?_eq_some_iff.1 hx
    have hfb := cornerBox_float A.mono x (hcorners x (List.mem_of_getElem? hx))
    have hg := getD_corners corners p hpl
    rw [hxe] at hg
    constructor
    · rintro ⟨ray, hr, ho, hc⟩
      rw [g3 p, hg]
      exact ⟨by omega, leafReachable_of_exact codes _ hNT h30 hex p (by omega), ray, hr, ho, C104_clear_hit A hu hη ray _ (hrays ray hr) hfb hc⟩
    · intro hpr
      rw [g3 p, hg] at hpr
      obtain ⟨_, _, ray, hr, ho, hh⟩ := hpr
      exact ⟨ray, hr, ho, C104_near_hit A hu hη ray _ (hrays ray hr) hfb hh⟩
end

/-! ### float32 -/

/-- the number of the format next to a given one -/
theorem float32_eq (x : ℝ) (e k : Int) (he : -149 ≤ e) (h1 : (2 : ℝ) ^ (e + 23) ≤ x) (h2 : x < 2 ^ (e + 24)) (h3 : |x - k * 2 ^ e| < 2 ^ e / 2) : float32 x = k * 2 ^ e := by
  have x0 : 0 < x := lt_of_lt_of_le (by positivity) h1
  have hlog : Int.log 2 x = e + 23 := by
    have a : e + 23 ≤ Int.log 2 x := by
      rw [← Int.zpow_le_iff_le_log (by norm_num) x0]; exact_mod_cast h1
    have b : Int.log 2 x < e + 24 := by
      rw [← Int.lt_zpow_iff_log_lt (by norm_num) x0]; exact_mod_cast h2
    omega
  have hd : lastDigit 24 (-149) x = e := by unfold lastDigit; rw [hlog]; push_cast; omega
  unfold float32 binary
  rw [if_pos x0.le]
  unfold roundPos
  rw [hd]
  congr 2
  have p : (0 : ℝ) < 2 ^ e := by positivity
  have h4 : |x / 2 ^ e - k| < 1 / 2 := by
    have : x / 2 ^ e - k = (x - k * 2 ^ e) / 2 ^ e := by field_simp
    rw [this, abs_div, abs_of_pos p, div_lt_iff₀ p]
    linarith
  have h5 := nearestEven_close (x / 2 ^ e)
  have h6 : |((nearestEven (x / 2 ^ e) : Int) : ℝ) - k| < 1 := by
    have := abs_sub_le ((nearestEven (x / 2 ^ e) : Int) : ℝ) (x / 2 ^ e) k
    linarith
  have h7 : |nearestEven (x / 2 ^ e) - k| < 1 := by exact_mod_cast h6
  have := Int.abs_lt_one_iff.1 h7
  omega

/-- float32 satisfies the assumptions: relative error `2^-24`, and coordinates up to `2^128` -/
theorem C104_float32 : (1 / 2 ^ 24 : ℝ) ≤ 1 / 2 ^ 12 ∧ (2 ^ (-149 : Int) / 2 : ℝ) * 10 ^ 12 ≤ 1 / 2 ^ 24 ∧ (2 ^ 128 : ℝ) * (2 ^ (-149 : Int) / 2) ≤ 1 / 64 := by
  norm_num

/-- A ray that passes the edge of a box. -/
noncomputable def edgeRay : Ray ℝ := ⟨⟨0, 0, 0⟩, ⟨41 / 64, 1 / 64, 0⟩, 0, 100⟩
/-- The box. -/
noncomputable def edgeBox : Box ℝ := ⟨⟨0, 1 / 64, -1⟩, ⟨41 / 64, 1, 1⟩⟩

/-- C104: the margin is needed.  This ray meets the edge of the box, and the exact test says so; with float32 the test says no. -/
theorem C104_edge_missed : LBVH.hits edgeRay edgeBox = true ∧ hits float32 edgeRay edgeBox = false := by
  constructor
  · unfold LBVH.hits LBVH.rayAabb edgeRay edgeBox V3.map₂
    simp only [V3.sub_e, V3.sub_n, V3.sub_u]
    norm_num
  · rw [Bool.eq_false_iff]
    intro h
    rw [hits_iff] at h
    have h10 := h.1 1 0
    have A := C103_float32
    have hc := abs_le.1 (A.close (1 / 10 ^ 12))
    rw [abs_of_pos (show (0 : ℝ) < 1 / 10 ^ 12 by norm_num)] at hc
    set c := float32 (1 / 10 ^ 12) with hcdef
    have c0 : 0 ≤ c := A.nonneg (by norm_num)
    have c1 : c ≤ 2 / 10 ^ 12 := by norm_num at hc ⊢; linarith [hc.2]
    have e1 : float32 (41 / 64 + c) = 41 / 64 := by
      have := float32_eq (41 / 64 + c) (-24) (41 * 2 ^ 18) (by norm_num) (by norm_num; linarith) (by norm_num at c1 ⊢; linarith)
        (by rw [abs_lt]; norm_num at c1 ⊢; constructor <;> linarith)
      rw [this]; norm_num
    have e2 : float32 (1 / 64 + c) = 1 / 64 := by
      have := float32_eq (1 / 64 + c) (-29) (2 ^ 23) (by norm_num) (by norm_num; linarith) (by norm_num at c1 ⊢; linarith)
        (by rw [abs_lt]; norm_num at c1 ⊢; constructor <;> linarith)
      rw [this]; norm_num
    have e3 : float32 (1 / (41 / 64)) = 13094412 / 2 ^ 23 := by
      have := float32_eq (1 / (41 / 64)) (-23) 13094412 (by norm_num) (by norm_num) (by norm_num) (by rw [abs_lt]; norm_num)
      rw [this]; norm_num
    have e4 : float32 (1 / (1 / 64)) = 64 := by have := A.nat 64 (by norm_num); norm_num at this ⊢; exact this
    have e5 : float32 (41 / 64) = 41 / 64 := by
      have := float32_eq (41 / 64) (-24) (41 * 2 ^ 18) (by norm_num) (by norm_num) (by norm_num) (by norm_num)
      rw [this]; norm_num
    have e6 : float32 (41 / 64 * (13094412 / 2 ^ 23)) = 1 - 1 / 2 ^ 24 := by
      have := float32_eq (41 / 64 * (13094412 / 2 ^ 23)) (-24) (2 ^ 24 - 1) (by norm_num) (by norm_num) (by norm_num) (by rw [abs_lt]; norm_num)
      rw [this]; norm_num
    have e7 : float32 (1 / 64) = 1 / 64 := by have := float32_pow (-6) (by norm_num); norm_num at this ⊢; exact this
    have e8 : float32 1 = 1 := by have := A.nat 1 (by norm_num); norm_num at this ⊢; exact this
    have z : float32 0 = 0 := A.zero
    have m1 : moment float32 (41 / 64) 0 (41 / 64) = 1 - 1 / 2 ^ 24 := by
      unfold moment; rw [← hcdef, e1, e3, sub_zero, e5, e6]
    have m2 : moment float32 0 0 (41 / 64) = 0 := by
      unfold moment; rw [sub_zero, z, zero_mul, z]
    have m3 : moment float32 (1 / 64) 0 (1 / 64) = 1 := by
      unfold moment; rw [← hcdef, e2, e4, sub_zero, e7]; norm_num [e8]
    have m4 : 1 ≤ moment float32 1 0 (1 / 64) := by
      unfold moment; rw [← hcdef, e2, e4, sub_zero, e8, one_mul]
      have := A.nat 64 (by norm_num); norm_num at this; rw [this]; norm_num
    simp only [comp, edgeRay, edgeBox, m1, m2, m3] at h10
    rw [min_eq_left m4] at h10
    norm_num at h10

/-- hypotheses of `C104_clear_hit`: the box between 1 and 2 along each axis, seen from the origin along the diagonal, with float32 -/
example : FloatRay float32 ⟨⟨0, 0, 0⟩, ⟨1, 1, 1⟩, 0, 100⟩ ∧ FloatBox float32 ⟨⟨1, 1, 1⟩, ⟨2, 2, 2⟩⟩ ∧
    ClearHit (8 * (1 / 2 ^ 24)) (2 ^ (-149 : Int) / 2) ⟨⟨0, 0, 0⟩, ⟨1, 1, 1⟩, 0, 100⟩ ⟨⟨1, 1, 1⟩, ⟨2, 2, 2⟩⟩ := by
  have A := C103_float32
  have h0 := A.zero
  have h1 : float32 1 = 1 := by have := A.nat 1 (by norm_num); norm_num at this ⊢; exact this
  have h2 : float32 2 = 2 := by have := A.nat 2 (by norm_num); norm_num at this ⊢; exact this
  have c0 : ∀ i, comp (⟨0, 0, 0⟩ : V3 ℝ) i = 0 := by intro i; fin_cases i <;> rfl
  have c1 : ∀ i, comp (⟨1, 1, 1⟩ : V3 ℝ) i = 1 := by intro i; fin_cases i <;> rfl
  have c2 : ∀ i, comp (⟨2, 2, 2⟩ : V3 ℝ) i = 2 := by intro i; fin_cases i <;> rfl
  have cs : ∀ i, comp (shifted ⟨1, 1, 1⟩) i = 1 + 1 / 10 ^ 12 := by intro i; fin_cases i <;> rfl
  refine ⟨⟨?_, ?_, ?_, ?_⟩, ⟨?_, ?_⟩, ⟨?_, ?_, ?_⟩⟩ <;> intro i <;> simp only [c0, c1, c2, cs, h0, h1, h2, enter, leave, later, earlier]
  · norm_num
  · rw [abs_of_pos (by norm_num)]; norm_num
  · intro j _
    rw [min_eq_left (by norm_num), max_eq_right (by norm_num), abs_of_pos (by norm_num), abs_of_pos (by norm_num)]
    norm_num
  · rw [max_eq_right (by norm_num), abs_of_pos (by norm_num), abs_of_pos (by norm_num)]
    norm_num
  · rw [min_eq_left (by norm_num), abs_of_pos (by norm_num)]
    norm_num

/-- hypotheses of `C104_upto_five` and `C104_codes`: two centres -/
example : (∀ x ∈ ([⟨0, 0, 1⟩, ⟨16, 2, 1⟩] : List (V3 ℝ)), FloatPoint float32 (2 ^ 128) x) ∧ NoThree (quantised float32 (1 / 10 ^ 6) ⟨0, 0, 1⟩ [⟨16, 2, 1⟩]) := by
  have A := C103_float32
  have h0 := A.zero
  have h1 : float32 1 = 1 := by have := A.nat 1 (by norm_num); norm_num at this ⊢; exact this
  have h2 : float32 2 = 2 := by have := A.nat 2 (by norm_num); norm_num at this ⊢; exact this
  have h16 : float32 16 = 16 := by have := A.nat 16 (by norm_num); norm_num at this ⊢; exact this
  constructor
  · intro x hx
    simp only [List.mem_cons, List.not_mem_nil, or_false] at hx
    rcases hx with rfl | rfl <;> intro i <;> fin_cases i <;> simp only [comp, Fin.zero_eta, Fin.mk_one, Fin.reduceFinMk] <;> norm_num [h0, h1, h2, h16]
  · intro i j k x hij hjk hik hi hj hk
    have a := (List.getElem?_eq_some_iff.1 hi).1
    have b := (List.getElem?_eq_some_iff.1 hj).1
    have c := (List.getElem?_eq_some_iff.1 hk).1
    have hl : (quantised float32 (1 / 10 ^ 6) ⟨0, 0, 1⟩ [⟨16, 2, 1⟩]).length = 2 := rfl
    omega

end Artist.RoundedFilter
