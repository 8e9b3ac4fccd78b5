import Verif.Props.Nurbs
import Verif.Spec.NurbsBatch
/-!
# C97: many facets evaluated at once
-/
namespace Artist.NurbsBatch
open Artist Nurbs Transforms BSpline

section
variable {K : Type} [Field K] [LinearOrder K]

theorem uniqueColumns_eq (S F : Nat) (hS : S ≠ 0) (hF : F ≠ 0) (l : List K) : uniqueColumns S F l.length (fun _ _ => l) = l.dedup.length := by
  unfold uniqueColumns
  have h1 : ((List.range l.length).map fun k => (List.range S).flatMap fun _ => (List.range F).map fun _ => knot l k) =
      l.map fun y => (List.range S).flatMap fun _ => (List.range F).map fun _ => y := by
    apply List.ext_getElem (by simp)
    intro k h _
    simp only [List.getElem_map, List.getElem_range]
    have hk : k < l.length := by simpa using h
    unfold knot
    rw [List.getD_eq_getElem?_getD, List.getElem?_eq_getElem hk]
    rfl
  rw [h1, List.dedup_map_of_injective, List.length_map]
  intro a b hab
  obtain ⟨S', rfl⟩ := Nat.exists_eq_succ_of_ne_zero hS
  obtain ⟨F', rfl⟩ := Nat.exists_eq_succ_of_ne_zero hF
  simp only [List.range_succ_eq_map, List.flatMap_cons, List.map_cons, List.cons_append] at hab
  exact (List.cons.inj hab).1

variable [IsStrictOrderedRing K] [FloorSemiring K]

theorem spans_eq (S F n degree : Nat) (hS : S ≠ 0) (hF : F ≠ 0) (x : Nat → Nat → Nat → K) (s f p : Nat) :
    spans S F (n + degree + 1) degree (knotVectors n degree) x s f p = findSpanUniform (uniformKnots n degree) degree (x s f p) := by
  unfold spans findSpanUniform knotVectors
  have := uniqueColumns_eq S F hS hF (uniformKnots n degree : List K)
  rw [uniformKnots_length] at this
  rw [this]

/-- the net of one facet -/
def Controls.net (c : Controls K) (s f : Nat) : Net K := ⟨c.nu, c.nv, c.at' s f⟩

theorem tempSum_shift (cp : Nat → Nat → H K) (bu : Nat → K) (iu iv degU s : Nat) :
    tempSum (fun i j => cp (iu + i) (iv + j)) bu 0 (0 + s) degU = tempSum cp bu iu (iv + s) degU := by
  unfold tempSum
  simp

theorem surfaceDerivative_shift (cp : Nat → Nat → H K) (bu bv : Nat → Nat → K) (iu iv degU degV : Nat) :
    surfaceDerivative (fun i j => cp (iu + i) (iv + j)) bu bv 0 0 degU degV = surfaceDerivative cp bu bv iu iv degU degV := by
  funext k t
  unfold surfaceDerivative
  simp only [tempSum_shift]

/-- the numbers of surfaces and facets fit -/
def Fits (c : Controls K) (e : Points K) : Prop :=
  c.S ≠ 0 ∧ c.F ≠ 0 ∧ (e.shape.1 = 1 ∨ e.shape.1 = c.S) ∧ (e.shape.2.1 = 1 ∨ e.shape.2.1 = c.F)

theorem bidx_lt {n m i : Nat} (h : n = 1 ∨ n = m) (hi : i < m) : bidx n i < n := by
  unfold bidx; split <;> omega

theorem bidx_surj {n m j : Nat} (h : n = 1 ∨ n = m) (hm : m ≠ 0) (hj : j < n) : ∃ i < m, bidx n i = j := by
  by_cases h1 : n = 1
  · exact ⟨0, by omega, by unfold bidx; split <;> omega⟩
  · exact ⟨j, by omega, by unfold bidx; split <;> omega⟩

/-- one facet at one point, in terms of the evaluation of a single facet -/
theorem evaluate_single (c : Controls K) (p q : Nat) (x y : K) (s f : Nat) :
    evaluate (c.net s f) p q x y =
      (let su := findSpanUniform (uniformKnots c.nu p) p x
       let sv := findSpanUniform (uniformKnots c.nv q) q y
       if ¬ (su + p < c.nu + p + 1 ∧ sv + q < c.nv + q + 1) then .error .runtimeError
       else if su < c.nu ∧ sv < c.nv then
         (let d := surfaceDerivative (fun i j => weighted (c.at' s f i j)) (basisDerivatives (uniformKnots c.nu p) su p (min 1 p) x)
            (basisDerivatives (uniformKnots c.nv q) sv q (min 1 q) y) (su - p) (sv - q) p q
          .ok (pointOf d, crossOf d))
       else .error .indexError) := by
  unfold evaluate derivativesAt Controls.net
  simp only [uniformKnots_length]
  have h1 : p ≤ findSpanUniform (uniformKnots c.nu p) p x := by unfold findSpanUniform; omega
  have h2 : q ≤ findSpanUniform (uniformKnots c.nv q) q y := by unfold findSpanUniform; omega
  simp only [h1, h2, true_and]
  split
  · rfl
  · split <;> rfl

theorem derivativesOf_eq (c : Controls K) (p q : Nat) (e : Points K) (hS : c.S ≠ 0) (hF : c.F ≠ 0) (s f i : Nat) :
    derivativesOf c p q e s f i =
      (let x := e.get (bidx e.shape.1 s) (bidx e.shape.2.1 f) i
       let su := findSpanUniform (uniformKnots c.nu p) p x.1
       let sv := findSpanUniform (uniformKnots c.nv q) q x.2
       surfaceDerivative (fun i j => weighted (c.at' s f i j)) (basisDerivatives (uniformKnots c.nu p) su p (min 1 p) x.1)
            (basisDerivatives (uniformKnots c.nv q) sv q (min 1 q) x.2) (su - p) (sv - q) p q) := by
  unfold derivativesOf gatherControlPoints
  simp only [spans_eq _ _ _ _ hS hF]
  rw [surfaceDerivative_shift (fun i j => weighted (c.at' s f i j))]
  rfl

/-- a batch is evaluated if and only if each facet is, and then to the same points and normals -/
theorem batch_iff (c : Controls K) (p q : Nat) (e : Points K) (h : Fits c e) (t : Tensor3 (H K × (Fin 3 → K))) :
    evaluateBatch c p q e = .ok t ↔
      (∀ s < c.S, ∀ f < c.F, ∀ i < e.shape.2.2, ∃ r, evaluate (c.net s f) p q (e.get (bidx e.shape.1 s) (bidx e.shape.2.1 f) i).1
        (e.get (bidx e.shape.1 s) (bidx e.shape.2.1 f) i).2 = .ok r) ∧
      t = ⟨(c.S, c.F, e.shape.2.2), fun s f i => (pointOf (derivativesOf c p q e s f i), crossOf (derivativesOf c p q e s f i))⟩ := by
  obtain ⟨hS, hF, hs, hf⟩ := h
  unfold evaluateBatch
  simp only [spans_eq _ _ _ _ hS hF]
  rw [if_neg (by tauto), if_neg (not_not.2 ⟨hs, hf⟩)]
  have key : (∀ s < c.S, ∀ f < c.F, ∀ i < e.shape.2.2, ∃ r, evaluate (c.net s f) p q (e.get (bidx e.shape.1 s) (bidx e.shape.2.1 f) i).1
        (e.get (bidx e.shape.1 s) (bidx e.shape.2.1 f) i).2 = .ok r) ↔
      (∀ s < e.shape.1, ∀ f < e.shape.2.1, ∀ i < e.shape.2.2, findSpanUniform (uniformKnots c.nu p) p (e.get s f i).1 + p < c.nu + p + 1 ∧
        findSpanUniform (uniformKnots c.nv q) q (e.get s f i).2 + q < c.nv + q + 1) ∧
      (∀ s < e.shape.1, ∀ f < e.shape.2.1, ∀ i < e.shape.2.2, findSpanUniform (uniformKnots c.nu p) p (e.get s f i).1 < c.nu ∧
        findSpanUniform (uniformKnots c.nv q) q (e.get s f i).2 < c.nv) := by
    constructor
    · intro hall
      have : ∀ s < e.shape.1, ∀ f < e.shape.2.1, ∀ i < e.shape.2.2, findSpanUniform (uniformKnots c.nu p) p (e.get s f i).1 < c.nu ∧
          findSpanUniform (uniformKnots c.nv q) q (e.get s f i).2 < c.nv := by
        intro s hs' f hf' i hi
        obtain ⟨s0, h0, rfl⟩ := bidx_surj hs hS hs'
        obtain ⟨f0, h1, rfl⟩ := bidx_surj hf hF hf'
        obtain ⟨r, hr⟩ := hall s0 h0 f0 h1 i hi
        rw [evaluate_single] at hr
        dsimp only at hr
        split at hr
        · cases hr
        · split at hr
          · assumption
          · cases hr
      exact ⟨fun s hs f hf i hi => by have := this s hs f hf i hi; omega, this⟩
    · rintro ⟨_, h2⟩ s hs' f hf' i hi
      have := h2 _ (bidx_lt hs hs') _ (bidx_lt hf hf') i hi
      rw [evaluate_single]
      dsimp only
      rw [if_neg (by omega), if_pos this]
      exact ⟨_, rfl⟩
  rw [key]
  by_cases h1 : ∀ s < e.shape.1, ∀ f < e.shape.2.1, ∀ i < e.shape.2.2, findSpanUniform (uniformKnots c.nu p) p (e.get s f i).1 + p < c.nu + p + 1 ∧
        findSpanUniform (uniformKnots c.nv q) q (e.get s f i).2 + q < c.nv + q + 1
  · by_cases h2 : ∀ s < e.shape.1, ∀ f < e.shape.2.1, ∀ i < e.shape.2.2, findSpanUniform (uniformKnots c.nu p) p (e.get s f i).1 < c.nu ∧
        findSpanUniform (uniformKnots c.nv q) q (e.get s f i).2 < c.nv
    · rw [if_neg (not_not.2 h1), if_neg (not_not.2 h2)]
      simp only [Except.ok.injEq]
      exact ⟨fun h => ⟨⟨h1, h2⟩, h.symm⟩, fun h => h.2.symm⟩
    · rw [if_neg (not_not.2 h1), if_pos h2]
      simp only [reduceCtorEq, false_iff]
      rintro ⟨⟨_, h⟩, _⟩; exact h2 h
  · rw [if_pos h1]
    simp only [reduceCtorEq, false_iff]
    rintro ⟨⟨h, _⟩, _⟩; exact h1 h

theorem batch_get (c : Controls K) (p q : Nat) (e : Points K) (h : Fits c e) (t : Tensor3 (H K × (Fin 3 → K))) (ht : evaluateBatch c p q e = .ok t)
    {s f i : Nat} (hs : s < c.S) (hf : f < c.F) (hi : i < e.shape.2.2) :
    evaluate (c.net s f) p q (e.get (bidx e.shape.1 s) (bidx e.shape.2.1 f) i).1 (e.get (bidx e.shape.1 s) (bidx e.shape.2.1 f) i).2 = .ok (t.get s f i) := by
  obtain ⟨h1, rfl⟩ := (batch_iff c p q e h t).1 ht
  obtain ⟨r, hr⟩ := h1 s hs f hf i hi
  rw [hr]
  rw [evaluate_single] at hr
  dsimp only at hr
  split at hr
  · cases hr
  · split at hr
    · rw [← hr]
      dsimp only
      rw [derivativesOf_eq c p q e h.1 h.2.1]
    · cases hr

end

/-- canting and translations fit -/
def PlacingFits (S F : Nat) (placing : Option Placing) : Prop :=
  ∀ q, placing = some q → (q.Sc = 1 ∨ q.Sc = S) ∧ (q.Fc = 1 ∨ q.Fc = F) ∧ q.translations.length = S * F

/-- facet `f` of surface `s` as a facet of its own -/
noncomputable def facetOf (c : Controls ℝ) (placing : Option Placing) (s f : Nat) : Surfaces.Facet :=
  match placing with
  | none => ⟨c.net s f, 0, 0, 0⟩
  | some q => ⟨c.net s f, q.translations.getD (s * c.F + f) 0, q.cantE (bidx q.Sc s) (bidx q.Fc f), q.cantN (bidx q.Sc s) (bidx q.Fc f)⟩

theorem facetOf_net (c : Controls ℝ) (placing : Option Placing) (s f : Nat) : (facetOf c placing s f).net = c.net s f := by
  cases placing <;> rfl

/-- the parameters facet `f` of surface `s` is evaluated at -/
def pointAt (e : Points ℝ) (s f i : Nat) : ℝ × ℝ := e.get (bidx e.shape.1 s) (bidx e.shape.2.1 f) i

theorem fits_of_ok {c : Controls ℝ} {p q : Nat} {e : Points ℝ} {t} (h : evaluateBatch c p q e = .ok t) : Fits c e := by
  unfold evaluateBatch at h
  dsimp only at h
  by_cases h0 : c.S = 0 ∨ c.F = 0
  · rw [if_pos h0] at h; cases h
  · rw [if_neg h0] at h
    by_cases h1 : (e.shape.1 = 1 ∨ e.shape.1 = c.S) ∧ (e.shape.2.1 = 1 ∨ e.shape.2.1 = c.F)
    · exact ⟨by tauto, by tauto, h1⟩
    · rw [if_pos h1] at h; cases h

theorem forward_get {c : Controls ℝ} {p q : Nat} {e : Points ℝ} {placing : Option Placing} {t : Tensor3 Surfaces.Sample}
    (h : forward c p q e placing = .ok t) :
    Fits c e ∧ PlacingFits c.S c.F placing ∧ t.shape = (c.S, c.F, e.shape.2.2) ∧
    ∀ s < c.S, ∀ f < c.F, ∀ i < e.shape.2.2, Surfaces.sampleAt p q placing.isSome (facetOf c placing s f) (pointAt e s f i) = .ok (t.get s f i) := by
  unfold forward at h
  cases hb : evaluateBatch c p q e with
  | error err => rw [hb] at h; cases h
  | ok b =>
    rw [hb] at h
    have hfit := fits_of_ok hb
    have hshape : b.shape = (c.S, c.F, e.shape.2.2) := by rw [((batch_iff c p q e hfit b).1 hb).2]
    dsimp only at h
    cases placing with
    | none =>
      dsimp only at h
      obtain rfl := Except.ok.inj h
      refine ⟨hfit, fun _ h => (nomatch h), hshape, ?_⟩
      intro s hs f hf i hi
      unfold Surfaces.sampleAt pointAt
      rw [facetOf_net, batch_get c p q e hfit b hb hs hf hi]
      rfl
    | some r =>
      dsimp only at h
      by_cases h1 : (r.Sc = 1 ∨ r.Sc = c.S) ∧ (r.Fc = 1 ∨ r.Fc = c.F)
      · rw [if_neg (not_not.2 h1)] at h
        by_cases h2 : r.translations.length = c.S * c.F
        · rw [if_neg (not_not.2 h2)] at h
          obtain rfl := Except.ok.inj h
          refine ⟨hfit, ?_, hshape, ?_⟩
          · intro q hq
            obtain rfl := Option.some.inj hq
            exact ⟨h1.1, h1.2, h2⟩
          · intro s hs f hf i hi
            unfold Surfaces.sampleAt pointAt
            rw [facetOf_net, batch_get c p q e hfit b hb hs hf hi]
            rfl
        · rw [if_pos h2] at h; cases h
      · rw [if_pos h1] at h; cases h

theorem forward_ok {c : Controls ℝ} {p q : Nat} {e : Points ℝ} {placing : Option Placing} (hf : Fits c e) (hp : PlacingFits c.S c.F placing)
    (hall : ∀ s < c.S, ∀ f < c.F, ∀ i < e.shape.2.2, ∃ r, Surfaces.sampleAt p q placing.isSome (facetOf c placing s f) (pointAt e s f i) = .ok r) :
    ∃ t, forward c p q e placing = .ok t := by
  have hb := (batch_iff c p q e hf _).2 ⟨?_, rfl⟩
  · unfold forward
    rw [hb]
    dsimp only
    cases placing with
    | none => exact ⟨_, rfl⟩
    | some r =>
      obtain ⟨h1, h2, h3⟩ := hp r rfl
      dsimp only
      rw [if_neg (not_not.2 ⟨h1, h2⟩), if_neg (not_not.2 h3)]
      exact ⟨_, rfl⟩
  · intro s hs f hf' i hi
    obtain ⟨r, hr⟩ := hall s hs f hf' i hi
    unfold Surfaces.sampleAt pointAt at hr
    rw [facetOf_net] at hr
    split at hr
    · cases hr
    · exact ⟨_, by assumption⟩

theorem fits_only (c : Controls ℝ) (e : Points ℝ) (s f : Nat) : Fits (c.only s f) (onlyPoints e s f) :=
  ⟨one_ne_zero, one_ne_zero, Or.inl rfl, Or.inl rfl⟩

theorem facetOf_only (c : Controls ℝ) (placing : Option Placing) (s f : Nat) :
    facetOf (c.only s f) (placing.map (·.only c.F s f)) 0 0 = facetOf c placing s f := by
  cases placing <;> rfl

theorem pointAt_only (e : Points ℝ) (s f i : Nat) : pointAt (onlyPoints e s f) 0 0 i = pointAt e s f i := by
  unfold pointAt onlyPoints bidx
  simp

/-- C97: what a facet becomes in a batch is what it becomes when it is evaluated alone, with its own control points, canting, translation and evaluation points. -/
theorem C97_alone (c : Controls ℝ) (p q : Nat) (e : Points ℝ) (placing : Option Placing) (t : Tensor3 Surfaces.Sample)
    (h : forward c p q e placing = .ok t) :
    t.shape = (c.S, c.F, e.shape.2.2) ∧
    ∀ s < c.S, ∀ f < c.F, ∃ alone, forward (c.only s f) p q (onlyPoints e s f) (placing.map (·.only c.F s f)) = .ok alone ∧
      ∀ i < e.shape.2.2, t.get s f i = alone.get 0 0 i := by
  obtain ⟨_, _, hshape, hget⟩ := forward_get h
  refine ⟨hshape, ?_⟩
  intro s hs f hf
  have hiso : (placing.map (·.only c.F s f)).isSome = placing.isSome := by cases placing <;> rfl
  obtain ⟨t', ht'⟩ := forward_ok (c := c.only s f) (p := p) (q := q) (e := onlyPoints e s f) (placing := placing.map (·.only c.F s f)) (fits_only c e s f)
    (by
      intro r hr
      cases placing with
      | none => cases hr
      | some r' =>
        obtain rfl := Option.some.inj hr
        exact ⟨Or.inl rfl, Or.inl rfl, rfl⟩)
    (by
      intro a ha b hb i hi
      obtain rfl : a = 0 := Nat.lt_one_iff.1 ha
      obtain rfl : b = 0 := Nat.lt_one_iff.1 hb
      rw [facetOf_only, pointAt_only, hiso]
      exact ⟨_, hget s hs f hf i hi⟩)
  refine ⟨t', ht', ?_⟩
  intro i hi
  have := (forward_get ht').2.2.2 0 Nat.one_pos 0 Nat.one_pos i hi
  rw [facetOf_only, pointAt_only, hiso, hget s hs f hf i hi] at this
  exact Except.ok.inj this

/-- C97: a batch whose numbers of surfaces and facets agree is evaluated if and only if each of its facets can be evaluated alone. -/
theorem C97_fails_iff (c : Controls ℝ) (p q : Nat) (e : Points ℝ) (placing : Option Placing) (hS : c.S ≠ 0) (hF : c.F ≠ 0)
    (he : e.shape.1 = c.S) (he' : e.shape.2.1 = c.F) (hp : ∀ r, placing = some r → r.Sc = c.S ∧ r.Fc = c.F ∧ r.translations.length = c.S * c.F) :
    (∃ t, forward c p q e placing = .ok t) ↔
      ∀ s < c.S, ∀ f < c.F, ∃ alone, forward (c.only s f) p q (onlyPoints e s f) (placing.map (·.only c.F s f)) = .ok alone := by
  constructor
  · rintro ⟨t, ht⟩ s hs f hf
    obtain ⟨a, ha, _⟩ := (C97_alone c p q e placing t ht).2 s hs f hf
    exact ⟨a, ha⟩
  · intro h
    refine forward_ok ⟨hS, hF, Or.inr he, Or.inr he'⟩ (fun r hr => ?_) ?_
    · obtain ⟨h1, h2, h3⟩ := hp r hr
      exact ⟨Or.inr h1, Or.inr h2, h3⟩
    · intro s hs f hf i hi
      obtain ⟨a, ha⟩ := h s hs f hf
      have hiso : (placing.map (·.only c.F s f)).isSome = placing.isSome := by cases placing <;> rfl
      have := (forward_get ha).2.2.2 0 Nat.one_pos 0 Nat.one_pos i hi
      rw [facetOf_only, pointAt_only, hiso] at this
      exact ⟨_, this⟩

theorem getD_flatMap_blocks (l : List (H ℝ)) (F n m : Nat) (σ : Nat → Nat) (hσ : ∀ i < n, σ i < m) (hl : l.length = m * F) :
    ((List.range n).flatMap fun i => (l.drop (σ i * F)).take F).length = n * F ∧
    ∀ i < n, ∀ f < F, ((List.range n).flatMap fun i => (l.drop (σ i * F)).take F).getD (i * F + f) 0 = l.getD (σ i * F + f) 0 := by
  have hblock : ∀ i < n, ((l.drop (σ i * F)).take F).length = F := by
    intro i hi
    rw [List.length_take, List.length_drop, hl]
    have : (σ i + 1) * F ≤ m * F := Nat.mul_le_mul_right F (hσ i hi)
    rw [Nat.succ_mul] at this
    omega
  induction n with
  | zero => simp
  | succ n ih =>
    obtain ⟨ih1, ih2⟩ := ih (fun i hi => hσ i (by omega)) (fun i hi => hblock i (by omega))
    rw [List.range_succ, List.flatMap_append]
    simp only [List.flatMap_cons, List.flatMap_nil, List.append_nil]
    refine ⟨by rw [List.length_append, ih1, hblock n (by omega), Nat.succ_mul], ?_⟩
    intro i hi f hf
    rcases Nat.lt_succ_iff_lt_or_eq.1 hi with hlt | rfl
    · rw [← ih2 i hlt f hf, List.getD_eq_getElem?_getD, List.getD_eq_getElem?_getD, List.getElem?_append_left]
      rw [ih1]
      have : (i + 1) * F ≤ n * F := Nat.mul_le_mul_right F hlt
      rw [Nat.succ_mul] at this
      omega
    · rw [List.getD_eq_getElem?_getD, List.getD_eq_getElem?_getD, List.getElem?_append_right (by rw [ih1]; omega), ih1, Nat.add_sub_cancel_left,
        List.getElem?_take, if_pos hf, List.getElem?_drop]

/-- C97: leaving out surfaces, repeating them or changing their order does the same to the result and nothing else. -/
theorem C97_choose (c : Controls ℝ) (p q : Nat) (e : Points ℝ) (placing : Option Placing) (t : Tensor3 Surfaces.Sample)
    (he : e.shape.1 = c.S) (hq : ∀ r, placing = some r → r.Sc = c.S) (h : forward c p q e placing = .ok t)
    (n : Nat) (hn : n ≠ 0) (σ : Nat → Nat) (hσ : ∀ i < n, σ i < c.S) :
    ∃ t', forward (c.choose n σ) p q (choosePoints e n σ) (placing.map (·.choose c.F n σ)) = .ok t' ∧
      ∀ i < n, ∀ f < c.F, ∀ k < e.shape.2.2, t'.get i f k = t.get (σ i) f k := by
  obtain ⟨⟨hS, hF, h1, h2⟩, hp, hshape, hget⟩ := forward_get h
  have hiso : (placing.map (·.choose c.F n σ)).isSome = placing.isSome := by cases placing <;> rfl
  have hpt : ∀ i < n, ∀ f k, pointAt (choosePoints e n σ) i f k = pointAt e (σ i) f k := by
    intro i hi f k
    unfold pointAt choosePoints
    have e1 : σ (bidx n i) = bidx e.shape.1 (σ i) := by
      have := hσ i hi
      have := hσ 0 (by omega)
      unfold bidx
      by_cases hn1 : n = 1
      · have : i = 0 := by omega
        subst this
        rw [if_pos hn1]
        split <;> omega
      · rw [if_neg hn1]; split <;> omega
    dsimp only
    rw [e1]
  have hfac : ∀ i < n, ∀ f < c.F, facetOf (c.choose n σ) (placing.map (·.choose c.F n σ)) i f = facetOf c placing (σ i) f := by
    intro i hi f hf
    cases placing with
    | none => rfl
    | some r =>
      have hlen := (hp r rfl).2.2
      have hSc := hq r rfl
      have ht := (getD_flatMap_blocks r.translations c.F n c.S σ hσ hlen).2 i hi f hf
      have e1 : σ (bidx n i) = bidx r.Sc (σ i) := by
        have := hσ i hi
        have := hσ 0 (by omega)
        unfold bidx
        by_cases hn1 : n = 1
        · have : i = 0 := by omega
          subst this
          rw [if_pos hn1]
          split <;> omega
        · rw [if_neg hn1]; split <;> omega
      unfold facetOf
      simp only [Option.map_some, Placing.choose]
      simp only [Controls.choose]
      rw [ht, e1]
      rfl
  obtain ⟨t', ht'⟩ := forward_ok (c := c.choose n σ) (p := p) (q := q) (e := choosePoints e n σ) (placing := placing.map (·.choose c.F n σ))
    ⟨hn, hF, Or.inr rfl, h2⟩
    (by
      intro r hr
      cases placing with
      | none => cases hr
      | some r' =>
        obtain rfl := Option.some.inj hr
        exact ⟨Or.inr rfl, (hp r' rfl).2.1, (getD_flatMap_blocks r'.translations c.F n c.S σ hσ (hp r' rfl).2.2).1⟩)
    (by
      intro i hi f hf k hk
      rw [hfac i hi f hf, hpt i hi, hiso]
      exact ⟨_, hget (σ i) (hσ i hi) f hf k hk⟩)
  refine ⟨t', ht', ?_⟩
  intro i hi f hf k hk
  have := (forward_get ht').2.2.2 i hi f hf k hk
  rw [hfac i hi f hf, hpt i hi, hiso, hget (σ i) (hσ i hi) f hf k hk] at this
  exact (Except.ok.inj this).symm

/-- C97 in terms of the textbook: every point of every facet lies on the B-spline surface of the control points of this facet, before canting. -/
theorem C97_own_control_points (c : Controls ℝ) (p q : Nat) (e : Points ℝ) (hS : c.S ≠ 0) (hF : c.F ≠ 0) (hp : 1 ≤ p) (hq : 1 ≤ q) (hu : p < c.nu) (hv : q < c.nv)
    (he : e.shape.1 = c.S) (he' : e.shape.2.1 = c.F)
    (hx : ∀ s f i, 0 ≤ (e.get s f i).1 ∧ (e.get s f i).1 < 1 ∧ 0 ≤ (e.get s f i).2 ∧ (e.get s f i).2 < 1) :
    ∃ t, forward c p q e none = .ok t ∧ ∀ s < c.S, ∀ f < c.F, ∀ i < e.shape.2.2, ∀ k : Fin 3, (t.get s f i).1 k.castSucc =
      surface (clampedUniform c.nu p) (clampedUniform c.nv q) p q c.nu c.nv (fun a b => c.at' s f a b k) (e.get s f i).1 (e.get s f i).2 := by
  have hbi : ∀ n i m, n = m → i < m → bidx n i = i := by intro n i m h hi; unfold bidx; split <;> omega
  obtain ⟨t, ht⟩ := forward_ok (c := c) (p := p) (q := q) (e := e) (placing := none) ⟨hS, hF, Or.inr he, Or.inr he'⟩ (fun _ h => (nomatch h))
    (by
      intro s hs f hf i hi
      have hx' := hx (bidx e.shape.1 s) (bidx e.shape.2.1 f) i
      obtain ⟨pt, cr, h1, -⟩ := C23_surface (net := c.net s f) ⟨hp, hq, hu, hv, hx'.1, hx'.2.1, hx'.2.2.1, hx'.2.2.2⟩
      refine ⟨(pt, unitNormal cr), ?_⟩
      unfold Surfaces.sampleAt pointAt
      rw [facetOf_net, h1]
      rfl)
  refine ⟨t, ht, ?_⟩
  intro s hs f hf i hi k
  have := (forward_get ht).2.2.2 s hs f hf i hi
  unfold Surfaces.sampleAt pointAt at this
  obtain ⟨pt, cr, h1, -, h2⟩ := C23_surface (net := c.net s f) ⟨hp, hq, hu, hv, (hx s f i).1, (hx s f i).2.1, (hx s f i).2.2.1, (hx s f i).2.2.2⟩
  rw [hbi _ _ _ he hs, hbi _ _ _ he' hf, facetOf_net, h1] at this
  have := Except.ok.inj this
  rw [← this]
  exact h2 k

/-- C97: evaluation points of another number of surfaces or facets are refused, unless this number is one. -/
theorem C97_refused (c : Controls ℝ) (p q : Nat) (e : Points ℝ) (placing : Option Placing) (hp : 1 ≤ p)
    (h : e.shape.1 ≠ 1 ∧ e.shape.1 ≠ c.S ∨ e.shape.2.1 ≠ 1 ∧ e.shape.2.1 ≠ c.F) : forward c p q e placing = .error .runtimeError := by
  have : evaluateBatch c p q e = .error .runtimeError := by
    unfold evaluateBatch
    dsimp only
    by_cases h0 : c.S = 0 ∨ c.F = 0
    · rw [if_pos h0]
    · rw [if_neg h0, if_pos (by tauto), if_neg (by omega)]
  unfold forward
  rw [this]

/-- C97: one set of evaluation points for all facets means the same as repeating it for every facet. -/
theorem C97_shared_points (c : Controls ℝ) (p q : Nat) (P : Nat) (x : Nat → ℝ × ℝ) (placing : Option Placing) (t : Tensor3 Surfaces.Sample)
    (h : forward c p q ⟨(1, 1, P), fun _ _ => x⟩ placing = .ok t) :
    ∃ t', forward c p q ⟨(c.S, c.F, P), fun _ _ => x⟩ placing = .ok t' ∧ t'.shape = t.shape ∧ ∀ s < c.S, ∀ f < c.F, ∀ i < P, t'.get s f i = t.get s f i := by
  obtain ⟨⟨hS, hF, _, _⟩, hp, hshape, hget⟩ := forward_get h
  obtain ⟨t', ht'⟩ := forward_ok (c := c) (p := p) (q := q) (e := ⟨(c.S, c.F, P), fun _ _ => x⟩) (placing := placing) ⟨hS, hF, Or.inr rfl, Or.inr rfl⟩ hp
    (fun s hs f hf i hi => ⟨_, hget s hs f hf i hi⟩)
  obtain ⟨_, _, hshape', hget'⟩ := forward_get ht'
  refine ⟨t', ht', by rw [hshape, hshape'], ?_⟩
  intro s hs f hf i hi
  have := hget' s hs f hf i hi
  have h2 := hget s hs f hf i hi
  exact Except.ok.inj (this.symm.trans h2)

/-- two surfaces with two facets each, at different heights -/
def steps : Controls ℚ := ⟨2, 2, 2, 2, fun s f i j => ![i, j, 10 * s + f]⟩

/-- two surfaces with two facets are evaluated, each facet at its own point and at its own height -/
example : ((evaluateBatch steps 1 1 ⟨(2, 2, 1), fun s f _ => (1 / (2 + s), 1 / (3 + f))⟩).toOption.map fun t =>
      [(t.get 0 0 0).1 0, (t.get 0 0 0).1 2, (t.get 0 1 0).1 1, (t.get 0 1 0).1 2, (t.get 1 0 0).1 0, (t.get 1 0 0).1 2, (t.get 1 1 0).1 2]) =
    some [1 / 2, 0, 1 / 4, 1, 1 / 3, 10, 11] := by decide +kernel

/-- the same with real numbers -/
noncomputable def stepsR : Controls ℝ := ⟨2, 2, 2, 2, fun s f i j => ![i, j, 10 * s + f]⟩

/-- one canting for all facets, four translations -/
noncomputable def stepsPlacing : Placing := ⟨1, 1, fun _ _ => ![1, 0, 0, 0], fun _ _ => ![0, 1, 0, 0], [![0, 0, 0, 0], ![5, 0, 0, 0], ![0, 5, 0, 0], ![5, 5, 0, 0]]⟩

/-- the hypotheses are met with canting and translations, for evaluation points that differ from facet to facet -/
example : ∃ t, forward stepsR 1 1 ⟨(2, 2, 3), fun s f i => (1 / (2 + s + i), 1 / (3 + f))⟩ (some stepsPlacing) = .ok t := by
  refine forward_ok ⟨two_ne_zero, two_ne_zero, Or.inr rfl, Or.inr rfl⟩ ?_ ?_
  · intro q hq
    obtain rfl := Option.some.inj hq
    exact ⟨Or.inl rfl, Or.inl rfl, rfl⟩
  · intro s hs f hf i hi
    have hv : ∀ a b : ℕ, 0 ≤ (1 : ℝ) / (2 + a + b) ∧ (1 : ℝ) / (2 + a + b) < 1 := by
      intro a b
      have ha : (0 : ℝ) ≤ a := Nat.cast_nonneg a
      have hb : (0 : ℝ) ≤ b := Nat.cast_nonneg b
      exact ⟨by positivity, by rw [div_lt_one (by linarith)]; linarith⟩
    have hw : ∀ a : ℕ, 0 ≤ (1 : ℝ) / (3 + a) ∧ (1 : ℝ) / (3 + a) < 1 := by
      intro a
      have ha : (0 : ℝ) ≤ a := Nat.cast_nonneg a
      exact ⟨by positivity, by rw [div_lt_one (by linarith)]; linarith⟩
    obtain ⟨pt, cr, h1, -⟩ := C23_surface (net := stepsR.net s f) (p := 1) (q := 1) (x := 1 / (2 + ((bidx 2 s : ℕ) : ℝ) + (i : ℝ))) (y := 1 / (3 + ((bidx 2 f : ℕ) : ℝ)))
      ⟨le_refl _, le_refl _, Nat.one_lt_two, Nat.one_lt_two, (hv _ _).1, (hv _ _).2, (hw _).1, (hw _).2⟩
    refine ⟨Surfaces.place (facetOf stepsR (some stepsPlacing) s f) (pt, unitNormal cr), ?_⟩
    unfold Surfaces.sampleAt pointAt
    rw [facetOf_net]
    dsimp only
    rw [h1]
    rfl

end Artist.NurbsBatch
