import Verif.Model.SoftMask
import Mathlib.Tactic.Linarith
import Mathlib.Tactic.Positivity
import Mathlib.Tactic.FieldSimp
/-! Helper lemmas for the soft blocking mask. -/
namespace Artist.SoftMask
open Artist

theorem sigmoid_pos (x : ℝ) : 0 < sigmoid x := by
  unfold sigmoid; have := Real.exp_pos (-x); positivity

theorem sigmoid_lt_one (x : ℝ) : sigmoid x < 1 := by
  unfold sigmoid
  have := Real.exp_pos (-x)
  rw [div_lt_one (by linarith)]; linarith

theorem sigmoid_mono {x y : ℝ} (h : x ≤ y) : sigmoid x ≤ sigmoid y := by
  unfold sigmoid
  have h1 := Real.exp_pos (-y)
  have h2 : Real.exp (-y) ≤ Real.exp (-x) := Real.exp_le_exp.2 (by linarith)
  exact one_div_le_one_div_of_le (by linarith) (by linarith)

theorem sigmoid_zero : sigmoid 0 = 1 / 2 := by unfold sigmoid; norm_num

/-- the unclamped product -/
noncomputable def density (eps softness offset : ℝ) (origin dir : V3 ℝ) (r : Rect) : ℝ :=
  sigmoid (softness * (planeCoordinates eps origin dir r).1) * sigmoid (softness * (1 - (planeCoordinates eps origin dir r).1)) *
    (sigmoid (softness * (planeCoordinates eps origin dir r).2) * sigmoid (softness * (1 - (planeCoordinates eps origin dir r).2))) *
    sigmoid (softness * (planeDistance eps origin dir r - offset))

theorem prod5 (a b c d e : ℝ) (ha : 0 < a) (hb : 0 < b) (hc : 0 < c) (hd : 0 < d) (he : 0 < e)
    (ha1 : a < 1) (hb1 : b < 1) (hc1 : c < 1) (hd1 : d < 1) (he1 : e < 1) :
    0 < a * b * (c * d) * e ∧ a * b * (c * d) * e ≤ a ∧ a * b * (c * d) * e ≤ b ∧ a * b * (c * d) * e ≤ c ∧
      a * b * (c * d) * e ≤ d ∧ a * b * (c * d) * e ≤ e := by
  have lem : ∀ x y : ℝ, 0 < x → 0 < y → x < 1 → x * y ≤ y := fun x y hx hy h => by nlinarith
  have lem' : ∀ x y : ℝ, 0 < x → 0 < y → y < 1 → x * y ≤ x := fun x y hx hy h => by nlinarith
  have lt1 : ∀ x y : ℝ, 0 < x → 0 < y → x < 1 → y < 1 → x * y < 1 := fun x y hx hy h1 h2 => by nlinarith
  have pab : 0 < a * b := mul_pos ha hb
  have pcd : 0 < c * d := mul_pos hc hd
  have pabcd : 0 < a * b * (c * d) := mul_pos pab pcd
  have lab := lt1 a b ha hb ha1 hb1
  have lcd := lt1 c d hc hd hc1 hd1
  have labcd := lt1 _ _ pab pcd lab lcd
  have h0 := lem' _ e pabcd he he1
  have h1 := lem' _ _ pab pcd lcd
  have h2 := lem _ _ pab pcd lab
  exact ⟨mul_pos pabcd he, by linarith [lem' a b ha hb hb1], by linarith [lem a b ha hb ha1], by linarith [lem' c d hc hd hd1],
    by linarith [lem c d hc hd hc1], lem _ e pabcd he labcd⟩

theorem density_bounds (eps softness offset : ℝ) (origin dir : V3 ℝ) (r : Rect) :
    0 < density eps softness offset origin dir r ∧
    density eps softness offset origin dir r ≤ sigmoid (softness * (planeCoordinates eps origin dir r).1) ∧
    density eps softness offset origin dir r ≤ sigmoid (softness * (1 - (planeCoordinates eps origin dir r).1)) ∧
    density eps softness offset origin dir r ≤ sigmoid (softness * (planeCoordinates eps origin dir r).2) ∧
    density eps softness offset origin dir r ≤ sigmoid (softness * (1 - (planeCoordinates eps origin dir r).2)) ∧
    density eps softness offset origin dir r ≤ sigmoid (softness * (planeDistance eps origin dir r - offset)) :=
  prod5 _ _ _ _ _ (sigmoid_pos _) (sigmoid_pos _) (sigmoid_pos _) (sigmoid_pos _) (sigmoid_pos _)
    (sigmoid_lt_one _) (sigmoid_lt_one _) (sigmoid_lt_one _) (sigmoid_lt_one _) (sigmoid_lt_one _)

theorem sigma_eq (eps softness offset : ℝ) (origin dir : V3 ℝ) (r : Rect) :
    sigma eps softness offset origin dir r =
      if safeDet eps (gram r) = 0 then none else some (density eps softness offset origin dir r) := by
  unfold sigma
  split
  · rfl
  · simp only
    congr 1
    have h := density_bounds eps softness offset origin dir r
    have h1 : density eps softness offset origin dir r ≤ 1 := le_trans h.2.1 (sigmoid_lt_one _).le
    have e : max (density eps softness offset origin dir r) 0 = density eps softness offset origin dir r := max_eq_left h.1.le
    change min (max (density eps softness offset origin dir r) 0) 1 = _
    rw [e, min_eq_left h1]

theorem mapM_some {α β : Type} (f : α → Option β) : ∀ (l : List α) (out : List β),
    l.mapM f = some out ↔ out.length = l.length ∧ ∀ (i : Nat) (x : α), l[i]? = some x → f x = out[i]? := by
  intro l
  induction l with
  | nil => intro out; simp [eq_comm, List.length_eq_zero_iff]
  | cons a l ih =>
    intro out
    rw [List.mapM_cons]
    cases hf : f a with
    | none =>
      simp only [Option.bind_eq_bind, Option.bind_none]
      constructor
      · intro h; simp at h
      · rintro ⟨h1, h2⟩
        have := h2 0 a rfl
        rw [hf] at this
        have := List.getElem?_eq_none_iff.1 this.symm
        simp at h1; omega
    | some b =>
      simp only [Option.bind_eq_bind, Option.bind_some]
      cases hr : l.mapM f with
      | none =>
        simp only [Option.bind_none]
        constructor
        · intro h; simp at h
        · rintro ⟨h1, h2⟩
          rcases out with _ | ⟨o, os⟩
          · simp at h1
          · have := (ih os).2 ⟨by simpa using h1, fun i x hx => by have := h2 (i + 1) x hx; simpa using this⟩
            rw [hr] at this; simp at this
      | some os =>
        simp only [Option.bind_some, Option.pure_def, Option.some.injEq]
        have hos := (ih os).1 hr
        constructor
        · rintro rfl
          refine ⟨by simp [hos.1], ?_⟩
          intro i x hx
          cases i with
          | zero => simp at hx; subst hx; simpa using hf
          | succ i => simpa using hos.2 i x (by simpa using hx)
        · rintro ⟨h1, h2⟩
          rcases out with _ | ⟨o, os'⟩
          · simp at h1
          · have := (ih os').2 ⟨by simpa using h1, fun i x hx => by have := h2 (i + 1) x hx; simpa using this⟩
            rw [hr, Option.some.injEq] at this
            have h0 := h2 0 a rfl
            rw [hf] at h0
            simp at h0
            rw [this, h0]

theorem mapM_none_iff {α β : Type} (f : α → Option β) (l : List α) : l.mapM f = none ↔ ∃ x ∈ l, f x = none := by
  induction l with
  | nil => simp
  | cons a l ih =>
    rw [List.mapM_cons]
    cases hf : f a with
    | none => simp [hf]
    | some b =>
      cases hr : l.mapM f with
      | none => simp [hf, ← ih, hr]
      | some os =>
        simp only [Option.bind_eq_bind, Option.bind_some, Option.pure_def, reduceCtorEq, List.mem_cons, exists_eq_or_imp, hf, false_or,
          false_iff]
        rw [← ih, hr]; simp

/-- all rectangles non-degenerate: the mask is given by the sum of the densities -/
theorem softMask_eq (eps softness alpha offset : ℝ) (origin dir : V3 ℝ) (rects : List Rect) :
    softMask eps softness alpha offset origin dir rects =
      if ∃ r ∈ rects, safeDet eps (gram r) = 0 then none
      else some (1 - Real.exp (-(alpha * (rects.map (density eps softness offset origin dir)).sum))) := by
  unfold softMask
  split_ifs with h
  · have : rects.mapM (sigma eps softness offset origin dir) = none := by
      rw [mapM_none_iff]
      obtain ⟨r, hr, h0⟩ := h
      exact ⟨r, hr, by rw [sigma_eq, if_pos h0]⟩
    rw [this]
  · have : rects.mapM (sigma eps softness offset origin dir) = some (rects.map (density eps softness offset origin dir)) := by
      rw [mapM_some]
      refine ⟨by simp, ?_⟩
      intro i x hx
      rw [sigma_eq, if_neg (fun h0 => h ⟨x, List.mem_of_getElem? hx, h0⟩)]
      simp [hx]
    rw [this]

theorem gram_eq_cross (r : Rect) : gram r = V3.dot (V3.cross r.spanU r.spanV) (V3.cross r.spanU r.spanV) := by
  unfold gram V3.dot V3.cross; ring

theorem gram_nonneg (r : Rect) : 0 ≤ gram r := by
  rw [gram_eq_cross]; unfold V3.dot
  nlinarith [mul_self_nonneg (V3.cross r.spanU r.spanV).e, mul_self_nonneg (V3.cross r.spanU r.spanV).n, mul_self_nonneg (V3.cross r.spanU r.spanV).u]

theorem dot_self_eq_zero (v : V3 ℝ) : V3.dot v v = 0 ↔ v = ⟨0, 0, 0⟩ := by
  constructor
  · intro h
    unfold V3.dot at h
    have h1 := mul_self_nonneg v.e
    have h2 := mul_self_nonneg v.n
    have h3 := mul_self_nonneg v.u
    ext <;> simp only <;> apply mul_self_eq_zero.1 <;> linarith
  · rintro rfl; simp [V3.dot]

theorem safeDet_zero_iff (eps : ℝ) (heps : 0 < eps) (r : Rect) :
    safeDet eps (gram r) = 0 ↔ V3.cross r.spanU r.spanV = ⟨0, 0, 0⟩ := by
  rw [← dot_self_eq_zero, ← gram_eq_cross]
  unfold safeDet
  split_ifs with h
  · rw [mul_eq_zero]
    constructor
    · rintro (h' | h')
      · have : SignType.sign (gram r) = 0 := by
          rcases lt_trichotomy (gram r) 0 with hl | he | hg
          · rw [sign_neg hl] at h'; norm_num at h'
          · rw [he]; exact sign_zero
          · rw [sign_pos hg] at h'; norm_num at h'
        exact sign_eq_zero_iff.1 this
      · linarith
    · intro h'; left; rw [h', sign_zero]; simp
  · rfl

/-- the computed intersection is the geometric one -/
theorem computed_intersection (eps : ℝ) (heps : 0 < eps) (o d : V3 ℝ) (r : Rect) (t u v : ℝ)
    (hU : V3.dot r.spanU r.normal = 0) (hV : V3.dot r.spanV r.normal = 0)
    (hden : eps ≤ |V3.dot d r.normal|) (hdet : eps ≤ gram r)
    (hp : o + t • d = r.corner + u • r.spanU + v • r.spanV) :
    planeDistance eps o d r = t ∧ planeCoordinates eps o d r = (u, v) := by
  have he := congrArg V3.e hp
  have hn := congrArg V3.n hp
  have hu := congrArg V3.u hp
  simp only [V3.add_e, V3.add_n, V3.add_u, V3.smul_e, V3.smul_n, V3.smul_u] at he hn hu
  have hd0 : V3.dot d r.normal ≠ 0 := by
    intro h; rw [h, abs_zero] at hden; linarith
  have hdist : planeDistance eps o d r = t := by
    unfold planeDistance safeDenominator
    rw [if_neg (not_lt.2 hden), div_eq_iff hd0]
    unfold V3.dot at *
    simp only [V3.sub_e, V3.sub_n, V3.sub_u]
    have e1 : r.corner.e - o.e = t * d.e - u * r.spanU.e - v * r.spanV.e := by linarith
    have e2 : r.corner.n - o.n = t * d.n - u * r.spanU.n - v * r.spanV.n := by linarith
    have e3 : r.corner.u - o.u = t * d.u - u * r.spanU.u - v * r.spanV.u := by linarith
    rw [e1, e2, e3]
    linear_combination (-u) * hU - v * hV
  refine ⟨hdist, ?_⟩
  have hg0 : gram r ≠ 0 := by linarith
  have hs : safeDet eps (gram r) = gram r := by
    unfold safeDet; rw [if_neg]; rw [not_lt, abs_of_nonneg (gram_nonneg r)]; exact hdet
  have off : (o + t • d) - r.corner = u • r.spanU + v • r.spanV := by
    rw [hp]; ext <;> simp <;> ring
  unfold planeCoordinates
  simp only
  rw [hdist, hs, off]
  refine Prod.ext ?_ ?_
  · simp only; rw [div_eq_iff hg0]; unfold gram V3.dot; simp; ring
  · simp only; rw [div_eq_iff hg0]; unfold gram V3.dot; simp; ring

end Artist.SoftMask
