import Verif.Spec.Grazing
import Verif.Props.SoftMask
import Verif.Props.MotorImage
/-!
Helper lemmas for C118.
-/
namespace Artist.Grazing
open Artist LBVH SoftMask Filter Topology
variable {X : Type} [TopologicalSpace X] {x₀ : X}

theorem Smooth.map₂ {v w : X → V3 ℝ} (f : ℝ → ℝ → ℝ) (hf : Continuous fun p : ℝ × ℝ => f p.1 p.2) (hv : Smooth x₀ v) (hw : Smooth x₀ w) :
    Smooth x₀ fun x => V3.map₂ f (v x) (w x) :=
  ⟨hf.continuousAt.comp (hv.1.prodMk hw.1), hf.continuousAt.comp (hv.2.1.prodMk hw.2.1), hf.continuousAt.comp (hv.2.2.prodMk hw.2.2)⟩

theorem Smooth.sub {v w : X → V3 ℝ} (hv : Smooth x₀ v) (hw : Smooth x₀ w) : Smooth x₀ fun x => v x - w x :=
  ⟨hv.1.sub hw.1, hv.2.1.sub hw.2.1, hv.2.2.sub hw.2.2⟩

theorem box_smooth {c : X → Corners} (h : SmoothMirror x₀ c) : (Smooth x₀ fun x => (cornerBox (c x)).mn) ∧ Smooth x₀ fun x => (cornerBox (c x)).mx := by
  obtain ⟨h1, h2, h3, h4⟩ := h
  exact ⟨((h1.map₂ min continuous_min h2).map₂ min continuous_min h3).map₂ min continuous_min h4, ((h1.map₂ max continuous_max h2).map₂ max continuous_max h3).map₂ max continuous_max h4⟩

theorem passage_continuous {r : X → BRay} {b : X → Box ℝ} (hr : SmoothRay x₀ r) (h1 : Smooth x₀ fun x => (b x).mn) (h2 : Smooth x₀ fun x => (b x).mx)
    (he : (r x₀).dir.e + 1 / 10 ^ 12 ≠ 0) (hn : (r x₀).dir.n + 1 / 10 ^ 12 ≠ 0) (hu : (r x₀).dir.u + 1 / 10 ^ 12 ≠ 0) :
    ContinuousAt (fun x => (passage (r x) (b x)).1) x₀ ∧ ContinuousAt (fun x => (passage (r x) (b x)).2) x₀ := by
  obtain ⟨ho, hd, -, -⟩ := hr
  have inv : Smooth x₀ fun x => (⟨1 / ((r x).dir.e + 1 / 10 ^ 12), 1 / ((r x).dir.n + 1 / 10 ^ 12), 1 / ((r x).dir.u + 1 / 10 ^ 12)⟩ : V3 ℝ) :=
    ⟨continuousAt_const.div (hd.1.add continuousAt_const) he, continuousAt_const.div (hd.2.1.add continuousAt_const) hn, continuousAt_const.div (hd.2.2.add continuousAt_const) hu⟩
  have m1 := (h1.sub ho).map₂ (· * ·) continuous_mul inv
  have m2 := (h2.sub ho).map₂ (· * ·) continuous_mul inv
  have lo := m1.map₂ min continuous_min m2
  have hi := m1.map₂ max continuous_max m2
  exact ⟨(lo.1.max lo.2.1).max lo.2.2, (hi.1.min hi.2.1).min hi.2.2⟩

theorem le_stable {f g : X → ℝ} (hf : ContinuousAt f x₀) (hg : ContinuousAt g x₀) (h : f x₀ ≠ g x₀) : ∀ᶠ x in 𝓝 x₀, (f x ≤ g x ↔ f x₀ ≤ g x₀) ∧ (f x < g x ↔ f x₀ < g x₀) := by
  rcases lt_or_gt_of_ne h with h | h
  · filter_upwards [hf.eventually_lt hg h] with x hx
    exact ⟨iff_of_true hx.le h.le, iff_of_true hx h⟩
  · filter_upwards [hg.eventually_lt hf h] with x hx
    exact ⟨iff_of_false (not_le.2 hx) (not_le.2 h), iff_of_false (not_lt.2 hx.le) (not_lt.2 h.le)⟩

theorem hits_stable {r : X → BRay} {b : X → Box ℝ} (hr : SmoothRay x₀ r) (h1 : Smooth x₀ fun x => (b x).mn) (h2 : Smooth x₀ fun x => (b x).mx)
    (he : (r x₀).dir.e + 1 / 10 ^ 12 ≠ 0) (hn : (r x₀).dir.n + 1 / 10 ^ 12 ≠ 0) (hu : (r x₀).dir.u + 1 / 10 ^ 12 ≠ 0) (hg : ¬ Grazes (r x₀) (b x₀)) :
    ∀ᶠ x in 𝓝 x₀, hits (r x) (b x) = hits (r x₀) (b x₀) := by
  obtain ⟨c1, c2⟩ := passage_continuous hr h1 h2 he hn hu
  unfold Grazes at hg
  push Not at hg
  filter_upwards [le_stable c1 c2 hg.1, le_stable (f := fun _ => (1 / 10 ^ 6 : ℝ)) continuousAt_const c2 hg.2.1.symm, le_stable c1 hr.2.2.1 hg.2.2] with x a1 a2 a3
  unfold passage at a1 a2 a3
  unfold hits
  simp only [ge_iff_le, gt_iff_lt, a1.1, a2.2, a3.1]

theorem brute_stable (rays : List (X → BRay)) (mirrors : List (X → Corners)) (hr : ∀ r ∈ rays, SmoothRay x₀ r) (hm : ∀ c ∈ mirrors, SmoothMirror x₀ c)
    (hd : ∀ r ∈ rays, (r x₀).dir.e + 1 / 10 ^ 12 ≠ 0 ∧ (r x₀).dir.n + 1 / 10 ^ 12 ≠ 0 ∧ (r x₀).dir.u + 1 / 10 ^ 12 ≠ 0)
    (hg : ∀ r ∈ rays, ∀ c ∈ mirrors, ¬ Grazes (r x₀) (cornerBox (c x₀))) :
    ∀ᶠ x in 𝓝 x₀, bruteForce ((mirrors.map fun c => c x).map cornerBox) (rays.map fun r => r x) = bruteForce ((mirrors.map fun c => c x₀).map cornerBox) (rays.map fun r => r x₀) := by
  have key : ∀ r ∈ rays, ∀ᶠ x in 𝓝 x₀, ∀ c ∈ mirrors, hits (r x) (cornerBox (c x)) = hits (r x₀) (cornerBox (c x₀)) := by
    intro r hr'
    have : ∀ l : List (X → Corners), (∀ c ∈ l, c ∈ mirrors) → ∀ᶠ x in 𝓝 x₀, ∀ c ∈ l, hits (r x) (cornerBox (c x)) = hits (r x₀) (cornerBox (c x₀)) := by
      intro l
      induction l with
      | nil => intro _; simp
      | cons c l ih =>
        intro hl
        have hc := hl c List.mem_cons_self
        obtain ⟨b1, b2⟩ := box_smooth (hm c hc)
        obtain ⟨d1, d2, d3⟩ := hd r hr'
        filter_upwards [ih fun c' h => hl c' (List.mem_cons_of_mem _ h), hits_stable (b := fun x => cornerBox (c x)) (hr r hr') b1 b2 d1 d2 d3 (hg r hr' c hc)] with x a1 a2
        intro c' hc'
        rcases List.mem_cons.1 hc' with rfl | hc'
        · exact a2
        · exact a1 c' hc'
    exact this mirrors fun c h => h
  have all : ∀ᶠ x in 𝓝 x₀, ∀ r ∈ rays, ∀ c ∈ mirrors, hits (r x) (cornerBox (c x)) = hits (r x₀) (cornerBox (c x₀)) := by
    have : ∀ l : List (X → BRay), (∀ r ∈ l, r ∈ rays) → ∀ᶠ x in 𝓝 x₀, ∀ r ∈ l, ∀ c ∈ mirrors, hits (r x) (cornerBox (c x)) = hits (r x₀) (cornerBox (c x₀)) := by
      intro l
      induction l with
      | nil => intro _; simp
      | cons r l ih =>
        intro hl
        filter_upwards [ih fun r' h => hl r' (List.mem_cons_of_mem _ h), key r (hl r List.mem_cons_self)] with x a1 a2
        intro r' hr'
        rcases List.mem_cons.1 hr' with rfl | hr'
        · exact a2
        · exact a1 r' hr'
    exact this rays fun r h => h
  filter_upwards [all] with x hx
  unfold bruteForce
  simp only [List.length_map]
  apply List.filter_congr
  intro p hp
  rw [List.mem_range] at hp
  rw [List.any_map, List.any_map]
  have e : ∀ x, ((mirrors.map fun c => c x).map cornerBox).getD p zeroBox = cornerBox (mirrors[p] x) := by
    intro x
    rw [List.getD_eq_getElem?_getD]
    simp [hp]
  rw [e, e]
  rw [Bool.eq_iff_iff, List.any_eq_true, List.any_eq_true]
  constructor
  · rintro ⟨r, h1, h2⟩
    refine ⟨r, h1, ?_⟩
    simp only [Function.comp_apply, hx r h1 _ (List.getElem_mem hp), (hr r h1).2.2.2 x] at h2 ⊢
    exact h2
  · rintro ⟨r, h1, h2⟩
    refine ⟨r, h1, ?_⟩
    simp only [Function.comp_apply, hx r h1 _ (List.getElem_mem hp), (hr r h1).2.2.2 x] at h2 ⊢
    exact h2

theorem Smooth.cross {v w : X → V3 ℝ} (hv : Smooth x₀ v) (hw : Smooth x₀ w) : Smooth x₀ fun x => V3.cross (v x) (w x) :=
  ⟨(hv.2.1.mul hw.2.2).sub (hv.2.2.mul hw.2.1), (hv.2.2.mul hw.1).sub (hv.1.mul hw.2.2), (hv.1.mul hw.2.1).sub (hv.2.1.mul hw.1)⟩

theorem Smooth.normalize {v : X → V3 ℝ} (hv : Smooth x₀ v) : Smooth x₀ fun x => normalize (v x) := by
  have hl : ContinuousAt (fun x => max (Real.sqrt (V3.dot (v x) (v x))) (1 / 10 ^ 12)) x₀ :=
    (Real.continuous_sqrt.continuousAt.comp (MotorImage.Steady.dot (v := v) (w := v) hv hv)).max continuousAt_const
  have h0 : max (Real.sqrt (V3.dot (v x₀) (v x₀))) (1 / 10 ^ 12) ≠ 0 := (lt_of_lt_of_le (by norm_num) (le_max_right _ _)).ne'
  exact ⟨hv.1.div hl h0, hv.2.1.div hl h0, hv.2.2.div hl h0⟩

theorem rectangle_smooth {c : X → Corners} (h : SmoothMirror x₀ c) : (MotorImage.Steady x₀ fun x => (rectangle (c x)).corner) ∧ (MotorImage.Steady x₀ fun x => (rectangle (c x)).spanU) ∧
    (MotorImage.Steady x₀ fun x => (rectangle (c x)).spanV) ∧ MotorImage.Steady x₀ fun x => (rectangle (c x)).normal := by
  obtain ⟨h1, h2, h3, h4⟩ := h
  exact ⟨h1, h2.sub h1, h4.sub h1, ((h2.sub h1).cross (h4.sub h1)).normalize⟩

end Artist.Grazing
