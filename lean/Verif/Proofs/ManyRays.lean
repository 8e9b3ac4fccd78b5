import Verif.Spec.ManyRays
import Verif.Proofs.FineMirror
import Mathlib.Probability.StrongLaw
import Mathlib.Probability.Moments.Variance
import Mathlib.MeasureTheory.Function.SpecialFunctions.Basic
import Mathlib.MeasureTheory.Function.Floor
import Mathlib.Tactic.FunProp
/-!
# Helper lemmas for C123: everything between the distortions and the bitmap is measurable
-/
namespace Artist.ManyRays
open Artist Intersect Flux Splat SoftMask Transforms MeasureTheory ProbabilityTheory

section
variable {α : Type} [MeasurableSpace α]

/-- all components are measurable -/
structure MV (f : α → V3 ℝ) : Prop where
  e : Measurable fun a => (f a).e
  n : Measurable fun a => (f a).n
  u : Measurable fun a => (f a).u

theorem MV.const (v : V3 ℝ) : MV fun _ : α => v := ⟨measurable_const, measurable_const, measurable_const⟩
theorem MV.add {f g : α → V3 ℝ} (hf : MV f) (hg : MV g) : MV fun a => f a + g a := ⟨hf.e.add hg.e, hf.n.add hg.n, hf.u.add hg.u⟩
theorem MV.sub {f g : α → V3 ℝ} (hf : MV f) (hg : MV g) : MV fun a => f a - g a := ⟨hf.e.sub hg.e, hf.n.sub hg.n, hf.u.sub hg.u⟩
theorem MV.smul {c : α → ℝ} {f : α → V3 ℝ} (hc : Measurable c) (hf : MV f) : MV fun a => c a • f a :=
  ⟨hc.mul hf.e, hc.mul hf.n, hc.mul hf.u⟩
theorem MV.dot {f g : α → V3 ℝ} (hf : MV f) (hg : MV g) : Measurable fun a => V3.dot (f a) (g a) :=
  ((hf.e.mul hg.e).add (hf.n.mul hg.n)).add (hf.u.mul hg.u)

theorem long_measurable {f : α → ℝ} (hf : Measurable f) : Measurable fun a => long (f a) :=
  Measurable.ite (measurableSet_le measurable_const hf) (Int.measurable_floor.comp hf) (Int.measurable_ceil.comp hf)

theorem low_measurable {f : α → ℝ} (hf : Measurable f) : Measurable fun a => low (f a) :=
  (((measurable_from_top (f := fun z : ℤ => (z : ℝ))).comp (long_measurable hf)).add measurable_const).sub hf

theorem high_measurable {f : α → ℝ} (hf : Measurable f) : Measurable fun a => high (f a) :=
  hf.sub ((measurable_from_top (f := fun z : ℤ => (z : ℝ))).comp (long_measurable hf))

theorem onTarget_measurable (W H : Nat) {h : α → Hit ℝ} (he : Measurable fun a => (h a).e) (hu : Measurable fun a => (h a).u) :
    MeasurableSet {a | onTarget W H (h a) = true} := by
  have h1 := long_measurable he
  have h2 := long_measurable hu
  have : {a | onTarget W H (h a) = true} = {a | (0 ≤ long (h a).e ∧ long (h a).e + 1 < W) ∧ (0 ≤ long (h a).u ∧ long (h a).u + 1 < H)} := by
    ext a
    simp [onTarget, and_assoc]
  rw [this]
  exact (h1 (MeasurableSet.of_discrete (s := {z : ℤ | 0 ≤ z ∧ z + 1 < W}))).inter (h2 (MeasurableSet.of_discrete (s := {z : ℤ | 0 ≤ z ∧ z + 1 < H})))

theorem entry_measurable {s : Set α} [DecidablePred (· ∈ s)] (hs : MeasurableSet s) {i : α → ℤ} {v : α → ℝ} (hi : Measurable i) (hv : Measurable v) (k : ℤ) :
    Measurable fun a => if (if a ∈ s then (i a, v a) else (0, 0)).1 = k then (if a ∈ s then (i a, v a) else (0, 0)).2 else 0 := by
  have hp : Measurable fun a => (if a ∈ s then (i a, v a) else ((0, 0) : ℤ × ℝ)) := Measurable.ite hs (hi.prodMk hv) measurable_const
  exact Measurable.ite (measurableSet_eq_fun hp.fst measurable_const) hp.snd measurable_const

theorem contrib_measurable (W H r c : Nat) {h : α → Hit ℝ} (he : Measurable fun a => (h a).e) (hu : Measurable fun a => (h a).u) (hw : Measurable fun a => (h a).w) :
    Measurable fun a => contrib W H r c (h a) := by
  classical
  have hs := onTarget_measurable W H he hu
  have le := long_measurable he
  have lu := long_measurable hu
  have i1 : Measurable fun a => (long (h a).u + 1) * (W : ℤ) + long (h a).e := ((lu.add measurable_const).mul measurable_const).add le
  have i2 : Measurable fun a => (long (h a).u + 1) * (W : ℤ) + long (h a).e + 1 := i1.add measurable_const
  have i4 : Measurable fun a => long (h a).u * (W : ℤ) + long (h a).e := (lu.mul measurable_const).add le
  have i3 : Measurable fun a => long (h a).u * (W : ℤ) + long (h a).e + 1 := i4.add measurable_const
  unfold contrib entry1 entry2 entry3 entry4
  exact (((entry_measurable hs i1 (((low_measurable he).mul (high_measurable hu)).mul hw) _).add
    (entry_measurable hs i2 (((high_measurable he).mul (high_measurable hu)).mul hw) _)).add
    (entry_measurable hs i3 (((high_measurable he).mul (low_measurable hu)).mul hw) _)).add
    (entry_measurable hs i4 (((low_measurable he).mul (low_measurable hu)).mul hw) _)

/-- all parts of a landing are measurable -/
structure ML (l : α → Landing ℝ) : Prop where
  e : Measurable fun a => (l a).e
  u : Measurable fun a => (l a).u
  intensity : Measurable fun a => (l a).intensity

theorem ML.ite {s : α → Prop} [DecidablePred s] (hs : MeasurableSet {a | s a}) {l l' : α → Landing ℝ} (hl : ML l) (hl' : ML l') : ML fun a => if s a then l a else l' a := by
  constructor
  · simp only [apply_ite Landing.e]; exact Measurable.ite hs hl.e hl'.e
  · simp only [apply_ite Landing.u]; exact Measurable.ite hs hl.u hl'.u
  · simp only [apply_ite Landing.intensity]; exact Measurable.ite hs hl.intensity hl'.intensity

theorem ML.const (l : Landing ℝ) : ML fun _ : α => l := ⟨measurable_const, measurable_const, measurable_const⟩

theorem plane_measurable (W H : Nat) (m : ℝ) (p : Plane ℝ) {o d : α → V3 ℝ} (ho : MV o) (hd : MV d) : ML fun a => linePlane W H (o a) (d a) m p := by
  have ha : Measurable fun a => planeAngle (d a) p := hd.dot (MV.const _)
  have hf : MeasurableSet {a | planeAngle (d a) p < 0} := measurableSet_lt ha measurable_const
  have hdist : Measurable fun a => Intersect.planeDistance (o a) (d a) p := by
    unfold Intersect.planeDistance
    simp only [decide_eq_true_eq]
    exact Measurable.ite hf ((((MV.const _).sub ho).dot (MV.const _)).div (Measurable.ite hf ha measurable_const)) measurable_const
  have hp : MV fun a => planePoint (o a) (d a) p := ho.add (MV.smul hdist hd)
  have be : Measurable fun a => ((planePoint (o a) (d a) p).e + p.width / 2 - p.center.e) / p.width * ((W : ℝ) - 1) :=
    (((hp.e.add measurable_const).sub measurable_const).div measurable_const).mul measurable_const
  have bu : Measurable fun a => ((planePoint (o a) (d a) p).u + p.height / 2 - p.center.u) / p.height * ((H : ℝ) - 1) :=
    (((hp.u.add measurable_const).sub measurable_const).div measurable_const).mul measurable_const
  have hs := ((((measurableSet_le (measurable_const (a := (0 : ℝ))) be).inter (measurableSet_le be (measurable_const (a := (W : ℝ) - 1)))).inter
    (measurableSet_le (measurable_const (a := (0 : ℝ))) bu)).inter (measurableSet_le bu (measurable_const (a := (H : ℝ) - 1)))).inter hf
  unfold linePlane
  simp only [Bool.and_eq_true, decide_eq_true_eq]
  exact ⟨measurable_const.sub (Measurable.ite hs be measurable_const), Measurable.ite hs bu measurable_const,
    Measurable.ite hs (measurable_const.mul ha.neg) measurable_const⟩

theorem local_measurable (cyl : Cylinder) {v : α → V3 ℝ} (hv : MV v) : MV fun a => cyl.toLocal (v a) :=
  ⟨hv.dot (MV.const _), hv.dot (MV.const _), hv.dot (MV.const _)⟩

theorem atan2_measurable {y x : α → ℝ} (hy : Measurable y) (hx : Measurable x) : Measurable fun a => atan2 (y a) (x a) := by
  unfold atan2
  have : (fun a => (⟨x a, y a⟩ : ℂ)) = fun a => (x a : ℂ) + (y a : ℂ) * Complex.I := by
    funext a; exact (Complex.mk_eq_add_mul_I _ _)
  refine Complex.measurable_arg.comp ?_
  rw [this]
  exact (Complex.measurable_ofReal.comp hx).add ((Complex.measurable_ofReal.comp hy).mul measurable_const)

noncomputable def hitAt (W H : Nat) (m : ℝ) (cyl : Cylinder) (o d : V3 ℝ) (t : ℝ) : Landing ℝ :=
  let x := cyl.toLocal (o - cyl.center) + t • cyl.toLocal d
  let d := cyl.toLocal d
  let norm := Real.sqrt (x.e ^ 2 + x.n ^ 2)
  let cosine := max (-(d.e * (x.e / norm) + d.n * (x.n / norm))) 0
  let z := x.u + cyl.height / 2
  let angle := cyl.angle x
  if 0 ≤ z ∧ z ≤ cyl.height ∧ 0 ≤ angle ∧ angle ≤ cyl.opening then
    ⟨angle / cyl.opening * ((W : ℝ) - 1), z / cyl.height * ((H : ℝ) - 1), t, m * cosine⟩
  else ⟨0, 0, 0, 0⟩

theorem lineCylinder_eq (W H : Nat) (m : ℝ) (cyl : Cylinder) (o d : V3 ℝ) :
    lineCylinder W H o d m cyl =
      let q := cyl.quadratic o d
      let disc := q.2.1 ^ 2 - 4 * q.1 * q.2.2
      let s := Real.sqrt (disc + 1 / 10 ^ 12)
      let near := (-q.2.1 - s) / (2 * q.1)
      let far := (-q.2.1 + s) / (2 * q.1)
      if 0 ≤ disc ∧ 1 / 10 ^ 8 < |q.1| then
        (if 0 < near then (if 0 < far then hitAt W H m cyl o d (min near far) else hitAt W H m cyl o d near)
        else if 0 < far then hitAt W H m cyl o d far else ⟨0, 0, 0, 0⟩)
      else ⟨0, 0, 0, 0⟩ := by
  unfold lineCylinder Cylinder.distance
  dsimp only
  split_ifs <;> rfl

theorem hitAt_measurable (W H : Nat) (m : ℝ) (cyl : Cylinder) {o d : α → V3 ℝ} (ho : MV o) (hd : MV d) {t : α → ℝ} (ht : Measurable t) :
    ML fun a => hitAt W H m cyl (o a) (d a) (t a) := by
  have hl := local_measurable cyl hd
  have hx : MV fun a => cyl.toLocal (o a - cyl.center) + t a • cyl.toLocal (d a) := (local_measurable cyl (ho.sub (MV.const _))).add (MV.smul ht hl)
  have hn : Measurable fun a => Real.sqrt ((cyl.toLocal (o a - cyl.center) + t a • cyl.toLocal (d a)).e ^ 2 + (cyl.toLocal (o a - cyl.center) + t a • cyl.toLocal (d a)).n ^ 2) :=
    ((hx.e.pow_const 2).add (hx.n.pow_const 2)).sqrt
  have hz := hx.u.add (measurable_const (a := cyl.height / 2))
  have hang : Measurable fun a => cyl.angle (cyl.toLocal (o a - cyl.center) + t a • cyl.toLocal (d a)) :=
    (atan2_measurable hx.n hx.e).sub measurable_const
  have hs := (measurableSet_le (measurable_const (a := (0 : ℝ))) hz).inter ((measurableSet_le hz (measurable_const (a := cyl.height))).inter
    ((measurableSet_le (measurable_const (a := (0 : ℝ))) hang).inter (measurableSet_le hang (measurable_const (a := cyl.opening)))))
  unfold hitAt
  refine ML.ite ?_ ⟨?_, ?_, ?_⟩ (ML.const _)
  · exact hs
  · exact (hang.div measurable_const).mul measurable_const
  · exact (hz.div measurable_const).mul measurable_const
  · exact measurable_const.mul (((hl.e.mul (hx.e.div hn)).add (hl.n.mul (hx.n.div hn))).neg.max measurable_const)

theorem cylinder_measurable (W H : Nat) (m : ℝ) (cyl : Cylinder) {o d : α → V3 ℝ} (ho : MV o) (hd : MV d) : ML fun a => lineCylinder W H (o a) (d a) m cyl := by
  have hl := local_measurable cyl hd
  have hlo := local_measurable cyl (ho.sub (MV.const cyl.center))
  have q1 : Measurable fun a => (cyl.quadratic (o a) (d a)).1 := (hl.e.pow_const 2).add (hl.n.pow_const 2)
  have q2 : Measurable fun a => (cyl.quadratic (o a) (d a)).2.1 := measurable_const.mul ((hlo.e.mul hl.e).add (hlo.n.mul hl.n))
  have q3 : Measurable fun a => (cyl.quadratic (o a) (d a)).2.2 := ((hlo.e.pow_const 2).add (hlo.n.pow_const 2)).sub measurable_const
  have disc : Measurable fun a => (cyl.quadratic (o a) (d a)).2.1 ^ 2 - 4 * (cyl.quadratic (o a) (d a)).1 * (cyl.quadratic (o a) (d a)).2.2 :=
    (q2.pow_const 2).sub ((measurable_const.mul q1).mul q3)
  have s := (disc.add (measurable_const (a := (1 : ℝ) / 10 ^ 12))).sqrt
  have near := (q2.neg.sub s).div (measurable_const (a := (2 : ℝ)) |>.mul q1)
  have far := (q2.neg.add s).div (measurable_const (a := (2 : ℝ)) |>.mul q1)
  have habs : Measurable fun a => |(cyl.quadratic (o a) (d a)).1| := measurable_norm.comp q1
  have c0 := (measurableSet_le (measurable_const (a := (0 : ℝ))) disc).inter (measurableSet_lt (measurable_const (a := (1 : ℝ) / 10 ^ 8)) habs)
  have c1 := measurableSet_lt (measurable_const (a := (0 : ℝ))) near
  have c2 := measurableSet_lt (measurable_const (a := (0 : ℝ))) far
  simp only [lineCylinder_eq]
  refine ML.ite ?_ (ML.ite ?_ (ML.ite ?_ ?_ ?_) (ML.ite ?_ ?_ (ML.const _))) (ML.const _)
  · exact c0
  · exact c1
  · exact c2
  · exact hitAt_measurable W H m cyl ho hd (near.min far)
  · exact hitAt_measurable W H m cyl ho hd near
  · exact c2
  · exact hitAt_measurable W H m cyl ho hd far

theorem land_measurable (W H : Nat) (m : ℝ) (t : Target) {o d : α → V3 ℝ} (ho : MV o) (hd : MV d) : ML fun a => land W H m t (o a, d a) := by
  cases t with
  | planar p => exact plane_measurable W H m p ho hd
  | cylinder c => exact cylinder_measurable W H m c ho hd

theorem mask_measurable {blocked : V3 ℝ × V3 ℝ → ℝ} (hb : MeasurableMask blocked) {o d : α → V3 ℝ} (ho : MV o) (hd : MV d) :
    Measurable fun a => blocked (o a, d a) := by
  have : Measurable fun a => (![(o a).e, (o a).n, (o a).u, (d a).e, (d a).n, (d a).u] : Fin 6 → ℝ) := by
    rw [measurable_pi_iff]
    intro i
    fin_cases i
    · exact ho.e
    · exact ho.n
    · exact ho.u
    · exact hd.e
    · exact hd.n
    · exact hd.u
  exact hb.comp this

theorem hit_measurable (W H : Nat) (m ext refl : ℝ) (t : Target) {blocked : V3 ℝ × V3 ℝ → ℝ} (hb : MeasurableMask blocked) (r c : Nat) {o d : α → V3 ℝ} (ho : MV o) (hd : MV d) :
    Measurable fun a => contrib W H r c (hitOf W H m ext refl t blocked (o a, d a)) := by
  have hl := land_measurable W H m t ho hd
  exact contrib_measurable W H r c hl.e hl.u (((hl.intensity.mul (measurable_const.sub (mask_measurable hb ho hd))).mul measurable_const).mul measurable_const)

end

theorem direction_measurable (incident normal : Fin 4 → ℝ) : MV fun d : ℝ × ℝ => direction incident normal d.1 d.2 := by
  unfold direction rotDist
  constructor <;>
  · simp only [Matrix.mulVec, dotProduct, Fin.sum_univ_four]
    simp
    fun_prop

/-! ## The image as a mean over the rows -/

theorem land_scale (W H : Nat) (m : ℝ) (t : Target) (ray : V3 ℝ × V3 ℝ) :
    (land W H m t ray).e = (land W H 1 t ray).e ∧ (land W H m t ray).u = (land W H 1 t ray).u ∧ (land W H m t ray).intensity = m * (land W H 1 t ray).intensity := by
  cases t with
  | planar p =>
    refine ⟨rfl, rfl, ?_⟩
    unfold land linePlane
    dsimp only
    split_ifs <;> ring
  | cylinder cyl =>
    unfold land lineCylinder
    dsimp only
    cases cyl.distance ray.1 ray.2 with
    | none => simp
    | some t =>
      dsimp only
      split_ifs
      · exact ⟨rfl, rfl, by ring⟩
      · simp

theorem contrib_scale (W H r c : Nat) (m e u w : ℝ) : contrib W H r c ⟨e, u, m * w⟩ = m * contrib W H r c ⟨e, u, w⟩ := by
  unfold contrib entry1 entry2 entry3 entry4 onTarget
  dsimp only
  split_ifs <;> ring

/-- what a ray of unit power brings to a pixel -/
noncomputable def unit (s : Scene) (r c : Nat) (ray : V3 ℝ × V3 ℝ) : ℝ :=
  contrib s.W s.H (s.H - 1 - r) c (hitOf s.W s.H 1 s.extinction s.reflectivity s.target s.blocked ray)

theorem hit_scale (s : Scene) (m : ℝ) (r c : Nat) (ray : V3 ℝ × V3 ℝ) :
    contrib s.W s.H (s.H - 1 - r) c (hitOf s.W s.H m s.extinction s.reflectivity s.target s.blocked ray) = m * unit s r c ray := by
  obtain ⟨h1, h2, h3⟩ := land_scale s.W s.H m s.target ray
  unfold unit
  rw [← contrib_scale]
  unfold hitOf SoftMask.intensity
  dsimp only
  rw [h1, h2, h3]
  congr 2
  ring

theorem zip_ofFn {β γ : Type} (f : β → γ → ℝ) : ∀ (l : List β) (d : Fin l.length → γ), (List.zipWith f l (List.ofFn d)).sum = ∑ j : Fin l.length, f (l.get j) (d j)
  | [], _ => by simp
  | b :: l, d => by
    rw [List.ofFn_succ (f := d), List.zipWith_cons_cons, List.sum_cons, zip_ofFn f l]
    exact (Fin.sum_univ_succ (n := l.length) (fun j => f ((b :: l).get j) (d j))).symm

/-- the ray of a surface point -/
noncomputable def ray (s : Scene) (j : Fin s.points) (d : ℝ × ℝ) : V3 ℝ × V3 ℝ := ((s.surface.get j).1, direction s.incident (s.surface.get j).2 d.1 d.2)

theorem range_sum (f : Nat → ℝ) : ∀ N : Nat, ((List.range N).map f).sum = ∑ k ∈ Finset.range N, f k
  | 0 => by simp
  | N + 1 => by rw [List.range_succ, List.map_append, List.sum_append, range_sum f N, Finset.sum_range_succ]; simp

theorem image_sum (s : Scene) (hW : 0 < s.W) (hH : 0 < s.H) (r c : Nat) (hr : r < s.H) (hc : c < s.W) (N : Nat) (d : Nat → Fin s.points → ℝ × ℝ) :
    s.image r c N d = rayMagnitude (some s.dni) s.cantE s.cantN s.points N * ∑ k ∈ Finset.range N, ∑ j, unit s r c (ray s j (d k j)) := by
  unfold Scene.image Scene.trace traceSample
  rw [List.length_map, List.length_range]
  generalize rayMagnitude (some s.dni) s.cantE s.cantN s.points N = m
  obtain ⟨img, h1, -, -, h2⟩ := splat_spec s.W s.H hW hH ((raysOf s.incident s.surface ((List.range N).map fun k => List.ofFn (d k))).map
    (hitOf s.W s.H m s.extinction s.reflectivity s.target s.blocked))
  simp only [h1]
  have := h2 (s.H - 1 - r) c (by omega) hc
  rw [show s.H - 1 - (s.H - 1 - r) = r by omega, List.map_map] at this
  rw [this]
  unfold raysOf
  rw [FineMirror.sum_flat, List.map_map, range_sum, Finset.mul_sum]
  refine Finset.sum_congr rfl fun k _ => ?_
  rw [Function.comp_apply, List.map_zipWith]
  rw [zip_ofFn, Finset.mul_sum]
  refine Finset.sum_congr rfl fun j _ => ?_
  rw [Function.comp_apply]
  exact hit_scale s m r c _

/-- one image with one ray per point -/
noncomputable def one (s : Scene) (r c : Nat) (x : Fin s.points → ℝ × ℝ) : ℝ := s.image r c 1 fun _ => x

theorem image_mean (s : Scene) (hs : s.Regular) (r c : Nat) (hr : r < s.H) (hc : c < s.W) (N : Nat) (d : Nat → Fin s.points → ℝ × ℝ) :
    s.image r c N d = (∑ k ∈ Finset.range N, one s r c (d k)) / N := by
  have hW : 0 < s.W := by have := hs.width; omega
  have hH : 0 < s.H := by have := hs.height; omega
  unfold one
  simp only [image_sum s hW hH r c hr hc, Finset.range_one, Finset.sum_singleton]
  rw [← Finset.mul_sum]
  unfold rayMagnitude
  dsimp only
  rw [mul_one, Nat.cast_mul]
  ring

theorem one_measurable (s : Scene) (hs : s.Regular) (r c : Nat) (hr : r < s.H) (hc : c < s.W) : Measurable (one s r c) := by
  have hW : 0 < s.W := by have := hs.width; omega
  have hH : 0 < s.H := by have := hs.height; omega
  unfold one
  simp only [image_sum s hW hH r c hr hc, Finset.range_one, Finset.sum_singleton]
  refine measurable_const.mul (Finset.measurable_sum _ fun j _ => ?_)
  have : Measurable fun d : ℝ × ℝ => unit s r c (ray s j d) :=
    hit_measurable _ _ _ _ _ _ hs.mask _ _ (MV.const _) (direction_measurable _ _)
  exact this.comp (measurable_pi_apply j)

theorem unit_measurable (s : Scene) (hs : s.Regular) (r c : Nat) (j : Fin s.points) : Measurable fun d : ℝ × ℝ => unit s r c (ray s j d) :=
  hit_measurable _ _ _ _ _ _ hs.mask _ _ (MV.const _) (direction_measurable _ _)

theorem unit_bounds (s : Scene) (hs : s.Regular) (r c : Nat) (hr : r < s.H) (hc : c < s.W) (j : Fin s.points) (d : ℝ × ℝ) :
    0 ≤ unit s r c (ray s j d) ∧ unit s r c (ray s j d) ≤ (1 - s.extinction) * s.reflectivity := by
  obtain ⟨b, x, y, z, h1, h2, -, h4⟩ := C65_bound s.W s.H hs.width hs.height 1 s.extinction s.reflectivity zero_le_one hs.extinction hs.reflectivity s.target hs.target
    s.blocked hs.blocked s.incident hs.incident.1 hs.incident.2 [s.surface.get j] (by
      intro p hp
      rw [List.mem_singleton] at hp
      subst hp
      exact hs.normals _ (List.get_mem _ _)) [[d]]
  have e : raysOf s.incident [s.surface.get j] [[d]] = [ray s j d] := rfl
  rw [e] at h1 h4
  unfold traceSample at h1
  obtain ⟨img, g1, -, -, g2⟩ := splat_spec s.W s.H (by have := hs.width; omega) (by have := hs.height; omega)
    ([ray s j d].map (hitOf s.W s.H 1 s.extinction s.reflectivity s.target s.blocked))
  simp only [g1, Except.ok.injEq, Prod.mk.injEq] at h1
  have := g2 (s.H - 1 - r) c (by omega) hc
  rw [show s.H - 1 - (s.H - 1 - r) = r by omega, List.map_map, List.map_singleton, List.sum_singleton] at this
  have hu : unit s r c (ray s j d) = pixel b r c := by rw [← h1.1, this]; rfl
  rw [hu]
  refine ⟨h2 r c hr hc, ?_⟩
  have t1 : pixel b r c ≤ ∑ c ∈ Finset.range s.W, pixel b r c :=
    Finset.single_le_sum (f := fun c => pixel b r c) (fun c hc => h2 r c hr (Finset.mem_range.1 hc)) (Finset.mem_range.2 hc)
  have t2 : (∑ c ∈ Finset.range s.W, pixel b r c) ≤ power s.W s.H b :=
    Finset.single_le_sum (f := fun r => ∑ c ∈ Finset.range s.W, pixel b r c)
      (fun r hr => Finset.sum_nonneg fun c hc => h2 r c (Finset.mem_range.1 hr) (Finset.mem_range.1 hc)) (Finset.mem_range.2 hr)
  have t3 : (([ray s j d] : List _).length : ℝ) = 1 := by simp
  rw [t3] at h4
  linarith

theorem points_pos (s : Scene) (hs : s.Regular) : (0 : ℝ) < s.points := by
  have := List.length_pos_iff.2 hs.surface
  exact_mod_cast this

theorem magnitude_power (s : Scene) (hs : s.Regular) :
    0 ≤ rayMagnitude (some s.dni) s.cantE s.cantN s.points 1 ∧
      rayMagnitude (some s.dni) s.cantE s.cantN s.points 1 * ((1 - s.extinction) * s.reflectivity) = s.power / s.points := by
  have hp := points_pos s hs
  have h1 := Real.sqrt_nonneg (s.cantE 0 ^ 2 + s.cantN 0 ^ 2)
  have h2 := Real.sqrt_nonneg (s.cantE 1 ^ 2 + s.cantN 1 ^ 2)
  unfold rayMagnitude Scene.power
  dsimp only
  rw [mul_one]
  constructor
  · have := hs.dni
    positivity
  · ring

theorem one_bounds (s : Scene) (hs : s.Regular) (r c : Nat) (hr : r < s.H) (hc : c < s.W) (x : Fin s.points → ℝ × ℝ) : 0 ≤ one s r c x ∧ one s r c x ≤ s.power := by
  have hW : 0 < s.W := by have := hs.width; omega
  have hH : 0 < s.H := by have := hs.height; omega
  have hp := points_pos s hs
  obtain ⟨m0, m1⟩ := magnitude_power s hs
  unfold one
  rw [image_sum s hW hH r c hr hc, Finset.range_one, Finset.sum_singleton]
  have hb := fun j => unit_bounds s hs r c hr hc j (x j)
  constructor
  · exact mul_nonneg m0 (Finset.sum_nonneg fun j _ => (hb j).1)
  · have h : (∑ j, unit s r c (ray s j (x j))) ≤ s.points * ((1 - s.extinction) * s.reflectivity) := by
      refine (Finset.sum_le_sum fun j _ => (hb j).2).trans ?_
      simp
    calc _ ≤ rayMagnitude (some s.dni) s.cantE s.cantN s.points 1 * (s.points * ((1 - s.extinction) * s.reflectivity)) := mul_le_mul_of_nonneg_left h m0
      _ = s.points * (rayMagnitude (some s.dni) s.cantE s.cantN s.points 1 * ((1 - s.extinction) * s.reflectivity)) := by ring
      _ = s.power := by rw [m1]; field_simp

/-! ## Means and variances -/

section
variable {Ω : Type} [MeasurableSpace Ω] {μ : Measure Ω} [IsProbabilityMeasure μ]

theorem bounded_memLp {X : Ω → ℝ} {b : ℝ} (hX : AEMeasurable X μ) (h : ∀ ω, 0 ≤ X ω ∧ X ω ≤ b) (p : ENNReal) : MemLp X p μ :=
  MemLp.of_bound hX.aestronglyMeasurable b (Filter.Eventually.of_forall fun ω => by rw [Real.norm_eq_abs, abs_of_nonneg (h ω).1]; exact (h ω).2)

theorem variance_mean {X : ℕ → Ω → ℝ} {b : ℝ} (hX : ∀ k, AEMeasurable (X k) μ) (h : ∀ k ω, 0 ≤ X k ω ∧ X k ω ≤ b)
    (hi : Pairwise fun k l => IndepFun (X k) (X l) μ) (v : ℝ) (hv : ∀ k, variance (X k) μ = v) (N : Nat) :
    variance (fun ω => (∑ k ∈ Finset.range N, X k ω) / N) μ = v / N := by
  have e : (fun ω => (∑ k ∈ Finset.range N, X k ω) / (N : ℝ)) = fun ω => (N : ℝ)⁻¹ * (∑ k ∈ Finset.range N, X k) ω := by
    funext ω; rw [Finset.sum_apply]; ring
  rw [e, variance_const_mul, IndepFun.variance_sum (fun k _ => bounded_memLp (hX k) (h k) 2) (fun k _ l _ hkl => hi hkl), Finset.sum_congr rfl fun k _ => hv k,
    Finset.sum_const, Finset.card_range, nsmul_eq_mul]
  rcases Nat.eq_zero_or_pos N with rfl | hN
  · simp
  · have : (N : ℝ) ≠ 0 := by exact_mod_cast hN.ne'
    field_simp
end

section
variable {Ω : Type} [MeasurableSpace Ω] {μ : Measure Ω} [IsProbabilityMeasure μ]

theorem image_bounds (s : Scene) (hs : s.Regular) (r c : Nat) (hr : r < s.H) (hc : c < s.W) (N : Nat) (d : Nat → Fin s.points → ℝ × ℝ) :
    0 ≤ s.image r c N d ∧ s.image r c N d ≤ s.power := by
  rw [image_mean s hs r c hr hc]
  have hb := fun k => one_bounds s hs r c hr hc (d k)
  have h0 : 0 ≤ s.power := (hb 0).1.trans (hb 0).2
  refine ⟨div_nonneg (Finset.sum_nonneg fun k _ => (hb k).1) (Nat.cast_nonneg _), ?_⟩
  rcases Nat.eq_zero_or_pos N with rfl | hN
  · simpa using h0
  · rw [div_le_iff₀ (by exact_mod_cast hN)]
    refine (Finset.sum_le_sum fun k _ => (hb k).2).trans ?_
    rw [Finset.sum_const, Finset.card_range, nsmul_eq_mul, mul_comm]

/-- deviation from the mean if all rays are independent -/
theorem deviation (s : Scene) (hs : s.Regular) (D : Nat → Ω → Fin s.points → ℝ × ℝ) (hD : ∀ k j, AEMeasurable (fun ω => D k ω j) μ)
    (independent : Pairwise fun p q : Nat × Fin s.points => IndepFun (fun ω => D p.1 ω p.2) (fun ω => D q.1 ω q.2) μ)
    (N : Nat) (hN : 0 < N) (r c : Nat) (hr : r < s.H) (hc : c < s.W) (ε : ℝ) (hε : 0 < ε) :
    μ {ω | ε ≤ |s.image r c N (fun k => D k ω) - ∫ ω, s.image r c N (fun k => D k ω) ∂μ|} ≤ ENNReal.ofReal (s.power ^ 2 / (4 * s.points * N * ε ^ 2)) := by
  have hp := points_pos s hs
  have hN' : (0 : ℝ) < N := by exact_mod_cast hN
  set q := (1 - s.extinction) * s.reflectivity with hq
  set M := rayMagnitude (some s.dni) s.cantE s.cantN s.points N with hM
  have hMq : M * q = s.power / (s.points * N) := by
    rw [hM, hq]
    unfold rayMagnitude Scene.power
    dsimp only
    push_cast
    ring
  let Y : Nat × Fin s.points → Ω → ℝ := fun p ω => unit s r c (ray s p.2 (D p.1 ω p.2))
  have hYm : ∀ p, AEMeasurable (Y p) μ := fun p => (unit_measurable s hs r c p.2).comp_aemeasurable (hD p.1 p.2)
  have hYb : ∀ p ω, 0 ≤ Y p ω ∧ Y p ω ≤ q := fun p ω => unit_bounds s hs r c hr hc p.2 _
  have e : (fun ω => s.image r c N fun k => D k ω) = fun ω => M * (∑ p ∈ Finset.range N ×ˢ Finset.univ, Y p) ω := by
    funext ω
    rw [image_sum s (by have := hs.width; omega) (by have := hs.height; omega) r c hr hc, Finset.sum_apply, Finset.sum_product]
  have hm : AEMeasurable (fun ω => s.image r c N fun k => D k ω) μ := by
    rw [e]
    exact (Finset.aemeasurable_sum _ fun p _ => hYm p).const_mul M
  have hl := bounded_memLp hm (fun ω => image_bounds s hs r c hr hc N fun k => D k ω) 2
  refine (meas_ge_le_variance_div_sq hl hε).trans (ENNReal.ofReal_le_ofReal ?_)
  have hv : variance (fun ω => s.image r c N fun k => D k ω) μ ≤ M ^ 2 * (N * s.points * (q / 2) ^ 2) := by
    rw [e, variance_const_mul, IndepFun.variance_sum (fun p _ => bounded_memLp (hYm p) (hYb p) 2)
      (fun p _ p' _ hpp => (independent hpp).comp (unit_measurable s hs r c p.2) (unit_measurable s hs r c p'.2))]
    refine mul_le_mul_of_nonneg_left ?_ (sq_nonneg _)
    refine (Finset.sum_le_sum fun p _ => variance_le_sq_of_bounded (Filter.Eventually.of_forall fun ω => hYb p ω) (hYm p)).trans ?_
    rw [Finset.sum_const, Finset.card_product, Finset.card_range, Finset.card_univ, Fintype.card_fin, nsmul_eq_mul, sub_zero]
    push_cast
    exact le_rfl
  calc _ ≤ M ^ 2 * (N * s.points * (q / 2) ^ 2) / ε ^ 2 := by gcongr
    _ = (M * q) ^ 2 * (N * s.points) / (4 * ε ^ 2) := by field_simp; ring
    _ = s.power ^ 2 / (4 * s.points * N * ε ^ 2) := by rw [hMq]; field_simp

end

/-! ## The soft mask -/

noncomputable def sigmaValue (eps softness offset : ℝ) (origin dir : V3 ℝ) (r : Rect) : ℝ :=
  let d := SoftMask.planeDistance eps origin dir r
  let uv := planeCoordinates eps origin dir r
  let front := sigmoid (softness * (d - offset))
  let insideU := sigmoid (softness * uv.1) * sigmoid (softness * (1 - uv.1))
  let insideV := sigmoid (softness * uv.2) * sigmoid (softness * (1 - uv.2))
  min (max (insideU * insideV * front) 0) 1

theorem softMask_value (eps softness alpha offset : ℝ) (o d : V3 ℝ) (rects : List Rect) (x : ℝ) (h : softMask eps softness alpha offset o d rects = some x) :
    x = 1 - Real.exp (-(alpha * (rects.map (sigmaValue eps softness offset o d)).sum)) := by
  have key : ∀ (rs : List Rect) (l : List ℝ), rs.mapM (sigma eps softness offset o d) = some l → l = rs.map (sigmaValue eps softness offset o d) := by
    intro rs
    induction rs with
    | nil => intro l h; simp at h; exact h
    | cons a rs ih =>
      intro l h
      simp only [List.mapM_cons, Option.bind_eq_bind, Option.bind_eq_some_iff, Option.pure_def, Option.some.injEq] at h
      obtain ⟨v, hv, l', hl', rfl⟩ := h
      rw [List.map_cons, ← ih l' hl']
      congr 1
      unfold sigma at hv
      by_cases hz : safeDet eps (gram a) = 0
      · rw [if_pos hz] at hv; exact absurd hv (by simp)
      · rw [if_neg hz] at hv
        exact (Option.some.inj hv).symm
  unfold softMask at h
  cases hm : rects.mapM (sigma eps softness offset o d) with
  | none => rw [hm] at h; exact absurd h (by simp)
  | some l =>
    rw [hm] at h
    rw [← key rects l hm]
    exact (Option.some.inj h).symm

theorem sigmoid_measurable {α : Type} [MeasurableSpace α] {f : α → ℝ} (hf : Measurable f) : Measurable fun a => sigmoid (f a) :=
  measurable_const.div (measurable_const.add (Real.measurable_exp.comp hf.neg))

theorem sigma_measurable {α : Type} [MeasurableSpace α] (eps softness offset : ℝ) (r : Rect) {o d : α → V3 ℝ} (ho : MV o) (hd : MV d) :
    Measurable fun a => sigmaValue eps softness offset (o a) (d a) r := by
  have hdn : Measurable fun a => V3.dot (d a) r.normal := hd.dot (MV.const _)
  have habs : Measurable fun a => |V3.dot (d a) r.normal| := measurable_norm.comp hdn
  have hsafe : Measurable fun a => safeDenominator eps (V3.dot (d a) r.normal) :=
    Measurable.ite (measurableSet_lt habs measurable_const) (Measurable.ite (measurableSet_le measurable_const hdn) measurable_const measurable_const) hdn
  have hdist : Measurable fun a => SoftMask.planeDistance eps (o a) (d a) r := (((MV.const _).sub ho).dot (MV.const _)).div hsafe
  have hoff : MV fun a => (o a + SoftMask.planeDistance eps (o a) (d a) r • d a) - r.corner := (ho.add (MV.smul hdist hd)).sub (MV.const _)
  have pu := hoff.dot (MV.const r.spanU)
  have pv := hoff.dot (MV.const r.spanV)
  have h1 : Measurable fun a => (planeCoordinates eps (o a) (d a) r).1 := ((pu.mul measurable_const).sub (pv.mul measurable_const)).div measurable_const
  have h2 : Measurable fun a => (planeCoordinates eps (o a) (d a) r).2 := ((pv.mul measurable_const).sub (pu.mul measurable_const)).div measurable_const
  have k : ∀ {f : α → ℝ}, Measurable f → Measurable fun a => sigmoid (softness * f a) * sigmoid (softness * (1 - f a)) := fun hf =>
    (sigmoid_measurable (measurable_const.mul hf)).mul (sigmoid_measurable (measurable_const.mul (measurable_const.sub hf)))
  exact ((((k h1).mul (k h2)).mul (sigmoid_measurable (measurable_const.mul (hdist.sub measurable_const)))).max measurable_const).min measurable_const

theorem softSum_measurable {α : Type} [MeasurableSpace α] (eps softness offset alpha : ℝ) (rects : List Rect) {o d : α → V3 ℝ} (ho : MV o) (hd : MV d) :
    Measurable fun a => 1 - Real.exp (-(alpha * (rects.map fun r => sigmaValue eps softness offset (o a) (d a) r).sum)) := by
  have hs : Measurable fun a => (rects.map fun r => sigmaValue eps softness offset (o a) (d a) r).sum := by
    induction rects with
    | nil => simp
    | cons r rects ih =>
      simp only [List.map_cons, List.sum_cons]
      exact (sigma_measurable _ _ _ r ho hd).add ih
  exact measurable_const.sub (Real.measurable_exp.comp (measurable_const.mul hs).neg)

end Artist.ManyRays
