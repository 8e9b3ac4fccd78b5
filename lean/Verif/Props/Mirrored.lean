import Verif.Spec.Mirrored
import Verif.Props.Flux
/-!
# C96: a mirrored scene gives the mirrored image
-/
namespace Artist.Mirrored
open Artist Intersect Splat Flux Transforms Matrix SoftMask

theorem dot_vec (a b : V3 ℝ) : V3.dot (vec a) (vec b) = V3.dot a b := by unfold V3.dot vec; simp

theorem sub_vec (a b : V3 ℝ) : vec a - vec b = vec (a - b) := by ext <;> simp [vec]; ring

theorem move_vec (a d : V3 ℝ) (t : ℝ) : vec a + t • vec d = vec (a + t • d) := by ext <;> simp [vec]; ring

theorem planePoint_vec (o d : V3 ℝ) (p : Plane ℝ) : planePoint (vec o) (vec d) (plane p) = vec (planePoint o d p) ∧
    Intersect.planeDistance (vec o) (vec d) (plane p) = Intersect.planeDistance o d p := by
  have h : Intersect.planeDistance (vec o) (vec d) (plane p) = Intersect.planeDistance o d p := by
    unfold Intersect.planeDistance planeAngle plane
    simp only [sub_vec, dot_vec]
  refine ⟨?_, h⟩
  unfold planePoint
  rw [h, move_vec]

theorem onTarget_vec (p : Plane ℝ) (q : V3 ℝ) : OnTarget (plane p) (vec q) ↔ OnTarget p q := by
  unfold OnTarget plane
  simp only [sub_vec, dot_vec]
  have : (vec q).e - (vec p.center).e = -(q.e - p.center.e) := by simp [vec]; ring
  constructor <;> (rintro ⟨h1, h2, h3⟩; refine ⟨h1, ?_, h3⟩)
  · simpa [vec, abs_sub_comm, ← sub_eq_neg_add, neg_add_eq_sub] using h2
  · simpa [vec, abs_sub_comm, ← sub_eq_neg_add, neg_add_eq_sub] using h2

theorem plane_on_line (o d : V3 ℝ) (p : Plane ℝ) (hf : V3.dot d p.normal < 0) : V3.dot (planePoint o d p - p.center) p.normal = 0 := by
  unfold planePoint Intersect.planeDistance planeAngle
  simp only [hf, decide_true, if_true]
  have hne : V3.dot d p.normal ≠ 0 := hf.ne
  have : V3.dot (o + (V3.dot (p.center - o) p.normal / V3.dot d p.normal) • d - p.center) p.normal =
      V3.dot (o - p.center) p.normal + V3.dot (p.center - o) p.normal / V3.dot d p.normal * V3.dot d p.normal := by
    unfold V3.dot; simp; ring
  rw [this, div_mul_cancel₀ _ hne]
  unfold V3.dot; simp; ring

theorem tent_neg (x : ℝ) : tent (-x) = tent x := by unfold tent; rw [abs_neg]

/-- what a ray and its mirror image leave in a pixel and in the mirrored pixel -/
theorem mirrored_share (W H : Nat) (hW : 2 ≤ W) (hH : 2 ≤ H) (m ext refl : ℝ) (p : Plane ℝ) (hw : 0 < p.width) (hh : 0 < p.height) (r : V3 ℝ × V3 ℝ)
    (blocked blocked' : V3 ℝ × V3 ℝ → ℝ) (hb : blocked' (ray r) = blocked r) (hedge : OffEdges p r) :
    (hitOf W H m ext refl (.planar (plane p)) blocked' (ray r)).w = (hitOf W H m ext refl (.planar p) blocked r).w ∧
    (land W H m (.planar (plane p)) (ray r)).intensity = (land W H m (.planar p) r).intensity ∧
    ∀ (y c : Nat), c < W → (let h := hitOf W H m ext refl (.planar (plane p)) blocked' (ray r); if Inside W H h then h.w * (tent (h.e - (c : ℝ)) * tent (h.u - (y : ℝ))) else 0) =
      (let h := hitOf W H m ext refl (.planar p) blocked r; if Inside W H h then h.w * (tent (h.e - ((W - 1 - c : Nat) : ℝ)) * tent (h.u - (y : ℝ))) else 0) := by
  obtain ⟨o, d⟩ := r
  have hw' : 0 < (plane p).width := hw
  have hh' : 0 < (plane p).height := hh
  have hd : V3.dot (vec d) (plane p).normal = V3.dot d p.normal := dot_vec d p.normal
  have hW1 : (0 : ℝ) < (W : ℝ) - 1 := by
    have : (2 : ℝ) ≤ (W : ℝ) := by exact_mod_cast hW
    linarith
  have hcast : ∀ c : Nat, c < W → ((W - 1 - c : Nat) : ℝ) = (W : ℝ) - 1 - c := by
    intro c hc
    rw [Nat.cast_sub (by omega), Nat.cast_sub (by omega)]; simp
  have hu : (vec (planePoint o d p)).u = (planePoint o d p).u := rfl
  have hcu : (plane p).center.u = p.center.u := rfl
  have he : (vec (planePoint o d p)).e - (plane p).center.e = -((planePoint o d p).e - p.center.e) := by simp [vec, plane]; ring
  rcases linePlane_spec W H hW hH o d m p hw hh with ⟨hf, hon, heq⟩ | ⟨hno, heq⟩
  · rcases linePlane_spec W H hW hH (vec o) (vec d) m (plane p) hw' hh' with ⟨_, _, heq'⟩ | ⟨hno', _⟩
    · rw [(planePoint_vec o d p).1, (planePoint_vec o d p).2, hd, hu, hcu, he] at heq'
      have hx := hedge (Intersect.planeDistance o d p) (plane_on_line o d p hf)
      change |(planePoint o d p).e - p.center.e| ≠ p.width / 2 at hx
      set x := (planePoint o d p).e - p.center.e with hxdef
      have hlt : |x| < p.width / 2 := lt_of_le_of_ne hon.2.1 hx
      obtain ⟨hx1, hx2⟩ := abs_lt.1 hlt
      have hlo : -(1 / 2) < x / p.width := by rw [lt_div_iff₀ hw]; linarith
      have hhi : x / p.width < 1 / 2 := by rw [div_lt_iff₀ hw]; linarith
      refine ⟨?_, ?_, ?_⟩
      · unfold hitOf land ray
        simp only [heq, heq']
        rw [show blocked' (vec o, vec d) = blocked (o, d) from hb]
      · unfold land ray
        simp only [heq, heq']
      · intro y c hc
        unfold hitOf land ray
        simp only [heq, heq']
        rw [show blocked' (vec o, vec d) = blocked (o, d) from hb, hcast c hc]
        have hE : ((W : ℝ) - 1) * (1 / 2 - -x / (plane p).width) = ((W : ℝ) - 1) - ((W : ℝ) - 1) * (1 / 2 - x / p.width) := by
          change ((W : ℝ) - 1) * (1 / 2 - -x / p.width) = _
          ring
        rw [hE]
        set E := ((W : ℝ) - 1) * (1 / 2 - x / p.width) with hEdef
        have hE0 : 0 < E := mul_pos hW1 (by linarith)
        have hE1 : E < (W : ℝ) - 1 := by
          have := mul_lt_mul_of_pos_left (by linarith : 1 / 2 - x / p.width < 1) hW1
          rw [mul_one] at this
          exact this
        have hcond : Inside W H (⟨(W : ℝ) - 1 - E, ((H : ℝ) - 1) * (1 / 2 + ((planePoint o d p).u - p.center.u) / (plane p).height),
              intensity (m * -(V3.dot d p.normal)) (blocked (o, d)) ext refl⟩ : Hit ℝ) ↔
            Inside W H (⟨E, ((H : ℝ) - 1) * (1 / 2 + ((planePoint o d p).u - p.center.u) / p.height), intensity (m * -(V3.dot d p.normal)) (blocked (o, d)) ext refl⟩ : Hit ℝ) := by
          unfold Inside
          constructor
          · rintro ⟨_, h⟩; exact ⟨⟨hE0.le, hE1⟩, h⟩
          · rintro ⟨_, h⟩; exact ⟨⟨by dsimp only; linarith, by dsimp only; linarith⟩, h⟩
        have ht : tent ((W : ℝ) - 1 - E - c) = tent (E - ((W : ℝ) - 1 - c)) := by
          rw [← tent_neg]; congr 1; ring
        simp only [hcond, ht]
        rfl
    · exact absurd ⟨by rw [hd]; exact hf, by rw [(planePoint_vec o d p).1, onTarget_vec]; exact hon⟩ hno'
  · rcases linePlane_spec W H hW hH (vec o) (vec d) m (plane p) hw' hh' with ⟨hf', hon', _⟩ | ⟨_, heq'⟩
    · rw [hd] at hf'
      rw [(planePoint_vec o d p).1, onTarget_vec] at hon'
      exact absurd ⟨hf', hon'⟩ hno
    · refine ⟨?_, ?_, ?_⟩
      · unfold hitOf land ray
        simp only [heq, heq', intensity, zero_mul]
      · unfold land ray
        simp only [heq, heq']
      · intro y c _
        unfold hitOf land ray
        simp only [heq, heq', intensity, zero_mul, ite_self]

/-- what two samples leave in a pixel and in the mirrored pixel, ray by ray -/
def SameShare (W H : Nat) (m ext refl : ℝ) (t t' : Target) (blocked blocked' : V3 ℝ × V3 ℝ → ℝ) (r : V3 ℝ × V3 ℝ) : Prop :=
  (hitOf W H m ext refl t' blocked' (ray r)).w = (hitOf W H m ext refl t blocked r).w ∧
    (land W H m t' (ray r)).intensity = (land W H m t r).intensity ∧
    ∀ (y c : Nat), c < W → (let h := hitOf W H m ext refl t' blocked' (ray r); if Inside W H h then h.w * (tent (h.e - (c : ℝ)) * tent (h.u - (y : ℝ))) else 0) =
      (let h := hitOf W H m ext refl t blocked r; if Inside W H h then h.w * (tent (h.e - ((W - 1 - c : Nat) : ℝ)) * tent (h.u - (y : ℝ))) else 0)

theorem image_of_share (W H : Nat) (hW : 2 ≤ W) (hH : 2 ≤ H) (m ext refl : ℝ) (t t' : Target)
    (hpos : ∀ r, 0 ≤ (land W H m t r).e ∧ 0 ≤ (land W H m t r).u) (hpos' : ∀ r, 0 ≤ (land W H m t' r).e ∧ 0 ≤ (land W H m t' r).u)
    (blocked blocked' : V3 ℝ × V3 ℝ → ℝ) (rays : List (V3 ℝ × V3 ℝ)) (hb : ∀ r ∈ rays, blocked' (ray r) = blocked r)
    (hshare : ∀ r ∈ rays, SameShare W H m ext refl t t' blocked blocked' r) :
    ∃ bitmap bitmap' factors, traceSample W H m ext refl t blocked rays = .ok (bitmap, factors) ∧
      traceSample W H m ext refl t' blocked' (rays.map ray) = .ok (bitmap', factors) ∧
      ∀ y c, y < H → c < W → pixel bitmap' y c = pixel bitmap y (W - 1 - c) := by
  have hposs : ∀ (t : Target) (blocked : V3 ℝ × V3 ℝ → ℝ) (rays : List (V3 ℝ × V3 ℝ)), (∀ r, 0 ≤ (land W H m t r).e ∧ 0 ≤ (land W H m t r).u) →
      ∀ h ∈ rays.map (hitOf W H m ext refl t blocked), 0 ≤ h.e ∧ 0 ≤ h.u := by
    intro t blocked rays ht h hm
    obtain ⟨r, _, rfl⟩ := List.mem_map.1 hm
    exact ht r
  obtain ⟨b, hs, _, _, hpix⟩ := C08_pixel W H (by omega) (by omega) _ (hposs t blocked rays hpos)
  obtain ⟨b', hs', _, _, hpix'⟩ := C08_pixel W H (by omega) (by omega) _ (hposs t' blocked' (rays.map ray) hpos')
  obtain ⟨f, hf⟩ : ∃ f, traceSample W H m ext refl t blocked rays = .ok (b, f) := by
    unfold traceSample; simp only [hs]; exact ⟨_, rfl⟩
  refine ⟨b, b', f, hf, ?_, ?_⟩
  · unfold traceSample at hf ⊢
    simp only [hs, Except.ok.injEq, Prod.mk.injEq, true_and] at hf
    rw [← hf]
    simp only [hs', List.length_map, List.countP_map]
    rw [List.countP_congr (p := (fun r => decide (0 < (hitOf W H m ext refl t' blocked' r).w)) ∘ ray)
        (q := fun r => decide (0 < (hitOf W H m ext refl t blocked r).w)) (fun r hr => by simp [(hshare r hr).1]),
      List.countP_congr (p := (fun r => decide (0 < (land W H m t' r).intensity)) ∘ ray)
        (q := fun r => decide (0 < (land W H m t r).intensity)) (fun r hr => by simp [(hshare r hr).2.1]),
      List.countP_congr (p := (fun r => decide (blocked' r < 1 / 10 ^ 3)) ∘ ray) (q := fun r => decide (blocked r < 1 / 10 ^ 3)) (fun r hr => by simp [hb r hr])]
  · intro y c hy hc
    have e : y = H - 1 - (H - 1 - y) := by omega
    rw [e, hpix' _ c (by omega) hc, hpix _ (W - 1 - c) (by omega) (by omega), List.map_map, List.map_map, List.map_map]
    congr 1
    apply List.map_congr_left
    intro r hr
    exact (hshare r hr).2.2 (H - 1 - y) c hc

/-- Partial, C96 for any rays: they are mirrored together with a planar target; then the image is mirrored (column `c` and column `W - 1 - c` change places) and the three factors are the
same, whatever is blocked as long as it is blocked alike.  Missing for the full claim: rays that meet the left or the right edge exactly, for which it is false (`C96_edges_differ`), and cylindrical targets. -/
theorem C96_image_partial (W H : Nat) (hW : 2 ≤ W) (hH : 2 ≤ H) (m ext refl : ℝ) (p : Plane ℝ) (hw : 0 < p.width) (hh : 0 < p.height)
    (blocked blocked' : V3 ℝ × V3 ℝ → ℝ) (rays : List (V3 ℝ × V3 ℝ)) (hb : ∀ r ∈ rays, blocked' (ray r) = blocked r) (hedge : ∀ r ∈ rays, OffEdges p r) :
    ∃ bitmap bitmap' factors, traceSample W H m ext refl (.planar p) blocked rays = .ok (bitmap, factors) ∧
      traceSample W H m ext refl (.planar (plane p)) blocked' (rays.map ray) = .ok (bitmap', factors) ∧
      ∀ y c, y < H → c < W → pixel bitmap' y c = pixel bitmap y (W - 1 - c) := by
  have hpos : ∀ (p : Plane ℝ), 0 < p.width → 0 < p.height → ∀ r, 0 ≤ (land W H m (.planar p) r).e ∧ 0 ≤ (land W H m (.planar p) r).u := by
    intro p hw hh r
    have := C17_coordinates_in_bitmap W H hW hH r.1 r.2 m p hw hh
    exact ⟨this.1.1, this.2.1⟩
  exact image_of_share W H hW hH m ext refl _ _ (hpos p hw hh) (hpos (plane p) hw hh) blocked blocked' rays hb
    fun r hr => mirrored_share W H hW hH m ext refl p hw hh r blocked blocked' (hb r hr) (hedge r hr)

theorem direction_mirrored (incident normal : Fin 4 → ℝ) (e u : ℝ) : direction (vec4 incident) (vec4 normal) e (-u) = vec (direction incident normal e u) := by
  unfold direction reflect vec4 vec rotDist
  ext <;> simp [mulVec, dotProduct, Fin.sum_univ_four, Matrix.vecHead, Matrix.vecTail] <;> ring

/-- the rays of the mirrored mirror under the mirrored sun are the mirrored rays -/
theorem raysOf_mirrored (incident : Fin 4 → ℝ) (surface : List (V3 ℝ × (Fin 4 → ℝ))) (distortions : List (List (ℝ × ℝ))) :
    raysOf (vec4 incident) (surface.map point) (distortions.map (·.map distortion)) = (raysOf incident surface distortions).map ray := by
  unfold raysOf
  rw [List.flatMap_map, List.map_flatMap]
  congr 1
  funext row
  rw [List.zipWith_map, List.map_zipWith]
  congr 1
  funext s d
  simp only [point, distortion, ray, direction_mirrored]

/-- Partial, C96 for a scene: the direction of the sun, the surface with its normals, the distortions of the sun and the planar target are mirrored, nothing is blocked.  The image is mirrored and the factors are the same,
unless a ray meets the left or the right edge of the target exactly. -/
theorem C96_scene_partial (W H : Nat) (hW : 2 ≤ W) (hH : 2 ≤ H) (m ext refl : ℝ) (p : Plane ℝ) (hw : 0 < p.width) (hh : 0 < p.height)
    (incident : Fin 4 → ℝ) (surface : List (V3 ℝ × (Fin 4 → ℝ))) (distortions : List (List (ℝ × ℝ))) (hedge : ∀ r ∈ raysOf incident surface distortions, OffEdges p r) :
    ∃ bitmap bitmap' factors, traceSample W H m ext refl (.planar p) (fun _ => 0) (raysOf incident surface distortions) = .ok (bitmap, factors) ∧
      traceSample W H m ext refl (.planar (plane p)) (fun _ => 0) (raysOf (vec4 incident) (surface.map point) (distortions.map (·.map distortion))) = .ok (bitmap', factors) ∧
      ∀ y c, y < H → c < W → pixel bitmap' y c = pixel bitmap y (W - 1 - c) := by
  rw [raysOf_mirrored]
  exact C96_image_partial W H hW hH m ext refl p hw hh _ _ _ (fun _ _ => rfl) hedge

/-- C96 is false at the edges: a ray that meets the right edge of the target (east for this one) is recorded, its mirror image, which meets the left edge of the mirrored target, is not. -/
theorem C96_edges_differ : ∃ bitmap bitmap' f f',
    traceSample 2 2 1 0 1 (.planar southTarget) (fun _ => 0) [(⟨1, -50, 10⟩, ⟨0, 1, 0⟩)] = .ok (bitmap, f) ∧
    traceSample 2 2 1 0 1 (.planar (plane southTarget)) (fun _ => 0) ([(⟨1, -50, 10⟩, ⟨0, 1, 0⟩)].map ray) = .ok (bitmap', f') ∧
    power 2 2 bitmap = 1 ∧ power 2 2 bitmap' = 0 := by
  obtain ⟨b, f, h1, h2⟩ := C65_planar_total 2 2 (le_refl _) (le_refl _) 1 0 1 southTarget southTarget_valid.1 southTarget_valid.2.1 (fun _ => 0) [(⟨1, -50, 10⟩, ⟨0, 1, 0⟩)]
  obtain ⟨b', f', h1', h2'⟩ := C65_planar_total 2 2 (le_refl _) (le_refl _) 1 0 1 (plane southTarget) southTarget_valid.1 southTarget_valid.2.1 (fun _ => 0)
    ([(⟨1, -50, 10⟩, ⟨0, 1, 0⟩)].map ray)
  refine ⟨b, b', f, f', h1, h1', h2.trans ?_, h2'.trans ?_⟩
  · have : Lands southTarget (⟨1, -50, 10⟩, ⟨0, 1, 0⟩) := by
      refine ⟨by unfold southTarget V3.dot; norm_num, 50, ?_⟩
      unfold southTarget V3.dot; norm_num
    simp only [List.map_cons, List.map_nil, if_pos this]
    unfold southTarget V3.dot; norm_num
  · have : ¬ Lands (plane southTarget) (ray (⟨1, -50, 10⟩, ⟨0, 1, 0⟩)) := by
      rintro ⟨_, t, h⟩
      have := h.2.1.1
      unfold southTarget plane ray vec at this
      norm_num at this
    simp only [List.map_cons, List.map_nil, if_neg this]
    norm_num

/-- a ray that hits the right half of the target meets the hypothesis; its image is not symmetric -/
example : OffEdges southTarget (⟨1 / 2, -50, 10⟩, ⟨0, 1, 0⟩) ∧ Lands southTarget (⟨1 / 2, -50, 10⟩, ⟨0, 1, 0⟩) := by
  constructor
  · intro t _ h
    unfold southTarget at h
    norm_num at h
  · refine ⟨by unfold southTarget V3.dot; norm_num, 50, ?_⟩
    unfold southTarget V3.dot; norm_num

end Artist.Mirrored
