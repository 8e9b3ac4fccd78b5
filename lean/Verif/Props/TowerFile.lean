import Verif.Proofs.TowerFile
import Verif.Props.Tower
import Mathlib.Tactic.FinCases
/-!
# C76: the target areas of a loaded scenario are those configured
-/
namespace Artist.TowerFile
open Artist Flatten

/-- The tensor holds these four numbers; a leading dimension of length 1 does not matter. -/
def IsRow (v : Val) (w : Fin 4 → ℝ) : Prop := v = .vec [w 0, w 1, w 2, w 3] ∨ v = .row [w 0, w 1, w 2, w 3]

/-- The configuration describes this planar area. -/
def PlanarCfg.Means (c : PlanarCfg) (a : PlanarArea) : Prop :=
  IsRow c.center a.center ∧ IsRow c.normal a.normal ∧ c.planeE = .scalar a.width ∧ c.planeU = .scalar a.height

/-- The configuration describes this cylindrical area. -/
def CylinderCfg.Means (c : CylinderCfg) (a : CylinderArea) : Prop :=
  c.radius = .scalar a.radius ∧ IsRow c.center a.center ∧ c.height = .scalar a.height ∧ IsRow c.axis a.axis ∧ IsRow c.normal a.normal ∧
    c.opening = .scalar a.opening

/-- The last configuration with its name. -/
def Last {C : Type} (key : C → Key) (cs : List C) (c : C) : Prop := ∃ pre post, cs = pre ++ c :: post ∧ ∀ d ∈ post, key d ≠ key c

/-- The loaded areas are the configured ones, sorted by name; of several with the same name the last one counts. -/
def Loaded {C A : Type} (key : C → Key) (means : C → A → Prop) (cs : List C) (as : List (Key × A)) : Prop :=
  (as.map (·.1)).Nodup ∧ (as.map (·.1)).Pairwise (fun a b => Field.lexLe a b = true) ∧ (∀ k, k ∈ as.map (·.1) ↔ k ∈ cs.map key) ∧
    ∀ x ∈ as, ∀ c, Last key cs c → key c = x.1 → means c x.2

theorem assign_row (v : Val) (w : Fin 4 → ℝ) (h : IsRow v w) : assign4 v = .ok w := by
  have : (![w 0, w 1, w 2, w 3] : Fin 4 → ℝ) = w := by
    funext i
    fin_cases i <;> rfl
  rcases h with rfl | rfl
  · exact congrArg Except.ok this
  · exact congrArg Except.ok this

theorem last_get {C : Type} (key : C → Key) (dict : C → List (Key × Val)) (cs : List C) (c : C) (h : Last key cs c) :
    dictGet (cs.map fun c => (key c, dict c)).reverse (key c) = some (dict c) := by
  obtain ⟨pre, post, rfl, hp⟩ := h
  rw [← List.map_reverse, List.reverse_append, List.reverse_cons, List.append_assoc, List.map_append]
  have : ∀ (m : List C) r, (∀ d ∈ m, key d ≠ key c) → dictGet (m.map (fun c => (key c, dict c)) ++ r) (key c) = dictGet r (key c) := by
    intro m r hm
    induction m with
    | nil => rfl
    | cons a m ih =>
      rw [List.map_cons, List.cons_append, dictGet, if_neg (hm a (by simp)), ih fun d hd => hm d (List.mem_cons_of_mem _ hd)]
  rw [this _ _ fun d hd => hp d (List.mem_reverse.1 hd)]
  simp [dictGet]

theorem exists_last {C : Type} (key : C → Key) (cs : List C) (k : Key) (h : k ∈ cs.map key) : ∃ c, Last key cs c ∧ key c = k := by
  induction cs with
  | nil => cases h
  | cons a cs ih =>
    by_cases hk : k ∈ cs.map key
    · obtain ⟨c, ⟨pre, post, rfl, hp⟩, hc⟩ := ih hk
      exact ⟨c, ⟨a :: pre, post, rfl, hp⟩, hc⟩
    · rw [List.map_cons, List.mem_cons] at h
      rcases h with rfl | h
      · exact ⟨a, ⟨[], cs, rfl, fun d hd e => hk (e ▸ List.mem_map_of_mem hd)⟩, rfl⟩
      · exact absurd h hk

theorem last_mem {C : Type} (key : C → Key) (cs : List C) (c : C) (h : Last key cs c) : c ∈ cs := by
  obtain ⟨pre, post, rfl, -⟩ := h; simp

theorem planar_good (c : PlanarCfg) : GoodDict (planarDict c) := by
  refine ⟨by simp [planarDict], ?_, ?_⟩
  · simp only [planarDict, List.map]; decide +kernel
  · intro x hx
    have : x.1 ∈ (planarDict c).map (·.1) := List.mem_map_of_mem hx
    simp only [planarDict, List.map] at this
    revert this
    generalize x.1 = k
    revert k
    unfold GoodKey
    decide +kernel

theorem cylinder_good (c : CylinderCfg) : GoodDict (cylinderDict c) := by
  refine ⟨by simp [cylinderDict], ?_, ?_⟩
  · simp only [cylinderDict, List.map]; decide +kernel
  · intro x hx
    have : x.1 ∈ (cylinderDict c).map (·.1) := List.mem_map_of_mem hx
    simp only [cylinderDict, List.map] at this
    revert this
    generalize x.1 = k
    revert k
    unfold GoodKey
    decide +kernel

theorem load_planar (cs : List PlanarCfg) (hg : ∀ c ∈ cs, GoodKey c.key) (c : PlanarCfg) (h : Last PlanarCfg.key cs c) :
    loadPlanar (writePlanar cs) c.key = (do
      let center ← assign4 c.center
      let normal ← assign4 c.normal
      let width ← toFloat c.planeE
      let height ← toFloat c.planeU
      pure ⟨center, normal, width, height⟩) := by
  have hgood : ∀ x ∈ cs.map (fun c => (c.key, planarDict c)), GoodKey x.1 ∧ GoodDict x.2 := by
    intro x hx
    obtain ⟨d, hd, rfl⟩ := List.mem_map.1 hx
    exact ⟨hg d hd, planar_good d⟩
  have hget := fun p hp v => get_write _ hgood c.key p (hg c (last_mem _ _ _ h)) hp (planarDict c) (last_get PlanarCfg.key planarDict cs c h) v
  have n1 : "position_center".toList ≠ "normal_vector".toList := by decide +kernel
  have n2 : "position_center".toList ≠ "plane_e".toList := by decide +kernel
  have n3 : "position_center".toList ≠ "plane_u".toList := by decide +kernel
  have n4 : "normal_vector".toList ≠ "plane_e".toList := by decide +kernel
  have n5 : "normal_vector".toList ≠ "plane_u".toList := by decide +kernel
  have n6 : "plane_e".toList ≠ "plane_u".toList := by decide +kernel
  have e1 := hget "position_center".toList (by unfold GoodKey; decide +kernel) c.center (by unfold planarDict; rw [dictGet, if_pos rfl])
  have e2 := hget "normal_vector".toList (by unfold GoodKey; decide +kernel) c.normal (by unfold planarDict; rw [dictGet, if_neg n1, dictGet, if_pos rfl])
  have e3 := hget "plane_e".toList (by unfold GoodKey; decide +kernel) c.planeE (by
    unfold planarDict; rw [dictGet, if_neg n2, dictGet, if_neg n4, dictGet, if_pos rfl])
  have e4 := hget "plane_u".toList (by unfold GoodKey; decide +kernel) c.planeU (by
    unfold planarDict; rw [dictGet, if_neg n3, dictGet, if_neg n5, dictGet, if_neg n6, dictGet, if_pos rfl])
  unfold loadPlanar writePlanar
  simp only [e1, e2, e3, e4, bind, Except.bind]

theorem load_cylinder (cs : List CylinderCfg) (hg : ∀ c ∈ cs, GoodKey c.key) (c : CylinderCfg) (h : Last CylinderCfg.key cs c) :
    loadCylinder (writeCylinders cs) c.key = (do
      let radius ← assign1 c.radius
      let center ← assign4 c.center
      let height ← assign1 c.height
      let axis ← assign4 c.axis
      let normal ← assign4 c.normal
      let opening ← assign1 c.opening
      pure ⟨radius, center, height, axis, normal, opening⟩) := by
  have hgood : ∀ x ∈ cs.map (fun c => (c.key, cylinderDict c)), GoodKey x.1 ∧ GoodDict x.2 := by
    intro x hx
    obtain ⟨d, hd, rfl⟩ := List.mem_map.1 hx
    exact ⟨hg d hd, cylinder_good d⟩
  have hget := fun p hp v => get_write _ hgood c.key p (hg c (last_mem _ _ _ h)) hp (cylinderDict c) (last_get CylinderCfg.key cylinderDict cs c h) v
  have nod := (cylinder_good c).2.1
  have e : ∀ x ∈ cylinderDict c, get (writeCylinders cs) c.key x.1 = .ok x.2 := fun x hx =>
    hget x.1 ((cylinder_good c).2.2 x hx) x.2 ((dictGet_mem _ nod x.1 x.2).2 hx)
  have e1 := e ("cylinder_radius".toList, c.radius) (by simp [cylinderDict])
  have e2 := e ("cylinder_center".toList, c.center) (by simp [cylinderDict])
  have e3 := e ("cylinder_height".toList, c.height) (by simp [cylinderDict])
  have e4 := e ("cylinder_axis".toList, c.axis) (by simp [cylinderDict])
  have e5 := e ("cylinder_normal".toList, c.normal) (by simp [cylinderDict])
  have e6 := e ("cylinder_opening_angle".toList, c.opening) (by simp [cylinderDict])
  dsimp only at e1 e2 e3 e4 e5 e6
  unfold loadCylinder
  simp only [e1, e2, e3, e4, e5, e6, bind, Except.bind]

theorem fromFile_ok {C A : Type} (key : C → Key) (means : C → A → Prop) (dict : C → List (Key × Val)) (hd : ∀ c, GoodDict (dict c)) (load : File → Key → Except PyErr A)
    (cs : List C) (hne : cs ≠ []) (hg : ∀ c ∈ cs, GoodKey (key c))
    (hl : ∀ c, Last key cs c → ∃ a, load (write (cs.map fun c => (key c, dict c))) (key c) = .ok a ∧ means c a) :
    ∃ as, fromFile load (write (cs.map fun c => (key c, dict c))) = .ok as ∧ Loaded key means cs as := by
  have hgood : ∀ x ∈ cs.map (fun c => (key c, dict c)), GoodKey x.1 ∧ GoodDict x.2 := by
    intro x hx
    obtain ⟨d, hd', rfl⟩ := List.mem_map.1 hx
    exact ⟨hg d hd', hd d⟩
  obtain ⟨m1, m2, m3⟩ := memberKeys_write _ hgood
  have hkeys : ∀ k, k ∈ memberKeys (write (cs.map fun c => (key c, dict c))) ↔ k ∈ cs.map key := by
    intro k; rw [m3, List.map_map]; rfl
  obtain ⟨y, ys, hys⟩ := List.exists_cons_of_ne_nil (write_ne_nil _ hgood (by simpa using hne))
  obtain ⟨as, h1, h2, h3⟩ := loadAll_ok (load (write (cs.map fun c => (key c, dict c)))) (memberKeys (write (cs.map fun c => (key c, dict c)))) (by
    intro k hk
    obtain ⟨c, hc, rfl⟩ := exists_last key cs k ((hkeys k).1 hk)
    obtain ⟨a, ha, -⟩ := hl c hc
    exact ⟨a, ha⟩)
  refine ⟨as, ?_, ?_, ?_, ?_, ?_⟩
  · unfold fromFile
    rw [hys] at h1 ⊢
    exact h1
  · rw [h2]; exact m1
  · rw [h2]; exact m2
  · intro k; rw [h2, hkeys]
  · intro x hx c hc hk
    obtain ⟨a, ha, hm⟩ := hl c hc
    have := h3 x hx
    rw [← hk, ha] at this
    cases this
    exact hm

/-- C76, full statement for at least one target area of each kind: after writing and loading, the tower has the configured areas, each with its configured
values, sorted by name.  Missing: towers without planar or without cylindrical areas (`C76_empty`). -/
theorem C76_roundtrip_partial (planar : List PlanarCfg) (cylinders : List CylinderCfg) (hp : planar ≠ []) (hc : cylinders ≠ [])
    (gp : ∀ c ∈ planar, GoodKey c.key) (gc : ∀ c ∈ cylinders, GoodKey c.key) (mp : ∀ c ∈ planar, ∃ a, c.Means a) (mc : ∀ c ∈ cylinders, ∃ a, c.Means a) :
    ∃ p c, tower planar cylinders = .ok (p, c) ∧ Loaded PlanarCfg.key PlanarCfg.Means planar p ∧ Loaded CylinderCfg.key CylinderCfg.Means cylinders c := by
  obtain ⟨p, p1, p2⟩ := fromFile_ok PlanarCfg.key PlanarCfg.Means planarDict planar_good loadPlanar planar hp gp (by
    intro c h
    obtain ⟨a, ha⟩ := mp c (last_mem _ _ _ h)
    refine ⟨a, ?_, ha⟩
    obtain ⟨h1, h2, h3, h4⟩ := ha
    have := load_planar planar gp c h
    rw [assign_row _ _ h1, assign_row _ _ h2, h3, h4] at this
    exact this)
  obtain ⟨c, c1, c2⟩ := fromFile_ok CylinderCfg.key CylinderCfg.Means cylinderDict cylinder_good loadCylinder cylinders hc gc (by
    intro c h
    obtain ⟨a, ha⟩ := mc c (last_mem _ _ _ h)
    refine ⟨a, ?_, ha⟩
    obtain ⟨h1, h2, h3, h4, h5, h6⟩ := ha
    have := load_cylinder cylinders gc c h
    rw [h1, assign_row _ _ h2, h3, assign_row _ _ h4, assign_row _ _ h5, h6] at this
    exact this)
  refine ⟨p, c, ?_, p2, c2⟩
  unfold tower writePlanar writeCylinders
  simp only [p1, c1, bind, Except.bind]
  rfl

/-- C76: aiming at a planar area by its configured name means its configured center. -/
theorem C76_planar_center (planar : List PlanarCfg) (cylinders : List CylinderCfg) (p : List (Key × PlanarArea)) (c : List (Key × CylinderArea))
    (hp : Loaded PlanarCfg.key PlanarCfg.Means planar p) (hc : Loaded CylinderCfg.key CylinderCfg.Means cylinders c)
    (hdis : ∀ a ∈ planar, ∀ b ∈ cylinders, a.key ≠ b.key) (cfg : PlanarCfg) (a : PlanarArea) (hl : Last PlanarCfg.key planar cfg) (hm : cfg.Means a) :
    ∃ (i : Nat) (x : Fin 4 → ℝ), dictGet (Tower.towerNames (planarAreas p) (cylinderAreas c)) cfg.key = some i ∧
      Tower.center (planarAreas p) (cylinderAreas c) i = .ok x ∧ x 0 = a.center 0 ∧ x 1 = a.center 1 ∧ x 2 = a.center 2 ∧ x 3 = 1 := by
  have hmem : cfg.key ∈ p.map (·.1) := (hp.2.2.1 _).2 (List.mem_map_of_mem (last_mem _ _ _ hl))
  obtain ⟨x, hx, hkey⟩ := List.mem_map.1 hmem
  obtain ⟨i, hi, hxi⟩ := List.getElem_of_mem hx
  have hx' : p[i]? = some x := List.getElem?_eq_some_iff.2 ⟨hi, hxi⟩
  have hmeans := hp.2.2.2 x hx cfg hl hkey.symm
  have hcen : x.2.center = a.center := by
    have h1 := assign_row _ _ hmeans.1
    rw [assign_row _ _ hm.1] at h1
    exact (Except.ok.inj h1).symm
  have hnod : ((planarAreas p).names ++ (cylinderAreas c).names).Nodup := by
    refine List.Nodup.append hp.1 hc.1 ?_
    intro k h1 h2
    obtain ⟨a', ha', rfl⟩ := List.mem_map.1 ((hp.2.2.1 k).1 h1)
    obtain ⟨b', hb', hk⟩ := List.mem_map.1 ((hc.2.2.1 _).1 h2)
    exact hdis a' ha' b' hb' hk.symm
  obtain ⟨h1, -, y, h3, h4⟩ := Tower.C30_planar (planarAreas p) (cylinderAreas c) hnod i cfg.key ⟨x.2.center⟩
    (by simp [planarAreas, hx', hkey]) (by simp [planarAreas, hx'])
  rw [← hcen]
  exact ⟨i, y, h1, h3, h4⟩

/-- C76: aiming at a cylindrical area by its configured name means the configured center moved by the radius along the normal. -/
theorem C76_cylinder_center (planar : List PlanarCfg) (cylinders : List CylinderCfg) (p : List (Key × PlanarArea)) (c : List (Key × CylinderArea))
    (hp : Loaded PlanarCfg.key PlanarCfg.Means planar p) (hc : Loaded CylinderCfg.key CylinderCfg.Means cylinders c)
    (hdis : ∀ a ∈ planar, ∀ b ∈ cylinders, a.key ≠ b.key) (cfg : CylinderCfg) (a : CylinderArea) (hl : Last CylinderCfg.key cylinders cfg) (hm : cfg.Means a) :
    ∃ (i : Nat) (x : Fin 4 → ℝ), dictGet (Tower.towerNames (planarAreas p) (cylinderAreas c)) cfg.key = some i ∧
      Tower.center (planarAreas p) (cylinderAreas c) i = .ok x ∧ (∀ k : Fin 4, k ≠ 3 → x k = a.center k + a.radius * a.normal k) ∧ x 3 = 1 := by
  have hmem : cfg.key ∈ c.map (·.1) := (hc.2.2.1 _).2 (List.mem_map_of_mem (last_mem _ _ _ hl))
  obtain ⟨x, hx, hkey⟩ := List.mem_map.1 hmem
  obtain ⟨i, hi, hxi⟩ := List.getElem_of_mem hx
  have hx' : c[i]? = some x := List.getElem?_eq_some_iff.2 ⟨hi, hxi⟩
  have hmeans := hc.2.2.2 x hx cfg hl hkey.symm
  have hcen : x.2.center = a.center := by
    have h1 := assign_row _ _ hmeans.2.1
    rw [assign_row _ _ hm.2.1] at h1
    exact (Except.ok.inj h1).symm
  have hnor : x.2.normal = a.normal := by
    have h1 := assign_row _ _ hmeans.2.2.2.2.1
    rw [assign_row _ _ hm.2.2.2.2.1] at h1
    exact (Except.ok.inj h1).symm
  have hrad : x.2.radius = a.radius := by
    have h1 := hmeans.1
    rw [hm.1] at h1
    exact (Val.scalar.inj h1).symm
  have hnod : ((planarAreas p).names ++ (cylinderAreas c).names).Nodup := by
    refine List.Nodup.append hp.1 hc.1 ?_
    intro k h1 h2
    obtain ⟨a', ha', rfl⟩ := List.mem_map.1 ((hp.2.2.1 k).1 h1)
    obtain ⟨b', hb', hk⟩ := List.mem_map.1 ((hc.2.2.1 _).1 h2)
    exact hdis a' ha' b' hb' hk.symm
  obtain ⟨h1, -, y, h3, h4, h5, -⟩ := Tower.C30_cylindrical (planarAreas p) (cylinderAreas c) hnod i cfg.key ⟨x.2.center, x.2.normal, x.2.radius⟩
    (by simp [cylinderAreas, hx', hkey]) (by simp [cylinderAreas, hx'])
  refine ⟨_, y, h1, h3, fun k hk => ?_, h4⟩
  have := h5 k hk
  dsimp only at this
  rw [hcen, hnor, hrad] at this
  linarith

/-- C76, negation: a scenario without planar target areas, or without cylindrical ones, is written but cannot be loaded. -/
theorem C76_empty : (∀ cylinders, tower [] cylinders = .error .keyError) ∧
    ∀ planar : List PlanarCfg, (∀ c ∈ planar, GoodKey c.key) → (∀ c ∈ planar, ∃ a, c.Means a) → tower planar [] = .error .keyError := by
  refine ⟨fun cylinders => rfl, fun planar gp mp => ?_⟩
  by_cases h : planar = []
  · rw [h]; rfl
  · obtain ⟨p, p1, p2⟩ := fromFile_ok PlanarCfg.key PlanarCfg.Means planarDict planar_good loadPlanar planar h gp (by
      intro c h
      obtain ⟨a, ha⟩ := mp c (last_mem _ _ _ h)
      refine ⟨a, ?_, ha⟩
      obtain ⟨h1, h2, h3, h4⟩ := ha
      have := load_planar planar gp c h
      rw [assign_row _ _ h1, assign_row _ _ h2, h3, h4] at this
      exact this)
    unfold tower writePlanar
    simp only [p1, bind, Except.bind]
    rfl

/-- C76: a center or normal without the homogeneous coordinate is written, but the file cannot be loaded. -/
theorem C76_three_coordinates (planar : List PlanarCfg) (cylinders : List CylinderCfg) (gp : ∀ c ∈ planar, GoodKey c.key) (c : PlanarCfg)
    (h : Last PlanarCfg.key planar c) (x y z : ℝ) (hc : c.center = .vec [x, y, z] ∨ c.normal = .vec [x, y, z]) :
    ∃ e, tower planar cylinders = .error e := by
  cases ht : tower planar cylinders with
  | error e => exact ⟨e, rfl⟩
  | ok t =>
    exfalso
    unfold tower at ht
    cases hp : fromFile loadPlanar (writePlanar planar) with
    | error e => simp only [hp, bind, Except.bind] at ht; cases ht
    | ok p =>
      have hgood : ∀ x ∈ planar.map (fun c => (c.key, planarDict c)), GoodKey x.1 ∧ GoodDict x.2 := by
        intro x hx
        obtain ⟨d, hd, rfl⟩ := List.mem_map.1 hx
        exact ⟨gp d hd, planar_good d⟩
      have hk : c.key ∈ memberKeys (writePlanar planar) := by
        unfold writePlanar
        rw [(memberKeys_write _ hgood).2.2, List.map_map]
        exact List.mem_map.2 ⟨c, last_mem _ _ _ h, rfl⟩
      unfold fromFile at hp
      cases hw : writePlanar planar with
      | nil => rw [hw] at hp; cases hp
      | cons a f =>
        rw [hw] at hp
        dsimp only at hp
        rw [← hw] at hp
        obtain ⟨h1, h2⟩ := loadAll_error _ _ _ hp
        rw [← h1] at hk
        obtain ⟨e, he, hek⟩ := List.mem_map.1 hk
        have h3 := h2 e he
        rw [hek, load_planar planar gp c h] at h3
        rcases hc with hc | hc
        · rw [hc] at h3; cases h3
        · rw [hc] at h3
          cases h4 : assign4 c.center with
          | error e => rw [h4] at h3; cases h3
          | ok v => rw [h4] at h3; cases h3

/-- Two planar areas and a receiver. -/
def planarExample : List PlanarCfg :=
  [⟨"target_b".toList, .vec [1, 2, 3, 1], .row [0, -1, 0, 0], .scalar 4, .scalar 5⟩, ⟨"target_a".toList, .vec [6, 7, 8, 1], .vec [0, -1, 0, 0], .scalar 9, .scalar 10⟩]
def cylinderExample : List CylinderCfg :=
  [⟨"receiver".toList, .scalar 4, .vec [0, 0, 50, 1], .scalar 6, .vec [0, 0, 1, 0], .vec [0, -1, 0, 0], .scalar 2⟩]

example : ∃ p c, tower planarExample cylinderExample = .ok (p, c) ∧ Loaded PlanarCfg.key PlanarCfg.Means planarExample p ∧
    Loaded CylinderCfg.key CylinderCfg.Means cylinderExample c := by
  refine C76_roundtrip_partial _ _ (by simp [planarExample]) (by simp [cylinderExample]) ?_ ?_ ?_ ?_
  · simp only [planarExample, List.mem_cons, List.not_mem_nil, or_false, GoodKey]
    rintro c (rfl | rfl) <;> decide +kernel
  · simp only [cylinderExample, List.mem_cons, List.not_mem_nil, or_false, GoodKey]
    rintro c rfl; decide +kernel
  · simp only [planarExample, List.mem_cons, List.not_mem_nil, or_false]
    rintro c (rfl | rfl)
    · exact ⟨⟨![1, 2, 3, 1], ![0, -1, 0, 0], 4, 5⟩, Or.inl rfl, Or.inr rfl, rfl, rfl⟩
    · exact ⟨⟨![6, 7, 8, 1], ![0, -1, 0, 0], 9, 10⟩, Or.inl rfl, Or.inl rfl, rfl, rfl⟩
  · simp only [cylinderExample, List.mem_cons, List.not_mem_nil, or_false]
    rintro c rfl
    exact ⟨⟨4, ![0, 0, 50, 1], 6, ![0, 0, 1, 0], ![0, -1, 0, 0], 2⟩, rfl, Or.inl rfl, rfl, Or.inl rfl, Or.inl rfl, rfl⟩
/-- A name configured twice: the first configuration is not the last with its name, the second is. -/
example (a b : PlanarCfg) (h : b.key = a.key) : Last PlanarCfg.key [a, b] b ∧ (a ≠ b → ¬ Last PlanarCfg.key [a, b] a) := by
  refine ⟨⟨[a], [], rfl, by simp⟩, ?_⟩
  rintro hab ⟨pre, post, e, hp⟩
  rcases pre with _ | ⟨x, pre⟩
  · simp only [List.nil_append, List.cons.injEq, true_and] at e
    exact hp b (by rw [← e]; simp) h
  · rcases pre with _ | ⟨y, pre⟩
    · simp only [List.cons_append, List.nil_append, List.cons.injEq] at e
      exact hab e.2.1.symm
    · have := congrArg List.length e
      simp at this

end Artist.TowerFile
