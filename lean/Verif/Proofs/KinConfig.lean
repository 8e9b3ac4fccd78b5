import Verif.Model.KinConfig
import Verif.Props.Flatten
/-! Helper lemmas for C71. -/
namespace Artist.KinConfig
open Artist Flatten Kinematics

theorem optional_keys (l : List (Key × Option ℝ)) : ∀ k ∈ (optional l).keys, k ∈ l.map (·.1) := by
  induction l with
  | nil => simp [optional, Flatten.Tree.keys]
  | cons x xs ih =>
    obtain ⟨k, v⟩ := x
    cases v with
    | none => intro p hp; exact List.mem_cons_of_mem _ (ih p hp)
    | some v =>
      intro p hp
      rcases List.mem_cons.1 hp with rfl | hp
      · simp
      · exact List.mem_cons_of_mem _ (ih p hp)

theorem optional_proper (l : List (Key × Option ℝ)) (hn : (l.map (·.1)).Nodup) (hg : ∀ k ∈ l.map (·.1), k ≠ [] ∧ '/' ∉ k) :
    (optional l).Proper := by
  induction l with
  | nil => trivial
  | cons x xs ih =>
    obtain ⟨k, v⟩ := x
    rw [List.map_cons, List.nodup_cons] at hn
    have hg' : ∀ k ∈ xs.map (·.1), k ≠ [] ∧ '/' ∉ k := fun k hk => hg k (List.mem_cons_of_mem _ hk)
    cases v with
    | none => exact ih hn.2 hg'
    | some v =>
      have := hg k (by simp)
      exact ⟨this.1, this.2, fun h => hn.1 (optional_keys xs k h), ih hn.2 hg'⟩

theorem optional_lookup (l : List (Key × Option ℝ)) (hn : (l.map (·.1)).Nodup) (p : Key) :
    (optional l).lookup [p] = ((dictGet l p).join).map Val.num := by
  induction l with
  | nil => rfl
  | cons x xs ih =>
    obtain ⟨k, v⟩ := x
    rw [List.map_cons, List.nodup_cons] at hn
    have hnone : p = k → dictGet xs p = none := by
      rintro rfl
      rw [Option.eq_none_iff_forall_ne_some]
      intro v hv
      rw [dictGet_mem xs hn.2] at hv
      exact hn.1 (List.mem_map.2 ⟨_, hv, rfl⟩)
    by_cases h : p = k
    · subst h
      cases v with
      | none => rw [optional, ih hn.2, hnone rfl]; simp [dictGet]
      | some v => simp [optional, Flatten.Tree.lookup, dictGet]
    · have h' : k ≠ p := fun e => h e.symm
      cases v with
      | none => rw [optional, ih hn.2]; simp [dictGet, h']
      | some v => simp [optional, Flatten.Tree.lookup, dictGet, h', h, ih hn.2]

/-- Keys usable in the file. -/
def GoodKey (k : Key) : Prop := k ≠ [] ∧ '/' ∉ k

theorem deviations_proper (d : Deviations) : (deviationsDict d).Proper :=
  optional_proper _ (by simp only [List.map]; decide +kernel) (by simp only [List.map]; decide +kernel)

theorem parameters_proper (p : Parameters) : (parametersDict p).Proper :=
  optional_proper _ (by simp only [List.map]; decide +kernel) (by simp only [List.map]; decide +kernel)

theorem kinematics_proper (k : KinematicsCfg) : (kinematicsDict k).Proper := by
  unfold kinematicsDict
  cases k.deviations with
  | none => refine ⟨?_, ?_, ?_, ?_, ?_, ?_, trivial⟩ <;> (try simp only [Flatten.Tree.keys]) <;> decide +kernel
  | some d => 
    refine ⟨?_, ?_, ?_, ?_, ?_, ?_, ?_, ?_, ?_, deviations_proper d, trivial⟩ <;> (try simp only [Flatten.Tree.keys]) <;> decide +kernel

theorem actuator_proper (a : ActuatorCfg) : (actuatorDict a).Proper := by
  unfold actuatorDict
  cases a.parameters with
  | none => refine ⟨?_, ?_, ?_, ?_, ?_, ?_, ?_, ?_, ?_, trivial⟩ <;> (try simp only [Flatten.Tree.keys]) <;> decide +kernel
  | some d => 
    refine ⟨?_, ?_, ?_, ?_, ?_, ?_, ?_, ?_, ?_, ?_, ?_, ?_, parameters_proper d, trivial⟩ <;> (try simp only [Flatten.Tree.keys]) <;> decide +kernel

theorem actuatorList_keys (l : List ActuatorCfg) : (actuatorListDict l).keys = l.map (·.key) := by
  induction l with
  | nil => rfl
  | cons a l ih => simp [actuatorListDict, Flatten.Tree.keys, ih]

theorem actuatorList_proper (l : List ActuatorCfg) (hn : (l.map (·.key)).Nodup) (hg : ∀ a ∈ l, GoodKey a.key) : (actuatorListDict l).Proper := by
  induction l with
  | nil => trivial
  | cons a l ih =>
    rw [List.map_cons, List.nodup_cons] at hn
    have := hg a (by simp)
    exact ⟨this.1, this.2, by rw [actuatorList_keys]; exact hn.1, actuator_proper a, ih hn.2 (fun b hb => hg b (List.mem_cons_of_mem _ hb))⟩

theorem actuatorList_lookup (l : List ActuatorCfg) (hn : (l.map (·.key)).Nodup) (a : ActuatorCfg) (ha : a ∈ l) (path : List Key) :
    (actuatorListDict l).lookup (a.key :: path) = (actuatorDict a).lookup path := by
  induction l with
  | nil => cases ha
  | cons b l ih =>
    rw [List.map_cons, List.nodup_cons] at hn
    rcases List.mem_cons.1 ha with rfl | ha
    · simp [actuatorListDict, Flatten.Tree.lookup]
    · have : a.key ≠ b.key := fun e => hn.1 (e ▸ List.mem_map_of_mem ha)
      simp [actuatorListDict, Flatten.Tree.lookup, this, ih hn.2 ha]

theorem heliostat_proper (h : HeliostatCfg) (hn : (h.actuators.map (·.key)).Nodup) (hg : ∀ a ∈ h.actuators, GoodKey a.key) :
    (heliostatDict h).Proper := by
  refine ⟨?_, ?_, ?_, ?_, ?_, ?_, kinematics_proper _, ?_, ?_, ?_, actuatorList_proper _ hn hg, trivial⟩ <;>
    (try simp only [Flatten.Tree.keys]) <;> decide +kernel

section
variable (h : HeliostatCfg) (hn : (h.actuators.map (·.key)).Nodup) (hg : ∀ a ∈ h.actuators, GoodKey a.key)
include hn hg

theorem get_kinematics (path : List Key) (hp : ∀ k ∈ path, GoodKey k) :
    dictGet (write h) (join ("kinematics".toList :: path)) = (kinematicsDict h.kinematics).lookup path := by
  rw [write, C45_lookup _ (heliostat_proper h hn hg)]
  · have h1 : "kinematics".toList ≠ "position".toList := by decide +kernel
    cases path <;> simp [heliostatDict, Flatten.Tree.lookup, h1]
  · intro k hk
    rcases List.mem_cons.1 hk with rfl | hk
    · decide +kernel
    · exact hp k hk

theorem get_actuator (a : ActuatorCfg) (ha : a ∈ h.actuators) (path : List Key) (hp : ∀ k ∈ path, GoodKey k) :
    dictGet (write h) (join ("actuator".toList :: a.key :: path)) = (actuatorDict a).lookup path := by
  rw [write, C45_lookup _ (heliostat_proper h hn hg)]
  · have h1 : "actuator".toList ≠ "position".toList := by decide +kernel
    have h2 : "actuator".toList ≠ "kinematics".toList := by decide +kernel
    unfold heliostatDict
    rw [Flatten.Tree.lookup, if_neg h1, Flatten.Tree.lookup, if_neg h2, Flatten.Tree.lookup, if_pos rfl]
    exact actuatorList_lookup _ hn a ha path
  · intro k hk
    rcases List.mem_cons.1 hk with rfl | hk
    · decide +kernel
    · rcases List.mem_cons.1 hk with rfl | hk
      · exact hg a ha
      · exact hp k hk

theorem get_position : dictGet (write h) (join ["position".toList]) = some (.vec h.position) := by
  rw [write, C45_lookup _ (heliostat_proper h hn hg)]
  · unfold heliostatDict
    rw [Flatten.Tree.lookup, if_pos rfl]
  · decide +kernel
end

end Artist.KinConfig
