import Verif.Model.LightSources
import Verif.Props.Flatten
import Verif.Props.Field
/-! Helper lemmas for C73 and C74. -/
namespace Artist.LightSources
open Artist Flatten

/-- Keys usable in the file. -/
def GoodKey (k : Key) : Prop := k ≠ [] ∧ '/' ∉ k

theorem store_ok (l : List (Key × Option Val)) (h : ∀ x ∈ l, x.2 ≠ none) :
    ∃ f, store l = .ok f ∧ ∀ k, dictGet f k = (dictGet l k).join := by
  induction l with
  | nil => exact ⟨[], rfl, fun k => rfl⟩
  | cons x xs ih =>
    obtain ⟨k, v⟩ := x
    obtain ⟨f, hf, hg⟩ := ih (fun y hy => h y (List.mem_cons_of_mem _ hy))
    cases v with
    | none => exact absurd rfl (h (k, none) (by simp))
    | some v =>
      refine ⟨(k, v) :: f, by simp only [store, hf]; rfl, fun p => ?_⟩
      by_cases hp : k = p
      · simp [dictGet, hp]
      · simp [dictGet, hp, hg]

theorem store_none (l : List (Key × Option Val)) (h : ∃ x ∈ l, x.2 = none) : store l = .error .typeError := by
  induction l with
  | nil => simp at h
  | cons x xs ih =>
    obtain ⟨k, v⟩ := x
    cases v with
    | none => rfl
    | some v =>
      obtain ⟨y, hy, hn⟩ := h
      rcases List.mem_cons.1 hy with rfl | hy
      · cases hn
      · rw [store, ih ⟨y, hy, hn⟩]; rfl

theorem source_proper (c : SourceCfg) : (sourceDict c).Proper := by
  unfold sourceDict
  refine ⟨?_, ?_, ?_, ?_, ?_, ?_, ?_, ?_, ?_, ⟨?_, ?_, ?_, ?_, ?_, ?_, ?_, ?_, ?_, trivial⟩, trivial⟩ <;>
    (try simp only [Flatten.Tree.keys]) <;> decide +kernel

theorem list_keys (l : List SourceCfg) : (listDict l).keys = l.map (·.key) := by
  induction l with
  | nil => rfl
  | cons a l ih => simp [listDict, Flatten.Tree.keys, ih]

theorem list_proper (l : List SourceCfg) (hn : (l.map (·.key)).Nodup) (hg : ∀ a ∈ l, GoodKey a.key) : (listDict l).Proper := by
  induction l with
  | nil => trivial
  | cons a l ih =>
    rw [List.map_cons, List.nodup_cons] at hn
    have := hg a (by simp)
    exact ⟨this.1, this.2, by rw [list_keys]; exact hn.1, source_proper a, ih hn.2 (fun b hb => hg b (List.mem_cons_of_mem _ hb))⟩

theorem list_lookup (l : List SourceCfg) (hn : (l.map (·.key)).Nodup) (a : SourceCfg) (ha : a ∈ l) (path : List Key) :
    (listDict l).lookup (a.key :: path) = (sourceDict a).lookup path := by
  induction l with
  | nil => cases ha
  | cons b l ih =>
    rw [List.map_cons, List.nodup_cons] at hn
    rcases List.mem_cons.1 ha with rfl | ha
    · simp [listDict, Flatten.Tree.lookup]
    · have : a.key ≠ b.key := fun e => hn.1 (e ▸ List.mem_map_of_mem ha)
      simp [listDict, Flatten.Tree.lookup, this, ih hn.2 ha]

theorem get_source (l : List SourceCfg) (hn : (l.map (·.key)).Nodup) (hg : ∀ a ∈ l, GoodKey a.key) (a : SourceCfg) (ha : a ∈ l) (path : List Key)
    (hp : ∀ k ∈ path, GoodKey k) : dictGet (flatten (listDict l)) (join (a.key :: path)) = (sourceDict a).lookup path := by
  rw [C45_lookup _ (list_proper l hn hg), list_lookup l hn a ha]
  intro k hk
  rcases List.mem_cons.1 hk with rfl | hk
  · exact hg a ha
  · exact hp k hk

/-- What the dictionary of a source contains. -/
theorem source_leaves (c : SourceCfg) : leaves (sourceDict c) = [(["type".toList], some (.text c.type)), (["number_of_rays".toList], some (.count c.rays)),
    (["distribution_parameters".toList, "distribution_type".toList], some (.text c.distribution)),
    (["distribution_parameters".toList, "mean".toList], c.mean.map .num),
    (["distribution_parameters".toList, "covariance".toList], c.covariance.map .num)] := by
  simp [sourceDict, leaves]

theorem list_leaves_mem (l : List SourceCfg) (x : List Key × Option Val) :
    x ∈ leaves (listDict l) ↔ ∃ c ∈ l, ∃ y ∈ leaves (sourceDict c), x = (c.key :: y.1, y.2) := by
  induction l with
  | nil => simp [listDict, leaves]
  | cons c l ih =>
    simp only [listDict, leaves, List.mem_append, ih, List.mem_map, List.mem_cons]
    constructor
    · rintro (⟨y, hy, rfl⟩ | ⟨d, hd, y, hy, rfl⟩)
      · exact ⟨c, Or.inl rfl, y, hy, rfl⟩
      · exact ⟨d, Or.inr hd, y, hy, rfl⟩
    · rintro ⟨d, rfl | hd, y, hy, rfl⟩
      · exact Or.inl ⟨y, hy, rfl⟩
      · exact Or.inr ⟨d, hd, y, hy, rfl⟩

end Artist.LightSources
