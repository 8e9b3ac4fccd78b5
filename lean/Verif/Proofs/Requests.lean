import Verif.Model.Requests
import Verif.Proofs.Mapping
import Verif.Proofs.AimFlux
import Verif.Props.Sampler
/-! Helper lemmas for C101. -/
namespace Artist.Requests
open Artist Mapping

section
variable {N D : Type} [DecidableEq N]

/-- the requests in the order of the rows -/
def order (names : List N) (mapping : List (Entry N D)) : List (Entry N D) :=
  names.flatMap fun n => mapping.filter fun e => decide (e.heliostat = n)

def counts (names : List N) (mapping : List (Entry N D)) : List Nat :=
  names.map fun n => (mapping.filter fun e => decide (e.heliostat = n)).length

theorem indexMapping_explicit (lightOk : D → Bool) (names : List N) (hn : names.Nodup)
    (targetIndex : List (N × Nat)) (mapping : List (Entry N D))
    (hv : ∀ e ∈ mapping, e.heliostat ∈ names → (∃ t, dictGet targetIndex e.target = some t) ∧ lightOk e.light = true) :
    indexMapping lightOk names targetIndex mapping = .ok ⟨counts names mapping,
      (order names mapping).map (fun e => some ((value targetIndex e).1 : Int)),
      (order names mapping).map (fun e => some e.light)⟩ := by
  set filtered := mapping.filter (fun e => decide (e.heliostat ∈ names)) with hfil
  have hmem : ∀ e ∈ filtered, e.heliostat ∈ names ∧ (dictGet targetIndex e.target).isSome := by
    intro e he
    have h := List.mem_filter.1 he
    have h1 : e.heliostat ∈ names := by simpa using h.2
    obtain ⟨⟨t, ht⟩, _⟩ := hv e h.1 h1
    exact ⟨h1, by simp [ht]⟩
  have hnoerr : (filtered.any (fun e => (dictGet targetIndex e.target).isNone || !lightOk e.light)) = false := by
    rw [List.any_eq_false]
    intro e he
    have h := List.mem_filter.1 he
    obtain ⟨⟨t, ht⟩, hl⟩ := hv e h.1 (by simpa using h.2)
    simp [ht, hl]
  have hff : ∀ name ∈ names, filtered.filter (fun e => decide (e.heliostat = name)) =
      mapping.filter (fun e => decide (e.heliostat = name)) := by
    intro name hname
    rw [hfil, List.filter_filter]
    apply List.filter_congr
    intro e _
    by_cases h : e.heliostat = name
    · simp [h, hname]
    · simp [h]
  obtain ⟨mask, data, hc, hlen, hmask, hdata⟩ := collect_spec hn targetIndex filtered hmem (List.replicate names.length 0)
    (by simp) []
  have hdata' : ∀ name, (dictGet data name).getD [] =
      (filtered.filter (fun e => decide (e.heliostat = name))).map (value targetIndex) := by
    intro name; rw [hdata]; simp [dictGet]
  have hflat : names.flatMap (fun n => (dictGet data n).getD []) =
      (names.flatMap (fun n => filtered.filter (fun e => decide (e.heliostat = n)))).map (value targetIndex) := by
    rw [List.map_flatMap]
    exact List.flatMap_congr fun n _ => hdata' n
  have hcount : (names.flatMap (fun n => (dictGet data n).getD [])).length = filtered.length := by
    rw [hflat, List.length_map, length_flatMap_filter names hn filtered (fun e he => (hmem e he).1)]
  have hw := writeAll_spec data names (List.replicate filtered.length none) (List.replicate filtered.length none) [] [] rfl
    (by simp) (by rw [hcount]; simp)
  simp only [List.length_nil, List.nil_append] at hw
  have hmask' : mask = names.map (fun n => (filtered.filter (fun e => decide (e.heliostat = n))).length) := by
    apply List.ext_getElem?
    intro i
    by_cases hi : i < names.length
    · have := hmask i names[i] 0 (List.getElem?_eq_getElem hi) (by simp [hi])
      rw [this]; simp [hi]
    · rw [List.getElem?_eq_none (by omega), List.getElem?_eq_none (by simp; omega)]
  have hord : names.flatMap (fun n => filtered.filter (fun e => decide (e.heliostat = n))) = order names mapping :=
    List.flatMap_congr fun n h => hff n h
  have hcnt : mask = counts names mapping := by
    rw [hmask']
    apply List.map_congr_left
    intro n h
    rw [hff n h]
  rw [hflat, hord] at hw
  simp only [indexMapping, ← hfil, hnoerr, hc, hw]
  simp [hcnt, Function.comp_def, value]

theorem sum_counts (names : List N) (mapping : List (Entry N D)) : (counts names mapping).sum = (order names mapping).length := by
  unfold counts order; rw [List.length_flatMap]

theorem repeat_counts {A : Type} (data : N → A) (names : List N) (mapping : List (Entry N D)) :
    repeatInterleave (names.map data) (counts names mapping) = (order names mapping).map fun e => data e.heliostat := by
  unfold counts order
  induction names with
  | nil => rfl
  | cons n names ih =>
    rw [List.map_cons, List.map_cons, repeatInterleave, ih, List.flatMap_cons, List.map_append]
    congr 1
    symm
    rw [List.eq_replicate_iff]
    refine ⟨by rw [List.length_map], ?_⟩
    intro a ha
    rw [List.mem_map] at ha
    obtain ⟨e, he, rfl⟩ := ha
    have := (List.mem_filter.1 he).2
    rw [of_decide_eq_true this]

theorem order_perm (names : List N) (hn : names.Nodup) (mapping : List (Entry N D)) :
    (order names mapping).Perm (mapping.filter fun e => decide (e.heliostat ∈ names)) := by
  unfold order
  induction names with
  | nil => simp
  | cons n names ih =>
    rw [List.nodup_cons] at hn
    rw [List.flatMap_cons]
    refine ((ih hn.2).append_left _).trans ?_
    have h := List.filter_append_perm (fun e : Entry N D => decide (e.heliostat = n)) (mapping.filter fun e => decide (e.heliostat ∈ n :: names))
    rw [List.filter_filter, List.filter_filter] at h
    refine List.Perm.trans (List.Perm.of_eq ?_) h
    congr 1
    · apply List.filter_congr
      intro e _
      by_cases he : e.heliostat = n <;> simp [he]
    · apply List.filter_congr
      intro e _
      by_cases he : e.heliostat = n
      · simp [he, hn.1]
      · simp [he]

theorem mem_order (names : List N) (mapping : List (Entry N D)) (e : Entry N D) :
    e ∈ order names mapping ↔ e ∈ mapping ∧ e.heliostat ∈ names := by
  unfold order
  simp only [List.mem_flatMap, List.mem_filter, decide_eq_true_eq]
  constructor
  · rintro ⟨n, hn, he, rfl⟩; exact ⟨he, hn⟩
  · rintro ⟨he, hn⟩; exact ⟨_, hn, he, rfl⟩

theorem countP_counts (names : List N) (mapping : List (Entry N D)) :
    (counts names mapping).countP (fun c => decide (c > 0)) = names.countP fun n => mapping.any fun e => decide (e.heliostat = n) := by
  unfold counts
  rw [List.countP_map]
  apply List.countP_congr
  intro n _
  simp only [Function.comp_apply, decide_eq_true_eq, gt_iff_lt, List.length_pos_iff_exists_mem, List.mem_filter, List.any_eq_true]

end

theorem foldl_none {B : Type} [Add B] (l : List (Option B)) (a : Option B) (h : a = none ∨ none ∈ l) : l.foldl AimFlux.addOption a = none := by
  induction l generalizing a with
  | nil => simpa using h
  | cons x l ih =>
    rw [List.foldl_cons]
    apply ih
    rcases h with rfl | h
    · left; cases x <;> rfl
    · rw [List.mem_cons] at h
      rcases h with h | h
      · left; subst h; cases a <;> rfl
      · right; exact h

end Artist.Requests
